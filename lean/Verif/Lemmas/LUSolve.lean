import Verif.Lemmas.LU
import Mathlib.LinearAlgebra.Matrix.ToLinearEquiv
import Mathlib.LinearAlgebra.Matrix.NonsingularInverse
import Mathlib.LinearAlgebra.FiniteDimensional.Lemmas
import Mathlib.LinearAlgebra.Dimension.Constructions

namespace Verif.Arrays
open Verif.Spec Finset
variable {K : Type _} [Field K] [LinearOrder K] [IsStrictOrderedRing K]

/-- the unit lower factor stored in `A` -/
def Lf (A : List (List K)) (i l : ℕ) : K := if l < i then mget A i l else if l = i then 1 else 0
/-- the upper factor stored in `A` -/
def Uf (A : List (List K)) (l k : ℕ) : K := if l ≤ k then mget A l k else 0

theorem sum_Lf (A : List (List K)) (i n : ℕ) (u : ℕ → K) :
    ∑ l ∈ range n, Lf A i l * u l = ∑ l ∈ range (min i n), mget A i l * u l + if i < n then u i else 0 := by
  induction n with
  | zero => simp
  | succ n ih =>
    rw [sum_range_succ, ih]
    rcases lt_trichotomy i n with h | h | h
    · have e : Lf A i n = 0 := by simp [Lf, show ¬ n < i by omega, show ¬ n = i by omega]
      rw [e, if_pos h, if_pos (show i < n + 1 by omega), show min i n = i by omega, show min i (n + 1) = i by omega]; ring
    · subst h
      have e : Lf A i i = 1 := by simp [Lf]
      rw [e, if_neg (lt_irrefl i), if_pos (show i < i + 1 by omega), min_self, show min i (i + 1) = i by omega]
      ring
    · have e : Lf A i n = mget A i n := by simp [Lf, h]
      rw [e, if_neg (show ¬ i < n by omega), if_neg (show ¬ i < n + 1 by omega), show min i n = n by omega,
        show min i (n + 1) = n + 1 by omega, sum_range_succ]
      ring

theorem LUInv.factor {N j : ℕ} {M : ℕ → ℕ → K} {A : List (List K)} {ρ : Equiv.Perm ℕ} (h : LUInv N j M A ρ)
    {i k n : ℕ} (hi : i < N) (hk : k < j) (hn : k < n) : M (ρ i) k = ∑ l ∈ range n, Lf A i l * Uf A l k := by
  rw [h.done k hk i hi, sum_Lf]
  split_ifs with h1 h2 h2
  · rw [show min i k = i by omega, show min i n = i by omega]
    congr 1
    · exact sum_congr rfl fun l hl => by
        have : l < i := by simpa using hl
        simp only [Uf, if_pos (show l ≤ k by omega)]
    · simp only [Uf, if_pos h1]
  · omega
  all_goals
    have e : ∑ l ∈ range (min i n), mget A i l * Uf A l k = ∑ l ∈ range (k + 1), mget A i l * Uf A l k := by
      symm
      refine sum_subset (fun l hl => ?_) fun l _ hl => ?_
      · simp at hl ⊢; omega
      · have : ¬ l ≤ k := by simp at hl; omega
        simp [Uf, this]
    rw [e, sum_range_succ, show min i k = k by omega]
    have e2 : ∑ l ∈ range k, mget A i l * Uf A l k = ∑ l ∈ range k, mget A i l * mget A l k :=
      sum_congr rfl fun l hl => by
        have : l < k := by simpa using hl
        simp only [Uf, if_pos (show l ≤ k by omega)]
    have e3 : Uf A k k = mget A k k := by simp [Uf]
    have e4 : Uf A i k = 0 := by simp [Uf, h1]
    rw [e2, e3]
    simp [e4]

/-- a failed pivot search exhibits a nonzero vector in the kernel -/
theorem singular_of_fail {N j : ℕ} (hj : j < N) {M B : List (List K)} {ρ : Equiv.Perm ℕ} {u : ℕ → K}
    (h : LUInv N j (mget M) B ρ) (c1 : ∀ i < j, mget M (ρ i) j = ∑ l ∈ range i, mget B i l * u l + u i)
    (c2 : ∀ i, j ≤ i → i < N → mget M (ρ i) j = ∑ l ∈ range j, mget B i l * u l) :
    (toMatrix N N M).det = 0 := by
  rw [← Matrix.exists_mulVec_eq_zero_iff]
  -- the j × (j+1) upper block
  set U : ℕ → ℕ → K := fun l k => if k = j then u l else Uf B l k with hU
  have hfac : ∀ i < N, ∀ k < j + 1, mget M (ρ i) k = ∑ l ∈ range j, Lf B i l * U l k := by
    intro i hi k hk
    by_cases hkj : k = j
    · subst hkj
      simp only [hU, if_pos rfl]
      rw [sum_Lf]
      split_ifs with hik
      · rw [show min i k = i by omega]; exact c1 i hik
      · rw [show min i k = k by omega, add_zero]; exact c2 i (by omega) hi
    · simp only [hU, if_neg hkj]
      exact h.factor hi (by omega) (by omega)
  let f : (Fin (j + 1) → K) →ₗ[K] (Fin j → K) := Matrix.mulVecLin (Matrix.of fun (l : Fin j) (k : Fin (j + 1)) => U l k)
  have hker : LinearMap.ker f ≠ ⊥ := LinearMap.ker_ne_bot_of_finrank_lt (by simp)
  obtain ⟨x, hx, hx0⟩ := (Submodule.ne_bot_iff _).mp hker
  have hx' : ∀ l : Fin j, ∑ k : Fin (j + 1), U l k * x k = 0 := fun l => by
    have := congrFun (LinearMap.mem_ker.mp hx) l
    simpa [f, Matrix.mulVec, dotProduct] using this
  set y : ℕ → K := fun k => if hk : k < j + 1 then x ⟨k, hk⟩ else 0 with hy
  have hyx : ∀ k : Fin (j + 1), y k = x k := fun k => by simp only [hy]; rw [dif_pos k.2]
  refine ⟨fun k : Fin N => y k, ?_, ?_⟩
  · intro h0
    apply hx0
    ext k
    have := congrFun h0 ⟨k, by omega⟩
    simp only [Pi.zero_apply] at this ⊢
    rw [← hyx]; exact this
  · ext i
    simp only [Matrix.mulVec, dotProduct, Pi.zero_apply]
    have hi' : ρ.symm i < N := by rw [h.perm]; simp
    have e1 : ∑ k : Fin N, toMatrix N N M i k * y k = ∑ k ∈ range N, mget M i k * y k :=
      Fin.sum_univ_eq_sum_range (fun k => mget M i k * y k) N
    rw [e1, ← Finset.sum_subset (s₁ := range (j + 1)) (by simp; omega) (fun k _ hk => by
      have : ¬ k < j + 1 := by simpa using hk
      simp only [hy, dif_neg this, mul_zero])]
    have e2 : ∑ k ∈ range (j + 1), mget M i k * y k =
        ∑ k ∈ range (j + 1), (∑ l ∈ range j, Lf B (ρ.symm i) l * U l k) * y k := by
      refine sum_congr rfl fun k hk => ?_
      rw [← hfac _ hi' k (by simpa using hk)]; simp
    rw [e2]
    simp only [sum_mul]
    rw [sum_comm]
    refine sum_eq_zero fun l hl => ?_
    have hl' : l < j := by simpa using hl
    have := hx' ⟨l, hl'⟩
    simp only [mul_assoc]
    rw [← mul_sum, ← Fin.sum_univ_eq_sum_range (fun k => U l k * y k)]
    simp only [hyx]
    rw [this, mul_zero]

/-! ### substitution -/

theorem pivPerm_lt (piv : List ℕ) (N : ℕ) (hp : ∀ i < N, i ≤ piv.getD i 0 ∧ piv.getD i 0 < N) (n m i : ℕ) (hn : n ≤ m)
    (hm : m ≤ N) (hi : i < n) : pivPerm piv m i = pivPerm piv n i := by
  induction m, hn using Nat.le_induction with
  | base => rfl
  | succ m hnm ih =>
    rw [pivPerm, Equiv.Perm.mul_apply, Equiv.swap_apply_of_ne_of_ne (by omega) (by have := hp m (by omega); omega),
      ih (by omega)]

theorem forward_spec {N : ℕ} (A : List (List K)) (piv : List ℕ) (hp : ∀ i < N, i ≤ piv.getD i 0 ∧ piv.getD i 0 < N)
    (b : List K) (hb : b.length = N) (n : ℕ) (hn : n ≤ N) :
    let y := (List.range n).foldl (luForward A piv) b
    y.length = N ∧ (∀ i, n ≤ i → i < N → y.getD i 0 = b.getD (pivPerm piv n i) 0) ∧
    ∀ i < n, y.getD i 0 = b.getD (pivPerm piv n i) 0 - ∑ l ∈ range i, mget A i l * y.getD l 0 := by
  induction n with
  | zero => exact ⟨hb, by simp [pivPerm], by simp⟩
  | succ n ih =>
    obtain ⟨h1, h2, h3⟩ := ih (by omega)
    rw [List.range_succ, List.foldl_append]
    set y := (List.range n).foldl (luForward A piv) b
    simp only [List.foldl_cons, List.foldl_nil]
    obtain ⟨q1, q2⟩ := hp n (by omega)
    set p := piv.getD n 0 with hpd
    set tot := (List.range n).foldl (fun tot j => tot - mget A n j * (y.set p (y.getD n 0)).getD j 0) (y.getD p 0) with ht
    have e : luForward A piv y n = (y.set p (y.getD n 0)).set n tot := rfl
    have hg : ∀ i, (luForward A piv y n).getD i 0 = if i = n then tot else if i = p then y.getD n 0 else y.getD i 0 := by
      intro i
      rw [e, getD_set', getD_set', List.length_set]
      by_cases a : i = n
      · rw [if_pos ⟨a.symm, by omega⟩, if_pos a]
      · rw [if_neg (by omega), if_neg a]
        by_cases c : i = p
        · rw [if_pos ⟨c.symm, by omega⟩, if_pos c]
        · rw [if_neg (by omega), if_neg c]
    have ht' : tot = b.getD (pivPerm piv (n + 1) n) 0 - ∑ l ∈ range n, mget A n l * y.getD l 0 := by
      rw [ht, foldl_sub_range, pivPerm, Equiv.Perm.mul_apply, ← hpd, Equiv.swap_apply_left, h2 p q1 q2]
      congr 1
      refine sum_congr rfl fun l hl => ?_
      have : l < n := by simpa using hl
      rw [getD_set', if_neg (by omega)]
    have hlow : ∀ l < n, (luForward A piv y n).getD l 0 = y.getD l 0 := fun l hl => by
      rw [hg, if_neg (by omega), if_neg (by omega)]
    refine ⟨by rw [e]; simp [h1], fun i i1 i2 => ?_, fun i hi => ?_⟩
    · rw [hg, if_neg (by omega), pivPerm, Equiv.Perm.mul_apply, ← hpd]
      split_ifs with c
      · rw [c, Equiv.swap_apply_right, h2 n le_rfl (by omega)]
      · rw [Equiv.swap_apply_of_ne_of_ne (by omega) c, h2 i (by omega) i2]
    · rcases Nat.lt_succ_iff_lt_or_eq.mp hi with hi' | rfl
      · rw [hlow i hi', h3 i hi', pivPerm_lt piv N hp n (n + 1) i (by omega) hn hi']
        congr 1
        refine sum_congr rfl fun l hl => ?_
        rw [hlow l (by simp at hl; omega)]
      · rw [hg, if_pos rfl, ht']
        congr 1
        refine sum_congr rfl fun l hl => ?_
        rw [hlow l (by simpa using hl)]

theorem foldl_sub_range' {M : Type _} [AddCommGroup M] (s n : ℕ) (f : ℕ → M) (a : M) :
    (List.range' s n).foldl (fun t i => t - f i) a = a - ∑ i ∈ Ico s (s + n), f i := by
  induction n with
  | zero => simp
  | succ n ih =>
    rw [List.range'_1_concat, List.foldl_append, ih, ← add_assoc, Finset.sum_Ico_succ_top (by omega)]; simp [sub_sub]

theorem back_spec {N : ℕ} (A : List (List K)) (hpiv : ∀ k < N, mget A k k ≠ 0) (y : List K) :
    ∀ (n : ℕ), n ≤ N → ∀ x : List K, x.length = N → (∀ i < n, x.getD i 0 = y.getD i 0) →
      (∀ i, n ≤ i → i < N → ∑ k ∈ Ico i N, mget A i k * x.getD k 0 = y.getD i 0) →
      ∃ r, (List.range n).reverse.foldlM (luBack A N) x = .ok r ∧ r.length = N ∧
        ∀ i < N, ∑ k ∈ Ico i N, mget A i k * r.getD k 0 = y.getD i 0 := by
  intro n
  induction n with
  | zero => intro _ x hx _ h2; exact ⟨x, rfl, hx, fun i hi => h2 i (by omega) hi⟩
  | succ n ih =>
    intro hn x hx h1 h2
    rw [List.range_succ, List.reverse_append, List.reverse_singleton, List.singleton_append, List.foldlM_cons]
    have hp := hpiv n (by omega)
    set q := (x.getD n 0 - ∑ k ∈ Ico (n + 1) N, mget A n k * x.getD k 0) / mget A n n with hq
    have e : luBack A N x n = .ok (x.set n q) := by
      simp only [luBack, foldl_sub_range', show n + 1 + (N - (n + 1)) = N by omega, pdiv_ok hp, Py.ok_bind, Py.pure_eq, hq]
    rw [e, Py.ok_bind]
    have hg : ∀ i, (x.set n q).getD i 0 = if i = n then q else x.getD i 0 := fun i => by
      rw [getD_set']
      by_cases a : i = n
      · rw [if_pos ⟨a.symm, by omega⟩, if_pos a]
      · rw [if_neg (by omega), if_neg a]
    refine ih (by omega) _ (by simp [hx]) (fun i hi => by rw [hg, if_neg (by omega), h1 i (by omega)]) fun i i1 i2 => ?_
    by_cases hi : i = n
    · subst hi
      rw [Finset.sum_eq_sum_Ico_succ_bot i2, hg, if_pos rfl]
      have : ∑ k ∈ Ico (i + 1) N, mget A i k * (x.set i q).getD k 0 = ∑ k ∈ Ico (i + 1) N, mget A i k * x.getD k 0 :=
        sum_congr rfl fun k hk => by rw [hg, if_neg (by simp at hk; omega)]
      rw [this, hq, h1 i (by omega)]
      field_simp
      ring
    · rw [← h2 i (by omega) i2]
      exact sum_congr rfl fun k hk => by rw [hg, if_neg (by simp at hk; omega)]

theorem solve_from_lu_spec {N : ℕ} {M : ℕ → ℕ → K} {A : List (List K)} {piv : List ℕ}
    (hp : ∀ i < N, i ≤ piv.getD i 0 ∧ piv.getD i 0 < N) (h : LUInv N N M A (pivPerm piv N)) (b : List K)
    (hb : b.length = N) :
    ∃ x, solve_from_lu A piv b = .ok x ∧ x.length = N ∧ ∀ i < N, ∑ k ∈ range N, M i k * x.getD k 0 = b.getD i 0 := by
  obtain ⟨f1, f2, f3⟩ := forward_spec A piv hp b hb N le_rfl
  set y := (List.range N).foldl (luForward A piv) b with hy
  obtain ⟨x, x1, x2, x3⟩ := back_spec A h.piv y N le_rfl y f1 (fun _ _ => rfl) (fun i i1 i2 => by omega)
  refine ⟨x, by simp only [solve_from_lu, hb]; exact x1, x2, ?_⟩
  have key : ∀ i < N, ∑ k ∈ range N, M (pivPerm piv N i) k * x.getD k 0 = b.getD (pivPerm piv N i) 0 := by
    intro i hi
    have e1 : ∑ k ∈ range N, M (pivPerm piv N i) k * x.getD k 0 =
        ∑ k ∈ range N, (∑ l ∈ range N, Lf A i l * Uf A l k) * x.getD k 0 :=
      sum_congr rfl fun k hk => by
        have : k < N := by simpa using hk
        rw [h.factor hi this this]
    rw [e1]
    simp only [sum_mul]
    rw [sum_comm]
    have e2 : ∀ l ∈ range N, ∑ k ∈ range N, Lf A i l * Uf A l k * x.getD k 0 = Lf A i l * y.getD l 0 := by
      intro l hl
      have hl' : l < N := by simpa using hl
      simp only [mul_assoc]
      rw [← mul_sum, ← x3 l hl']
      congr 1
      symm
      have : ∑ k ∈ range N, Uf A l k * x.getD k 0 = ∑ k ∈ Ico l N, Uf A l k * x.getD k 0 := by
        symm
        refine sum_subset (fun k hk => ?_) fun k _ hk => ?_
        · simp at hk ⊢; omega
        · have : ¬ l ≤ k := by
            intro hlk; apply hk; rw [mem_Ico]; exact ⟨hlk, by simp_all⟩
          simp [Uf, this]
      rw [this]
      refine sum_congr rfl fun k hk => ?_
      simp only [Uf, if_pos (Finset.mem_Ico.mp hk).1]
    rw [sum_congr rfl e2, sum_Lf, if_pos hi, show min i N = i by omega]
    rw [f3 i hi]; ring
  intro i hi
  have hi' : (pivPerm piv N).symm i < N := by rw [h.perm]; simpa using hi
  have := key _ hi'
  simpa using this

theorem mulVec_eq_of_sums {N : ℕ} {A : List (List K)} {x b : List K}
    (h : ∀ i < N, ∑ k ∈ range N, mget A i k * x.getD k 0 = b.getD i 0) :
    (toMatrix N N A).mulVec (toVec N x) = toVec N b := by
  ext i
  simp only [Matrix.mulVec, dotProduct, toVec]
  rw [← h i i.2]
  exact Fin.sum_univ_eq_sum_range (fun k => mget A i k * x.getD k 0) N

/-- `inplace_LU` succeeds exactly on nonsingular square matrices. -/
theorem inplace_LU_ok_or {N : ℕ} {A : List (List K)} (hA : IsMat N N A) {ipivot : List ℕ} (hp : ipivot.length = N) :
    ((toMatrix N N A).det ≠ 0 ∧ ∃ A' piv, inplace_LU A ipivot = .ok (A', piv) ∧ piv.length = N ∧
      (∀ i < N, i ≤ piv.getD i 0 ∧ piv.getD i 0 < N) ∧ LUInv N N (mget A) A' (pivPerm piv N)) ∨
    ((toMatrix N N A).det = 0 ∧ inplace_LU A ipivot = .error .valueError) := by
  rcases inplace_LU_spec hA hp with ⟨A', piv, e, h1, h2, h3⟩ | ⟨e, j, hj, ρ, B, u, h1, h2, h3⟩
  · refine Or.inl ⟨?_, A', piv, e, h1, h2, h3⟩
    have hs : Function.Surjective (toMatrix N N A).mulVec := by
      intro v
      obtain ⟨x, -, -, hx⟩ := solve_from_lu_spec h2 h3 (List.ofFn v) (by simp)
      refine ⟨toVec N x, ?_⟩
      rw [mulVec_eq_of_sums hx]
      ext i; simp [toVec]
    have := Matrix.mulVec_surjective_iff_isUnit.mp hs
    rw [Matrix.isUnit_iff_isUnit_det] at this
    exact this.ne_zero
  · exact Or.inr ⟨singular_of_fail hj h1 h2 h3, e⟩

end Verif.Arrays
