import Verif.Model.Chebyshev
import Verif.Spec.Chebyshev
import Verif.Lemmas.ListIdx
import Verif.Lemmas.ListSum

namespace Verif.Chebyshev
open Polynomial Verif.Spec Finset
variable {K : Type _} [Field K] [DecidableEq K]

local notation "𝕋" => Polynomial.Chebyshev.T

/-- partial sums of a series given by a coefficient function -/
noncomputable def ser (f : ℕ → K) (n : ℕ) : K[X] := ∑ i ∈ range n, C (f i) * 𝕋 K (i : ℤ)

theorem chebSeries_eq_ser (c : List K) (N : ℕ) (h : c.length ≤ N) : chebSeries c = ser (fun i => c.getD i 0) N := by
  have h1 : chebSeries c = ser (fun i => c.getD i 0) c.length := by
    unfold chebSeries ser
    rw [← Fin.sum_univ_eq_sum_range (fun i => C (c.getD i 0) * 𝕋 K (i : ℤ))]
    refine Finset.sum_congr rfl fun i _ => ?_
    simp
  rw [h1]
  unfold ser
  refine Finset.sum_subset (by simpa using h) fun i _ hi => ?_
  have : c.length ≤ i := by simpa using hi
  simp only [List.getD_eq_default _ _ this]; simp

theorem ser_succ (f : ℕ → K) (n : ℕ) : ser f (n + 1) = ser f n + C (f n) * 𝕋 K (n : ℤ) := by
  simp [ser, sum_range_succ]
@[simp] theorem ser_zero (f : ℕ → K) : ser f 0 = 0 := by simp [ser]
theorem ser_congr {f g : ℕ → K} {n : ℕ} (h : ∀ i < n, f i = g i) : ser f n = ser g n :=
  Finset.sum_congr rfl fun i hi => by rw [h i (by simpa using hi)]

theorem clenshaw_eq (x : K) (c : List K) : ∀ c0 c1 : K,
    let r := clenshaw (2 * x) c0 c1 c.reverse
    r.1 + r.2 * x = (ser (fun i => c.getD i 0) c.length + C c0 * 𝕋 K (c.length : ℤ) +
      C c1 * 𝕋 K (c.length + 1 : ℤ)).eval x := by
  induction c using List.reverseRecOn with
  | nil => intro c0 c1; simp [clenshaw]
  | append_singleton l a ih =>
    intro c0 c1
    simp only [List.reverse_append, List.reverse_cons, List.reverse_nil, List.nil_append, List.cons_append, clenshaw]
    rw [ih]
    simp only [List.length_append, List.length_cons, List.length_nil, zero_add]
    rw [ser_succ]
    have h1 : ser (fun i => (l ++ [a]).getD i 0) l.length = ser (fun i => l.getD i 0) l.length :=
      ser_congr fun i hi => by rw [getD_append', if_pos hi]
    have h2 : (l ++ [a]).getD l.length 0 = a := by simp
    rw [h1, h2]
    have h3 := Polynomial.Chebyshev.T_add_two K (l.length : ℤ)
    push_cast
    rw [show ((l.length : ℤ) + 1 + 1) = l.length + 2 by ring, h3]
    simp only [eval_add, eval_mul, eval_sub, eval_C, eval_X, eval_ofNat]
    ring

theorem chebval_ok (x : K) (c : List K) (offset scale : K) (h : c ≠ []) :
    chebval x c offset scale = .ok ((chebSeries c).eval (offset + scale * x)) := by
  rcases List.eq_nil_or_concat c with rfl | ⟨l, c1, rfl⟩
  · exact absurd rfl h
  rcases List.eq_nil_or_concat l with rfl | ⟨l, c0, rfl⟩
  · simp [chebval, chebSeries]
  rw [chebSeries_eq_ser _ _ le_rfl]
  have h2 : chebval x (l.concat c0 |>.concat c1) offset scale =
      .ok ((clenshaw (2 * (offset + scale * x)) c0 c1 l.reverse).1 +
        (clenshaw (2 * (offset + scale * x)) c0 c1 l.reverse).2 * (offset + scale * x)) := by
    unfold chebval
    simp only [List.concat_eq_append, List.reverse_append, List.reverse_cons, List.reverse_nil, List.nil_append,
      List.cons_append]
    cases hl : l.reverse with
    | nil => simp [clenshaw]
    | cons a b => rfl
  rw [h2]
  congr 1
  have := clenshaw_eq (offset + scale * x) l c0 c1
  simp only at this
  rw [this]
  simp only [List.concat_eq_append, List.length_append, List.length_cons, List.length_nil, zero_add]
  rw [ser_succ, ser_succ]
  congr 1
  congr 1
  · congr 1
    · exact ser_congr fun i hi => by rw [getD_append', if_pos (by simp; omega), getD_append', if_pos hi]
    · simp
  · simp

/-! ### derivative -/

variable [CharZero K]

theorem T_der_rec (j : ℕ) :
    derivative (𝕋 K ((j + 3 : ℕ) : ℤ)) = C (((j + 3 + (j + 3) : ℕ)) : K) * 𝕋 K ((j + 2 : ℕ) : ℤ) +
      C (((j + 3 : ℕ) : K) / ((j + 3 : ℕ) - 2 : K)) * derivative (𝕋 K ((j + 1 : ℕ) : ℤ)) := by
  rw [Polynomial.Chebyshev.T_derivative_eq_U, Polynomial.Chebyshev.T_derivative_eq_U]
  have h := Polynomial.Chebyshev.U_eq_two_mul_T_add_U K (j : ℤ)
  have e1 : (((j + 3 : ℕ) : ℤ) - 1) = j + 2 := by push_cast; ring
  have e2 : (((j + 1 : ℕ) : ℤ) - 1) = j := by push_cast; ring
  have e3 : ((j + 2 : ℕ) : ℤ) = j + 2 := by push_cast; ring
  rw [e1, e2, e3, h]
  have hj : ((j + 3 : ℕ) - 2 : K) = ((j + 1 : ℕ) : K) := by push_cast; ring
  rw [hj]
  have hc : C (((j + 3 : ℕ) : K) / ((j + 1 : ℕ) : K)) * ((((j + 1 : ℕ) : ℤ) : K[X])) = (((j + 3 : ℕ) : ℤ) : K[X]) := by
    rw [show ((((j + 1 : ℕ) : ℤ) : K[X])) = C ((j + 1 : ℕ) : K) by simp, ← C_mul,
      div_mul_cancel₀ _ (by exact_mod_cast Nat.succ_ne_zero j)]
    simp [map_ofNat]
  rw [← mul_assoc, hc]
  simp only [Nat.cast_add, Nat.cast_ofNat, map_add, map_natCast, map_ofNat, Int.cast_add, Int.cast_natCast, Int.cast_ofNat]
  ring


theorem ser_update {f g : ℕ → K} {n k : ℕ} (δ : K) (hk : k < n) (h : ∀ i < n, f i = if i = k then g i + δ else g i) :
    ser f n = ser g n + C δ * 𝕋 K (k : ℤ) := by
  have : ∀ i ∈ range n, C (f i) * 𝕋 K (i : ℤ) = C (g i) * 𝕋 K (i : ℤ) + if i = k then C δ * 𝕋 K (i : ℤ) else 0 := by
    intro i hi
    rw [h i (by simpa using hi)]
    split_ifs <;> simp [add_mul]
  unfold ser
  rw [Finset.sum_congr rfl this, Finset.sum_add_distrib, Finset.sum_ite_eq' ]
  simp [hk]

theorem chebderLoop_spec (i : ℕ) : ∀ (c der : List K), i + 2 < c.length → i + 1 < der.length →
    let r := chebderLoop i (c, der)
    r.1.length = c.length ∧ r.2.length = der.length ∧ (∀ k, i + 2 ≤ k → r.2.getD k 0 = der.getD k 0) ∧
    derivative (ser (fun k => c.getD k 0) (i + 3)) = derivative (ser (fun k => r.1.getD k 0) 3) +
      ∑ k ∈ Ico 2 (i + 2), C (r.2.getD k 0) * 𝕋 K (k : ℤ) := by
  induction i with
  | zero => intro c der h1 h2; simp [chebderLoop]
  | succ i ih =>
    intro c der h1 h2
    simp only [chebderLoop]
    set der1 := der.set (i + 3 - 1) (((i + 3 + (i + 3) : ℕ) : K) * c.getD (i + 3) 0) with hder
    set c1 := c.modify (i + 3 - 2) (· + ((i + 3 : ℕ) : K) * c.getD (i + 3) 0 / (((i + 3 : ℕ) : K) - 2)) with hc
    obtain ⟨l1, l2, l3, l4⟩ := ih c1 der1 (by simp [hc]; omega) (by simp [hder]; omega)
    refine ⟨by rw [l1]; simp [hc], by rw [l2]; simp [hder], fun k hk => ?_, ?_⟩
    · rw [l3 k (by omega), hder, getD_set', if_neg (by omega)]
    · have e1 : ser (fun k => c1.getD k 0) (i + 3) = ser (fun k => c.getD k 0) (i + 3) +
          C (((i + 3 : ℕ) : K) * c.getD (i + 3) 0 / (((i + 3 : ℕ) : K) - 2)) * 𝕋 K ((i + 1 : ℕ) : ℤ) := by
        refine ser_update _ (by omega) fun j hj => ?_
        rw [hc, getD_modify']
        by_cases hji : j = i + 1
        · subst hji; rw [if_pos ⟨by omega, by omega⟩, if_pos rfl]
        · rw [if_neg (by omega), if_neg hji]
      have e2 : (chebderLoop i (c1, der1)).2.getD (i + 2) 0 = ((i + 3 + (i + 3) : ℕ) : K) * c.getD (i + 3) 0 := by
        rw [l3 _ le_rfl, hder, getD_set', if_pos ⟨by omega, by omega⟩]
      rw [show i + 1 + 3 = (i + 3) + 1 by ring, ser_succ, show i + 1 + 2 = (i + 2) + 1 by ring,
        Finset.sum_Ico_succ_top (by omega), ← add_assoc, ← l4, e1, e2]
      simp only [derivative_add, derivative_mul, derivative_C, zero_mul, zero_add]
      rw [T_der_rec]
      have e3 : C (((i + 3 : ℕ) : K) * c.getD (i + 3) 0 / (((i + 3 : ℕ) : K) - 2)) =
        C (c.getD (i + 3) 0) * C (((i + 3 : ℕ) : K) / ((i + 3 : ℕ) - 2 : K)) := by rw [← C_mul]; congr 1; ring
      rw [e3, C_mul]
      ring

theorem scale_getD (scl : K) (n : ℕ) (c : List K) (h : n ≤ c.length) (j : ℕ) :
    (if scl ≠ 1 then (List.range n).foldl (fun c j => c.modify j (· * scl)) c else c).getD j 0 =
      if j < n then c.getD j 0 * scl else c.getD j 0 := by
  split_ifs with h1 h2 h2
  · rw [getD_foldl_modify_range n j c (fun _ => (· * scl)) 0 h, if_pos h2]
  · rw [getD_foldl_modify_range n j c (fun _ => (· * scl)) 0 h, if_neg h2]
  · simp only [ne_eq, not_not] at h1; rw [h1, mul_one]
  · rfl

theorem scale_length (scl : K) (n : ℕ) (c : List K) :
    (if scl ≠ 1 then (List.range n).foldl (fun c j => c.modify j (· * scl)) c else c).length = c.length := by
  split_ifs
  · exact length_foldl_modify _ _ (fun _ => (· * scl))
  · rfl

theorem scale_ser (scl : K) (n : ℕ) (c : List K) (h : n ≤ c.length) :
    ser (fun j => (if scl ≠ 1 then (List.range n).foldl (fun c j => c.modify j (· * scl)) c else c).getD j 0) n =
      C scl * ser (fun j => c.getD j 0) n := by
  simp only [scale_getD scl n c h]
  unfold ser
  rw [Finset.mul_sum]
  refine Finset.sum_congr rfl fun i hi => ?_
  simp only [if_pos (Finset.mem_range.mp hi), C_mul]; ring

theorem chebderPass_spec (scl : K) (n : ℕ) (hn : 1 ≤ n) (c der : List K) (hc : n + 1 ≤ c.length) (hd : n ≤ der.length) :
    let r := chebderPass scl n c der
    r.1.length = der.length ∧ r.2.length = c.length ∧
    ser (fun k => r.1.getD k 0) n = C scl * derivative (ser (fun k => c.getD k 0) (n + 1)) := by
  simp only [chebderPass]
  have hs := scale_ser scl (n + 1) c hc
  have hl := scale_length scl (n + 1) c
  set c1 := (if scl ≠ 1 then (List.range (n + 1)).foldl (fun c j => c.modify j (· * scl)) c else c)
  have key : C scl * derivative (ser (fun k => c.getD k 0) (n + 1)) = derivative (ser (fun k => c1.getD k 0) (n + 1)) := by
    rw [hs]; simp
  rw [key]
  obtain rfl | hn2 := Nat.eq_or_lt_of_le hn
  · simp only [chebderLoop, Nat.sub_self, show (1 - 2 : ℕ) = 0 by rfl]
    refine ⟨by simp, hl, ?_⟩
    simp [ser, sum_range_succ, getD_set', show 0 < der.length by omega]
  · obtain ⟨i, rfl⟩ : ∃ i, n = i + 2 := ⟨n - 2, by omega⟩
    rw [show i + 2 - 2 = i by omega]
    obtain ⟨l1, l2, l3, l4⟩ := chebderLoop_spec i c1 der (by omega) (by omega)
    refine ⟨by rw [if_pos (by omega)]; simp [l2], by rw [l1, hl], ?_⟩
    rw [show i + 2 + 1 = i + 3 by ring, l4, if_pos (by omega)]
    have : ∀ f : ℕ → K, ser f (i + 2) = C (f 0) + C (f 1) * X + ∑ k ∈ Ico 2 (i + 2), C (f k) * 𝕋 K (k : ℤ) := by
      intro f
      unfold ser
      rw [range_eq_Ico, Finset.sum_eq_sum_Ico_succ_bot (by omega), Finset.sum_eq_sum_Ico_succ_bot (by omega)]
      simp; ring
    rw [this]
    have hlen : 1 < der.length := by omega
    congr 1
    · simp [ser, sum_range_succ, getD_set', l2, hlen, show 0 < der.length by omega, Polynomial.Chebyshev.T_two, map_ofNat]
      ring
    · refine Finset.sum_congr rfl fun k hk => ?_
      have : 2 ≤ k := by simp at hk; omega
      rw [getD_set', if_neg (by omega), getD_set', if_neg (by omega)]

theorem chebderPasses_spec (scl : K) (m : ℕ) : ∀ (n : ℕ), m < n → ∀ (c der : List K), n ≤ c.length → n - 1 ≤ der.length →
    let r := chebderPasses scl m n c der
    n - m ≤ r.1.length ∧
    ser (fun k => r.1.getD k 0) (n - m) = C (scl ^ m) * derivative^[m] (ser (fun k => c.getD k 0) n) := by
  induction m with
  | zero => intro n _ c der h1 h2; simp [chebderPasses, h1]
  | succ m ih =>
    intro n hn c der h1 h2
    simp only [chebderPasses]
    obtain ⟨p1, p2, p3⟩ := chebderPass_spec scl (n - 1) (by omega) c der (by omega) h2
    obtain ⟨q1, q2⟩ := ih (n - 1) (by omega) (chebderPass scl (n - 1) c der).1 (chebderPass scl (n - 1) c der).2
      (by omega) (by omega)
    rw [show n - 1 - m = n - (m + 1) by omega] at q1 q2
    refine ⟨q1, ?_⟩
    rw [q2, p3, show n - 1 + 1 = n by omega, Function.iterate_succ_apply, iterate_derivative_C_mul, pow_succ, C_mul]
    ring

theorem iterate_derivative_ser_zero (f : ℕ → K) (n m : ℕ) (h : n ≤ m) : derivative^[m] (ser f n) = 0 := by
  rcases Nat.eq_zero_or_pos n with rfl | hn
  · simp
  refine iterate_derivative_eq_zero (lt_of_lt_of_le ?_ h)
  unfold ser
  refine lt_of_le_of_lt (natDegree_sum_le_of_forall_le (n := n - 1) _ _ fun i hi => ?_) (by omega)
  refine (natDegree_C_mul_le _ _).trans ?_
  rw [Polynomial.Chebyshev.natDegree_T]
  simp at hi ⊢; omega

theorem chebder_eq (c : List K) (m : ℕ) (scl : K) :
    chebSeries (chebder c m scl) = C (scl ^ m) * derivative^[m] (chebSeries c) := by
  unfold chebder
  dsimp only
  split_ifs with h1 h2
  · subst h1; simp
  · rw [chebSeries_eq_ser c _ le_rfl, iterate_derivative_ser_zero _ _ _ h2]; simp [chebSeries]
  · push Not at h2
    obtain ⟨q1, q2⟩ := chebderPasses_spec scl m c.length h2 c (List.replicate (c.length - 1) 0) le_rfl (by simp)
    rw [chebSeries_eq_ser _ (c.length - m) (by simp), chebSeries_eq_ser c _ le_rfl, ← q2]
    exact ser_congr fun i hi => by rw [getD_take', if_pos hi]

theorem chebder_length (c : List K) (m : ℕ) (scl : K) : (chebder c m scl).length = c.length - m := by
  unfold chebder
  dsimp only
  split_ifs with h1 h2
  · simp [h1]
  · simp; omega
  · push Not at h2
    obtain ⟨q1, q2⟩ := chebderPasses_spec scl m c.length h2 c (List.replicate (c.length - 1) 0) le_rfl (by simp)
    simp; omega

/-! ### integral -/

theorem T_int_rec (j : ℕ) :
    C (1 / (2 * (((j + 2 : ℕ) : K) + 1))) * derivative (𝕋 K ((j + 3 : ℕ) : ℤ)) -
      C (1 / (2 * (((j + 2 : ℕ) : K) - 1))) * derivative (𝕋 K ((j + 1 : ℕ) : ℤ)) = 𝕋 K ((j + 2 : ℕ) : ℤ) := by
  rw [Polynomial.Chebyshev.T_derivative_eq_U, Polynomial.Chebyshev.T_derivative_eq_U]
  have h := Polynomial.Chebyshev.two_mul_T_eq_U_sub_U K (j : ℤ)
  have e1 : (((j + 3 : ℕ) : ℤ) - 1) = j + 2 := by push_cast; ring
  have e2 : (((j + 1 : ℕ) : ℤ) - 1) = j := by push_cast; ring
  have e3 : ((j + 2 : ℕ) : ℤ) = j + 2 := by push_cast; ring
  rw [e1, e2, e3]
  have c1 : (((j + 3 : ℕ) : ℤ) : K[X]) = C ((j + 3 : ℕ) : K) := by simp [map_ofNat]
  have c2 : (((j + 1 : ℕ) : ℤ) : K[X]) = C ((j + 1 : ℕ) : K) := by simp
  have h3 : ((j : K) + 3) ≠ 0 := by exact_mod_cast Nat.succ_ne_zero (j + 2)
  have h1 : ((j : K) + 1) ≠ 0 := by exact_mod_cast Nat.succ_ne_zero j
  rw [c1, c2, ← mul_assoc, ← mul_assoc, ← C_mul, ← C_mul]
  have d1 : 1 / (2 * (((j + 2 : ℕ) : K) + 1)) * ((j + 3 : ℕ) : K) = 1 / 2 := by
    push_cast
    rw [show (j : K) + 2 + 1 = j + 3 by ring]
    field_simp
  have d2 : 1 / (2 * (((j + 2 : ℕ) : K) - 1)) * ((j + 1 : ℕ) : K) = 1 / 2 := by
    push_cast
    rw [show (j : K) + 2 - 1 = j + 1 by ring]
    field_simp
  rw [d1, d2, ← mul_sub, ← h, ← mul_assoc, show (2 : K[X]) = C 2 from (map_ofNat C 2).symm, ← C_mul]
  norm_num

theorem length_chebintFold (c0 tmp : List K) (l : List ℕ) : (l.foldl (chebintLoop c0) tmp).length = tmp.length := by
  induction l generalizing tmp with
  | nil => rfl
  | cons a l ih => simp [ih, chebintLoop]

theorem chebintFold_spec (c0 tmp : List K) (h0 : derivative (ser (fun i => tmp.getD i 0) 3) = ser (fun i => c0.getD i 0) 2)
    (k : ℕ) (hk : k + 3 ≤ tmp.length) :
    let r := ((List.range k).map (· + 2)).foldl (chebintLoop c0) tmp
    (∀ i, k + 2 < i → r.getD i 0 = tmp.getD i 0) ∧
    derivative (ser (fun i => r.getD i 0) (k + 3)) = ser (fun i => c0.getD i 0) (k + 2) := by
  induction k with
  | zero => exact ⟨fun i _ => by simp, by simpa using h0⟩
  | succ k ih =>
    obtain ⟨i1, i2⟩ := ih (by omega)
    simp only [List.range_succ, List.map_append, List.foldl_append, List.map_cons, List.map_nil, List.foldl_cons,
      List.foldl_nil]
    set r := ((List.range k).map (· + 2)).foldl (chebintLoop c0) tmp with hr
    have hlen : r.length = tmp.length := length_chebintFold _ _ _
    have hget : ∀ i, (chebintLoop c0 r (k + 2)).getD i 0 =
        if i = k + 1 then r.getD i 0 - c0.getD (k + 2) 0 / (2 * (((k + 2 : ℕ) : K) - 1))
        else if i = k + 3 then c0.getD (k + 2) 0 / (2 * (((k + 2 : ℕ) : K) + 1)) else r.getD i 0 := by
      intro i
      simp only [chebintLoop, getD_modify', getD_set', List.length_set]
      by_cases a : i = k + 1
      · subst a; rw [if_pos ⟨by omega, by omega⟩, if_neg (by omega), if_pos rfl]
      · rw [if_neg (by omega), if_neg a]
        by_cases b : i = k + 3
        · subst b; rw [if_pos ⟨by omega, by omega⟩, if_pos rfl]
        · rw [if_neg (by omega), if_neg b]
    refine ⟨fun i hi => ?_, ?_⟩
    · rw [hget, if_neg (by omega), if_neg (by omega), i1 i (by omega)]
    · rw [show k + 1 + 3 = (k + 3) + 1 by ring, ser_succ, show k + 1 + 2 = (k + 2) + 1 by ring,
        ser_succ (fun i => c0.getD i 0), ← i2]
      have e1 : ser (fun i => (chebintLoop c0 r (k + 2)).getD i 0) (k + 3) = ser (fun i => r.getD i 0) (k + 3) +
          C (-(c0.getD (k + 2) 0 / (2 * (((k + 2 : ℕ) : K) - 1)))) * 𝕋 K ((k + 1 : ℕ) : ℤ) := by
        refine ser_update _ (by omega) fun i hi => ?_
        rw [hget]
        split_ifs
        · ring
        · omega
        · rfl
      rw [e1, hget, if_neg (by omega), if_pos rfl]
      simp only [derivative_add, derivative_mul, derivative_C, zero_mul, zero_add]
      conv_rhs => rw [← T_int_rec k]
      rw [div_eq_mul_one_div (c0.getD (k + 2) 0) (2 * (((k + 2 : ℕ) : K) - 1)),
        div_eq_mul_one_div (c0.getD (k + 2) 0) (2 * (((k + 2 : ℕ) : K) + 1)), C_neg, C_mul, C_mul]
      ring

/-- what one integration pass does to the series -/
theorem chebintPass_spec (lbnd scl : K) (cnt : ℕ) (c0 tmp : List K) (n : ℕ) (hl : tmp.length = c0.length)
    (hn : n + cnt + 1 ≤ c0.length) (hL : 2 ≤ c0.length)
    (z0 : ∀ i, n ≤ i → c0.getD i 0 = 0) (z1 : ∀ i, n < i → tmp.getD i 0 = 0) :
    ∃ c1 tmp1 n1, chebintPasses lbnd scl (cnt + 1) c0 tmp n = chebintPasses lbnd scl cnt c1 tmp1 n1 ∧
      c1.length = c0.length ∧ tmp1.length = c0.length ∧ n1 + cnt ≤ c0.length ∧
      (∀ i, n1 ≤ i → c1.getD i 0 = 0) ∧ (∀ i, n1 < i → tmp1.getD i 0 = 0) ∧
      derivative (chebSeries c1) = C scl * chebSeries c0 ∧ (chebSeries c1).eval lbnd = 0 := by
  rw [chebintPasses]
  have hs := scale_ser scl n c0 (by omega)
  have hg := scale_getD scl n c0 (by omega)
  have hsl := scale_length scl n c0
  set c := (if scl ≠ 1 then (List.range n).foldl (fun c j => c.modify j (· * scl)) c0 else c0)
  have hz : ∀ i, n ≤ i → c.getD i 0 = 0 := fun i hi => by rw [hg, if_neg (by omega), z0 i hi]
  have serlen : ∀ (l : List K) (k : ℕ), (∀ i, k ≤ i → l.getD i 0 = 0) → chebSeries l = ser (fun i => l.getD i 0) k := by
    intro l k hk
    rw [chebSeries_eq_ser l (max l.length k) (le_max_left _ _)]
    unfold ser
    symm
    refine Finset.sum_subset (by simp) fun i _ hi => ?_
    have : k ≤ i := by simpa using hi
    simp only [hk i this]; simp
  have hc0 : C scl * chebSeries c0 = ser (fun i => c.getD i 0) n := by rw [hs, serlen c0 n z0]
  dsimp only
  by_cases hb : n = 1 ∧ c.getD 0 0 = 0
  · rw [if_pos hb]
    refine ⟨c, tmp, n, rfl, hsl, hl, by omega, hz, z1, ?_⟩
    have h0 : chebSeries c = 0 := by
      rw [serlen c n hz, hb.1, ser_succ]; simp only [hb.2]; simp
    have : ser (fun i => c.getD i 0) n = 0 := by rw [← serlen c n hz, h0]
    rw [hc0, this, h0]; simp
  · rw [if_neg hb, if_neg (by omega)]
    set tmp1 := tmp.set 1 (c.getD 0 0) with ht1
    set tmp2 := (if n > 1 then tmp1.set 2 (1 / 4 * c.getD 1 0) else tmp1) with ht2
    have hl2 : tmp2.length = c0.length := by rw [ht2]; split_ifs <;> simp [ht1, hl]
    set tmp3 := ((List.range (n - 2)).map (· + 2)).foldl (chebintLoop c) tmp2 with ht3
    have hl3 : tmp3.length = c0.length := by rw [ht3, length_chebintFold, hl2]
    have main : (∀ i, n < i → tmp3.getD i 0 = 0) ∧
        derivative (ser (fun i => tmp3.getD i 0) (n + 1)) = ser (fun i => c.getD i 0) n := by
      rcases Nat.lt_or_ge n 2 with h2 | h2
      · have e3 : tmp3 = tmp1 := by
          rw [ht3, show n - 2 = 0 by omega, ht2, if_neg (by omega)]; rfl
        rw [e3]
        refine ⟨fun i hi => ?_, ?_⟩
        · rw [ht1, getD_set']
          split_ifs with h
          · exact hz 0 (by omega)
          · exact z1 i hi
        · interval_cases n
          · simp [ser]
          · simp [ser, sum_range_succ, ht1, getD_set', show 1 < tmp.length by omega]
      · obtain ⟨k, rfl⟩ : ∃ k, n = k + 2 := ⟨n - 2, by omega⟩
        have hh : ∀ i, tmp2.getD i 0 = if i = 1 then c.getD 0 0 else if i = 2 then 1 / 4 * c.getD 1 0 else tmp.getD i 0 := by
          intro i
          rw [ht2, if_pos (by omega), getD_set', ht1, getD_set', List.length_set]
          by_cases a : i = 1
          · subst a; rw [if_neg (by omega), if_pos ⟨rfl, by omega⟩, if_pos rfl]
          · by_cases b : i = 2
            · subst b; rw [if_pos ⟨rfl, by omega⟩, if_neg (by omega), if_pos rfl]
            · rw [if_neg (by omega), if_neg (by omega), if_neg a, if_neg b]
        have := chebintFold_spec c tmp2 (by
          simp only [ser, sum_range_succ, Finset.range_zero, Finset.sum_empty, hh, zero_add, C_mul]
          generalize c.getD 0 0 = a0
          generalize c.getD 1 0 = a1
          have : C (1 / 4 : K) * 4 = 1 := by rw [show (4 : K[X]) = C 4 from (map_ofNat C 4).symm, ← C_mul]; norm_num
          simp [Polynomial.Chebyshev.T_two, map_ofNat] at this ⊢
          linear_combination (C a1 * X) * this) k (by omega)
        simp only [show k + 2 - 2 = k by omega] at ht3
        rw [← ht3] at this
        obtain ⟨m1, m2⟩ := this
        refine ⟨fun i hi => ?_, m2⟩
        rw [m1 i hi, hh, if_neg (by omega), if_neg (by omega), z1 i hi]
    obtain ⟨m1, m2⟩ := main
    rw [chebval_ok lbnd tmp3 0 1 (by intro h; rw [h] at hl3; simp at hl3; omega)]
    simp only [Py.ok_bind, zero_add, one_mul]
    set val := (chebSeries tmp3).eval lbnd with hval
    have hfin : ser (fun i => (tmp3.modify 0 (· - val)).getD i 0) (n + 1) = ser (fun i => tmp3.getD i 0) (n + 1) +
        C (-val) * 𝕋 K ((0 : ℕ) : ℤ) := by
      refine ser_update _ (by omega) fun i _ => ?_
      rw [getD_modify']
      by_cases a : i = 0
      · subst a; rw [if_pos ⟨rfl, by omega⟩, if_pos rfl]; ring
      · rw [if_neg (by omega), if_neg a]
    have hz4 : ∀ i, n + 1 ≤ i → (tmp3.modify 0 (· - val)).getD i 0 = 0 := fun i hi => by
      rw [getD_modify', if_neg (by omega), m1 i (by omega)]
    have hz5 : ∀ i, n + 1 ≤ i → tmp3.getD i 0 = 0 := fun i hi => m1 i (by omega)
    refine ⟨_, c, n + 1, rfl, by simp [hl3], hsl, by omega, hz4, fun i hi => hz i (by omega), ?_, ?_⟩
    · rw [serlen _ _ hz4, hfin, hc0, ← m2]; simp
    · rw [serlen _ _ hz4, hfin, ← serlen _ _ hz5]; simp [hval]

theorem chebintPasses_spec (lbnd scl : K) (cnt : ℕ) : ∀ (c0 tmp : List K) (n : ℕ), tmp.length = c0.length →
    n + cnt ≤ c0.length → 2 ≤ c0.length →
    (∀ i, n ≤ i → c0.getD i 0 = 0) → (∀ i, n < i → tmp.getD i 0 = 0) →
    ∃ r, chebintPasses lbnd scl cnt c0 tmp n = .ok r ∧ r.length = c0.length ∧
      derivative^[cnt] (chebSeries r) = C (scl ^ cnt) * chebSeries c0 ∧
      ∀ k < cnt, (derivative^[k] (chebSeries r)).eval lbnd = 0 := by
  induction cnt with
  | zero => intro c0 tmp n _ _ _ _ _; exact ⟨c0, rfl, rfl, by simp, by simp⟩
  | succ cnt ih =>
    intro c0 tmp n hl hn hL z0 z1
    obtain ⟨c1, tmp1, n1, e, l1, l2, l3, a0, a1, d1, d2⟩ := chebintPass_spec lbnd scl cnt c0 tmp n hl (by omega) hL z0 z1
    obtain ⟨r, r1, r2, r3, r4⟩ := ih c1 tmp1 n1 (by omega) (by omega) (by omega) a0 a1
    refine ⟨r, by rw [e, r1], by omega, ?_, fun k hk => ?_⟩
    · rw [Function.iterate_succ_apply', r3, derivative_mul, derivative_C, zero_mul, zero_add, d1, ← mul_assoc, ← C_mul,
        pow_succ]
    · rcases Nat.lt_succ_iff_lt_or_eq.mp hk with h | rfl
      · exact r4 k h
      · rw [r3]; simp [d2]

theorem chebint_spec (c : List K) (m : ℕ) (lbnd scl : K) (h : ¬ (c = [] ∧ m = 1)) :
    ∃ r, chebint c m lbnd scl = .ok r ∧ derivative^[m] (chebSeries r) = C (scl ^ m) * chebSeries c ∧
      ∀ k < m, (derivative^[k] (chebSeries r)).eval lbnd = 0 := by
  unfold chebint
  rw [if_neg (by omega)]
  rcases Nat.eq_zero_or_pos m with rfl | hm
  · exact ⟨c, by simp, by simp, by simp⟩
  rw [if_neg (by omega)]
  by_cases hz : c.length = 1 ∧ c.getD 0 0 = 0
  · rw [if_pos hz]
    obtain ⟨a, rfl⟩ : ∃ a, c = [a] := List.length_eq_one_iff.mp hz.1
    have ha : a = 0 := by simpa using hz.2
    subst ha
    refine ⟨[0], rfl, ?_, ?_⟩ <;> simp [chebSeries]
  · rw [if_neg hz]
    have hcl : 2 ≤ c.length + m := by
      rcases Nat.eq_zero_or_pos c.length with h0 | h0
      · have : m ≠ 1 := fun h1 => h ⟨List.length_eq_zero_iff.mp h0, h1⟩
        omega
      · omega
    obtain ⟨r, r1, r2, r3, r4⟩ := chebintPasses_spec lbnd scl m (c ++ List.replicate m 0)
      (List.replicate (c.length + m) 0) c.length (by simp) (by simp) (by simpa using hcl)
      (fun i hi => by rw [getD_append', if_neg (by omega), getD_replicate']) (fun i hi => getD_replicate' _ _ _)
    refine ⟨r, by simpa using r1, ?_, r4⟩
    rw [r3]
    congr 1
    rw [chebSeries_eq_ser _ (c.length + m) (by simp), chebSeries_eq_ser c (c.length + m) (by simp)]
    refine ser_congr fun i hi => ?_
    rw [getD_append']
    split_ifs with h1
    · rfl
    · rw [getD_replicate', List.getD_eq_default _ _ (by omega)]

end Verif.Chebyshev
