import Verif.Model.NelderMead
import Verif.Lemmas.ListIdx
import Verif.Props.Interp
import Verif.Props.Translate
import Verif.Props.Bracketing
import Verif.Props.Splines

/-!
# C32: `nelder_mead` never loses its best point
-/

namespace Verif.NelderMead
open Verif.Translate Verif.Seq

section
variable {K : Type _} [Field K] [LinearOrder K]

instance : Std.Total (tupleLE (K := K)) := ⟨fun a b => by
  unfold tupleLE
  rcases lt_trichotomy a.1 b.1 with h | h | h
  · exact .inl (.inl h)
  · rcases le_total a.2 b.2 with h' | h'
    · exact .inl (.inr ⟨h, h'⟩)
    · exact .inr (.inr ⟨h.symm, h'⟩)
  · exact .inr (.inl h)⟩

instance : IsTrans (K × List K) tupleLE := ⟨fun a b c h1 h2 => by
  unfold tupleLE at *
  rcases h1 with h1 | ⟨h1, h1'⟩ <;> rcases h2 with h2 | ⟨h2, h2'⟩
  · exact .inl (h1.trans h2)
  · exact .inl (h2 ▸ h1)
  · exact .inl (h1 ▸ h2)
  · exact .inr ⟨h1.trans h2, h1'.trans h2'⟩⟩

/-- sorting keeps values and vertices together -/
theorem sortPoints_spec (sim : List (List K)) (fsim : List K) (h : fsim.length ≤ sim.length) :
    (sortPoints sim fsim).2.zip (sortPoints sim fsim).1 = (fsim.zip sim).insertionSort tupleLE ∧
    (sortPoints sim fsim).2.Pairwise (· ≤ ·) ∧ (sortPoints sim fsim).1.length = fsim.length ∧
    (sortPoints sim fsim).2.length = fsim.length := by
  have hL : ((fsim.zip sim).insertionSort tupleLE).map Prod.fst = fsim.insertionSort (· ≤ ·) := by
    refine List.Perm.eq_of_pairwise' (r := (· ≤ ·)) ?_ (List.pairwise_insertionSort _ _) ?_
    · rw [List.pairwise_map]
      refine (List.pairwise_insertionSort tupleLE (fsim.zip sim)).imp ?_
      rintro a b (h | h)
      · exact h.le
      · exact h.1.le
    · refine ((List.perm_insertionSort _ _).map _).trans ?_
      rw [List.map_fst_zip h]
      exact (List.perm_insertionSort _ _).symm
  refine ⟨?_, List.pairwise_insertionSort _ _, ?_, ?_⟩
  · simp only [sortPoints]
    rw [← hL]
    exact (List.zip_of_prod rfl rfl).symm
  · simp only [sortPoints, List.length_map, List.length_insertionSort, List.length_zip]; omega
  · simp [sortPoints]

/-- The state invariant: `N+1` vertices with `N+1` values in increasing order; every stored (vertex, value) pair was evaluated; every
logged value is what the objective gives at the logged point, and none is below the first stored value. -/
structure Inv (f : List K → Py K) (N : ℕ) (s : St K) : Prop where
  len1 : s.sim.length = N + 1
  len2 : s.fsim.length = N + 1
  sorted : s.fsim.Pairwise (· ≤ ·)
  pairs : ∀ p ∈ s.fsim.zip s.sim, (p.2, p.1) ∈ s.log
  log : ∀ p ∈ s.log, f p.1 = .ok p.2
  best : ∀ p ∈ s.log, s.fsim.getD 0 0 ≤ p.2

theorem head_le {l : List K} (h : l.Pairwise (· ≤ ·)) {a : K} (ha : a ∈ l) : l.getD 0 0 ≤ a := by
  cases l with
  | nil => simp at ha
  | cons b t =>
    simp only [List.getD_cons_zero]
    rcases List.mem_cons.mp ha with rfl | h'
    · exact le_rfl
    · exact List.rel_of_pairwise_cons h h'

theorem replaceLast_inv {f : List K → Py K} {N : ℕ} {s : St K} (h : Inv f N s) (hN : 0 < N) {x : List K} {fx : K}
    {extra : List (List K × K)} (hx : (x, fx) ∈ extra) (he : ∀ p ∈ extra, f p.1 = .ok p.2)
    (hb : ∀ p ∈ extra, s.fsim.getD 0 0 ≤ p.2 ∨ fx ≤ p.2) :
    Inv f N (replaceLast s x fx (s.log ++ extra)) ∧ (replaceLast s x fx (s.log ++ extra)).fsim.getD 0 0 ≤ s.fsim.getD 0 0 := by
  have l1 := h.len1; have l2 := h.len2
  obtain ⟨z1, z2, z3, z4⟩ := sortPoints_spec (s.sim.set (s.sim.length - 1) x) (s.fsim.set (s.fsim.length - 1) fx) (by simp; omega)
  have hf0 : (replaceLast s x fx (s.log ++ extra)).fsim.getD 0 0 ≤ s.fsim.getD 0 0 := by
    refine head_le z2 ?_
    simp only [sortPoints, List.mem_insertionSort]
    refine List.mem_iff_getElem.mpr ⟨0, by simp; omega, ?_⟩
    rw [List.getElem_set_ne (by omega), List.getD_eq_getElem _ _ (by omega)]
  have hfx : (replaceLast s x fx (s.log ++ extra)).fsim.getD 0 0 ≤ fx := by
    refine head_le z2 ?_
    simp only [sortPoints, List.mem_insertionSort]
    exact List.mem_iff_getElem.mpr ⟨s.fsim.length - 1, by simp; omega, by simp⟩
  refine ⟨⟨?_, ?_, z2, ?_, ?_, ?_⟩, hf0⟩
  · exact z3.trans (by simp; omega)
  · exact z4.trans (by simp; omega)
  · intro p hp
    have hp : p ∈ (s.fsim.set (s.fsim.length - 1) fx).zip (s.sim.set (s.sim.length - 1) x) := by
      rw [← List.mem_insertionSort (r := tupleLE), ← z1]; exact hp
    obtain ⟨i, hi, rfl⟩ := List.mem_iff_getElem.mp hp
    simp only [List.length_zip, List.length_set] at hi
    simp only [List.getElem_zip]
    refine List.mem_append.mpr ?_
    by_cases hiN : i = N
    · subst hiN
      right
      rw [List.getElem_set, List.getElem_set, if_pos (by omega), if_pos (by omega)]
      exact hx
    · left
      rw [List.getElem_set_ne (by omega), List.getElem_set_ne (by omega)]
      exact h.pairs (s.fsim[i], s.sim[i]) (List.mem_iff_getElem.mpr ⟨i, by simp; omega, by simp⟩)
  · intro p hp
    rcases List.mem_append.mp hp with hp | hp
    · exact h.log p hp
    · exact he p hp
  · intro p hp
    rcases List.mem_append.mp hp with hp | hp
    · exact hf0.trans (h.best p hp)
    · rcases hb p hp with h' | h'
      · exact hf0.trans h'
      · exact hfx.trans h'

/-- C32, one iteration: the invariant is kept, the best value does not increase, at most two evaluations are logged, and the log only
grows. -/
theorem C32_step {f : List K → Py K} {low high : Option (List K)} {N : ℕ} {one_N chi psi : K} {s s' : St K} (h : Inv f N s)
    (hN : 0 < N) (hs : step f low high N one_N chi psi s = .ok s') :
    Inv f N s' ∧ s'.fsim.getD 0 0 ≤ s.fsim.getD 0 0 ∧ ∃ extra, s'.log = s.log ++ extra ∧ extra.length ≤ 2 := by
  have l1 := h.len1; have l2 := h.len2
  unfold step at hs
  obtain ⟨last, -, hs⟩ := Py.bind_eq_ok.mp hs
  obtain ⟨xbar, -, hs⟩ := Py.bind_eq_ok.mp hs
  obtain ⟨xr0, -, hs⟩ := Py.bind_eq_ok.mp hs
  obtain ⟨xr, -, hs⟩ := Py.bind_eq_ok.mp hs
  obtain ⟨fxr, er, hs⟩ := Py.bind_eq_ok.mp hs
  obtain ⟨f0, e0, hs⟩ := Py.bind_eq_ok.mp hs
  rw [idx_ok (0 : K) (by omega)] at e0
  obtain rfl := Except.ok.inj e0
  by_cases c0 : fxr < s.fsim.getD 0 0
  · rw [if_pos c0] at hs
    obtain ⟨xe0, -, hs⟩ := Py.bind_eq_ok.mp hs
    obtain ⟨xe, -, hs⟩ := Py.bind_eq_ok.mp hs
    obtain ⟨fxe, ee, hs⟩ := Py.bind_eq_ok.mp hs
    by_cases c1 : fxe < fxr
    · rw [if_pos c1] at hs
      obtain rfl := Except.ok.inj hs
      obtain ⟨a, b⟩ := replaceLast_inv (extra := [(xr, fxr), (xe, fxe)]) h hN (x := xe) (fx := fxe) (by simp)
        (by simp [er, ee]) (by simp [c1.le])
      exact ⟨a, b, _, rfl, by simp⟩
    · rw [if_neg c1] at hs
      obtain rfl := Except.ok.inj hs
      obtain ⟨a, b⟩ := replaceLast_inv (extra := [(xr, fxr), (xe, fxe)]) h hN (x := xr) (fx := fxr) (by simp)
        (by simp [er, ee]) (by simp [not_lt.mp c1])
      exact ⟨a, b, _, rfl, by simp⟩
  · rw [if_neg c0] at hs
    obtain ⟨f2, -, hs⟩ := Py.bind_eq_ok.mp hs
    have c0 := not_lt.mp c0
    by_cases c1 : fxr < f2
    · rw [if_pos c1] at hs
      obtain rfl := Except.ok.inj hs
      obtain ⟨a, b⟩ := replaceLast_inv (extra := [(xr, fxr)]) h hN (x := xr) (fx := fxr) (by simp) (by simp [er]) (by simp)
      exact ⟨a, b, _, rfl, by simp⟩
    · rw [if_neg c1] at hs
      obtain ⟨f1, -, hs⟩ := Py.bind_eq_ok.mp hs
      split_ifs at hs with c2
      all_goals
        obtain ⟨y0, -, hs⟩ := Py.bind_eq_ok.mp hs
        obtain ⟨y, -, hs⟩ := Py.bind_eq_ok.mp hs
        obtain ⟨fy, ey, hs⟩ := Py.bind_eq_ok.mp hs
        obtain rfl := Except.ok.inj hs
        obtain ⟨a, b⟩ := replaceLast_inv (extra := [(xr, fxr), (y, fy)]) h hN (x := y) (fx := fy) (by simp)
          (by simp [er, ey]) (by simp [- List.getD_eq_getElem?_getD, c0])
        exact ⟨a, b, _, rfl, by simp⟩

theorem loop_inv {f : List K → Py K} {low high : Option (List K)} {N : ℕ} {one_N chi psi xtol ftol : K} (hN : 0 < N) :
    ∀ m s it r, Inv f N s → loop f low high N one_N chi psi xtol ftol m s it = .ok r →
      Inv f N r.1 ∧ r.1.fsim.getD 0 0 ≤ s.fsim.getD 0 0 ∧ it ≤ r.2 ∧ r.2 ≤ it + m ∧
      ∃ extra, r.1.log = s.log ++ extra ∧ extra.length ≤ 2 * (r.2 - it) := by
  intro m
  induction m with
  | zero =>
    intro s it r h e
    obtain rfl := Except.ok.inj e
    exact ⟨h, le_rfl, le_rfl, le_rfl, [], by simp, by simp⟩
  | succ m ih =>
    intro s it r h e
    unfold loop at e
    obtain ⟨ex, -, e⟩ := Py.bind_eq_ok.mp e
    obtain ⟨ef, -, e⟩ := Py.bind_eq_ok.mp e
    split_ifs at e
    · obtain rfl := Except.ok.inj e
      exact ⟨h, le_rfl, le_rfl, by omega, [], by simp, by simp⟩
    · obtain ⟨s', e1, e⟩ := Py.bind_eq_ok.mp e
      obtain ⟨h', b, x1, ex1, ex2⟩ := C32_step h hN e1
      obtain ⟨h'', b', i1, i2, x2, ex3, ex4⟩ := ih s' (it + 1) r h' e
      exact ⟨h'', b'.trans b, by omega, by omega, x1 ++ x2, by rw [ex3, ex1, List.append_assoc], by simp; omega⟩

theorem evalAll_spec {f : List K → Py K} {sim : List (List K)} {N : ℕ} {fs : List K} (h : evalAll f sim N = .ok fs) :
    fs.length = N + 1 ∧ N < sim.length ∧ ∀ i ≤ N, ∀ hi : i < sim.length, f sim[i] = .ok (fs.getD i 0) := by
  have gen : ∀ (l : List ℕ) (fs : List K), (l.mapM fun k => do
      let s ← idx sim k
      f s) = .ok fs → fs.length = l.length ∧ ∀ i (hi : i < l.length), ∃ hj : l[i] < sim.length, f sim[l[i]] = .ok (fs.getD i 0) := by
    intro l
    induction l with
    | nil => intro fs h; obtain rfl := Except.ok.inj h; simp
    | cons a t ih =>
      intro fs h
      rw [List.mapM_cons] at h
      obtain ⟨y, e1, h⟩ := Py.bind_eq_ok.mp h
      obtain ⟨ys, e2, h⟩ := Py.bind_eq_ok.mp h
      obtain rfl := Except.ok.inj h
      obtain ⟨r1, r2⟩ := ih ys e2
      refine ⟨by simp [r1], fun i hi => ?_⟩
      cases i with
      | zero =>
        obtain ⟨s, e3, e4⟩ := Py.bind_eq_ok.mp e1
        have ha : a < sim.length := by
          by_contra hc
          simp only [idx, List.getElem?_eq_none (not_lt.mp hc)] at e3
          exact absurd e3 (by simp)
        refine ⟨ha, ?_⟩
        simp only [idx, List.getElem?_eq_getElem ha] at e3
        obtain rfl := Except.ok.inj e3
        simpa using e4
      | succ i =>
        simp only [List.length_cons] at hi
        simpa using r2 i (by omega)
  obtain ⟨r1, r2⟩ := gen _ _ h
  simp only [List.length_range] at r1
  refine ⟨r1, ?_, ?_⟩
  · obtain ⟨hj, -⟩ := r2 N (by simp)
    simpa using hj
  · intro i hi hs
    obtain ⟨hj, e⟩ := r2 i (by simp; omega)
    simpa using e

theorem start_inv {f : List K → Py K} {x0 : List K} {is : Option (List (List K))} {ip izp : K} {s : St K}
    (h : start f x0 is ip izp = .ok s) : Inv f x0.length s ∧ s.log.length = x0.length + 1 := by
  unfold start at h
  dsimp only at h
  generalize initSim x0 is ip izp = sim at h
  obtain ⟨fs, e, h⟩ := Py.bind_eq_ok.mp h
  obtain rfl := Except.ok.inj h
  obtain ⟨r1, r2, r3⟩ := evalAll_spec e
  obtain ⟨z1, z2, z3, z4⟩ := sortPoints_spec sim fs (by omega)
  have hlog : ∀ p ∈ sim.zip fs, f p.1 = .ok p.2 ∧ p.2 ∈ fs := by
    intro p hp
    obtain ⟨i, hi, rfl⟩ := List.mem_iff_getElem.mp hp
    simp only [List.length_zip] at hi
    simp only [List.getElem_zip]
    rw [r3 i (by omega) (by omega), List.getD_eq_getElem _ _ (by omega)]
    exact ⟨rfl, List.getElem_mem _⟩
  refine ⟨⟨by simp only [z3, r1], by simp only [z4, r1], z2, ?_, fun p hp => (hlog p hp).1, ?_⟩, by simp; omega⟩
  · intro p hp
    have hp : p ∈ fs.zip sim := by
      rw [← List.mem_insertionSort (r := tupleLE), ← z1]; exact hp
    obtain ⟨i, hi, rfl⟩ := List.mem_iff_getElem.mp hp
    simp only [List.length_zip] at hi
    refine List.mem_iff_getElem.mpr ⟨i, by simp; omega, by simp⟩
  · intro p hp
    refine head_le z2 ?_
    simp only [sortPoints, List.mem_insertionSort]
    exact (hlog p hp).2

theorem foldl_min_sorted (l : List K) (a : K) (h : (a :: l).Pairwise (· ≤ ·)) : l.foldl min a = a := by
  induction l with
  | nil => rfl
  | cons b t ih =>
    rw [List.foldl_cons, min_eq_left (List.rel_of_pairwise_cons h (by simp))]
    exact ih (h.sublist (by simp))

/-- C32: whenever `nelder_mead` returns, for every objective, start, simplex, tolerance, bounds and iteration limit: the value returned is
the objective's at the point returned, the point is one of those evaluated, no evaluated point had a lower value, the iteration count is
within the limit, and at most `N + 1 + 2·iterations` evaluations were made. -/
theorem C32_nelder_mead {f : List K → Py K} {x0 : List K} {xtol ftol : K} {maxiter : ℕ} {is : Option (List (List K))} {adaptive : Bool}
    {ip izp : K} {low high : Option (List K)} {x : List K} {fval : K} {its : ℕ} {log : List (List K × K)}
    (h : nelder_mead f x0 xtol ftol maxiter is adaptive ip izp low high = .ok ((x, fval, its), log)) :
    f x = .ok fval ∧ (x, fval) ∈ log ∧ (∀ p ∈ log, f p.1 = .ok p.2 ∧ fval ≤ p.2) ∧ its ≤ maxiter ∧
      log.length ≤ x0.length + 1 + 2 * its := by
  unfold nelder_mead at h
  dsimp only at h
  obtain ⟨c, -, h⟩ := Py.bind_eq_ok.mp h
  obtain ⟨s, es, h⟩ := Py.bind_eq_ok.mp h
  obtain ⟨oN, eo, h⟩ := Py.bind_eq_ok.mp h
  obtain ⟨r, er, h⟩ := Py.bind_eq_ok.mp h
  obtain ⟨x', ex, h⟩ := Py.bind_eq_ok.mp h
  obtain ⟨fv, ef, h⟩ := Py.bind_eq_ok.mp h
  have hN : 0 < x0.length := by
    rcases Nat.eq_zero_or_pos x0.length with h0 | h0
    · rw [h0] at eo; simp [pdiv] at eo
    · exact h0
  obtain ⟨hi, hl⟩ := start_inv es
  obtain ⟨hi', hb, i1, i2, extra, e1, e2⟩ := loop_inv hN _ _ _ _ hi er
  simp only [Py.pure_eq, Except.ok.injEq, Prod.mk.injEq] at h
  obtain ⟨⟨rfl, rfl, rfl⟩, rfl⟩ := h
  have l1 := hi'.len1; have l2 := hi'.len2
  have hx : x' = r.1.sim[0]'(by omega) := by
    simp only [idx, List.getElem?_eq_getElem (show 0 < r.1.sim.length by omega)] at ex
    exact (Except.ok.inj ex).symm
  have hfv : fv = r.1.fsim.getD 0 0 := by
    cases hfs : r.1.fsim with
    | nil => rw [hfs] at l2; simp at l2
    | cons a t =>
      rw [hfs] at ef
      simp only [pyMin] at ef
      rw [foldl_min_sorted t a (hfs ▸ hi'.sorted)] at ef
      simpa using (Except.ok.inj ef).symm
  have hmem : (x', fv) ∈ r.1.log := by
    refine hi'.pairs (fv, x') (List.mem_iff_getElem.mpr ⟨0, by simp; omega, ?_⟩)
    rw [List.getElem_zip, hx, hfv, List.getD_eq_getElem _ _ (by omega)]
  refine ⟨hi'.log _ hmem, hmem, fun p hp => ⟨hi'.log p hp, hfv ▸ hi'.best p hp⟩, by omega, ?_⟩
  rw [e1, List.length_append, hl]
  omega

/-! ### it does return, and stays within the bounds -/

section total
variable {N : ℕ}

theorem mapM_len {α : Type _} {n : ℕ} (g : ℕ → Py α) (h : ∀ i < n, ∃ v, g i = .ok v) : ∃ l, (List.range n).mapM g = .ok l ∧ l.length = n := by
  induction n with
  | zero => exact ⟨[], rfl, rfl⟩
  | succ n ih =>
    obtain ⟨l, e, hl⟩ := ih fun i hi => h i (by omega)
    obtain ⟨v, ev⟩ := h n (by omega)
    refine ⟨l ++ [v], ?_, by simp [hl]⟩
    rw [List.range_succ, List.mapM_append, e, Py.ok_bind, List.mapM_cons, ev]
    rfl

theorem comb_ok (a b : K) {xbar last : List K} (h1 : xbar.length = N) (h2 : last.length = N) :
    ∃ x, comb N a xbar b last = .ok x ∧ x.length = N := by
  refine mapM_len _ fun i hi => ?_
  rw [idx_ok (0 : K) (by omega), Py.ok_bind, idx_ok (0 : K) (by omega), Py.ok_bind]
  exact ⟨_, rfl⟩

theorem centroid_ok (o : K) {sim : List (List K)} (h1 : N ≤ sim.length) (h2 : ∀ r ∈ sim, r.length = N) :
    ∃ x, centroid sim N o = .ok x ∧ x.length = N := by
  obtain ⟨s, e, hl⟩ := Splines.foldlM_range_ok (fun xbar j => do
    let simj ← idx sim j
    (List.range N).foldlM (fun xbar i => do
      let v ← idx simj i
      return xbar.modify i (· + v)) xbar) (fun _ x => x.length = N) N (List.replicate N (0 : K)) (by simp) (by
      intro j hj x hx
      rw [idx_ok [] (by omega), Py.ok_bind]
      have hr : (sim.getD j []).length = N := h2 _ (by
        rw [List.getD_eq_getElem _ _ (by omega)]; exact List.getElem_mem _)
      refine Splines.foldlM_range_ok _ (fun _ x => x.length = N) N x hx fun i hi y hy => ?_
      rw [idx_ok (0 : K) (by omega), Py.ok_bind]
      exact ⟨_, rfl, by simp [hy]⟩)
  unfold centroid
  rw [e, Py.ok_bind]
  exact ⟨_, rfl, by simp [hl]⟩

/-- the point respects the bounds that are given -/
def InBox (low high : Option (List K)) (x : List K) : Prop :=
  (∀ lo ∈ low, ∀ i < x.length, lo.getD i 0 ≤ x.getD i 0) ∧ (∀ hi ∈ high, ∀ i < x.length, x.getD i 0 ≤ hi.getD i 0)

/-- usable bounds for dimension `N`: none, or a lower bound list with perhaps an upper one, not crossing -/
def GoodBounds (N : ℕ) : Option (List K) → Option (List K) → Prop
  | none, none => True
  | none, some _ => False
  | some lo, none => lo.length = N
  | some lo, some hi => lo.length = N ∧ hi.length = N ∧ ∀ i < N, lo.getD i 0 ≤ hi.getD i 0

theorem clipIf_ok {low high : Option (List K)} (hb : GoodBounds N low high) {x : List K} (hx : x.length = N) :
    ∃ y, clipIf x low high = .ok y ∧ y.length = N ∧ InBox low high y := by
  have lowOk : ∀ lo : List K, lo.length = N → ∃ y, (List.range lo.length).foldlM (clipLow lo) x = .ok y ∧ y.length = N ∧
      ∀ p < N, lo.getD p 0 ≤ y.getD p 0 := by
    intro lo hlo
    rw [hlo]
    refine Splines.foldlM_range_ok (clipLow lo) (fun i y => y.length = N ∧ ∀ p < i, lo.getD p 0 ≤ y.getD p 0) N x ⟨hx, by simp⟩ ?_
    intro i hi y ⟨y1, y2⟩
    simp only [clipLow]
    rw [idx_ok (0 : K) (by omega), Py.ok_bind, idx_ok (0 : K) (by omega), Py.ok_bind]
    refine ⟨_, rfl, ?_⟩
    split_ifs with c
    · refine ⟨by simp [y1], fun p hp => ?_⟩
      rw [getD_set']
      by_cases h : i = p
      · subst h; rw [if_pos ⟨rfl, by omega⟩]
      · rw [if_neg (by tauto)]; exact y2 p (by omega)
    · refine ⟨y1, fun p hp => ?_⟩
      rcases Nat.eq_or_lt_of_le (Nat.lt_succ_iff.mp hp) with h | h
      · subst h; exact not_lt.mp c
      · exact y2 p h
  match low, high, hb with
  | none, none, _ => exact ⟨x, by simp [clipIf], hx, by simp, by simp⟩
  | some lo, none, hlo =>
    obtain ⟨y, e, y1, y2⟩ := lowOk lo hlo
    refine ⟨y, ?_, y1, ?_, by simp⟩
    · simp only [clipIf, Option.isSome_some, true_or, if_true, bounds_clip_naive, e, Py.ok_bind]; rfl
    · rintro lo' ⟨⟩ i hi
      exact y2 i (by omega)
  | some lo, some hi, ⟨h1, h2, h3⟩ =>
    obtain ⟨y, e, y1, y2⟩ := lowOk lo h1
    obtain ⟨z, e', z1, z2, z3⟩ := Splines.foldlM_range_ok (clipHigh hi) (fun i y => y.length = N ∧
      (∀ p < N, lo.getD p 0 ≤ y.getD p 0) ∧ ∀ p < i, y.getD p 0 ≤ hi.getD p 0) N y ⟨y1, y2, by simp⟩ (by
      intro i hi' y ⟨y1, y2, y3⟩
      simp only [clipHigh]
      rw [idx_ok (0 : K) (by omega), Py.ok_bind, idx_ok (0 : K) (by omega), Py.ok_bind]
      refine ⟨_, rfl, ?_⟩
      split_ifs with c
      · refine ⟨by simp [y1], fun p hp => ?_, fun p hp => ?_⟩
        · rw [getD_set']
          by_cases h : i = p
          · subst h; rw [if_pos ⟨rfl, by omega⟩]; exact h3 i hi'
          · rw [if_neg (by tauto)]; exact y2 p hp
        · rw [getD_set']
          by_cases h : i = p
          · subst h; rw [if_pos ⟨rfl, by omega⟩]
          · rw [if_neg (by tauto)]; exact y3 p (by omega)
      · refine ⟨y1, y2, fun p hp => ?_⟩
        rcases Nat.eq_or_lt_of_le (Nat.lt_succ_iff.mp hp) with h | h
        · subst h; exact not_lt.mp c
        · exact y3 p h)
    refine ⟨z, ?_, z1, ?_, ?_⟩
    · simp only [clipIf, Option.isSome_some, true_or, if_true, bounds_clip_naive, e, Py.ok_bind, h1, e']
      rw [← h1, e, Py.ok_bind, h1, e']
    · rintro lo' ⟨⟩ i hi
      exact z2 i (by omega)
    · rintro lo' ⟨⟩ i hi
      exact z3 i (by omega)

theorem rows_replaceLast {s : St K} (hl : s.fsim.length ≤ s.sim.length) (hr : ∀ r ∈ s.sim, r.length = N) {x : List K} (hx : x.length = N) (fx : K)
    (lg : List (List K × K)) : ∀ r ∈ (replaceLast s x fx lg).sim, r.length = N := by
  intro r h
  simp only [replaceLast, sortPoints, List.mem_map, List.mem_insertionSort] at h
  obtain ⟨p, hp, rfl⟩ := h
  have := (List.of_mem_zip (a := p.1) (b := p.2) hp).2
  rcases List.mem_or_eq_of_mem_set this with h | h
  · exact hr _ h
  · rw [h]; exact hx

theorem step_ok {f : List K → Py K} (hf : ∀ x : List K, x.length = N → ∃ v, f x = .ok v) {low high : Option (List K)} (hb : GoodBounds N low high) (hN : 0 < N)
    (one_N chi psi : K) {s : St K} (h : Inv f N s) (hr : ∀ r ∈ s.sim, r.length = N) :
    ∃ s', step f low high N one_N chi psi s = .ok s' ∧ (∀ r ∈ s'.sim, r.length = N) ∧
      ∃ extra, s'.log = s.log ++ extra ∧ ∀ p ∈ extra, p.1.length = N ∧ InBox low high p.1 := by
  have l1 := h.len1; have l2 := h.len2
  have hlast : pyGet s.sim (-1) = .ok (s.sim.getD N []) := by
    have e := pyGet_neg s.sim 1 (by omega) (by omega)
    rw [List.getD_eq_getElem _ _ (by omega)]
    simpa [l1] using e
  have hll : (s.sim.getD N []).length = N := hr _ (by rw [List.getD_eq_getElem _ _ (by omega)]; exact List.getElem_mem _)
  obtain ⟨xbar, e1, hxb⟩ := centroid_ok one_N (sim := s.sim) (by omega) hr
  have mk : ∀ a b : K, ∃ x0 x v, comb N a xbar b (s.sim.getD N []) = .ok x0 ∧ clipIf x0 low high = .ok x ∧ f x = .ok v ∧ x.length = N ∧
      InBox low high x := by
    intro a b
    obtain ⟨x0, e2, hx0⟩ := comb_ok a b hxb hll
    obtain ⟨x, e3, hx, hbx⟩ := clipIf_ok hb hx0
    obtain ⟨v, e4⟩ := hf x hx
    exact ⟨x0, x, v, e2, e3, e4, hx, hbx⟩
  obtain ⟨xr0, xr, fxr, a1, a2, a3, a4, a5⟩ := mk 2 (-1)
  have f2 : pyGet s.fsim (-2) = .ok (s.fsim.getD (N - 1) 0) := by
    have e := pyGet_neg s.fsim 2 (by omega) (by omega)
    rw [List.getD_eq_getElem _ _ (by omega)]
    simpa [l2] using e
  have f1 : pyGet s.fsim (-1) = .ok (s.fsim.getD N 0) := by
    have e := pyGet_neg s.fsim 1 (by omega) (by omega)
    rw [List.getD_eq_getElem _ _ (by omega)]
    simpa [l2] using e
  simp only [step, hlast, e1, a1, a2, a3, Py.ok_bind, idx_ok (0 : K) (show 0 < s.fsim.length by omega), f1, f2]
  by_cases c0 : fxr < s.fsim.getD 0 0
  · obtain ⟨xe0, xe, fxe, b1, b2, b3, b4, b5⟩ := mk (chi + 1) (-chi)
    simp only [if_pos c0, b1, b2, b3, Py.ok_bind]
    by_cases c1 : fxe < fxr
    · rw [if_pos c1]
      exact ⟨_, rfl, rows_replaceLast (by omega) hr b4 _ _, _, rfl, by simp [a4, a5, b4, b5]⟩
    · rw [if_neg c1]
      exact ⟨_, rfl, rows_replaceLast (by omega) hr a4 _ _, _, rfl, by simp [a4, a5, b4, b5]⟩
  · rw [if_neg c0]
    by_cases c1 : fxr < s.fsim.getD (N - 1) 0
    · rw [if_pos c1]
      exact ⟨_, rfl, rows_replaceLast (by omega) hr a4 _ _, _, rfl, by simp [a4, a5]⟩
    · rw [if_neg c1]
      by_cases c2 : fxr < s.fsim.getD N 0
      · obtain ⟨xe0, xe, fxe, b1, b2, b3, b4, b5⟩ := mk (psi + 1) (-psi)
        simp only [if_pos c2, b1, b2, b3, Py.ok_bind]
        exact ⟨_, rfl, rows_replaceLast (by omega) hr b4 _ _, _, rfl, by simp [a4, a5, b4, b5]⟩
      · obtain ⟨xe0, xe, fxe, b1, b2, b3, b4, b5⟩ := mk (1 - psi) psi
        simp only [if_neg c2, b1, b2, b3, Py.ok_bind]
        exact ⟨_, rfl, rows_replaceLast (by omega) hr b4 _ _, _, rfl, by simp [a4, a5, b4, b5]⟩

theorem spread_ok {s : St K} {f : List K → Py K} (h : Inv f N s) (hr : ∀ r ∈ s.sim, r.length = N) :
    (∃ v, xSpread s.sim N = .ok v) ∧ ∃ v, fSpread s.fsim N = .ok v := by
  have l1 := h.len1; have l2 := h.len2
  have hrow : ∀ i ≤ N, (s.sim.getD i []).length = N := fun i hi => hr _ (by
    rw [List.getD_eq_getElem _ _ (by omega)]; exact List.getElem_mem _)
  constructor
  · unfold xSpread
    rw [idx_ok [] (by omega), Py.ok_bind]
    obtain ⟨v, e, -⟩ := Splines.foldlM_range_ok (fun (e : K) i => do
      let asim ← idx s.sim (i + 1)
      (List.range N).foldlM (fun e j => do
        let a ← idx (s.sim.getD 0 []) j
        let b ← idx asim j
        return if |a - b| > e then |a - b| else e) e) (fun _ _ => True) N 0 trivial (by
      intro i hi x _
      rw [idx_ok [] (by omega), Py.ok_bind]
      refine Splines.foldlM_range_ok _ (fun _ _ => True) N x trivial ?_
      intro j hj y _
      rw [idx_ok (0 : K) (by rw [hrow 0 (by omega)]; exact hj), Py.ok_bind, idx_ok (0 : K) (by rw [hrow (i + 1) (by omega)]; exact hj), Py.ok_bind]
      exact ⟨_, rfl, trivial⟩)
    exact ⟨v, e⟩
  · unfold fSpread
    rw [idx_ok (0 : K) (by omega), Py.ok_bind]
    obtain ⟨v, e, -⟩ := Splines.foldlM_range_ok (fun (e : K) i => do
      let fi ← idx s.fsim (i + 1)
      return if |s.fsim.getD 0 0 - fi| > e then |s.fsim.getD 0 0 - fi| else e) (fun _ _ => True) N 0 trivial (by
      intro i hi x _
      rw [idx_ok (0 : K) (by omega), Py.ok_bind]
      exact ⟨_, rfl, trivial⟩)
    exact ⟨v, e⟩

theorem loop_ok {f : List K → Py K} (hf : ∀ x : List K, x.length = N → ∃ v, f x = .ok v) {low high : Option (List K)} (hb : GoodBounds N low high) (hN : 0 < N)
    (one_N chi psi xtol ftol : K) : ∀ m (s : St K) it, Inv f N s → (∀ r ∈ s.sim, r.length = N) →
    ∃ r, loop f low high N one_N chi psi xtol ftol m s it = .ok r ∧
      ∃ extra, r.1.log = s.log ++ extra ∧ ∀ p ∈ extra, p.1.length = N ∧ InBox low high p.1 := by
  intro m
  induction m with
  | zero => intro s it _ _; exact ⟨_, rfl, [], by simp, by simp⟩
  | succ m ih =>
    intro s it h hr
    obtain ⟨⟨v, e1⟩, w, e2⟩ := spread_ok h hr
    simp only [loop, e1, e2, Py.ok_bind]
    by_cases c : v ≤ xtol ∧ w ≤ ftol
    · rw [if_pos c]; exact ⟨_, rfl, [], by simp, by simp⟩
    · rw [if_neg c]
      obtain ⟨s', e3, hr', x1, y1, y2⟩ := step_ok hf hb hN one_N chi psi h hr
      obtain ⟨r, e4, x2, y3, y4⟩ := ih s' (it + 1) (C32_step h hN e3).1 hr'
      rw [e3, Py.ok_bind, e4]
      refine ⟨r, rfl, x1 ++ x2, by rw [y3, y1, List.append_assoc], fun p hp => ?_⟩
      rcases List.mem_append.mp hp with h | h
      · exact y2 p h
      · exact y4 p h

theorem coefs_ok [CharZero K] (hN : 0 < N) (ad : Bool) : ∃ c : K × K, coefs ad N = .ok c := by
  have h : (N : K) ≠ 0 := by exact_mod_cast hN.ne'
  unfold coefs
  cases ad
  · exact ⟨_, rfl⟩
  · simp only [if_true, pdiv_ok h, pdiv_ok (mul_ne_zero two_ne_zero h), Py.ok_bind]
    exact ⟨_, rfl⟩

/-- C32: with a nonempty start, an objective defined on all points of that dimension, the default or a full initial simplex, and either no
bounds, a lower bound, or noncrossing lower and upper bounds, `nelder_mead` always returns; and every point it evaluates after the initial
simplex respects the bounds. -/
theorem C32_total [CharZero K] {f : List K → Py K} {x0 : List K} (hx0 : x0 ≠ []) (hf : ∀ x : List K, x.length = x0.length → ∃ v, f x = .ok v)
    {is : Option (List (List K))} (his : ∀ s ∈ is, s.length = x0.length + 1 ∧ ∀ r ∈ s, r.length = x0.length)
    {low high : Option (List K)} (hb : GoodBounds x0.length low high) (xtol ftol : K) (maxiter : ℕ) (adaptive : Bool) (ip izp : K) :
    ∃ r log, nelder_mead f x0 xtol ftol maxiter is adaptive ip izp low high = .ok (r, log) ∧
      ∀ p ∈ log.drop (x0.length + 1), InBox low high p.1 := by
  have hN : 0 < x0.length := List.length_pos_iff.mpr hx0
  obtain ⟨c, ec⟩ := coefs_ok (K := K) hN adaptive
  have hsim : (initSim x0 is ip izp).length = x0.length + 1 ∧ ∀ r ∈ initSim x0 is ip izp, r.length = x0.length := by
    cases is with
    | none =>
      refine ⟨by simp [initSim, simplex0], ?_⟩
      intro r hr
      simp only [initSim, simplex0, List.mem_cons, List.mem_map] at hr
      rcases hr with rfl | ⟨k, -, rfl⟩ <;> simp
    | some s => exact his s rfl
  obtain ⟨fs, ef, hfs⟩ := mapM_len (n := x0.length + 1) (fun k => do
    let s ← idx (initSim x0 is ip izp) k
    f s) (by
      intro i hi
      rw [idx_ok [] (by omega), Py.ok_bind]
      exact hf _ (hsim.2 _ (by rw [List.getD_eq_getElem _ _ (by omega)]; exact List.getElem_mem _)))
  have es : start f x0 is ip izp = .ok ⟨(sortPoints (initSim x0 is ip izp) fs).1, (sortPoints (initSim x0 is ip izp) fs).2,
      (initSim x0 is ip izp).zip fs⟩ := by
    simp only [start, evalAll, ef, Py.ok_bind]; rfl
  obtain ⟨hi, hl⟩ := start_inv es
  obtain ⟨r, er, extra, e1, e2⟩ := loop_ok hf hb hN ((1 : K) / (x0.length : K)) c.1 c.2 xtol ftol maxiter _ 0 hi (by
    intro r hr
    simp only [sortPoints, List.mem_map, List.mem_insertionSort] at hr
    obtain ⟨p, hp, rfl⟩ := hr
    exact hsim.2 _ (List.of_mem_zip (a := p.1) (b := p.2) hp).2)
  obtain ⟨hi', -⟩ := loop_inv hN _ _ _ _ hi er
  have l1 := hi'.len1; have l2 := hi'.len2
  have hm : ∃ v, pyMin r.1.fsim = .ok v := by
    cases h : r.1.fsim with
    | nil => rw [h] at l2; simp at l2
    | cons a t => exact ⟨_, rfl⟩
  obtain ⟨v, ev⟩ := hm
  refine ⟨(r.1.sim.getD 0 [], v, r.2), r.1.log, ?_, ?_⟩
  · simp only [nelder_mead, ec, es, Py.ok_bind, pdiv_ok (show (x0.length : K) ≠ 0 by exact_mod_cast hN.ne'), er,
      idx_ok [] (show 0 < r.1.sim.length by omega), ev]
    rfl
  · rw [e1, ← hl, List.drop_left]
    exact fun p hp => (e2 p hp).2

end total

/-- C32: an empty starting point ends in `ZeroDivisionError`. -/
theorem C32_empty (f : List K → Py K) (xtol ftol : K) (maxiter : ℕ) (ip izp : K) (low high : Option (List K)) {v : K} (hv : f [] = .ok v) :
    nelder_mead f [] xtol ftol maxiter none false ip izp low high = .error .zeroDivisionError := by
  simp [nelder_mead, coefs, start, initSim, evalAll, simplex0, idx, hv, pdiv]

/-- C32 (finding): giving only an upper bound raises `TypeError` at the first reflection, for every objective and start. -/
theorem C32_only_high (x hi : List K) : bounds_clip_naive x none (some hi) = .error .typeError := rfl

end

/-- a two-variable objective over the rationals -/
def bowl : List ℚ → Py ℚ
  | [x, y] => .ok ((x - 1) ^ 2 + (y - 2) ^ 2)
  | _ => .error .indexError

example : ((nelder_mead bowl [0, 1] (1/100) (1/100) 5 none false (1/20) (1/4000) none none).toOption.map fun r =>
    (decide (r.1.2.1 < 2), r.1.2.2, r.2.length)) = some (true, 5, 13) := by decide +kernel

end Verif.NelderMead
