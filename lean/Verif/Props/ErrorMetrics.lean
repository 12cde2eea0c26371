import Verif.Model.ErrorMetrics
import Mathlib.Algebra.Order.Chebyshev
import Mathlib.Algebra.Order.BigOperators.Group.List
import Mathlib.Tactic

/-! C110: error metrics (`fluids/numerics/__init__.py`). -/

namespace Verif.ErrorMetrics
open Verif

variable {K : Type _} [Field K] [LinearOrder K]

/-! ### the two loops -/

lemma maxLoop_ok (diff : K → K → Py K) (ε : K → K → K) : ∀ (data calcs : List K) (m : K), data.length ≤ calcs.length →
    (∀ p ∈ data.zip calcs, diff p.1 p.2 = .ok (ε p.1 p.2)) →
    ∃ e, maxLoop diff m data calcs = .ok e ∧ m ≤ e ∧ (∀ p ∈ data.zip calcs, ε p.1 p.2 ≤ e) ∧ (e = m ∨ ∃ p ∈ data.zip calcs, e = ε p.1 p.2)
  | [], calcs, m, _, _ => ⟨m, rfl, le_rfl, by simp, Or.inl rfl⟩
  | d :: ds, [], m, h, _ => by simp at h
  | d :: ds, c :: cs, m, h, hd => by
    have h1 := hd (d, c) (by simp)
    simp only at h1
    rw [maxLoop, h1, Py.ok_bind]
    obtain ⟨e, he, hm, hub, hat⟩ := maxLoop_ok diff ε ds cs (if ε d c > m then ε d c else m) (by simpa using h) (fun p hp => hd p (by simp [hp]))
    refine ⟨e, he, ?_, ?_, ?_⟩
    · refine le_trans ?_ hm; split_ifs with h2
      · exact h2.le
      · exact le_rfl
    · intro p hp
      rw [List.zip_cons_cons, List.mem_cons] at hp
      rcases hp with rfl | hp
      · refine le_trans ?_ hm; split_ifs with h2
        · exact le_rfl
        · exact not_lt.1 h2
      · exact hub p hp
    · rcases hat with h3 | ⟨p, hp, h3⟩
      · split_ifs at h3
        · exact Or.inr ⟨(d, c), by simp, h3⟩
        · exact Or.inl h3
      · exact Or.inr ⟨p, by simp [hp], h3⟩

lemma sumLoop_ok (err : K → K → Py K) (ε : K → K → K) : ∀ (data calcs : List K) (s : K), data.length ≤ calcs.length →
    (∀ p ∈ data.zip calcs, err p.1 p.2 = .ok (ε p.1 p.2)) →
    sumLoop err s data calcs = .ok (s + ((data.zip calcs).map fun p => ε p.1 p.2).sum)
  | [], calcs, s, _, _ => by simp [sumLoop]
  | d :: ds, [], s, h, _ => by simp at h
  | d :: ds, c :: cs, s, h, hd => by
    have h1 := hd (d, c) (by simp)
    simp only at h1
    rw [sumLoop, h1, Py.ok_bind, sumLoop_ok err ε ds cs _ (by simpa using h) (fun p hp => hd p (by simp [hp]))]
    simp [add_assoc]

lemma maxLoop_short (diff : K → K → Py K) : ∀ (data calcs : List K) (m : K), calcs.length < data.length →
    (∀ p ∈ data.zip calcs, ∃ e, diff p.1 p.2 = .ok e) → maxLoop diff m data calcs = .error .indexError
  | [], calcs, m, h, _ => by simp at h
  | d :: ds, [], m, _, _ => rfl
  | d :: ds, c :: cs, m, h, hd => by
    obtain ⟨e, h1⟩ := hd (d, c) (by simp)
    simp only at h1
    rw [maxLoop, h1, Py.ok_bind]
    exact maxLoop_short diff ds cs _ (by simpa using h) (fun p hp => hd p (by simp [hp]))

lemma sumLoop_short (err : K → K → Py K) : ∀ (data calcs : List K) (m : K), calcs.length < data.length →
    (∀ p ∈ data.zip calcs, ∃ e, err p.1 p.2 = .ok e) → sumLoop err m data calcs = .error .indexError
  | [], calcs, m, h, _ => by simp at h
  | d :: ds, [], m, _, _ => rfl
  | d :: ds, c :: cs, m, h, hd => by
    obtain ⟨e, h1⟩ := hd (d, c) (by simp)
    simp only at h1
    rw [sumLoop, h1, Py.ok_bind]
    exact sumLoop_short err ds cs _ (by simpa using h) (fun p hp => hd p (by simp [hp]))

lemma squaredRel_ok {d c : K} (h : d ≠ 0) : squaredRel d c = .ok (|(d - c) / d| * |(d - c) / d|) := by
  unfold squaredRel; rw [pdiv_ok h]; rfl

lemma squaredRel_zero (c : K) : squaredRel 0 c = .error .zeroDivisionError := by
  unfold squaredRel; rw [pdiv_zero]; rfl

lemma maxLoop_zero : ∀ (data calcs : List K) (m : K), (∃ p ∈ data.zip calcs, p.1 = 0) → maxLoop squaredRel m data calcs = .error .zeroDivisionError
  | [], calcs, m, h => by simp at h
  | d :: ds, [], m, h => by simp at h
  | d :: ds, c :: cs, m, h => by
    rw [maxLoop]
    by_cases hd : d = 0
    · rw [hd, squaredRel_zero]; rfl
    · rw [squaredRel_ok hd, Py.ok_bind]
      apply maxLoop_zero
      obtain ⟨p, hp, h0⟩ := h
      rw [List.zip_cons_cons, List.mem_cons] at hp
      rcases hp with rfl | hp
      · exact absurd h0 hd
      · exact ⟨p, hp, h0⟩

lemma sumLoop_zero : ∀ (data calcs : List K) (m : K), (∃ p ∈ data.zip calcs, p.1 = 0) → sumLoop squaredRel m data calcs = .error .zeroDivisionError
  | [], calcs, m, h => by simp at h
  | d :: ds, [], m, h => by simp at h
  | d :: ds, c :: cs, m, h => by
    rw [sumLoop]
    by_cases hd : d = 0
    · rw [hd, squaredRel_zero]; rfl
    · rw [squaredRel_ok hd, Py.ok_bind]
      apply sumLoop_zero
      obtain ⟨p, hp, h0⟩ := h
      rw [List.zip_cons_cons, List.mem_cons] at hp
      rcases hp with rfl | hp
      · exact absurd h0 hd
      · exact ⟨p, hp, h0⟩

/-! ### specification -/

/-- The relative deviation of `c` from the datum `d`; a zero datum counts `cap` unless it is reproduced. -/
def relDev (cap d c : K) : K := if d = 0 then (if c = 0 then 0 else cap) else |(d - c) / d|

lemma cappedRel_ok (cap d c : K) (hcap : 0 ≤ cap) : cappedRel cap d c = .ok (min (relDev cap d c) cap) := by
  unfold cappedRel relDev
  by_cases h : d = 0
  · simp only [if_pos h]
    split_ifs
    · rw [min_eq_left hcap]
    · rw [min_self]
  · simp only [if_neg h]
    rw [pdiv_ok h, Py.ok_bind]
    show Except.ok _ = Except.ok _
    congr 1
    by_cases h2 : |(d - c) / d| > cap
    · rw [if_pos h2, min_eq_right (le_of_lt h2)]
    · rw [if_neg h2, min_eq_left (not_lt.1 h2)]

lemma meanRel_ok (d c : K) : meanRel d c = .ok (relDev 1 d c) := by
  unfold meanRel relDev
  by_cases h : d = 0
  · simp only [if_pos h]; split_ifs <;> rfl
  · simp only [if_neg h]; rw [pdiv_ok h]; rfl

variable [IsStrictOrderedRing K]

/-- C110: `max_abs_error` is the largest absolute difference of corresponding entries, 0 for no data. -/
theorem C110_max_abs_error (data calcs : List K) (h : data.length ≤ calcs.length) :
    ∃ e, max_abs_error data calcs = .ok e ∧ (∀ p ∈ data.zip calcs, |p.1 - p.2| ≤ e) ∧ (data = [] ∧ e = 0 ∨ ∃ p ∈ data.zip calcs, e = |p.1 - p.2|) := by
  obtain ⟨e, he, h0, hub, hat⟩ := maxLoop_ok (fun d c => .ok |d - c|) (fun d c => |d - c|) data calcs 0 h (fun _ _ => rfl)
  refine ⟨e, he, hub, ?_⟩
  rcases hat with rfl | hat
  · rcases data with _ | ⟨d, ds⟩
    · exact Or.inl ⟨rfl, rfl⟩
    · rcases calcs with _ | ⟨c, cs⟩
      · simp at h
      · exact Or.inr ⟨(d, c), by simp, le_antisymm (abs_nonneg _) (hub (d, c) (by simp))⟩
  · exact Or.inr hat

lemma zip_eq_iff : ∀ (data calcs : List K), data.length ≤ calcs.length → ((∀ p ∈ data.zip calcs, p.1 = p.2) ↔ calcs.take data.length = data)
  | [], calcs, _ => by simp
  | d :: ds, [], h => by simp at h
  | d :: ds, c :: cs, h => by
    have := zip_eq_iff ds cs (by simpa using h)
    simp only [List.zip_cons_cons, List.mem_cons, forall_eq_or_imp, this, List.length_cons, List.take_succ_cons, List.cons.injEq]
    exact and_congr_left' eq_comm

/-- C110: it is zero exactly when the calculated values reproduce the data. -/
theorem C110_max_abs_error_zero (data calcs : List K) (h : data.length ≤ calcs.length) :
    max_abs_error data calcs = .ok 0 ↔ calcs.take data.length = data := by
  obtain ⟨e, he, hub, hat⟩ := C110_max_abs_error data calcs h
  rw [he, ← zip_eq_iff _ _ h]
  constructor
  · intro h0
    obtain rfl := Except.ok.inj h0
    intro p hp
    exact sub_eq_zero.1 (abs_nonpos_iff.1 (hub p hp))
  · intro hp
    congr 1
    rcases hat with ⟨-, h0⟩ | ⟨p, hm, h0⟩
    · exact h0
    · rw [h0, hp p hm, sub_self, abs_zero]

example : max_abs_error [1, 2, 3] [1, 5 / 2, (5 / 2 : ℚ)] = .ok (1 / 2) := by decide +kernel

/-- C110: without `max_val` the cap is 1000, reached as soon as a datum is zero and its value is not. -/
theorem C110_max_abs_rel_error_default (d c : K) : max_abs_rel_error [d] [c] = max_abs_rel_error [d] [c] 1000 ∧ (c ≠ 0 → max_abs_rel_error [(0 : K)] [c] = .ok 1000) := by
  refine ⟨rfl, fun h => ?_⟩
  unfold max_abs_rel_error maxLoop cappedRel
  rw [if_pos rfl, if_neg h, Py.ok_bind]
  show Except.ok (if (1000 : K) > 0 then 1000 else 0) = _
  rw [if_pos (by norm_num)]

/-- C110: `max_abs_rel_error` is the largest relative deviation, capped at `max_val`; it never divides by zero. -/
theorem C110_max_abs_rel_error (data calcs : List K) (max_val : K) (hm : 0 ≤ max_val) (h : data.length ≤ calcs.length) :
    ∃ e, max_abs_rel_error data calcs max_val = .ok e ∧ 0 ≤ e ∧ e ≤ max_val ∧ (∀ p ∈ data.zip calcs, min (relDev max_val p.1 p.2) max_val ≤ e) ∧
      (data = [] ∧ e = 0 ∨ ∃ p ∈ data.zip calcs, e = min (relDev max_val p.1 p.2) max_val) := by
  obtain ⟨e, he, h0, hub, hat⟩ := maxLoop_ok (cappedRel max_val) (fun d c => min (relDev max_val d c) max_val) data calcs 0 h (fun p _ => cappedRel_ok _ _ _ hm)
  refine ⟨e, he, h0, ?_, hub, ?_⟩
  · rcases hat with rfl | ⟨p, -, rfl⟩
    · exact hm
    · exact min_le_right _ _
  · rcases hat with rfl | hat
    · rcases data with _ | ⟨d, ds⟩
      · exact Or.inl ⟨rfl, rfl⟩
      · rcases calcs with _ | ⟨c, cs⟩
        · simp at h
        · refine Or.inr ⟨(d, c), by simp, le_antisymm (le_min ?_ hm) (hub (d, c) (by simp))⟩
          unfold relDev; split_ifs
          · exact le_rfl
          · exact hm
          · exact abs_nonneg _
    · exact Or.inr hat

/-- C110: with a positive cap, it is zero exactly when the calculated values reproduce the data. -/
theorem C110_max_abs_rel_error_zero (data calcs : List K) (max_val : K) (hm : 0 < max_val) (h : data.length ≤ calcs.length) :
    max_abs_rel_error data calcs max_val = .ok 0 ↔ calcs.take data.length = data := by
  obtain ⟨e, he, h0, -, hub, hat⟩ := C110_max_abs_rel_error data calcs max_val hm.le h
  have key : ∀ d c : K, min (relDev max_val d c) max_val ≤ 0 ↔ d = c := by
    intro d c
    rw [min_le_iff, or_iff_left (not_le.2 hm)]
    unfold relDev
    by_cases hd : d = 0
    · rw [if_pos hd]
      by_cases hc : c = 0
      · simp [hd, hc]
      · rw [if_neg hc, hd]
        exact ⟨fun h => absurd h (not_le.2 hm), fun h => absurd h.symm hc⟩
    · rw [if_neg hd, abs_nonpos_iff, div_eq_zero_iff, or_iff_left hd, sub_eq_zero]
  rw [he, ← zip_eq_iff _ _ h]
  constructor
  · intro hz
    obtain rfl := Except.ok.inj hz
    intro p hp
    exact (key _ _).1 (hub p hp)
  · intro hp
    congr 1
    rcases hat with ⟨-, h0⟩ | ⟨p, hm, h1⟩
    · exact h0
    · exact le_antisymm (h1 ▸ (key _ _).2 (hp p hm)) h0

example : max_abs_rel_error [0, 2, 4] [1, 2, (5 : ℚ)] 1000 = .ok 1000 := by decide +kernel

/-- C110: `max_squared_error` is the square of `max_abs_error`, errors included. -/
theorem C110_max_squared_error (data calcs : List K) : max_squared_error data calcs = (max_abs_error data calcs).map (fun e => e ^ 2) := by
  have gen : ∀ (data calcs : List K) (m : K), 0 ≤ m → maxLoop (fun d c => .ok (|d - c| * |d - c|)) (m ^ 2) data calcs =
      (maxLoop (fun d c => .ok |d - c|) m data calcs).map (fun e => e ^ 2) := by
    intro data
    induction data with
    | nil => intro calcs m _; rfl
    | cons d ds ih =>
      intro calcs m hm
      rcases calcs with _ | ⟨c, cs⟩
      · rfl
      · rw [maxLoop, maxLoop, Py.ok_bind, Py.ok_bind]
        have : (if |d - c| * |d - c| > m ^ 2 then |d - c| * |d - c| else m ^ 2) = (if |d - c| > m then |d - c| else m) ^ 2 := by
          by_cases h : |d - c| > m
          · rw [if_pos h, if_pos (by rw [← sq]; exact pow_lt_pow_left₀ h hm two_ne_zero), sq]
          · rw [if_neg h, if_neg]
            rw [← sq, not_lt]
            exact pow_le_pow_left₀ (abs_nonneg _) (not_lt.1 h) 2
        simp only [this]
        apply ih
        split_ifs
        · exact abs_nonneg _
        · exact hm
  have := gen data calcs 0 le_rfl
  rw [zero_pow two_ne_zero] at this
  exact this

/-- C110: `max_squared_rel_error` is the largest squared relative deviation when no datum is zero; a zero datum raises ZeroDivisionError. -/
theorem C110_max_squared_rel_error (data calcs : List K) (h : data.length ≤ calcs.length) :
    ((∀ d ∈ data, d ≠ 0) → ∃ e, max_squared_rel_error data calcs = .ok e ∧ (∀ p ∈ data.zip calcs, ((p.1 - p.2) / p.1) ^ 2 ≤ e) ∧
      (data = [] ∧ e = 0 ∨ ∃ p ∈ data.zip calcs, e = ((p.1 - p.2) / p.1) ^ 2)) ∧
    ((∃ d ∈ data, d = 0) → max_squared_rel_error data calcs = .error .zeroDivisionError ∧ mean_squared_rel_error data calcs = .error .zeroDivisionError) := by
  constructor
  · intro hne
    have hp : ∀ p ∈ data.zip calcs, squaredRel p.1 p.2 = .ok (((p.1 - p.2) / p.1) ^ 2) := by
      intro p hp
      rw [squaredRel_ok (hne _ (List.of_mem_zip hp).1), abs_mul_abs_self, sq]
    obtain ⟨e, he, h0, hub, hat⟩ := maxLoop_ok squaredRel (fun d c => ((d - c) / d) ^ 2) data calcs 0 h hp
    refine ⟨e, he, hub, ?_⟩
    rcases hat with rfl | hat
    · rcases data with _ | ⟨d, ds⟩
      · exact Or.inl ⟨rfl, rfl⟩
      · rcases calcs with _ | ⟨c, cs⟩
        · simp at h
        · exact Or.inr ⟨(d, c), by simp, le_antisymm (sq_nonneg _) (hub (d, c) (by simp))⟩
    · exact Or.inr hat
  · rintro ⟨d, hd, h0⟩
    have : ∃ p ∈ data.zip calcs, p.1 = 0 := by
      obtain ⟨i, hi, rfl⟩ := List.getElem_of_mem hd
      refine ⟨(data[i], calcs[i]), ?_, h0⟩
      have hl : i < (data.zip calcs).length := by simp; omega
      have := List.getElem_mem hl
      rwa [List.getElem_zip] at this
    constructor
    · exact maxLoop_zero _ _ _ this
    · unfold mean_squared_rel_error; rw [sumLoop_zero _ _ _ this]; rfl

/-- The mean of `ε` over corresponding entries. -/
def meanOf (ε : K → K → K) (data calcs : List K) : K := ((data.zip calcs).map fun p => ε p.1 p.2).sum / data.length

/-- C110: the four means are the averages of their summands; no data raises ZeroDivisionError. -/
theorem C110_means (data calcs : List K) (h : data.length ≤ calcs.length) :
    (data ≠ [] →
      mean_abs_error data calcs = .ok (meanOf (fun d c => |d - c|) data calcs) ∧
      mean_squared_error data calcs = .ok (meanOf (fun d c => (d - c) ^ 2) data calcs) ∧
      mean_abs_rel_error data calcs = .ok (meanOf (relDev 1) data calcs) ∧
      ((∀ d ∈ data, d ≠ 0) → mean_squared_rel_error data calcs = .ok (meanOf (fun d c => ((d - c) / d) ^ 2) data calcs))) ∧
    (data = [] → mean_abs_error data calcs = .error .zeroDivisionError ∧ mean_squared_error data calcs = .error .zeroDivisionError ∧
      mean_abs_rel_error data calcs = .error .zeroDivisionError ∧ mean_squared_rel_error data calcs = .error .zeroDivisionError) := by
  constructor
  · intro hne
    have hn : (data.length : K) ≠ 0 := Nat.cast_ne_zero.2 (fun h => hne (List.length_eq_zero_iff.1 h))
    refine ⟨?_, ?_, ?_, fun hz => ?_⟩
    · unfold mean_abs_error
      rw [sumLoop_ok _ (fun d c => |d - c|) _ _ _ h (fun _ _ => rfl), Py.ok_bind, pdiv_ok hn, zero_add]; rfl
    · unfold mean_squared_error
      rw [sumLoop_ok _ (fun d c => (d - c) ^ 2) _ _ _ h (fun _ _ => by rw [abs_mul_abs_self, sq]), Py.ok_bind, pdiv_ok hn, zero_add]; rfl
    · unfold mean_abs_rel_error
      rw [sumLoop_ok _ (relDev 1) _ _ _ h (fun _ _ => meanRel_ok _ _), Py.ok_bind, pdiv_ok hn, zero_add]; rfl
    · unfold mean_squared_rel_error
      rw [sumLoop_ok _ (fun d c => ((d - c) / d) ^ 2) _ _ _ h (fun p hp => by rw [squaredRel_ok (hz _ (List.of_mem_zip hp).1), abs_mul_abs_self, sq]), Py.ok_bind, pdiv_ok hn, zero_add]; rfl
  · rintro rfl
    unfold mean_abs_error mean_squared_error mean_abs_rel_error mean_squared_rel_error
    simp only [sumLoop, Py.ok_bind, List.length_nil, Nat.cast_zero, pdiv_zero, and_self]

example : mean_abs_rel_error [0, 2, 4] [1, 2, (5 : ℚ)] = .ok (5 / 12) := by decide +kernel

/-- C110: a mean is at most the corresponding maximum, and the squared mean absolute error is at most the mean squared error. -/
theorem C110_mean_le_max (data calcs : List K) (h : data.length ≤ calcs.length) (hne : data ≠ []) (m M s : K) (hm : mean_abs_error data calcs = .ok m)
    (hM : max_abs_error data calcs = .ok M) (hs : mean_squared_error data calcs = .ok s) : 0 ≤ m ∧ m ≤ M ∧ m ^ 2 ≤ s ∧ s ≤ M ^ 2 := by
  have hn : 0 < (data.length : K) := Nat.cast_pos.2 (List.length_pos_iff.2 hne)
  obtain ⟨⟨h1, h2, -, -⟩, -⟩ := And.imp_left (fun f => f hne) (C110_means data calcs h)
  obtain rfl := Except.ok.inj (hm.symm.trans h1)
  obtain rfl := Except.ok.inj (hs.symm.trans h2)
  obtain ⟨e, he, hub, hat⟩ := C110_max_abs_error data calcs h
  obtain rfl := Except.ok.inj (hM.symm.trans he)
  have hlen : (data.zip calcs).length = data.length := by simp [h]
  have hM0 : 0 ≤ M := by rcases hat with ⟨-, rfl⟩ | ⟨p, -, rfl⟩; exacts [le_rfl, abs_nonneg _]
  unfold meanOf
  refine ⟨?_, ?_, ?_, ?_⟩
  · refine div_nonneg (List.sum_nonneg ?_) hn.le
    intro x hx
    obtain ⟨p, -, rfl⟩ := List.mem_map.1 hx
    exact abs_nonneg _
  · rw [div_le_iff₀ hn]
    have := List.sum_le_card_nsmul ((data.zip calcs).map fun p => |p.1 - p.2|) M (by
      intro x hx
      obtain ⟨p, hp, rfl⟩ := List.mem_map.1 hx
      exact hub p hp)
    rw [List.length_map, hlen, nsmul_eq_mul, mul_comm] at this
    exact this
  · rw [div_pow, div_le_div_iff₀ (by positivity) hn]
    have := sq_sum_le_card_mul_sum_sq (s := Finset.univ) (f := fun i : Fin (data.zip calcs).length => |(data.zip calcs)[i].1 - (data.zip calcs)[i].2|)
    simp only [Finset.card_univ, Fintype.card_fin, sq_abs] at this
    have e1 : ((data.zip calcs).map fun p => |p.1 - p.2|).sum = ∑ i : Fin (data.zip calcs).length, |(data.zip calcs)[i].1 - (data.zip calcs)[i].2| :=
      (Fin.sum_univ_fun_getElem (data.zip calcs) (fun p => |p.1 - p.2|)).symm
    have e2 : ((data.zip calcs).map fun p => (p.1 - p.2) ^ 2).sum = ∑ i : Fin (data.zip calcs).length, ((data.zip calcs)[i].1 - (data.zip calcs)[i].2) ^ 2 :=
      (Fin.sum_univ_fun_getElem (data.zip calcs) (fun p => (p.1 - p.2) ^ 2)).symm
    simp only
    rw [← e1, ← e2, hlen] at this
    nlinarith [mul_le_mul_of_nonneg_right this hn.le]
  · rw [div_le_iff₀ hn]
    have := List.sum_le_card_nsmul ((data.zip calcs).map fun p => (p.1 - p.2) ^ 2) (M ^ 2) (by
      intro x hx
      obtain ⟨p, hp, rfl⟩ := List.mem_map.1 hx
      rw [← sq_abs]
      exact pow_le_pow_left₀ (abs_nonneg _) (hub p hp) 2)
    rw [List.length_map, hlen, nsmul_eq_mul, mul_comm] at this
    exact this

/-- C110: fewer calculated values than data raise IndexError (data without zeros), in all eight functions. -/
theorem C110_short (data calcs : List K) (max_val : K) (hm : 0 ≤ max_val) (h : calcs.length < data.length) :
    max_abs_error data calcs = .error .indexError ∧ max_abs_rel_error data calcs max_val = .error .indexError ∧ max_squared_error data calcs = .error .indexError ∧
    mean_abs_error data calcs = .error .indexError ∧ mean_abs_rel_error data calcs = .error .indexError ∧ mean_squared_error data calcs = .error .indexError ∧
    ((∀ d ∈ data, d ≠ 0) → max_squared_rel_error data calcs = .error .indexError ∧ mean_squared_rel_error data calcs = .error .indexError) := by
  refine ⟨maxLoop_short _ _ _ _ h fun _ _ => ⟨_, rfl⟩, maxLoop_short _ _ _ _ h fun _ _ => ⟨_, cappedRel_ok _ _ _ hm⟩, maxLoop_short _ _ _ _ h fun _ _ => ⟨_, rfl⟩, ?_, ?_, ?_, fun hz => ⟨?_, ?_⟩⟩
  · unfold mean_abs_error; rw [sumLoop_short _ _ _ _ h fun _ _ => ⟨_, rfl⟩]; rfl
  · unfold mean_abs_rel_error; rw [sumLoop_short _ _ _ _ h fun _ _ => ⟨_, meanRel_ok _ _⟩]; rfl
  · unfold mean_squared_error; rw [sumLoop_short _ _ _ _ h fun _ _ => ⟨_, rfl⟩]; rfl
  · exact maxLoop_short _ _ _ _ h fun p hp => ⟨_, squaredRel_ok (hz _ (List.of_mem_zip hp).1)⟩
  · unfold mean_squared_rel_error; rw [sumLoop_short _ _ _ _ h fun p hp => ⟨_, squaredRel_ok (hz _ (List.of_mem_zip hp).1)⟩]; rfl

lemma maxLoop_map (diff : K → K → Py K) (k : K) (hd : ∀ d c, diff (k * d) (k * c) = diff d c) : ∀ (data calcs : List K) (m : K),
    maxLoop diff m (data.map (k * ·)) (calcs.map (k * ·)) = maxLoop diff m data calcs
  | [], calcs, m => rfl
  | d :: ds, [], m => rfl
  | d :: ds, c :: cs, m => by
    simp only [List.map_cons, maxLoop, hd]
    exact congrArg _ (funext fun e => maxLoop_map diff k hd ds cs _)

lemma sumLoop_map (diff : K → K → Py K) (k : K) (hd : ∀ d c, diff (k * d) (k * c) = diff d c) : ∀ (data calcs : List K) (m : K),
    sumLoop diff m (data.map (k * ·)) (calcs.map (k * ·)) = sumLoop diff m data calcs
  | [], calcs, m => rfl
  | d :: ds, [], m => rfl
  | d :: ds, c :: cs, m => by
    simp only [List.map_cons, sumLoop, hd]
    exact congrArg _ (funext fun e => sumLoop_map diff k hd ds cs _)

/-- C110: the relative metrics do not depend on the unit of the data, errors included. -/
theorem C110_unit (data calcs : List K) (max_val k : K) (hk : k ≠ 0) :
    max_abs_rel_error (data.map (k * ·)) (calcs.map (k * ·)) max_val = max_abs_rel_error data calcs max_val ∧
    max_squared_rel_error (data.map (k * ·)) (calcs.map (k * ·)) = max_squared_rel_error data calcs ∧
    mean_abs_rel_error (data.map (k * ·)) (calcs.map (k * ·)) = mean_abs_rel_error data calcs ∧
    mean_squared_rel_error (data.map (k * ·)) (calcs.map (k * ·)) = mean_squared_rel_error data calcs := by
  have hq : ∀ d c : K, pdiv (k * d - k * c) (k * d) = pdiv (d - c) d := by
    intro d c
    by_cases hd : d = 0
    · rw [hd, mul_zero, pdiv_zero, pdiv_zero]
    · rw [pdiv_ok hd, pdiv_ok (mul_ne_zero hk hd), ← mul_sub, mul_div_mul_left _ _ hk]
  have h0 : ∀ d : K, k * d = 0 ↔ d = 0 := fun d => by simp [hk]
  have h1 : ∀ d c, cappedRel max_val (k * d) (k * c) = cappedRel max_val d c := by
    intro d c; unfold cappedRel; simp only [hq, h0]
  have h2 : ∀ d c, squaredRel (k * d) (k * c) = squaredRel d c := by
    intro d c; unfold squaredRel; simp only [hq]
  have h3 : ∀ d c, meanRel (k * d) (k * c) = meanRel d c := by
    intro d c; unfold meanRel; simp only [hq, h0]
  refine ⟨maxLoop_map _ k h1 _ _ _, maxLoop_map _ k h2 _ _ _, ?_, ?_⟩
  · unfold mean_abs_rel_error; rw [sumLoop_map _ k h3, List.length_map]
  · unfold mean_squared_rel_error; rw [sumLoop_map _ k h2, List.length_map]

end Verif.ErrorMetrics
