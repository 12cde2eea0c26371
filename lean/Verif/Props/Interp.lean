import Verif.Model.Sequences
import Verif.Lemmas.ListIdx
import Mathlib.Order.Monotone.Basic

/-! # C21, C22, C81: binary search, linear interpolation, bilinear interpolation -/

namespace Verif
open Verif.Seq

section Search
variable {K : Type _} [LinearOrder K]

theorem searchLoop_spec (key : K) (arr : List K) (hs : arr.Pairwise (· ≤ ·)) :
    ∀ (d imin imax : ℕ), imax - imin = d → imin ≤ imax → imax ≤ arr.length →
      (∀ i (h : i < arr.length), i < imin → arr[i] ≤ key) → (∀ i (h : i < arr.length), imax ≤ i → key < arr[i]) →
      ∃ m, searchLoop key arr imin imax = .ok m ∧ m ≤ arr.length ∧
        (∀ i (h : i < arr.length), i < m → arr[i] ≤ key) ∧ (∀ i (h : i < arr.length), m ≤ i → key < arr[i]) := by
  intro d
  induction d using Nat.strong_induction_on with
  | _ d ih =>
    intro imin imax hd h1 h2 h3 h4
    rw [searchLoop]
    split_ifs with hlt
    · simp only
      have hmid : imin + (imax - imin) / 2 < arr.length := by omega
      rw [List.getElem?_eq_getElem hmid]
      simp only
      split_ifs with hk
      · refine ih _ (by omega) (imin + (imax - imin) / 2 + 1) imax rfl (by omega) h2 (fun i h hi => ?_) h4
        refine le_trans ?_ hk
        rcases Nat.lt_succ_iff_lt_or_eq.mp hi with hi | rfl
        · exact List.pairwise_iff_getElem.mp hs _ _ h hmid hi
        · exact le_rfl
      · refine ih _ (by omega) imin (imin + (imax - imin) / 2) rfl (by omega) (by omega) h3 (fun i h hi => ?_)
        refine lt_of_lt_of_le (not_le.mp hk) ?_
        rcases hi.lt_or_eq with hi | rfl
        · exact List.pairwise_iff_getElem.mp hs _ _ hmid h hi
        · exact le_rfl
    · obtain rfl : imin = imax := by omega
      exact ⟨imin, rfl, h2, h3, h4⟩

/-- C22: on every nonempty nondecreasing list `binary_search` terminates and answers: the list length if the key lies beyond
the last entry; otherwise the index `j ≥ -1` such that the entries at and before `j` are `≤ key` and the later ones are
`> key` (so `-1` exactly when the key is below the first entry, and the last matching index when the key is present). -/
theorem C22_binary_search (key : K) (arr : List K) (hs : arr.Pairwise (· ≤ ·)) (hne : arr ≠ []) :
    (arr.getLast hne < key → binary_search key arr none = .ok arr.length) ∧
    (key ≤ arr.getLast hne → ∃ j : ℤ, binary_search key arr none = .ok j ∧ -1 ≤ j ∧ j < arr.length ∧
      (∀ i (h : i < arr.length), (i : ℤ) ≤ j ↔ arr[i] ≤ key)) := by
  have hl : arr.length ≠ 0 := by simpa using hne
  have hlast : arr[arr.length - 1]? = some (arr.getLast hne) := by
    rw [List.getElem?_eq_getElem (by omega), List.getLast_eq_getElem]
  refine ⟨fun h => ?_, fun h => ?_⟩
  · simp only [binary_search, Option.getD_none, if_neg hl, hlast, if_pos h]
  · obtain ⟨m, m1, m2, m3, m4⟩ := searchLoop_spec key arr hs _ 0 arr.length rfl (by omega) le_rfl (by intros; omega)
      (by intros; omega)
    refine ⟨(m : ℤ) - 1, ?_, by omega, by omega, fun i hi => ?_⟩
    · simp only [binary_search, Option.getD_none, if_neg hl, hlast, if_neg (not_lt.mpr h), m1, Py.ok_bind, Py.pure_eq]
    · constructor
      · intro hij; exact m3 i hi (by omega)
      · intro hij; by_contra hc; exact absurd hij (not_le.mpr (m4 i hi (by omega)))

/-- C22: if the key is in the list, the returned index holds it. -/
theorem C22_binary_search_found (key : K) (arr : List K) (hs : arr.Pairwise (· ≤ ·)) (hmem : key ∈ arr) :
    ∃ (j : ℕ) (h : j < arr.length), binary_search key arr none = .ok j ∧ arr[j] = key := by
  have hne : arr ≠ [] := List.ne_nil_of_mem hmem
  obtain ⟨i, hi, hie⟩ := List.getElem_of_mem hmem
  have hle : key ≤ arr.getLast hne := by
    rw [← hie, List.getLast_eq_getElem]
    rcases (show i ≤ arr.length - 1 by omega).lt_or_eq with h | h
    · exact List.pairwise_iff_getElem.mp hs _ _ hi (by omega) h
    · simp [h]
  obtain ⟨j, j1, j2, j3, j4⟩ := (C22_binary_search key arr hs hne).2 hle
  have hij := (j4 i hi).mpr hie.le
  lift j to ℕ using by omega
  have hj : j < arr.length := by omega
  refine ⟨j, hj, j1, le_antisymm ((j4 j hj).mp le_rfl) ?_⟩
  rw [← hie]
  rcases (show i ≤ j by omega).lt_or_eq with h | h
  · exact List.pairwise_iff_getElem.mp hs _ _ hi hj h
  · simp [h]

/-- C22: an empty list raises `IndexError`. -/
theorem C22_binary_search_empty (key : K) : binary_search key [] none = .error .indexError := rfl

example : (C22_binary_search_empty (3 : ℤ)) = rfl := rfl
example : [1, 3, 3, (7 : ℤ)].Pairwise (· ≤ ·) ∧ (3 : ℤ) ∈ [1, 3, 3, (7 : ℤ)] := by decide
end Search

section Interp
variable {K : Type _} [Field K] [LinearOrder K] [IsStrictOrderedRing K]

theorem pyGet_nat (l : List K) (i : ℕ) (h : i < l.length) : pyGet l (i : ℤ) = .ok (l.getD i 0) := by
  simp only [pyGet]
  rw [if_neg (by omega), if_neg (by omega), Int.toNat_natCast, List.getElem?_eq_getElem h, List.getD_eq_getElem _ _ h]

theorem pyGet_neg {α : Type _} (l : List α) (k : ℕ) (h : 0 < k) (h2 : k ≤ l.length) :
    pyGet l (-(k : ℤ)) = .ok (l[l.length - k]'(by omega)) := by
  simp only [pyGet]
  have e : (if -(k : ℤ) < 0 then -(k : ℤ) + (l.length : ℤ) else -(k : ℤ)) = ((l.length - k : ℕ) : ℤ) := by
    rw [if_pos (by omega)]; omega
  rw [e, if_neg (by omega), Int.toNat_natCast, List.getElem?_eq_getElem (by omega)]

theorem chord_nat (x : K) (dx dy : List K) (j : ℕ) (h1 : j + 1 < dx.length) (h2 : j + 1 < dy.length)
    (hne : dx.getD (j + 1) 0 - dx.getD j 0 ≠ 0) : chord x dx dy j =
      .ok (dy.getD j 0 + (dy.getD (j + 1) 0 - dy.getD j 0) * ((x - dx.getD j 0) / (dx.getD (j + 1) 0 - dx.getD j 0))) := by
  have e : ((j : ℤ) + 1) = ((j + 1 : ℕ) : ℤ) := by push_cast; ring
  simp only [chord, e]
  rw [pyGet_nat _ _ h2, pyGet_nat _ _ (by omega), pyGet_nat _ _ h1, pyGet_nat _ _ (by omega)]
  simp only [Py.ok_bind, pdiv_ok hne, Py.pure_eq, Except.ok.injEq]
  ring

/-- facts about strictly increasing abscissae -/
theorem incr_getD {dx : List K} (hs : dx.Pairwise (· < ·)) {i j : ℕ} (hij : i < j) (hj : j < dx.length) :
    dx.getD i 0 < dx.getD j 0 := by
  rw [List.getD_eq_getElem _ _ hj, List.getD_eq_getElem _ _ (by omega)]
  exact List.pairwise_iff_getElem.mp hs _ _ _ _ hij

theorem interp_search {dx : List K} (hs : dx.Pairwise (· < ·)) (hn : 0 < dx.length) (x : K) :
    (dx.getD (dx.length - 1) 0 < x → binary_search x dx (some dx.length) = .ok dx.length) ∧
    (x < dx.getD 0 0 → binary_search x dx (some dx.length) = .ok (-1)) ∧
    (x = dx.getD (dx.length - 1) 0 → binary_search x dx (some dx.length) = .ok ((dx.length : ℤ) - 1)) ∧
    (∀ i, i + 1 < dx.length → dx.getD i 0 ≤ x → x < dx.getD (i + 1) 0 → binary_search x dx (some dx.length) = .ok i) := by
  have hne : dx ≠ [] := by rintro rfl; simp at hn
  have hsw : dx.Pairwise (· ≤ ·) := hs.imp le_of_lt
  have e : binary_search x dx (some dx.length) = binary_search x dx none := rfl
  have el : dx.getLast hne = dx.getD (dx.length - 1) 0 := by
    rw [List.getD_eq_getElem _ _ (by omega), List.getLast_eq_getElem]
  obtain ⟨s1, s2⟩ := C22_binary_search x dx hsw hne
  rw [e, el] at *
  have mono : ∀ i j, i ≤ j → j < dx.length → dx.getD i 0 ≤ dx.getD j 0 := fun i j hij hj => by
    rcases hij.lt_or_eq with h | rfl
    · exact (incr_getD hs h hj).le
    · exact le_rfl
  refine ⟨s1, fun h => ?_, fun h => ?_, fun i hi h1 h2 => ?_⟩
  · obtain ⟨j, j1, j2, j3, j4⟩ := s2 (h.le.trans (mono 0 _ (by omega) (by omega)))
    rw [j1]
    have := j4 0 hn
    rw [← List.getD_eq_getElem _ 0 hn] at this
    have : ¬ ((0 : ℕ) : ℤ) ≤ j := fun hh => absurd (this.mp hh) (not_le.mpr h)
    congr 1; push_cast at this; omega
  · obtain ⟨j, j1, j2, j3, j4⟩ := s2 h.le
    rw [j1]
    have hl : dx.length - 1 < dx.length := by omega
    have := j4 _ hl
    rw [← List.getD_eq_getElem _ 0 hl] at this
    have := this.mpr h.ge
    congr 1; omega
  · obtain ⟨j, j1, j2, j3, j4⟩ := s2 (h2.le.trans (mono _ _ (by omega) (by omega)))
    rw [j1]
    have a1 := j4 i (by omega)
    have a2 := j4 (i + 1) hi
    rw [← List.getD_eq_getElem _ 0 (by omega)] at a1 a2
    have b1 := a1.mpr h1
    have b2 : ¬ ((i + 1 : ℕ) : ℤ) ≤ j := fun hh => absurd (a2.mp hh) (not_le.mpr h2)
    congr 1; push_cast at b2; omega

/-- C21: for every strictly increasing table and every `x` between two neighbouring abscissae (ends included), `interp`
returns the chord value; in particular the tabulated ordinate at a node. The `left`, `right` and `extrapolate` options have
no influence there. -/
theorem C21_interp_inside (x : K) (dx dy : List K) (hs : dx.Pairwise (· < ·)) (hl : dx.length = dy.length)
    (left right : Option K) (ex : Bool) (i : ℕ) (hi : i + 1 < dx.length) (h1 : dx.getD i 0 ≤ x) (h2 : x ≤ dx.getD (i + 1) 0) :
    interp x dx dy left right ex =
      .ok (dy.getD i 0 + (dy.getD (i + 1) 0 - dy.getD i 0) * ((x - dx.getD i 0) / (dx.getD (i + 1) 0 - dx.getD i 0))) := by
  obtain ⟨-, -, s3, s4⟩ := interp_search hs (by omega) x
  have step : ∀ j, j + 1 < dx.length → dx.getD (j + 1) 0 - dx.getD j 0 ≠ 0 := fun j hj =>
    (sub_pos.mpr (incr_getD hs (Nat.lt_succ_self j) hj)).ne'
  rcases h2.lt_or_eq with h2 | h2
  · simp only [interp, s4 i hi h1 h2, Py.ok_bind]
    rw [if_neg (by omega), if_neg (by omega), if_neg (by omega), chord_nat x dx dy i hi (by omega) (step i hi)]
  · have e : dy.getD i 0 + (dy.getD (i + 1) 0 - dy.getD i 0) * ((x - dx.getD i 0) / (dx.getD (i + 1) 0 - dx.getD i 0)) =
        dy.getD (i + 1) 0 := by
      rw [h2, div_self (step i hi)]; ring
    rw [e]
    by_cases hlast : i + 1 = dx.length - 1
    · have hx : x = dx.getD (dx.length - 1) 0 := by rw [h2, hlast]
      simp only [interp, s3 hx, Py.ok_bind]
      rw [if_neg (by omega), if_pos trivial, show (dx.length : ℤ) - 1 = ((i + 1 : ℕ) : ℤ) by omega, pyGet_nat _ _ (by omega)]
    · have hi' : i + 1 + 1 < dx.length := by omega
      have hlt : x < dx.getD (i + 1 + 1) 0 := h2 ▸ incr_getD hs (Nat.lt_succ_self _) hi'
      simp only [interp, s4 (i + 1) hi' h2.ge hlt, Py.ok_bind]
      rw [if_neg (by omega), if_neg (by omega), if_neg (by omega), chord_nat x dx dy (i + 1) hi' (by omega) (step _ hi'), h2]
      simp

/-- C21: outside the table `interp` returns the override if one is given, else the end ordinate, or with `extrapolate` the
value of the end chord continued. -/
theorem C21_interp_outside (x : K) (dx dy : List K) (hs : dx.Pairwise (· < ·)) (hl : dx.length = dy.length)
    (hn : 2 ≤ dx.length) (left right : Option K) (ex : Bool) :
    (x < dx.getD 0 0 → interp x dx dy left right ex = .ok (left.getD (if ex then
      dy.getD 0 0 + (dy.getD 1 0 - dy.getD 0 0) * ((x - dx.getD 0 0) / (dx.getD 1 0 - dx.getD 0 0)) else dy.getD 0 0))) ∧
    (dx.getD (dx.length - 1) 0 < x → interp x dx dy left right ex = .ok (right.getD (if ex then
      dy.getD (dx.length - 2) 0 + (dy.getD (dx.length - 1) 0 - dy.getD (dx.length - 2) 0) *
        ((x - dx.getD (dx.length - 2) 0) / (dx.getD (dx.length - 1) 0 - dx.getD (dx.length - 2) 0))
      else dy.getD (dx.length - 1) 0))) := by
  obtain ⟨s1, s2, -, -⟩ := interp_search hs (by omega) x
  have step : ∀ j, j + 1 < dx.length → dx.getD (j + 1) 0 - dx.getD j 0 ≠ 0 := fun j hj =>
    (sub_pos.mpr (incr_getD hs (Nat.lt_succ_self j) hj)).ne'
  have g : ∀ (l : List K) (k : ℕ), l.length = dx.length → 0 < k → k ≤ 2 → pyGet l (-(k : ℤ)) = .ok (l.getD (dx.length - k) 0) := by
    intro l k hl' h0 h2
    rw [pyGet_neg l k h0 (by omega), ← List.getD_eq_getElem _ 0, hl']
  refine ⟨fun h => ?_, fun h => ?_⟩
  · simp only [interp, s2 h, Py.ok_bind]
    rw [if_pos trivial]
    cases left with
    | some l => rfl
    | none =>
      cases ex
      · exact pyGet_nat dy 0 (by omega)
      · exact chord_nat x dx dy 0 (by omega) (by omega) (step 0 (by omega))
  · simp only [interp, s1 h, Py.ok_bind]
    rw [if_neg (by omega), if_neg (by omega), if_pos trivial]
    cases right with
    | some l => rfl
    | none =>
      cases ex
      · have := g dy 1 hl.symm (by omega) (by omega)
        simpa using this
      · have hst := step (dx.length - 2) (by omega)
        rw [show dx.length - 2 + 1 = dx.length - 1 by omega] at hst
        have a1 := g dy 1 hl.symm (by omega) (by omega)
        have a2 := g dy 2 hl.symm (by omega) (by omega)
        have a3 := g dx 1 rfl (by omega) (by omega)
        have a4 := g dx 2 rfl (by omega) (by omega)
        have b1 : pyGet dy (-1) = _ := a1
        have b2 : pyGet dy (-2) = _ := a2
        have b3 : pyGet dx (-1) = _ := a3
        have b4 : pyGet dx (-2) = _ := a4
        simp only [chord, if_true, show ((-2 : ℤ) + 1) = -1 by norm_num, b1, b2, b3, b4, Py.ok_bind, pdiv_ok hst,
          Py.pure_eq, Option.getD_none, Except.ok.injEq]
        ring

/-- C21: consequently, inside the table the result lies between the two neighbouring ordinates. -/
theorem C21_interp_between (x : K) (dx dy : List K) (hs : dx.Pairwise (· < ·)) (hl : dx.length = dy.length)
    (left right : Option K) (ex : Bool) (i : ℕ) (hi : i + 1 < dx.length) (h1 : dx.getD i 0 ≤ x) (h2 : x ≤ dx.getD (i + 1) 0) :
    ∃ y, interp x dx dy left right ex = .ok y ∧ min (dy.getD i 0) (dy.getD (i + 1) 0) ≤ y ∧
      y ≤ max (dy.getD i 0) (dy.getD (i + 1) 0) := by
  refine ⟨_, C21_interp_inside x dx dy hs hl left right ex i hi h1 h2, ?_⟩
  have hp : 0 < dx.getD (i + 1) 0 - dx.getD i 0 := sub_pos.mpr (incr_getD hs (Nat.lt_succ_self i) hi)
  set t := (x - dx.getD i 0) / (dx.getD (i + 1) 0 - dx.getD i 0) with ht
  have t0 : 0 ≤ t := div_nonneg (sub_nonneg.mpr h1) hp.le
  have t1 : t ≤ 1 := by rw [ht, div_le_one hp]; linarith
  set a := dy.getD i 0
  set b := dy.getD (i + 1) 0
  rcases le_total a b with h | h
  · rw [min_eq_left h, max_eq_right h]
    constructor <;> nlinarith
  · rw [min_eq_right h, max_eq_left h]
    constructor <;> nlinarith

section Example
def exX : List ℚ := [0, 1, 3]
def exY : List ℚ := [10, 20, 0]
example : exX.Pairwise (· < ·) := by decide +kernel
example : interp 2 exX exY none none false = .ok 10 := by
  have := C21_interp_inside 2 exX exY (by decide +kernel) (by decide) none none false 1 (by decide) (by decide +kernel) (by decide +kernel)
  rw [this]; decide +kernel
end Example

/-! ### bilinear interpolation -/

theorem findIdx_ge {ys : List K} (hs : ys.Pairwise (· < ·)) {y : K} {j : ℕ} (hj : j < ys.length) (h2 : y ≤ ys.getD j 0)
    (h1 : j = 0 ∨ ys.getD (j - 1) 0 < y) : firstGe y ys = some j := by
  rw [firstGe, List.findIdx?_eq_some_iff_getElem]
  refine ⟨hj, ?_, fun i hi => ?_⟩
  · rw [← List.getD_eq_getElem _ 0 hj]; simpa using h2
  · rw [← List.getD_eq_getElem _ 0 (by omega)]
    simp only [ge_iff_le, decide_eq_true_eq, not_le]
    rcases h1 with rfl | h1
    · omega
    · rcases (show i ≤ j - 1 by omega).lt_or_eq with h | rfl
      · exact (incr_getD hs h (by omega)).trans h1
      · exact h1

/-- the chord value between the nodes `i` and `i + 1` -/
def chordVal (x : K) (dx dy : List K) (i : ℕ) : K :=
  dy.getD i 0 + (dy.getD (i + 1) 0 - dy.getD i 0) * ((x - dx.getD i 0) / (dx.getD (i + 1) 0 - dx.getD i 0))

/-- C81: for strictly increasing grids, `interp2d_linear` is bilinear interpolation in every cell: with
`xs[i] ≤ x ≤ xs[i+1]` and `ys[j] ≤ y ≤ ys[j+1]` it returns the linear interpolation in `y` of the two linear interpolations
in `x` along the rows `j` and `j + 1`. -/
theorem C81_interp2d (x y : K) (xs ys : List K) (vals : List (List K)) (hx : xs.Pairwise (· < ·)) (hy : ys.Pairwise (· < ·))
    (hv : vals.length = ys.length) (hr : ∀ r ∈ vals, r.length = xs.length) (i j : ℕ) (hi : i + 1 < xs.length)
    (hj : j + 1 < ys.length) (hx1 : xs.getD i 0 ≤ x) (hx2 : x ≤ xs.getD (i + 1) 0) (hy1 : ys.getD j 0 ≤ y)
    (hy2 : y ≤ ys.getD (j + 1) 0) :
    interp2d_linear x y xs ys vals = .ok (
      let lo := chordVal x xs (vals.getD j []) i
      let hi := chordVal x xs (vals.getD (j + 1) []) i
      lo + (hi - lo) * ((y - ys.getD j 0) / (ys.getD (j + 1) 0 - ys.getD j 0))) := by
  have hrow : ∀ k < vals.length, (vals.getD k []).length = xs.length := fun k hk => by
    rw [List.getD_eq_getElem _ _ hk]; exact hr _ (List.getElem_mem _)
  have hget : ∀ k < vals.length, pyGet vals (k : ℤ) = .ok (vals.getD k []) := fun k hk => by
    simp only [pyGet]
    rw [if_neg (by omega), if_neg (by omega), Int.toNat_natCast, List.getElem?_eq_getElem hk, List.getD_eq_getElem _ _ hk]
  have hin : ∀ k < vals.length, interp x xs (vals.getD k []) none none true = .ok (chordVal x xs (vals.getD k []) i) :=
    fun k hk => C21_interp_inside x xs _ hx (hrow k hk).symm none none true i hi hx1 hx2
  have hhead : ys.head? = some (ys.getD 0 0) := by
    rw [List.head?_eq_getElem?, List.getElem?_eq_getElem (by omega), List.getD_eq_getElem _ _ (by omega)]
  have hlast : ys.getLast? = some (ys.getD (ys.length - 1) 0) := by
    rw [List.getLast?_eq_getElem?, List.getElem?_eq_getElem (by omega), List.getD_eq_getElem _ _ (by omega)]
  have mono : ∀ a b, a ≤ b → b < ys.length → ys.getD a 0 ≤ ys.getD b 0 := fun a b hab hb => by
    rcases hab.lt_or_eq with h | rfl
    · exact (incr_getD hy h hb).le
    · exact le_rfl
  have n1 : ¬ y < ys.getD 0 0 := not_lt.mpr ((mono 0 j (by omega) (by omega)).trans hy1)
  have n2 : ¬ y > ys.getD (ys.length - 1) 0 := not_lt.mpr (hy2.trans (mono _ _ (by omega) (by omega)))
  have rows : ∀ k, firstGe y ys = some k → interp2d_rows y ys = .ok ((k : ℤ) - 1, k) := fun k hk => by
    simp only [interp2d_rows, hhead, hlast, if_neg n1, if_neg n2, hk]
  have hstep : ∀ k, k + 1 < ys.length → ys.getD (k + 1) 0 - ys.getD k 0 ≠ 0 := fun k hk =>
    (sub_pos.mpr (incr_getD hy (Nat.lt_succ_self k) hk)).ne'
  -- the generic case: the row pair is (k, k+1)
  have main : ∀ k, k + 1 < ys.length → firstGe y ys = some (k + 1) → interp2d_linear x y xs ys vals =
      .ok (chordVal x xs (vals.getD k []) i + (y - ys.getD k 0) / (ys.getD (k + 1) 0 - ys.getD k 0) *
        (chordVal x xs (vals.getD (k + 1) []) i - chordVal x xs (vals.getD k []) i)) := by
    intro k hk hf
    have e1 : (((k + 1 : ℕ) : ℤ) - 1) = (k : ℤ) := by push_cast; ring
    simp only [interp2d_linear, rows _ hf, e1, Py.ok_bind]
    rw [pyGet_nat ys k (by omega), pyGet_nat ys (k + 1) hk, hget k (by omega), hget (k + 1) (by omega)]
    simp only [Py.ok_bind, hin k (by omega), hin (k + 1) (by omega), pdiv_ok (hstep k hk), Py.pure_eq]
  rcases hy1.lt_or_eq with hlt | heq
  · rw [main j hj (findIdx_ge hy hj hy2 (Or.inr (by simpa using hlt)))]
    simp only [Except.ok.injEq]; ring
  · -- on the lower edge of the cell
    have e : (y - ys.getD j 0) / (ys.getD (j + 1) 0 - ys.getD j 0) = 0 := by rw [heq]; simp
    simp only [e, mul_zero, add_zero]
    rcases j with _ | j
    · -- first grid line: the code pairs the last row with the first
      have hf : firstGe y ys = some 0 := findIdx_ge hy (by omega) heq.ge (Or.inl rfl)
      have e1 : ((0 : ℕ) : ℤ) - 1 = -((1 : ℕ) : ℤ) := by norm_num
      simp only [interp2d_linear, rows _ hf, e1, Py.ok_bind]
      rw [pyGet_neg ys 1 (by omega) (by omega), pyGet_nat ys 0 (by omega), pyGet_neg vals 1 (by omega) (by omega),
        hget 0 (by omega)]
      simp only [Py.ok_bind]
      have hlastrow : vals[vals.length - 1]'(by omega) = vals.getD (vals.length - 1) [] :=
        (List.getD_eq_getElem _ _ (by omega)).symm
      rw [hlastrow, hin _ (by omega), hin 0 (by omega), ← List.getD_eq_getElem ys 0 (by omega)]
      have hd : ys.getD 0 0 - ys.getD (ys.length - 1) 0 ≠ 0 :=
        (sub_neg.mpr (incr_getD hy (show 0 < ys.length - 1 by omega) (by omega))).ne
      simp only [Py.ok_bind, pdiv_ok hd, Py.pure_eq, Except.ok.injEq]
      rw [← heq, div_self hd]; ring
    · have hf : firstGe y ys = some (j + 1) := findIdx_ge hy (by omega) heq.ge
        (Or.inr (by rw [← heq]; exact incr_getD hy (by omega) (by omega)))
      rw [main j (by omega) hf, ← heq, div_self (hstep j (by omega))]
      simp only [Except.ok.injEq]; ring

/-- a 2 × 3 table; the value at the middle of its first cell -/
example : interp2d_linear (1/2 : ℚ) (1/2) [0, 1, 3] [0, 1] [[0, 10, 20], [4, 6, 8]] = .ok 5 := by
  have := C81_interp2d (1/2 : ℚ) (1/2) [0, 1, 3] [0, 1] [[0, 10, 20], [4, 6, 8]] (by decide +kernel) (by decide +kernel) rfl
    (by decide) 0 0 (by decide) (by decide) (by decide +kernel) (by decide +kernel) (by decide +kernel) (by decide +kernel)
  rw [this]; decide +kernel

end Interp
end Verif
