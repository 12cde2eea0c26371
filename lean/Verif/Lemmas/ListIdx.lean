import Mathlib.Data.List.GetD
import Mathlib.Data.List.Basic

/-! Index lemmas for lists used as mutable arrays. -/

namespace Verif
variable {α : Type _}

theorem getD_set' (l : List α) (i j : ℕ) (a d : α) :
    (l.set i a).getD j d = if i = j ∧ i < l.length then a else l.getD j d := by
  simp only [List.getD_eq_getElem?_getD, List.getElem?_set]
  split_ifs with h1 h2 h3 h3 <;> simp_all <;> omega

theorem getD_modify' (l : List α) (i j : ℕ) (f : α → α) (d : α) :
    (l.modify i f).getD j d = if i = j ∧ i < l.length then f (l.getD j d) else l.getD j d := by
  simp only [List.getD_eq_getElem?_getD, List.getElem?_modify]
  by_cases h1 : i = j
  · subst h1
    by_cases h2 : i < l.length
    · simp [h2]
    · simp [h2]
  · simp [h1]

theorem getD_replicate' (n j : ℕ) (a : α) : (List.replicate n a).getD j a = a := by
  simp only [List.getD_eq_getElem?_getD, List.getElem?_replicate]; split_ifs <;> rfl

theorem getD_take' (l : List α) (n j : ℕ) (d : α) :
    (l.take n).getD j d = if j < n then l.getD j d else d := by
  simp only [List.getD_eq_getElem?_getD, List.getElem?_take]; split_ifs <;> rfl

theorem getD_append' (l l' : List α) (j : ℕ) (d : α) :
    (l ++ l').getD j d = if j < l.length then l.getD j d else l'.getD (j - l.length) d := by
  simp only [List.getD_eq_getElem?_getD, List.getElem?_append]; split_ifs <;> rfl

theorem getD_map_range (n j : ℕ) (f : ℕ → α) (d : α) :
    ((List.range n).map f).getD j d = if j < n then f j else d := by
  simp only [List.getD_eq_getElem?_getD, List.getElem?_map, List.getElem?_range']
  by_cases h : j < n <;> simp [h]

theorem getD_map' {β : Type _} (f : α → β) (l : List α) (i : ℕ) (d : β) (h : i < l.length) :
    (l.map f).getD i d = f l[i] := by simp [h]

theorem length_foldl_modify (l : List ℕ) (c : List α) (f : ℕ → α → α) :
    (l.foldl (fun c j => c.modify j (f j)) c).length = c.length := by
  induction l generalizing c with
  | nil => rfl
  | cons a l ih => simp [ih]

theorem getD_foldl_modify_range (n j : ℕ) (c : List α) (f : ℕ → α → α) (d : α) (h : n ≤ c.length) :
    ((List.range n).foldl (fun c j => c.modify j (f j)) c).getD j d = if j < n then f j (c.getD j d) else c.getD j d := by
  induction n with
  | zero => simp
  | succ n ih =>
    rw [List.range_succ, List.foldl_append]
    simp only [List.foldl_cons, List.foldl_nil]
    rw [getD_modify', length_foldl_modify, ih (by omega)]
    by_cases h1 : n = j
    · subst h1; simp; omega
    · simp [h1]; split_ifs <;> first | rfl | omega

end Verif
