import Verif.Model.Arrays
import Verif.Spec.Matrix
import Verif.Lemmas.ListIdx
import Verif.Lemmas.ListSum

namespace Verif.Arrays
open Verif.Spec Matrix
variable {K : Type _} [CommRing K]

theorem IsMat.row_length {m n : ℕ} {A : List (List K)} (h : IsMat m n A) {i : ℕ} (hi : i < m) : (A.getD i []).length = n := by
  have hl : i < A.length := h.1 ▸ hi
  rw [List.getD_eq_getElem _ _ hl]
  exact h.2 _ (List.getElem_mem hl)

theorem IsMat.ext {m n : ℕ} {A B : List (List K)} (hA : IsMat m n A) (hB : IsMat m n B)
    (h : ∀ i < m, ∀ j < n, mget A i j = mget B i j) : A = B := by
  refine List.ext_getElem (by rw [hA.1, hB.1]) fun i h1 h2 => ?_
  have hi : i < m := hA.1 ▸ h1
  have la := IsMat.row_length hA hi
  have lb := IsMat.row_length hB hi
  rw [List.getD_eq_getElem _ _ h1] at la
  rw [List.getD_eq_getElem _ _ h2] at lb
  refine List.ext_getElem (by rw [la, lb]) fun j j1 j2 => ?_
  have := h i hi j (la ▸ j1)
  simp only [mget, List.getD_eq_getElem _ _ h1, List.getD_eq_getElem _ _ h2, List.getD_eq_getElem _ _ j1,
    List.getD_eq_getElem _ _ j2] at this
  exact this

theorem toMatrix_inj {m n : ℕ} {A B : List (List K)} (hA : IsMat m n A) (hB : IsMat m n B)
    (h : toMatrix m n A = toMatrix m n B) : A = B :=
  IsMat.ext hA hB fun i hi j hj => congrFun (congrFun h ⟨i, hi⟩) ⟨j, hj⟩

theorem toVec_inj {n : ℕ} {a b : List K} (ha : a.length = n) (hb : b.length = n) (h : toVec n a = toVec n b) : a = b := by
  refine List.ext_getElem (by rw [ha, hb]) fun i h1 h2 => ?_
  have := congrFun h ⟨i, ha ▸ h1⟩
  simpa [toVec, h1, h2] using this

/-- a matrix built row by row -/
theorem isMat_map_range {α : Type _} (m n : ℕ) (f : ℕ → ℕ → α) :
    IsMat m n ((List.range m).map fun i => (List.range n).map (f i)) := by
  constructor
  · simp
  · intro row h
    simp only [List.mem_map] at h
    obtain ⟨i, -, rfl⟩ := h
    simp

theorem mget_map_range (m n : ℕ) (f : ℕ → ℕ → K) {i j : ℕ} (hi : i < m) (hj : j < n) :
    mget ((List.range m).map fun i => (List.range n).map (f i)) i j = f i j := by
  simp [mget, hi, hj]

theorem isMat_mset {m n : ℕ} {A : List (List K)} (h : IsMat m n A) (i j : ℕ) (v : K) : IsMat m n (mset A i j v) := by
  constructor
  · simp [mset, h.1]
  · intro row hr
    simp only [mset] at hr
    obtain ⟨k, hk, rfl⟩ := List.getElem_of_mem hr
    rw [List.getElem_modify]
    simp only [List.length_modify] at hk
    split_ifs
    · simp [h.2 _ (List.getElem_mem hk)]
    · exact h.2 _ (List.getElem_mem hk)

theorem mget_mset {m n : ℕ} {A : List (List K)} (h : IsMat m n A) {i j : ℕ} (hi : i < m) (hj : j < n) (v : K) (i' j' : ℕ) :
    mget (mset A i j v) i' j' = if i' = i ∧ j' = j then v else mget A i' j' := by
  have hr := IsMat.row_length h hi
  simp only [mget, mset, getD_modify', h.1]
  by_cases hii : i = i'
  · subst hii
    rw [if_pos ⟨rfl, hi⟩, getD_set', hr]
    by_cases hjj : j = j'
    · subst hjj; simp [hj]
    · rw [if_neg (by tauto), if_neg (by tauto)]
  · rw [if_neg (by tauto), if_neg (by tauto)]

theorem isMat_replicate (m n : ℕ) (a : K) : IsMat m n (List.replicate m (List.replicate n a)) := by
  constructor
  · simp
  · intro row h; rw [List.eq_of_mem_replicate h]; simp

theorem mget_replicate_zero (m n i j : ℕ) : mget (List.replicate m (List.replicate n (0 : K))) i j = 0 := by
  simp only [mget, List.getD_eq_getElem?_getD, List.getElem?_replicate]
  split_ifs <;> simp [List.getElem?_replicate]
  split_ifs <;> simp

theorem all_length_iff {α : Type _} (A : List (List α)) (n : ℕ) :
    (A.all fun row => row.length = n) = true ↔ ∀ row ∈ A, row.length = n := by simp

end Verif.Arrays
