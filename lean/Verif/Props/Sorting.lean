import Verif.Model.Arrays
import Verif.Lemmas.ListIdx
import Mathlib.Data.List.Nodup
import Mathlib.Data.List.Sort
import Mathlib.Data.Rat.Defs
import Mathlib.Algebra.Order.Ring.Rat

/-! # C19: `argsort1d` and `sort_paired_lists` -/

namespace Verif
open Verif.Arrays List

theorem pair_sublist_or {α : Type _} {a b : α} {l : List α} (ha : a ∈ l) (hb : b ∈ l) (hab : a ≠ b) :
    [a, b] <+ l ∨ [b, a] <+ l := by
  induction l with
  | nil => simp at ha
  | cons x l ih =>
    rcases List.mem_cons.mp ha with rfl | ha'
    · left
      have : b ∈ l := (List.mem_cons.mp hb).resolve_left (Ne.symm hab)
      exact (List.singleton_sublist.mpr this).cons_cons a
    · rcases List.mem_cons.mp hb with rfl | hb'
      · right; exact (List.singleton_sublist.mpr ha').cons_cons b
      · exact (ih ha' hb').imp (·.cons x) (·.cons x)

variable {α : Type _} [LinearOrder α]

/-- C19: `argsort1d(arr)` is a permutation of all indices, and along it `arr` is nondecreasing with equal entries kept in
their original order. This determines it. -/
theorem C19_argsort (arr : List α) (d : α) :
    (argsort1d arr).Perm (List.range arr.length) ∧
    (argsort1d arr).Pairwise (fun i j => arr.getD i d < arr.getD j d ∨ (arr.getD i d = arr.getD j d ∧ i < j)) := by
  set l := arr.zipIdx.map fun p => (p.2, p.1) with hl
  set le : ℕ × α → ℕ × α → Bool := fun x y => decide (x.2 ≤ y.2) with hle
  have hmem : ∀ p ∈ l, arr.getD p.1 d = p.2 := by
    rintro ⟨i, a⟩ h
    simp only [hl, List.mem_map, Prod.mk.injEq] at h
    obtain ⟨⟨a', i'⟩, h1, rfl, rfl⟩ := h
    rw [List.mem_zipIdx_iff_getElem?] at h1
    simp [List.getD, h1]
  have hfst : l.map (·.1) = List.range arr.length := by
    rw [hl, List.map_map]
    have : ((fun x : ℕ × α => x.1) ∘ fun p : α × ℕ => (p.2, p.1)) = Prod.snd := rfl
    rw [this, List.zipIdx_map_snd, List.range_eq_range']
  have hpl : l.Pairwise (fun p q => p.1 < q.1) := by
    have : (l.map (·.1)).Pairwise (· < ·) := by rw [hfst]; exact List.pairwise_lt_range
    exact List.pairwise_map.mp this
  have hnd : l.Nodup := hpl.imp fun h e => by subst e; exact lt_irrefl _ h
  have htr : ∀ a b c : ℕ × α, le a b = true → le b c = true → le a c = true := by
    intro a b c; simp only [hle, decide_eq_true_eq]; exact le_trans
  have hto : ∀ a b : ℕ × α, (le a b || le b a) = true := by
    intro a b; simp only [hle, Bool.or_eq_true, decide_eq_true_eq]; exact le_total _ _
  set s := l.mergeSort le with hs
  have hp : s.Perm l := List.mergeSort_perm l le
  have hsorted : s.Pairwise (fun a b => le a b = true) := List.pairwise_mergeSort htr hto l
  have hsnd : s.Nodup := hp.nodup_iff.mpr hnd
  have e : argsort1d arr = s.map (·.1) := rfl
  refine ⟨?_, ?_⟩
  · rw [e, ← hfst]; exact hp.map _
  · rw [e, List.pairwise_map, List.pairwise_iff_forall_sublist]
    intro p q hpq
    have h1 : p.2 ≤ q.2 := by
      have := List.pairwise_iff_forall_sublist.mp hsorted hpq; simpa [hle] using this
    have mp : p ∈ l := hp.mem_iff.mp (hpq.subset (by simp))
    have mq : q ∈ l := hp.mem_iff.mp (hpq.subset (by simp))
    have hne : p ≠ q := fun h => by
      subst h
      exact List.pairwise_iff_forall_sublist.mp hsnd hpq rfl
    rw [hmem p mp, hmem q mq]
    rcases h1.lt_or_eq with h | h
    · exact Or.inl h
    · refine Or.inr ⟨h, ?_⟩
      rcases pair_sublist_or mp mq hne with hh | hh
      · exact List.pairwise_iff_forall_sublist.mp hpl hh
      · exfalso
        have hqp : [q, p] <+ s := List.pair_sublist_mergeSort htr hto (by simp [hle, h.le, h.ge]) hh
        -- both orders occur in a duplicate-free list: impossible
        have : ∀ {l : List (ℕ × α)}, l.Nodup → [p, q] <+ l → [q, p] <+ l → False := by
          intro l hn h1 h2
          induction l with
          | nil => simp at h1
          | cons x l ih =>
            rw [List.nodup_cons] at hn
            rcases h1 with _ | h1 | h1
            · rcases h2 with _ | h2 | h2
              · exact ih hn.2 ‹_› ‹_›
              · exact hn.1 ((‹[p, q] <+ l› : [p, q] <+ l).subset (by simp))
            · rcases h2 with _ | h2 | h2
              · exact hn.1 ((‹[q, p] <+ l› : [q, p] <+ l).subset (by simp))
              · exact hne rfl
        exact this hsnd hpq hqp

/-- C19: `sort_paired_lists` applies one and the same stable sorting permutation to both lists. -/
theorem C19_sort_paired_lists {β : Type _} [Inhabited α] [Inhabited β] (l1 : List α) (l2 : List β)
    (h : l1.length = l2.length) :
    ∃ idx : List ℕ, idx.Perm (List.range l1.length) ∧
      idx.Pairwise (fun i j => l1.getD i default < l1.getD j default ∨ (l1.getD i default = l1.getD j default ∧ i < j)) ∧
      sort_paired_lists l1 l2 = .ok (idx.map fun i => l1.getD i default, idx.map fun i => l2.getD i default) ∧
      (idx.map fun i => l1.getD i default).Perm l1 ∧ (idx.map fun i => l1.getD i default).Pairwise (· ≤ ·) ∧
      (idx.map fun i => (l1.getD i default, l2.getD i default)).Perm (l1.zip l2) := by
  obtain ⟨h1, h2⟩ := C19_argsort l1 default
  have getAll : ∀ {γ : Type _} [Inhabited γ] (l : List γ), (List.range l.length).map (fun i => l.getD i default) = l := by
    intro γ _ l
    apply List.ext_getElem
    · simp
    · intro i i1 i2
      simp only [List.getElem_map, List.getElem_range]
      exact List.getD_eq_getElem _ _ i2
  refine ⟨argsort1d l1, h1, h2, ?_, ?_, ?_, ?_⟩
  · simp only [sort_paired_lists, h]
    simp only [ne_eq, not_true, if_false]
    split_ifs with h0
    · have e1 : l1 = [] := by rw [← List.length_eq_zero_iff, h, h0]
      subst e1
      simp [argsort1d]
    · rfl
  · have := h1.map fun i => l1.getD i default
    rwa [getAll] at this
  · rw [List.pairwise_map]
    exact h2.imp fun h => h.elim le_of_lt fun h => h.1.le
  · have := h1.map fun i => (l1.getD i default, l2.getD i default)
    refine this.trans ?_
    have : (List.range l1.length).map (fun i => (l1.getD i default, l2.getD i default)) = l1.zip l2 := by
      apply List.ext_getElem
      · simp [h]
      · intro i i1 i2
        simp only [List.length_map, List.length_range] at i1
        simp [i1, h ▸ i1]
    rw [this]

/-- C19: lists of different lengths are rejected. -/
theorem C19_sort_paired_lists_error {β : Type _} [Inhabited α] [Inhabited β] (l1 : List α) (l2 : List β) :
    l1.length ≠ l2.length ↔ sort_paired_lists l1 l2 = .error .valueError := by
  simp only [sort_paired_lists]
  split_ifs with h1 h2 <;> simp [h1]

example : argsort1d [3, 1, 2, 1, (3 : ℤ)] = [1, 3, 2, 0, 4] := by
  simp [argsort1d, List.mergeSort, List.MergeSort.Internal.splitInTwo, List.merge]
example : sort_paired_lists [3, 1, (2 : ℤ)] ["a", "b", "c"] = .ok ([1, 2, 3], ["b", "c", "a"]) := by
  simp [sort_paired_lists, argsort1d, List.mergeSort, List.MergeSort.Internal.splitInTwo, List.merge]
end Verif
