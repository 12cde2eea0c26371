import Verif.Spec.Poly
import Verif.Model.PolyEval
import Mathlib.Analysis.Calculus.Deriv.Polynomial
import Mathlib.Analysis.Calculus.IteratedDeriv.Defs

namespace Verif.Spec
open Polynomial
variable {K : Type _} [CommRing K]

@[simp] theorem polyDesc_nil : polyDesc ([] : List K) = 0 := by simp [polyDesc]
@[simp] theorem polyAsc_nil : polyAsc ([] : List K) = 0 := by simp [polyAsc]

theorem polyAsc_cons (a : K) (c : List K) : polyAsc (a :: c) = C a + X * polyAsc c := by
  simp only [polyAsc, List.length_cons]
  rw [Fin.sum_univ_succ]
  simp [Finset.mul_sum, pow_succ]
  refine Finset.sum_congr rfl fun i _ => ?_
  ring

theorem polyDesc_cons (a : K) (c : List K) : polyDesc (a :: c) = C a * X ^ c.length + polyDesc c := by
  simp only [polyDesc, List.length_cons]
  rw [Fin.sum_univ_succ]
  simp
  refine Finset.sum_congr rfl fun i _ => ?_
  congr 2
  omega

theorem polyDesc_append_singleton (c : List K) (a : K) : polyDesc (c ++ [a]) = X * polyDesc c + C a := by
  induction c with
  | nil => simp [polyDesc_cons]
  | cons b c ih =>
    rw [List.cons_append, polyDesc_cons, polyDesc_cons, ih]
    simp [pow_succ]; ring

theorem polyDesc_reverse (c : List K) : polyDesc c.reverse = polyAsc c := by
  induction c with
  | nil => simp
  | cons a c ih => rw [List.reverse_cons, polyDesc_append_singleton, ih, polyAsc_cons]; ring

theorem polyAsc_reverse (c : List K) : polyAsc c.reverse = polyDesc c := by
  rw [← polyDesc_reverse, List.reverse_reverse]
end Verif.Spec

namespace Verif.PolyEval
open Polynomial Verif.Spec
variable {K : Type _} [CommRing K]

theorem horner_eq_eval (c : List K) (x : K) : horner c x = (polyDesc c).eval x := by
  induction c using List.reverseRecOn with
  | nil => simp [horner]
  | append_singleton c a ih =>
    rw [polyDesc_append_singleton]
    simp only [horner, List.foldl_append, List.foldl_cons, List.foldl_nil] at *
    rw [ih]; simp; ring

/-- loop invariant of the five nested Horner recurrences -/
theorem horner4_loop (c : List K) (x : K) :
    ∃ d2 d3 d4 : K, c.foldl
    (fun ((f, der, der2, der3, der4) : K × K × K × K × K) a =>
      (x * f + a, x * der + f, x * der2 + der, x * der3 + der2, x * der4 + der3)) (0, 0, 0, 0, 0)
      = ((polyDesc c).eval x, (derivative (polyDesc c)).eval x, d2, d3, d4) ∧
      2 * d2 = (derivative^[2] (polyDesc c)).eval x ∧ 6 * d3 = (derivative^[3] (polyDesc c)).eval x ∧
      24 * d4 = (derivative^[4] (polyDesc c)).eval x := by
  simp only [Function.iterate_succ_apply', Function.iterate_zero_apply]
  induction c using List.reverseRecOn with
  | nil => exact ⟨0, 0, 0, by simp, by simp, by simp, by simp⟩
  | append_singleton c a ih =>
    obtain ⟨d2, d3, d4, h, h2, h3, h4⟩ := ih
    refine ⟨x * d2 + (derivative (polyDesc c)).eval x, x * d3 + d2, x * d4 + d3, ?_, ?_, ?_, ?_⟩
    · rw [List.foldl_append, h]; simp [polyDesc_append_singleton]; ring
    all_goals
      simp [polyDesc_append_singleton]
    · linear_combination x * h2
    · linear_combination x * h3 + 3 * h2
    · linear_combination x * h4 + 4 * h3

theorem horner3_loop (c : List K) (x : K) :
    c.foldl (fun ((f, der, der2, der3) : K × K × K × K) a =>
      (x * f + a, x * der + f, x * der2 + der, x * der3 + der2)) (0, 0, 0, 0) =
    (fun t : K × K × K × K × K => (t.1, t.2.1, t.2.2.1, t.2.2.2.1)) (c.foldl
    (fun ((f, der, der2, der3, der4) : K × K × K × K × K) a =>
      (x * f + a, x * der + f, x * der2 + der, x * der3 + der2, x * der4 + der3)) (0, 0, 0, 0, 0)) := by
  induction c using List.reverseRecOn with
  | nil => simp
  | append_singleton c a ih => simp only [List.foldl_append, List.foldl_cons, List.foldl_nil, ih]

theorem horner2_loop (c : List K) (x : K) :
    c.foldl (fun ((f, der, der2) : K × K × K) a =>
      (x * f + a, x * der + f, x * der2 + der)) (0, 0, 0) =
    (fun t : K × K × K × K × K => (t.1, t.2.1, t.2.2.1)) (c.foldl
    (fun ((f, der, der2, der3, der4) : K × K × K × K × K) a =>
      (x * f + a, x * der + f, x * der2 + der, x * der3 + der2, x * der4 + der3)) (0, 0, 0, 0, 0)) := by
  induction c using List.reverseRecOn with
  | nil => simp
  | append_singleton c a ih => simp only [List.foldl_append, List.foldl_cons, List.foldl_nil, ih]

theorem horner1_loop (c : List K) (x : K) :
    c.foldl (fun ((f, der) : K × K) a => (x * f + a, x * der + f)) (0, 0) =
    (fun t : K × K × K × K × K => (t.1, t.2.1)) (c.foldl
    (fun ((f, der, der2, der3, der4) : K × K × K × K × K) a =>
      (x * f + a, x * der + f, x * der2 + der, x * der3 + der2, x * der4 + der3)) (0, 0, 0, 0, 0)) := by
  induction c using List.reverseRecOn with
  | nil => simp
  | append_singleton c a ih => simp only [List.foldl_append, List.foldl_cons, List.foldl_nil, ih]

theorem horner_and_der_eq (c : List K) (x : K) :
    horner_and_der c x = ((polyDesc c).eval x, (derivative (polyDesc c)).eval x) := by
  obtain ⟨d2, d3, d4, h, -, -, -⟩ := horner4_loop c x
  rw [horner_and_der, horner1_loop, h]

theorem horner_and_der2_eq (c : List K) (x : K) :
    horner_and_der2 c x = ((polyDesc c).eval x, (derivative (polyDesc c)).eval x,
      (derivative^[2] (polyDesc c)).eval x) := by
  obtain ⟨d2, d3, d4, h, h2, -, -⟩ := horner4_loop c x
  rw [horner_and_der2, horner2_loop, h, ← h2]; simp; ring

theorem horner_and_der3_eq (c : List K) (x : K) :
    horner_and_der3 c x = ((polyDesc c).eval x, (derivative (polyDesc c)).eval x,
      (derivative^[2] (polyDesc c)).eval x, (derivative^[3] (polyDesc c)).eval x) := by
  obtain ⟨d2, d3, d4, h, h2, h3, -⟩ := horner4_loop c x
  rw [horner_and_der3, horner3_loop, h, ← h2, ← h3]; simp; constructor <;> ring

theorem horner_and_der4_eq (c : List K) (x : K) :
    horner_and_der4 c x = ((polyDesc c).eval x, (derivative (polyDesc c)).eval x,
      (derivative^[2] (polyDesc c)).eval x, (derivative^[3] (polyDesc c)).eval x,
      (derivative^[4] (polyDesc c)).eval x) := by
  obtain ⟨d2, d3, d4, h, h2, h3, h4⟩ := horner4_loop c x
  rw [horner_and_der4, h, ← h2, ← h3, ← h4]; simp; refine ⟨?_, ?_, ?_⟩ <;> ring

end Verif.PolyEval
