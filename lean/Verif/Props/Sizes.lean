import Verif.Model.Sizes

/-!
# C39: standard sizes are rounded up to the least adequate one
-/

namespace Verif.Sizes

/-- Specification: `r` is the least member of `sizes` that is at least `x`. -/
def LeastAdequate (sizes : List ℚ) (x r : ℚ) : Prop := r ∈ sizes ∧ x ≤ r ∧ ∀ s ∈ sizes, x ≤ s → r ≤ s

theorem firstAdequate_spec (x : ℚ) : ∀ l : List ℚ, l.Pairwise (· < ·) →
    (∃ r, firstAdequate x l = .ok r ∧ LeastAdequate l x r) ∨ (firstAdequate x l = .error .valueError ∧ ∀ s ∈ l, s < x) := by
  intro l
  induction l with
  | nil => intro _; exact .inr ⟨rfl, by simp⟩
  | cons a t ih =>
    intro h
    unfold firstAdequate
    by_cases c : a ≥ x
    · rw [if_pos c]
      refine .inl ⟨a, rfl, List.mem_cons_self, c, fun s hs _ => ?_⟩
      rcases List.mem_cons.mp hs with rfl | hs
      · exact le_rfl
      · exact (List.rel_of_pairwise_cons h hs).le
    · rw [if_neg c]
      rcases ih h.of_cons with ⟨r, e, h1, h2, h3⟩ | ⟨e, h1⟩
      · refine .inl ⟨r, e, List.mem_cons_of_mem _ h1, h2, fun s hs hx => ?_⟩
        rcases List.mem_cons.mp hs with rfl | hs
        · exact absurd hx c
        · exact h3 s hs hx
      · refine .inr ⟨e, fun s hs => ?_⟩
        rcases List.mem_cons.mp hs with rfl | hs
        · exact not_le.mp c
        · exact h1 s hs

/-- C39: for every power, `motor_round_size` returns the least NEMA size not below it, or raises `ValueError` and every size is below it. -/
theorem C39_motor (P : ℚ) : (∃ r, motor_round_size P = .ok r ∧ LeastAdequate nema_sizes P r) ∨
    (motor_round_size P = .error .valueError ∧ ∀ s ∈ nema_sizes, s < P) :=
  firstAdequate_spec P nema_sizes (by decide +kernel)

/-- C39: for every area, `API520_round_size` returns the least API 526 area not below it, or raises `ValueError` and every area is below it. -/
theorem C39_API520 (A : ℚ) : (∃ r, API520_round_size A = .ok r ∧ LeastAdequate API526_A A r) ∨
    (API520_round_size A = .error .valueError ∧ ∀ s ∈ API526_A, s < A) :=
  firstAdequate_spec A API526_A (by decide +kernel)

/-- C39: rounding is idempotent and monotone: a listed size is returned unchanged, and a larger request never gets a smaller size. -/
theorem C39_monotone {A B a b : ℚ} (hAB : A ≤ B) :
    (motor_round_size A = .ok a → motor_round_size B = .ok b → a ≤ b) ∧ (API520_round_size A = .ok a → API520_round_size B = .ok b → a ≤ b) ∧
    (motor_round_size A = .ok a → motor_round_size a = .ok a) ∧ (API520_round_size A = .ok a → API520_round_size a = .ok a) := by
  have key : ∀ (f : ℚ → Py ℚ) (l : List ℚ), (∀ x, (∃ r, f x = .ok r ∧ LeastAdequate l x r) ∨ (f x = .error .valueError ∧ ∀ s ∈ l, s < x)) →
      (f A = .ok a → f B = .ok b → a ≤ b) ∧ (f A = .ok a → f a = .ok a) := by
    intro f l h
    have get : ∀ {x r}, f x = .ok r → LeastAdequate l x r := by
      intro x r hr
      rcases h x with ⟨r', e, h'⟩ | ⟨e, -⟩
      · rw [e] at hr; obtain rfl := Except.ok.inj hr; exact h'
      · rw [e] at hr; exact absurd hr (by simp)
    refine ⟨fun ha hb => ?_, fun ha => ?_⟩
    · obtain ⟨-, -, a3⟩ := get ha
      obtain ⟨b1, b2, -⟩ := get hb
      exact a3 b b1 (hAB.trans b2)
    · obtain ⟨a1, a2, a3⟩ := get ha
      rcases h a with ⟨r, e, r1, r2, r3⟩ | ⟨-, e⟩
      · rw [e, le_antisymm (r3 a a1 le_rfl) r2]
      · exact absurd (e a a1) (lt_irrefl _)
  exact ⟨(key _ _ C39_motor).1, (key _ _ C39_API520).1, (key _ _ C39_motor).2, (key _ _ C39_API520).2⟩

/-- C39: the letter designation is found by position, one letter per area. -/
theorem C39_letters : API526_letters.length = API526_A.length ∧ API526_letters.Nodup ∧ API526_A.Nodup := by decide +kernel

example : API520_round_size (1/10000) = .ok (12645136/10^11) ∧ API526_letters[API526_A.idxOf (12645136/10^11)]? = some "E" := by decide +kernel
example : motor_round_size 400000 = .error .valueError ∧ motor_round_size (-1) = .ok (Const.hp / 4) := by decide +kernel

end Verif.Sizes
