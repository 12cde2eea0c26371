import Verif.Model.Roughness
import Mathlib.Tactic

/-! C117: the pipe roughness database (`fluids/friction.py`). -/

namespace Verif.Roughness
open Verif

/-! ### The tables -/

/-- C117: no material name occurs twice in the three tables together, so the order in which they are searched does not matter. -/
theorem C117_distinct : (Farshad.map Prod.fst ++ clean.map Prod.fst ++ HHR.map Prod.fst).Nodup := by decide +kernel

/-- the one entry of the handbook table whose average is not between its minimum and maximum -/
def oddEntry : String := "Concrete water conduits, no finish, Smoothed air-placed, either sprayed concrete or concrete on more concrete"

/-- what the handbook table satisfies, entry by entry -/
def entryOk (e : String × Option ℚ × Option ℚ × Option ℚ) : Bool :=
  match pick (some true) e.2, pick none e.2, pick (some false) e.2 with
  | some a, some b, some c => decide (0 < a ∧ 0 < b ∧ 0 < c ∧ a ≤ c ∧ (e.1 ≠ oddEntry → a ≤ b ∧ b ≤ c))
  | _, _, _ => false

lemma hhr_all : HHR.all entryOk = true := by decide +kernel

lemma lookup_mem' {α : Type*} {l : List (String × α)} {k : String} {v : α} (h : l.lookup k = some v) : (k, v) ∈ l := by
  induction l with
  | nil => cases h
  | cons a l ih =>
    obtain ⟨x, y⟩ := a
    rw [List.lookup_cons] at h
    by_cases e : k = x
    · subst e
      simp at h
      rw [h]; exact List.mem_cons_self
    · rw [beq_false_of_ne e] at h
      exact List.mem_cons_of_mem _ (ih h)

lemma lookup_of_key {α : Type*} {l : List (String × α)} {k : String} (h : k ∈ l.map Prod.fst) : ∃ v, l.lookup k = some v := by
  induction l with
  | nil => cases h
  | cons a l ih =>
    obtain ⟨x, y⟩ := a
    rw [List.lookup_cons]
    by_cases e : k = x
    · subst e; exact ⟨y, by simp⟩
    · rw [beq_false_of_ne e]
      rw [List.map_cons, List.mem_cons] at h
      exact ih (h.resolve_left e)

lemma lookup_none {α : Type*} {l : List (String × α)} {k : String} (h : k ∉ l.map Prod.fst) : l.lookup k = none := by
  rcases e : l.lookup k with _ | v
  · rfl
  · exact absurd (List.mem_map_of_mem (f := Prod.fst) (lookup_mem' e)) h

lemma pick_spec {k : String} {e : Option ℚ × Option ℚ × Option ℚ} (h : HHR.lookup k = some e) :
    ∃ a b c : ℚ, pick (some true) e = some a ∧ pick none e = some b ∧ pick (some false) e = some c ∧ 0 < a ∧ 0 < b ∧ 0 < c ∧ a ≤ c ∧ (k ≠ oddEntry → a ≤ b ∧ b ≤ c) := by
  have := List.all_eq_true.1 hhr_all _ (lookup_mem' h)
  unfold entryOk at this
  rcases h1 : pick (some true) e with _ | a <;> rcases h2 : pick none e with _ | b <;> rcases h3 : pick (some false) e with _ | c <;> simp only [h1, h2, h3] at this <;>
    first | exact absurd this (by decide) | skip
  exact ⟨a, b, c, rfl, rfl, rfl, of_decide_eq_true this⟩

/-! ### Farshad's correlation -/

lemma farshad_pos {k : String} {d : ℚ × ℚ × ℚ} (h : Farshad.lookup k = some d) : 0 < d.1 ∧ 0 < d.2.1 ∧ d.2.2 + 1 < 0 := by
  have : Farshad.all (fun e => decide (0 < e.2.1 ∧ 0 < e.2.2.1 ∧ e.2.2.2 + 1 < 0)) = true := by decide +kernel
  exact of_decide_eq_true (List.all_eq_true.1 this _ (lookup_mem' h))

/-- C117: Farshad's roughness of a named material is its average, or with a diameter `A (D/in)^(B+1) in` with its coefficients, which decreases with the diameter; coefficients given along
with a name are ignored, a name not in the table is an UnboundLocalError. -/
theorem C117_farshad {ID : String} (coeffs : Option (ℝ × ℝ)) :
    (∀ e ∈ Farshad, roughness_Farshad (some e.1) none coeffs = .ok (e.2.1 : ℝ)) ∧
    (∀ e ∈ Farshad, ∀ D, roughness_Farshad (some e.1) (some D) coeffs = roughness_Farshad none (some D) (some ((e.2.2.1 : ℝ), (e.2.2.2 : ℝ)))) ∧
    (∀ e ∈ Farshad, ∀ D D' : ℝ, 0 < D → D < D' → ∃ r r', roughness_Farshad (some e.1) (some D) coeffs = .ok r ∧ roughness_Farshad (some e.1) (some D') coeffs = .ok r' ∧ 0 < r' ∧ r' < r) ∧
    (∀ A B D : ℝ, 0 < D → roughness_Farshad none (some D) (some (A, B)) = .ok (A * (D / 0.0254) ^ (B + 1) * 0.0254)) ∧
    (∀ c, roughness_Farshad none none (some c) = .error .valueError) ∧
    (ID ∉ Farshad.map Prod.fst → ∀ D, roughness_Farshad (some ID) D coeffs = .error .unboundLocalError) ∧
    (∀ D, roughness_Farshad none D none = .error .unboundLocalError) := by
  have look : ∀ e ∈ Farshad, Farshad.lookup e.1 = some e.2 := by
    intro e he
    obtain ⟨v, hv⟩ := lookup_of_key (List.mem_map_of_mem (f := Prod.fst) he)
    have hm := lookup_mem' hv
    have inj : ∀ x ∈ Farshad, ∀ y ∈ Farshad, x.1 = y.1 → x = y := by decide +kernel
    have := inj _ hm _ he rfl
    rw [hv, ← this]
  have hform : ∀ A B D : ℝ, 0 < D → farshadFormula A B D = .ok (A * (D / 0.0254) ^ (B + 1) * 0.0254) := by
    intro A B D hD
    unfold farshadFormula
    rw [ppow_ok (by positivity), Py.ok_bind, Py.pure_eq]
  have hname : ∀ e ∈ Farshad, ∀ D, roughness_Farshad (some e.1) (some D) coeffs = farshadFormula (e.2.2.1 : ℝ) (e.2.2.2 : ℝ) D := by
    intro e he D
    simp only [roughness_Farshad, farshadLookup, Option.bind_some, look e he]
  refine ⟨fun e he => ?_, fun e he D => ?_, fun e he D D' hD hD' => ?_, fun A B D hD => hform A B D hD, fun c => rfl, fun h D => ?_, fun D => rfl⟩
  · simp only [roughness_Farshad, farshadLookup, Option.bind_some, look e he]
  · rw [hname e he]
    rfl
  · obtain ⟨-, h2, h3⟩ := farshad_pos (look e he)
    have h2' : (0 : ℝ) < e.2.2.1 := by exact_mod_cast h2
    have h3' : (e.2.2.2 : ℝ) + 1 < 0 := by exact_mod_cast h3
    refine ⟨_, _, (hname e he D).trans (hform _ _ _ hD), (hname e he D').trans (hform _ _ _ (hD.trans hD')), ?_, ?_⟩
    · have : 0 < D' := hD.trans hD'
      positivity
    · have : (D' / 0.0254) ^ ((e.2.2.2 : ℝ) + 1) < (D / 0.0254) ^ ((e.2.2.2 : ℝ) + 1) := Real.rpow_lt_rpow_of_neg (by positivity) (by gcongr) h3'
      gcongr
  · simp only [roughness_Farshad, farshadLookup, Option.bind_some, lookup_none h]

/-! ### Search -/

variable {near : String → List String → String}

/-- a string matcher picks one of the strings it is given -/
def Picks (near : String → List String → String) : Prop := ∀ s l, l ≠ [] → near s l ∈ l

/-- C117: the nearest name is in the table asked for. (Finding: `clean=True` searches the clean materials and Farshad's, `clean=False` the handbook, but `clean=None`, documented as both,
never finds any of Farshad's, not even its exact name.) -/
theorem C117_nearest (hp : Picks near) (s : String) :
    nearest_material_roughness near s (some true) ∈ clean.map Prod.fst ++ Farshad.map Prod.fst ∧
    nearest_material_roughness near s (some false) ∈ HHR.map Prod.fst ∧
    nearest_material_roughness near s none ∈ HHR.map Prod.fst ++ clean.map Prod.fst ∧ nearest_material_roughness near s none ∉ Farshad.map Prod.fst := by
  have h := hp s allNames (by decide +kernel)
  refine ⟨hp s _ (by decide +kernel), hp s _ (by decide +kernel), h, fun h' => ?_⟩
  have hd := C117_distinct
  rw [List.append_assoc] at hd
  have := (List.nodup_append.1 hd).2.2 _ h' _ (by
    have h2 : near s allNames ∈ HHR.map Prod.fst ++ clean.map Prod.fst := h
    rw [List.mem_append] at h2 ⊢
    exact h2.symm)
  exact this rfl

/-! ### `material_roughness` -/

lemma known_total (ID : String) (D : Option ℝ) (hD : ∀ d, D = some d → 0 < d) (o : Option Bool) (h : ID ∈ Farshad.map Prod.fst ∨ ID ∈ clean.map Prod.fst ∨ ID ∈ HHR.map Prod.fst) :
    ∃ r : ℝ, 0 < r ∧ known ID D o = some (.ok (some r)) := by
  unfold known
  rcases h1 : Farshad.lookup ID with _ | d
  · rcases h2 : clean.lookup ID with _ | c
    · rcases h3 : HHR.lookup ID with _ | e
      · exfalso
        rcases h with h | h | h
        · obtain ⟨v, hv⟩ := lookup_of_key h; rw [hv] at h1; cases h1
        · obtain ⟨v, hv⟩ := lookup_of_key h; rw [hv] at h2; cases h2
        · obtain ⟨v, hv⟩ := lookup_of_key h; rw [hv] at h3; cases h3
      · obtain ⟨a, b, c, ha, hb, hc, pa, pb, pc, -⟩ := pick_spec h3
        rcases o with _ | _ | _
        · exact ⟨b, by exact_mod_cast pb, by simp only [hb, Option.map_some]⟩
        · exact ⟨c, by exact_mod_cast pc, by simp only [hc, Option.map_some]⟩
        · exact ⟨a, by exact_mod_cast pa, by simp only [ha, Option.map_some]⟩
    · have : clean.all (fun e => decide (0 < e.2)) = true := by decide +kernel
      have hp : (0 : ℚ) < c := of_decide_eq_true (List.all_eq_true.1 this _ (lookup_mem' h2))
      exact ⟨c, by exact_mod_cast hp, rfl⟩
  · obtain ⟨p1, p2, -⟩ := farshad_pos h1
    simp only [roughness_Farshad, farshadLookup, Option.bind_some, h1]
    rcases D with _ | x
    · exact ⟨d.1, by exact_mod_cast p1, by simp only [Py.ok_bind, Py.pure_eq]⟩
    · have hx := hD x rfl
      unfold farshadFormula
      simp only [ppow_ok (show 0 < x / 0.0254 by positivity), Py.ok_bind, Py.pure_eq]
      have : (0 : ℝ) < d.2.1 := by exact_mod_cast p2
      exact ⟨_, by positivity, rfl⟩

lemma known_none {ID : String} (h : ID ∉ Farshad.map Prod.fst ++ clean.map Prod.fst ++ HHR.map Prod.fst) (D : Option ℝ) (o : Option Bool) : known ID D o = none := by
  simp only [List.mem_append, not_or] at h
  unfold known
  simp only [lookup_none h.1.1, lookup_none h.1.2, lookup_none h.2]

/-- C117: every name gets a positive roughness within two calls, never None and never an endless recursion: a name outside the three tables that of its nearest handbook material, for which the
diameter is not used. -/
theorem C117_total (hp : Picks near) (ID : String) (D : Option ℝ) (hD : ∀ d, D = some d → 0 < d) (o : Option Bool) (n : ℕ) :
    (∃ r : ℝ, 0 < r ∧ material_roughness near (n + 2) ID D o = .ok (some r)) ∧
    (ID ∉ Farshad.map Prod.fst ++ clean.map Prod.fst ++ HHR.map Prod.fst →
      material_roughness near (n + 2) ID D o = material_roughness near (n + 1) (nearest_material_roughness near ID (some false)) D o ∧
      material_roughness near (n + 2) ID D o = material_roughness near (n + 2) ID none o) := by
  have hnear := (C117_nearest hp ID).2.1
  constructor
  · by_cases h : ID ∈ Farshad.map Prod.fst ++ clean.map Prod.fst ++ HHR.map Prod.fst
    · simp only [List.mem_append, or_assoc] at h
      obtain ⟨r, hr, e⟩ := known_total ID D hD o h
      exact ⟨r, hr, by simp only [material_roughness, e]⟩
    · obtain ⟨r, hr, e⟩ := known_total _ D hD o (.inr (.inr hnear))
      exact ⟨r, hr, by simp only [material_roughness, known_none h, e]⟩
  · intro h
    have hd := C117_distinct
    have hno : ∀ k ∈ HHR.map Prod.fst, Farshad.lookup k = none ∧ clean.lookup k = none := by
      intro k hk
      have := (List.nodup_append.1 hd).2.2
      exact ⟨lookup_none fun h' => this k (List.mem_append_left _ h') k hk rfl, lookup_none fun h' => this k (List.mem_append_right _ h') k hk rfl⟩
    obtain ⟨e, he⟩ := lookup_of_key hnear
    have hk : ∀ D, known (nearest_material_roughness near ID (some false)) D o = some (.ok ((pick o e).map fun q : ℚ => (q : ℝ))) := by
      intro D
      unfold known
      simp only [(hno _ hnear).1, (hno _ hnear).2, he]
    exact ⟨by simp only [material_roughness, known_none h], by simp only [material_roughness, known_none h, hk]⟩

/-- C117: optimism never increases the roughness; the neutral value lies in between. (Finding: except for one concrete surface, whose average 0.5 mm is below its minimum 6 mm, so that the
neutral roughness is smaller than the optimistic one.) -/
theorem C117_optimism (hp : Picks near) (ID : String) (D : Option ℝ) (hD : ∀ d, D = some d → 0 < d) (n : ℕ) :
    ∃ a b c : ℝ, material_roughness near (n + 2) ID D (some true) = .ok (some a) ∧ material_roughness near (n + 2) ID D none = .ok (some b) ∧
      material_roughness near (n + 2) ID D (some false) = .ok (some c) ∧ a ≤ c ∧
      (ID ≠ oddEntry → (ID ∈ Farshad.map Prod.fst ++ clean.map Prod.fst ++ HHR.map Prod.fst ∨ nearest_material_roughness near ID (some false) ≠ oddEntry) → a ≤ b ∧ b ≤ c) := by
  have key : ∀ k : String, (k ∈ Farshad.map Prod.fst ∨ k ∈ clean.map Prod.fst ∨ k ∈ HHR.map Prod.fst) → ∃ a b c : ℝ, known k D (some true) = some (.ok (some a)) ∧
      known k D none = some (.ok (some b)) ∧ known k D (some false) = some (.ok (some c)) ∧ a ≤ c ∧ (k ≠ oddEntry → a ≤ b ∧ b ≤ c) := by
    intro k hk
    obtain ⟨a, -, ha⟩ := known_total k D hD (some true) hk
    obtain ⟨b, -, hb⟩ := known_total k D hD none hk
    obtain ⟨c, -, hc⟩ := known_total k D hD (some false) hk
    refine ⟨a, b, c, ha, hb, hc, ?_⟩
    unfold known at ha hb hc
    rcases h1 : Farshad.lookup k with _ | d
    · rcases h2 : clean.lookup k with _ | q
      · rcases h3 : HHR.lookup k with _ | e
        · simp only [h1, h2, h3] at ha; cases ha
        · obtain ⟨x, y, z, hx, hy, hz, -, -, -, hxz, hxyz⟩ := pick_spec h3
          simp only [h1, h2, h3, hx, hy, hz, Option.map_some, Option.some.injEq, Except.ok.injEq] at ha hb hc
          subst ha hb hc
          exact ⟨by exact_mod_cast hxz, fun h => ⟨by exact_mod_cast (hxyz h).1, by exact_mod_cast (hxyz h).2⟩⟩
      · simp only [h1, h2, Option.some.injEq, Except.ok.injEq] at ha hb hc
        subst ha hb hc
        exact ⟨le_rfl, fun _ => ⟨le_rfl, le_rfl⟩⟩
    · simp only [h1] at ha hb hc
      rw [ha] at hb hc
      simp only [Option.some.injEq, Except.ok.injEq] at hb hc
      subst hb hc
      exact ⟨le_rfl, fun _ => ⟨le_rfl, le_rfl⟩⟩
  by_cases h : ID ∈ Farshad.map Prod.fst ++ clean.map Prod.fst ++ HHR.map Prod.fst
  · have h' := h
    simp only [List.mem_append, or_assoc] at h'
    obtain ⟨a, b, c, ha, hb, hc, hac, habc⟩ := key ID h'
    exact ⟨a, b, c, by simp only [material_roughness, ha], by simp only [material_roughness, hb], by simp only [material_roughness, hc], hac, fun hne _ => habc hne⟩
  · obtain ⟨a, b, c, ha, hb, hc, hac, habc⟩ := key _ (.inr (.inr (C117_nearest hp ID).2.1))
    exact ⟨a, b, c, by simp only [material_roughness, known_none h, ha], by simp only [material_roughness, known_none h, hb], by simp only [material_roughness, known_none h, hc], hac,
      fun _ hne => habc (hne.resolve_left h)⟩

/-- C117: which of the handbook's minimum, maximum and average is taken: neutral the average, else the maximum, else the minimum; optimistic the minimum, else the average, else the maximum;
pessimistic the maximum, else the average, else the minimum. The tables contain no zero. -/
theorem C117_priority (n : ℕ) (D : Option ℝ) {e : String × Option ℚ × Option ℚ × Option ℚ} (he : e ∈ HHR) :
    let lo := e.2.1
    let hi := e.2.2.1
    let avg := e.2.2.2
    let real := fun o : Option ℚ => o.map fun q : ℚ => (q : ℝ);
    material_roughness near (n + 1) e.1 D none = .ok (real (avg <|> hi <|> lo)) ∧
    material_roughness near (n + 1) e.1 D (some true) = .ok (real (lo <|> avg <|> hi)) ∧
    material_roughness near (n + 1) e.1 D (some false) = .ok (real (hi <|> avg <|> lo)) := by
  have hd := C117_distinct
  have hk : e.1 ∈ HHR.map Prod.fst := List.mem_map_of_mem he
  have h1 : Farshad.lookup e.1 = none := lookup_none fun h => (List.nodup_append.1 hd).2.2 _ (List.mem_append_left _ h) _ hk rfl
  have h2 : clean.lookup e.1 = none := lookup_none fun h => (List.nodup_append.1 hd).2.2 _ (List.mem_append_right _ h) _ hk rfl
  obtain ⟨v, hv⟩ := lookup_of_key hk
  have inj : (HHR.map Prod.fst).Nodup := (List.nodup_append.1 hd).2.1
  have hve : v = e.2 := by
    have := List.inj_on_of_nodup_map inj (lookup_mem' hv) he rfl
    exact congrArg Prod.snd this
  have key : HHR.all (fun e => decide (pick none e.2 = (e.2.2.2 <|> e.2.2.1 <|> e.2.1) ∧ pick (some true) e.2 = (e.2.1 <|> e.2.2.2 <|> e.2.2.1) ∧
      pick (some false) e.2 = (e.2.2.1 <|> e.2.2.2 <|> e.2.1))) = true := by decide +kernel
  have k := of_decide_eq_true (List.all_eq_true.1 key _ he)
  have kn : ∀ o, known e.1 D o = some (.ok ((pick o e.2).map fun q : ℚ => (q : ℝ))) := by
    intro o
    unfold known
    simp only [h1, h2, hv, hve]
  refine ⟨?_, ?_, ?_⟩ <;> simp only [material_roughness, kn, k.1, k.2.1, k.2.2]

/-- C117: the finding: for that surface the neutral roughness is a twelfth of the optimistic one. -/
theorem C117_odd (n : ℕ) : material_roughness near (n + 1) oddEntry none none = .ok (some 0.0005) ∧ material_roughness near (n + 1) oddEntry none (some true) = .ok (some 0.006) ∧
    material_roughness near (n + 1) oddEntry none (some false) = .ok (some 0.017) := by
  have h1 : Farshad.lookup oddEntry = none := by decide +kernel
  have h2 : clean.lookup oddEntry = none := by decide +kernel
  have h3 : HHR.lookup oddEntry = some (u 60000, u 170000, u 5000) := by decide +kernel
  have e : ∀ o, known oddEntry none o = some (.ok ((pick o (u 60000, u 170000, u 5000)).map fun q : ℚ => (q : ℝ))) := by
    intro o
    unfold known
    simp only [h1, h2, h3]
  refine ⟨?_, ?_, ?_⟩ <;> simp only [material_roughness, e] <;> norm_num [pick, orIfZero, u]

/-- a matcher that meets the hypothesis -/
example : ∃ near, Picks near ∧ nearest_material_roughness near "steel" (some true) = "Brass" :=
  ⟨fun _ l => l.headD "", fun _ l hl => by cases l with | nil => exact absurd rfl hl | cons a l => exact List.mem_cons_self, rfl⟩

end Verif.Roughness
