import Verif.Model.TwoPhaseRegime

/-! C102: the `two_phase_dP` front end. -/

open Real

noncomputable section

namespace Verif.TwoPhase

/-- The optional physical arguments of `two_phase_dP`. -/
inductive Arg | rhog | mul | mug | sigma | P | Pc | angle
deriving DecidableEq

/-- The documented methods: name, required optional arguments, and the correlation it stands for (an argument not given counts as 0). -/
def documented (ff : ℝ → ℝ → Py ℝ) (m x rhol D L roughness : ℝ) (v : Arg → ℝ) : List (String × List Arg × Py ℝ) :=
  [("Zhang_Webb", [.mul, .P, .Pc], Zhang_Webb ff m x rhol (v .mul) (some (v .P)) (some (v .Pc)) D roughness L),
   ("Lockhart_Martinelli", [.rhog, .mul, .mug], Lockhart_Martinelli m x rhol (v .rhog) (v .mul) (v .mug) D L 2000),
   ("Bankoff", [.rhog, .mul, .mug], Bankoff ff m x rhol (v .rhog) (v .mul) (v .mug) D roughness L),
   ("Baroczy_Chisholm", [.rhog, .mul, .mug], Baroczy_Chisholm ff m x rhol (v .rhog) (v .mul) (v .mug) D roughness L),
   ("Chisholm", [.rhog, .mul, .mug], Chisholm ff m x rhol (v .rhog) (v .mul) (v .mug) D roughness L false),
   ("Gronnerud", [.rhog, .mul, .mug], Gronnerud ff m x rhol (v .rhog) (v .mul) (v .mug) D roughness L),
   ("Jung_Radermacher", [.rhog, .mul, .mug], Jung_Radermacher ff m x rhol (v .rhog) (v .mul) (v .mug) D roughness L),
   ("Muller_Steinhagen_Heck", [.rhog, .mul, .mug], Muller_Steinhagen_Heck ff m x rhol (v .rhog) (v .mul) (v .mug) D roughness L),
   ("Theissing", [.rhog, .mul, .mug], Theissing ff m x rhol (v .rhog) (v .mul) (v .mug) D roughness L),
   ("Wang_Chiang_Lu", [.rhog, .mul, .mug], Wang_Chiang_Lu ff m x rhol (v .rhog) (v .mul) (v .mug) D roughness L),
   ("Yu_France", [.rhog, .mul, .mug], Yu_France ff m x rhol (v .rhog) (v .mul) (v .mug) D roughness L),
   ("Kim_Mudawar", [.rhog, .mul, .mug, .sigma], Kim_Mudawar m x rhol (v .rhog) (v .mul) (v .mug) (v .sigma) D L),
   ("Friedel", [.rhog, .mul, .mug, .sigma], Friedel ff m x rhol (v .rhog) (v .mul) (v .mug) (v .sigma) D roughness L),
   ("Hwang_Kim", [.rhog, .mul, .mug, .sigma], Hwang_Kim ff m x rhol (v .rhog) (v .mul) (v .mug) (v .sigma) D roughness L),
   ("Mishima_Hibiki", [.rhog, .mul, .mug, .sigma], Mishima_Hibiki ff m x rhol (v .rhog) (v .mul) (v .mug) (v .sigma) D roughness L),
   ("Tran", [.rhog, .mul, .mug, .sigma], Tran ff m x rhol (v .rhog) (v .mul) (v .mug) (v .sigma) D roughness L),
   ("Xu_Fang", [.rhog, .mul, .mug, .sigma], Xu_Fang ff m x rhol (v .rhog) (v .mul) (v .mug) (v .sigma) D roughness L),
   ("Zhang_Hibiki_Mishima", [.rhog, .mul, .mug, .sigma],
     Zhang_Hibiki_Mishima ff m x rhol (v .rhog) (v .mul) (v .mug) (v .sigma) D roughness L "adiabatic vapor"),
   ("Chen_Friedel", [.rhog, .mul, .mug, .sigma], Chen_Friedel ff m x rhol (v .rhog) (v .mul) (v .mug) (v .sigma) D roughness L),
   ("Lombardi_Pedrocchi", [.rhog, .sigma], Lombardi_Pedrocchi m x rhol (v .rhog) (v .sigma) D L),
   ("Chisholm rough", [.rhog, .mul, .mug], Chisholm ff m x rhol (v .rhog) (v .mul) (v .mug) D roughness L true),
   ("Zhang_Hibiki_Mishima adiabatic gas", [.rhog, .mul, .mug, .sigma],
     Zhang_Hibiki_Mishima ff m x rhol (v .rhog) (v .mul) (v .mug) (v .sigma) D roughness L "adiabatic gas"),
   ("Zhang_Hibiki_Mishima flow boiling", [.rhog, .mul, .mug, .sigma],
     Zhang_Hibiki_Mishima ff m x rhol (v .rhog) (v .mul) (v .mug) (v .sigma) D roughness L "flow boiling"),
   ("Beggs-Brill", [.rhog, .mul, .mug, .sigma, .P, .angle],
     Beggs_Brill ff m x rhol (v .rhog) (v .mul) (v .mug) (v .sigma) (some (v .P)) D (some (v .angle)) roughness L 9.80665 false)]

/-- The names and requirements alone. -/
def requirements : List (String × List Arg) := (documented (fun _ _ => .ok 0) 0 0 0 0 0 0 fun _ => 0).map fun e => (e.1, e.2.1)

variable {ff : ℝ → ℝ → Py ℝ} {m x rhol D L roughness : ℝ} {given : Arg → Option ℝ}

theorem need_eq (set : List String) (M : String) (v : Option ℝ) : two_phase_dP_need set M v =
    if M ∈ set ∧ v.isSome = false then .error .typeError else .ok (if M ∈ set then v.getD 0 else 0) := by
  unfold two_phase_dP_need
  by_cases h : M ∈ set <;> cases v <;> simp [h]

/-- The set of methods needing an argument, in the code. -/
def needing : Arg → List String
  | .rhog => needing_rhog | .mul => needing_mul | .mug => needing_mug | .sigma => needing_sigma | .P => needing_P | .Pc => needing_Pc | .angle => needing_angle

def allArgs : List Arg := [.rhog, .mul, .mug, .sigma, .P, .Pc, .angle]

theorem dP_run (M : String) :
    two_phase_dP ff m x rhol D L (given .rhog) (given .mul) (given .mug) (given .sigma) (given .P) (given .Pc) roughness (given .angle) (some M) =
      if ∃ a ∈ allArgs, M ∈ needing a ∧ (given a).isSome = false then .error .typeError
      else two_phase_dP_select ff m x rhol D L (if M ∈ needing_rhog then (given .rhog).getD 0 else 0) (if M ∈ needing_mul then (given .mul).getD 0 else 0)
        (if M ∈ needing_mug then (given .mug).getD 0 else 0) (if M ∈ needing_sigma then (given .sigma).getD 0 else 0)
        (if M ∈ needing_P then (given .P).getD 0 else 0) (if M ∈ needing_Pc then (given .Pc).getD 0 else 0) roughness
        (if M ∈ needing_angle then (given .angle).getD 0 else 0) M := by
  simp only [two_phase_dP, need_eq, Py.ok_bind, allArgs, List.exists_mem_cons_iff, List.not_mem_nil, false_and, exists_false, or_false, needing]
  by_cases h1 : M ∈ needing_rhog ∧ (given .rhog).isSome = false
  · simp only [h1, true_or, and_self, if_true, Py.error_bind]
  by_cases h2 : M ∈ needing_mul ∧ (given .mul).isSome = false
  · simp only [h1, h2, true_or, or_true, and_self, if_true, if_false, Py.error_bind, Py.ok_bind]
  by_cases h3 : M ∈ needing_mug ∧ (given .mug).isSome = false
  · simp only [h1, h2, h3, true_or, or_true, and_self, if_true, if_false, Py.error_bind, Py.ok_bind]
  by_cases h4 : M ∈ needing_sigma ∧ (given .sigma).isSome = false
  · simp only [h1, h2, h3, h4, true_or, or_true, and_self, if_true, if_false, Py.error_bind, Py.ok_bind]
  by_cases h5 : M ∈ needing_P ∧ (given .P).isSome = false
  · simp only [h1, h2, h3, h4, h5, true_or, or_true, and_self, if_true, if_false, Py.error_bind, Py.ok_bind]
  by_cases h6 : M ∈ needing_Pc ∧ (given .Pc).isSome = false
  · simp only [h1, h2, h3, h4, h5, h6, true_or, or_true, and_self, if_true, if_false, Py.error_bind, Py.ok_bind]
  by_cases h7 : M ∈ needing_angle ∧ (given .angle).isSome = false
  · simp only [h1, h2, h3, h4, h5, h6, h7, true_or, or_true, and_self, if_true, if_false, Py.error_bind, Py.ok_bind]
  simp only [h1, h2, h3, h4, h5, h6, h7, or_self, if_false, Py.ok_bind]

theorem needing_spec : ∀ e ∈ requirements, ∀ a ∈ allArgs, e.1 ∈ needing a ↔ a ∈ e.2 := by
  simp only [requirements, documented, List.map]
  decide +kernel

theorem allArgs_all (a : Arg) : a ∈ allArgs := by cases a <;> decide

theorem select_eq {v w : Arg → ℝ} : ∀ e ∈ documented ff m x rhol D L roughness v, (∀ a ∈ e.2.1, w a = v a) →
    two_phase_dP_select ff m x rhol D L (w .rhog) (w .mul) (w .mug) (w .sigma) (w .P) (w .Pc) roughness (w .angle) e.1 = e.2.2 := by
  have hg : (g : ℝ) = 9.80665 := by norm_num [Const.g]
  simp only [documented, List.forall_mem_cons, List.not_mem_nil, false_imp_iff, implies_true, and_true]
  refine ⟨?_, ?_, ?_, ?_, ?_, ?_, ?_, ?_, ?_, ?_, ?_, ?_, ?_, ?_, ?_, ?_, ?_, ?_, ?_, ?_, ?_, ?_, ?_, ?_⟩ <;> intro h <;>
    simp only [two_phase_dP_select, String.reduceEq, if_true, if_false, h, hg]

theorem documented_names (v : Arg → ℝ) : (documented ff m x rhol D L roughness v).map (fun e => (e.1, e.2.1)) = requirements := rfl

/-- C102: a documented name evaluates its correlation with the given arguments when everything it requires is given, and raises TypeError otherwise. -/
theorem C102_dispatch : ∀ e ∈ documented ff m x rhol D L roughness fun a => (given a).getD 0,
    two_phase_dP ff m x rhol D L (given .rhog) (given .mul) (given .mug) (given .sigma) (given .P) (given .Pc) roughness (given .angle) (some e.1) =
      if ∀ a ∈ e.2.1, (given a).isSome then e.2.2 else .error .typeError := by
  intro e he
  have hs : ∀ a, e.1 ∈ needing a ↔ a ∈ e.2.1 := fun a =>
    needing_spec (e.1, e.2.1) (documented_names (ff := ff) _ ▸ List.mem_map_of_mem (f := fun e => (e.1, e.2.1)) he) a (allArgs_all a)
  rw [dP_run]
  by_cases h : ∀ a ∈ e.2.1, (given a).isSome
  · rw [if_neg (by rintro ⟨a, -, ha, hn⟩; simp [h a ((hs a).1 ha)] at hn), if_pos h]
    refine select_eq (w := fun a => if e.1 ∈ needing a then (given a).getD 0 else 0) e he fun a ha => ?_
    simp only [(hs a).2 ha, if_true]
  · rw [if_pos, if_neg h]
    push Not at h
    obtain ⟨a, ha, hn⟩ := h
    exact ⟨a, allArgs_all a, (hs a).2 ha, by simpa using hn⟩

/-- C102: any other name raises ValueError, whatever arguments are given. -/
theorem C102_unknown {M : String} (h : ∀ e ∈ requirements, M ≠ e.1) :
    two_phase_dP ff m x rhol D L (given .rhog) (given .mul) (given .mug) (given .sigma) (given .P) (given .Pc) roughness (given .angle) (some M) =
      .error .valueError := by
  have hn : ∀ a ∈ allArgs, M ∉ needing a := by
    have : ∀ a ∈ allArgs, ∀ n ∈ needing a, n ∈ requirements.map Prod.fst := by
      simp only [requirements, documented, List.map]
      decide +kernel
    intro a ha hM
    obtain ⟨e, he, rfl⟩ := List.mem_map.1 (this a ha M hM)
    exact h e he rfl
  rw [dP_run, if_neg (by rintro ⟨a, ha, hM, -⟩; exact hn a ha hM)]
  simp only [requirements, documented, List.map, List.forall_mem_cons, List.not_mem_nil, false_imp_iff, implies_true, and_true] at h
  simp only [two_phase_dP_select, h, if_false]

/-- `two_phase_dP_methods` in terms of which arguments are present. -/
theorem methods_bool : two_phase_dP_methods (given .rhog) (given .mul) (given .mug) (given .sigma) (given .P) (given .Pc) (given .angle) =
    (requirements.filter fun e => e.2.all fun a => (given a).isSome).map Prod.fst := by
  have key : ∀ b1 b2 b3 b4 b5 b6 b7 : Bool,
      (let usable : List ℕ := (if b1 ∧ b4 then [5] else []) ++ (if b1 ∧ b4 ∧ b2 ∧ b3 then [4, 3, 102, 103] else [])
        ++ (if b1 ∧ b2 ∧ b3 then [1, 2, 101] else []) ++ (if b2 ∧ b5 ∧ b6 then [0] else [])
        ++ (if b1 ∧ b2 ∧ b3 ∧ b4 ∧ b5 ∧ b7 then [104] else [])
       (two_phase_correlations.filter fun e => e.2 ∈ usable).map (·.1)) =
      (requirements.filter fun e => e.2.all fun a => match a with
        | .rhog => b1 | .mul => b2 | .mug => b3 | .sigma => b4 | .P => b5 | .Pc => b6 | .angle => b7).map Prod.fst := by
    simp only [requirements, documented, List.map]
    decide +kernel
  have h := key (given .rhog).isSome (given .mul).isSome (given .mug).isSome (given .sigma).isSome (given .P).isSome (given .Pc).isSome (given .angle).isSome
  refine (Eq.trans ?_ h).trans ?_
  · rfl
  · congr 2
    funext e
    congr 1
    funext a
    cases a <;> rfl

/-- C102: `two_phase_dP_methods` lists exactly the documented names all of whose required arguments are given. -/
theorem C102_methods (M : String) :
    M ∈ two_phase_dP_methods (given .rhog) (given .mul) (given .mug) (given .sigma) (given .P) (given .Pc) (given .angle) ↔
      ∃ e ∈ requirements, e.1 = M ∧ ∀ a ∈ e.2, (given a).isSome := by
  rw [methods_bool]
  simp only [List.mem_map, List.mem_filter, List.all_eq_true]
  constructor
  · rintro ⟨e, ⟨h1, h2⟩, rfl⟩
    exact ⟨e, h1, rfl, h2⟩
  · rintro ⟨e, h1, rfl, h2⟩
    exact ⟨e, ⟨h1, h2⟩, rfl⟩

/-- C102: no name is listed twice. -/
theorem C102_methods_nodup :
    (two_phase_dP_methods (given .rhog) (given .mul) (given .mug) (given .sigma) (given .P) (given .Pc) (given .angle)).Nodup := by
  have h : (requirements.map Prod.fst).Nodup := by
    simp only [requirements, documented, List.map]
    decide +kernel
  rw [methods_bool]
  exact h.sublist (List.filter_sublist.map _)

/-- C102: a listed method called with the same arguments evaluates its correlation: it is never refused by the front end. -/
theorem C102_listed_runs {M : String}
    (h : M ∈ two_phase_dP_methods (given .rhog) (given .mul) (given .mug) (given .sigma) (given .P) (given .Pc) (given .angle)) :
    ∃ e ∈ documented ff m x rhol D L roughness fun a => (given a).getD 0, e.1 = M ∧
      two_phase_dP ff m x rhol D L (given .rhog) (given .mul) (given .mug) (given .sigma) (given .P) (given .Pc) roughness (given .angle) (some M) = e.2.2 := by
  obtain ⟨r, hr, rfl, hg⟩ := (C102_methods M).1 h
  rw [← documented_names (ff := ff) (m := m) (x := x) (rhol := rhol) (D := D) (L := L) (roughness := roughness) fun a => (given a).getD 0] at hr
  obtain ⟨e, he, rfl⟩ := List.mem_map.1 hr
  exact ⟨e, he, rfl, by rw [C102_dispatch e he, if_pos hg]⟩

/-- C102: with no method named, the choice is Kim-Mudawar, else Chisholm, else Zhang-Webb, else Lombardi-Pedrocchi: the first that is available. -/
theorem C102_default :
    two_phase_dP ff m x rhol D L (given .rhog) (given .mul) (given .mug) (given .sigma) (given .P) (given .Pc) roughness (given .angle) none =
      match ["Kim_Mudawar", "Chisholm", "Zhang_Webb", "Lombardi_Pedrocchi"].find? fun M =>
        M ∈ two_phase_dP_methods (given .rhog) (given .mul) (given .mug) (given .sigma) (given .P) (given .Pc) (given .angle) with
      | some M => two_phase_dP ff m x rhol D L (given .rhog) (given .mul) (given .mug) (given .sigma) (given .P) (given .Pc) roughness (given .angle) (some M)
      | none => .error .valueError := by
  have key : ∀ b1 b2 b3 b4 b5 b6 b7 : Bool,
      (["Kim_Mudawar", "Chisholm", "Zhang_Webb", "Lombardi_Pedrocchi"].find? fun M =>
        M ∈ (requirements.filter fun e => e.2.all fun a => match a with
        | .rhog => b1 | .mul => b2 | .mug => b3 | .sigma => b4 | .P => b5 | .Pc => b6 | .angle => b7).map Prod.fst) =
      if b1 ∧ b2 ∧ b3 ∧ b4 then some "Kim_Mudawar" else if b1 ∧ b2 ∧ b3 then some "Chisholm"
      else if b2 ∧ b5 ∧ b6 then some "Zhang_Webb" else if b1 ∧ b4 then some "Lombardi_Pedrocchi" else none := by
    simp only [requirements, documented, List.map]
    decide +kernel
  have hf : (fun e : String × List Arg => e.2.all fun a => (given a).isSome) = fun e => e.2.all fun a => match a with
      | .rhog => (given .rhog).isSome | .mul => (given .mul).isSome | .mug => (given .mug).isSome | .sigma => (given .sigma).isSome
      | .P => (given .P).isSome | .Pc => (given .Pc).isSome | .angle => (given .angle).isSome := by
    funext e
    congr 1
    funext a
    cases a <;> rfl
  rw [methods_bool, hf, key]
  have h0 : two_phase_dP ff m x rhol D L (given .rhog) (given .mul) (given .mug) (given .sigma) (given .P) (given .Pc) roughness (given .angle) none =
      (two_phase_dP_default (given .rhog) (given .mul) (given .mug) (given .sigma) (given .P) (given .Pc)) >>= fun M =>
      two_phase_dP ff m x rhol D L (given .rhog) (given .mul) (given .mug) (given .sigma) (given .P) (given .Pc) roughness (given .angle) (some M) := by
    simp only [two_phase_dP, Py.ok_bind]
  rw [h0, two_phase_dP_default]
  split_ifs <;> rfl

/-- C102: the default call fails for want of information exactly when no method at all is available. -/
theorem C102_default_exists : (["Kim_Mudawar", "Chisholm", "Zhang_Webb", "Lombardi_Pedrocchi"].find? fun M =>
      M ∈ two_phase_dP_methods (given .rhog) (given .mul) (given .mug) (given .sigma) (given .P) (given .Pc) (given .angle)) = none ↔
    two_phase_dP_methods (given .rhog) (given .mul) (given .mug) (given .sigma) (given .P) (given .Pc) (given .angle) = [] := by
  have key : ∀ b1 b2 b3 b4 b5 b6 b7 : Bool,
      (["Kim_Mudawar", "Chisholm", "Zhang_Webb", "Lombardi_Pedrocchi"].find? fun M =>
        M ∈ (requirements.filter fun e => e.2.all fun a => match a with
        | .rhog => b1 | .mul => b2 | .mug => b3 | .sigma => b4 | .P => b5 | .Pc => b6 | .angle => b7).map Prod.fst) = none ↔
      (requirements.filter fun e => e.2.all fun a => match a with
        | .rhog => b1 | .mul => b2 | .mug => b3 | .sigma => b4 | .P => b5 | .Pc => b6 | .angle => b7).map Prod.fst = [] := by
    simp only [requirements, documented, List.map]
    decide +kernel
  have hf : (fun e : String × List Arg => e.2.all fun a => (given a).isSome) = fun e => e.2.all fun a => match a with
      | .rhog => (given .rhog).isSome | .mul => (given .mul).isSome | .mug => (given .mug).isSome | .sigma => (given .sigma).isSome
      | .P => (given .P).isSome | .Pc => (given .Pc).isSome | .angle => (given .angle).isSome := by
    funext e
    congr 1
    funext a
    cases a <;> rfl
  rw [methods_bool, hf]
  exact key ..

-- with only the gas density and surface tension the one method left is Lombardi-Pedrocchi
example : two_phase_dP ff 1 0.5 1000 0.05 1 (some 2) none none (some 0.05) none none 0 none none = Lombardi_Pedrocchi 1 0.5 1000 2 0.05 0.05 1 := by
  simp only [two_phase_dP, two_phase_dP_default, Option.isSome, two_phase_dP_need, needing_rhog, needing_sigma, needing_mul, needing_mug, needing_P, needing_Pc,
    needing_angle, two_phase_dP_select]
  simp

example : two_phase_dP ff 1 0.5 1000 0.05 1 (some 2) none none (some 0.05) none none 0 none (some "Chisholm") = .error .typeError := by
  have h := C102_dispatch (ff := ff) (m := 1) (x := 0.5) (rhol := 1000) (D := 0.05) (L := 1) (roughness := 0)
    (given := fun | .rhog => some 2 | .sigma => some 0.05 | _ => none)
  simp only [documented, List.forall_mem_cons] at h
  have h' := h.2.2.2.2.1
  simpa using h'

end Verif.TwoPhase
