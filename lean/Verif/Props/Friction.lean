import Verif.Lemmas.FrictionDefined2

/-! # C40, C42: `friction_factor`, its method list and its 28 documented correlations -/

namespace Verif.Friction
open Real
open Verif.Spec.Friction (lg)

variable {W : ℝ → ℝ} {Re e : ℝ}

theorem turb_Moody : turbulent W Re e "Moody" = Moody Re e := by simp only [turbulent, String.reduceEq, if_true, if_false]
theorem turb_Alshul_1952 : turbulent W Re e "Alshul_1952" = Alshul_1952 Re e := by simp only [turbulent, String.reduceEq, if_true, if_false]
theorem turb_Wood_1966 : turbulent W Re e "Wood_1966" = Wood_1966 Re e := by simp only [turbulent, String.reduceEq, if_true, if_false]
theorem turb_Churchill_1973 : turbulent W Re e "Churchill_1973" = Churchill_1973 Re e := by simp only [turbulent, String.reduceEq, if_true, if_false]
theorem turb_Eck_1973 : turbulent W Re e "Eck_1973" = Eck_1973 Re e := by simp only [turbulent, String.reduceEq, if_true, if_false]
theorem turb_Jain_1976 : turbulent W Re e "Jain_1976" = Jain_1976 Re e := by simp only [turbulent, String.reduceEq, if_true, if_false]
theorem turb_Swamee_Jain_1976 : turbulent W Re e "Swamee_Jain_1976" = Swamee_Jain_1976 Re e := by simp only [turbulent, String.reduceEq, if_true, if_false]
theorem turb_Churchill_1977 : turbulent W Re e "Churchill_1977" = Churchill_1977 Re e := by simp only [turbulent, String.reduceEq, if_true, if_false]
theorem turb_Chen_1979 : turbulent W Re e "Chen_1979" = Chen_1979 Re e := by simp only [turbulent, String.reduceEq, if_true, if_false]
theorem turb_Round_1980 : turbulent W Re e "Round_1980" = Round_1980 Re e := by simp only [turbulent, String.reduceEq, if_true, if_false]
theorem turb_Shacham_1980 : turbulent W Re e "Shacham_1980" = Shacham_1980 Re e := by simp only [turbulent, String.reduceEq, if_true, if_false]
theorem turb_Barr_1981 : turbulent W Re e "Barr_1981" = Barr_1981 Re e := by simp only [turbulent, String.reduceEq, if_true, if_false]
theorem turb_Zigrang_Sylvester_1 : turbulent W Re e "Zigrang_Sylvester_1" = Zigrang_Sylvester_1 Re e := by simp only [turbulent, String.reduceEq, if_true, if_false]
theorem turb_Zigrang_Sylvester_2 : turbulent W Re e "Zigrang_Sylvester_2" = Zigrang_Sylvester_2 Re e := by simp only [turbulent, String.reduceEq, if_true, if_false]
theorem turb_Haaland : turbulent W Re e "Haaland" = Haaland Re e := by simp only [turbulent, String.reduceEq, if_true, if_false]
theorem turb_Serghides_1 : turbulent W Re e "Serghides_1" = Serghides_1 Re e := by simp only [turbulent, String.reduceEq, if_true, if_false]
theorem turb_Serghides_2 : turbulent W Re e "Serghides_2" = Serghides_2 Re e := by simp only [turbulent, String.reduceEq, if_true, if_false]
theorem turb_Tsal_1989 : turbulent W Re e "Tsal_1989" = Tsal_1989 Re e := by simp only [turbulent, String.reduceEq, if_true, if_false]
theorem turb_Manadilli_1997 : turbulent W Re e "Manadilli_1997" = Manadilli_1997 Re e := by simp only [turbulent, String.reduceEq, if_true, if_false]
theorem turb_Romeo_2002 : turbulent W Re e "Romeo_2002" = Romeo_2002 Re e := by simp only [turbulent, String.reduceEq, if_true, if_false]
theorem turb_Sonnad_Goudar_2006 : turbulent W Re e "Sonnad_Goudar_2006" = Sonnad_Goudar_2006 Re e := by simp only [turbulent, String.reduceEq, if_true, if_false]
theorem turb_Rao_Kumar_2007 : turbulent W Re e "Rao_Kumar_2007" = Rao_Kumar_2007 Re e := by simp only [turbulent, String.reduceEq, if_true, if_false]
theorem turb_Buzzelli_2008 : turbulent W Re e "Buzzelli_2008" = Buzzelli_2008 Re e := by simp only [turbulent, String.reduceEq, if_true, if_false]
theorem turb_Avci_Karagoz_2009 : turbulent W Re e "Avci_Karagoz_2009" = Avci_Karagoz_2009 Re e := by simp only [turbulent, String.reduceEq, if_true, if_false]
theorem turb_Papaevangelo_2010 : turbulent W Re e "Papaevangelo_2010" = Papaevangelo_2010 Re e := by simp only [turbulent, String.reduceEq, if_true, if_false]
theorem turb_Brkic_2011_1 : turbulent W Re e "Brkic_2011_1" = Brkic_2011_1 Re e := by simp only [turbulent, String.reduceEq, if_true, if_false]
theorem turb_Brkic_2011_2 : turbulent W Re e "Brkic_2011_2" = Brkic_2011_2 Re e := by simp only [turbulent, String.reduceEq, if_true, if_false]
theorem turb_Fang_2011 : turbulent W Re e "Fang_2011" = Fang_2011 Re e := by simp only [turbulent, String.reduceEq, if_true, if_false]
theorem turb_Clamond : turbulent W Re e "Clamond" = Clamond Re e false := by simp only [turbulent, String.reduceEq, if_true, if_false]
theorem turb_Colebrook : turbulent W Re e "Colebrook" = Colebrook_analytical W Re e := by
  simp only [turbulent, String.reduceEq, if_true, if_false]

/-- the correlation each method name stands for: the two exact solutions and the 28 explicit approximations -/
noncomputable def named (W : ℝ → ℝ) : List (String × (ℝ → ℝ → Py ℝ)) := [
  ("Clamond", fun Re e => Clamond Re e false), ("Colebrook", Colebrook_analytical W), ("Moody", Moody), ("Alshul_1952", Alshul_1952), ("Wood_1966", Wood_1966), ("Churchill_1973", Churchill_1973),
  ("Eck_1973", Eck_1973), ("Jain_1976", Jain_1976), ("Swamee_Jain_1976", Swamee_Jain_1976), ("Churchill_1977", Churchill_1977),
  ("Chen_1979", Chen_1979), ("Round_1980", Round_1980), ("Shacham_1980", Shacham_1980), ("Barr_1981", Barr_1981),
  ("Zigrang_Sylvester_1", Zigrang_Sylvester_1), ("Zigrang_Sylvester_2", Zigrang_Sylvester_2), ("Haaland", Haaland), ("Serghides_1", Serghides_1),
  ("Serghides_2", Serghides_2), ("Tsal_1989", Tsal_1989), ("Manadilli_1997", Manadilli_1997), ("Romeo_2002", Romeo_2002),
  ("Sonnad_Goudar_2006", Sonnad_Goudar_2006), ("Rao_Kumar_2007", Rao_Kumar_2007), ("Buzzelli_2008", Buzzelli_2008), ("Avci_Karagoz_2009", Avci_Karagoz_2009),
  ("Papaevangelo_2010", Papaevangelo_2010), ("Brkic_2011_1", Brkic_2011_1), ("Brkic_2011_2", Brkic_2011_2), ("Fang_2011", Fang_2011)]

/-- C40: below Re = 2040, and with `Method="laminar"`, the factor is 64/Re whatever the roughness and the method, even an unknown one. -/
theorem C40_laminar (Method : Option String) (h0 : 0 < Re) (h : Re < 2040 ∨ Method = some "laminar") :
    friction_factor W Re e Method true = .ok (64 / Re) := by
  have hc : Re < LAMINAR_TRANSITION_PIPE ∨ Method.getD "Clamond" = "laminar" := by
    rcases h with h | h
    · exact .inl h
    · right; rw [h]; rfl
  simp only [friction_factor, frictionDarcy, if_pos hc, friction_laminar, pdiv_ok h0.ne', Py.ok_bind, Py.pure_eq, if_true]

example : friction_factor W 1000 0.1 (some "no such method") true = .ok (64 / 1000) := C40_laminar _ (by norm_num) (.inl (by norm_num))

/-- C40: at and above Re = 2040 a named method evaluates the correlation of that name, and no other. -/
theorem C40_dispatch (h : 2040 ≤ Re) : ∀ p ∈ named W, friction_factor W Re e (some p.1) true = p.2 Re e := by
  have hc : ∀ m, m ≠ "laminar" → friction_factor W Re e (some m) true = turbulent W Re e m := by
    intro m hm
    have : ¬ (Re < LAMINAR_TRANSITION_PIPE ∨ m = "laminar") := by
      simp only [LAMINAR_TRANSITION_PIPE, not_or, not_lt]; exact ⟨h, hm⟩
    simp only [friction_factor, frictionDarcy, Option.getD_some, if_neg this, if_true]
    cases turbulent W Re e m <;> rfl
  simp only [named, List.forall_mem_cons, List.not_mem_nil, false_imp_iff, implies_true, and_true]
  refine ⟨?_, ?_, ?_, ?_, ?_, ?_, ?_, ?_, ?_, ?_, ?_, ?_, ?_, ?_, ?_, ?_, ?_, ?_, ?_, ?_, ?_, ?_, ?_, ?_, ?_, ?_, ?_, ?_, ?_, ?_⟩ <;> rw [hc _ (by decide)]
  · exact turb_Clamond
  · exact turb_Colebrook
  · exact turb_Moody
  · exact turb_Alshul_1952
  · exact turb_Wood_1966
  · exact turb_Churchill_1973
  · exact turb_Eck_1973
  · exact turb_Jain_1976
  · exact turb_Swamee_Jain_1976
  · exact turb_Churchill_1977
  · exact turb_Chen_1979
  · exact turb_Round_1980
  · exact turb_Shacham_1980
  · exact turb_Barr_1981
  · exact turb_Zigrang_Sylvester_1
  · exact turb_Zigrang_Sylvester_2
  · exact turb_Haaland
  · exact turb_Serghides_1
  · exact turb_Serghides_2
  · exact turb_Tsal_1989
  · exact turb_Manadilli_1997
  · exact turb_Romeo_2002
  · exact turb_Sonnad_Goudar_2006
  · exact turb_Rao_Kumar_2007
  · exact turb_Buzzelli_2008
  · exact turb_Avci_Karagoz_2009
  · exact turb_Papaevangelo_2010
  · exact turb_Brkic_2011_1
  · exact turb_Brkic_2011_2
  · exact turb_Fang_2011

/-- C40: every method `friction_factor_methods` lists, for any Re and eD and either flag, is `"laminar"` or one of the named
correlations. -/
theorem C40_listed (check : Bool) (m : String) (h : m ∈ friction_factor_methods Re e check) :
    m = "laminar" ∨ m ∈ (named W).map (·.1) := by
  have key : ∀ r ∈ fmethods, r.1 ∈ (named W).map (·.1) := by
    intro r hr
    have : r.1 ∈ fmethods.map (·.1) := List.mem_map_of_mem hr
    simp only [fmethods, named, List.map_cons, List.map_nil] at this ⊢
    revert this
    generalize r.1 = m
    revert m
    decide
  unfold friction_factor_methods at h
  split_ifs at h
  · exact .inl (List.mem_singleton.mp h)
  · obtain ⟨r, hr, rfl⟩ := List.mem_map.mp h
    exact .inr (key r (List.mem_of_mem_filter hr))
  · rcases List.mem_append.mp h with h | h
    · obtain ⟨r, hr, rfl⟩ := List.mem_map.mp h
      exact .inr (key r hr)
    · exact .inl (List.mem_singleton.mp h)

/-- C40: and the list without range checks names all of them. -/
theorem C40_all_listed (m : String) (h : m = "laminar" ∨ m ∈ (named W).map (·.1)) : m ∈ friction_factor_methods Re e false := by
  have key : ∀ m ∈ (named W).map (·.1), m ∈ fmethods.map (·.1) := by
    simp only [fmethods, named, List.map_cons, List.map_nil]
    decide
  simp only [friction_factor_methods, Bool.false_eq_true, if_false, List.mem_append, List.mem_singleton]
  exact h.elim .inr fun h => .inl (key m h)

/-- C40: any other name raises ValueError at and above Re = 2040. -/
theorem C40_unknown (Darcy : Bool) (m : String) (h : 2040 ≤ Re) (hl : m ≠ "laminar") (hm : m ∉ (named W).map (·.1)) :
    friction_factor W Re e (some m) Darcy = .error .valueError := by
  have hc : ¬ (Re < LAMINAR_TRANSITION_PIPE ∨ m = "laminar") := by
    simp only [LAMINAR_TRANSITION_PIPE, not_or, not_lt]; exact ⟨h, hl⟩
  simp only [named, List.map_cons, List.map_nil, List.mem_cons, List.not_mem_nil, or_false, not_or] at hm
  simp only [friction_factor, frictionDarcy, Option.getD_some, if_neg hc, turbulent, hm, if_false, Py.error_bind]

example : friction_factor W 5000 0.1 (some "no such method") true = .error .valueError :=
  C40_unknown _ _ (by norm_num) (by decide) (by simp [named])

/-- C40: without a method the Clamond solution is used, and it is always listed. -/
theorem C40_default (Darcy : Bool) : friction_factor W Re e none Darcy = friction_factor W Re e (some "Clamond") Darcy := rfl

theorem C40_default_listed (h : 2040 ≤ Re) (he : 0 ≤ e) (check : Bool) : "Clamond" ∈ friction_factor_methods Re e check := by
  cases check
  · exact C40_all_listed (W := id) _ (.inr (by simp [named]))
  · have : ¬ Re < LAMINAR_TRANSITION_PIPE := not_lt.mpr h
    simp only [friction_factor_methods, if_true, if_neg this, List.mem_map]
    refine ⟨("Clamond", some 0, none, some 0, none), List.mem_filter.mpr ⟨by simp [fmethods], ?_⟩, rfl⟩
    classical
    refine decide_eq_true ?_
    refine ⟨?_, ?_, ?_, ?_⟩ <;> intro m hm <;> first | contradiction | (cases hm; linarith)

/-- C40: `Darcy=False` is exactly a quarter, for every method and input, and fails exactly when `Darcy=True` does. -/
theorem C40_quarter (Method : Option String) :
    friction_factor W Re e Method false = (friction_factor W Re e Method true).map (· / 4) := by
  simp only [friction_factor]
  cases frictionDarcy W Re e (Method.getD "Clamond") with
  | error _ => rfl
  | ok f => simp only [Py.ok_bind, Py.pure_eq, Except.map, Bool.false_eq_true, if_true, if_false]; congr 1; ring

/-- the three listed correlations with singular points inside the turbulent range, and where they are -/
def Regular (m : String) (Re e : ℝ) : Prop :=
  (m = "Rao_Kumar_2007" → 0 < e) ∧ (m = "Serghides_1" → Spec.Friction.serA Re e ≠ 12 / 2.51) ∧
    (m = "Serghides_2" → ¬ (12 / 2.51 < Spec.Friction.serA Re e ∧ Spec.Friction.serA Re e < 4.781))

/-- C40, C42: on the turbulent range 2040 ≤ Re, 0 ≤ eD ≤ 0.05 every explicit correlation returns a value, and the value is the
formula printed in its documentation, except at the singular points of three of them. -/
theorem C42_documented (h : Turb Re e) :
    ∀ p ∈ Spec.Friction.documented, Regular p.1 Re e → friction_factor W Re e (some p.1) true = .ok (p.2 Re e) := by
  have hRe := h.pos
  have he := h.e0
  have hd := C40_dispatch (W := W) (Re := Re) (e := e) h.re
  simp only [named, List.forall_mem_cons, List.not_mem_nil, false_imp_iff, implies_true, and_true] at hd
  obtain ⟨-, -, d0, d1, d2, d3, d4, d5, d6, d7, d8, d9, d10, d11, d12, d13, d14, d15, d16, d17, d18, d19, d20, d21, d22, d23, d24, d25, d26, d27⟩ := hd
  simp only [Spec.Friction.documented, List.forall_mem_cons, List.not_mem_nil, false_imp_iff, implies_true, and_true]
  refine ⟨?_, ?_, ?_, ?_, ?_, ?_, ?_, ?_, ?_, ?_, ?_, ?_, ?_, ?_, ?_, ?_, ?_, ?_, ?_, ?_, ?_, ?_, ?_, ?_, ?_, ?_, ?_, ?_⟩ <;> intro hx
  · obtain ⟨f, hf⟩ := ok_Moody h
    rw [d0, hf, val_Moody hRe he hf]
  · obtain ⟨f, hf⟩ := ok_Alshul h
    rw [d1, hf, val_Alshul hRe he hf]
  · obtain ⟨f, hf⟩ := ok_Wood h
    rw [d2, hf, val_Wood hf]
  · obtain ⟨f, hf⟩ := ok_Churchill_1973 h
    rw [d3, hf, val_Churchill_1973 hf]
  · obtain ⟨f, hf⟩ := ok_Eck_1973 h
    rw [d4, hf, val_Eck_1973 hf]
  · obtain ⟨f, hf⟩ := ok_Jain_1976 h
    rw [d5, hf, val_Jain_1976 hf]
  · obtain ⟨f, hf⟩ := ok_Swamee_Jain_1976 h
    rw [d6, hf, val_Swamee_Jain_1976 hf]
  · obtain ⟨f, hf⟩ := ok_Churchill_1977 h
    rw [d7, hf, val_Churchill_1977 hf]
  · obtain ⟨f, hf⟩ := ok_Chen_1979 h
    rw [d8, hf, val_Chen_1979 hf]
  · obtain ⟨f, hf⟩ := ok_Round_1980 h
    rw [d9, hf, val_Round_1980 hf]
  · obtain ⟨f, hf⟩ := ok_Shacham_1980 h
    rw [d10, hf, val_Shacham_1980 hf]
  · obtain ⟨f, hf⟩ := ok_Barr_1981 h
    rw [d11, hf, val_Barr_1981 hf]
  · obtain ⟨f, hf⟩ := ok_Zigrang_Sylvester_1 h
    rw [d12, hf, val_Zigrang_Sylvester_1 hf]
  · obtain ⟨f, hf⟩ := ok_Zigrang_Sylvester_2 h
    rw [d13, hf, val_Zigrang_Sylvester_2 hf]
  · obtain ⟨f, hf⟩ := ok_Haaland h
    rw [d14, hf, val_Haaland hf]
  · obtain ⟨f, hf⟩ := ok_Serghides_1 h (hx.2.1 rfl)
    rw [d15, hf, val_Serghides_1 hf]
  · obtain ⟨f, hf⟩ := ok_Serghides_2 h (hx.2.2 rfl)
    rw [d16, hf, val_Serghides_2 hf]
  · obtain ⟨f, hf⟩ := ok_Tsal_1989 h
    rw [d17, hf, val_Tsal_1989 hf]
  · obtain ⟨f, hf⟩ := ok_Manadilli_1997 h
    rw [d18, hf, val_Manadilli_1997 hRe hf]
  · obtain ⟨f, hf⟩ := ok_Romeo_2002 h
    rw [d19, hf, val_Romeo_2002 hf]
  · obtain ⟨f, hf⟩ := ok_Sonnad_Goudar_2006 h
    rw [d20, hf, val_Sonnad_Goudar_2006 hf]
  · obtain ⟨f, hf⟩ := ok_Rao_Kumar_2007 h (hx.1 rfl)
    rw [d21, hf, val_Rao_Kumar_2007 hRe hf]
  · obtain ⟨f, hf⟩ := ok_Buzzelli_2008 h
    rw [d22, hf, val_Buzzelli_2008 hf]
  · obtain ⟨f, hf⟩ := ok_Avci_Karagoz_2009 h
    rw [d23, hf, val_Avci_Karagoz_2009 hf]
  · obtain ⟨f, hf⟩ := ok_Papaevangelo_2010 h
    rw [d24, hf, val_Papaevangelo_2010 hRe hf]
  · obtain ⟨f, hf⟩ := ok_Brkic_2011_1 h
    rw [d25, hf, val_Brkic_2011_1 hf]
  · obtain ⟨f, hf⟩ := ok_Brkic_2011_2 h
    rw [d26, hf, val_Brkic_2011_2 hf]
  · obtain ⟨f, hf⟩ := ok_Fang_2011 h
    rw [d27, hf, val_Fang_2011 hRe hf]

/-- C42: for any positive Re and non-negative eD, whenever a correlation returns a value it is the documented one. -/
theorem C42_values (hRe : 0 < Re) (he : 0 ≤ e) (h : 2040 ≤ Re) {f : ℝ} :
    ∀ p ∈ Spec.Friction.documented, friction_factor W Re e (some p.1) true = .ok f → f = p.2 Re e := by
  have hd := C40_dispatch (W := W) (Re := Re) (e := e) h
  simp only [named, List.forall_mem_cons, List.not_mem_nil, false_imp_iff, implies_true, and_true] at hd
  obtain ⟨-, -, d0, d1, d2, d3, d4, d5, d6, d7, d8, d9, d10, d11, d12, d13, d14, d15, d16, d17, d18, d19, d20, d21, d22, d23, d24, d25, d26, d27⟩ := hd
  simp only [Spec.Friction.documented, List.forall_mem_cons, List.not_mem_nil, false_imp_iff, implies_true, and_true]
  refine ⟨?_, ?_, ?_, ?_, ?_, ?_, ?_, ?_, ?_, ?_, ?_, ?_, ?_, ?_, ?_, ?_, ?_, ?_, ?_, ?_, ?_, ?_, ?_, ?_, ?_, ?_, ?_, ?_⟩ <;> intro hf
  · rw [d0] at hf; exact val_Moody hRe he hf
  · rw [d1] at hf; exact val_Alshul hRe he hf
  · rw [d2] at hf; exact val_Wood hf
  · rw [d3] at hf; exact val_Churchill_1973 hf
  · rw [d4] at hf; exact val_Eck_1973 hf
  · rw [d5] at hf; exact val_Jain_1976 hf
  · rw [d6] at hf; exact val_Swamee_Jain_1976 hf
  · rw [d7] at hf; exact val_Churchill_1977 hf
  · rw [d8] at hf; exact val_Chen_1979 hf
  · rw [d9] at hf; exact val_Round_1980 hf
  · rw [d10] at hf; exact val_Shacham_1980 hf
  · rw [d11] at hf; exact val_Barr_1981 hf
  · rw [d12] at hf; exact val_Zigrang_Sylvester_1 hf
  · rw [d13] at hf; exact val_Zigrang_Sylvester_2 hf
  · rw [d14] at hf; exact val_Haaland hf
  · rw [d15] at hf; exact val_Serghides_1 hf
  · rw [d16] at hf; exact val_Serghides_2 hf
  · rw [d17] at hf; exact val_Tsal_1989 hf
  · rw [d18] at hf; exact val_Manadilli_1997 hRe hf
  · rw [d19] at hf; exact val_Romeo_2002 hf
  · rw [d20] at hf; exact val_Sonnad_Goudar_2006 hf
  · rw [d21] at hf; exact val_Rao_Kumar_2007 hRe hf
  · rw [d22] at hf; exact val_Buzzelli_2008 hf
  · rw [d23] at hf; exact val_Avci_Karagoz_2009 hf
  · rw [d24] at hf; exact val_Papaevangelo_2010 hRe hf
  · rw [d25] at hf; exact val_Brkic_2011_1 hf
  · rw [d26] at hf; exact val_Brkic_2011_2 hf
  · rw [d27] at hf; exact val_Fang_2011 hRe hf

/-- C40: the default never fails for 0 < Re and a relative roughness up to 5 %, and the factor is positive. -/
theorem C40_default_total (hRe : 0 < Re) (he : 0 ≤ e) (he' : e ≤ 0.05) (Darcy : Bool) : ∃ f > 0, friction_factor W Re e none Darcy = .ok f := by
  have key : ∃ f > 0, friction_factor W Re e none true = .ok f := by
    by_cases hl : Re < 2040
    · exact ⟨_, by positivity, C40_laminar none hRe (.inl hl)⟩
    · rw [C40_default, C40_dispatch (W := W) (not_lt.mp hl) ("Clamond", fun Re e => Clamond Re e false) (by simp [named])]
      exact pos_Clamond ⟨not_lt.mp hl, he, he'⟩ false
  obtain ⟨f, hf0, hf⟩ := key
  cases Darcy
  · rw [C40_quarter, hf]; exact ⟨_, by positivity, rfl⟩
  · exact ⟨f, hf0, hf⟩

example : Turb 100000 0.001 := ⟨by norm_num, by norm_num, by norm_num⟩
example : ("Haaland", Spec.Friction.Haaland) ∈ Spec.Friction.documented := by simp [Spec.Friction.documented]
example : Regular "Haaland" 100000 0.001 := ⟨by decide, by decide, by decide⟩

/-- C42: the three correlations documented outside `friction_factor`. -/
theorem C42_Blasius (hRe : 0 < Re) : Blasius Re = .ok (0.3164 / Re ^ (0.25 : ℝ)) := by
  simp only [Blasius, psqrt_ok hRe.le, psqrt_ok (sqrt_nonneg Re), Py.ok_bind, ← sqrt_sqrt hRe.le]
  rw [pdiv_ok (by positivity)]

theorem C42_von_Karman (he : 0 < e) (he' : e < 3.7) :
    ∃ f, von_Karman e = .ok f ∧ 0 < f ∧ 1 / √f = -2 * lg (e / 3.7) := by
  have h1 : 0 < e * (1 / 3.7) := by positivity
  have h2 : e * (1 / 3.7) < 1 := by linarith
  have h3 := lg_neg h1 h2
  refine ⟨0.25 / (lg (e * (1 / 3.7)) * lg (e * (1 / 3.7))), ?_, ?_, ?_⟩
  · simp only [von_Karman, plog10_ok' h1, Py.ok_bind]
    exact pdiv_ok (sq_ne h3.ne)
  · exact div_pos (by norm_num) (mul_pos_of_neg_of_neg h3 h3)
  · rw [show e / 3.7 = e * (1 / 3.7) by ring,
      show 0.25 / (lg (e * (1 / 3.7)) * lg (e * (1 / 3.7))) = (1 / (-2 * lg (e * (1 / 3.7)))) ^ 2 by
        have := h3.ne; field_simp; norm_num,
      sqrt_sq (by have : 0 < -2 * lg (e * (1 / 3.7)) := by linarith
                  positivity), one_div_one_div]

/-! ### listed methods which fail -/

/-- C40 (finding): `Rao_Kumar_2007` is listed for smooth pipe, with range checks on, and raises ZeroDivisionError there at every
Reynolds number. -/
theorem C40_Rao_Kumar_smooth (h : 2040 ≤ Re) :
    "Rao_Kumar_2007" ∈ friction_factor_methods Re 0 true ∧
      friction_factor W Re 0 (some "Rao_Kumar_2007") true = .error .zeroDivisionError := by
  constructor
  · have : ¬ Re < LAMINAR_TRANSITION_PIPE := not_lt.mpr h
    simp only [friction_factor_methods, if_true, if_neg this, List.mem_map]
    refine ⟨("Rao_Kumar_2007", none, none, none, none), List.mem_filter.mpr ⟨by simp [fmethods], ?_⟩, rfl⟩
    simp [inRange]
  · rw [C40_dispatch (W := W) h ("Rao_Kumar_2007", Rao_Kumar_2007) (by simp [named])]
    have hRe : 0 < Re := by linarith
    simp only [Rao_Kumar_2007, plog_ok (show 0 < Re * (1 / 6.5) by positivity), pdiv_ok hRe.ne', Py.ok_bind, mul_zero, zero_mul,
      pdiv_zero, Py.error_bind]

/-- C40 (finding): `Serghides_1` is listed without range and raises ZeroDivisionError for smooth pipe at Re = 12·10^(6/2.51) ≈ 2948,
where its first two iterates coincide. -/
theorem C40_Serghides_1_singular :
    ∃ Re : ℝ, 2040 ≤ Re ∧ "Serghides_1" ∈ friction_factor_methods Re 0 true ∧
      friction_factor W Re 0 (some "Serghides_1") true = .error .zeroDivisionError := by
  have hp : (170 : ℝ) ≤ 10 ^ (6 / 2.51 : ℝ) := by
    calc (170 : ℝ) = ((170 : ℝ) ^ (4 : ℝ)) ^ (1 / 4 : ℝ) := by rw [← rpow_mul (by norm_num)]; norm_num
      _ ≤ ((10 : ℝ) ^ (9 : ℝ)) ^ (1 / 4 : ℝ) := rpow_le_rpow (by positivity) (by norm_num) (by norm_num)
      _ = 10 ^ (9 / 4 : ℝ) := by rw [← rpow_mul (by norm_num)]; norm_num
      _ ≤ 10 ^ (6 / 2.51 : ℝ) := rpow_le_rpow_of_exponent_le (by norm_num) (by norm_num)
  refine ⟨12 * 10 ^ (6 / 2.51 : ℝ), by linarith, ?_, ?_⟩
  · have : ¬ (12 * 10 ^ (6 / 2.51 : ℝ) : ℝ) < LAMINAR_TRANSITION_PIPE := not_lt.mpr (by unfold LAMINAR_TRANSITION_PIPE; linarith)
    simp only [friction_factor_methods, if_true, if_neg this, List.mem_map]
    refine ⟨("Serghides_1", none, none, none, none), List.mem_filter.mpr ⟨by simp [fmethods], ?_⟩, rfl⟩
    simp [inRange]
  · rw [C40_dispatch (W := W) (by linarith) ("Serghides_1", Serghides_1) (by simp [named])]
    obtain ⟨R, hR⟩ : ∃ R : ℝ, R = 12 * 10 ^ (6 / 2.51 : ℝ) := ⟨_, rfl⟩
    have hR0 : 0 < R := by rw [hR]; linarith
    have hA : -2 * lg (12 / R) = 12 / 2.51 := by
      rw [hR, div_mul_cancel_left₀ (by norm_num), ← rpow_neg (by norm_num)]
      unfold lg
      rw [log_rpow (by norm_num), mul_div_assoc, div_self log_ten_pos.ne']
      norm_num
    rw [← hR]
    simp only [Serghides_1, zero_mul, zero_add, pdiv_ok hR0.ne', Py.ok_bind, plog10_ok' (show 0 < 12 / R by positivity), hA,
      show (2.51 : ℝ) * (12 / 2.51) = 12 by norm_num]
    rw [show (12 / 2.51 : ℝ) - 2 * (12 / 2.51) + 12 / 2.51 = 0 by ring, pdiv_zero]
    rfl

end Verif.Friction
