import Verif.Model.Units
import Verif.Props.Climate
import Mathlib.Algebra.Field.Rat
import Mathlib.Tactic.NormNum
import Mathlib.Tactic.FieldSimp
import Mathlib.Tactic.Linarith
import Mathlib.Data.List.Forall2

/-! # C129: the unit-aware interface -/

namespace Verif.Units

variable {K : Type*} [Field K]

/-! ### Specification -/

/-- the value passed denotes the plain value `x` in the documented unit: `None`, text or a number where no unit is documented, else a quantity of the same dimension equal to `x` documented units -/
def Means (unit : Option (PUnit K)) (v : Val K) (x : Plain K) : Prop :=
  (v = .none ∧ x = .none) ∨ (unit = none ∧ ∃ s, v = .text s ∧ x = .text s) ∨ (unit = none ∧ ∃ a, v = .num a ∧ x = .num a) ∨
  (∃ u a q, unit = some u ∧ v = .qty q ∧ x = .num a ∧ q.unit.dim = u.dim ∧ q.base = a * u.scale + u.offset)

/-- the same value, possibly in other units -/
def SameVal (v w : Val K) : Prop := v = w ∨ ∃ p q, v = .qty p ∧ w = .qty q ∧ p.unit.dim = q.unit.dim ∧ p.base = q.base

/-- units that can be converted to -/
def Proper (unit : Option (PUnit K)) : Prop := ∀ u, unit = some u → u.scale ≠ 0

/-- metre, inch, pascal and second over the rationals, for the examples -/
def metre : PUnit ℚ := ⟨[1], 1, 0⟩
/-- inch -/
def inch : PUnit ℚ := ⟨[1], 254 / 10000, 0⟩
/-- kelvin -/
def kelvin : PUnit ℚ := ⟨[0, 1], 1, 0⟩
/-- degree Celsius -/
def celsius : PUnit ℚ := ⟨[0, 1], 1, 27315 / 100⟩

/-! ### Arguments -/

/-- C129: whatever units the caller uses, a parameter documented with a unit reaches the function as the number of documented units: 20 °C in kelvin, 10 inches in metres. -/
theorem C129_input {strict : Bool} {unit : Option (PUnit K)} {v : Val K} {x : Plain K} (hu : Proper unit) (h : Means unit v x) : convert_input strict v unit = .ok x := by
  rcases h with ⟨rfl, rfl⟩ | ⟨rfl, s, rfl, rfl⟩ | ⟨rfl, a, rfl, rfl⟩ | ⟨u, a, q, rfl, rfl, rfl, hd, hb⟩
  · rfl
  · rfl
  · rfl
  · have := hu u rfl
    simp only [convert_input, hd, if_true, hb]
    rw [add_sub_cancel_right, mul_div_cancel_right₀ _ this]

example : convert_input true (.qty ⟨20, celsius⟩) (some kelvin) = .ok (.num (29315 / 100)) :=
  C129_input (by rintro u ⟨⟩; norm_num [kelvin]) (.inr (.inr (.inr ⟨_, _, _, rfl, rfl, rfl, rfl, by norm_num [Quantity.base, celsius, kelvin]⟩)))

example : convert_input true (.qty ⟨10, inch⟩) (some metre) = .ok (.num (254 / 1000)) :=
  C129_input (by rintro u ⟨⟩; norm_num [metre]) (.inr (.inr (.inr ⟨_, _, _, rfl, rfl, rfl, rfl, by norm_num [Quantity.base, inch, metre]⟩)))

/-- C129: a quantity of another dimension raises ValueError, a number or text without a unit TypeError; `strict=False` passes them through unconverted. -/
theorem C129_input_errors (u : PUnit K) (strict : Bool) : (∀ q : Quantity K, q.unit.dim ≠ u.dim → convert_input strict (.qty q) (some u) = .error .valueError) ∧
    (∀ x : K, convert_input true (.num x) (some u) = .error .typeError ∧ convert_input false (.num x) (some u) = .ok (.num x)) ∧
    (∀ s : String, convert_input (K := K) true (.text s) (some u) = .error .typeError ∧ convert_input (K := K) false (.text s) (some u) = .ok (.text s)) :=
  ⟨fun q h => by simp [convert_input, h], fun x => ⟨rfl, rfl⟩, fun s => ⟨rfl, rfl⟩⟩

example : convert_input true (.qty ⟨1, kelvin⟩) (some metre) = .error .valueError := (C129_input_errors metre true).1 _ (by decide)

/-- C129: a parameter documented as dimensionless takes a quantity of any dimension, as its magnitude in base units: a diameter of 10 inches passed for a Reynolds number is the number 0.254, without an
error. -/
theorem C129_dimensionless (strict : Bool) (q : Quantity K) : convert_input strict (.qty q) none = .ok (.num (q.mag * q.unit.scale + q.unit.offset)) := rfl

example : convert_input true (.qty ⟨10, inch⟩) none = .ok (.num (254 / 1000)) := by rw [C129_dimensionless]; norm_num [inch]

/-- The conversion depends only on the value, not on the units it is given in. -/
theorem convert_same {strict : Bool} {unit : Option (PUnit K)} {v w : Val K} (h : SameVal v w) : convert_input strict v unit = convert_input strict w unit := by
  rcases h with rfl | ⟨p, q, rfl, rfl, hd, hb⟩
  · rfl
  · rcases unit with _ | u
    · simp only [convert_input, hb]
    · simp only [convert_input, hb, hd]

/-! ### Calls -/

theorem dropResults_params (d : Doc K) : d.dropResults.params = d.params := by
  unfold Doc.dropResults
  rcases d with ⟨p, _ | ⟨v, vs⟩, u⟩
  · rfl
  · by_cases h : v = "results" <;> simp [h]

theorem mapM_forall₂ {α β : Type*} {f : α → Py β} {R : α → β → Prop} (hf : ∀ a b, R a b → f a = .ok b) {l : List α} {m : List β} (h : List.Forall₂ R l m) : l.mapM f = .ok m := by
  induction h with
  | nil => rfl
  | cons h _ ih => rw [List.mapM_cons, hf _ _ h, Py.ok_bind, ih, Py.ok_bind]; rfl

theorem mapM_congr₂ {α β : Type*} {f : α → Py β} {R : α → α → Prop} (hf : ∀ a b, R a b → f a = f b) {l m : List α} (h : List.Forall₂ R l m) : l.mapM f = m.mapM f := by
  induction h with
  | nil => rfl
  | cons h _ ih => rw [List.mapM_cons, List.mapM_cons, hf _ _ h, ih]

theorem lookup_reverse {params : List (String × Option (PUnit K))} (hn : (params.map Prod.fst).Nodup) {n : String} {u : Option (PUnit K)} (h : (n, u) ∈ params) :
    paramUnit params n = .ok u := by
  have key : ∀ l : List (String × Option (PUnit K)), (l.map Prod.fst).Nodup → (n, u) ∈ l → l.lookup n = some u := by
    intro l
    induction l with
    | nil => intro _ h; simp at h
    | cons e l ih =>
      intro hn h
      rw [List.map_cons, List.nodup_cons] at hn
      rcases List.mem_cons.1 h with rfl | hm'
      · simp
      · have hm := hm'
        have hne : n ≠ e.1 := by
          rintro rfl
          exact hn.1 (List.mem_map.2 ⟨_, hm, rfl⟩)
        rcases e with ⟨e1, e2⟩
        rw [List.lookup_cons, beq_eq_false_iff_ne.2 hne]
        exact ih hn.2 hm
  unfold paramUnit
  rw [key params.reverse (by rw [List.map_reverse]; exact List.nodup_reverse.2 hn) (List.mem_reverse.2 h)]

/-- C129: the unit-aware function is the plain one: with every argument, positional or by keyword, a value of the documented dimension in any units, the function is called once with the
documented-unit numbers and its result gets the documented units. Errors of the function are passed on. -/
theorem C129_call {strict : Bool} {doc : Doc K} {func : List (Plain K) → List (String × Plain K) → Py (Res K)} {values : List (Val K)} {kw : List (String × Val K)} {xs : List (Plain K)}
    {ys : List (String × Plain K)} (hu : ∀ p ∈ doc.params, Proper p.2) (hn : (doc.params.map Prod.fst).Nodup)
    (hpos : List.Forall₂ (fun e x => Means e.2 e.1 x) (values.zip (doc.params.map Prod.snd)) xs)
    (hkw : List.Forall₂ (fun e y => e.1 = y.1 ∧ ∃ u, (e.1, u) ∈ doc.params ∧ Means u e.2 y.2) kw ys) :
    wrapper strict doc func values kw = func xs ys >>= fun r => convert_output r doc.dropResults.outVars doc.dropResults.outUnits := by
  have h1 : (values.zip (doc.params.map Prod.snd)).mapM (convertPos strict) = .ok xs := by
    have : List.Forall₂ (fun e x => e ∈ values.zip (doc.params.map Prod.snd) ∧ Means e.2 e.1 x) (values.zip (doc.params.map Prod.snd)) xs := by
      rw [List.forall₂_iff_get] at hpos ⊢
      exact ⟨hpos.1, fun i h1 h2 => ⟨List.get_mem _ _, hpos.2 i h1 h2⟩⟩
    refine mapM_forall₂ ?_ this
    rintro ⟨v, u⟩ x ⟨hm, h⟩
    refine C129_input ?_ h
    have := (List.of_mem_zip hm).2
    obtain ⟨p, hp, rfl⟩ := List.mem_map.1 this
    exact hu p hp
  have h2 : kw.mapM (convertKw strict doc.params) = .ok ys := by
    refine mapM_forall₂ ?_ hkw
    rintro ⟨n, v⟩ ⟨m, x⟩ ⟨rfl, u, hm, h⟩
    simp only [convertKw, lookup_reverse hn hm, Py.ok_bind, C129_input (hu _ hm) h]
    rfl
  simp only [wrapper, dropResults_params, h1, Py.ok_bind, h2]

/-- `L/D` of two lengths -/
def ratioDoc : Doc ℚ := ⟨[("L", some metre), ("D", some metre)], ["r"], [none]⟩

example (func : List (Plain ℚ) → List (String × Plain ℚ) → Py (Res ℚ)) (h : func [.num 2] [("D", .num (254 / 1000))] = .ok (.num 8)) :
    wrapper true ratioDoc func [.qty ⟨2, metre⟩] [("D", .qty ⟨10, inch⟩)] = .ok (.qty ⟨8, unitless⟩) := by
  have hm : Proper (some metre) := by rintro u ⟨⟩; norm_num [metre]
  rw [C129_call (xs := [.num 2]) (ys := [("D", .num (254 / 1000))]) (by intro p hp; fin_cases hp <;> exact hm) (by decide)
    (.cons (.inr (.inr (.inr ⟨_, _, _, rfl, rfl, rfl, rfl, by norm_num [Quantity.base, metre]⟩))) .nil)
    (.cons ⟨rfl, some metre, by simp [ratioDoc], .inr (.inr (.inr ⟨_, _, _, rfl, rfl, rfl, rfl, by norm_num [Quantity.base, metre, inch]⟩))⟩ .nil), h]
  rfl

/-- C129: the units of the arguments do not matter: two calls with the same values, in whatever units, give the same result, or the same error. -/
theorem C129_unit_independent {strict : Bool} {doc : Doc K} {func : List (Plain K) → List (String × Plain K) → Py (Res K)} {v w : List (Val K)} {kv kw : List (String × Val K)}
    (hp : List.Forall₂ SameVal v w) (hk : List.Forall₂ (fun e e' => e.1 = e'.1 ∧ SameVal e.2 e'.2) kv kw) : wrapper strict doc func v kv = wrapper strict doc func w kw := by
  have h1 : ∀ us : List (Option (PUnit K)), (v.zip us).mapM (convertPos strict) = (w.zip us).mapM (convertPos strict) := by
    intro us
    refine mapM_congr₂ (R := fun a b => a.2 = b.2 ∧ SameVal a.1 b.1) ?_ ?_
    · rintro ⟨a, u⟩ ⟨b, u'⟩ ⟨rfl, h⟩
      exact convert_same h
    · induction hp generalizing us with
      | nil => simp
      | cons h _ ih =>
        rcases us with _ | ⟨u, us⟩
        · simp
        · exact .cons ⟨rfl, h⟩ (ih us)
  have h2 : ∀ ps, kv.mapM (convertKw strict ps) = kw.mapM (convertKw strict ps) := by
    intro ps
    refine mapM_congr₂ ?_ hk
    rintro ⟨a, x⟩ ⟨b, y⟩ ⟨rfl, h⟩
    simp only [convertKw, convert_same h]
  simp only [wrapper, h1, h2]

example : SameVal (Val.qty (⟨10, inch⟩ : Quantity ℚ)) (.qty ⟨254 / 1000, metre⟩) := .inr ⟨_, _, rfl, rfl, rfl, by norm_num [Quantity.base, inch, metre]⟩

/-- C129: positional arguments beyond the documented parameters are dropped without an error, where the plain function raises TypeError. -/
theorem C129_extra_ignored {strict : Bool} {doc : Doc K} {func : List (Plain K) → List (String × Plain K) → Py (Res K)} {values extra : List (Val K)} {kw : List (String × Val K)}
    (h : values.length = doc.params.length) : wrapper strict doc func (values ++ extra) kw = wrapper strict doc func values kw := by
  have : (values ++ extra).zip (doc.params.map Prod.snd) = values.zip (doc.params.map Prod.snd) := by
    have h' : values.length = (doc.params.map Prod.snd).length := by rw [List.length_map]; exact h
    conv_lhs => rw [← List.append_nil (doc.params.map Prod.snd), List.zip_append h']
    simp
  simp only [wrapper, dropResults_params, this]

example (func : List (Plain ℚ) → List (String × Plain ℚ) → Py (Res ℚ)) :
    wrapper true ratioDoc func [.qty ⟨2, metre⟩, .qty ⟨1, metre⟩, .qty ⟨7, kelvin⟩] [] = wrapper true ratioDoc func [.qty ⟨2, metre⟩, .qty ⟨1, metre⟩] [] :=
  C129_extra_ignored (values := [.qty ⟨2, metre⟩, .qty ⟨1, metre⟩]) rfl

/-- C129: a keyword that is not a documented parameter raises KeyError, whatever the function would do with it. -/
theorem C129_unknown_keyword {strict : Bool} {doc : Doc K} {func : List (Plain K) → List (String × Plain K) → Py (Res K)} {n : String} {v : Val K} {kw : List (String × Val K)}
    (h : n ∉ doc.params.map Prod.fst) : wrapper strict doc func [] ((n, v) :: kw) = .error .keyError := by
  have : doc.params.reverse.lookup n = none := by
    rw [List.lookup_eq_none_iff]
    intro p hp
    rw [bne_iff_ne]
    rintro rfl
    exact h (List.mem_map.2 ⟨p, List.mem_reverse.1 hp, rfl⟩)
  simp only [wrapper, dropResults_params, List.zip_nil_left, List.mapM_nil, Py.pure_eq, Py.ok_bind, List.mapM_cons, convertKw, paramUnit, this, Py.error_bind]

example (func : List (Plain ℚ) → List (String × Plain ℚ) → Py (Res ℚ)) : wrapper true ratioDoc func [] [("H", .none)] = .error .keyError := C129_unknown_keyword (by decide)

/-! ### Results -/

/-- C129: results get the documented units: a number the first one; the entries of a list or tuple each its own, as a list cut to the shorter of the results and the documented units; a list under a single
documented unit becomes an array in it; text, booleans and None are returned unchanged; a number with no documented result raises IndexError. -/
theorem C129_output (vars : List String) (units : List (Option (PUnit K))) :
    (∀ x v us, units = v :: us → convert_output (.num x) vars units = .ok (.qty ⟨x, v.getD unitless⟩)) ∧
    (∀ x, units = [] → convert_output (.num x) vars units = .error .indexError) ∧
    (∀ l, ∃ q, convert_output (.tuple l) vars units = .ok (.list q) ∧ q.length = min l.length units.length ∧
      ∀ i (h : i < l.length) (h' : i < units.length), q[i]? = some ⟨l[i], (units[i]).getD unitless⟩) ∧
    (∀ l v, units = [v] → convert_output (.list l) vars units = .ok (.array l (v.getD unitless))) ∧
    (∀ l, units.length ≠ 1 → convert_output (.list l) vars units = convert_output (.tuple l) vars units) ∧
    (∀ s, convert_output (.text s) vars units = .ok (.text s)) ∧ (∀ b, convert_output (.bool b) vars units = .ok (.bool b)) ∧ convert_output .none vars units = .ok .none := by
  refine ⟨?_, ?_, fun l => ⟨_, rfl, by simp, fun i h h' => ?_⟩, ?_, fun l h => ?_, fun _ => rfl, fun _ => rfl, rfl⟩
  · rintro x v us rfl; rfl
  · rintro x rfl; rfl
  · rw [List.getElem?_zipWith, List.getElem?_eq_getElem h, List.getElem?_eq_getElem h']; rfl
  · rintro l v rfl; rfl
  · simp only [convert_output, if_neg h]

/-- C129: a result with more parts than documented units loses the rest: two numbers under one documented unit come back as one. -/
theorem C129_output_cut (x y : K) (v : PUnit K) : convert_output (.tuple [x, y]) ["a"] [some v] = .ok (.list [⟨x, v⟩]) := rfl

/-- C129: every entry of a dictionary result gets the unit documented under its own name, whatever the order; an entry that is not documented raises ValueError. -/
theorem C129_output_dict {vars : List String} {units : List (Option (PUnit K))} (hn : vars.Nodup) (hl : vars.length = units.length) (d : List (String × K)) :
    (∀ r, convert_output (.dict d) vars units = .ok r → ∃ q, r = .dict q ∧ List.Forall₂ (fun e e' => e'.1 = e.1 ∧ e'.2.mag = e.2 ∧ ∃ v, (e.1, v) ∈ vars.zip units ∧ e'.2.unit = v.getD unitless) d q) ∧
    ((∀ e ∈ d, e.1 ∈ vars) → ∃ r, convert_output (.dict d) vars units = .ok r) ∧
    ((∃ e ∈ d, e.1 ∉ vars) → convert_output (.dict d) vars units = .error .valueError) := by
  have one : ∀ e : String × K, e.1 ∈ vars → ∃ v, (e.1, v) ∈ vars.zip units ∧ attachKey vars units e = .ok (e.1, attach e.2 v) := by
    intro e he
    have hi := List.idxOf_lt_length_of_mem he
    have hi' : vars.idxOf e.1 < units.length := hl ▸ hi
    refine ⟨units[vars.idxOf e.1], ?_, ?_⟩
    · rw [List.mem_iff_getElem]
      exact ⟨vars.idxOf e.1, by simp [hi, hi'], by simp⟩
    · simp only [attachKey, unitOf, if_pos he, List.getElem?_eq_getElem hi', Py.ok_bind, Py.pure_eq]
  have bad : ∀ e : String × K, e.1 ∉ vars → attachKey vars units e = .error .valueError := fun e he => by
    simp only [attachKey, unitOf, if_neg he, Py.error_bind]
  have good : (∀ e ∈ d, e.1 ∈ vars) → ∃ q, d.mapM (attachKey vars units) = .ok q ∧
      List.Forall₂ (fun e e' => e'.1 = e.1 ∧ e'.2.mag = e.2 ∧ ∃ v, (e.1, v) ∈ vars.zip units ∧ e'.2.unit = v.getD unitless) d q := by
    induction d with
    | nil => intro _; exact ⟨[], rfl, .nil⟩
    | cons e d ih =>
      intro h
      obtain ⟨v, hv, he⟩ := one e (h e (by simp))
      obtain ⟨q, hq, hf⟩ := ih fun e he => h e (by simp [he])
      exact ⟨(e.1, attach e.2 v) :: q, by rw [List.mapM_cons, he, Py.ok_bind, hq, Py.ok_bind]; rfl, .cons ⟨rfl, rfl, v, hv, rfl⟩ hf⟩
  have wrong : (∃ e ∈ d, e.1 ∉ vars) → d.mapM (attachKey vars units) = .error .valueError := by
    clear good
    induction d with
    | nil => rintro ⟨e, he, -⟩; simp at he
    | cons e d ih =>
      rintro ⟨e', he', hn'⟩
      rw [List.mapM_cons]
      by_cases h : e.1 ∈ vars
      · obtain ⟨v, -, he⟩ := one e h
        rw [he, Py.ok_bind, ih ⟨e', (List.mem_cons.1 he').resolve_left (by rintro rfl; exact hn' h), hn'⟩, Py.error_bind]
      · rw [bad e h, Py.error_bind]
  refine ⟨fun r hr => ?_, fun h => ?_, fun h => ?_⟩
  · simp only [convert_output] at hr
    by_cases h : ∀ e ∈ d, e.1 ∈ vars
    · obtain ⟨q, hq, hf⟩ := good h
      rw [hq, Py.ok_bind] at hr
      exact ⟨q, (Except.ok.inj hr).symm, hf⟩
    · push_neg at h
      rw [wrong h, Py.error_bind] at hr
      cases hr
  · obtain ⟨q, hq, -⟩ := good h
    exact ⟨_, by simp only [convert_output, hq, Py.ok_bind]; rfl⟩
  · simp only [convert_output, wrong h, Py.error_bind]

example : convert_output (.dict [("T", (300 : ℚ)), ("L", 2)]) ["L", "T"] [some metre, some kelvin] = .ok (.dict [("T", ⟨300, kelvin⟩), ("L", ⟨2, metre⟩)]) := by
  simp [convert_output, attachKey, unitOf, attach, Py.pure_eq, Py.ok_bind]

/-! ### Functions with a variable result -/

/-- C129: `kwargs_to_args` lines the arguments up with the signature: position `i` holds the positional argument, else the keyword of that name, else None. -/
theorem C129_kwargs_to_args {α : Type*} (args : List (Option α)) (kwargs : List (String × Option α)) (signature : List String) (hl : args.length ≤ signature.length) :
    (kwargs_to_args args kwargs signature).length = signature.length ∧
    ∀ i (h : i < signature.length), (kwargs_to_args args kwargs signature)[i]? = some (if h' : i < args.length then args[i] else (kwargs.lookup signature[i]).getD none) := by
  unfold kwargs_to_args
  refine ⟨by simp; omega, fun i h => ?_⟩
  by_cases h' : i < args.length
  · rw [List.getElem?_append_left h', List.getElem?_eq_getElem h', dif_pos h']
  · rw [List.getElem?_append_right (by omega), List.getElem?_map, List.getElem?_range (by omega), dif_neg h']
    have : args.length + (i - args.length) = i := by omega
    simp only [Option.map_some, this, List.getD_eq_getElem?_getD, List.getElem?_eq_getElem h, Option.getD_some]

example : kwargs_to_args [some 1, none] [("d", some (4 : ℕ)), ("c", some 3)] ["a", "b", "c", "d", "e"] = [some 1, none, some 3, some 4, none] := by decide

/-- every argument but the `i`-th given -/
def allBut (n i : ℕ) : List Bool := (List.range n).map fun j => decide (j ≠ i)

/-- the documented units of the variables each solver can solve for, in the order of its arguments (`none`: always required): `nu_mu_converter(rho, mu, nu)` (core.py:2351),
`differential_pressure_meter_solver(D, rho, mu, k, D2, P1, P2, m)` (flow_meter.py:2696), `isothermal_gas(rho, fd, P1, P2, L, D, m)` (compressible.py:790), the seven formulas
`(SG, Tavg, L, D, P1, P2, Q)` (compressible.py:973-1648), `Muller` and `IGT` `(SG, Tavg, mu, L, D, P1, P2, Q)` (compressible.py:1742, 1852) -/
def solvers : List (List (List Bool × SI) × List (Option SI)) := [
  (nu_mu_table, [none, some .Pa_s, some .m2_s]), (meter_table, [none, none, none, none, some .m, some .Pa, some .Pa, some .kg_s]),
  (isothermal_table, [none, none, some .Pa, some .Pa, some .m, some .m, some .kg_s]), (simple_table, [none, none, some .m, some .m, some .Pa, some .Pa, some .m3_s]),
  (muller_table, [none, none, none, some .m, some .m, some .Pa, some .Pa, some .m3_s])]

/-- C129: for every solver whose result is whichever variable is missing, the table of result units holds exactly the calls with one solvable variable missing, each with the documented unit of that variable. -/
theorem C129_tables : ∀ s ∈ solvers, ∀ (given : List Bool) (v : SI), s.1.lookup given = some v ↔ ∃ i, given = allBut s.2.length i ∧ s.2[i]? = some (some v) := by
  have tab : ∀ s ∈ solvers, ∀ i < s.2.length, s.1.lookup (allBut s.2.length i) = (s.2[i]?).join := by decide
  have keys : ∀ s ∈ solvers, ∀ e ∈ s.1, ∃ i < s.2.length, e.1 = allBut s.2.length i := by decide
  intro s hs given v
  constructor
  · intro h
    obtain ⟨l₁, l₂, hl, -⟩ := List.lookup_eq_some_iff.1 h
    obtain ⟨i, hi, he⟩ := keys s hs (given, v) (by rw [hl]; simp)
    refine ⟨i, he, ?_⟩
    dsimp only at he
    rw [he, tab s hs i hi] at h
    rw [List.getElem?_eq_getElem hi] at h ⊢
    simpa using h
  · rintro ⟨i, rfl, hi⟩
    have hi' : i < s.2.length := by
      by_contra hc
      rw [List.getElem?_eq_none (by omega)] at hi
      cases hi
    rw [tab s hs i hi', hi]; rfl

/-- C129: such a solver, with one solvable variable missing among its first arguments, given by position or keyword, returns the answer in the documented unit of the missing variable, whatever further
arguments are given. -/
theorem C129_variable_output {α : Type*} {s : List (List Bool × SI) × List (Option SI)} (hs : s ∈ solvers) {signature : List String} {call : List (Option α) → List (String × Option α) → Py K}
    {args : List (Option α)} {kwargs : List (String × Option α)} {ans : K} {i : ℕ} {v : SI} (hc : call args kwargs = .ok ans) (hl : args.length ≤ signature.length)
    (hlen : s.2.length ≤ signature.length) (hv : s.2[i]? = some (some v))
    (hg : ∀ j < s.2.length, ((kwargs_to_args args kwargs signature).getD j none).isSome = decide (j ≠ i)) :
    variable_output s.1 s.2.length signature call args kwargs = .ok (ans, v) := by
  have hk := (C129_kwargs_to_args args kwargs signature hl).1
  have e : (if ((kwargs_to_args args kwargs signature).map Option.isSome).length > s.2.length then ((kwargs_to_args args kwargs signature).map Option.isSome).take s.2.length
      else (kwargs_to_args args kwargs signature).map Option.isSome) = allBut s.2.length i := by
    have e1 : (if ((kwargs_to_args args kwargs signature).map Option.isSome).length > s.2.length then ((kwargs_to_args args kwargs signature).map Option.isSome).take s.2.length
      else (kwargs_to_args args kwargs signature).map Option.isSome) = ((kwargs_to_args args kwargs signature).map Option.isSome).take s.2.length := by
      by_cases h : ((kwargs_to_args args kwargs signature).map Option.isSome).length > s.2.length
      · rw [if_pos h]
      · rw [if_neg h, List.take_of_length_le (by omega)]
    rw [e1]
    apply List.ext_getElem
    · simp [allBut, hk, hlen]
    · intro j h1 h2
      have hj : j < s.2.length := by simpa [allBut] using h2
      have := hg j hj
      have hj' : j < (kwargs_to_args args kwargs signature).length := by omega
      rw [List.getD_eq_getElem?_getD, List.getElem?_eq_getElem hj', Option.getD_some] at this
      simp [allBut, this]
  simp only [variable_output, hc, Py.ok_bind]
  rw [e, (C129_tables s hs _ v).2 ⟨i, rfl, hv⟩]

example : variable_output (α := ℕ) isothermal_table 7 ["rho", "fd", "P1", "P2", "L", "D", "m"] (fun _ _ => .ok (145 : ℚ)) [some 11, some 1, some 9] [("D", some 5), ("L", some 4), ("P2", some 3)] = .ok (145, .kg_s) :=
  C129_variable_output (s := (isothermal_table, [none, none, some .Pa, some .Pa, some .m, some .m, some .kg_s])) (i := 6) (by simp [solvers]) rfl (by decide) (by decide) rfl (by decide)

/-- C129: the flow meter solver without its isentropic exponent `k` (not needed for a liquid or with a specified expansibility) raises KeyError after the plain function has succeeded. -/
theorem C129_meter_without_k {α : Type*} {signature : List String} {call : List (Option α) → List (String × Option α) → Py K} {args : List (Option α)} {kwargs : List (String × Option α)} {ans : K}
    (hc : call args kwargs = .ok ans) (hl : args.length ≤ signature.length) (hlen : 8 ≤ signature.length) (hk : (kwargs_to_args args kwargs signature).getD 3 none = none) :
    variable_output meter_table 8 signature call args kwargs = .error .keyError := by
  have hln := (C129_kwargs_to_args args kwargs signature hl).1
  obtain ⟨g, hg⟩ : ∃ g, g = (if ((kwargs_to_args args kwargs signature).map Option.isSome).length > 8 then ((kwargs_to_args args kwargs signature).map Option.isSome).take 8
      else (kwargs_to_args args kwargs signature).map Option.isSome) := ⟨_, rfl⟩
  have h3 : g[3]? = some false := by
    have h0 : ((kwargs_to_args args kwargs signature).map Option.isSome)[3]? = some false := by
      rw [List.getElem?_map, List.getElem?_eq_getElem (by omega)]
      rw [List.getD_eq_getElem?_getD, List.getElem?_eq_getElem (by omega), Option.getD_some] at hk
      rw [hk]; rfl
    rw [hg]
    split_ifs
    · rw [List.getElem?_take_of_lt (by norm_num), h0]
    · exact h0
  have hno : meter_table.lookup g = none := by
    rw [List.lookup_eq_none_iff]
    intro e he
    rw [bne_iff_ne]
    rintro rfl
    have : ∀ e ∈ meter_table, e.1[3]? = some true := by decide
    rw [this e he] at h3
    cases h3
  simp only [variable_output, hc, Py.ok_bind]
  rw [← hg, hno]

/-! ### Documentation -/

theorem findUnits_step (cur : Option (List Char)) (c : Char) (cs : List Char) (hc : c ≠ ']') : ∃ cur', findUnits cur (c :: cs) = findUnits cur' cs := by
  rw [findUnits.eq_def]
  dsimp only
  by_cases h : c = '['
  · exact ⟨_, if_pos h⟩
  rw [if_neg h, if_neg hc]
  rcases cur with _ | u
  · exact ⟨_, rfl⟩
  · by_cases h' : unitChar c = true
    · exact ⟨_, if_pos h'⟩
    · exact ⟨_, if_neg h'⟩

theorem findUnits_bracket (cur : Option (List Char)) (cs : List Char) : ∃ L, findUnits cur (']' :: cs) = L ++ findUnits none cs := by
  rw [findUnits.eq_def]
  dsimp only
  rw [if_neg (by decide), if_pos rfl]
  rcases cur with _ | u
  · exact ⟨[], rfl⟩
  · exact ⟨[u.reverse], rfl⟩

theorem findUnits_open (rest : List Char) : ∀ (pre : List Char) (cur : Option (List Char)), ∃ L, findUnits cur (pre ++ '[' :: rest) = L ++ findUnits (some []) rest
  | [], cur => ⟨[], by rw [List.nil_append, findUnits.eq_def]; dsimp only; rw [if_pos rfl]; rfl⟩
  | c :: pre, cur => by
    rw [List.cons_append]
    by_cases h : c = ']'
    · subst h
      obtain ⟨L, hL⟩ := findUnits_bracket cur (pre ++ '[' :: rest)
      obtain ⟨L', hL'⟩ := findUnits_open rest pre none
      exact ⟨L ++ L', by rw [hL, hL', List.append_assoc]⟩
    · obtain ⟨cur', e⟩ := findUnits_step cur c (pre ++ '[' :: rest) h
      rw [e]
      exact findUnits_open rest pre cur'

theorem findUnits_close (post : List Char) : ∀ (unit u : List Char), (∀ c ∈ unit, unitChar c = true) → findUnits (some u) (unit ++ ']' :: post) = (u.reverse ++ unit) :: findUnits none post
  | [], u, _ => by rw [List.nil_append, findUnits.eq_def]; dsimp only; rw [if_neg (by decide), if_pos rfl, List.append_nil]
  | c :: unit, u, h => by
    have hc := h c (by simp)
    have h1 : c ≠ '[' := by rintro rfl; exact absurd hc (by decide)
    have h2 : c ≠ ']' := by rintro rfl; exact absurd hc (by decide)
    rw [List.cons_append, findUnits.eq_def]
    dsimp only
    rw [if_neg h1, if_neg h2, if_pos hc, findUnits_close post unit (c :: u) fun c hc => h c (by simp [hc])]
    simp

theorem findUnits_none : ∀ (post : List Char) (cur : Option (List Char)), ']' ∉ post → findUnits cur post = []
  | [], cur, _ => by rw [findUnits.eq_def]
  | c :: post, cur, h => by
    have hc : c ≠ ']' := by rintro rfl; simp at h
    have ht : ']' ∉ post := fun hh => h (by simp [hh])
    obtain ⟨cur', e⟩ := findUnits_step cur c post hc
    rw [e]
    exact findUnits_none post cur' ht

/-- C129: the unit of a documented variable is the last bracketed group of unit characters in its description; "-", "base SI", "various" and empty brackets mean dimensionless. -/
theorem C129_documented_unit (pre unit post : List Char) (hu : ∀ c ∈ unit, unitChar c = true) (hp : ']' ∉ post) :
    documentedUnit (pre ++ '[' :: unit ++ ']' :: post) =
      if String.ofList unit ∈ ["-", "various", "base SI", ""] then "dimensionless" else String.ofList unit := by
  obtain ⟨L, hL⟩ := findUnits_open (unit ++ ']' :: post) pre none
  have : findUnits none (pre ++ '[' :: unit ++ ']' :: post) = L ++ [unit] := by
    rw [List.append_assoc, List.cons_append, hL, findUnits_close post unit [] hu, findUnits_none post none hp]; rfl
  unfold documentedUnit normalise
  rw [this, List.getLast?_append]
  simp

example : documentedUnit "Density of the gas at [1]_, [kg/m^3]".toList = "kg/m^3" :=
  C129_documented_unit "Density of the gas at [1]_, ".toList "kg/m^3".toList [] (by decide) (by decide)

/-- C129: a description without a closing bracket documents a dimensionless variable; one that cites a reference after its unit documents the number of the reference. -/
theorem C129_documented_otherwise : (∀ text : List Char, ']' ∉ text → documentedUnit text = "dimensionless") ∧ documentedUnit "Density, [kg/m^3] (see [1]_)".toList = "1" := by
  refine ⟨fun text h => ?_, by decide +kernel⟩
  unfold documentedUnit normalise
  rw [findUnits_none text none h]
  decide

/-! ### Objects -/

/-- C129: an attribute of a unit-aware object is the attribute of the wrapped object in its documented unit, entry by entry for a dictionary; None stays None, with or without a documented unit; an
attribute without a documented unit, and one whose computation fails in whatever way, raises AttributeError. -/
theorem C129_attribute (units : List (String × PUnit K)) (name : String) :
    (∀ x v, units.lookup name = some v → getattr units name (.ok (.num x)) = .ok (.qty ⟨x, v⟩)) ∧
    (∀ d v, units.lookup name = some v → getattr units name (.ok (.dict d)) = .ok (.dict (d.map fun e => (e.1, ⟨e.2, v⟩)))) ∧
    getattr units name (.ok .none) = .ok .none ∧ (∀ e, getattr units name (.error e) = .error .attributeError) ∧
    (∀ a, a ≠ Attr.none → units.lookup name = none → getattr units name (.ok a) = .error .attributeError) := by
  refine ⟨fun x v h => by simp [getattr, h], fun d v h => by simp [getattr, h], rfl, fun _ => rfl, fun a ha h => ?_⟩
  rcases a with _ | _ | _ | _
  · exact absurd rfl ha
  all_goals simp [getattr, h]

example : getattr [("D", metre)] "D" (.ok (.num 2)) = .ok (.qty ⟨2, metre⟩) := (C129_attribute [("D", metre)] "D").1 _ _ rfl

end Verif.Units
