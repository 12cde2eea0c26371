import Verif.Py

/-! Pipe roughness database (`fluids/friction.py`). -/

namespace Verif.Roughness
open Verif

/-- friction.py:3761-4002: a tabulated value, in units of 1e-7 m -/
def u (n : ℕ) : Option ℚ := some ((n : ℚ) / 10 ^ 7)

/-- friction.py:3761-4002: part 1 of `HHR_roughness` -/
def HHR1 : List (String × Option ℚ × Option ℚ × Option ℚ) := [
    ("Rough channels in rock, Blast-hewed, little jointing", u 1000000, u 1400000, none),
    ("Rough channels in rock, Blast-hewed, substantial jointing", u 1300000, u 5000000, none),
    ("Rough channels in rock, Roughly cut or very uneven surface", u 5000000, u 15000000, none),
    ("Unlined tunnels, Rocks, gneiss, diameter 3-13.5 m", u 3000000, u 7000000, none),
    ("Unlined tunnels, Rocks, granite, diameter 3-9 m", u 2000000, u 7000000, none),
    ("Unlined tunnels, Shale, diameter 9-12 m", u 2500000, u 6500000, none),
    ("Unlined tunnels, Shale, quartz, quartzile, diameter 7-10 m", u 2000000, u 6000000, none),
    ("Unlined tunnels, Shale, sedimentary, diameter 4-7 m", none, none, u 4000000),
    ("Unlined tunnels, Shale, nephrite bearing, diameter 3-8 m", none, none, u 2000000),
    ("Wood tubes, Boards, thoroughly dressed", none, none, u 1500),
    ("Wood tubes, Boards, well dressed", none, none, u 3000),
    ("Wood tubes, Boards, undressed but fitted", none, none, u 7000),
    ("Wood tubes, Boards, undressed", none, none, u 10000),
    ("Wood tubes, Staved", none, none, u 6000),
    ("Plywood tubes, Birch plywood, transverse grain, good quality", none, none, u 1200),
    ("Plywood tubes, Birch plywood, longitudinal grain, good quality", u 300, u 500, none),
    ("Glass tubes, Glass", u 15, u 100, none),
    ("Concrete water conduits, no finish, New and finished with plaster; excellent manufacture (joints aligned, prime coated and smoothed)", u 500, u 1500, none),
    ("Concrete water conduits, no finish, Used and corroded; with a wavy surface and wood framework", u 10000, u 40000, none),
    ("Concrete water conduits, no finish, Old, poor fitting and manufacture; with an overgrown surface and deposits of sand and gravel", u 10000, u 40000, none)]

/-- friction.py:3761-4002: part 2 of `HHR_roughness` -/
def HHR2 : List (String × Option ℚ × Option ℚ × Option ℚ) := [
    ("Concrete water conduits, no finish, Very old; damaged surface, very overgrown", u 50000, none, none),
    ("Concrete water conduits, no finish, Water conduit, finished with smoothed plaster", u 50000, none, none),
    ("Concrete water conduits, no finish, New, very well manufactured, hand smoothed, prime-coated joints", u 1000, u 2000, none),
    ("Concrete water conduits, no finish, Hand-smoothed cement finish and smoothed joints", u 1500, u 3500, none),
    ("Concrete water conduits, no finish, Used, no deposits, moderately smooth, steel or wooden casing, joints prime coated but not smoothed", u 3000, u 6000, none),
    ("Concrete water conduits, no finish, Used, prefabricated monoliths, cement plaster (wood floated), rough joints", u 5000, u 10000, none),
    ("Concrete water conduits, no finish, Conduits for water, sprayed surface of concrete", u 5000, u 10000, none),
    ("Concrete water conduits, no finish, Brushed air-placed, either sprayed concrete or concrete on more concrete", none, none, u 23000),
    ("Concrete water conduits, no finish, Non-smoothed air-placed, either sprayed concrete or concrete on more concrete", u 30000, u 60000, none),
    ("Concrete water conduits, no finish, Smoothed air-placed, either sprayed concrete or concrete on more concrete", u 60000, u 170000, u 5000),
    ("Reinforced concrete tubes, New", u 2500, u 3400, none),
    ("Reinforced concrete tubes, Nonprocessed", u 25000, none, none),
    ("Asbestos cement tubes, New", u 500, u 1000, none),
    ("Asbestos cement tubes, Average", u 6000, none, none),
    ("Cement tubes, Smoothed", u 3000, u 8000, none),
    ("Cement tubes, Non processed", u 10000, u 20000, none),
    ("Cement tubes, Joints, non smoothed", u 19000, u 64000, none),
    ("Cement-mortar plaster channels, Plaster, cement, smoothed joints and protrusions, and a casing", u 500, u 2200, none),
    ("Cement-mortar plaster channels, Steel trowled", none, none, u 5000),
    ("Other, Plaster over a screen", u 100000, u 150000, none)]

/-- friction.py:3761-4002: part 3 of `HHR_roughness` -/
def HHR3 : List (String × Option ℚ × Option ℚ × Option ℚ) := [
    ("Other, Salt-glazed ceramic", none, none, u 14000),
    ("Other, Slag-concrete", none, none, u 15000),
    ("Other, Slag and alabaster-filling", u 10000, u 15000, none),
    ("Seamless tubes made from brass, copper, lead, aluminum, Commercially smooth", u 15, u 100, none),
    ("Seamless steel tubes, New and unused", u 200, u 1000, none),
    ("Seamless steel tubes, Cleaned, following years of use", none, u 400, none),
    ("Seamless steel tubes, Bituminized", none, u 400, none),
    ("Seamless steel tubes, Heating systems piping; either superheated steam pipes, or just water pipes of systems with deaerators and chemical treatment", none, none, u 1000),
    ("Seamless steel tubes, Following one year as a gas pipeline", none, none, u 1200),
    ("Seamless steel tubes, Following multiple year as a gas pipeline", u 400, u 2000, none),
    ("Seamless steel tubes, Casings in gas wells, different conditions, several years of use", u 600, u 2200, none),
    ("Seamless steel tubes, Heating systems, saturated steam ducts or water pipes (with minor water leakage < 0.5%, and balance water deaerated)", none, none, u 2000),
    ("Seamless steel tubes, Water heating system pipelines, any source", none, none, u 2000),
    ("Seamless steel tubes, Oil pipelines, intermediate operating conditions", none, none, u 2000),
    ("Seamless steel tubes, Corroded, moderately", none, none, u 4000),
    ("Seamless steel tubes, Scale, small depositions only", none, none, u 4000),
    ("Seamless steel tubes, Condensate pipes in open systems or periodically operated steam pipelines", none, none, u 5000),
    ("Seamless steel tubes, Compressed air piping", none, none, u 8000),
    ("Seamless steel tubes, Following multiple years of operation, generally corroded or with small amounts of scale", u 1500, u 10000, none),
    ("Seamless steel tubes, Water heating piping without deaeration but with chemical treatment of water; leakage up to 3%; or condensate piping operated periodically", none, none, u 10000)]

/-- friction.py:3761-4002: part 4 of `HHR_roughness` -/
def HHR4 : List (String × Option ℚ × Option ℚ × Option ℚ) := [
    ("Seamless steel tubes, Used water piping", u 12000, u 15000, none),
    ("Seamless steel tubes, Poor condition", u 50000, none, none),
    ("Welded steel tubes, Good condition", u 400, u 1000, none),
    ("Welded steel tubes, New and covered with bitumen", none, none, u 500),
    ("Welded steel tubes, Used and covered with partially dissolved bitumen; corroded", none, none, u 1000),
    ("Welded steel tubes, Used, suffering general corrosion", none, none, u 1500),
    ("Welded steel tubes, Surface looks like new, 10 mm lacquer inside, even joints", u 3000, u 4000, none),
    ("Welded steel tubes, Used Gas mains", none, none, u 5000),
    ("Welded steel tubes, Double or simple transverse riveted joints; with or without lacquer; without corrosion", u 6000, u 7000, none),
    ("Welded steel tubes, Lacquered inside but rusted", u 9500, u 10000, none),
    ("Welded steel tubes, Gas mains, many years of use, with layered deposits", none, none, u 11000),
    ("Welded steel tubes, Non-corroded and with double transverse riveted joints", u 12000, u 15000, none),
    ("Welded steel tubes, Small deposits", none, none, u 15000),
    ("Welded steel tubes, Heavily corroded and with double transverse riveted joints", none, none, u 20000),
    ("Welded steel tubes, Appreciable deposits", u 20000, u 40000, none),
    ("Welded steel tubes, Gas mains, many years of use, deposits of resin/naphthalene", none, none, u 24000),
    ("Welded steel tubes, Poor condition", u 50000, none, none),
    ("Riveted steel tubes, Riveted laterally and longitudinally with one line; lacquered on the inside", u 3000, u 4000, none),
    ("Riveted steel tubes, Riveted laterally and longitudinally with two lines; with or without lacquer on the inside and without corrosion", u 6000, u 7000, none),
    ("Riveted steel tubes, Riveted laterally with one line and longitudinally with two lines; thickly lacquered or torred on the inside", u 12000, u 14000, none)]

/-- friction.py:3761-4002: part 5 of `HHR_roughness` -/
def HHR5 : List (String × Option ℚ × Option ℚ × Option ℚ) := [
    ("Riveted steel tubes, Riveted longitudinally with six lines, after extensive use", none, none, u 20000),
    ("Riveted steel tubes, Riveted laterally with four lines and longitudinally with six lines; overlapping joints inside", none, none, u 40000),
    ("Riveted steel tubes, Extremely poor surface; overlapping and uneven joints", u 50000, none, none),
    ("Roofing steel sheets, Oiled", u 1500, u 11000, none),
    ("Roofing steel sheets, Not Oiled", u 200, u 400, none),
    ("Galvanized steel tubes, Bright galvanization; new", u 700, u 1000, none),
    ("Galvanized steel tubes, Ordinary galvanization", u 1000, u 1500, none),
    ("Galvanized sheet steel, New", none, none, u 1500),
    ("Galvanized sheet steel, Used previously for water", none, none, u 1800),
    ("Steel tubes, Glass enamel coat", u 10, u 100, none),
    ("Steel tubes, New", u 2500, u 10000, none),
    ("Cast-iron tubes, New, bituminized", u 1000, u 1500, none),
    ("Cast-iron tubes, Coated with asphalt", u 1200, u 3000, none),
    ("Cast-iron tubes, Used water pipelines", none, none, u 14000),
    ("Cast-iron tubes, Used and corroded", u 10000, u 15000, none),
    ("Cast-iron tubes, Deposits visible", u 10000, u 15000, none),
    ("Cast-iron tubes, Substantial deposits", u 20000, u 40000, none),
    ("Cast-iron tubes, Cleaned after extensive use", u 3000, u 15000, none),
    ("Cast-iron tubes, Severely corroded", none, u 30000, none),
    ("Steel water conduits in generating stations, New, clean, seamless (without joints), well fitted", u 150, u 400, none)]

/-- friction.py:3761-4002: part 6 of `HHR_roughness` -/
def HHR6 : List (String × Option ℚ × Option ℚ × Option ℚ) := [
    ("Steel water conduits in generating stations, New, clean, welded lengthwise and well fitted", u 120, u 300, none),
    ("Steel water conduits in generating stations, New, clean, welded lengthwise and well fitted, with transverse welded joints", u 800, u 1700, none),
    ("Steel water conduits in generating stations, New, clean, coated, bituminized when manufactured", u 140, u 180, none),
    ("Steel water conduits in generating stations, New, clean, coated, bituminized when manufactured, with transverse welded joints", u 2000, u 6000, none),
    ("Steel water conduits in generating stations, New, clean, coated, galvanized", u 1000, u 2000, none),
    ("Steel water conduits in generating stations, New, clean, coated, roughly galvanized", u 4000, u 7000, none),
    ("Steel water conduits in generating stations, New, clean, coated, bituminized, curved", u 1000, u 14000, none),
    ("Steel water conduits in generating stations, Used, clean, slight corrosion", u 1000, u 3000, none),
    ("Steel water conduits in generating stations, Used, clean, moderate corrosion or slight deposits", u 3000, u 7000, none),
    ("Steel water conduits in generating stations, Used, clean, severe corrosion", u 8000, u 15000, none),
    ("Steel water conduits in generating stations, Used, clean, previously cleaned of either deposits or rust", u 1500, u 2000, none),
    ("Used steel water conduits in generating stations, Used, all welded, <2 years use, no deposits", u 1200, u 2400, none),
    ("Used steel water conduits in generating stations, Used, all welded, <20 years use, no deposits", u 6000, u 50000, none),
    ("Used steel water conduits in generating stations, Used, iron-bacterial corrosion", u 30000, u 40000, none),
    ("Used steel water conduits in generating stations, Used, heavy corrosion, or with incrustation (deposit 1.5 - 9 mm deep)", u 30000, u 50000, none),
    ("Used steel water conduits in generating stations, Used, heavy corrosion, or with incrustation (deposit 3 - 25 mm deep)", u 60000, u 65000, none),
    ("Used steel water conduits in generating stations, Used, inside coating, bituminized, < 2 years use", u 1000, u 3500, none)]

/-- friction.py:3993-4002 `HHR_roughness`: name (category, description) and `(min, max, average)`, in the order of insertion -/
def HHR : List (String × Option ℚ × Option ℚ × Option ℚ) := HHR1 ++ HHR2 ++ HHR3 ++ HHR4 ++ HHR5 ++ HHR6

/-- friction.py:3979-3983 `_roughness` -/
def clean : List (String × ℚ) := [
    ("Brass", 19 / 12500000),
    ("Lead", 19 / 12500000),
    ("Glass", 19 / 12500000),
    ("Steel", 19 / 12500000),
    ("Asphalted cast iron", 61 / 500000),
    ("Galvanized iron", 19 / 125000),
    ("Cast iron", 259 / 1000000),
    ("Wood stave", 183 / 1000000),
    ("Rough wood stave", 457 / 500000),
    ("Concrete", 61 / 200000),
    ("Rough concrete", 61 / 20000),
    ("Riveted steel", 457 / 500000),
    ("Rough riveted steel", 457 / 50000)]

/-- friction.py:4009-4015 `_Farshad_roughness`: name, average, `A`, `B` -/
def Farshad : List (String × ℚ × ℚ × ℚ) := [
    ("Plastic coated", 1 / 200000, 1 / 5000, -5049 / 5000),
    ("Carbon steel, honed bare", 1 / 80000, 1 / 2000, -10101 / 10000),
    ("Cr13, electropolished bare", 3 / 100000, 3 / 2500, -5043 / 5000),
    ("Cement lining", 33 / 1000000, 7 / 5000, -2021 / 2000),
    ("Carbon steel, bare", 9 / 250000, 7 / 5000, -632 / 625),
    ("Fiberglass lining", 19 / 500000, 1 / 625, -5043 / 5000),
    ("Cr13, bare", 11 / 200000, 21 / 10000, -2011 / 2000)]

/-- friction.py:4005-4006 `_all_roughness`: the keys searched for `clean=None` -/
def allNames : List String := HHR.map Prod.fst ++ clean.map Prod.fst

/-- friction.py:4115-4116 `roughness_clean_names` -/
def cleanNames : List String := clean.map Prod.fst ++ Farshad.map Prod.fst

/-- friction.py:4119-4157 `nearest_material_roughness`; `near` stands for the string matcher installed by `fuzzy_match` (friction.py:217-231) -/
def nearest_material_roughness (near : String → List String → String) (name : String) (cl : Option Bool) : String :=
  match cl with
  | none => near name allNames
  | some true => near name cleanNames
  | some false => near name (HHR.map Prod.fst)

noncomputable section

/-- friction.py:4100 and 4112: `A*(D/inch)**(B + 1.0)*inch` -/
def farshadFormula (A B D : ℝ) : Py ℝ := do
  let p ← (D / 0.0254) ^ₚ (B + 1)
  return A * p * 0.0254

/-- friction.py:4101-4112: the lookup; `dat` is unbound for an unknown ID -/
def farshadLookup (ID : Option String) (D : Option ℝ) : Py ℝ :=
  match ID.bind (fun n => Farshad.lookup n), D with
  | none, _ => .error .unboundLocalError
  | some dat, none => .ok (dat.1 : ℝ)
  | some dat, some D => farshadFormula (dat.2.1 : ℝ) (dat.2.2 : ℝ) D

/-- friction.py:4022-4112 `roughness_Farshad` -/
def roughness_Farshad (ID : Option String) (D : Option ℝ) (coeffs : Option (ℝ × ℝ)) : Py ℝ :=
  match ID, coeffs with
  | none, some c =>
    match D with
    | none => .error .valueError
    | some D => farshadFormula c.1 c.2 D
  | ID, _ => farshadLookup ID D

/-- friction.py:4203-4208: `x if x else y` on a float or None -/
def orIfZero (x y : Option ℚ) : Option ℚ :=
  match x with
  | none => y
  | some v => if v ≠ 0 then some v else y

/-- friction.py:4203-4208: which of `(min, max, average)` is taken -/
def pick (optimism : Option Bool) (e : Option ℚ × Option ℚ × Option ℚ) : Option ℚ :=
  match optimism with
  | none => orIfZero e.2.2 (orIfZero e.2.1 e.1)
  | some true => orIfZero e.1 (orIfZero e.2.2 e.2.1)
  | some false => orIfZero e.2.1 (orIfZero e.2.2 e.1)

/-- friction.py:4197-4208: the three tables in order; `none` when the ID is in none of them. The result may be Python's None. -/
def known (ID : String) (D : Option ℝ) (optimism : Option Bool) : Option (Py (Option ℝ)) :=
  match Farshad.lookup ID, clean.lookup ID, HHR.lookup ID with
  | some _, _, _ => some (do
      let r ← roughness_Farshad (some ID) D none
      return some r)
  | none, some r, _ => some (.ok (some (r : ℝ)))
  | none, none, some e => some (.ok ((pick optimism e).map fun q : ℚ => (q : ℝ)))
  | none, none, none => none

/-- friction.py:4160-4211 `material_roughness`, with the interpreter's recursion limit as first argument -/
def material_roughness (near : String → List String → String) : ℕ → String → Option ℝ → Option Bool → Py (Option ℝ)
  | 0, _, _, _ => .error .exception
  | n + 1, ID, D, optimism =>
    match known ID D optimism with
    | some r => r
    | none => material_roughness near n (nearest_material_roughness near ID (some false)) D optimism

end

end Verif.Roughness
