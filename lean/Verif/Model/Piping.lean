import Mathlib.Algebra.Order.Field.Rat
import Verif.Model.PipingTables
import Verif.Model.Translate
import Verif.Model.Sequences

/-!
# Model of `fluids/piping.py`: pipe and wire schedules

Requests and table entries are rationals: every finite double is one, and the comparisons made are exact.
-/

namespace Verif.Piping
open Verif.Translate (idx)
open Verif.Seq (pyGet)

/-- piping.py:608-609, 617-618, 624-625: row `i` of the schedule -/
def row (T : Table) (i : ℕ) : Py (ℚ × ℚ × ℚ × ℚ) := do
  let n ← idx T.nps i
  let a ← idx T.di i
  let b ← idx T.od i
  let c ← idx T.t i
  return (n, a, b, c)

/-- piping.py:604-610: the loop of `Di_lookup`; the first argument is the number of passes left, the second the loop index -/
def diGo (Di : ℚ) (T : Table) : ℕ → ℕ → Py (ℚ × ℚ × ℚ × ℚ)
  | 0, _ => .error .valueError
  | n + 1, i => do
    let last ← pyGet T.di (-1)
    if last < Di then .error .valueError
    else
      let x ← idx T.di i
      if x ≥ Di then row T i else diGo Di T n (i + 1)

/-- piping.py:603-610 `Di_lookup` -/
def Di_lookup (Di : ℚ) (T : Table) : Py (ℚ × ℚ × ℚ × ℚ) := diGo Di T T.di.length 0

/-- piping.py:613-619: the loop of `Do_lookup` -/
def doGo (Do : ℚ) (T : Table) : ℕ → ℕ → Py (ℚ × ℚ × ℚ × ℚ)
  | 0, _ => .error .valueError
  | n + 1, i => do
    let last ← pyGet T.od (-1)
    if last < Do then .error .valueError
    else
      let x ← idx T.od i
      if x ≥ Do then row T i else doGo Do T n (i + 1)

/-- piping.py:612-619 `Do_lookup` -/
def Do_lookup (Do : ℚ) (T : Table) : Py (ℚ × ℚ × ℚ × ℚ) := doGo Do T T.od.length 0

/-- piping.py:622-626: the loop of `NPS_lookup` -/
def npsGo (NPS : ℚ) (T : Table) : ℕ → ℕ → Py (ℚ × ℚ × ℚ × ℚ)
  | 0, _ => .error .valueError
  | n + 1, i => do
    let x ← idx T.nps i
    if x = NPS then row T i else npsGo NPS T n (i + 1)

/-- piping.py:621-626 `NPS_lookup` -/
def NPS_lookup (NPS : ℚ) (T : Table) : Py (ℚ × ℚ × ℚ × ℚ) := npsGo NPS T T.nps.length 0

/-- piping.py:914: the `schedule` argument: text or a number -/
inductive Schedule
  | text (s : String)
  | num (x : ℚ)

/-- piping.py:736-739: a number is truncated towards zero and printed -/
def Schedule.key : Schedule → String
  | .text s => s
  | .num x => toString (if 0 ≤ x then ⌊x⌋ else -⌊-x⌋)

/-- piping.py:630-755 `nearest_pipe` -/
def nearest_pipe (Do Di NPS : Option ℚ) (schedule : Schedule) : Py (ℚ × ℚ × ℚ × ℚ) := do
  let Di := Di.map (· * 1000)
  let Do := Do.map (· * 1000)
  match schedule_lookup.lookup schedule.key with
  | none => .error .valueError
  | some T =>
    let nums ← (match Di, Do, NPS with
      | some v, _, _ => Di_lookup v T
      | none, some v, _ => Do_lookup v T
      | none, none, some v => NPS_lookup v T
      | none, none, none => .error .unboundLocalError : Py (ℚ × ℚ × ℚ × ℚ))
    return (nums.1, nums.2.1 * (1 / 1000), nums.2.2.1 * (1 / 1000), nums.2.2.2 * (1 / 1000))

/-- piping.py:965: the builtin `round(x, n)`: to `n` decimals, ties to the even last digit -/
def pyRound (x : ℚ) (n : ℕ) : ℚ :=
  let y := x * 10 ^ n
  let f := ⌊y⌋
  (if y - f < 1 / 2 then f else if y - f > 1 / 2 then f + 1 else if f % 2 = 0 then f else f + 1 : ℤ) / 10 ^ n

/-- piping.py:986-990: the scan of `gauge_from_t`: `larger` (none: still unbound) and the value of `i` when the loop ends -/
def gaugeScan (s : List ℚ) (t : ℚ) : ℕ → ℕ → Option ℚ → Py (Option ℚ × ℕ)
  | 0, i, larger => .ok (larger, i - 1)
  | n + 1, i, larger => do
    let x ← idx s i
    if x ≥ t then gaugeScan s t n (i + 1) (some x) else return (larger, i)

/-- piping.py:964-967: the thickness in inches -/
def inches (t : ℚ) (SI : Bool) : ℚ := if SI then pyRound (t / (254 / 10000)) 9 else t

/-- piping.py:969-999: `gauge_from_t` once the thickness is in inches -/
def gaugeInches (t_inch : ℚ) (schedule : String) : Py ℚ :=
  match wire_schedules.lookup schedule with
  | none => .error .valueError
  | some W => do
    let sch_max ← pyGet W.inch 0
    let sch_min ← pyGet W.inch (-1)
    if t_inch > sch_max then .error .valueError
    else if t_inch ∈ W.inch then idx W.gauges (W.inch.idxOf t_inch)
    else
      let r ← gaugeScan W.inch t_inch W.inch.length 0 none
      match r.1 with
      | none => .error .unboundLocalError
      | some larger =>
        if larger = sch_min then return sch_min
        else
          let smaller ← idx W.inch r.2
          if t_inch - smaller ≤ 1 / 10 * (larger - smaller) then idx W.gauges r.2
          else pyGet W.gauges ((r.2 : ℤ) - 1)

/-- piping.py:914-999 `gauge_from_t` -/
def gauge_from_t (t : ℚ) (SI : Bool) (schedule : String) : Py ℚ := gaugeInches (inches t SI) schedule

/-- piping.py:1002-1057 `t_from_gauge` -/
def t_from_gauge (gauge : ℚ) (SI : Bool) (schedule : String) : Py ℚ :=
  match wire_schedules.lookup schedule with
  | none => .error .valueError
  | some W =>
    if gauge ∈ W.gauges then
      if SI then idx W.si (W.gauges.idxOf gauge) else idx W.inch (W.gauges.idxOf gauge)
    else .error .valueError

end Verif.Piping
