import Verif.Model.Shapes
import Mathlib.Tactic.Linarith

/-! # C138: shapes of nested lists and arrays of one value -/

namespace Verif.Shapes

/-! ### Specification -/

/-- a value is an array with the given dimensions all of whose entries satisfy `p` -/
def IsArray {α : Type _} (p : α → Prop) : List ℕ → Value α → Prop
  | [], v => ∃ a, v = .leaf a ∧ p a
  | d :: ds, v => ∃ l, v = .list l ∧ l.length = d ∧ ∀ w ∈ l, IsArray p ds w

/-- the dimensions up to the first that is zero: no element says what would lie below it -/
def visible : List ℕ → List ℕ
  | [] => []
  | d :: ds => if d = 0 then [0] else d :: visible ds

/-! ### Properties -/

theorem shapeLoop_eq {α : Type _} {p : α → Prop} (k : ℕ) (ds : List ℕ) (v : Value α) (h : IsArray p ds v) : shapeLoop k v = (visible ds).take k := by
  induction k generalizing ds v with
  | zero => simp [shapeLoop]
  | succ k ih =>
    cases ds with
    | nil => obtain ⟨a, rfl, -⟩ := h; simp [shapeLoop, visible]
    | cons d ds =>
      obtain ⟨l, rfl, rfl, hl⟩ := h
      cases l with
      | nil => simp [shapeLoop, visible]
      | cons w l =>
        rw [shapeLoop, ih ds w (hl w (by simp)), visible, if_neg (by simp), List.take_succ_cons, List.length_cons]

/-- C138: the shape of an array is its dimensions, up to the first zero and the first eleven of them; a number has none -/
theorem C138_shape {α : Type _} {p : α → Prop} (d : ℕ) (ds : List ℕ) (v : Value α) (h : IsArray p (d :: ds) v) : shape v = .ok ((visible (d :: ds)).take 11) := by
  obtain ⟨l, rfl, rfl, hl⟩ := h
  cases l with
  | nil => simp [shape, visible]
  | cons w l => rw [shape, shapeLoop_eq 10 ds w (hl w (by simp)), visible, if_neg (by simp), List.take_succ_cons, List.length_cons]

theorem C138_shape_number {α : Type _} (a : α) : shape (.leaf a) = .error .typeError := rfl

theorem visible_pos {ds : List ℕ} (h : ∀ d ∈ ds, 0 < d) : visible ds = ds := by
  induction ds with
  | nil => rfl
  | cons d ds ih => rw [visible, if_neg (h d (by simp)).ne', ih fun e he => h e (by simp [he])]

/-- C138: the shape of an array of at most eleven dimensions, none of them zero, is its dimensions -/
theorem C138_shape_exact {α : Type _} {p : α → Prop} {ds : List ℕ} {v : Value α} (h : IsArray p ds v) (h0 : ds ≠ []) (h11 : ds.length ≤ 11) (hpos : ∀ d ∈ ds, 0 < d) : shape v = .ok ds := by
  cases ds with
  | nil => exact absurd rfl h0
  | cons d ds => rw [C138_shape d ds v h, visible_pos hpos, List.take_of_length_le h11]

/-- the dimensions asked for, negative ones as zero -/
def dims : ShapeArg → List ℕ
  | .int n => [n.toNat]
  | .tuple l => l.map Int.toNat
  | .other => []

theorem rep_isArray {p : ℝ → Prop} {ds : List ℕ} {v : Value ℝ} (n : ℤ) (h : IsArray p ds v) : IsArray p (n.toNat :: ds) (rep n v) :=
  ⟨_, rfl, by simp, fun w hw => by rw [List.eq_of_mem_replicate hw]; exact h⟩

theorem leaf_isArray (z : ℝ) : IsArray (fun a => a = z) [] (.leaf z) := ⟨z, rfl, rfl⟩

/-- C138: the value entered: itself for `float`, the integer next to it on the side of zero for `int` -/
theorem C138_fill (fill : ℝ) : fillOf .float fill = .ok fill ∧ fillOf .other fill = .error .valueError ∧
    ∃ k : ℤ, fillOf .int fill = .ok (k : ℝ) ∧ |(k : ℝ)| ≤ |fill| ∧ |fill - k| < 1 ∧ 0 ≤ fill * k := by
  refine ⟨rfl, rfl, ?_⟩
  by_cases h : 0 ≤ fill
  · have h1 := Int.floor_le fill
    have h2 := Int.lt_floor_add_one fill
    have h3 : (0 : ℝ) ≤ ⌊fill⌋ := by exact_mod_cast Int.floor_nonneg.2 h
    refine ⟨⌊fill⌋, by simp [fillOf, h], ?_, ?_, mul_nonneg h h3⟩
    · rw [abs_of_nonneg h3, abs_of_nonneg h]; exact h1
    · rw [abs_lt]; constructor <;> linarith
  · have h1 := Int.le_ceil fill
    have h2 := Int.ceil_lt_add_one fill
    have h' : fill ≤ 0 := (not_le.1 h).le
    have h3 : (⌈fill⌉ : ℝ) ≤ 0 := by exact_mod_cast Int.ceil_le.2 (by simpa using h')
    refine ⟨⌈fill⌉, by simp [fillOf, h], ?_, ?_, mul_nonneg_of_nonpos_of_nonpos h' h3⟩
    · rw [abs_of_nonpos h3, abs_of_nonpos h']; linarith
    · rw [abs_lt]; constructor <;> linarith

/-- C138: an array of one to four dimensions is built with exactly those dimensions and the value in every place; other shapes and types of number are refused -/
theorem C138_zeros (s : ShapeArg) (dtype : DType) (fill : ℝ) :
    (∀ z, fillOf dtype fill = .ok z → (dims s ≠ [] ∧ (dims s).length ≤ 4 → ∃ v, zeros s dtype fill = .ok v ∧ full s fill dtype = .ok v ∧ IsArray (fun a => a = z) (dims s) v) ∧
      (¬ (dims s ≠ [] ∧ (dims s).length ≤ 4) → zeros s dtype fill = .error .valueError ∧ full s fill dtype = .error .valueError)) ∧
    (zeros s .other fill = .error .valueError) := by
  refine ⟨fun z hz => ?_, by simp [zeros, fillOf]⟩
  simp only [full, zeros, hz, Py.ok_bind, and_self]
  have L := leaf_isArray z
  match s with
  | .int n => exact ⟨fun _ => ⟨_, rfl, rfl, rep_isArray n L⟩, fun h => absurd ⟨by simp [dims], by simp [dims]⟩ h⟩
  | .other => exact ⟨fun h => absurd rfl h.1, fun _ => rfl⟩
  | .tuple [] => exact ⟨fun h => absurd rfl h.1, fun _ => rfl⟩
  | .tuple [a] => exact ⟨fun _ => ⟨_, rfl, rfl, rep_isArray a L⟩, fun h => absurd ⟨by simp [dims], by simp [dims]⟩ h⟩
  | .tuple [a, b] => exact ⟨fun _ => ⟨_, rfl, rfl, rep_isArray a (rep_isArray b L)⟩, fun h => absurd ⟨by simp [dims], by simp [dims]⟩ h⟩
  | .tuple [a, b, c] => exact ⟨fun _ => ⟨_, rfl, rfl, rep_isArray a (rep_isArray b (rep_isArray c L))⟩, fun h => absurd ⟨by simp [dims], by simp [dims]⟩ h⟩
  | .tuple [a, b, c, d] => exact ⟨fun _ => ⟨_, rfl, rfl, rep_isArray a (rep_isArray b (rep_isArray c (rep_isArray d L)))⟩, fun h => absurd ⟨by simp [dims], by simp [dims]⟩ h⟩
  | .tuple (_ :: _ :: _ :: _ :: _ :: _) => exact ⟨fun h => absurd h.2 (by simp [dims]), fun _ => rfl⟩

/-- C138: building an array and asking for its shape gives the dimensions back, if none is zero -/
theorem C138_round_trip {s : ShapeArg} {dtype : DType} {fill z : ℝ} (hz : fillOf dtype fill = .ok z) (h : dims s ≠ [] ∧ (dims s).length ≤ 4) (hpos : ∀ d ∈ dims s, 0 < d) :
    (zeros s dtype fill >>= shape) = .ok (dims s) := by
  obtain ⟨v, h1, -, h2⟩ := ((C138_zeros s dtype fill).1 z hz).1 h
  rw [h1, Py.ok_bind]
  exact C138_shape_exact h2 h.1 (by omega) hpos

/-- C138, finding: the shape of an array of shape (0, 3) is reported as (0,) -/
theorem C138_zero_dimension : (zeros (.tuple [0, 3]) .float 0 >>= shape) = .ok [0] := rfl

example : (zeros (.tuple [2, 3, 1]) .float 1.5 >>= shape) = .ok [2, 3, 1] := C138_round_trip (z := 1.5) rfl (by simp [dims]) (by simp [dims])

end Verif.Shapes
