import Mathlib.Analysis.SpecialFunctions.Complex.Arg
import Mathlib.Analysis.SpecialFunctions.Trigonometric.Inverse

/-!
# Scalars

The model is written once, generically in the scalar type.  Arithmetic and comparisons use the ordinary
classes (`Add`, `Mul`, `LT`, ...); everything else NumPy or `math` provides on a scalar is collected in `Elem`.
Instances: `ℝ` (here), `Float` (here, for execution), `XReal` (`Verif/XReal.lean`).
-/

/-- Python exceptions that the modelled code can raise, as values. -/
inductive PyErr where
  | assertion
  | value
  | key
  | index
  | type
  | attribute
  /-- not an exception: the call does not return -/
  | diverge
deriving DecidableEq, Repr

/-- The scalar operations of `numpy` / `math` used by the code, beyond arithmetic and comparison. -/
class Elem (α : Type) where
  /-- a numeric literal of the source text -/
  lit : Rat → α
  /-- `np.pi` -/
  pi : α
  sqrt : α → α
  sin : α → α
  cos : α → α
  arccos : α → α
  arcsin : α → α
  /-- `np.arctan2 y x` -/
  arctan2 : α → α → α
  /-- `np.abs` -/
  abs : α → α
  /-- `np.sign` -/
  sign : α → α
  /-- `np.floor_divide a b` -/
  floorDiv : α → α → α
  /-- `np.remainder a b` (result has the sign of `b`) -/
  remainder : α → α → α
  /-- rounding to the nearest integer, ties to even (`np.rint`) -/
  rint : α → α
  /-- `int(x)` for an integral-valued `x`; `none` on NaN and infinities, where Python raises -/
  toInt : α → Option Int

/-- Nearest integer, ties to even. -/
noncomputable def Real.rintEven (x : ℝ) : ℤ :=
  if x - ⌊x⌋ < 1/2 then ⌊x⌋
  else if 1/2 < x - ⌊x⌋ then ⌊x⌋ + 1
  else if Even ⌊x⌋ then ⌊x⌋ else ⌊x⌋ + 1

/-- Truncation toward zero (`int(x)` of Python). -/
noncomputable def Real.trunc (x : ℝ) : ℤ := if 0 ≤ x then ⌊x⌋ else ⌈x⌉

noncomputable instance instElemReal : Elem ℝ where
  lit q := (q : ℝ)
  pi := Real.pi
  sqrt := Real.sqrt
  sin := Real.sin
  cos := Real.cos
  arccos := Real.arccos
  arcsin := Real.arcsin
  arctan2 y x := Complex.arg ⟨x, y⟩
  abs x := |x|
  sign x := if x < 0 then -1 else if 0 < x then 1 else 0
  floorDiv a b := (⌊a / b⌋ : ℝ)
  remainder a b := a - b * (⌊a / b⌋ : ℝ)
  rint x := (Real.rintEven x : ℝ)
  toInt x := some (Real.trunc x)

/-- IEEE double arithmetic, used only to execute the model on the repository's test literals. -/
instance instElemFloat : Elem Float where
  lit q := Float.ofInt q.num / Float.ofNat q.den
  pi := 3.14159265358979311600
  sqrt := Float.sqrt
  sin := Float.sin
  cos := Float.cos
  arccos := Float.acos
  arcsin := Float.asin
  arctan2 := Float.atan2
  abs := Float.abs
  sign x := if x < 0 then -1 else if 0 < x then 1 else x
  floorDiv a b := (a / b).floor
  remainder a b := a - b * (a / b).floor
  rint x :=
    let f := x.floor
    if x - f < 0.5 then f
    else if 0.5 < x - f then f + 1
    else if (f / 2).floor * 2 == f then f else f + 1
  toInt x := if x.isNaN || x.isInf then none else
    some (if x < 0 then - (Int.ofNat (-x).toUInt64.toNat) else Int.ofNat x.toUInt64.toNat)

section
variable {α : Type} [Add α] [Sub α] [Mul α] [Div α] [Neg α] [Zero α] [One α] [LT α] [LE α]
  [DecidableLT α] [DecidableLE α] [Elem α]

export Elem (lit)

/-- `np.finfo(np.float64).eps` = 2⁻⁵². -/
def npEps : α := lit (1 / 4503599627370496)

/-- IEEE `==`: false on NaN. -/
def feq (a b : α) : Prop := a ≤ b ∧ b ≤ a

instance (a b : α) : Decidable (feq a b) := inferInstanceAs (Decidable (_ ∧ _))

/-- `np.isclose(a, b, rtol, atol)`: `|a - b| <= atol + rtol*|b|` for finite values.  NumPy additionally treats two
equal infinities as close (first disjunct) and never anything involving NaN.
(Simplification: for exactly one infinite operand NumPy answers False; here `|inf| <= inf` may be true when `b` is
infinite; no modelled caller passes infinities.) -/
def isclose (a b rtol atol : α) : Prop :=
  feq a b ∨ Elem.abs (a - b) ≤ atol + rtol * Elem.abs b

instance (a b r t : α) : Decidable (isclose a b r t) := inferInstanceAs (Decidable (_ ∨ _))

/-- `np.isclose(a, b)` with default tolerances rtol = 1e-5, atol = 1e-8. -/
def iscloseD (a b : α) : Prop := isclose a b (lit (1/100000)) (lit (1/100000000))

instance (a b : α) : Decidable (iscloseD a b) := inferInstanceAs (Decidable (isclose _ _ _ _))

end

/-! ### Unfolding lemmas on `ℝ` -/
section real
@[simp] theorem lit_real (q : ℚ) : (lit q : ℝ) = (q : ℝ) := rfl
@[simp] theorem pi_real : (Elem.pi : ℝ) = Real.pi := rfl
@[simp] theorem sqrt_real (x : ℝ) : Elem.sqrt x = Real.sqrt x := rfl
@[simp] theorem sin_real (x : ℝ) : Elem.sin x = Real.sin x := rfl
@[simp] theorem cos_real (x : ℝ) : Elem.cos x = Real.cos x := rfl
@[simp] theorem arccos_real (x : ℝ) : Elem.arccos x = Real.arccos x := rfl
@[simp] theorem arcsin_real (x : ℝ) : Elem.arcsin x = Real.arcsin x := rfl
@[simp] theorem arctan2_real (y x : ℝ) : Elem.arctan2 y x = Complex.arg ⟨x, y⟩ := rfl
@[simp] theorem abs_real (x : ℝ) : Elem.abs x = |x| := rfl
theorem sign_real (x : ℝ) : Elem.sign x = if x < 0 then -1 else if 0 < x then 1 else 0 := rfl
theorem floorDiv_real (x y : ℝ) : Elem.floorDiv x y = (⌊x / y⌋ : ℝ) := rfl
theorem remainder_real (x y : ℝ) : Elem.remainder x y = x - y * (⌊x / y⌋ : ℝ) := rfl
@[simp] theorem feq_real (a b : ℝ) : feq a b ↔ a = b := le_antisymm_iff.symm
theorem npEps_real : (npEps : ℝ) = 1 / 4503599627370496 := by simp [npEps]
theorem npEps_pos : (0 : ℝ) < npEps := by rw [npEps_real]; norm_num
end real
