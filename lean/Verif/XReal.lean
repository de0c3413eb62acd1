import Verif.Num

/-!
# `XReal`: exact real arithmetic with NaN and infinities

What an IEEE double computes when rounding, overflow, underflow and the sign of zero are ignored
(a zero divisor is taken to be `+0`).
-/

inductive XReal where
  | nan
  | ninf
  | pinf
  | fin (r : ℝ)

namespace XReal

instance : Coe ℝ XReal := ⟨fin⟩

/-- `r * inf` for a real `r`. -/
noncomputable def signInf (r : ℝ) : XReal := if r = 0 then nan else if 0 < r then pinf else ninf

def neg : XReal → XReal
  | nan => nan
  | ninf => pinf
  | pinf => ninf
  | fin a => fin (-a)

noncomputable def add : XReal → XReal → XReal
  | fin a, fin b => fin (a + b)
  | nan, _ => nan
  | _, nan => nan
  | pinf, ninf => nan
  | ninf, pinf => nan
  | pinf, _ => pinf
  | _, pinf => pinf
  | ninf, _ => ninf
  | _, ninf => ninf

noncomputable def mul : XReal → XReal → XReal
  | fin a, fin b => fin (a * b)
  | nan, _ => nan
  | _, nan => nan
  | pinf, pinf => pinf
  | ninf, ninf => pinf
  | pinf, ninf => ninf
  | ninf, pinf => ninf
  | fin a, pinf => signInf a
  | fin a, ninf => signInf (-a)
  | pinf, fin b => signInf b
  | ninf, fin b => signInf (-b)

noncomputable def div : XReal → XReal → XReal
  | fin a, fin b => if b = 0 then signInf a else fin (a / b)
  | nan, _ => nan
  | _, nan => nan
  | fin _, pinf => fin 0
  | fin _, ninf => fin 0
  | pinf, fin b => if b < 0 then ninf else pinf
  | ninf, fin b => if b < 0 then pinf else ninf
  | _, _ => nan

def lt : XReal → XReal → Prop
  | fin a, fin b => a < b
  | ninf, fin _ => True
  | ninf, pinf => True
  | fin _, pinf => True
  | _, _ => False

def le : XReal → XReal → Prop
  | fin a, fin b => a ≤ b
  | ninf, fin _ => True
  | ninf, pinf => True
  | ninf, ninf => True
  | fin _, pinf => True
  | pinf, pinf => True
  | _, _ => False

noncomputable instance : Add XReal := ⟨add⟩
noncomputable instance : Sub XReal := ⟨fun a b => add a (neg b)⟩
noncomputable instance : Mul XReal := ⟨mul⟩
noncomputable instance : Div XReal := ⟨div⟩
noncomputable instance : Neg XReal := ⟨neg⟩
noncomputable instance : Zero XReal := ⟨fin 0⟩
noncomputable instance : One XReal := ⟨fin 1⟩
instance : LT XReal := ⟨lt⟩
instance : LE XReal := ⟨le⟩
noncomputable instance : DecidableLT XReal := fun _ _ => Classical.propDecidable _
noncomputable instance : DecidableLE XReal := fun _ _ => Classical.propDecidable _

/-- Apply a partial real function: NaN outside its domain and on non-finite arguments. -/
noncomputable def onFin (dom : ℝ → Prop) (f : ℝ → ℝ) : XReal → XReal
  | fin a => open Classical in if dom a then fin (f a) else nan
  | _ => nan

noncomputable instance : Elem XReal where
  lit q := fin (q : ℝ)
  pi := fin Real.pi
  sqrt
    | fin a => if 0 ≤ a then fin (Real.sqrt a) else nan
    | pinf => pinf
    | _ => nan
  -- Simplification: `math.sin(inf)` raises ValueError where `np.sin(inf)` gives NaN; modelled as NaN.
  sin := onFin (fun _ => True) Real.sin
  cos := onFin (fun _ => True) Real.cos
  arccos := onFin (fun a => -1 ≤ a ∧ a ≤ 1) Real.arccos
  arcsin := onFin (fun a => -1 ≤ a ∧ a ≤ 1) Real.arcsin
  -- Simplification: `arctan2` with an infinite argument (finite in NumPy) is modelled as NaN; unreachable here.
  arctan2
    | fin y, fin x => fin (Complex.arg ⟨x, y⟩)
    | _, _ => nan
  abs
    | fin a => fin |a|
    | nan => nan
    | _ => pinf
  sign
    | fin a => fin (if a < 0 then -1 else if 0 < a then 1 else 0)
    | nan => nan
    | pinf => fin 1
    | ninf => fin (-1)
  floorDiv
    | fin a, fin b => if b = 0 then signInf a else fin (⌊a / b⌋ : ℝ)
    | _, _ => nan
  remainder
    | fin a, fin b => if b = 0 then nan else fin (a - b * (⌊a / b⌋ : ℝ))
    | _, _ => nan
  rint
    | fin a => fin (Real.rintEven a : ℝ)
    | x => x
  toInt
    | fin a => some (Real.trunc a)
    | _ => none

/-! ### Evaluation on finite values -/

@[simp] theorem fin_inj {a b : ℝ} : (fin a = fin b) ↔ a = b := by
  constructor
  · intro h; cases h; rfl
  · rintro rfl; rfl

@[simp] theorem fin_add (a b : ℝ) : fin a + fin b = fin (a + b) := rfl
@[simp] theorem fin_sub (a b : ℝ) : fin a - fin b = fin (a - b) := by
  change fin (a + -b) = _; rw [sub_eq_add_neg]
@[simp] theorem fin_mul (a b : ℝ) : fin a * fin b = fin (a * b) := rfl
@[simp] theorem fin_neg (a : ℝ) : -fin a = fin (-a) := rfl
theorem fin_div' (a b : ℝ) : fin a / fin b = if b = 0 then signInf a else fin (a / b) := rfl
theorem fin_div (a : ℝ) {b : ℝ} (h : b ≠ 0) : fin a / fin b = fin (a / b) := by
  rw [fin_div', if_neg h]
theorem zero_div_zero : fin 0 / fin 0 = nan := by simp [fin_div', signInf]
@[simp] theorem fin_lt (a b : ℝ) : fin a < fin b ↔ a < b := Iff.rfl
@[simp] theorem fin_le (a b : ℝ) : fin a ≤ fin b ↔ a ≤ b := Iff.rfl
theorem zero_def : (0 : XReal) = fin 0 := rfl
theorem one_def : (1 : XReal) = fin 1 := rfl
@[simp] theorem lit_fin (q : ℚ) : (lit q : XReal) = fin (q : ℝ) := rfl
@[simp] theorem pi_fin : (Elem.pi : XReal) = fin Real.pi := rfl
theorem sqrt_fin' (a : ℝ) : Elem.sqrt (fin a) = if 0 ≤ a then fin (Real.sqrt a) else nan := rfl
theorem sqrt_fin {a : ℝ} (h : 0 ≤ a) : Elem.sqrt (fin a) = fin (Real.sqrt a) := by
  rw [sqrt_fin', if_pos h]
@[simp] theorem sin_fin (a : ℝ) : Elem.sin (fin a) = fin (Real.sin a) := by
  change onFin _ _ _ = _; simp [onFin]
@[simp] theorem cos_fin (a : ℝ) : Elem.cos (fin a) = fin (Real.cos a) := by
  change onFin _ _ _ = _; simp [onFin]
theorem arccos_fin' (a : ℝ) : Elem.arccos (fin a) =
    if -1 ≤ a ∧ a ≤ 1 then fin (Real.arccos a) else nan := by
  change onFin _ _ _ = _; simp only [onFin]; split_ifs <;> rfl
theorem arccos_fin {a : ℝ} (h : -1 ≤ a) (h' : a ≤ 1) : Elem.arccos (fin a) = fin (Real.arccos a) := by
  rw [arccos_fin', if_pos ⟨h, h'⟩]
theorem arcsin_fin' (a : ℝ) : Elem.arcsin (fin a) =
    if -1 ≤ a ∧ a ≤ 1 then fin (Real.arcsin a) else nan := by
  change onFin _ _ _ = _; simp only [onFin]; split_ifs <;> rfl
theorem arcsin_fin {a : ℝ} (h : -1 ≤ a) (h' : a ≤ 1) : Elem.arcsin (fin a) = fin (Real.arcsin a) := by
  rw [arcsin_fin', if_pos ⟨h, h'⟩]
@[simp] theorem arctan2_fin (y x : ℝ) : Elem.arctan2 (fin y) (fin x) = fin (Complex.arg ⟨x, y⟩) := rfl
@[simp] theorem abs_fin (a : ℝ) : Elem.abs (fin a) = fin |a| := rfl
@[simp] theorem sign_fin (a : ℝ) : Elem.sign (fin a) = fin (Elem.sign a) := rfl
theorem floorDiv_fin (a : ℝ) {b : ℝ} (h : b ≠ 0) :
    Elem.floorDiv (fin a) (fin b) = fin (⌊a / b⌋ : ℝ) := by
  change (if b = 0 then _ else _) = _; rw [if_neg h]
theorem remainder_fin (a : ℝ) {b : ℝ} (h : b ≠ 0) :
    Elem.remainder (fin a) (fin b) = fin (a - b * (⌊a / b⌋ : ℝ)) := by
  change (if b = 0 then _ else _) = _; rw [if_neg h]
@[simp] theorem rint_fin (a : ℝ) : Elem.rint (fin a) = fin (Real.rintEven a : ℝ) := rfl
@[simp] theorem toInt_fin (a : ℝ) : Elem.toInt (fin a) = some (Real.trunc a) := rfl
@[simp] theorem feq_fin (a b : ℝ) : feq (fin a) (fin b) ↔ a = b :=
  (le_antisymm_iff (a := a) (b := b)).symm
@[simp] theorem npEps_fin : (npEps : XReal) = fin npEps := by simp [npEps]

/-! ### NaN -/
@[simp] theorem nan_add (x : XReal) : nan + x = nan := by cases x <;> rfl
@[simp] theorem add_nan (x : XReal) : x + nan = nan := by cases x <;> rfl
@[simp] theorem nan_sub (x : XReal) : nan - x = nan := by cases x <;> rfl
@[simp] theorem sub_nan (x : XReal) : x - nan = nan := by cases x <;> rfl
@[simp] theorem nan_mul (x : XReal) : nan * x = nan := by cases x <;> rfl
@[simp] theorem mul_nan (x : XReal) : x * nan = nan := by cases x <;> rfl
@[simp] theorem nan_div (x : XReal) : nan / x = nan := by cases x <;> rfl
@[simp] theorem div_nan (x : XReal) : x / nan = nan := by cases x <;> rfl
@[simp] theorem neg_nan : -nan = nan := rfl
@[simp] theorem nan_lt (x : XReal) : ¬ (nan < x) := by intro h; exact h
@[simp] theorem lt_nan (x : XReal) : ¬ (x < nan) := by cases x <;> exact fun h => h
@[simp] theorem nan_le (x : XReal) : ¬ (nan ≤ x) := by intro h; exact h
@[simp] theorem le_nan (x : XReal) : ¬ (x ≤ nan) := by cases x <;> exact fun h => h
@[simp] theorem sqrt_nan : Elem.sqrt nan = nan := rfl
@[simp] theorem sin_nan : Elem.sin nan = nan := rfl
@[simp] theorem cos_nan : Elem.cos nan = nan := rfl
@[simp] theorem arccos_nan : Elem.arccos nan = nan := rfl
@[simp] theorem arcsin_nan : Elem.arcsin nan = nan := rfl
@[simp] theorem arctan2_nan (x : XReal) : Elem.arctan2 nan x = nan := by cases x <;> rfl
@[simp] theorem abs_nan : Elem.abs nan = nan := rfl
@[simp] theorem fin_ne_nan (a : ℝ) : fin a ≠ nan := by intro h; cases h

end XReal
