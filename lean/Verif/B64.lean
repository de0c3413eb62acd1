import Verif.Fl
import Mathlib.Data.Int.Log

/-!
# IEEE binary64 with rounding to nearest, ties to even

The instance of `FSys` for `numpy.float64`.  The elementary functions are any functions with absolute error at most 2⁻⁵⁰ for sine and
cosine (four units in the last place); `u = 2⁻⁵⁰` bounds both them and the unit roundoff 2⁻⁵³.
-/
set_option autoImplicit false

/-- A library of elementary functions with accurate sine and cosine. -/
structure Libm where
  sinF : ℝ → ℝ
  cosF : ℝ → ℝ
  arccosF : ℝ → ℝ
  arcsinF : ℝ → ℝ
  arctan2F : ℝ → ℝ → ℝ
  sin_err : ∀ x, |sinF x - Real.sin x| ≤ 2⁻¹ ^ 50
  cos_err : ∀ x, |cosF x - Real.cos x| ≤ 2⁻¹ ^ 50

namespace B64

/-- Exponent of the last place of the binary64 numbers around `x`. -/
noncomputable def ulpExp (x : ℝ) : ℤ := max (Int.log 2 |x| - 52) (-1074)

/-- Rounding to 53 bits, to nearest, ties to even, with gradual underflow; the exponent is not bounded above (see `FSys.round`). -/
noncomputable def rnd (x : ℝ) : ℝ := (Real.rintEven (x / 2 ^ ulpExp x) : ℝ) * 2 ^ ulpExp x

theorem rintEven_err (y : ℝ) : |(Real.rintEven y : ℝ) - y| ≤ 1 / 2 := by
  have h1 := Int.floor_le y
  have h2 := Int.lt_floor_add_one y
  unfold Real.rintEven
  split_ifs <;> rw [abs_le] <;> push_cast <;> constructor <;> linarith

theorem rnd_err' (x : ℝ) : |rnd x - x| ≤ 2 ^ ulpExp x / 2 := by
  have hp : (0 : ℝ) < 2 ^ ulpExp x := zpow_pos (by norm_num) _
  have h := rintEven_err (x / 2 ^ ulpExp x)
  have : rnd x - x = ((Real.rintEven (x / 2 ^ ulpExp x) : ℝ) - x / 2 ^ ulpExp x) * 2 ^ ulpExp x := by
    unfold rnd
    rw [sub_mul, div_mul_cancel₀ _ hp.ne']
  rw [this, abs_mul, abs_of_pos hp]
  calc _ ≤ 1 / 2 * (2 : ℝ) ^ ulpExp x := mul_le_mul_of_nonneg_right h hp.le
    _ = _ := by ring

theorem rnd_zero : rnd 0 = 0 := by
  simp [rnd, Real.rintEven]

/-- The standard model: relative error 2⁻⁵³, underflow error 2⁻¹⁰⁷⁵. -/
theorem rnd_err (x : ℝ) : |rnd x - x| ≤ 2⁻¹ ^ 53 * |x| + 2⁻¹ ^ 1075 := by
  by_cases hx : x = 0
  · subst hx
    rw [rnd_zero]
    simp
  have ha : 0 < |x| := abs_pos.2 hx
  refine (rnd_err' x).trans ?_
  have e1 : (2 : ℝ) ^ ulpExp x ≤ 2 ^ (Int.log 2 |x| - 52) + 2 ^ (-1074 : ℤ) := by
    have p1 : (0 : ℝ) < 2 ^ (Int.log 2 |x| - 52) := zpow_pos (by norm_num) _
    have p2 : (0 : ℝ) < 2 ^ (-1074 : ℤ) := zpow_pos (by norm_num) _
    unfold ulpExp
    rcases max_choice (Int.log 2 |x| - 52) (-1074) with h | h <;> rw [h] <;> linarith
  have e2 : ((2 : ℕ) : ℝ) ^ Int.log 2 |x| ≤ |x| := Int.zpow_log_le_self (by norm_num) ha
  have e3 : (2 : ℝ) ^ (Int.log 2 |x| - 52) = 2 ^ Int.log 2 |x| * 2⁻¹ ^ 52 := by
    rw [zpow_sub₀ (by norm_num), div_eq_mul_inv, inv_pow]
    norm_cast
  have e4 : (2 : ℝ) ^ (-1074 : ℤ) = 2⁻¹ ^ 1074 := by
    rw [zpow_neg, inv_pow]
    norm_cast
  rw [e3, e4] at e1
  push_cast at e2
  have e5 : (2 : ℝ) ^ Int.log 2 |x| * 2⁻¹ ^ 52 ≤ |x| * 2⁻¹ ^ 52 := mul_le_mul_of_nonneg_right e2 (by positivity)
  have e6 : (2⁻¹ : ℝ) ^ 53 = 2⁻¹ ^ 52 / 2 := by rw [pow_succ]; ring
  have e7 : (2⁻¹ : ℝ) ^ 1075 = 2⁻¹ ^ 1074 / 2 := by rw [pow_succ]; ring
  rw [e6, e7]
  generalize (2⁻¹ : ℝ) ^ 1074 = t at *
  generalize (2⁻¹ : ℝ) ^ 52 = w at *
  linarith

/-- Rounding is to the nearest multiple of the last place. -/
theorem rnd_eq {x : ℝ} (m e : ℤ) (he : -1074 ≤ e) (h1 : 2 ^ (e + 52) ≤ |x|) (h2 : |x| < 2 ^ (e + 53))
    (h3 : (m - 1 / 2) * 2 ^ e < x) (h4 : x < (m + 1 / 2) * 2 ^ e) : rnd x = m * 2 ^ e := by
  have hlog : Int.log 2 |x| = e + 52 := by
    have ha : 0 < |x| := lt_of_lt_of_le (zpow_pos (by norm_num) _) h1
    apply le_antisymm
    · have : |x| < ((2 : ℕ) : ℝ) ^ (e + 53) := by exact_mod_cast h2
      have := (Int.lt_zpow_iff_log_lt (by norm_num) ha).1 this
      omega
    · have : ((2 : ℕ) : ℝ) ^ (e + 52) ≤ |x| := by exact_mod_cast h1
      exact (Int.zpow_le_iff_le_log (by norm_num) ha).1 this
  have hu : ulpExp x = e := by
    unfold ulpExp
    rw [hlog]
    omega
  have hp : (0 : ℝ) < 2 ^ e := zpow_pos (by norm_num) _
  have hr : Real.rintEven (x / 2 ^ e) = m := by
    have k3 : (m : ℝ) - 1 / 2 < x / 2 ^ e := by rwa [lt_div_iff₀ hp]
    have k4 : x / 2 ^ e < m + 1 / 2 := by rwa [div_lt_iff₀ hp]
    have h := abs_le.1 (rintEven_err (x / 2 ^ e))
    have u1 : ((Real.rintEven (x / 2 ^ e) : ℤ) : ℝ) < m + 1 := by linarith
    have u2 : (m : ℝ) - 1 < (Real.rintEven (x / 2 ^ e) : ℤ) := by linarith
    have u1' : Real.rintEven (x / 2 ^ e) < m + 1 := by exact_mod_cast u1
    have u2' : m - 1 < Real.rintEven (x / 2 ^ e) := by exact_mod_cast u2
    omega
  unfold rnd
  rw [hu, hr]

/-- Binary64 numbers with a full mantissa are not changed. -/
theorem rnd_exact {x : ℝ} (m e : ℤ) (he : -1074 ≤ e) (hm : 2 ^ 52 ≤ |m|) (hm' : |m| < 2 ^ 53) (hx : x = m * 2 ^ e) : rnd x = x := by
  have hp : (0 : ℝ) < 2 ^ e := zpow_pos (by norm_num) _
  have ha : |x| = |(m : ℝ)| * 2 ^ e := by rw [hx, abs_mul, abs_of_pos hp]
  have c1 : ((2 : ℝ) ^ 52) ≤ |(m : ℝ)| := by exact_mod_cast hm
  have c2 : |(m : ℝ)| < (2 : ℝ) ^ 53 := by exact_mod_cast hm'
  rw [rnd_eq (x := x) m e he, hx]
  · rw [ha, zpow_add₀ (by norm_num), mul_comm]
    exact mul_le_mul_of_nonneg_right (by exact_mod_cast c1) hp.le
  · rw [ha, zpow_add₀ (by norm_num), mul_comm]
    exact mul_lt_mul_of_pos_left (by exact_mod_cast c2) hp
  · rw [hx]; nlinarith
  · rw [hx]; nlinarith

theorem rnd_nonneg (x : ℝ) (h : 0 ≤ x) : 0 ≤ rnd x := by
  have hp : (0 : ℝ) < 2 ^ ulpExp x := zpow_pos (by norm_num) _
  refine mul_nonneg ?_ hp.le
  have hf : 0 ≤ ⌊x / 2 ^ ulpExp x⌋ := Int.floor_nonneg.2 (div_nonneg h hp.le)
  unfold Real.rintEven
  split_ifs <;> push_cast <;> have : (0 : ℝ) ≤ ⌊x / 2 ^ ulpExp x⌋ := (by exact_mod_cast hf) <;> linarith

/-- Rounding a number up to 4. -/
theorem rnd_abs_err {x : ℝ} (h : |x| ≤ 4) : |rnd x - x| ≤ 2⁻¹ ^ 50 := by
  refine (rnd_err x).trans ?_
  have h1 : (2⁻¹ : ℝ) ^ 53 * |x| ≤ 2⁻¹ ^ 53 * 4 := mul_le_mul_of_nonneg_left h (by positivity)
  have h2 : (2⁻¹ : ℝ) ^ 1075 ≤ 2⁻¹ ^ 53 := pow_le_pow_of_le_one (by norm_num) (by norm_num) (by norm_num)
  exact (add_le_add h1 h2).trans (by norm_num)

end B64

/-- `numpy.float64` with the library `lib`. -/
noncomputable def b64 (lib : Libm) : FSys where
  rnd := B64.rnd
  u := 2⁻¹ ^ 50
  η := 2⁻¹ ^ 1075
  big := (2 - 2⁻¹ ^ 52) * 2 ^ 1023
  sinF := lib.sinF
  cosF := lib.cosF
  arccosF := lib.arccosF
  arcsinF := lib.arcsinF
  arctan2F := lib.arctan2F
  u_nonneg := by positivity
  u_le := by norm_num
  η_nonneg := by positivity
  η_le := pow_le_pow_of_le_one (by norm_num) (by norm_num) (by norm_num)
  big_ge := by
    have h1 : (2 : ℝ) ^ 20 ≤ 2 ^ 1023 := pow_le_pow_right₀ (by norm_num) (by norm_num)
    have h2 : (1 : ℝ) ≤ 2 - 2⁻¹ ^ 52 := by norm_num
    calc (1000000 : ℝ) ≤ 1 * 2 ^ 20 := by norm_num
      _ ≤ _ := mul_le_mul h2 h1 (by positivity) (by positivity)
  rnd_err x := (B64.rnd_err x).trans (by
    have : (2⁻¹ : ℝ) ^ 53 ≤ 2⁻¹ ^ 50 := pow_le_pow_of_le_one (by norm_num) (by norm_num) (by norm_num)
    have := mul_le_mul_of_nonneg_right this (abs_nonneg x)
    exact add_le_add_left this _)
  rnd_zero := B64.rnd_zero
  rnd_nonneg := B64.rnd_nonneg
  rnd_one := B64.rnd_exact (2 ^ 52) (-52) (by norm_num) (by norm_num) (by norm_num) (by norm_num)
  sin_err := lib.sin_err
  cos_err := lib.cos_err
