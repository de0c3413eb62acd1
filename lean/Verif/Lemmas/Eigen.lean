import Verif.Model.Tesseract
import Verif.Lemmas.Quat

/-! # Eigen's rotation conversions, as used by `transform_to_isometry3d` -/
set_option autoImplicit false

private theorem t_pos {x : ℝ} (h : 0 < x) : (2 : ℝ) * Real.sqrt x ≠ 0 := by
  have := Real.sqrt_pos.2 h; positivity

private theorem t_sq {x : ℝ} (h : 0 < x) : (2 * Real.sqrt x) * (2 * Real.sqrt x) = 4 * x := by
  have := Real.mul_self_sqrt h.le; linear_combination 4 * this

private theorem half_div {a x : ℝ} : a * (1 / 2 / x) = a / (2 * x) := by
  rw [div_div]; ring

/-- The four branches of Eigen's quaternion construction: values, for both scalar types. -/
theorem eigenQuat_spec {R : M3 ℝ} (h : IsRot R) :
    IsUnit4 (eigenQuat R) ∧ q2R (eigenQuat R) = R ∧ eigenQuat R.up = (eigenQuat R).up := by
  have e2 : ((1 / 2 : ℚ) : ℝ) = 1 / 2 := by norm_num
  -- a common shape for the branches
  unfold eigenQuat
  rw [M3.up_trace]
  simp only [XReal.zero_def, XReal.fin_lt, M3.up_00, M3.up_11, M3.up_22, XReal.fin_add, XReal.fin_sub, XReal.one_def,
    M3.up_01, M3.up_02, M3.up_10, M3.up_12, M3.up_20, M3.up_21]
  have b4 : 0 < R.a22 - R.a00 - R.a11 + 1 → IsUnit4 (eigenQuat.eigenQuat2 R) ∧ q2R (eigenQuat.eigenQuat2 R) = R ∧
      eigenQuat.eigenQuat2 R.up = (eigenQuat.eigenQuat2 R).up := by
    intro hp
    have key := R2q_branch4 h (t_pos hp) (by rw [t_sq hp]; ring)
    have e : eigenQuat.eigenQuat2 R = ⟨(R.a10 - R.a01) / (2 * √(R.a22 - R.a00 - R.a11 + 1)), (R.a02 + R.a20) / (2 * √(R.a22 - R.a00 - R.a11 + 1)),
        (R.a12 + R.a21) / (2 * √(R.a22 - R.a00 - R.a11 + 1)), 1/4 * (2 * √(R.a22 - R.a00 - R.a11 + 1))⟩ := by
      simp only [eigenQuat.eigenQuat2, lit_real, sqrt_real, e2, half_div]
      congr 1; ring
    refine ⟨by rw [e]; exact key.1, by rw [e]; exact key.2, ?_⟩
    have hne := (Real.sqrt_pos.2 hp).ne'
    simp only [eigenQuat.eigenQuat2, XReal.zero_def, XReal.fin_lt, M3.up_00, M3.up_11, M3.up_22, XReal.fin_add, XReal.fin_sub, XReal.one_def,
      M3.up_01, M3.up_02, M3.up_10, M3.up_12, M3.up_20, M3.up_21, XReal.sqrt_fin hp.le, XReal.lit_fin, XReal.fin_div _ hne, XReal.fin_mul]
    rfl
  by_cases h1 : 0 < R.trace
  · have hp : 0 < R.trace + 1 := by linarith
    have key := R2q_branch1 h (t_pos hp) (t_sq hp)
    have hne := (Real.sqrt_pos.2 hp).ne'
    rw [if_pos h1, if_pos h1]
    simp only [lit_real, sqrt_real, e2, half_div, XReal.sqrt_fin hp.le, XReal.lit_fin, XReal.fin_div _ hne, XReal.fin_mul]
    have e : (1/2 : ℝ) * √(R.trace + 1) = 1/4 * (2 * √(R.trace + 1)) := by ring
    rw [e]
    exact ⟨key.1, key.2, rfl⟩
  rw [if_neg h1, if_neg h1]
  simp only [M3.trace] at h1
  by_cases h2 : R.a00 < R.a11
  · rw [if_pos h2, if_pos h2]
    by_cases h3 : R.a11 < R.a22
    · rw [if_pos h3, if_pos h3]
      exact b4 (by linarith)
    · have hp : 0 < R.a11 - R.a22 - R.a00 + 1 := by linarith
      have key := R2q_branch3 h (t_pos hp) (by rw [t_sq hp]; ring)
      have hne := (Real.sqrt_pos.2 hp).ne'
      rw [if_neg h3, if_neg h3]
      simp only [lit_real, sqrt_real, e2, half_div, XReal.sqrt_fin hp.le, XReal.lit_fin, XReal.fin_div _ hne, XReal.fin_mul]
      have e : (1/2 : ℝ) * √(R.a11 - R.a22 - R.a00 + 1) = 1/4 * (2 * √(R.a11 - R.a22 - R.a00 + 1)) := by ring
      rw [e, add_comm R.a21 R.a12]
      exact ⟨key.1, key.2, rfl⟩
  · rw [if_neg h2, if_neg h2]
    by_cases h3 : R.a00 < R.a22
    · rw [if_pos h3, if_pos h3]
      exact b4 (by linarith)
    · have hp : 0 < R.a00 - R.a11 - R.a22 + 1 := by linarith
      have key := R2q_branch2 h (t_pos hp) (by rw [t_sq hp]; ring)
      have hne := (Real.sqrt_pos.2 hp).ne'
      rw [if_neg h3, if_neg h3]
      simp only [lit_real, sqrt_real, e2, half_div, XReal.sqrt_fin hp.le, XReal.lit_fin, XReal.fin_div _ hne, XReal.fin_mul]
      have e : (1/2 : ℝ) * √(R.a00 - R.a11 - R.a22 + 1) = 1/4 * (2 * √(R.a00 - R.a11 - R.a22 + 1)) := by ring
      rw [e, add_comm R.a10 R.a01, add_comm R.a20 R.a02]
      exact ⟨key.1, key.2, rfl⟩

/-- Angle-axis form of a unit quaternion and back to a matrix. -/
theorem eigenToMatrix_angleAxis {q : V4 ℝ} (h : IsUnit4 q) :
    eigenToMatrix (eigenAngleAxis q).1 (eigenAngleAxis q).2 = q2R q := by
  unfold IsUnit4 at h
  unfold eigenAngleAxis
  have hn2 : q.vec.norm * q.vec.norm = q.x * q.x + q.y * q.y + q.z * q.z := by
    unfold V3.norm; exact Real.mul_self_sqrt (by nlinarith [mul_self_nonneg q.vec.x, mul_self_nonneg q.vec.y, mul_self_nonneg q.vec.z])
  have hn0 : 0 ≤ q.vec.norm := Real.sqrt_nonneg _
  simp only [feq_real]
  by_cases hz : q.vec.norm = 0
  · rw [if_pos hz]
    rw [hz] at hn2
    have hx : q.x = 0 := by nlinarith [mul_self_nonneg q.x, mul_self_nonneg q.y, mul_self_nonneg q.z]
    have hy : q.y = 0 := by nlinarith [mul_self_nonneg q.x, mul_self_nonneg q.y, mul_self_nonneg q.z]
    have hz' : q.z = 0 := by nlinarith [mul_self_nonneg q.x, mul_self_nonneg q.y, mul_self_nonneg q.z]
    ext <;> simp [eigenToMatrix, q2R, V4.vec, hx, hy, hz']
  · rw [if_neg hz]
    set n := q.vec.norm with hn
    have hpos : 0 < n := lt_of_le_of_ne hn0 (Ne.symm hz)
    have hw2 : |q.w| * |q.w| = q.w * q.w := abs_mul_abs_self _
    have hnw : n * n + q.w * q.w = 1 := by linarith
    simp only [arctan2_real, abs_real, lit_real]
    have hne : (⟨|q.w|, n⟩ : ℂ) ≠ 0 := by
      intro hc; rw [Complex.ext_iff] at hc; exact hz hc.2
    have hab : ‖(⟨|q.w|, n⟩ : ℂ)‖ = 1 := by
      rw [Complex.norm_def, Complex.normSq_mk, hw2, show q.w * q.w + n * n = 1 by linarith, Real.sqrt_one]
    have hc := Complex.cos_arg hne
    have hs := Complex.sin_arg (⟨|q.w|, n⟩ : ℂ)
    rw [hab, div_one] at hc hs
    simp only at hc hs
    by_cases hw : q.w < 0
    · rw [if_pos hw]
      have habs : |q.w| = -q.w := abs_of_neg hw
      rw [habs] at hc hs ⊢
      ext <;> simp [eigenToMatrix, q2R, V4.vec, Real.sin_two_mul, Real.cos_two_mul, hc, hs] <;> field_simp <;> grind
    · rw [if_neg hw]
      have habs : |q.w| = q.w := abs_of_nonneg (not_lt.1 hw)
      rw [habs] at hc hs ⊢
      ext <;> simp [eigenToMatrix, q2R, V4.vec, Real.sin_two_mul, Real.cos_two_mul, hc, hs] <;> field_simp <;> grind

theorem eigenAngleAxis_up (q : V4 ℝ) :
    eigenAngleAxis q.up = (XReal.fin (eigenAngleAxis q).1, (eigenAngleAxis q).2.up) := by
  unfold eigenAngleAxis
  have hv : q.up.vec = q.vec.up := rfl
  have hw : q.up.w = XReal.fin q.w := rfl
  rw [hv, V3.up_norm, hw]
  simp only [XReal.zero_def, XReal.feq_fin, feq_real]
  by_cases hz : q.vec.norm = 0
  · rw [if_pos hz, if_pos hz]; rfl
  · rw [if_neg hz, if_neg hz]
    simp only [XReal.abs_fin, XReal.arctan2_fin, XReal.lit_fin, XReal.fin_mul, XReal.fin_lt, XReal.fin_neg, arctan2_real,
      abs_real, lit_real]
    by_cases hw : q.w < 0
    · rw [if_pos hw, if_pos hw, V3.up_sdiv _ (neg_ne_zero.2 hz)]
    · rw [if_neg hw, if_neg hw, V3.up_sdiv _ hz]

theorem eigenToMatrix_up (a : ℝ) (k : V3 ℝ) : eigenToMatrix (XReal.fin a) k.up = (eigenToMatrix a k).up := by
  ext <;> simp [eigenToMatrix, V3.smul, M3.up, M3.map, V3.up, V3.map, XReal.one_def]

/-- The isometry of a rigid transform has its rotation and position. -/
theorem toIsometry_real {T : Transform ℝ} (h : IsRot T.R) : toIsometry T = ⟨T.R, T.p⟩ := by
  obtain ⟨h1, h2, -⟩ := eigenQuat_spec h
  simp only [toIsometry]
  rw [eigenToMatrix_angleAxis h1, h2]

/-- The same on `XReal`: no NaN. -/
theorem toIsometry_up {T : Transform ℝ} (h : IsRot T.R) (pa ch : Option String) :
    toIsometry (⟨T.R.up, T.p.up, pa, ch⟩ : Transform XReal) = ⟨T.R.up, T.p.up⟩ := by
  obtain ⟨h1, h2, h3⟩ := eigenQuat_spec h
  simp only [toIsometry]
  rw [h3, eigenAngleAxis_up, eigenToMatrix_up, eigenToMatrix_angleAxis h1, h2]
