import Mathlib.Analysis.SpecialFunctions.Complex.Arg
import Verif.Lemmas.SO3
import Verif.Lemmas.Trig

/-! # Property C10: roll/pitch/yaw -/
set_option autoImplicit false

/-- C10: `rpy2R` is always a rotation. -/
theorem C10_rpy2R_isRot (rpy : V3 ℝ) : IsRot (rpy2R rpy) :=
  ((rot_isRot _ (by norm_num [IsUnit3]) _).mul (rot_isRot _ (by norm_num [IsUnit3]) _)).mul
    (rot_isRot _ (by norm_num [IsUnit3]) _)

/-- C10: yaw about z, then pitch about the new y, then roll about the new x, written out. -/
theorem C10_rpy2R_entries (r p y : ℝ) : rpy2R (⟨r, p, y⟩ : V3 ℝ) =
    ⟨Real.cos y * Real.cos p, Real.cos y * Real.sin p * Real.sin r - Real.sin y * Real.cos r,
      Real.cos y * Real.sin p * Real.cos r + Real.sin y * Real.sin r,
     Real.sin y * Real.cos p, Real.sin y * Real.sin p * Real.sin r + Real.cos y * Real.cos r,
      Real.sin y * Real.sin p * Real.cos r - Real.cos y * Real.sin r,
     -Real.sin p, Real.cos p * Real.sin r, Real.cos p * Real.cos r⟩ := by
  ext <;> simp [rpy2R, rot] <;> ring

/-- C10: `R2rpy` raises exactly when the first column is within `10 eps` of the z axis direction. -/
theorem C10_R2rpy_raises (R : M3 ℝ) :
    R2rpy R.up = .error .assertion ↔ Real.sqrt (R.a00 * R.a00 + R.a10 * R.a10) ≤ npEps * 10 := by
  unfold R2rpy
  have h : (npEps * lit 10 : XReal) < Elem.sqrt (R.up.a00 * R.up.a00 + R.up.a10 * R.up.a10) ↔
      npEps * 10 < Real.sqrt (R.a00 * R.a00 + R.a10 * R.a10) := by
    have e : ((10 : ℚ) : ℝ) = 10 := by norm_num
    simp [XReal.sqrt_fin (show 0 ≤ R.a00 * R.a00 + R.a10 * R.a10 by nlinarith [mul_self_nonneg R.a00, mul_self_nonneg R.a10]), e]
  by_cases hc : npEps * 10 < Real.sqrt (R.a00 * R.a00 + R.a10 * R.a10)
  · rw [if_pos (h.2 hc)]; simp [hc]
  · rw [if_neg (fun x => hc (h.1 x))]; simp [not_lt.1 hc]

/-- The value of `R2rpy` above the threshold. -/
theorem R2rpy_eval (R : M3 ℝ) (h : npEps * 10 < Real.sqrt (R.a00 * R.a00 + R.a10 * R.a10)) :
    R2rpy R.up = .ok (V3.up ⟨Complex.arg ⟨R.a22, R.a21⟩,
      Complex.arg ⟨Real.sqrt (R.a21 * R.a21 + R.a22 * R.a22), -R.a20⟩, Complex.arg ⟨R.a00, R.a10⟩⟩) := by
  unfold R2rpy
  have e : ((10 : ℚ) : ℝ) = 10 := by norm_num
  rw [if_pos (by
    simpa [XReal.sqrt_fin (show 0 ≤ R.a00 * R.a00 + R.a10 * R.a10 by nlinarith [mul_self_nonneg R.a00, mul_self_nonneg R.a10]), e] using h)]
  simp [XReal.sqrt_fin (show 0 ≤ R.a21 * R.a21 + R.a22 * R.a22 by nlinarith [mul_self_nonneg R.a21, mul_self_nonneg R.a22]),
    V3.up, V3.map]

private theorem npEps_pos' : (0:ℝ) < npEps := by
  unfold npEps; simp

/-- C10: away from gimbal lock `R2rpy` returns angles that reproduce the rotation, with pitch strictly inside
`(-π/2, π/2)` and roll, yaw in `(-π, π]`. -/
theorem C10_rpy2R_R2rpy (R : M3 ℝ) (hR : IsRot R)
    (h : npEps * 10 < Real.sqrt (R.a00 * R.a00 + R.a10 * R.a10)) :
    ∃ rpy : V3 ℝ, R2rpy R.up = .ok rpy.up ∧ rpy2R rpy = R ∧
      (-(Real.pi / 2) < rpy.y ∧ rpy.y < Real.pi / 2) ∧
      (-Real.pi < rpy.x ∧ rpy.x ≤ Real.pi) ∧ (-Real.pi < rpy.z ∧ rpy.z ≤ Real.pi) := by
  obtain ⟨c1, c2, c3, c4, c5, c6⟩ := hR.colEqs
  obtain ⟨r1, r2, r3, r4, r5, r6⟩ := hR.rowEqs
  have hc0 : 0 < Real.sqrt (R.a00 * R.a00 + R.a10 * R.a10) := lt_trans (mul_pos npEps_pos' (by norm_num)) h
  have hcc : R.a21 * R.a21 + R.a22 * R.a22 = R.a00 * R.a00 + R.a10 * R.a10 := by grind
  have h1 := polar_arg R.a22 R.a21
  have h2 := polar_arg R.a00 R.a10
  have h3 := polar_arg (Real.sqrt (R.a21 * R.a21 + R.a22 * R.a22)) (-R.a20)
  rw [show R.a22 * R.a22 + R.a21 * R.a21 = R.a00 * R.a00 + R.a10 * R.a10 by linarith] at h1
  rw [hcc] at h3
  have hsq := Real.mul_self_sqrt (show 0 ≤ R.a00 * R.a00 + R.a10 * R.a10 by
    nlinarith [mul_self_nonneg R.a00, mul_self_nonneg R.a10])
  rw [show Real.sqrt (R.a00 * R.a00 + R.a10 * R.a10) * Real.sqrt (R.a00 * R.a00 + R.a10 * R.a10) + -R.a20 * -R.a20 = 1
    by rw [hsq]; grind, Real.sqrt_one, one_mul, one_mul] at h3
  refine ⟨_, R2rpy_eval R h, ?_, ?_, ?_, ?_⟩
  · rw [C10_rpy2R_entries, hcc]
    rw [h3.1, h3.2]
    set c := Real.sqrt (R.a00 * R.a00 + R.a10 * R.a10)
    obtain ⟨ha, hb⟩ := h1
    obtain ⟨hd, he⟩ := h2
    obtain ⟨cof⟩ := hR.cof
    have hne := hc0.ne'
    have e1 : Real.cos (Complex.arg ⟨R.a22, R.a21⟩) = R.a22 / c := by field_simp; linarith
    have e2 : Real.sin (Complex.arg ⟨R.a22, R.a21⟩) = R.a21 / c := by field_simp; linarith
    have e3 : Real.cos (Complex.arg ⟨R.a00, R.a10⟩) = R.a00 / c := by field_simp; linarith
    have e4 : Real.sin (Complex.arg ⟨R.a00, R.a10⟩) = R.a10 / c := by field_simp; linarith
    rw [e1, e2, e3, e4]
    ext <;> simp <;> field_simp <;> grind
  · have := Complex.abs_arg_lt_pi_div_two_iff.2
      (Or.inl (show 0 < (⟨Real.sqrt (R.a21 * R.a21 + R.a22 * R.a22), -R.a20⟩ : ℂ).re by rw [hcc]; exact hc0))
    exact abs_lt.1 this
  · exact ⟨Complex.neg_pi_lt_arg _, Complex.arg_le_pi _⟩
  · exact ⟨Complex.neg_pi_lt_arg _, Complex.arg_le_pi _⟩

/-- C10: `R2rpy(rpy2R(rpy)) = rpy` for every principal `rpy` away from gimbal lock. -/
theorem C10_R2rpy_rpy2R (r p y : ℝ) (hr : -Real.pi < r ∧ r ≤ Real.pi) (hy : -Real.pi < y ∧ y ≤ Real.pi)
    (hp : -(Real.pi / 2) < p ∧ p < Real.pi / 2) (hc : npEps * 10 < Real.cos p) :
    R2rpy (rpy2R (V3.up ⟨r, p, y⟩)) = .ok (V3.up ⟨r, p, y⟩) := by
  have hup : rpy2R (V3.up ⟨r, p, y⟩) = (rpy2R (⟨r, p, y⟩ : V3 ℝ)).up := by
    unfold rpy2R
    have e1 : (V3.ez : V3 XReal) = V3.up V3.ez := rfl
    have e2 : (V3.ey : V3 XReal) = V3.up V3.ey := rfl
    have e3 : (V3.ex : V3 XReal) = V3.up V3.ex := rfl
    rw [e1, e2, e3]
    simp only [V3.up_x, V3.up_y, V3.up_z, rot_up, M3.up_mul]
  have hpos : 0 < Real.cos p := lt_trans (mul_pos npEps_pos' (by norm_num)) hc
  have hsy := Real.sin_sq_add_cos_sq y
  have hsr := Real.sin_sq_add_cos_sq r
  rw [hup, R2rpy_eval]
  · rw [C10_rpy2R_entries]
    have e1 : Complex.arg ⟨Real.cos p * Real.cos r, Real.cos p * Real.sin r⟩ = r := arg_polar hpos hr.1 hr.2
    have e2 : Complex.arg ⟨Real.cos y * Real.cos p, Real.sin y * Real.cos p⟩ = y := by
      rw [mul_comm (Real.cos y), mul_comm (Real.sin y)]; exact arg_polar hpos hy.1 hy.2
    have e3 : Real.sqrt (Real.cos p * Real.sin r * (Real.cos p * Real.sin r) +
        Real.cos p * Real.cos r * (Real.cos p * Real.cos r)) = Real.cos p := by
      rw [show Real.cos p * Real.sin r * (Real.cos p * Real.sin r) +
        Real.cos p * Real.cos r * (Real.cos p * Real.cos r) = Real.cos p ^ 2 by grind, Real.sqrt_sq hpos.le]
    have e4 : Complex.arg ⟨Real.cos p, - -Real.sin p⟩ = p := by
      have := arg_polar (r := 1) (θ := p) one_pos (by linarith [Real.pi_pos]) (by linarith [Real.pi_pos])
      simpa using this
    simp only [e1, e2, e3, e4]
  · rw [C10_rpy2R_entries]
    have e3 : Real.sqrt (Real.cos y * Real.cos p * (Real.cos y * Real.cos p) +
        Real.sin y * Real.cos p * (Real.sin y * Real.cos p)) = Real.cos p := by
      rw [show Real.cos y * Real.cos p * (Real.cos y * Real.cos p) +
        Real.sin y * Real.cos p * (Real.sin y * Real.cos p) = Real.cos p ^ 2 by grind, Real.sqrt_sq hpos.le]
    simpa only [e3] using hc

-- non-vacuity: a rotation away from gimbal lock, and one in it
example : IsRot (⟨0, -1, 0, 1, 0, 0, 0, 0, 1⟩ : M3 ℝ) ∧ (npEps * 10 : ℝ) < Real.sqrt ((0:ℝ) * 0 + 1 * 1) := by
  refine ⟨⟨?_, ?_⟩, ?_⟩
  · ext <;> norm_num
  · norm_num [M3.det]
  · norm_num [npEps]
example : IsRot (⟨0, 0, 1, 0, 1, 0, -1, 0, 0⟩ : M3 ℝ) ∧ Real.sqrt ((0:ℝ) * 0 + 0 * 0) ≤ npEps * 10 := by
  refine ⟨⟨?_, ?_⟩, ?_⟩
  · ext <;> norm_num
  · norm_num [M3.det]
  · norm_num [npEps]
