import Verif.Lemmas.SO3
import Verif.Lemmas.Trig

/-! # `R2rot` -/
set_option autoImplicit false

namespace R2rotL
variable {R : M3 ℝ}

/-- `sin_theta` of `R2rot`. -/
noncomputable def s (R : M3 ℝ) : ℝ := (R - R.transpose).frob / Real.sqrt 8
/-- `cos_theta` of `R2rot`. -/
noncomputable def c (R : M3 ℝ) : ℝ := (R.trace - 1) / 2

theorem s_nonneg (R : M3 ℝ) : 0 ≤ s R := by
  unfold s M3.frob; simp only [sqrt_real]; positivity

theorem s_sq (R : M3 ℝ) : 4 * (s R * s R) = (R.a21 - R.a12) * (R.a21 - R.a12) + (R.a02 - R.a20) * (R.a02 - R.a20)
    + (R.a10 - R.a01) * (R.a10 - R.a01) := by
  unfold s M3.frob
  simp only [sqrt_real]
  rw [div_mul_div_comm, Real.mul_self_sqrt (M3.sq_nonneg' _), Real.mul_self_sqrt (by norm_num)]
  simp; ring

theorem s_sq_add_c_sq (h : IsRot R) : c R * c R + s R * s R = 1 := by
  have hs := s_sq R
  obtain ⟨c1, c2, c3, c4, c5, c6, c7, c8, c9⟩ := h.cof
  obtain ⟨k1, k2, k3, k4, k5, k6⟩ := h.colEqs
  obtain ⟨r1, r2, r3, r4, r5, r6⟩ := h.rowEqs
  unfold c
  simp only [M3.trace]
  grind

/-- The regular branch: the axis is unit and the rotation is recovered. -/
theorem regular (h : IsRot R) (hs : s R ≠ 0) :
    let k : V3 ℝ := (invhat (R - R.transpose)).sdiv (2 * s R)
    IsUnit3 k ∧ rot k (Complex.arg ⟨c R, s R⟩) = R := by
  have h1 := s_sq_add_c_sq h
  have h2 := s_sq R
  have h3 : R.trace = 2 * c R + 1 := by unfold c; ring
  simp only [M3.trace] at h3
  obtain ⟨c1, c2, c3, c4, c5, c6, c7, c8, c9⟩ := h.cof
  obtain ⟨k1, k2, k3, k4, k5, k6⟩ := h.colEqs
  obtain ⟨r1, r2, r3, r4, r5, r6⟩ := h.rowEqs
  intro k
  constructor
  · simp only [IsUnit3, k, invhat, V3.sdiv_x, V3.sdiv_y, V3.sdiv_z]
    simp; field_simp; grind
  · simp only [k]
    ext <;> simp [rot, cos_arg_mk h1, sin_arg_mk h1, invhat] <;> field_simp <;> grind

theorem arg_mem (R : M3 ℝ) (hs : 0 < s R) : 0 < Complex.arg ⟨c R, s R⟩ ∧ Complex.arg ⟨c R, s R⟩ < Real.pi := by
  refine ⟨lt_of_le_of_ne (Complex.arg_nonneg_iff.2 hs.le) ?_, lt_of_le_of_ne (Complex.arg_le_pi _) ?_⟩
  · intro e
    have := (Complex.arg_eq_zero_iff.1 e.symm).2
    simp at this; linarith
  · intro e
    have := (Complex.arg_eq_pi_iff.1 e).2
    simp at this; linarith

/-- Evaluation of `R2rot` on finite input. -/
theorem eval_regular (R : M3 ℝ) (hs : 1/1000000 ≤ s R) :
    R2rot R.up = (.array ((invhat (R - R.transpose)).sdiv (2 * s R)).up, .fin (Complex.arg ⟨c R, s R⟩)) := by
  have h8 : Real.sqrt 8 ≠ 0 := by positivity
  have hs0 : (2 : ℝ) * s R ≠ 0 := by linarith [hs]
  unfold R2rot
  simp only [M3.up_transpose, M3.up_sub, M3.up_frob, XReal.lit_fin, M3.up_trace, XReal.one_def, XReal.fin_sub,
    invhat_up]
  have h8' : (0:ℝ) ≤ ((8 : ℚ) : ℝ) := by norm_num
  rw [XReal.sqrt_fin h8']
  have e8 : ((8 : ℚ) : ℝ) = 8 := by norm_num
  have e2 : ((2 : ℚ) : ℝ) = 2 := by norm_num
  have e6 : ((1/1000000 : ℚ) : ℝ) = 1/1000000 := by norm_num
  rw [e8, e2, e6, XReal.fin_div _ h8, XReal.fin_div _ (by norm_num), XReal.arctan2_fin]
  change (if XReal.fin (s R) < _ then _ else _) = _
  rw [if_neg (by simpa using hs)]
  change (Axis.array (V3.sdiv _ (XReal.fin 2 * XReal.fin (s R))), _) = _
  rw [XReal.fin_mul, V3.up_sdiv _ hs0]
  rfl

theorem abs_mul_sign (x : ℝ) : |x| * Elem.sign x = x := by
  rw [sign_real]
  split_ifs with h1 h2
  · rw [abs_of_neg h1]; ring
  · rw [abs_of_pos h2]; ring
  · have : x = 0 := le_antisymm (not_lt.1 h2) (not_lt.1 h1)
    simp [this]

/-- Common part of the evaluation in the singular band. -/
theorem eval_band (R : M3 ℝ) (hs : s R < 1/1000000) :
    R2rot R.up = if 0 < c R then (.list V3.ez.up, .fin 0) else
      let B := M3.smul (1/2) (R + 1)
      let k : V3 XReal := ⟨Elem.sqrt (.fin B.a00), Elem.sqrt (.fin B.a11), Elem.sqrt (.fin B.a22)⟩
      if XReal.fin (1/1000000) < Elem.abs k.x then
        (.array ⟨k.x, k.y * Elem.sign (.fin B.a01 / k.x), k.z * Elem.sign (.fin B.a02 / k.x)⟩, .fin Real.pi)
      else if XReal.fin (1/1000000) < Elem.abs k.y then
        (.array ⟨k.x, k.y, k.z * Elem.sign (.fin B.a02 / k.y)⟩, .fin Real.pi)
      else (.array k, .fin Real.pi) := by
  have h8 : Real.sqrt 8 ≠ 0 := by positivity
  unfold R2rot
  simp only [M3.up_transpose, M3.up_sub, M3.up_frob, XReal.lit_fin, M3.up_trace, XReal.one_def, XReal.fin_sub,
    invhat_up, M3.up_one, M3.up_add, M3.up_smul, XReal.pi_fin, M3.up_00, M3.up_11, M3.up_22, M3.up_01, M3.up_02,
    V3.up_ez]
  have h8' : (0:ℝ) ≤ ((8 : ℚ) : ℝ) := by norm_num
  rw [XReal.sqrt_fin h8']
  have e8 : ((8 : ℚ) : ℝ) = 8 := by norm_num
  have e2 : ((2 : ℚ) : ℝ) = 2 := by norm_num
  have e1 : ((1/2 : ℚ) : ℝ) = 1/2 := by norm_num
  have e6 : ((1/1000000 : ℚ) : ℝ) = 1/1000000 := by norm_num
  rw [e8, e2, e6, e1, XReal.fin_div _ h8, XReal.fin_div _ (by norm_num), XReal.arctan2_fin]
  change (if XReal.fin (s R) < _ then _ else _) = _
  rw [if_pos (by simpa using hs)]
  change (if (0 : XReal) < XReal.fin (c R) then _ else _) = _
  by_cases hc : 0 < c R
  · rw [if_pos (by simpa using hc), if_pos hc]; rfl
  · rw [if_neg (by simpa using hc), if_neg hc]

/-- At an angle of exactly π the symmetric part is a rank one projection. -/
theorem exact_pi (h : IsRot R) (hsym : R.transpose = R) (hc : c R ≤ 0) : R.trace = -1 := by
  have h1 := s_sq_add_c_sq h
  have hs : s R = 0 := by
    have := s_sq R
    simp [M3.ext_iff] at hsym
    obtain ⟨e1, e2, -, e3, -, -⟩ := hsym
    have h4 : s R * s R = 0 := by nlinarith
    exact mul_self_eq_zero.1 h4
  rw [hs] at h1
  have hc' : c R = -1 := by nlinarith
  unfold c at hc'; linarith

theorem outer_eq_rot_pi {u : V3 ℝ} (hu : IsUnit3 u) (h : M3.smul (1/2) (R + 1) = M3.outer u u) :
    rot u Real.pi = R := by
  unfold IsUnit3 at hu
  simp [M3.ext_iff, M3.outer] at h
  obtain ⟨e00, e01, e02, e10, e11, e12, e20, e21, e22⟩ := h
  ext <;> simp [rot] <;> grind

end R2rotL
