import Verif.Lemmas.Up

/-! # Polynomial identities of rotation matrices; `R2q` -/
set_option autoImplicit false

/-- The quadratic relations between the entries of a rotation, as one conjunction. -/
theorem IsRot.cof {R : M3 ℝ} (h : IsRot R) :
    R.a00 = R.a11 * R.a22 - R.a12 * R.a21 ∧ R.a10 = R.a02 * R.a21 - R.a01 * R.a22 ∧
    R.a20 = R.a01 * R.a12 - R.a02 * R.a11 ∧ R.a01 = R.a12 * R.a20 - R.a10 * R.a22 ∧
    R.a11 = R.a00 * R.a22 - R.a02 * R.a20 ∧ R.a21 = R.a02 * R.a10 - R.a00 * R.a12 ∧
    R.a02 = R.a10 * R.a21 - R.a11 * R.a20 ∧ R.a12 = R.a01 * R.a20 - R.a00 * R.a21 ∧
    R.a22 = R.a00 * R.a11 - R.a01 * R.a10 := by
  have := h.transpose_eq_adj
  simpa [M3.ext_iff, M3.adj] using this

theorem IsRot.colEqs {R : M3 ℝ} (h : IsRot R) :
    R.a00 * R.a00 + R.a10 * R.a10 + R.a20 * R.a20 = 1 ∧
    R.a01 * R.a01 + R.a11 * R.a11 + R.a21 * R.a21 = 1 ∧
    R.a02 * R.a02 + R.a12 * R.a12 + R.a22 * R.a22 = 1 ∧
    R.a00 * R.a01 + R.a10 * R.a11 + R.a20 * R.a21 = 0 ∧
    R.a00 * R.a02 + R.a10 * R.a12 + R.a20 * R.a22 = 0 ∧
    R.a01 * R.a02 + R.a11 * R.a12 + R.a21 * R.a22 = 0 := by
  have := h.orth
  simp [M3.ext_iff] at this
  obtain ⟨h00, h01, h02, -, h11, h12, -, -, h22⟩ := this
  exact ⟨h00, h11, h22, h01, h02, h12⟩

theorem IsRot.rowEqs {R : M3 ℝ} (h : IsRot R) :
    R.a00 * R.a00 + R.a01 * R.a01 + R.a02 * R.a02 = 1 ∧
    R.a10 * R.a10 + R.a11 * R.a11 + R.a12 * R.a12 = 1 ∧
    R.a20 * R.a20 + R.a21 * R.a21 + R.a22 * R.a22 = 1 ∧
    R.a00 * R.a10 + R.a01 * R.a11 + R.a02 * R.a12 = 0 ∧
    R.a00 * R.a20 + R.a01 * R.a21 + R.a02 * R.a22 = 0 ∧
    R.a10 * R.a20 + R.a11 * R.a21 + R.a12 * R.a22 = 0 := by
  have := h.transpose.colEqs
  simpa using this

/-- First branch of `R2q`. -/
theorem R2q_branch1 {R : M3 ℝ} (h : IsRot R) {S : ℝ} (hS : S ≠ 0) (hS2 : S * S = 4 * (R.trace + 1)) :
    let q : V4 ℝ := ⟨1/4 * S, (R.a21 - R.a12) / S, (R.a02 - R.a20) / S, (R.a10 - R.a01) / S⟩
    IsUnit4 q ∧ q2R q = R := by
  obtain ⟨c1, c2, c3, c4, c5, c6, c7, c8, c9⟩ := h.cof
  obtain ⟨k1, k2, k3, k4, k5, k6⟩ := h.colEqs
  obtain ⟨r1, r2, r3, r4, r5, r6⟩ := h.rowEqs
  simp only [M3.trace] at hS2
  constructor
  · simp only [IsUnit4]; field_simp; grind
  · ext <;> simp [q2R] <;> field_simp <;> grind

/-- Second branch of `R2q`. -/
theorem R2q_branch2 {R : M3 ℝ} (h : IsRot R) {S : ℝ} (hS : S ≠ 0)
    (hS2 : S * S = 4 * (1 + R.a00 - R.a11 - R.a22)) :
    let q : V4 ℝ := ⟨(R.a21 - R.a12) / S, 1/4 * S, (R.a01 + R.a10) / S, (R.a02 + R.a20) / S⟩
    IsUnit4 q ∧ q2R q = R := by
  obtain ⟨c1, c2, c3, c4, c5, c6, c7, c8, c9⟩ := h.cof
  obtain ⟨k1, k2, k3, k4, k5, k6⟩ := h.colEqs
  obtain ⟨r1, r2, r3, r4, r5, r6⟩ := h.rowEqs
  constructor
  · simp only [IsUnit4]; field_simp; grind
  · ext <;> simp [q2R] <;> field_simp <;> grind

/-- Third branch of `R2q`. -/
theorem R2q_branch3 {R : M3 ℝ} (h : IsRot R) {S : ℝ} (hS : S ≠ 0)
    (hS2 : S * S = 4 * (1 - R.a00 + R.a11 - R.a22)) :
    let q : V4 ℝ := ⟨(R.a02 - R.a20) / S, (R.a01 + R.a10) / S, 1/4 * S, (R.a12 + R.a21) / S⟩
    IsUnit4 q ∧ q2R q = R := by
  obtain ⟨c1, c2, c3, c4, c5, c6, c7, c8, c9⟩ := h.cof
  obtain ⟨k1, k2, k3, k4, k5, k6⟩ := h.colEqs
  obtain ⟨r1, r2, r3, r4, r5, r6⟩ := h.rowEqs
  constructor
  · simp only [IsUnit4]; field_simp; grind
  · ext <;> simp [q2R] <;> field_simp <;> grind

/-- Fourth branch of `R2q`. -/
theorem R2q_branch4 {R : M3 ℝ} (h : IsRot R) {S : ℝ} (hS : S ≠ 0)
    (hS2 : S * S = 4 * (1 - R.a00 - R.a11 + R.a22)) :
    let q : V4 ℝ := ⟨(R.a10 - R.a01) / S, (R.a02 + R.a20) / S, (R.a12 + R.a21) / S, 1/4 * S⟩
    IsUnit4 q ∧ q2R q = R := by
  obtain ⟨c1, c2, c3, c4, c5, c6, c7, c8, c9⟩ := h.cof
  obtain ⟨k1, k2, k3, k4, k5, k6⟩ := h.colEqs
  obtain ⟨r1, r2, r3, r4, r5, r6⟩ := h.rowEqs
  constructor
  · simp only [IsUnit4]; field_simp; grind
  · ext <;> simp [q2R] <;> field_simp <;> grind

private theorem S_pos {x : ℝ} (h : 0 < x) : (2 : ℝ) * Real.sqrt x ≠ 0 := by
  have := Real.sqrt_pos.2 h; positivity

private theorem S_sq {x : ℝ} (h : 0 < x) : (2 * Real.sqrt x) * (2 * Real.sqrt x) = 4 * x := by
  have := Real.mul_self_sqrt h.le; linear_combination 4 * this

/-- `R2q` on a rotation: no exception, no NaN, a unit quaternion of that rotation. -/
theorem R2q_spec {R : M3 ℝ} (h : IsRot R) : ∃ q : V4 ℝ, R2q R.up = .ok q.up ∧ IsUnit4 q ∧ q2R q = R := by
  unfold R2q
  rw [M3.up_trace]
  simp only [XReal.zero_def, XReal.fin_lt, M3.up_00, M3.up_11, M3.up_22, XReal.fin_add, XReal.fin_sub, XReal.one_def,
    M3.up_01, M3.up_02, M3.up_10, M3.up_12, M3.up_20, M3.up_21]
  by_cases h1 : 0 < R.trace
  · have hp : 0 < R.trace + 1 := by linarith
    refine ⟨_, ?_, R2q_branch1 h (S_pos hp) (S_sq hp)⟩
    rw [if_pos h1, mathSqrt_fin hp.le]
    simp only [XReal.lit_fin, XReal.fin_mul, bind, pure, Except.pure, Except.bind, Rat.cast_ofNat]
    rw [XReal.fin_div _ (S_pos hp), XReal.fin_div _ (S_pos hp), XReal.fin_div _ (S_pos hp)]
    congr 1; ext <;> simp
  rw [if_neg h1]
  simp only [M3.trace] at h1
  by_cases h2 : R.a11 < R.a00 ∧ R.a22 < R.a00
  · have hp : 0 < 1 + R.a00 - R.a11 - R.a22 := by linarith
    refine ⟨_, ?_, R2q_branch2 h (S_pos hp) (S_sq hp)⟩
    rw [if_pos h2, mathSqrt_fin hp.le]
    simp only [XReal.lit_fin, XReal.fin_mul, bind, pure, Except.pure, Except.bind, Rat.cast_ofNat]
    rw [XReal.fin_div _ (S_pos hp), XReal.fin_div _ (S_pos hp), XReal.fin_div _ (S_pos hp)]
    congr 1; ext <;> simp
  rw [if_neg h2]
  by_cases h3 : R.a22 < R.a11
  · have hp : 0 < 1 - R.a00 + R.a11 - R.a22 := by
      by_cases h4 : R.a11 < R.a00
      · exfalso; exact h2 ⟨h4, by linarith⟩
      · linarith
    refine ⟨_, ?_, R2q_branch3 h (S_pos hp) (S_sq hp)⟩
    rw [if_pos h3, mathSqrt_fin hp.le]
    simp only [XReal.lit_fin, XReal.fin_mul, bind, pure, Except.pure, Except.bind, Rat.cast_ofNat]
    rw [XReal.fin_div _ (S_pos hp), XReal.fin_div _ (S_pos hp), XReal.fin_div _ (S_pos hp)]
    congr 1; ext <;> simp
  · have hp : 0 < 1 - R.a00 - R.a11 + R.a22 := by
      by_cases h4 : R.a22 < R.a00
      · exfalso; exact h2 ⟨by linarith, h4⟩
      · linarith
    refine ⟨_, ?_, R2q_branch4 h (S_pos hp) (S_sq hp)⟩
    rw [if_neg h3, mathSqrt_fin hp.le]
    simp only [XReal.lit_fin, XReal.fin_mul, bind, pure, Except.pure, Except.bind, Rat.cast_ofNat]
    rw [XReal.fin_div _ (S_pos hp), XReal.fin_div _ (S_pos hp), XReal.fin_div _ (S_pos hp)]
    congr 1; ext <;> simp

theorem sq_eq_one_iff_of_side {x : ℝ} (h : x ^ 2 = 1) : x = 1 ∨ x = -1 := by
  have : (x - 1) * (x + 1) = 0 := by linear_combination h
  rcases mul_eq_zero.1 this with h | h
  · left; linarith
  · right; linarith

theorem sum4_sq_zero {a b c d : ℝ} (h : a ^ 2 + b ^ 2 + c ^ 2 + d ^ 2 = 0) : a = 0 ∧ b = 0 ∧ c = 0 ∧ d = 0 := by
  have ha := sq_nonneg a
  have hb := sq_nonneg b
  have hc := sq_nonneg c
  have hd := sq_nonneg d
  refine ⟨pow_eq_zero_iff (two_ne_zero) |>.1 (by linarith), pow_eq_zero_iff (two_ne_zero) |>.1 (by linarith),
    pow_eq_zero_iff (two_ne_zero) |>.1 (by linarith), pow_eq_zero_iff (two_ne_zero) |>.1 (by linarith)⟩

/-- Unit quaternions of the same rotation agree up to sign. -/
theorem q2R_inj {p q : V4 ℝ} (hp : IsUnit4 p) (hq : IsUnit4 q) (h : q2R p = q2R q) : p = q ∨ p = -q := by
  unfold IsUnit4 at hp hq
  simp [M3.ext_iff, q2R] at h
  obtain ⟨e00, e01, e02, e10, e11, e12, e20, e21, e22⟩ := h
  have hd : (p.w * q.w + p.x * q.x + p.y * q.y + p.z * q.z) ^ 2 = 1 := by grind
  rcases sq_eq_one_iff_of_side hd with h1 | h1
  · left
    have hz : (p.w - q.w) ^ 2 + (p.x - q.x) ^ 2 + (p.y - q.y) ^ 2 + (p.z - q.z) ^ 2 = 0 := by grind
    have := sum4_sq_zero hz
    ext <;> linarith
  · right
    have hz : (p.w + q.w) ^ 2 + (p.x + q.x) ^ 2 + (p.y + q.y) ^ 2 + (p.z + q.z) ^ 2 = 0 := by grind
    have := sum4_sq_zero hz
    ext <;> simp <;> linarith
