import Mathlib.Analysis.Real.Pi.Bounds
import Mathlib.Analysis.SpecialFunctions.Trigonometric.Bounds
import Verif.Lemmas.Quat

/-!
# Properties C06, C07, C11: quaternion conversions and interpolation

Stated on the `XReal` instance (see `Props/AxisAngle.lean`).
-/
set_option autoImplicit false

/-! ## C06 -/

/-- C06: for every rotation, in whichever of the four branches, `R2q` raises nothing, returns finite numbers, a unit
quaternion, and `q2R` of it is `R`. -/
theorem C06_R2q_q2R (R : M3 ℝ) (h : IsRot R) :
    ∃ q : V4 ℝ, R2q R.up = .ok q.up ∧ IsUnit4 q ∧ q2R q = R := R2q_spec h

/-- C06: `R2q(q2R(q))` is `q` or `-q`. -/
theorem C06_q2R_R2q (q : V4 ℝ) (h : IsUnit4 q) :
    R2q (q2R q.up) = .ok q.up ∨ R2q (q2R q.up) = .ok (-q).up := by
  have hR : IsRot (q2R q) := by
    unfold IsUnit4 at h
    constructor
    · ext <;> simp [q2R] <;> grind
    · simp [q2R, M3.det]; grind
  obtain ⟨p, h1, h2, h3⟩ := R2q_spec hR
  rw [q2R_up, h1]
  rcases q2R_inj h2 h h3 with e | e
  · left; rw [e]
  · right; rw [e]

/-- C06/C05: every rotation comes from a unit quaternion. -/
theorem C06_q2R_surjective (R : M3 ℝ) (h : IsRot R) : ∃ q, IsUnit4 q ∧ q2R q = R := by
  obtain ⟨q, -, h2, h3⟩ := R2q_spec h
  exact ⟨q, h2, h3⟩

/-- C06, on matrices that are not rotations: whatever nine finite numbers it is given, `R2q` neither raises (the argument of
`math.sqrt` is at least 1 in each of the four branches) nor divides by zero, and the component it pivots on is at least 1/2, so
its result can always be normalised. -/
theorem C06_R2q_total (R : M3 ℝ) :
    ∃ q : V4 ℝ, R2q R.up = .ok q.up ∧ (1 / 2 ≤ q.w ∨ 1 / 2 ≤ q.x ∨ 1 / 2 ≤ q.y ∨ 1 / 2 ≤ q.z) := by
  have pivot : ∀ {t : ℝ}, 1 ≤ t → 1 / 2 ≤ 1 / 4 * (2 * Real.sqrt t) := fun ht => by
    have := Real.le_sqrt_of_sq_le (show (1 : ℝ) ^ 2 ≤ _ by simpa using ht); linarith
  have spos : ∀ {t : ℝ}, 0 < t → 2 * Real.sqrt t ≠ 0 := fun ht => by have := Real.sqrt_pos.2 ht; positivity
  unfold R2q
  rw [M3.up_trace]
  simp only [XReal.zero_def, XReal.fin_lt, M3.up_00, M3.up_11, M3.up_22, XReal.fin_add, XReal.fin_sub, XReal.one_def,
    M3.up_01, M3.up_02, M3.up_10, M3.up_12, M3.up_20, M3.up_21]
  by_cases h1 : 0 < R.trace
  · have hq : 1 ≤ R.trace + 1 := by linarith
    have hp : 0 < R.trace + 1 := by linarith
    refine ⟨⟨1 / 4 * (2 * Real.sqrt (R.trace + 1)), (R.a21 - R.a12) / (2 * Real.sqrt (R.trace + 1)),
      (R.a02 - R.a20) / (2 * Real.sqrt (R.trace + 1)), (R.a10 - R.a01) / (2 * Real.sqrt (R.trace + 1))⟩, ?_, .inl (pivot hq)⟩
    rw [if_pos h1, mathSqrt_fin hp.le]
    simp only [XReal.lit_fin, XReal.fin_mul, bind, pure, Except.pure, Except.bind, Rat.cast_ofNat]
    rw [XReal.fin_div _ (spos hp), XReal.fin_div _ (spos hp), XReal.fin_div _ (spos hp)]
    congr 1; ext <;> simp
  rw [if_neg h1]
  simp only [M3.trace] at h1
  by_cases h2 : R.a11 < R.a00 ∧ R.a22 < R.a00
  · have hq : 1 ≤ 1 + R.a00 - R.a11 - R.a22 := by linarith
    have hp : 0 < 1 + R.a00 - R.a11 - R.a22 := by linarith
    refine ⟨⟨(R.a21 - R.a12) / (2 * Real.sqrt (1 + R.a00 - R.a11 - R.a22)), 1 / 4 * (2 * Real.sqrt (1 + R.a00 - R.a11 - R.a22)),
      (R.a01 + R.a10) / (2 * Real.sqrt (1 + R.a00 - R.a11 - R.a22)), (R.a02 + R.a20) / (2 * Real.sqrt (1 + R.a00 - R.a11 - R.a22))⟩, ?_, .inr (.inl (pivot hq))⟩
    rw [if_pos h2, mathSqrt_fin hp.le]
    simp only [XReal.lit_fin, XReal.fin_mul, bind, pure, Except.pure, Except.bind, Rat.cast_ofNat]
    rw [XReal.fin_div _ (spos hp), XReal.fin_div _ (spos hp), XReal.fin_div _ (spos hp)]
    congr 1; ext <;> simp
  rw [if_neg h2]
  by_cases h3 : R.a22 < R.a11
  · have hq : 1 ≤ 1 - R.a00 + R.a11 - R.a22 := by
      by_cases h4 : R.a11 < R.a00
      · exfalso; exact h2 ⟨h4, by linarith⟩
      · linarith
    have hp : 0 < 1 - R.a00 + R.a11 - R.a22 := by linarith
    refine ⟨⟨(R.a02 - R.a20) / (2 * Real.sqrt (1 - R.a00 + R.a11 - R.a22)), (R.a01 + R.a10) / (2 * Real.sqrt (1 - R.a00 + R.a11 - R.a22)),
      1 / 4 * (2 * Real.sqrt (1 - R.a00 + R.a11 - R.a22)), (R.a12 + R.a21) / (2 * Real.sqrt (1 - R.a00 + R.a11 - R.a22))⟩, ?_, .inr (.inr (.inl (pivot hq)))⟩
    rw [if_pos h3, mathSqrt_fin hp.le]
    simp only [XReal.lit_fin, XReal.fin_mul, bind, pure, Except.pure, Except.bind, Rat.cast_ofNat]
    rw [XReal.fin_div _ (spos hp), XReal.fin_div _ (spos hp), XReal.fin_div _ (spos hp)]
    congr 1; ext <;> simp
  · have hq : 1 ≤ 1 - R.a00 - R.a11 + R.a22 := by
      by_cases h4 : R.a22 < R.a00
      · exfalso; exact h2 ⟨by linarith, h4⟩
      · linarith
    have hp : 0 < 1 - R.a00 - R.a11 + R.a22 := by linarith
    refine ⟨⟨(R.a10 - R.a01) / (2 * Real.sqrt (1 - R.a00 - R.a11 + R.a22)), (R.a02 + R.a20) / (2 * Real.sqrt (1 - R.a00 - R.a11 + R.a22)),
      (R.a12 + R.a21) / (2 * Real.sqrt (1 - R.a00 - R.a11 + R.a22)), 1 / 4 * (2 * Real.sqrt (1 - R.a00 - R.a11 + R.a22))⟩, ?_, .inr (.inr (.inr (pivot hq)))⟩
    rw [if_neg h3, mathSqrt_fin hp.le]
    simp only [XReal.lit_fin, XReal.fin_mul, bind, pure, Except.pure, Except.bind, Rat.cast_ofNat]
    rw [XReal.fin_div _ (spos hp), XReal.fin_div _ (spos hp), XReal.fin_div _ (spos hp)]
    congr 1; ext <;> simp

-- not a rotation (determinant 400), third branch
example : R2q (⟨-5, 7, 0, 0, 2, 0, 0, 9, -40⟩ : M3 ℝ).up ≠ .error .value := by
  obtain ⟨q, h, -⟩ := C06_R2q_total ⟨-5, 7, 0, 0, 2, 0, 0, 9, -40⟩
  rw [h]; simp

-- rotations in each of the four branches (trace > 0; each diagonal entry dominating in turn)
example : IsRot (1 : M3 ℝ) ∧ 0 < (1 : M3 ℝ).trace := ⟨IsRot.one, by norm_num [M3.trace]⟩
example : IsRot (⟨1, 0, 0, 0, -1, 0, 0, 0, -1⟩ : M3 ℝ) ∧ IsRot (⟨-1, 0, 0, 0, 1, 0, 0, 0, -1⟩ : M3 ℝ) ∧
    IsRot (⟨-1, 0, 0, 0, -1, 0, 0, 0, 1⟩ : M3 ℝ) := by
  refine ⟨⟨?_, ?_⟩, ⟨?_, ?_⟩, ⟨?_, ?_⟩⟩ <;> first | (ext <;> norm_num) | norm_num [M3.det]
example : IsUnit4 ⟨1/2, -1/2, 1/2, 1/2⟩ := by norm_num [IsUnit4]

/-! ## C07 -/

private theorem sin_le_self' {x : ℝ} (h : 0 ≤ x) : Real.sin x ≤ x := by
  rcases h.eq_or_lt with rfl | h
  · simp
  · exact (Real.sin_lt h).le

/-- C07: `rot2q` of a unit axis (as an array) is a unit quaternion of `rot(k, θ)`. -/
theorem C07_rot2q (k : V3 ℝ) (hk : IsUnit3 k) (θ : ℝ) :
    ∃ q : V4 ℝ, rot2q (.array k.up) (.fin θ) = .ok q.up ∧ IsUnit4 q ∧ q2R q = rot k θ :=
  ⟨rot2qA k θ, by rw [rot2q, rot2qA_up], rot2qA_unit k hk θ, q2R_rot2qA k hk θ⟩

/-- C07: `q2rot` recovers axis and angle for angles in `[1e-6, 2π)`. -/
theorem C07_q2rot_rot2q (k : V3 ℝ) (hk : IsUnit3 k) (θ : ℝ) (h0 : 1/1000000 ≤ θ) (h1 : θ < 2 * Real.pi) :
    ∃ q : V4 ℝ, rot2q (.array k.up) (.fin θ) = .ok q.up ∧ q2rot q.up = (.array k.up, .fin θ) := by
  refine ⟨rot2qA k θ, by rw [rot2q, rot2qA_up], ?_⟩
  have hw : (rot2qA k θ).w = Real.cos (θ/2) := by simp [rot2qA]
  have harc : Real.arccos (Real.cos (θ/2)) = θ/2 := Real.arccos_cos (by linarith) (by linarith)
  have hsin : 0 < Real.sin (θ/2) := Real.sin_pos_of_pos_of_lt_pi (by linarith) (by linarith)
  have hsq := Real.sin_sq_add_cos_sq (θ/2)
  rw [q2rot_eval]
  · rw [hw, harc]
    have e1 : Real.sqrt (1 - Real.cos (θ/2) ^ 2) = Real.sin (θ/2) := by
      rw [← Real.sin_sq, Real.sqrt_sq hsin.le]
    rw [e1]
    congr 2
    · congr 1
      ext <;> simp [rot2qA] <;> field_simp
    · ring
  · rw [hw]; nlinarith
  · rw [hw]; exact Real.cos_le_one _
  · rw [hw, harc]; linarith

/-- C07 for every unit quaternion other than `-1`.  Missing for the full claim: `q = (-1,0,0,0)`, where exact
arithmetic divides 0 by `sin π = 0` (`C07_q2rot_minus_one`). -/
theorem C07_q2rot_sound_partial (q : V4 ℝ) (hq : IsUnit4 q) (hne : q.w ≠ -1) :
    ∃ (k : V3 ℝ) (θ : ℝ), q2rot q.up = (.array k.up, .fin θ) ∧ IsUnit3 k ∧
      (1/1000000 ≤ 2 * Real.arccos q.w → rot k θ = q2R q) ∧ (q2R q - rot k θ).frob ≤ 2/1000000 := by
  have hq' := hq
  unfold IsUnit4 at hq'
  have hw1 : q.w ≤ 1 := by nlinarith [mul_self_nonneg q.x, mul_self_nonneg q.y, mul_self_nonneg q.z]
  have hw2 : -1 ≤ q.w := by nlinarith [mul_self_nonneg q.x, mul_self_nonneg q.y, mul_self_nonneg q.z]
  have hw3 : -1 < q.w := lt_of_le_of_ne hw2 (Ne.symm hne)
  by_cases hb : 1/1000000 ≤ 2 * Real.arccos q.w
  · have hlt : q.w < 1 := by
      rcases lt_or_eq_of_le hw1 with h | h
      · exact h
      · rw [h, Real.arccos_one] at hb; norm_num at hb
    have hpos : 0 < 1 - q.w ^ 2 := by nlinarith
    have hsq : Real.sqrt (1 - q.w ^ 2) * Real.sqrt (1 - q.w ^ 2) = 1 - q.w ^ 2 := Real.mul_self_sqrt hpos.le
    have hne0 := (Real.sqrt_pos.2 hpos).ne'
    have hsin : Real.sin (2 * Real.arccos q.w) = 2 * Real.sqrt (1 - q.w ^ 2) * q.w := by
      rw [Real.sin_two_mul, Real.sin_arccos, Real.cos_arccos hw2 hw1]
    have hcos : Real.cos (2 * Real.arccos q.w) = 2 * q.w ^ 2 - 1 := by
      rw [Real.cos_two_mul, Real.cos_arccos hw2 hw1]
    have hu : IsUnit3 (q.vec.sdiv (Real.sqrt (1 - q.w ^ 2))) := by
      unfold IsUnit3; simp; field_simp; grind
    have hr : rot (q.vec.sdiv (Real.sqrt (1 - q.w ^ 2))) (2 * Real.arccos q.w) = q2R q := by
      ext <;> simp [rot, q2R, hsin, hcos] <;> field_simp <;> grind
    refine ⟨_, _, q2rot_eval q hw3 hw1 hb, hu, fun _ => hr, ?_⟩
    rw [hr]
    simp [M3.frob]
    norm_num
  · refine ⟨V3.ez, 0, ?_, by norm_num [IsUnit3], fun h => absurd h hb, ?_⟩
    · unfold q2rot
      simp only [V4.up_w, XReal.arccos_fin hw2 hw1, XReal.lit_fin, XReal.fin_mul, XReal.abs_fin, XReal.fin_lt]
      rw [if_pos]
      · rfl
      · push_cast
        rw [abs_of_nonneg (by have := Real.arccos_nonneg q.w; linarith)]
        push Not at hb; linarith
    · have hf : (q2R q - rot V3.ez 0).frob = Real.sqrt (8 * (1 - q.w ^ 2)) := by
        unfold M3.frob; simp only [sqrt_real, rot_zero]; congr 1
        simp [q2R]; grind
      rw [hf, Real.sqrt_le_left (by norm_num)]
      have h1 : Real.sqrt (1 - q.w ^ 2) ≤ Real.arccos q.w := by
        rw [← Real.sin_arccos]; exact sin_le_self' (Real.arccos_nonneg _)
      have h2 := Real.mul_self_sqrt (show 0 ≤ 1 - q.w ^ 2 by nlinarith)
      have h3 := Real.sqrt_nonneg (1 - q.w ^ 2)
      push Not at hb
      nlinarith

-- non-vacuity: both sides of the band
example : IsUnit4 ⟨3/5, 0, 0, -4/5⟩ ∧ (3/5 : ℝ) ≠ -1 := by norm_num [IsUnit4]

/-- C07 at `q = -1` in exact arithmetic: NaN.  (In floating point `sin(π)` is about `1e-16`, not 0, and the axis
comes out as the zero vector.) -/
theorem C07_q2rot_minus_one : q2rot (V4.up ⟨-1, 0, 0, 0⟩) = (.array ⟨.nan, .nan, .nan⟩, .fin (2 * Real.pi)) := by
  unfold q2rot
  have h2 : ¬ |2 * Real.pi| < (1/1000000 : ℝ) := by
    have := Real.pi_gt_three; rw [abs_of_pos (by positivity)]; linarith
  simp only [V4.up_w, XReal.arccos_fin le_rfl (show (-1:ℝ) ≤ 1 by norm_num), XReal.lit_fin, XReal.fin_mul,
    XReal.abs_fin, XReal.fin_lt, Real.arccos_neg_one]
  push_cast
  rw [if_neg h2, XReal.fin_div _ two_ne_zero, XReal.sin_fin, show 2 * Real.pi / 2 = Real.pi by ring, Real.sin_pi]
  simp [V3.sdiv, V4.vec, V4.up, V4.map, XReal.zero_div_zero]

/-! ## C11 -/

/-- C11: `slerp` raises exactly when `t` is outside `[0,1]`. -/
theorem C11_slerp_raises (q0 q1 : V4 ℝ) (h0 : q0 ≠ ⟨0, 0, 0, 0⟩) (h1 : q1 ≠ ⟨0, 0, 0, 0⟩) (t : ℝ) :
    slerp q0.up q1.up (.fin t) = .error .assertion ↔ ¬ (0 ≤ t ∧ t ≤ 1) := by
  rw [slerp_eval h0 h1]
  by_cases ht : 0 ≤ t ∧ t ≤ 1
  · rw [if_pos ht]; split_ifs <;> simp [ht]
  · rw [if_neg ht]; simp [ht]

/-- The angle between the rotation axes of two quaternions as points of projective space: the shorter arc. -/
noncomputable def arcAngle (q0 q1 : V4 ℝ) : ℝ := Real.arccos (|q0.dot q1| / (q0.norm * q1.norm))

theorem start_dot_eq (q0 q1 : V4 ℝ) :
    (slerpStart q0 q1).dot (q1.sdiv q1.norm) = |q0.dot q1| / (q0.norm * q1.norm) := by
  have hn : 0 ≤ q0.norm * q1.norm := mul_nonneg q0.norm_nonneg q1.norm_nonneg
  have e : (q0.sdiv q0.norm).dot (q1.sdiv q1.norm) = q0.dot q1 / (q0.norm * q1.norm) := by
    simp [V4.dot]
    by_cases h1 : q0.norm = 0
    · simp [h1]
    by_cases h2 : q1.norm = 0
    · simp [h2]
    field_simp
  have h3 := slerpStart_dot q0 q1
  rw [← abs_of_nonneg h3]
  have : |(slerpStart q0 q1).dot (q1.sdiv q1.norm)| = |(q0.sdiv q0.norm).dot (q1.sdiv q1.norm)| := by
    unfold slerpStart; split_ifs
    · rw [← abs_neg]; congr 1; simp [V4.dot]; ring
    · rfl
  rw [this, e, abs_div, abs_of_nonneg hn]

/-- C11: outside the band `θ < 1e-6` the result is a unit quaternion at angle `t θ` from the start, `(1-t) θ` from
the end, along the shorter arc (`θ = arcAngle ≤ π/2`); the start represents the rotation of `q0` and the end is the
normalized `q1`. -/
theorem C11_slerp_geodesic (q0 q1 : V4 ℝ) (h0 : q0 ≠ ⟨0, 0, 0, 0⟩) (h1 : q1 ≠ ⟨0, 0, 0, 0⟩) (t : ℝ)
    (ht0 : 0 ≤ t) (ht1 : t ≤ 1) (hb : 1/1000000 ≤ arcAngle q0 q1) :
    ∃ (q u0 : V4 ℝ), slerp q0.up q1.up (.fin t) = .ok q.up ∧ IsUnit4 q ∧
      (u0 = q0.sdiv q0.norm ∨ u0 = -(q0.sdiv q0.norm)) ∧ 0 ≤ u0.dot (q1.sdiv q1.norm) ∧
      arcAngle q0 q1 ≤ Real.pi / 2 ∧
      u0.dot q = Real.cos (t * arcAngle q0 q1) ∧ (q1.sdiv q1.norm).dot q = Real.cos ((1 - t) * arcAngle q0 q1) ∧
      Real.arccos (u0.dot q) = t * arcAngle q0 q1 ∧
      (t = 0 → q = u0) ∧ (t = 1 → q = q1.sdiv q1.norm) := by
  have hd : (slerpStart q0 q1).dot (q1.sdiv q1.norm) = |q0.dot q1| / (q0.norm * q1.norm) := start_dot_eq q0 q1
  have hu0 := slerpStart_unit (q1 := q1) h0
  have hu1 := V4.sdiv_norm_unit h1
  have hle := hu0.dot_le hu1
  have hθ : Real.arccos ((slerpStart q0 q1).dot (q1.sdiv q1.norm)) = arcAngle q0 q1 := by
    rw [hd]; rfl
  have hnn := slerpStart_dot q0 q1
  have hpi : arcAngle q0 q1 ≤ Real.pi / 2 := by rw [← hθ]; exact Real.arccos_le_pi_div_two.2 hnn
  have hs : Real.sin (arcAngle q0 q1) ≠ 0 :=
    (Real.sin_pos_of_pos_of_lt_pi (by linarith) (by linarith [Real.pi_pos])).ne'
  have hc : (slerpStart q0 q1).dot (q1.sdiv q1.norm) = Real.cos (arcAngle q0 q1) := by
    rw [← hθ, Real.cos_arccos hle.1 hle.2]
  obtain ⟨p1, p2, p3⟩ := slerpComb_props hu0 hu1 hc hs t
  refine ⟨slerpComb (slerpStart q0 q1) (q1.sdiv q1.norm) (arcAngle q0 q1) t, slerpStart q0 q1, ?_, p1, ?_, hnn, hpi,
    p2, p3, ?_, ?_, ?_⟩
  · have := slerp_eval h0 h1 t
    simp only [hθ] at this
    rw [this, if_pos ⟨ht0, ht1⟩, if_neg (not_lt.2 hb)]
  · unfold slerpStart; split_ifs
    · right; rfl
    · left; rfl
  · rw [p2, Real.arccos_cos] <;> nlinarith [Real.pi_pos]
  · rintro rfl
    ext <;> simp [slerpComb] <;> field_simp
  · rintro rfl
    ext <;> simp [slerpComb] <;> field_simp

/-- C11: hence the interpolation starts at the rotation of `q0` and ends at the rotation of `q1`. -/
theorem C11_slerp_endpoints (q0 q1 : V4 ℝ) (h0 : q0 ≠ ⟨0, 0, 0, 0⟩) (h1 : q1 ≠ ⟨0, 0, 0, 0⟩)
    (hb : 1/1000000 ≤ arcAngle q0 q1) :
    (∃ q : V4 ℝ, slerp q0.up q1.up (.fin 0) = .ok q.up ∧ q2R q = q2R (q0.sdiv q0.norm)) ∧
    (∃ q : V4 ℝ, slerp q0.up q1.up (.fin 1) = .ok q.up ∧ q2R q = q2R (q1.sdiv q1.norm)) := by
  have hneg : ∀ q : V4 ℝ, q2R (-q) = q2R q := fun q => by ext <;> simp [q2R]
  constructor
  · obtain ⟨q, u0, e, -, hu, -, -, -, -, -, h, -⟩ := C11_slerp_geodesic q0 q1 h0 h1 0 le_rfl zero_le_one hb
    refine ⟨q, e, ?_⟩
    rw [h rfl]
    rcases hu with rfl | rfl
    · rfl
    · rw [hneg]
  · obtain ⟨q, u0, e, -, hu, -, -, -, -, -, -, h⟩ := C11_slerp_geodesic q0 q1 h0 h1 1 zero_le_one le_rfl hb
    exact ⟨q, e, by rw [h rfl]⟩

/-- C11 inside the band: the start is returned for every `t`, a unit quaternion within `1e-6` of the end. -/
theorem C11_slerp_band (q0 q1 : V4 ℝ) (h0 : q0 ≠ ⟨0, 0, 0, 0⟩) (h1 : q1 ≠ ⟨0, 0, 0, 0⟩) (t : ℝ)
    (ht0 : 0 ≤ t) (ht1 : t ≤ 1) (hb : arcAngle q0 q1 < 1/1000000) :
    ∃ q : V4 ℝ, slerp q0.up q1.up (.fin t) = .ok q.up ∧ IsUnit4 q ∧
      (q = q0.sdiv q0.norm ∨ q = -(q0.sdiv q0.norm)) ∧ (q + -(q1.sdiv q1.norm)).norm ≤ 1/1000000 := by
  have hd : (slerpStart q0 q1).dot (q1.sdiv q1.norm) = |q0.dot q1| / (q0.norm * q1.norm) := start_dot_eq q0 q1
  have hu0 := slerpStart_unit (q1 := q1) h0
  have hu1 := V4.sdiv_norm_unit h1
  have hle := hu0.dot_le hu1
  have hθ : Real.arccos ((slerpStart q0 q1).dot (q1.sdiv q1.norm)) = arcAngle q0 q1 := by rw [hd]; rfl
  refine ⟨slerpStart q0 q1, ?_, hu0, ?_, ?_⟩
  · have := slerp_eval h0 h1 t
    simp only [hθ] at this
    rw [this, if_pos ⟨ht0, ht1⟩, if_pos hb]
  · unfold slerpStart; split_ifs
    · right; rfl
    · left; rfl
  · have hn : (slerpStart q0 q1 + -(q1.sdiv q1.norm)).norm =
        Real.sqrt (2 - 2 * (slerpStart q0 q1).dot (q1.sdiv q1.norm)) := by
      clear hd hle hθ
      generalize q1.sdiv q1.norm = u1 at hu1 ⊢
      unfold V4.norm; simp only [sqrt_real]; congr 1
      unfold IsUnit4 at hu0 hu1
      simp only [V4.dot, V4.add_w, V4.add_x, V4.add_y, V4.add_z, V4.neg_w, V4.neg_x, V4.neg_y, V4.neg_z]
      linarith
    have hc : (slerpStart q0 q1).dot (q1.sdiv q1.norm) = Real.cos (arcAngle q0 q1) := by
      rw [← hθ, Real.cos_arccos hle.1 hle.2]
    rw [hn, hc, Real.sqrt_le_left (by norm_num)]
    have h5 := Real.one_sub_sq_div_two_le_cos (x := arcAngle q0 q1)
    have h6 : 0 ≤ arcAngle q0 q1 := Real.arccos_nonneg _
    nlinarith

/-- C11: as a rotation the result does not depend on the sign or scaling of the inputs, when they are not orthogonal.
Missing for the full claim: orthogonal inputs (rotations half a turn apart), where the shorter arc is not unique and the
claim is false (`C11_slerp_sign_false`). -/
theorem C11_slerp_scaling_partial (q0 q1 : V4 ℝ) (h0 : q0 ≠ ⟨0, 0, 0, 0⟩) (h1 : q1 ≠ ⟨0, 0, 0, 0⟩)
    (hdot : q0.dot q1 ≠ 0) (a b : ℝ) (ha : a ≠ 0) (hb : b ≠ 0) (t : ℝ) (ht0 : 0 ≤ t) (ht1 : t ≤ 1) :
    ∃ q q' : V4 ℝ, slerp q0.up q1.up (.fin t) = .ok q.up ∧
      slerp (V4.smul a q0).up (V4.smul b q1).up (.fin t) = .ok q'.up ∧ q2R q' = q2R q := by
  have hneg : ∀ q : V4 ℝ, q2R (-q) = q2R q := fun q => by ext <;> simp [q2R]
  have hn : ∀ (c : ℝ) (q : V4 ℝ), (V4.smul c q).norm = |c| * q.norm := by
    intro c q
    unfold V4.norm; simp only [sqrt_real]
    rw [← Real.sqrt_mul_self_eq_abs, ← Real.sqrt_mul (mul_self_nonneg c)]
    congr 1; simp; ring
  have hz : ∀ (c : ℝ) (q : V4 ℝ), c ≠ 0 → q ≠ ⟨0, 0, 0, 0⟩ → V4.smul c q ≠ ⟨0, 0, 0, 0⟩ := by
    intro c q hc hq h
    apply hq
    simp [V4.ext_iff, hc] at h
    ext <;> simp <;> tauto
  -- normalization of a scaled quaternion keeps it up to the sign of the factor
  have hs : ∀ (c : ℝ) (q : V4 ℝ), c ≠ 0 → q ≠ ⟨0, 0, 0, 0⟩ →
      (V4.smul c q).sdiv (V4.smul c q).norm = V4.smul (c / |c|) (q.sdiv q.norm) := by
    intro c q hc hq
    have h1 := (V4.norm_pos hq).ne'
    have h2 := abs_ne_zero.2 hc
    rw [hn]
    ext <;> simp <;> field_simp
  have hsgn : ∀ c : ℝ, c ≠ 0 → (0 < c ∧ c / |c| = 1) ∨ (c < 0 ∧ c / |c| = -1) := by
    intro c hc
    rcases lt_or_gt_of_ne hc with h | h
    · right; refine ⟨h, ?_⟩; rw [abs_of_neg h]; field_simp
    · left; refine ⟨h, ?_⟩; rw [abs_of_pos h]; field_simp
  have hd0 : (q0.sdiv q0.norm).dot (q1.sdiv q1.norm) ≠ 0 := by
    have e : (q0.sdiv q0.norm).dot (q1.sdiv q1.norm) = q0.dot q1 / (q0.norm * q1.norm) := by
      have h1' := (V4.norm_pos h0).ne'
      have h2' := (V4.norm_pos h1).ne'
      simp [V4.dot]; field_simp
    rw [e]; exact div_ne_zero hdot (mul_pos (V4.norm_pos h0) (V4.norm_pos h1)).ne'
  set v0 := q0.sdiv q0.norm with hv0
  set v1 := q1.sdiv q1.norm with hv1
  have ea := hs a q0 ha h0
  have eb := hs b q1 hb h1
  rw [← hv0] at ea
  rw [← hv1] at eb
  -- the start of the scaled interpolation is the old one up to the sign of `b`
  have key : slerpStart (V4.smul a q0) (V4.smul b q1) = V4.smul (b / |b|) (slerpStart q0 q1) := by
    unfold slerpStart
    rw [ea, eb, ← hv0, ← hv1]
    have ed : ∀ c d : ℝ, (V4.smul c v0).dot (V4.smul d v1) = c * d * v0.dot v1 := by
      intro c d; simp [V4.dot]; ring
    rw [ed]
    rcases hsgn a ha with ⟨-, h⟩ | ⟨-, h⟩ <;> rcases hsgn b hb with ⟨-, h'⟩ | ⟨-, h'⟩ <;> rw [h, h'] <;>
      rcases lt_or_gt_of_ne hd0 with hlt | hlt <;>
      simp only [mul_one, one_mul, mul_neg, neg_mul, neg_neg, neg_lt_zero, hlt, not_lt.2 hlt.le, if_true,
        if_false] <;>
      ext <;> simp
  have edot : (slerpStart (V4.smul a q0) (V4.smul b q1)).dot ((V4.smul b q1).sdiv (V4.smul b q1).norm) =
      (slerpStart q0 q1).dot v1 := by
    rw [key, eb]
    rcases hsgn b hb with ⟨-, h'⟩ | ⟨-, h'⟩ <;> rw [h'] <;> simp [V4.dot]
  have ev1 := slerp_eval h0 h1 t
  have ev2 := slerp_eval (hz a q0 ha h0) (hz b q1 hb h1) t
  simp only [if_pos (show 0 ≤ t ∧ t ≤ 1 from ⟨ht0, ht1⟩)] at ev1 ev2
  rw [edot] at ev2
  rw [← hv1] at ev1
  by_cases hband : Real.arccos ((slerpStart q0 q1).dot v1) < 1/1000000
  · rw [if_pos hband] at ev1 ev2
    refine ⟨_, _, ev1, ev2, ?_⟩
    rw [key]
    rcases hsgn b hb with ⟨-, h'⟩ | ⟨-, h'⟩ <;> rw [h']
    · congr 1; ext <;> simp
    · rw [← hneg]; congr 1; ext <;> simp
  · rw [if_neg hband] at ev1 ev2
    refine ⟨_, _, ev1, ev2, ?_⟩
    rw [key, eb]
    rcases hsgn b hb with ⟨-, h'⟩ | ⟨-, h'⟩ <;> rw [h']
    · congr 1; ext <;> simp [slerpComb]
    · rw [← hneg]; congr 1
      ext <;> simp only [slerpComb, V4.neg_w, V4.neg_x, V4.neg_y, V4.neg_z, V4.sdiv_w, V4.sdiv_x, V4.sdiv_y,
        V4.sdiv_z, V4.add_w, V4.add_x, V4.add_y, V4.add_z, V4.smul_w, V4.smul_x, V4.smul_y, V4.smul_z] <;> ring

/-- C11: sign independence fails for orthogonal quaternions: half way from `(1,0,0,0)` or `(-1,0,0,0)`, the same
rotation, to `(0,1,0,0)` the results are opposite quarter turns about x. -/
theorem C11_slerp_sign_false : ∃ (q0 q1 q q' : V4 ℝ), IsUnit4 q0 ∧ IsUnit4 q1 ∧
    slerp q0.up q1.up (.fin (1/2)) = .ok q.up ∧ slerp (-q0).up q1.up (.fin (1/2)) = .ok q'.up ∧
    q2R q' = (q2R q).transpose ∧ q2R q' ≠ q2R q := by
  have hn1 : V4.norm (⟨1, 0, 0, 0⟩ : V4 ℝ) = 1 := by simp [V4.norm]
  have hn2 : V4.norm (-(⟨1, 0, 0, 0⟩ : V4 ℝ)) = 1 := by simp [V4.norm]
  have hn3 : V4.norm (⟨0, 1, 0, 0⟩ : V4 ℝ) = 1 := by simp [V4.norm]
  have hz1 : (⟨1, 0, 0, 0⟩ : V4 ℝ) ≠ ⟨0, 0, 0, 0⟩ := by intro h; simp [V4.ext_iff] at h
  have hz2 : (-⟨1, 0, 0, 0⟩ : V4 ℝ) ≠ ⟨0, 0, 0, 0⟩ := by intro h; simp [V4.ext_iff] at h
  have hz3 : (⟨0, 1, 0, 0⟩ : V4 ℝ) ≠ ⟨0, 0, 0, 0⟩ := by intro h; simp [V4.ext_iff] at h
  have hs1 : slerpStart ⟨1, 0, 0, 0⟩ ⟨0, 1, 0, 0⟩ = (⟨1, 0, 0, 0⟩ : V4 ℝ) := by
    unfold slerpStart; rw [hn1, hn3]; rw [if_neg (by simp [V4.dot])]; ext <;> simp
  have hs2 : slerpStart (-⟨1, 0, 0, 0⟩) ⟨0, 1, 0, 0⟩ = (-⟨1, 0, 0, 0⟩ : V4 ℝ) := by
    unfold slerpStart; rw [hn2, hn3]; rw [if_neg (by simp [V4.dot])]; ext <;> simp
  have hd1 : V4.dot (⟨1, 0, 0, 0⟩ : V4 ℝ) (V4.sdiv ⟨0, 1, 0, 0⟩ 1) = 0 := by simp [V4.dot]
  have hd2 : V4.dot (-⟨1, 0, 0, 0⟩ : V4 ℝ) (V4.sdiv ⟨0, 1, 0, 0⟩ 1) = 0 := by simp [V4.dot]
  have hb : ¬ Real.pi / 2 < (1/1000000 : ℝ) := by have := Real.pi_gt_three; linarith
  have ht : (0:ℝ) ≤ 1/2 ∧ (1/2:ℝ) ≤ 1 := by norm_num
  have e1 := slerp_eval hz1 hz3 (1/2)
  have e2 := slerp_eval hz2 hz3 (1/2)
  simp only [hs1, hs2, hn3, hd1, hd2, Real.arccos_zero, if_pos ht, if_neg hb] at e1 e2
  refine ⟨⟨1, 0, 0, 0⟩, ⟨0, 1, 0, 0⟩, _, _, by norm_num [IsUnit4], by norm_num [IsUnit4], e1, e2, ?_, ?_⟩
  · ext <;> simp [q2R, slerpComb]
  · intro h
    have := congrArg (fun A : M3 ℝ => A.a21) h
    have h1 : (1 - 2⁻¹) * (Real.pi / 2) = Real.pi / 4 := by ring
    have h2 : 2⁻¹ * (Real.pi / 2) = Real.pi / 4 := by ring
    simp [q2R, slerpComb, h1, h2, Real.sin_pi_div_four] at this
    have hq : Real.sqrt 2 * Real.sqrt 2 = 2 := Real.mul_self_sqrt (by norm_num)
    nlinarith

-- non-vacuity: two quaternions a quarter turn apart
example : arcAngle ⟨1, 0, 0, 0⟩ ⟨0, 1, 0, 0⟩ = Real.pi / 2 ∧ (1/1000000 : ℝ) ≤ Real.pi / 2 := by
  refine ⟨by simp [arcAngle, V4.dot], by have := Real.pi_gt_three; linarith⟩
example : V4.dot (⟨1, 2, 0, 0⟩ : V4 ℝ) ⟨0, 1, 3, 0⟩ ≠ 0 := by simp [V4.dot]
