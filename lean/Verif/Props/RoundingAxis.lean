import Verif.Lemmas.FlSlerp
import Verif.Props.RoundingRpy

/-! # Property C64 for `R2rot`, `q2rot` and `slerp` in floating-point arithmetic -/
set_option autoImplicit false

private theorem s_eq {R : M3 ℝ} (h : IsRot R) : R2rotL.s R = Real.sqrt (1 - ((R.trace - 1) / 2) ^ 2) := by
  have h1 := R2rotL.s_sq_add_c_sq h
  rw [← Real.sqrt_mul_self (R2rotL.s_nonneg R)]
  congr 1
  unfold R2rotL.c at h1
  linarith

/-- C64 for `R2rot`, the part that holds: in floating-point arithmetic, on a matrix within `ε` of a rotation `R` whose angle has sine `s`,
with `s` at least twice the tolerance of the code and at least `2000 ε`, it returns a finite axis within `260 ε / s` of the axis of `R` and an
angle within `420 ε` (plus a rounding unit) of its angle.  Missing, because false (`C64_R2rot_false`): rotations near half turns. -/
theorem C64_R2rot_rounding_partial {F : FSys} (hF : Spec.InvAcc F) (R : M3 ℝ) (hR : IsRot R) (R' : M3 (Fl F)) (ε : ℝ) (hu : F.u ≤ ε)
    (h : Spec.MNear R' R ε) (s : ℝ) (hs : s = Real.sqrt (1 - ((R.trace - 1) / 2) ^ 2)) (hlo : 1 / 500000 ≤ s) (he : 2000 * ε ≤ s)
    (hη : F.η ≤ F.u * (1 / 1000000000000000000000)) :
    ∃ k' th' k θ, R2rot R' = (.array k', th') ∧ IsUnit3 k ∧ 0 < θ ∧ θ < Real.pi ∧ rot k θ = R ∧ Spec.VNear k' k (260 * (ε / s)) ∧
      Spec.AngNear th' θ (420 * ε + F.u) := by
  rw [← s_eq hR] at hs
  subst hs
  have s0 : 0 < R2rotL.s R := by linarith [hlo]
  obtain ⟨h1, h2⟩ := R2rotL.regular hR s0.ne'
  obtain ⟨h3, h4⟩ := R2rotL.arg_mem R s0
  rcases Fl.R2rot_near hF hR h hu (by linarith) he hη with ⟨h5, -⟩ | ⟨-, k', th', h5, h6, h7⟩
  · linarith
  · exact ⟨k', th', _, _, h5, h1, h3, h4, h2, h6, h7⟩

private theorem rot_back {F : FSys} {k : V3 ℝ} {θ ε s : ℝ} {k' : V3 (Fl F)} {th' : Fl F} (hk : IsUnit3 k) (hu : F.u ≤ ε) (s0 : 0 < s) (s1 : s ≤ 1)
    (he : 4200 * ε ≤ s) (h6 : Spec.VNear k' k (260 * (ε / s))) (h7 : Spec.AngNear th' θ (420 * ε + F.u)) :
    Spec.MNear (rot k' th') (rot k θ) (2400 * (ε / s)) := by
  have e0 : 0 ≤ ε := F.u_nonneg.trans hu
  have q0 : ε ≤ ε / s := by rw [le_div_iff₀ s0]; exact mul_le_of_le_one_right e0 s1
  have q1 : ε / s ≤ 1 / 4200 := by rw [div_le_div_iff₀ s0 (by norm_num)]; linarith
  obtain ⟨n, hn⟩ := h7
  have := Fl.rot_near' hk h6 (by linarith) hn
  rw [show rot k (θ + n * (2 * Real.pi)) = rot k θ by
    simp only [rot, Elem.sin, Elem.cos, Real.sin_add_int_mul_two_pi, Real.cos_add_int_mul_two_pi]] at this
  exact Fl.MNear.mono this (by linarith)

/-- C64 for `R2rot`: for rotations by at most 120 degrees, however small, the returned axis and angle reproduce the matrix up to the tolerance of
the code (2.5e-6) and a multiple of the error of the input, in whichever branch they are computed. -/
theorem C64_R2rot_roundtrip_partial {F : FSys} (hF : Spec.InvAcc F) (R : M3 ℝ) (hR : IsRot R) (R' : M3 (Fl F)) (ε : ℝ) (hu : F.u ≤ ε)
    (h : Spec.MNear R' R ε) (htr : 0 ≤ R.trace) (hε : ε ≤ 1 / 10000000000) (hη : F.η ≤ F.u * (1 / 1000000000000000000000)) :
    Spec.MNear (rot (R2rot R').1.v (R2rot R').2) R (1 / 400000 + 2500000000 * ε) := by
  have u0 := F.u_nonneg
  have u1 := F.u_le
  have e0 : 0 ≤ ε := u0.trans hu
  have hsc := R2rotL.s_sq_add_c_sq hR
  have sn := R2rotL.s_nonneg R
  have clo : -(1 / 2) ≤ R2rotL.c R := by unfold R2rotL.c; linarith
  have s1 : R2rotL.s R ≤ 1 := by
    have := mul_self_nonneg (R2rotL.c R)
    exact (abs_le.1 ((sq_le_one_iff_abs_le_one _).1 (by linarith))).2
  have band : R2rotL.s R ≤ 1 / 10 → 16 * ε < R2rotL.c R := by
    intro hs
    by_contra hcon
    nlinarith
  have triv : R2rotL.s R ≤ 110 / 100000000 → R2rot R' = (.list V3.ez, 0) →
      Spec.MNear (rot (R2rot R').1.v (R2rot R').2) R (1 / 400000 + 2500000000 * ε) := by
    intro hs e
    rw [e]
    have h1 : Spec.MNear (rot (V3.ez : V3 (Fl F)) 0) (rot V3.ez 0) (2 * 0 + 210 * F.u) :=
      Fl.rot_ang (k := V3.ez) (by norm_num [IsUnit3, V3.ez]) ⟨V3.ez, rfl, by rw [show (V3.ez - V3.ez : V3 ℝ) = 0 by ext <;> simp]; simp [V3.norm_eq, V3.dot]⟩
        ⟨0, 0, rfl, by simp⟩
    obtain ⟨A, hA, h1⟩ := Fl.mNear_iff.1 h1
    refine Fl.mNear_iff.2 ⟨A, hA, ?_⟩
    have h2 := R2rotL.near_one hR (by have := band (by linarith); linarith)
    rw [rot_zero] at h1
    have h3 := h1.add h2
    rw [show A - 1 + (1 - R) = A - R by ext <;> simp <;> ring] at h3
    exact h3.mono (by linarith)
  rcases le_or_gt (R2rotL.s R) (1 / 4000000) with hs | hs
  · exact triv (by linarith) (Fl.R2rot_small hR h hu (by linarith) hs (band (by linarith)) (by linarith))
  rcases Fl.R2rot_near hF hR h hu hs.le (by linarith) hη with ⟨h5, h6⟩ | ⟨h4, k', th', h5, h6, h7⟩
  · exact triv (by linarith) (h6 (band (by linarith)))
  · have s0 : 0 < R2rotL.s R := by linarith
    obtain ⟨h1, h2⟩ := R2rotL.regular hR s0.ne'
    rw [h5]
    have := rot_back h1 hu s0 s1 (by linarith) h6 h7
    rw [h2] at this
    refine Fl.MNear.mono this ?_
    have : ε / R2rotL.s R ≤ 1040000 * ε := by
      rw [div_le_iff₀ s0]
      have : 1040000 * ε * (97 / 100000000) ≤ 1040000 * ε * R2rotL.s R := mul_le_mul_of_nonneg_left (by linarith) (by positivity)
      linarith
    linarith

/-- Non-vacuity: in binary64 with a correctly rounded library, a quarter turn about z with one entry off by 2⁻⁴⁰. -/
example : Spec.MNear (let a := R2rot (⟨.of 0, .of (-1), .of 0, .of 1, .of (2⁻¹ ^ 40), .of 0, .of 0, .of 0, .of 1⟩ : M3 (Fl (b64 Libm.rounded)))
    rot a.1.v a.2) ⟨0, -1, 0, 1, 0, 0, 0, 0, 1⟩ (1 / 100) := by
  refine Fl.MNear.mono (C64_R2rot_roundtrip_partial invAcc_rounded ⟨0, -1, 0, 1, 0, 0, 0, 0, 1⟩ ⟨by ext <;> simp, by norm_num [M3.det]⟩ _ (2⁻¹ ^ 40)
    (by change (2⁻¹ : ℝ) ^ 50 ≤ _; norm_num) ?_ (by simp [M3.trace]) (by norm_num) ?_) (by norm_num)
  · refine ⟨⟨0, -1, 0, 1, 2⁻¹ ^ 40, 0, 0, 0, 1⟩, rfl, fun v => ?_⟩
    have : M3.mulVec ⟨0, -1, 0, 1, 2⁻¹ ^ 40, 0, 0, 0, 1⟩ v - M3.mulVec ⟨0, -1, 0, 1, 0, 0, 0, 0, 1⟩ v = (⟨0, 2⁻¹ ^ 40 * v.y, 0⟩ : V3 ℝ) := by
      ext <;> simp
    rw [this, V3.norm_eq, show (⟨0, 2⁻¹ ^ 40 * v.y, 0⟩ : V3 ℝ).dot ⟨0, 2⁻¹ ^ 40 * v.y, 0⟩ = (2⁻¹ ^ 40 * v.y) ^ 2 by simp [V3.dot]; ring,
      Real.sqrt_sq_eq_abs, abs_mul, abs_of_pos (by positivity : (0 : ℝ) < 2⁻¹ ^ 40)]
    exact mul_le_mul_of_nonneg_left (V3.abs_y_le v) (by positivity)
  · change (2⁻¹ : ℝ) ^ 1075 ≤ 2⁻¹ ^ 50 * _
    have : (2⁻¹ : ℝ) ^ 1075 ≤ 2⁻¹ ^ 50 * 2⁻¹ ^ 70 := by rw [← pow_add]; exact pow_le_pow_of_le_one (by norm_num) (by norm_num) (by norm_num)
    exact this.trans (by norm_num)

/-- C64 for `q2rot` in floating-point arithmetic: on a quaternion within `ε` of a unit quaternion `q` whose half angle has sine `s`, with `s` at
least 2e-6 and `s²` at least `1000 ε`, it returns a finite axis within `60 ε / s²` and a finite angle within `23 ε / s` of an axis and angle of
`q2R q`, and `rot` of them is within `580 ε / s²` of it.  Missing, because false (`C64_q2rot_false`): smaller rotations. -/
theorem C64_q2rot_rounding_partial {F : FSys} (hF : Spec.InvAcc F) (q : V4 ℝ) (hq : IsUnit4 q) (q' : V4 (Fl F)) (ε : ℝ) (hu : F.u ≤ ε)
    (h : Spec.QNear q' q ε) (s : ℝ) (hs : s = q.vec.norm) (hlo : 1 / 500000 ≤ s) (he : 1000 * ε ≤ s ^ 2) (hη : F.η ≤ F.u * (1 / 1000000)) :
    ∃ k' th' k θ, q2rot q' = (.array k', th') ∧ IsUnit3 k ∧ 0 < θ ∧ θ < 2 * Real.pi ∧ rot k θ = q2R q ∧ Spec.VNear k' k (60 * (ε / s ^ 2)) ∧
      th'.Near θ (23 * (ε / s)) ∧ Spec.MNear (rot k' th') (q2R q) (580 * (ε / s ^ 2)) := by
  have s0 : 0 < s := by linarith [hlo]
  have e0 : 0 ≤ ε := F.u_nonneg.trans hu
  have ssq : q.w * q.w + s * s = 1 := by
    rw [← pow_two s, hs, V3.norm_sq]
    unfold IsUnit4 at hq
    simp only [V3.dot, V4.vec]
    linarith
  have ws : q.w * q.w < 1 := by have := mul_pos s0 s0; linarith
  have w1 : |q.w| < 1 := (sq_lt_one_iff_abs_lt_one q.w).1 (by rw [pow_two]; exact ws)
  obtain ⟨w2, w3⟩ := abs_lt.1 w1
  have s1 : s ≤ 1 := by
    have := mul_self_nonneg q.w
    exact (abs_le.1 ((sq_le_one_iff_abs_le_one s).1 (by rw [pow_two]; linarith))).2
  obtain ⟨k', th', h1, h2, h3⟩ := Fl.q2rot_near hF hq h hu ssq hlo he hη
  have hk : IsUnit3 (q.vec.sdiv s) := by
    unfold IsUnit4 at hq
    simp [IsUnit3, V4.vec]
    field_simp
    linarith
  have sin := Fl.sin_arccos_eq s0 ssq
  have cos := Real.cos_arccos w2.le w3.le
  have hr : rot (q.vec.sdiv s) (2 * Real.arccos q.w) = q2R q := by
    unfold IsUnit4 at hq
    ext <;> simp [rot, q2R, Real.sin_two_mul, Real.cos_two_mul, sin, cos, V4.vec] <;> field_simp <;> grind
  have φs := Fl.arccos_ge s0 ssq
  have φπ : Real.arccos q.w < Real.pi := lt_of_le_of_ne (Real.arccos_le_pi _) (by rw [Ne, Real.arccos_eq_pi]; linarith)
  have D0 : ε ≤ ε / s := by rw [le_div_iff₀ s0]; exact mul_le_of_le_one_right e0 s1
  have E0 : ε / s ≤ ε / s ^ 2 := by
    rw [pow_two, ← div_div, le_div_iff₀ s0]; exact mul_le_of_le_one_right (e0.trans D0) s1
  have E1 : ε / s ^ 2 ≤ 1 / 1000 := by rw [div_le_iff₀ (by positivity)]; linarith
  refine ⟨k', th', _, _, h1, hk, by linarith, by linarith, hr, h2, h3, ?_⟩
  have := Fl.rot_near' hk h2 (by linarith) h3
  rw [hr] at this
  exact Fl.MNear.mono this (by linarith)

/-- C64 for `slerp` in floating-point arithmetic: for quaternions within `ε` of unit quaternions `q0` and `q1`, `s` being the sine of the angle
between them, with `s` at least 2e-6 and `s²` at least `50000 ε`, and an interpolation parameter from 0 to 1, it returns finite numbers within
`6500 ε / s²` of the point at the fraction `t` of the arc from `q0` or `-q0` to `q1`, whichever is nearer (up to rounding, when both are equally
far).  Missing, because false (`C64_slerp_false`): quaternions nearer to each other. -/
theorem C64_slerp_rounding_partial {F : FSys} (hF : Spec.InvAcc F) (q0 q1 : V4 ℝ) (h0 : IsUnit4 q0) (h1 : IsUnit4 q1) (q0' q1' : V4 (Fl F))
    (ε : ℝ) (hu : F.u ≤ ε) (k0 : Spec.QNear q0' q0 ε) (k1 : Spec.QNear q1' q1 ε) (s : ℝ) (hs : s = Real.sqrt (1 - q0.dot q1 ^ 2))
    (hlo : 1 / 500000 ≤ s) (he : 50000 * ε ≤ s ^ 2) (hη : F.η ≤ F.u * (1 / 1000000)) (t : ℝ) (t0 : 0 ≤ t) (t1 : t ≤ 1) :
    ∃ q' q u0, slerp q0' q1' (.of t) = .ok q' ∧ (u0 = q0 ∨ u0 = -q0) ∧ -(302 * ε) ≤ u0.dot q1 ∧ IsUnit4 q ∧
      u0.dot q = Real.cos (t * Real.arccos (u0.dot q1)) ∧ q1.dot q = Real.cos ((1 - t) * Real.arccos (u0.dot q1)) ∧
      Spec.QNear q' q (6500 * (ε / s ^ 2)) := by
  have s0 : 0 < s := by linarith [hlo]
  have hd := h0.dot_le h1
  have nn : 0 ≤ 1 - q0.dot q1 ^ 2 := by
    have := (sq_le_one_iff_abs_le_one (q0.dot q1)).2 (abs_le.2 hd)
    linarith
  have ssq : q0.dot q1 * q0.dot q1 + s * s = 1 := by rw [hs, Real.mul_self_sqrt nn]; ring
  obtain ⟨q', u0, h2, h3, h4, h5⟩ := Fl.slerp_near hF h0 h1 hu k0 k1 ssq hlo he hη t0 t1
  have hu0 : IsUnit4 u0 ∧ u0.dot q1 * u0.dot q1 + s * s = 1 := by
    rcases h3 with rfl | rfl
    · exact ⟨h0, ssq⟩
    · exact ⟨h0.neg, by rw [show (-q0).dot q1 = -(q0.dot q1) by simp [V4.dot]; ring]; linarith⟩
  have cθ : u0.dot q1 = Real.cos (Real.arccos (u0.dot q1)) := (Real.cos_arccos (hu0.1.dot_le h1).1 (hu0.1.dot_le h1).2).symm
  obtain ⟨p1, p2, p3⟩ := slerpComb_props hu0.1 h1 cθ (by rw [Fl.sin_arccos_eq s0 hu0.2]; exact s0.ne') t
  exact ⟨q', _, u0, h2, h3, h4, p1, p2, p3, h5⟩

/-- Non-vacuity: in binary64 with a correctly rounded library, a half turn about x whose scalar part is off by 2⁻⁴⁰. -/
example : ∃ k' th', q2rot (⟨.of (2⁻¹ ^ 40), .of 1, .of 0, .of 0⟩ : V4 (Fl (b64 Libm.rounded))) = (.array k', th') ∧
    th'.Near Real.pi (23 * 2⁻¹ ^ 40) ∧ Spec.VNear k' ⟨1, 0, 0⟩ (60 * 2⁻¹ ^ 40) := by
  have hn : (V4.vec ⟨0, 1, 0, 0⟩ : V3 ℝ).norm = 1 := V3.norm_eq_one (by norm_num [IsUnit3, V4.vec])
  have hq : IsUnit4 (⟨0, 1, 0, 0⟩ : V4 ℝ) := by norm_num [IsUnit4]
  obtain ⟨k', th', h1, h2, h3⟩ := Fl.q2rot_near (F := b64 Libm.rounded) (ε := 2⁻¹ ^ 40) (s := 1) invAcc_rounded hq
    (q' := ⟨.of (2⁻¹ ^ 40), .of 1, .of 0, .of 0⟩)
    ⟨⟨_, rfl, by norm_num⟩, ⟨_, rfl, by norm_num⟩, ⟨_, rfl, by norm_num⟩, ⟨_, rfl, by norm_num⟩⟩ (by change (2⁻¹ : ℝ) ^ 50 ≤ _; norm_num)
    (by norm_num) (by norm_num) (by norm_num) (by
      change (2⁻¹ : ℝ) ^ 1075 ≤ 2⁻¹ ^ 50 * _
      have : (2⁻¹ : ℝ) ^ 1075 ≤ 2⁻¹ ^ 50 * 2⁻¹ ^ 70 := by rw [← pow_add]; exact pow_le_pow_of_le_one (by norm_num) (by norm_num) (by norm_num)
      exact this.trans (by norm_num))
  refine ⟨k', th', h1, ?_, ?_⟩
  · rw [Real.arccos_zero, show 2 * (Real.pi / 2) = Real.pi by ring] at h3
    exact h3.mono (by norm_num)
  · rw [show (V4.vec ⟨0, 1, 0, 0⟩ : V3 ℝ).sdiv 1 = ⟨1, 0, 0⟩ by ext <;> simp [V4.vec]] at h2
    exact Fl.VNear.mono h2 (by norm_num)

/-- Non-vacuity: in binary64, interpolation between the identity and a half turn about x. -/
example (t : ℝ) (t0 : 0 ≤ t) (t1 : t ≤ 1) : ∃ q' q, slerp (⟨.of 1, .of 0, .of 0, .of 0⟩ : V4 (Fl (b64 Libm.rounded)))
    ⟨.of 0, .of 1, .of 0, .of 0⟩ (.of t) = .ok q' ∧ IsUnit4 q ∧ Spec.QNear q' q (6500 * 2⁻¹ ^ 50) := by
  have hd : (⟨1, 0, 0, 0⟩ : V4 ℝ).dot ⟨0, 1, 0, 0⟩ = 0 := by norm_num [V4.dot]
  obtain ⟨q', q, u0, h1, -, -, h2, -, -, h3⟩ := C64_slerp_rounding_partial (F := b64 Libm.rounded) invAcc_rounded ⟨1, 0, 0, 0⟩ ⟨0, 1, 0, 0⟩
    (by norm_num [IsUnit4]) (by norm_num [IsUnit4]) ⟨.of 1, .of 0, .of 0, .of 0⟩ ⟨.of 0, .of 1, .of 0, .of 0⟩ (2⁻¹ ^ 50) le_rfl
    ⟨⟨_, rfl, by norm_num⟩, ⟨_, rfl, by norm_num⟩, ⟨_, rfl, by norm_num⟩, ⟨_, rfl, by norm_num⟩⟩
    ⟨⟨_, rfl, by norm_num⟩, ⟨_, rfl, by norm_num⟩, ⟨_, rfl, by norm_num⟩, ⟨_, rfl, by norm_num⟩⟩ 1 (by rw [hd]; norm_num)
    (by norm_num) (by norm_num) (by
      change (2⁻¹ : ℝ) ^ 1075 ≤ 2⁻¹ ^ 50 * _
      have : (2⁻¹ : ℝ) ^ 1075 ≤ 2⁻¹ ^ 50 * 2⁻¹ ^ 70 := by rw [← pow_add]; exact pow_le_pow_of_le_one (by norm_num) (by norm_num) (by norm_num)
      exact this.trans (by norm_num)) t t0 t1
  rw [one_pow, div_one] at h3
  exact ⟨q', q, h1, h2, h3⟩
