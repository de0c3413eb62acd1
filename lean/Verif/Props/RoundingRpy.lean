import Verif.B64
import Verif.Lemmas.FlRpy
import Verif.Props.Rpy

/-! # Property C72: roll/pitch/yaw conversions in floating-point arithmetic -/
set_option autoImplicit false

/-- C72: `rpy2R` in floating-point arithmetic, on angles known up to `d` and whole turns, raises nothing, is finite and is within
`7 d + 750 u` of the exact matrix of the exact angles. -/
theorem C72_rpy2R_rounding {F : FSys} (rpy : V3 ℝ) (rpy' : V3 (Fl F)) (d : ℝ) (hx : Spec.AngNear rpy'.x rpy.x d)
    (hy : Spec.AngNear rpy'.y rpy.y d) (hz : Spec.AngNear rpy'.z rpy.z d) (hd : 2 * d + 210 * F.u ≤ 1 / 100) :
    Spec.MNear (rpy2R rpy') (rpy2R rpy) (7 * d + 750 * F.u) := Fl.rpy2R_near hx hy hz hd

/-- C72, the part that holds: `R2rpy` in floating-point arithmetic, on a matrix within `ε` of a rotation `R` whose pitch has cosine `c` at
least `64 ε` (and twice the threshold of the code), does not raise; it returns finite angles, the pitch within `60 ε` and roll and yaw within
`4 ε / c` (plus a rounding unit, up to whole turns) of angles of `R`.  Missing, because false (`C72_gimbal_false`): an error of the order of
`ε` whenever the code does not raise. -/
theorem C72_R2rpy_rounding_partial {F : FSys} (hF : Spec.InvAcc F) (R : M3 ℝ) (hR : IsRot R) (R' : M3 (Fl F)) (ε : ℝ) (hu : F.u ≤ ε)
    (h : Spec.MNear R' R ε) (c : ℝ) (hc : c = Real.sqrt (R.a00 * R.a00 + R.a10 * R.a10)) (hlo : 1 / 250000000000000 ≤ c) (he : 64 * ε ≤ c)
    (hη : F.η ≤ F.u * c) :
    ∃ rpy' rpy, R2rpy R' = .ok rpy' ∧ rpy2R rpy = R ∧ Spec.AngNear rpy'.x rpy.x (4 * ε / c + F.u) ∧
      Spec.AngNear rpy'.y rpy.y (60 * ε + F.u) ∧ Spec.AngNear rpy'.z rpy.z (4 * ε / c + F.u) := by
  obtain ⟨rpy', h1, h2, h3, h4⟩ := Fl.R2rpy_near hF hR h hu hc hlo he hη
  have heq : R.a21 * R.a21 + R.a22 * R.a22 = R.a00 * R.a00 + R.a10 * R.a10 := by
    obtain ⟨c1, c2, c3, c4, c5, c6⟩ := hR.colEqs
    obtain ⟨r1, r2, r3, r4, r5, r6⟩ := hR.rowEqs
    grind
  obtain ⟨rpy, k1, k2, -⟩ := C10_rpy2R_R2rpy R hR (by rw [← hc, npEps_real]; linarith)
  rw [R2rpy_eval R (by rw [← hc, npEps_real]; linarith)] at k1
  have k3 : rpy = ⟨Complex.arg ⟨R.a22, R.a21⟩, Complex.arg ⟨Real.sqrt (R.a21 * R.a21 + R.a22 * R.a22), -R.a20⟩, Complex.arg ⟨R.a00, R.a10⟩⟩ := by
    have := Except.ok.inj k1
    exact (V3.up_inj this).symm
  rw [heq, ← hc] at k3
  subst k3
  exact ⟨rpy', _, h1, k2, h2, h3, h4⟩

/-- C72, the part that holds: the rotation recovered from the angles, for a cosine of the pitch of at least `40000 ε`. -/
theorem C72_roundtrip_partial {F : FSys} (hF : Spec.InvAcc F) (R : M3 ℝ) (hR : IsRot R) (R' : M3 (Fl F)) (ε : ℝ) (hu : F.u ≤ ε)
    (h : Spec.MNear R' R ε) (c : ℝ) (hc : c = Real.sqrt (R.a00 * R.a00 + R.a10 * R.a10)) (hlo : 1 / 250000000000000 ≤ c) (he : 40000 * ε ≤ c)
    (hη : F.η ≤ F.u * c) : ∃ rpy', R2rpy R' = .ok rpy' ∧ Spec.MNear (rpy2R rpy') R (1200 * ε / c) := by
  have u0 := F.u_nonneg
  have e0 : 0 ≤ ε := u0.trans hu
  have c0 : 0 < c := by linarith [hlo]
  have c1 : c ≤ 1 := by
    rw [hc]
    refine Real.sqrt_le_one.2 ?_
    obtain ⟨c1, -⟩ := hR.colEqs
    have := mul_self_nonneg R.a20
    linarith
  obtain ⟨rpy', rpy, h1, h2, h3, h4, h5⟩ := C72_R2rpy_rounding_partial hF R hR R' ε hu h c hc hlo (by linarith) hη
  have q0 : ε ≤ ε / c := by rw [le_div_iff₀ c0]; exact mul_le_of_le_one_right e0 c1
  have q1 : ε / c ≤ 1 / 40000 := by rw [div_le_div_iff₀ c0 (by norm_num)]; linarith
  have weak : ∀ {a : Fl F} {θ d e : ℝ}, Spec.AngNear a θ d → d ≤ e → Spec.AngNear a θ e := fun ⟨n, hn⟩ hde => ⟨n, hn.mono hde⟩
  have e4 : 4 * ε / c = 4 * (ε / c) := by ring
  have := C72_rpy2R_rounding rpy rpy' (60 * (ε / c) + F.u) (weak h3 (by rw [e4]; linarith)) (weak h4 (by linarith))
    (weak h5 (by rw [e4]; linarith)) (by linarith)
  rw [h2] at this
  refine ⟨rpy', h1, Fl.MNear.mono this ?_⟩
  rw [show 1200 * ε / c = 1200 * (ε / c) by ring]
  linarith

/-- C72 (counterexample): the check of `R2rpy` lets matrices through whose angles have no correct digit.  For every `c` above the threshold
there is a matrix within `c` of a rotation, for which `R2rpy` returns angles whose matrix is off by more than 1/2 in one entry; `c` may be
as small as 2·10⁻¹⁵, nine units in the last place of 1. -/
theorem C72_gimbal_false (c : ℝ) (hc : npEps * 10 < c) (hc1 : c ≤ 1) :
    ∃ (R R' : M3 ℝ) (rpy : V3 ℝ), IsRot R ∧ (∀ v, (R'.mulVec v - R.mulVec v).norm ≤ c * v.norm) ∧ R2rpy R'.up = .ok rpy.up ∧
      1 / 2 < |(rpy2R rpy).a01 - R.a01| := by
  have c0 : 0 < c := lt_trans (mul_pos npEps_pos (by norm_num)) hc
  have hs : Real.sqrt (1 - c ^ 2) * Real.sqrt (1 - c ^ 2) = 1 - c ^ 2 := Real.mul_self_sqrt (by nlinarith)
  generalize Real.sqrt (1 - c ^ 2) = s at hs
  have h1 : npEps * 10 < Real.sqrt (c * c + c * c) := hc.trans_le (Real.le_sqrt_of_sq_le (by nlinarith))
  refine ⟨⟨c, 0, s, 0, 1, 0, -s, 0, c⟩, ⟨c, 0, s, c, 1, 0, -s, 0, c⟩, _, ⟨?_, ?_⟩, ?_, R2rpy_eval _ h1, ?_⟩
  · ext <;> simp <;> nlinarith
  · simp only [M3.det]; nlinarith
  · intro v
    rw [show M3.mulVec ⟨c, 0, s, c, 1, 0, -s, 0, c⟩ v - M3.mulVec ⟨c, 0, s, 0, 1, 0, -s, 0, c⟩ v = (⟨0, c * v.x, 0⟩ : V3 ℝ) by ext <;> simp,
      V3.norm_eq, show (⟨0, c * v.x, 0⟩ : V3 ℝ).dot ⟨0, c * v.x, 0⟩ = (c * v.x) ^ 2 by simp [V3.dot]; ring, Real.sqrt_sq_eq_abs, abs_mul,
      abs_of_pos c0]
    exact mul_le_mul_of_nonneg_left (V3.abs_x_le v) c0.le
  · have e1 : Complex.arg ⟨c, 0⟩ = 0 := by
      have := arg_polar c0 (θ := 0) (by linarith [Real.pi_pos]) Real.pi_pos.le
      simpa using this
    have e2 : Complex.arg ⟨c, c⟩ = Real.pi / 4 := by
      have hp := Real.pi_pos
      have := arg_polar (r := c * Real.sqrt 2) (θ := Real.pi / 4) (by positivity) (by linarith) (by linarith)
      rw [Real.cos_pi_div_four, Real.sin_pi_div_four,
        show c * Real.sqrt 2 * (Real.sqrt 2 / 2) = c by have := Real.mul_self_sqrt (show (0 : ℝ) ≤ 2 by norm_num); linear_combination c / 2 * this]
        at this
      exact this
    rw [C10_rpy2R_entries]
    dsimp only
    rw [e1, e2, Real.sin_zero, Real.cos_zero, Real.sin_pi_div_four]
    have h2 : (1 : ℝ) < Real.sqrt 2 := by rw [Real.lt_sqrt (by norm_num)]; norm_num
    rw [show Real.cos (Real.pi / 4) * Real.sin (Complex.arg ⟨Real.sqrt (0 * 0 + c * c), - -s⟩) * 0 - Real.sqrt 2 / 2 * 1 - 0 = -(Real.sqrt 2 / 2)
      by ring, abs_neg, abs_of_pos (by linarith)]
    linarith

/-- Non-vacuity of `C72_gimbal_false`: nine units in the last place of 1. -/
example : npEps * 10 < (1 / 400000000000000 : ℝ) ∧ (1 / 400000000000000 : ℝ) ≤ 1 := by rw [npEps_real]; norm_num

/-- A library whose functions are the exact ones, correctly rounded. -/
noncomputable def Libm.rounded : Libm where
  sinF x := B64.rnd (Real.sin x)
  cosF x := B64.rnd (Real.cos x)
  arccosF x := B64.rnd (Real.arccos x)
  arcsinF x := B64.rnd (Real.arcsin x)
  arctan2F y x := B64.rnd (Complex.arg ⟨x, y⟩)
  sin_err x := B64.rnd_abs_err ((Real.abs_sin_le_one x).trans (by norm_num))
  cos_err x := B64.rnd_abs_err ((Real.abs_cos_le_one x).trans (by norm_num))

/-- Non-vacuity of the accuracy assumption: binary64 with a correctly rounded library satisfies it. -/
theorem invAcc_rounded : Spec.InvAcc (b64 Libm.rounded) where
  arccos x _ _ := B64.rnd_abs_err (by
    rw [abs_of_nonneg (Real.arccos_nonneg x)]
    linarith [Real.arccos_le_pi x, Real.pi_le_four])
  arcsin x _ _ := B64.rnd_abs_err (by
    have h1 := Real.arcsin_le_pi_div_two x
    have h2 := Real.neg_pi_div_two_le_arcsin x
    have h3 := Real.pi_le_four
    exact abs_le.2 ⟨by linarith, by linarith⟩)
  arctan2 y x _ := ⟨0, by
    simp only [Int.cast_zero, zero_mul, sub_zero]
    exact B64.rnd_abs_err ((Complex.abs_arg_le_pi _).trans Real.pi_le_four)⟩
  arctan2_le y x := by
    have h1 := Complex.abs_arg_le_pi ⟨x, y⟩
    have h2 := B64.rnd_abs_err (h1.trans Real.pi_le_four)
    have h3 := Real.pi_lt_d2
    change |B64.rnd (Complex.arg ⟨x, y⟩)| ≤ 16 / 5
    rw [show B64.rnd (Complex.arg ⟨x, y⟩) = (B64.rnd (Complex.arg ⟨x, y⟩) - Complex.arg ⟨x, y⟩) + Complex.arg ⟨x, y⟩ by ring]
    refine (abs_add_le _ _).trans ((add_le_add h2 h1).trans ?_)
    norm_num at h3 ⊢
    linarith
  arctan2_zero := by
    change |B64.rnd (Complex.arg ⟨0, 0⟩)| ≤ 3 / 2
    have e : (⟨0, 0⟩ : ℂ) = 0 := rfl
    have h := B64.rnd_abs_err (x := 0) (by norm_num)
    rw [e, Complex.arg_zero]
    rw [sub_zero] at h
    exact h.trans (by norm_num)

/-- Non-vacuity of C72: in binary64 with a correctly rounded library, a quarter turn about z with one entry off by 2⁻⁴⁰. -/
example : ∃ rpy', R2rpy (⟨.of 0, .of (-1), .of 0, .of 1, .of (2⁻¹ ^ 40), .of 0, .of 0, .of 0, .of 1⟩ : M3 (Fl (b64 Libm.rounded))) = .ok rpy' ∧
    Spec.MNear (rpy2R rpy') ⟨0, -1, 0, 1, 0, 0, 0, 0, 1⟩ (1200 * 2⁻¹ ^ 40) := by
  have := C72_roundtrip_partial invAcc_rounded ⟨0, -1, 0, 1, 0, 0, 0, 0, 1⟩ ⟨by ext <;> simp, by norm_num [M3.det]⟩
    ⟨.of 0, .of (-1), .of 0, .of 1, .of (2⁻¹ ^ 40), .of 0, .of 0, .of 0, .of 1⟩ (2⁻¹ ^ 40) (by change (2⁻¹ : ℝ) ^ 50 ≤ _; norm_num)
    (by
      refine ⟨⟨0, -1, 0, 1, 2⁻¹ ^ 40, 0, 0, 0, 1⟩, rfl, fun v => ?_⟩
      have : M3.mulVec ⟨0, -1, 0, 1, 2⁻¹ ^ 40, 0, 0, 0, 1⟩ v - M3.mulVec ⟨0, -1, 0, 1, 0, 0, 0, 0, 1⟩ v = (⟨0, 2⁻¹ ^ 40 * v.y, 0⟩ : V3 ℝ) := by
        ext <;> simp
      rw [this, V3.norm_eq, show (⟨0, 2⁻¹ ^ 40 * v.y, 0⟩ : V3 ℝ).dot ⟨0, 2⁻¹ ^ 40 * v.y, 0⟩ = (2⁻¹ ^ 40 * v.y) ^ 2 by simp [V3.dot]; ring,
        Real.sqrt_sq_eq_abs, abs_mul, abs_of_pos (by positivity : (0 : ℝ) < 2⁻¹ ^ 40)]
      exact mul_le_mul_of_nonneg_left (V3.abs_y_le v) (by positivity)) 1 (by norm_num) (by norm_num) (by norm_num)
    (by change (2⁻¹ : ℝ) ^ 1075 ≤ 2⁻¹ ^ 50 * 1; rw [mul_one]; exact pow_le_pow_of_le_one (by norm_num) (by norm_num) (by norm_num))
  simpa using this
