import Verif.Lemmas.B64
import Verif.Lemmas.FlQuat
import Verif.Props.AxisAngle

/-! # Properties C63 and C64: conversions of rotations in floating-point arithmetic and on inputs with rounding errors -/
set_option autoImplicit false

open R2rotL

/-- C63: `R2q` in floating-point arithmetic, on a matrix within `ε` of a rotation `R` (`ε` at least the rounding unit), raises nothing and
returns finite numbers within `41 ε` of a unit quaternion of `R`: the four branches together have no ill-conditioned input. -/
theorem C63_R2q_rounding {F : FSys} (R : M3 ℝ) (hR : IsRot R) (R' : M3 (Fl F)) (ε : ℝ) (hu : F.u ≤ ε) (hε : ε ≤ 1 / 1000)
    (h : Spec.MNear R' R ε) : ∃ q' q, R2q R' = .ok q' ∧ IsUnit4 q ∧ q2R q = R ∧ Spec.QNear q' q (41 * ε) := by
  obtain ⟨C, rfl, hC⟩ := Fl.mNear_iff.1 h
  obtain ⟨⟨r00, r10, r20⟩, ⟨r01, r11, r21⟩, r02, r12, r22⟩ := hC.entries
  rw [← one_mul ε] at r00 r10 r20 r01 r11 r21 r02 r12 r22
  exact Fl.R2q_near hR hu hε ⟨_, rfl, r00⟩ ⟨_, rfl, r01⟩ ⟨_, rfl, r02⟩ ⟨_, rfl, r10⟩ ⟨_, rfl, r11⟩ ⟨_, rfl, r12⟩ ⟨_, rfl, r20⟩ ⟨_, rfl, r21⟩
    ⟨_, rfl, r22⟩

/-- C63: `q2R` in floating-point arithmetic, on a quaternion within `ε` of a unit quaternion. -/
theorem C63_q2R_rounding {F : FSys} (q : V4 ℝ) (hq : IsUnit4 q) (q' : V4 (Fl F)) (ε : ℝ) (hu : F.u ≤ ε) (hε : ε ≤ 1 / 1000)
    (h : Spec.QNear q' q ε) : Spec.MNear (q2R q') (q2R q) (222 * ε) :=
  Fl.q2R_near hq hu hε h

/-- C63: the round trip through a quaternion. -/
theorem C63_roundtrip {F : FSys} (R : M3 ℝ) (hR : IsRot R) (R' : M3 (Fl F)) (ε : ℝ) (hu : F.u ≤ ε) (hε : 41 * ε ≤ 1 / 1000)
    (h : Spec.MNear R' R ε) : ∃ q', R2q R' = .ok q' ∧ Spec.MNear (q2R q') R (9102 * ε) := by
  have h0 := F.u_nonneg
  obtain ⟨q', q, h1, h2, h3, h4⟩ := C63_R2q_rounding R hR R' ε hu (by linarith) h
  refine ⟨q', h1, ?_⟩
  have := C63_q2R_rounding q h2 q' (41 * ε) (by linarith) hε h4
  rw [h3] at this
  exact Fl.MNear.mono this (by linarith)

/-- Non-vacuity of C63: the quarter turn about z with one entry off by 2⁻⁴⁰, in binary64. -/
example (lib : Libm) : ∃ q', R2q (⟨.of 0, .of (-1), .of 0, .of 1, .of (2⁻¹ ^ 40), .of 0, .of 0, .of 0, .of 1⟩ : M3 (Fl (b64 lib))) = .ok q' ∧
    Spec.MNear (q2R q') ⟨0, -1, 0, 1, 0, 0, 0, 0, 1⟩ (9102 * 2⁻¹ ^ 40) := by
  refine C63_roundtrip _ ⟨by ext <;> simp, by norm_num [M3.det]⟩ _ (2⁻¹ ^ 40) ?_ (by norm_num) ?_
  · change (2⁻¹ : ℝ) ^ 50 ≤ _
    norm_num
  · refine ⟨⟨0, -1, 0, 1, 2⁻¹ ^ 40, 0, 0, 0, 1⟩, rfl, fun v => ?_⟩
    have : M3.mulVec ⟨0, -1, 0, 1, 2⁻¹ ^ 40, 0, 0, 0, 1⟩ v - M3.mulVec ⟨0, -1, 0, 1, 0, 0, 0, 0, 1⟩ v = (⟨0, 2⁻¹ ^ 40 * v.y, 0⟩ : V3 ℝ) := by
      ext <;> simp
    rw [this, V3.norm_eq, show (⟨0, 2⁻¹ ^ 40 * v.y, 0⟩ : V3 ℝ).dot ⟨0, 2⁻¹ ^ 40 * v.y, 0⟩ = (2⁻¹ ^ 40 * v.y) ^ 2 by simp [V3.dot]; ring,
      Real.sqrt_sq_eq_abs, abs_mul, abs_of_pos (by positivity : (0 : ℝ) < 2⁻¹ ^ 40)]
    exact mul_le_mul_of_nonneg_left (V3.abs_y_le v) (by positivity)

/-- C64 (counterexample): in IEEE double precision, with any accurate sine and cosine, `slerp` of (3, 3, 0, 0) with itself is NaN in every
component, for every interpolation parameter: the inner product of the normalised quaternions rounds to 1 + 2⁻⁵². -/
theorem C64_slerp_false (lib : Libm) (t : Fl (b64 lib)) (ht : 0 ≤ t ∧ t ≤ 1) :
    slerp (⟨.of 3, .of 3, .of 0, .of 0⟩ : V4 (Fl (b64 lib))) ⟨.of 3, .of 3, .of 0, .of 0⟩ t =
      .ok ⟨⟨.nan⟩, ⟨.nan⟩, ⟨.nan⟩, ⟨.nan⟩⟩ := slerp_nan lib t ht

/-- Non-vacuity: interpolation parameters exist. -/
example (lib : Libm) : (0 : Fl (b64 lib)) ≤ 0 ∧ (0 : Fl (b64 lib)) ≤ 1 :=
  ⟨show (0 : ℝ) ≤ 0 from le_rfl, show (0 : ℝ) ≤ 1 from zero_le_one⟩

/-- C64 (counterexample): `q2rot` of a quaternion whose scalar part exceeds 1 by however little is NaN in every component. -/
theorem C64_q2rot_false (q : V4 ℝ) (h : 1 < q.w) : q2rot q.up = (.array ⟨.nan, .nan, .nan⟩, .nan) := by
  have h1 : (Elem.arccos q.up.w : XReal) = .nan := by
    change XReal.onFin _ _ (.fin q.w) = _
    simp only [XReal.onFin]
    rw [if_neg]
    intro h'
    linarith [h'.2]
  have h2 : (lit 2 * XReal.nan : XReal) = .nan := rfl
  have h3 : ¬ (Elem.abs XReal.nan < (lit (1/1000000) : XReal)) := fun h => by cases h
  have h4 : (XReal.nan / lit 2 : XReal) = .nan := rfl
  have h5 : (Elem.sin XReal.nan : XReal) = .nan := rfl
  have h6 : ∀ x : ℝ, (XReal.fin x / XReal.nan : XReal) = .nan := fun _ => rfl
  unfold q2rot
  dsimp only
  rw [h1, h2, if_neg h3, h4, h5]
  simp only [V3.sdiv, V4.up, V4.map, V4.vec, h6]

/-- Such quaternions come out of `quatproduct`: in binary64 the product of the normalised (3, 3, 0, 0) with its complement has scalar part
1 + 2⁻⁵². -/
theorem C64_quatproduct_exceeds_one (lib : Libm) :
    let q := V4.sdiv (⟨.of 3, .of 3, .of 0, .of 0⟩ : V4 (Fl (b64 lib))) (V4.norm ⟨.of 3, .of 3, .of 0, .of 0⟩)
    ((quatproduct q).mulVec (quatcomplement q)).w = .of (1 + 2⁻¹ ^ 52) := by
  have sb {y : ℝ} (h : |y| ≤ 1000) := small_le_big lib h
  have lm : (lit (-1) : Fl (b64 lib)) = .of (-1) := congrArg Fl.mk (Fl.round_of (by
    change B64.rnd _ = _
    rw [B64.rnd_exact (-2 ^ 52) (-52)] <;> norm_num) (sb (by norm_num)))
  have hq : (Fl.of (-1) * Fl.of quo : Fl (b64 lib)) = .of (-quo) :=
    Fl.mul_of (by
      change B64.rnd _ = _
      rw [B64.rnd_exact (-6369051672525773) (-53)] <;> norm_num [quo]) (sb (by norm_num [quo, abs_le]))
  have h0 : ∀ a b : ℝ, a * b = 0 → (Fl.of a * Fl.of b : Fl (b64 lib)) = .of 0 := fun a b h =>
    Fl.mul_of (by rw [h]; exact B64.rnd_zero) (sb (by norm_num))
  have hp : (Fl.of (-quo) * Fl.of (-quo) : Fl (b64 lib)) = .of (4503599627370497 * 2⁻¹ ^ 53) := by
    rw [← mul_quo lib]
    change Fl.mk ((b64 lib).round (.fin (-quo * -quo))) = Fl.mk ((b64 lib).round (.fin (quo * quo)))
    rw [neg_mul_neg]
  have hs0 : (Fl.of (4503599627370497 * 2⁻¹ ^ 53) + Fl.of 0 : Fl (b64 lib)) = .of (4503599627370497 * 2⁻¹ ^ 53) :=
    Fl.add_of (by
      change B64.rnd _ = _
      rw [B64.rnd_exact 4503599627370497 (-53)] <;> norm_num) (sb (by norm_num [abs_le]))
  have hs : (Fl.of (4503599627370497 * 2⁻¹ ^ 53) + Fl.of (4503599627370497 * 2⁻¹ ^ 53) : Fl (b64 lib)) = .of (4503599627370497 * 2⁻¹ ^ 52) :=
    Fl.add_of (by
      change B64.rnd _ = _
      rw [B64.rnd_exact 4503599627370497 (-52)] <;> norm_num) (sb (by norm_num [abs_le]))
  have hn : ∀ a : ℝ, (-Fl.of a : Fl (b64 lib)) = .of (-a) := fun _ => rfl
  intro q
  have hd : q = ⟨.of quo, .of quo, .of 0, .of 0⟩ := by
    change V4.sdiv _ _ = _
    rw [norm_3300]
    simp only [V4.sdiv, div_nrm lib, zero_nrm lib]
  rw [hd]
  simp only [quatproduct, quatcomplement, M4.mulVec, V4.vec, V3.dot, V3.neg_x, V3.neg_y, V3.neg_z, lm, hq, hn, neg_zero, mul_quo lib, hp,
    h0 (-1) 0 (by ring), h0 0 0 (by ring), hs0, hs]
  norm_num

/-- C64 (counterexample): `R2rot` of a half turn about z whose first entry is below -1 by however little has an axis with a NaN. -/
theorem C64_R2rot_false (e : ℝ) (he : 0 < e) :
    R2rot (⟨-1 - e, 0, 0, 0, -1, 0, 0, 0, 1⟩ : M3 ℝ).up = (.array ⟨.nan, .fin 0, .fin 1⟩, .fin Real.pi) := by
  have hs : s (⟨-1 - e, 0, 0, 0, -1, 0, 0, 0, 1⟩ : M3 ℝ) < 1/1000000 := by
    have h4 : s (⟨-1 - e, 0, 0, 0, -1, 0, 0, 0, 1⟩ : M3 ℝ) = 0 := by simp [s, M3.frob]
    rw [h4]; norm_num
  have hc : ¬ 0 < c (⟨-1 - e, 0, 0, 0, -1, 0, 0, 0, 1⟩ : M3 ℝ) := by
    simp [c, M3.trace]; linarith
  rw [eval_band _ hs, if_neg hc]
  have b0 : (M3.smul (1/2) ((⟨-1 - e, 0, 0, 0, -1, 0, 0, 0, 1⟩ : M3 ℝ) + 1)).a00 = -e / 2 := by simp; ring
  have b1 : (M3.smul (1/2) ((⟨-1 - e, 0, 0, 0, -1, 0, 0, 0, 1⟩ : M3 ℝ) + 1)).a11 = 0 := by simp
  have b2 : (M3.smul (1/2) ((⟨-1 - e, 0, 0, 0, -1, 0, 0, 0, 1⟩ : M3 ℝ) + 1)).a22 = 1 := by simp; norm_num
  have k0 : (Elem.sqrt (XReal.fin (-e / 2))) = .nan := by
    change (if 0 ≤ -e / 2 then XReal.fin (Real.sqrt (-e / 2)) else .nan) = _
    rw [if_neg (by linarith)]
  dsimp only
  rw [b0, b1, b2, k0, XReal.sqrt_fin le_rfl, XReal.sqrt_fin zero_le_one, Real.sqrt_zero, Real.sqrt_one,
    if_neg (show ¬ (XReal.fin (1/1000000) < Elem.abs XReal.nan) from fun h => by cases h), XReal.abs_fin,
    if_neg (by rw [XReal.fin_lt, abs_zero]; norm_num)]

/-- C64, the part that holds: `q2rot` of a quaternion whose components are within `ε` of those of a unit quaternion of a rotation that is
not too small is finite, its angle is the one of the given scalar part and its axis is within `3 ε / s²` of the exact one, `s` being the
sine of half the rotation angle.  Missing, because false: `s` below `4 √ε`, `slerp` of near quaternions, `R2rot` of near half turns. -/
theorem C64_q2rot_partial (q₀ q : V4 ℝ) (h0 : IsUnit4 q₀) (ε : ℝ) (hw : |q.w - q₀.w| ≤ ε) (hx : |q.x - q₀.x| ≤ ε) (hy : |q.y - q₀.y| ≤ ε)
    (hz : |q.z - q₀.z| ≤ ε) (hs : 1/1000000 ≤ q₀.vec.norm) (hε : 16 * ε ≤ q₀.vec.norm ^ 2) :
    ∃ (k : V3 ℝ) (θ : ℝ), q2rot q.up = (.array k.up, .fin θ) ∧ 0 < θ ∧ θ < 2 * Real.pi ∧ Real.cos (θ / 2) = q.w ∧
      |k.x - q₀.x / q₀.vec.norm| ≤ 3 * ε / q₀.vec.norm ^ 2 ∧ |k.y - q₀.y / q₀.vec.norm| ≤ 3 * ε / q₀.vec.norm ^ 2 ∧
      |k.z - q₀.z / q₀.vec.norm| ≤ 3 * ε / q₀.vec.norm ^ 2 := by
  set s := q₀.vec.norm with hsdef
  have ε0 : 0 ≤ ε := (abs_nonneg _).trans hw
  have s0 : 0 < s := by linarith
  have ssq : s ^ 2 = 1 - q₀.w ^ 2 := by
    rw [hsdef, V3.norm_sq]
    unfold IsUnit4 at h0
    simp only [V3.dot, V4.vec]
    linarith
  have s1 : s ≤ 1 := by nlinarith [sq_nonneg q₀.w]
  have ε1 : ε ≤ 1 / 16 := by nlinarith
  have w0 : |q₀.w| ≤ 1 := by rw [← sq_le_one_iff_abs_le_one]; nlinarith
  obtain ⟨w0a, w0b⟩ := abs_le.1 w0
  obtain ⟨hwa, hwb⟩ := abs_le.1 hw
  have m2 : |(1 - q.w ^ 2) - s ^ 2| ≤ 3 * ε := by
    rw [ssq, abs_le]
    constructor <;> nlinarith
  obtain ⟨m2a, m2b⟩ := abs_le.1 m2
  have mpos : 0 < 1 - q.w ^ 2 := by nlinarith
  set m := Real.sqrt (1 - q.w ^ 2) with hm
  have msq : m ^ 2 = 1 - q.w ^ 2 := Real.sq_sqrt mpos.le
  have m0 : 0 < m := Real.sqrt_pos.2 mpos
  have ms : 9 / 10 * s ≤ m := by
    refine Real.le_sqrt_of_sq_le ?_
    nlinarith
  have wlt : -1 < q.w ∧ q.w < 1 := by constructor <;> nlinarith
  have hac : m ≤ Real.arccos q.w := by
    rw [hm, ← Real.sin_arccos]
    exact Real.sin_le (Real.arccos_nonneg _)
  have ev := q2rot_eval q wlt.1 wlt.2.le (by linarith)
  have hms : |m - s| ≤ 3 * ε / (19 / 10 * s) := by
    rw [le_div_iff₀ (by linarith)]
    have e : |m - s| * (m + s) = |m ^ 2 - s ^ 2| := by
      have hp : |m - s| * |m + s| = |m ^ 2 - s ^ 2| := by rw [← abs_mul]; congr 1; ring
      rwa [abs_of_pos (add_pos m0 s0)] at hp
    have : |m - s| * (19 / 10 * s) ≤ |m - s| * (m + s) := mul_le_mul_of_nonneg_left (by linarith) (abs_nonneg _)
    rw [msq] at e
    linarith
  have comp : ∀ a a₀ : ℝ, |a - a₀| ≤ ε → |a₀| ≤ s → |a / m - a₀ / s| ≤ 3 * ε / s ^ 2 := by
    intro a a₀ ha ha0
    have e1 : a / m - a₀ / s = (a - a₀) / m - a₀ / s * ((m - s) / m) := by field_simp; ring
    have t1 : |(a - a₀) / m| ≤ ε / (9 / 10 * s) := by
      rw [abs_div, abs_of_pos m0]
      exact div_le_div₀ ε0 ha (by linarith) ms
    have t2 : |a₀ / s| ≤ 1 := by rw [abs_div, abs_of_pos s0, div_le_one s0]; exact ha0
    have t3 : |(m - s) / m| ≤ 3 * ε / (19 / 10 * s) / (9 / 10 * s) := by
      rw [abs_div, abs_of_pos m0]
      exact div_le_div₀ (by positivity) hms (by linarith) ms
    have t4 : |a₀ / s * ((m - s) / m)| ≤ 3 * ε / (19 / 10 * s) / (9 / 10 * s) := by
      rw [abs_mul]
      calc _ ≤ 1 * |(m - s) / m| := mul_le_mul_of_nonneg_right t2 (abs_nonneg _)
        _ ≤ _ := by rw [one_mul]; exact t3
    rw [e1]
    refine (abs_sub _ _).trans ?_
    refine (add_le_add t1 t4).trans ?_
    have : ε / (9 / 10 * s) + 3 * ε / (19 / 10 * s) / (9 / 10 * s) = (10 / 9 * s + 300 / 171) * ε / s ^ 2 := by field_simp; ring
    rw [this]
    refine div_le_div_of_nonneg_right (mul_le_mul_of_nonneg_right (by linarith) ε0) (by positivity)
  have vx := V3.abs_x_le q₀.vec
  have vy := V3.abs_y_le q₀.vec
  have vz := V3.abs_z_le q₀.vec
  refine ⟨_, _, ev, by linarith, ?_, ?_, comp _ _ hx vx, comp _ _ hy vy, comp _ _ hz vz⟩
  · have := Real.arccos_le_pi q.w
    have h' : Real.arccos q.w ≠ Real.pi := by
      rw [Ne, Real.arccos_eq_pi]
      linarith [wlt.1]
    have := lt_of_le_of_ne this h'
    linarith
  · rw [show 2 * Real.arccos q.w / 2 = Real.arccos q.w by ring]
    exact Real.cos_arccos wlt.1.le wlt.2.le

/-- Non-vacuity of `C64_q2rot_partial`: a half turn about x with an error of 1/100 in the scalar part. -/
example : ∃ (k : V3 ℝ) (θ : ℝ), q2rot (⟨1/100, 1, 0, 0⟩ : V4 ℝ).up = (.array k.up, .fin θ) ∧ |k.x - 1| ≤ 3/100 := by
  have hn : (V4.vec ⟨0, 1, 0, 0⟩ : V3 ℝ).norm = 1 := V3.norm_eq_one (by norm_num [IsUnit3, V4.vec])
  obtain ⟨k, θ, h, -, -, -, hx, -⟩ := C64_q2rot_partial ⟨0, 1, 0, 0⟩ ⟨1/100, 1, 0, 0⟩ (by norm_num [IsUnit4]) (1/100) (by norm_num)
    (by norm_num) (by norm_num) (by norm_num) (by rw [hn]; norm_num) (by rw [hn]; norm_num)
  rw [hn] at hx
  norm_num at hx ⊢
  exact ⟨k, ⟨θ, h⟩, hx⟩
