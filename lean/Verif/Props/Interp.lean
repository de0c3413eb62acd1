import Verif.Props.Quaternion
import Verif.Props.Rotation

/-!
# Property C113: what a motion interpolated with `slerp` looks like

Stated on the `XReal` instance, like C11.  `arcAngle` is the angle of C11: half the angle of the rotation from the start to the end.
-/
set_option autoImplicit false

/-! ## Helper lemmas -/

namespace InterpL

/-- the direction in which the interpolation leaves its start -/
noncomputable def dir (u0 u1 : V4 ℝ) (θ : ℝ) : V4 ℝ := (u1 + -(V4.smul (Real.cos θ) u0)).sdiv (Real.sin θ)

theorem comb_eq (u0 u1 : V4 ℝ) {θ : ℝ} (hs : Real.sin θ ≠ 0) (s : ℝ) :
    slerpComb u0 u1 θ s = V4.smul (Real.cos (s * θ)) u0 + V4.smul (Real.sin (s * θ)) (dir u0 u1 θ) := by
  have e : Real.sin ((1 - s) * θ) = Real.sin θ * Real.cos (s * θ) - Real.cos θ * Real.sin (s * θ) := by
    rw [← Real.sin_sub]; congr 1; ring
  ext <;> simp [slerpComb, dir, e] <;> field_simp <;> ring

theorem dir_unit {u0 u1 : V4 ℝ} (h0 : IsUnit4 u0) (h1 : IsUnit4 u1) {θ : ℝ} (hc : u0.dot u1 = Real.cos θ) (hs : Real.sin θ ≠ 0) :
    IsUnit4 (dir u0 u1 θ) ∧ u0.dot (dir u0 u1 θ) = 0 := by
  have p1 := Real.sin_sq_add_cos_sq θ
  unfold IsUnit4 at h0 h1
  unfold V4.dot at hc
  constructor
  · simp [IsUnit4, dir]; field_simp; grind
  · simp [V4.dot, dir]; field_simp; grind

/-- `slerp` outside the band -/
theorem slerp_ok {q0 q1 : V4 ℝ} (h0 : q0 ≠ ⟨0, 0, 0, 0⟩) (h1 : q1 ≠ ⟨0, 0, 0, 0⟩) (hb : 1/1000000 ≤ arcAngle q0 q1) :
    Real.sin (arcAngle q0 q1) ≠ 0 ∧ arcAngle q0 q1 ≤ Real.pi / 2 ∧
    (slerpStart q0 q1).dot (q1.sdiv q1.norm) = Real.cos (arcAngle q0 q1) ∧
    ∀ t, 0 ≤ t → t ≤ 1 → slerp q0.up q1.up (.fin t) =
      .ok (slerpComb (slerpStart q0 q1) (q1.sdiv q1.norm) (arcAngle q0 q1) t).up := by
  have hd : (slerpStart q0 q1).dot (q1.sdiv q1.norm) = |q0.dot q1| / (q0.norm * q1.norm) := start_dot_eq q0 q1
  have hle := (slerpStart_unit (q1 := q1) h0).dot_le (V4.sdiv_norm_unit h1)
  have hθ : Real.arccos ((slerpStart q0 q1).dot (q1.sdiv q1.norm)) = arcAngle q0 q1 := by rw [hd]; rfl
  have hpi : arcAngle q0 q1 ≤ Real.pi / 2 := by rw [← hθ]; exact Real.arccos_le_pi_div_two.2 (slerpStart_dot q0 q1)
  refine ⟨(Real.sin_pos_of_pos_of_lt_pi (by linarith) (by linarith [Real.pi_pos])).ne', hpi, ?_, ?_⟩
  · rw [← hθ, Real.cos_arccos hle.1 hle.2]
  · intro t ht0 ht1
    have := slerp_eval h0 h1 t
    simp only [hθ] at this
    rw [this, if_pos ⟨ht0, ht1⟩, if_neg (not_lt.2 hb)]

theorem unit_ne_zero {q : V4 ℝ} (h : IsUnit4 q) : q ≠ ⟨0, 0, 0, 0⟩ := by
  rintro rfl
  simp [IsUnit4] at h

theorem sdiv_unit {q : V4 ℝ} (h : IsUnit4 q) : q.sdiv q.norm = q := by
  rw [h.norm]; ext <;> simp

/-- `slerp` commutes with linear maps that keep the scalar product. -/
theorem slerp_map {q0 q1 : V4 ℝ} (h0 : q0 ≠ ⟨0, 0, 0, 0⟩) (h1 : q1 ≠ ⟨0, 0, 0, 0⟩) {f : V4 ℝ → V4 ℝ}
    (fadd : ∀ a b, f (a + b) = f a + f b) (fsmul : ∀ c a, f (V4.smul c a) = V4.smul c (f a)) (fdot : ∀ a b, (f a).dot (f b) = a.dot b)
    {t : ℝ} (ht0 : 0 ≤ t) (ht1 : t ≤ 1) :
    ∃ q : V4 ℝ, IsUnit4 q ∧ slerp q0.up q1.up (.fin t) = .ok q.up ∧ slerp (f q0).up (f q1).up (.fin t) = .ok (f q).up := by
  have fnorm : ∀ a, (f a).norm = a.norm := by
    intro a
    have h := fdot a a
    rw [← V4.norm_sq, ← V4.norm_sq] at h
    exact (mul_self_inj (V4.norm_nonneg _) (V4.norm_nonneg _)).1 h
  have fsdiv : ∀ c a, f (a.sdiv c) = (f a).sdiv c := by
    intro c a
    have e : ∀ a : V4 ℝ, a.sdiv c = V4.smul c⁻¹ a := fun a => by ext <;> simp [div_eq_inv_mul]
    rw [e, e, fsmul]
  have fneg : ∀ a, f (-a) = -(f a) := by
    intro a
    have e : ∀ a : V4 ℝ, -a = V4.smul (-1) a := fun a => by ext <;> simp
    rw [e, e, fsmul]
  have fz : ∀ a, a ≠ ⟨0, 0, 0, 0⟩ → f a ≠ ⟨0, 0, 0, 0⟩ := by
    intro a ha h
    have := fnorm a
    rw [h] at this
    have hp := V4.norm_pos ha
    rw [← this] at hp
    simp [V4.norm] at hp
  have fstart : slerpStart (f q0) (f q1) = f (slerpStart q0 q1) := by
    unfold slerpStart
    rw [fnorm, fnorm, ← fsdiv, ← fsdiv, fdot]
    split_ifs
    · rw [fneg]
    · rfl
  have e0 := slerp_eval h0 h1 t
  have e1 := slerp_eval (fz q0 h0) (fz q1 h1) t
  simp only [fstart, fnorm, ← fsdiv, fdot] at e1
  simp only at e0
  rw [if_pos ⟨ht0, ht1⟩] at e0 e1
  have hu0 := slerpStart_unit (q1 := q1) h0
  have hu1 := V4.sdiv_norm_unit h1
  have hle := hu0.dot_le hu1
  by_cases hb : Real.arccos ((slerpStart q0 q1).dot (q1.sdiv q1.norm)) < 1 / 1000000
  · rw [if_pos hb] at e0 e1
    exact ⟨_, hu0, e0, e1⟩
  · rw [if_neg hb] at e0 e1
    have hpi := Real.arccos_le_pi_div_two.2 (slerpStart_dot q0 q1)
    refine ⟨_, (slerpComb_props hu0 hu1 (Real.cos_arccos hle.1 hle.2).symm
      (Real.sin_pos_of_pos_of_lt_pi (by linarith) (by linarith [Real.pi_pos])).ne' t).1, e0, ?_⟩
    rw [e1]
    congr 2
    simp only [slerpComb, fsdiv, fadd, fsmul]

end InterpL
open InterpL

/-! ## C113 -/

/-- C113: the interpolation is a steady rotation: about one axis, by an angle that grows in proportion to `t` from nothing to twice the
arc angle, which is at most half a turn. -/
theorem C113_steady (q0 q1 : V4 ℝ) (h0 : q0 ≠ ⟨0, 0, 0, 0⟩) (h1 : q1 ≠ ⟨0, 0, 0, 0⟩) (hb : 1/1000000 ≤ arcAngle q0 q1) :
    2 * arcAngle q0 q1 ≤ Real.pi ∧ ∃ k : V3 ℝ, IsUnit3 k ∧ q2R (q1.sdiv q1.norm) = q2R (q0.sdiv q0.norm) * rot k (2 * arcAngle q0 q1) ∧
      ∀ t, 0 ≤ t → t ≤ 1 → ∃ q : V4 ℝ, slerp q0.up q1.up (.fin t) = .ok q.up ∧
        q2R q = q2R (q0.sdiv q0.norm) * rot k (t * (2 * arcAngle q0 q1)) := by
  obtain ⟨hs, hpi, hc, hev⟩ := slerp_ok h0 h1 hb
  set θ := arcAngle q0 q1 with hθ
  set u0 := slerpStart q0 q1 with hu
  have hu0 : IsUnit4 u0 := slerpStart_unit h0
  have hu1 := V4.sdiv_norm_unit h1
  obtain ⟨d1, d2⟩ := dir_unit hu0 hu1 hc hs
  set v := dir u0 (q1.sdiv q1.norm) θ with hv
  have hR0 : q2R u0 = q2R (q0.sdiv q0.norm) := by
    rw [hu]; unfold slerpStart
    split_ifs
    · exact C05_q2R_neg _
    · rfl
  -- the axis: the vector part of the direction, seen from the start
  set w := (quatproduct (quatcomplement u0)).mulVec v with hw
  have hw0 : w.w = 0 := by
    unfold V4.dot at d2
    simp [hw, quatproduct, quatcomplement, M4.mulVec, V3.dot]
    linarith
  have hk : IsUnit3 w.vec := by
    have : w.w * w.w + (w.x * w.x + w.y * w.y + w.z * w.z) = 1 := by
      unfold IsUnit4 at hu0 d1
      simp [hw, quatproduct, quatcomplement, M4.mulVec, V3.dot]
      grind
    rw [hw0] at this
    simp [IsUnit3]; linarith
  have hprod : ∀ s : ℝ, slerpComb u0 (q1.sdiv q1.norm) θ s = (quatproduct u0).mulVec (rot2qA w.vec (s * (2 * θ))) := by
    intro s
    rw [comb_eq _ _ hs, ← hv]
    have e2 : s * (2 * θ) / 2 = s * θ := by ring
    have huv : (quatproduct u0).mulVec w = v := by
      unfold IsUnit4 at hu0
      ext <;> simp [hw, quatproduct, quatcomplement, M4.mulVec, V3.dot] <;> grind
    have hx := congrArg V4.x huv
    have hy := congrArg V4.y huv
    have hz := congrArg V4.z huv
    have hww := congrArg V4.w huv
    simp [quatproduct, M4.mulVec, V3.dot, hw0] at hx hy hz hww
    ext <;> simp [quatproduct, M4.mulVec, V3.dot, rot2qA, e2]
    · rw [← hww]; ring
    · rw [← hx]; ring
    · rw [← hy]; ring
    · rw [← hz]; ring
  have hq : ∀ s : ℝ, q2R (slerpComb u0 (q1.sdiv q1.norm) θ s) = q2R (q0.sdiv q0.norm) * rot w.vec (s * (2 * θ)) := by
    intro s
    rw [hprod, C05_q2R_quatproduct u0 _ hu0 (rot2qA_unit _ hk _), q2R_rot2qA _ hk, hR0]
  refine ⟨by linarith, w.vec, hk, ?_, fun t t0 t1 => ⟨_, hev t t0 t1, hq t⟩⟩
  have h := hq 1
  rw [one_mul] at h
  rw [← h]
  congr 1
  ext <;> simp [slerpComb] <;> field_simp

/-- C113: the other way round the same orientations are passed. -/
theorem C113_reverse (q0 q1 : V4 ℝ) (h0 : q0 ≠ ⟨0, 0, 0, 0⟩) (h1 : q1 ≠ ⟨0, 0, 0, 0⟩) (hb : 1/1000000 ≤ arcAngle q0 q1) (t : ℝ)
    (ht0 : 0 ≤ t) (ht1 : t ≤ 1) :
    ∃ q q' : V4 ℝ, slerp q0.up q1.up (.fin t) = .ok q.up ∧ slerp q1.up q0.up (.fin (1 - t)) = .ok q'.up ∧ q2R q' = q2R q := by
  have harc : arcAngle q1 q0 = arcAngle q0 q1 := by
    unfold arcAngle
    rw [show q1.dot q0 = q0.dot q1 by simp [V4.dot]; ring, mul_comm]
  obtain ⟨-, -, -, e1⟩ := slerp_ok h0 h1 hb
  obtain ⟨-, -, -, e2⟩ := slerp_ok h1 h0 (by rw [harc]; exact hb)
  refine ⟨_, _, e1 t ht0 ht1, e2 (1 - t) (by linarith) (by linarith), ?_⟩
  rw [harc]
  have hd : (q1.sdiv q1.norm).dot (q0.sdiv q0.norm) = (q0.sdiv q0.norm).dot (q1.sdiv q1.norm) := by simp [V4.dot]; ring
  unfold slerpStart
  rw [hd]
  split_ifs
  · rw [← C05_q2R_neg]
    congr 1
    ext <;> simp [slerpComb] <;> ring
  · congr 1
    ext <;> simp [slerpComb] <;> ring

/-- C113: interpolating between two orientations of an interpolation passes the same orientations as the interpolation itself, in the same
proportion. -/
theorem C113_subdivide (q0 q1 : V4 ℝ) (h0 : q0 ≠ ⟨0, 0, 0, 0⟩) (h1 : q1 ≠ ⟨0, 0, 0, 0⟩) (a b t : ℝ) (ha : 0 ≤ a) (hb1 : b ≤ 1)
    (hab : 1/1000000 ≤ (b - a) * arcAngle q0 q1) (ht0 : 0 ≤ t) (ht1 : t ≤ 1) :
    ∃ qa qb q : V4 ℝ, slerp q0.up q1.up (.fin a) = .ok qa.up ∧ slerp q0.up q1.up (.fin b) = .ok qb.up ∧
      slerp q0.up q1.up (.fin (a + t * (b - a))) = .ok q.up ∧ slerp qa.up qb.up (.fin t) = .ok q.up := by
  have hθ0 : 0 ≤ arcAngle q0 q1 := Real.arccos_nonneg _
  have hba : 0 < b - a := by
    by_contra h
    have := mul_nonpos_of_nonpos_of_nonneg (not_lt.1 h) hθ0
    linarith
  have hb : 1/1000000 ≤ arcAngle q0 q1 := by nlinarith
  obtain ⟨hs, hpi, hc, hev⟩ := slerp_ok h0 h1 hb
  set θ := arcAngle q0 q1 with hθ
  set u0 := slerpStart q0 q1 with hu
  set u1 := q1.sdiv q1.norm
  have hu0 : IsUnit4 u0 := slerpStart_unit h0
  have hu1 : IsUnit4 u1 := V4.sdiv_norm_unit h1
  obtain ⟨d1, d2⟩ := dir_unit hu0 hu1 hc hs
  have hta : 0 ≤ t * (b - a) := mul_nonneg ht0 hba.le
  have htb : t * (b - a) ≤ b - a := mul_le_of_le_one_left hba.le ht1
  refine ⟨_, _, _, hev a ha (by linarith), hev b (by linarith) hb1, hev (a + t * (b - a)) (by linarith) (by linarith), ?_⟩
  have ua := (slerpComb_props hu0 hu1 hc hs a).1
  have ub := (slerpComb_props hu0 hu1 hc hs b).1
  have hdot : (slerpComb u0 u1 θ a).dot (slerpComb u0 u1 θ b) = Real.cos ((b - a) * θ) := by
    rw [comb_eq _ _ hs, comb_eq _ _ hs, show (b - a) * θ = b * θ - a * θ by ring, Real.cos_sub]
    unfold IsUnit4 at hu0 d1
    unfold V4.dot at d2
    simp [V4.dot]
    generalize dir u0 u1 θ = v at *
    grind
  have hD : (b - a) * θ ≤ Real.pi / 2 := by nlinarith
  have hD0 : 0 ≤ Real.cos ((b - a) * θ) := Real.cos_nonneg_of_mem_Icc ⟨by linarith [Real.pi_pos], hD⟩
  have harc : arcAngle (slerpComb u0 u1 θ a) (slerpComb u0 u1 θ b) = (b - a) * θ := by
    unfold arcAngle
    rw [ua.norm, ub.norm, hdot, abs_of_nonneg hD0, mul_one, div_one, Real.arccos_cos (by linarith) (by linarith [Real.pi_pos])]
  obtain ⟨hs', -, -, hev'⟩ := slerp_ok (unit_ne_zero ua) (unit_ne_zero ub) (by rw [harc]; exact hab)
  rw [hev' t ht0 ht1]
  rw [harc] at hs' ⊢
  congr 2
  have hst : slerpStart (slerpComb u0 u1 θ a) (slerpComb u0 u1 θ b) = slerpComb u0 u1 θ a := by
    unfold slerpStart
    rw [sdiv_unit ua, sdiv_unit ub, hdot, if_neg (not_lt.2 hD0)]
  rw [hst, sdiv_unit ub]
  set D := (b - a) * θ with hDD
  have eb : b * θ = a * θ + D := by rw [hDD]; ring
  have et : (a + t * (b - a)) * θ = a * θ + t * D := by rw [hDD]; ring
  have e1 : Real.sin ((1 - t) * D) = Real.sin D * Real.cos (t * D) - Real.cos D * Real.sin (t * D) := by
    rw [← Real.sin_sub]; congr 1; ring
  rw [comb_eq u0 u1 hs, comb_eq u0 u1 hs, comb_eq u0 u1 hs, eb, et]
  generalize dir u0 u1 θ = v
  ext <;> simp [slerpComb, e1, Real.sin_add, Real.cos_add] <;> field_simp <;> ring

/-- C113: the interpolation does not depend on the frames in which start and end are given: turning the reference frame by the rotation of
a unit quaternion `p` and the moved frame by that of `r` turns all orientations passed in the same way. -/
theorem C113_frames (q0 q1 p r : V4 ℝ) (h0 : q0 ≠ ⟨0, 0, 0, 0⟩) (h1 : q1 ≠ ⟨0, 0, 0, 0⟩) (hp : IsUnit4 p) (hr : IsUnit4 r) (t : ℝ)
    (ht0 : 0 ≤ t) (ht1 : t ≤ 1) :
    ∃ q q' : V4 ℝ, slerp q0.up q1.up (.fin t) = .ok q.up ∧
      slerp ((quatproduct ((quatproduct p).mulVec q0)).mulVec r).up ((quatproduct ((quatproduct p).mulVec q1)).mulVec r).up (.fin t) =
        .ok q'.up ∧ q2R q' = q2R p * q2R q * q2R r := by
  obtain ⟨q, hq, e1, e2⟩ := slerp_map h0 h1 (f := fun q => (quatproduct p).mulVec q)
    (fun a b => by ext <;> simp [quatproduct, M4.mulVec, V3.dot] <;> ring)
    (fun c a => by ext <;> simp [quatproduct, M4.mulVec, V3.dot] <;> ring)
    (fun a b => by unfold IsUnit4 at hp; simp [V4.dot, quatproduct, M4.mulVec, V3.dot]; grind) ht0 ht1
  have hz : ∀ a : V4 ℝ, a ≠ ⟨0, 0, 0, 0⟩ → (quatproduct p).mulVec a ≠ ⟨0, 0, 0, 0⟩ := by
    intro a ha h
    have h2 : ((quatproduct p).mulVec a).dot ((quatproduct p).mulVec a) = a.dot a := by
      unfold IsUnit4 at hp; simp [V4.dot, quatproduct, M4.mulVec, V3.dot]; grind
    rw [h, ← V4.norm_sq a] at h2
    have := V4.norm_pos ha
    simp [V4.dot] at h2
    linarith
  obtain ⟨q2, hq2, e3, e4⟩ := slerp_map (hz q0 h0) (hz q1 h1) (f := fun q => (quatproduct q).mulVec r)
    (fun a b => by ext <;> simp [quatproduct, M4.mulVec, V3.dot] <;> ring)
    (fun c a => by ext <;> simp [quatproduct, M4.mulVec, V3.dot] <;> ring)
    (fun a b => by unfold IsUnit4 at hr; simp [V4.dot, quatproduct, M4.mulVec, V3.dot]; grind) ht0 ht1
  refine ⟨q, _, e1, e4, ?_⟩
  have hqq : q2 = (quatproduct p).mulVec q := by
    rw [e3] at e2
    have h := Except.ok.inj e2
    have hx := congrArg V4.x h
    have hy := congrArg V4.y h
    have hz := congrArg V4.z h
    have hw := congrArg V4.w h
    simp only [V4.up_x, V4.up_y, V4.up_z, V4.up_w, XReal.fin.injEq] at hx hy hz hw
    exact V4.ext hw hx hy hz
  rw [C05_q2R_quatproduct _ r hq2 hr, hqq, C05_q2R_quatproduct p q hp hq]

-- the hypotheses are met: a turn of half a right angle about x, then 120 degrees about the diagonal; with the arc split at one and three
-- quarters of the way
example : (⟨4, 3, 0, 0⟩ : V4 ℝ) ≠ ⟨0, 0, 0, 0⟩ ∧ (⟨1, 1, 1, 1⟩ : V4 ℝ) ≠ ⟨0, 0, 0, 0⟩ ∧
    (1/1000000 : ℝ) ≤ (3/4 - 1/4) * arcAngle ⟨4, 3, 0, 0⟩ ⟨1, 1, 1, 1⟩ ∧ IsUnit4 ⟨3/5, 0, 4/5, 0⟩ := by
  refine ⟨by simp [V4.ext_iff], by simp [V4.ext_iff], ?_, by norm_num [IsUnit4]⟩
  have h1 : (⟨4, 3, 0, 0⟩ : V4 ℝ).norm = 5 := by
    unfold V4.norm; simp only [sqrt_real]
    rw [show (4 * 4 + 3 * 3 + 0 * 0 + 0 * 0 : ℝ) = 5 ^ 2 by norm_num, Real.sqrt_sq (by norm_num)]
  have h2 : (⟨1, 1, 1, 1⟩ : V4 ℝ).norm = 2 := by
    unfold V4.norm; simp only [sqrt_real]
    rw [show (1 * 1 + 1 * 1 + 1 * 1 + 1 * 1 : ℝ) = 2 ^ 2 by norm_num, Real.sqrt_sq (by norm_num)]
  have h3 : arcAngle ⟨4, 3, 0, 0⟩ ⟨1, 1, 1, 1⟩ = Real.arccos (7/10) := by
    unfold arcAngle; rw [h1, h2]; congr 1; norm_num [V4.dot]
  have h4 : (1/100 : ℝ) ≤ Real.arccos (7/10) := by
    by_contra h
    push Not at h
    have h5 := Real.cos_lt_cos_of_nonneg_of_le_pi (Real.arccos_nonneg _) (by linarith [Real.pi_gt_three]) h
    rw [Real.cos_arccos (by norm_num) (by norm_num)] at h5
    have := Real.one_sub_sq_div_two_le_cos (x := 1/100)
    norm_num at this
    linarith
  rw [h3]
  linarith
