import Verif.Model.Tesseract
import Verif.Lemmas.Sub
import Verif.Lemmas.Kin
import Verif.Lemmas.ListM
import Mathlib.Analysis.SpecialFunctions.Trigonometric.Bounds

/-! Auxiliary lemmas for the OPW and UR parameters of `tesseract.py`. -/
set_option autoImplicit false

/-! ## Rounding -/

theorem rintEven_err (x : ℝ) : |(Real.rintEven x : ℝ) - x| ≤ 1 / 2 := by
  have h1 := Int.floor_le x
  have h2 := Int.lt_floor_add_one x
  unfold Real.rintEven
  split_ifs with a b c <;> rw [abs_le] <;> push_cast <;> constructor <;> linarith

theorem npRound_err (k : Nat) (x : ℝ) : |npRound k x - x| ≤ 1 / 2 / 10 ^ k := by
  have hp : (0 : ℝ) < 10 ^ k := by positivity
  have e : npRound k x - x = ((Real.rintEven (x * 10 ^ k) : ℝ) - x * 10 ^ k) / 10 ^ k := by
    unfold npRound
    have : (lit (10 ^ k) : ℝ) = 10 ^ k := by simp [lit, Elem.lit]
    rw [this]
    show (Real.rintEven (x * 10 ^ k) : ℝ) / 10 ^ k - x = _
    field_simp
  rw [e, abs_div, abs_of_pos hp]
  exact div_le_div_of_nonneg_right (rintEven_err _) hp.le

/-! ## Rotations about the coordinate axes -/

theorem unit_ex : IsUnit3 (V3.ex : V3 ℝ) := by simp [IsUnit3, V3.ex]
theorem unit_ey : IsUnit3 (V3.ey : V3 ℝ) := by simp [IsUnit3, V3.ey]
theorem unit_ez : IsUnit3 (V3.ez : V3 ℝ) := by simp [IsUnit3, V3.ez]

theorem rot_ey_mulVec (a : ℝ) (v : V3 ℝ) : (rot V3.ey a).mulVec v =
    ⟨Real.cos a * v.x + Real.sin a * v.z, v.y, -Real.sin a * v.x + Real.cos a * v.z⟩ := by
  ext <;> simp [rot, V3.ey, M3.outer] <;> ring

theorem rot_ez_mulVec (a : ℝ) (v : V3 ℝ) : (rot V3.ez a).mulVec v =
    ⟨Real.cos a * v.x - Real.sin a * v.y, Real.sin a * v.x + Real.cos a * v.y, v.z⟩ := by
  ext <;> simp [rot, V3.ez, M3.outer] <;> ring

/-- A rotation about a turned axis. -/
theorem rot_conj {F : M3 ℝ} (hF : IsRot F) (k : V3 ℝ) (a : ℝ) : rot (F.mulVec k) a = F * rot k a * F.transpose := by
  have hh : hat (F.mulVec k) = F * hat k * F.transpose := by
    rw [hF.mul_hat, M3.mul_assoc', hF.orth', M3.mul_one']
  have h2 : hat (F.mulVec k) * hat (F.mulVec k) = F * (hat k * hat k) * F.transpose := by
    rw [hh]
    simp only [M3.mul_assoc']
    rw [← M3.mul_assoc' F.transpose F, hF.orth, M3.one_mul']
  have hd : ∀ (s t : ℝ) (A B G : M3 ℝ), F * (1 + M3.smul s A + M3.smul t B) * G =
      F * G + M3.smul s (F * A * G) + M3.smul t (F * B * G) := by
    intro s t A B G
    ext <;> simp <;> ring
  simp only [rot]
  rw [hd, h2, hh, hF.orth']

/-- Turning by nearly the same angle about the y axis. -/
theorem rot_ey_lip (a b : ℝ) (v : V3 ℝ) : ((rot V3.ey a).mulVec v - (rot V3.ey b).mulVec v).norm ≤ |a - b| * v.norm := by
  have h : ((rot V3.ey a).mulVec v - (rot V3.ey b).mulVec v).dot ((rot V3.ey a).mulVec v - (rot V3.ey b).mulVec v) ≤
      (|a - b| * v.norm) ^ 2 := by
    have hc := Real.one_sub_sq_div_two_le_cos (x := a - b)
    rw [Real.cos_sub] at hc
    have s1 := Real.sin_sq_add_cos_sq a
    have s2 := Real.sin_sq_add_cos_sq b
    rw [mul_pow, sq_abs, V3.norm_sq, rot_ey_mulVec, rot_ey_mulVec]
    simp only [V3.dot, V3.sub_x, V3.sub_y, V3.sub_z]
    have e : ∀ ca sa cb sb x y z : ℝ, sa ^ 2 + ca ^ 2 = 1 → sb ^ 2 + cb ^ 2 = 1 →
        (ca * x + sa * z - (cb * x + sb * z)) * (ca * x + sa * z - (cb * x + sb * z)) + (y - y) * (y - y) +
          (-sa * x + ca * z - (-sb * x + cb * z)) * (-sa * x + ca * z - (-sb * x + cb * z)) =
        2 * (1 - (ca * cb + sa * sb)) * (x * x + z * z) := by
      intro ca sa cb sb x y z h1 h2
      linear_combination (x * x + z * z) * h1 + (x * x + z * z) * h2
    rw [e _ _ _ _ _ _ _ s1 s2]
    have h1 : 2 * (1 - (Real.cos a * Real.cos b + Real.sin a * Real.sin b)) ≤ (a - b) ^ 2 := by linarith
    have h2 : (0 : ℝ) ≤ v.x * v.x + v.z * v.z := by nlinarith [sq_nonneg v.x, sq_nonneg v.z]
    calc 2 * (1 - (Real.cos a * Real.cos b + Real.sin a * Real.sin b)) * (v.x * v.x + v.z * v.z)
        ≤ (a - b) ^ 2 * (v.x * v.x + v.z * v.z) := mul_le_mul_of_nonneg_right h1 h2
      _ ≤ (a - b) ^ 2 * (v.x * v.x + v.y * v.y + v.z * v.z) := by
        refine mul_le_mul_of_nonneg_left ?_ (sq_nonneg _)
        nlinarith [sq_nonneg v.y]
  rw [V3.norm_eq]
  exact Real.sqrt_le_iff.2 ⟨by have := V3.norm_nonneg v; positivity, h⟩

/-! ## Specification: OPW forward kinematics -/

/-- Forward kinematics of the OPW solver, as published with the solver (`opw_kinematics.h`, `forward`). -/
noncomputable def Spec.opwForward (p : OpwParams ℝ) (qs : List ℝ) : Iso ℝ :=
  let q : Nat → ℝ := fun i => qs.getD i 0 * (p.signs.getD i 0 : ℤ) - p.offsets.getD i 0
  let psi3 := Complex.arg ⟨p.c3, p.a2⟩
  let k := Real.sqrt (p.a2 * p.a2 + p.c3 * p.c3)
  let cx1 := p.c2 * Real.sin (q 1) + k * Real.sin (q 1 + q 2 + psi3) + p.a1
  let cy1 := p.b
  let cz1 := p.c2 * Real.cos (q 1) + k * Real.cos (q 1 + q 2 + psi3)
  let cx0 := cx1 * Real.cos (q 0) - cy1 * Real.sin (q 0)
  let cy0 := cx1 * Real.sin (q 0) + cy1 * Real.cos (q 0)
  let cz0 := cz1 + p.c1
  let s1 := Real.sin (q 0)
  let s23 := Real.sin (q 1 + q 2)
  let s4 := Real.sin (q 3)
  let s5 := Real.sin (q 4)
  let s6 := Real.sin (q 5)
  let c1 := Real.cos (q 0)
  let c23 := Real.cos (q 1 + q 2)
  let c4 := Real.cos (q 3)
  let c5 := Real.cos (q 4)
  let c6 := Real.cos (q 5)
  let r0c : M3 ℝ := ⟨c1 * c23, -s1, c1 * s23, s1 * c23, c1, s1 * s23, -s23, 0, c23⟩
  let rce : M3 ℝ := ⟨c4 * c5 * c6 - s4 * s6, -c4 * c5 * s6 - s4 * c6, c4 * s5,
    s4 * c5 * c6 + c4 * s6, -s4 * c5 * s6 + c4 * c6, s4 * s5, -s5 * c6, s5 * s6, c5⟩
  let r0e := r0c * rce
  ⟨r0e, (⟨cx0, cy0, cz0⟩ : V3 ℝ) + r0e.mulVec ⟨0, 0, p.c4⟩⟩

/-- The same as a product of rotations about coordinate axes. -/
noncomputable def opwM (a1 a2 b c1 c2 c3 c4 q0 q1 q12 q3 q4 q5 : ℝ) : Iso ℝ :=
  let R := rot V3.ez q0 * rot V3.ey q12 * (rot V3.ez q3 * rot V3.ey q4 * rot V3.ez q5)
  ⟨R, ⟨0, 0, c1⟩ + (rot V3.ez q0).mulVec (⟨a1, b, 0⟩ + (rot V3.ey q1).mulVec ⟨0, 0, c2⟩ + (rot V3.ey q12).mulVec ⟨a2, 0, c3⟩) +
    R.mulVec ⟨0, 0, c4⟩⟩

theorem opwForward_eq (a1 a2 b c1 c2 c3 c4 o0 o1 o2 o3 o4 o5 : ℝ) (s0 s1 s2 s3 s4 s5 : ℤ) (t0 t1 t2 t3 t4 t5 : ℝ) :
    Spec.opwForward ⟨a1, a2, b, c1, c2, c3, c4, [o0, o1, o2, o3, o4, o5], [s0, s1, s2, s3, s4, s5]⟩ [t0, t1, t2, t3, t4, t5] =
      opwM a1 a2 b c1 c2 c3 c4 (t0 * s0 - o0) (t1 * s1 - o1) (t1 * s1 - o1 + (t2 * s2 - o2)) (t3 * s3 - o3) (t4 * s4 - o4)
        (t5 * s5 - o5) := by
  simp only [Spec.opwForward, opwM, List.getD_cons_zero, List.getD_cons_succ]
  generalize t0 * s0 - o0 = q0
  generalize t1 * s1 - o1 = q1
  generalize t2 * s2 - o2 = q2
  generalize t3 * s3 - o3 = q3
  generalize t4 * s4 - o4 = q4
  generalize t5 * s5 - o5 = q5
  obtain ⟨h1, h2⟩ := polar_arg c3 a2
  have hk : Real.sqrt (a2 * a2 + c3 * c3) = Real.sqrt (c3 * c3 + a2 * a2) := by rw [add_comm]
  rw [hk]
  set k := Real.sqrt (c3 * c3 + a2 * a2)
  have hR : (⟨Real.cos q0 * Real.cos (q1 + q2), -Real.sin q0, Real.cos q0 * Real.sin (q1 + q2), Real.sin q0 * Real.cos (q1 + q2),
      Real.cos q0, Real.sin q0 * Real.sin (q1 + q2), -Real.sin (q1 + q2), 0, Real.cos (q1 + q2)⟩ : M3 ℝ) =
      rot V3.ez q0 * rot V3.ey (q1 + q2) := by
    ext <;> simp [rot]
  have hW : (⟨Real.cos q3 * Real.cos q4 * Real.cos q5 - Real.sin q3 * Real.sin q5,
      -Real.cos q3 * Real.cos q4 * Real.sin q5 - Real.sin q3 * Real.cos q5, Real.cos q3 * Real.sin q4,
      Real.sin q3 * Real.cos q4 * Real.cos q5 + Real.cos q3 * Real.sin q5,
      -Real.sin q3 * Real.cos q4 * Real.sin q5 + Real.cos q3 * Real.cos q5, Real.sin q3 * Real.sin q4,
      -Real.sin q4 * Real.cos q5, Real.sin q4 * Real.sin q5, Real.cos q4⟩ : M3 ℝ) =
      rot V3.ez q3 * rot V3.ey q4 * rot V3.ez q5 := by
    ext <;> simp [rot] <;> ring
  rw [hR, hW]
  congr 1
  congr 1
  rw [rot_ez_mulVec, rot_ey_mulVec, rot_ey_mulVec, Real.sin_add (q1 + q2), Real.cos_add (q1 + q2)]
  ext
  · simp
    linear_combination Real.cos q0 * Real.sin (q1 + q2) * h1 + Real.cos q0 * Real.cos (q1 + q2) * h2
  · simp
    linear_combination Real.sin q0 * Real.sin (q1 + q2) * h1 + Real.sin q0 * Real.cos (q1 + q2) * h2
  · simp
    linear_combination Real.cos (q1 + q2) * h1 - Real.sin (q1 + q2) * h2

/-! ## The robot's own forward kinematics -/

theorem rot_sign {s : ℤ} (hs : s = 1 ∨ s = -1) (k : V3 ℝ) (θ : ℝ) : rot ((s : ℝ) • k) θ = rot k (θ * s) := by
  rcases hs with rfl | rfl
  · have : ((1 : ℤ) : ℝ) • k = k := by ext <;> simp
    rw [this]; simp
  · have : ((-1 : ℤ) : ℝ) • k = -k := by ext <;> simp
    rw [this, rot_neg_axis]; simp

/-- `fwdkin` of a robot with six rotary joints, with a flange and without base and tool. -/
theorem fwdkin_six (robot : Robot ℝ) (h0 h1 h2 h3 h4 h5 p0 p1 p2 p3 p4 p5 p6 : V3 ℝ) (F : M3 ℝ)
    (hH : robot.H = [h0, h1, h2, h3, h4, h5]) (hP : robot.P = [p0, p1, p2, p3, p4, p5, p6]) (pa ch : Option String)
    (hF : robot.Tflange = some ⟨F, 0, pa, ch⟩) (ht : robot.jointType = [0, 0, 0, 0, 0, 0]) (t0 t1 t2 t3 t4 t5 : ℝ) :
    ∃ T, fwdkin { robot with Tbase := none, Rtool := none, ptool := none } [t0, t1, t2, t3, t4, t5] true = .ok T ∧
      T.R = rot h0 t0 * rot h1 t1 * rot h2 t2 * rot h3 t3 * rot h4 t4 * rot h5 t5 * F ∧
      T.p = p0 + (rot h0 t0).mulVec (p1 + (rot h1 t1).mulVec (p2 + (rot h2 t2).mulVec (p3 + (rot h3 t3).mulVec (p4 +
        (rot h4 t4).mulVec (p5 + (rot h5 t5).mulVec p6))))) := by
  rcases robot with ⟨H, P, jt, lo, up, ve, ac, M, Rt, pt, jn, rl, tl, Tf, Tb, ef⟩
  simp only at hH hP hF ht
  subst hH hP hF ht
  refine ⟨_, rfl, ?_, ?_⟩
  · simp only [applyAux, fwdStep_rotary (t := 0) (Or.inl rfl), Transform.mul_R, M3.one_mul']
  · simp only [applyAux, fwdStep_rotary (t := 0) (Or.inl rfl), Transform.mul_p, M3.one_mul', M3.mulVec_add, M3.mulVec_mulVec, M3.mul_assoc']
    have h0 : ∀ A : M3 ℝ, A.mulVec 0 = 0 := by intro A; ext <;> simp
    rw [h0]
    simp only [add_assoc, add_zero]

/-- The pose of an arm whose links are, in frames turned by `o1` and `o1 + o2` about the y axis, those of an OPW arm. -/
theorem arm_fwdkin (robot : Robot ℝ) (s0 s1 s2 s3 s4 s5 : ℤ) (hs : ∀ s ∈ [s0, s1, s2, s3, s4, s5], s = 1 ∨ s = -1)
    (z0 : ℝ) (p1 p2 p3 d2 d3 : V3 ℝ) (x4 x5 x6 o1 o2 : ℝ) (F : M3 ℝ) (w : V3 ℝ) (hw : w = (rot V3.ey (-(o1 + o2))).mulVec V3.ez)
    (hH : robot.H = [(s0 : ℝ) • V3.ez, (s1 : ℝ) • V3.ey, (s2 : ℝ) • V3.ey, (s3 : ℝ) • w, (s4 : ℝ) • V3.ey, (s5 : ℝ) • w])
    (hP : robot.P = [⟨0, 0, z0⟩, p1, p2, p3, x4 • w, x5 • w, x6 • w])
    (pa ch : Option String) (hF : robot.Tflange = some ⟨F, 0, pa, ch⟩) (ht : robot.jointType = [0, 0, 0, 0, 0, 0])
    (e2 : p2 = (rot V3.ey (-o1)).mulVec d2) (e3 : p3 = (rot V3.ey (-(o1 + o2))).mulVec d3) (t0 t1 t2 t3 t4 t5 : ℝ) :
    ∃ T, fwdkin { robot with Tbase := none, Rtool := none, ptool := none } [t0, t1, t2, t3, t4, t5] true = .ok T ∧
      T.R = (opwM p1.x d3.x (p1.y + d2.y + d3.y) (z0 + p1.z) d2.z (d3.z + x4) (x5 + x6) (t0 * s0) (t1 * s1 - o1)
        (t1 * s1 - o1 + (t2 * s2 - o2)) (t3 * s3) (t4 * s4) (t5 * s5)).R * rot V3.ey (o1 + o2) * F ∧
      T.p = (opwM p1.x d3.x (p1.y + d2.y + d3.y) (z0 + p1.z) d2.z (d3.z + x4) (x5 + x6) (t0 * s0) (t1 * s1 - o1)
        (t1 * s1 - o1 + (t2 * s2 - o2)) (t3 * s3) (t4 * s4) (t5 * s5)).p +
        (rot V3.ez (t0 * s0)).mulVec ((rot V3.ey (t1 * s1 - o1)).mulVec ⟨d2.x, 0, 0⟩) := by
  obtain ⟨T, hT, hR, hp⟩ := fwdkin_six robot _ _ _ _ _ _ _ _ _ _ _ _ _ F hH hP pa ch hF ht t0 t1 t2 t3 t4 t5
  refine ⟨T, hT, ?_, ?_⟩
  all_goals
    simp only [List.mem_cons, List.not_mem_nil, or_false, forall_eq_or_imp, forall_eq] at hs
    obtain ⟨k0, k1, k2, k3, k4, k5⟩ := hs
  · rw [hR, rot_sign k0, rot_sign k1, rot_sign k2, rot_sign k3, rot_sign k4, rot_sign k5, hw,
      rot_conj (rot_isRot _ unit_ey _), rot_conj (rot_isRot _ unit_ey _), ← rot_neg, neg_neg]
    have c1 : rot V3.ey (t1 * s1 - o1 + (t2 * s2 - o2)) = rot V3.ey (t1 * s1) * rot V3.ey (t2 * s2) * rot V3.ey (-(o1 + o2)) := by
      rw [rot_mul _ unit_ey, rot_mul _ unit_ey]; congr 1; ring
    have c2 : rot (V3.ey : V3 ℝ) (o1 + o2) * (rot V3.ey (t4 * s4) * rot V3.ey (-(o1 + o2))) = rot V3.ey (t4 * s4) := by
      rw [rot_mul _ unit_ey, rot_mul _ unit_ey]; congr 1; ring
    simp only [opwM, c1, M3.mul_assoc']
    rw [← M3.mul_assoc' (rot V3.ey (t4 * s4)) (rot V3.ey (-(o1 + o2))), ← M3.mul_assoc' (rot V3.ey (o1 + o2)) (_ * _), c2]
  · have hrw : ∀ (s : ℤ) (_ : s = 1 ∨ s = -1) (t x : ℝ), (rot ((s : ℝ) • w) t).mulVec (x • w) = x • w := by
      intro s h t x
      rw [rot_sign h]; exact rot_smul_axis w _ x
    rw [hp, hrw s5 k5]
    have hsum : (x5 : ℝ) • w + x6 • w = (x5 + x6) • w := by ext <;> simp <;> ring
    rw [hsum]
    simp only [M3.mulVec_add]
    rw [hrw s3 k3]
    simp only [opwM]
    rw [rot_sign k0, rot_sign k1, rot_sign k2, rot_sign k3, rot_sign k4, hw, rot_conj (rot_isRot _ unit_ey _), ← rot_neg, neg_neg, e2, e3]
    have c1 : rot V3.ey (t1 * s1 - o1 + (t2 * s2 - o2)) = rot V3.ey (t1 * s1) * rot V3.ey (t2 * s2) * rot V3.ey (-(o1 + o2)) := by
      rw [rot_mul _ unit_ey, rot_mul _ unit_ey]; congr 1; ring
    have c2 : rot (V3.ey : V3 ℝ) (o1 + o2) * (rot V3.ey (t4 * s4) * rot V3.ey (-(o1 + o2))) = rot V3.ey (t4 * s4) := by
      rw [rot_mul _ unit_ey, rot_mul _ unit_ey]; congr 1; ring
    have c3 : rot V3.ey (t1 * s1 - o1) = rot V3.ey (t1 * s1) * rot V3.ey (-o1) := by
      rw [rot_mul _ unit_ey]; congr 1
    have m1 : ∀ (x : ℝ) (A : M3 ℝ) (v : V3 ℝ), A.mulVec (x • v) = x • A.mulVec v := by
      intro x A v; ext <;> simp <;> ring
    have z4 : (⟨0, 0, x5 + x6⟩ : V3 ℝ) = (x5 + x6) • V3.ez := by ext <;> simp
    have z5 : ∀ x : ℝ, (rot V3.ez (t5 * s5)).mulVec (x • V3.ez) = x • V3.ez := fun x => rot_smul_axis V3.ez _ x
    have wrist : (rot V3.ez (t0 * s0) * rot V3.ey (t1 * s1 - o1 + (t2 * s2 - o2)) *
          (rot V3.ez (t3 * s3) * rot V3.ey (t4 * s4) * rot V3.ez (t5 * s5))).mulVec ⟨0, 0, x5 + x6⟩ =
        (rot V3.ez (t0 * s0)).mulVec ((rot V3.ey (t1 * s1)).mulVec ((rot V3.ey (t2 * s2)).mulVec
          ((rot V3.ey (-(o1 + o2)) * rot V3.ez (t3 * s3) * rot V3.ey (o1 + o2)).mulVec ((rot V3.ey (t4 * s4)).mulVec
            ((x5 + x6) • (rot V3.ey (-(o1 + o2))).mulVec V3.ez))))) := by
      rw [← m1, z4, c1]
      simp only [M3.mulVec_mulVec, M3.mul_assoc']
      rw [c2]
      simp only [← M3.mul_assoc']
      rw [← M3.mulVec_mulVec _ (rot V3.ez (t5 * s5)), z5]
    rw [wrist, c1, c3]
    have y2 : ∀ d : V3 ℝ, (rot V3.ey (-o1)).mulVec d = (rot V3.ey (-o1)).mulVec ⟨0, 0, d.z⟩ + ⟨0, d.y, 0⟩ +
        (rot V3.ey (-o1)).mulVec ⟨d.x, 0, 0⟩ := by
      intro d; simp only [rot_ey_mulVec]; ext <;> simp <;> ring
    have y3 : ∀ d : V3 ℝ, (rot V3.ey (-(o1 + o2))).mulVec d + x4 • (rot V3.ey (-(o1 + o2))).mulVec V3.ez =
        (rot V3.ey (-(o1 + o2))).mulVec ⟨d.x, 0, d.z + x4⟩ + ⟨0, d.y, 0⟩ := by
      intro d; simp only [rot_ey_mulVec]; ext <;> simp <;> ring
    have yy : ∀ (a y : ℝ), (rot V3.ey a).mulVec (⟨0, y, 0⟩ : V3 ℝ) = ⟨0, y, 0⟩ := by
      intro a y; rw [rot_ey_mulVec]; ext <;> simp
    have y3' : (rot V3.ey (t2 * s2)).mulVec ((rot V3.ey (-(o1 + o2))).mulVec d3) +
        (rot V3.ey (t2 * s2)).mulVec (x4 • (rot V3.ey (-(o1 + o2))).mulVec V3.ez) =
        (rot V3.ey (t2 * s2)).mulVec ((rot V3.ey (-(o1 + o2))).mulVec ⟨d3.x, 0, d3.z + x4⟩) + ⟨0, d3.y, 0⟩ := by
      rw [← M3.mulVec_add, y3, M3.mulVec_add, yy]
    have hp1 : p1 = ⟨p1.x, p1.y, 0⟩ + ⟨0, 0, p1.z⟩ := by ext <;> simp
    have hz : ∀ a z : ℝ, (rot V3.ez a).mulVec (⟨0, 0, z⟩ : V3 ℝ) = ⟨0, 0, z⟩ := by
      intro a z; rw [rot_ez_mulVec]; ext <;> simp
    rw [y2 d2]
    simp only [M3.mulVec_add, ← M3.mulVec_mulVec, yy]
    generalize hA : (rot V3.ey (t1 * ↑s1)).mulVec ((rot V3.ey (-o1)).mulVec ⟨0, 0, d2.z⟩) = A
    generalize hB : (rot V3.ey (t1 * ↑s1)).mulVec ((rot V3.ey (-o1)).mulVec ⟨d2.x, 0, 0⟩) = B
    have hC : (rot V3.ey (t1 * ↑s1)).mulVec ((rot V3.ey (t2 * s2)).mulVec ((rot V3.ey (-(o1 + o2))).mulVec d3)) +
        (rot V3.ey (t1 * ↑s1)).mulVec ((rot V3.ey (t2 * s2)).mulVec (x4 • (rot V3.ey (-(o1 + o2))).mulVec V3.ez)) =
        (rot V3.ey (t1 * ↑s1)).mulVec ((rot V3.ey (t2 * s2)).mulVec ((rot V3.ey (-(o1 + o2))).mulVec ⟨d3.x, 0, d3.z + x4⟩)) +
          ⟨0, d3.y, 0⟩ := by
      rw [← M3.mulVec_add, y3', M3.mulVec_add, yy]
    have hC' := congrArg (rot V3.ez (t0 * ↑s0)).mulVec hC
    rw [M3.mulVec_add, M3.mulVec_add] at hC'
    generalize (rot V3.ez (t0 * ↑s0)).mulVec ((rot V3.ey (t1 * ↑s1)).mulVec ((rot V3.ey (t2 * ↑s2)).mulVec
      ((rot V3.ey (-(o1 + o2))).mulVec ((rot V3.ez (t3 * ↑s3)).mulVec ((rot V3.ey (o1 + o2)).mulVec
        ((rot V3.ey (t4 * ↑s4)).mulVec ((x5 + x6) • (rot V3.ey (-(o1 + o2))).mulVec V3.ez))))))) = W
    have hb : (⟨p1.x, p1.y + d2.y + d3.y, 0⟩ : V3 ℝ) = ⟨p1.x, p1.y, 0⟩ + ⟨0, d2.y, 0⟩ + ⟨0, d3.y, 0⟩ := by ext <;> simp
    have hc : (⟨0, 0, z0 + p1.z⟩ : V3 ℝ) = ⟨0, 0, z0⟩ + ⟨0, 0, p1.z⟩ := by ext <;> simp
    rw [hb, hc]
    simp only [M3.mulVec_add]
    have hq : (rot V3.ez (t0 * ↑s0)).mulVec p1 = (rot V3.ez (t0 * ↑s0)).mulVec ⟨p1.x, p1.y, 0⟩ + ⟨0, 0, p1.z⟩ := by
      conv_lhs => rw [hp1]
      rw [M3.mulVec_add, hz]
    rw [hq]
    generalize (rot V3.ez (t0 * ↑s0)).mulVec ((rot V3.ey (t1 * ↑s1)).mulVec ((rot V3.ey (t2 * ↑s2)).mulVec
      ((rot V3.ey (-(o1 + o2))).mulVec d3))) = X at hC' ⊢
    generalize (rot V3.ez (t0 * ↑s0)).mulVec ((rot V3.ey (t1 * ↑s1)).mulVec ((rot V3.ey (t2 * ↑s2)).mulVec
      (x4 • (rot V3.ey (-(o1 + o2))).mulVec V3.ez))) = Y at hC' ⊢
    rw [← sub_eq_zero] at hC' ⊢
    rw [← hC']
    abel

/-! ## Nearby parameters -/

theorem norm_axis_x (x : ℝ) : (⟨x, 0, 0⟩ : V3 ℝ).norm = |x| := by
  rw [V3.norm_eq]; simp [V3.dot, Real.sqrt_mul_self_eq_abs]
theorem norm_axis_y (x : ℝ) : (⟨0, x, 0⟩ : V3 ℝ).norm = |x| := by
  rw [V3.norm_eq]; simp [V3.dot, Real.sqrt_mul_self_eq_abs]
theorem norm_axis_z (x : ℝ) : (⟨0, 0, x⟩ : V3 ℝ).norm = |x| := by
  rw [V3.norm_eq]; simp [V3.dot, Real.sqrt_mul_self_eq_abs]

theorem norm_xz_le (x z : ℝ) : (⟨x, 0, z⟩ : V3 ℝ).norm ≤ |x| + |z| := by
  have : (⟨x, 0, z⟩ : V3 ℝ) = ⟨x, 0, 0⟩ + ⟨0, 0, z⟩ := by ext <;> simp
  rw [this, ← norm_axis_x, ← norm_axis_z]; exact V3.norm_add_le _ _

theorem norm_xy_le (x y : ℝ) : (⟨x, y, 0⟩ : V3 ℝ).norm ≤ |x| + |y| := by
  have : (⟨x, y, 0⟩ : V3 ℝ) = ⟨x, 0, 0⟩ + ⟨0, y, 0⟩ := by ext <;> simp
  rw [this, ← norm_axis_x, ← norm_axis_y]; exact V3.norm_add_le _ _

/-- moving both the vector and the angle -/
theorem rot_ey_close (a b : ℝ) (u v : V3 ℝ) :
    ((rot V3.ey a).mulVec u - (rot V3.ey b).mulVec v).norm ≤ (u - v).norm + |a - b| * v.norm := by
  have e : (rot V3.ey a).mulVec u - (rot V3.ey b).mulVec v =
      (rot V3.ey a).mulVec (u - v) + ((rot V3.ey a).mulVec v - (rot V3.ey b).mulVec v) := by
    ext <;> simp <;> ring
  rw [e]
  refine (V3.norm_add_le _ _).trans (add_le_add ?_ (rot_ey_lip a b v))
  rw [(rot_isRot _ unit_ey a).norm_mulVec]

theorem opwM_R_close (a1 a2 b c1 c2 c3 c4 a1' a2' b' c1' c2' c3' c4' q0 q1 q1' q12 q12' q3 q4 q5 : ℝ) (v : V3 ℝ) :
    ((opwM a1 a2 b c1 c2 c3 c4 q0 q1 q12 q3 q4 q5).R.mulVec v -
      (opwM a1' a2' b' c1' c2' c3' c4' q0 q1' q12' q3 q4 q5).R.mulVec v).norm ≤ |q12 - q12'| * v.norm := by
  simp only [opwM, ← M3.mulVec_mulVec]
  have e : ∀ A : M3 ℝ, ∀ u w : V3 ℝ, A.mulVec u - A.mulVec w = A.mulVec (u - w) := by
    intro A u w; ext <;> simp <;> ring
  rw [e, (rot_isRot _ unit_ez q0).norm_mulVec]
  refine (rot_ey_lip _ _ _).trans ?_
  rw [(rot_isRot _ unit_ez q3).norm_mulVec, (rot_isRot _ unit_ey q4).norm_mulVec, (rot_isRot _ unit_ez q5).norm_mulVec]

theorem opwM_p_close (a1 a2 b c1 c2 c3 c4 a1' a2' b' c1' c2' c3' c4' q0 q1 q1' q12 q12' q3 q4 q5 : ℝ) :
    ((opwM a1 a2 b c1 c2 c3 c4 q0 q1 q12 q3 q4 q5).p - (opwM a1' a2' b' c1' c2' c3' c4' q0 q1' q12' q3 q4 q5).p).norm ≤
      |a1 - a1'| + |a2 - a2'| + |b - b'| + |c1 - c1'| + |c2 - c2'| + |c3 - c3'| + |c4 - c4'| + |q1 - q1'| * |c2'| +
        |q12 - q12'| * (|a2'| + |c3'| + |c4'|) := by
  have e : ∀ A : M3 ℝ, ∀ u w : V3 ℝ, A.mulVec u - A.mulVec w = A.mulVec (u - w) := by
    intro A u w; ext <;> simp <;> ring
  have hR := opwM_R_close a1 a2 b c1 c2 c3 c4 a1' a2' b' c1' c2' c3' c4' q0 q1 q1' q12 q12' q3 q4 q5 ⟨0, 0, c4'⟩
  have hrot : IsRot (opwM a1 a2 b c1 c2 c3 c4 q0 q1 q12 q3 q4 q5).R :=
    ((rot_isRot _ unit_ez _).mul (rot_isRot _ unit_ey _)).mul
      (((rot_isRot _ unit_ez _).mul (rot_isRot _ unit_ey _)).mul (rot_isRot _ unit_ez _))
  set R := (opwM a1 a2 b c1 c2 c3 c4 q0 q1 q12 q3 q4 q5).R with hRd
  set R' := (opwM a1' a2' b' c1' c2' c3' c4' q0 q1' q12' q3 q4 q5).R with hRd'
  have split : (opwM a1 a2 b c1 c2 c3 c4 q0 q1 q12 q3 q4 q5).p - (opwM a1' a2' b' c1' c2' c3' c4' q0 q1' q12' q3 q4 q5).p =
      ⟨0, 0, c1 - c1'⟩ + ((rot V3.ez q0).mulVec (⟨a1 - a1', b - b', 0⟩ +
        ((rot V3.ey q1).mulVec ⟨0, 0, c2⟩ - (rot V3.ey q1').mulVec ⟨0, 0, c2'⟩) +
        ((rot V3.ey q12).mulVec ⟨a2, 0, c3⟩ - (rot V3.ey q12').mulVec ⟨a2', 0, c3'⟩)) +
      (R.mulVec ⟨0, 0, c4 - c4'⟩ + (R.mulVec ⟨0, 0, c4'⟩ - R'.mulVec ⟨0, 0, c4'⟩))) := by
    show (⟨0, 0, c1⟩ + (rot V3.ez q0).mulVec (⟨a1, b, 0⟩ + (rot V3.ey q1).mulVec ⟨0, 0, c2⟩ + (rot V3.ey q12).mulVec ⟨a2, 0, c3⟩) +
      R.mulVec ⟨0, 0, c4⟩ : V3 ℝ) - (⟨0, 0, c1'⟩ + (rot V3.ez q0).mulVec (⟨a1', b', 0⟩ + (rot V3.ey q1').mulVec ⟨0, 0, c2'⟩ +
        (rot V3.ey q12').mulVec ⟨a2', 0, c3'⟩) + R'.mulVec ⟨0, 0, c4'⟩) = _
    generalize (rot V3.ey q1).mulVec ⟨0, 0, c2⟩ = A
    generalize (rot V3.ey q1').mulVec ⟨0, 0, c2'⟩ = A'
    generalize (rot V3.ey q12).mulVec ⟨a2, 0, c3⟩ = B
    generalize (rot V3.ey q12').mulVec ⟨a2', 0, c3'⟩ = B'
    ext <;> simp <;> ring
  rw [split]
  have n1 := norm_axis_z (c1 - c1')
  have n2 := norm_xy_le (a1 - a1') (b - b')
  have n3 := rot_ey_close q1 q1' ⟨0, 0, c2⟩ ⟨0, 0, c2'⟩
  have n3' : ((⟨0, 0, c2⟩ : V3 ℝ) - ⟨0, 0, c2'⟩).norm = |c2 - c2'| := by
    rw [← norm_axis_z]; congr 1; ext <;> simp
  have n4 := rot_ey_close q12 q12' ⟨a2, 0, c3⟩ ⟨a2', 0, c3'⟩
  have n4' : ((⟨a2, 0, c3⟩ : V3 ℝ) - ⟨a2', 0, c3'⟩).norm ≤ |a2 - a2'| + |c3 - c3'| := by
    refine le_trans (le_of_eq ?_) (norm_xz_le _ _); congr 1; ext <;> simp
  have n4'' := mul_le_mul_of_nonneg_left (norm_xz_le a2' c3') (abs_nonneg (q12 - q12'))
  have n5 : (R.mulVec ⟨0, 0, c4 - c4'⟩).norm = |c4 - c4'| := by rw [hrot.norm_mulVec, norm_axis_z]
  rw [norm_axis_z] at n3 hR
  rw [n3'] at n3
  refine (V3.norm_add_le _ _).trans ?_
  refine (add_le_add_right ((V3.norm_add_le _ _).trans (add_le_add_right (V3.norm_add_le _ _) _)) _).trans ?_
  rw [(rot_isRot _ unit_ez q0).norm_mulVec, n1, n5]
  have n6 := (V3.norm_add_le (⟨a1 - a1', b - b', 0⟩ + ((rot V3.ey q1).mulVec ⟨0, 0, c2⟩ - (rot V3.ey q1').mulVec ⟨0, 0, c2'⟩))
    ((rot V3.ey q12).mulVec ⟨a2, 0, c3⟩ - (rot V3.ey q12').mulVec ⟨a2', 0, c3'⟩))
  have n7 := (V3.norm_add_le (⟨a1 - a1', b - b', 0⟩ : V3 ℝ) ((rot V3.ey q1).mulVec ⟨0, 0, c2⟩ - (rot V3.ey q1').mulVec ⟨0, 0, c2'⟩))
  nlinarith [n2, n3, n4, n4', n4'', n6, n7, hR]

/-! ## The parameters -/

theorem iscloseD_iff (x y : ℝ) : iscloseD x y ↔ |x - y| ≤ 1 / 100000000 + 1 / 100000 * |y| := by
  have e : iscloseD x y ↔ ((x ≤ y ∧ y ≤ x) ∨ |x - y| ≤ ((1 / 100000000 : ℚ) : ℝ) + ((1 / 100000 : ℚ) : ℝ) * |y|) := Iff.rfl
  rw [e]
  push_cast
  constructor
  · rintro (⟨h1, h2⟩ | h)
    · rw [le_antisymm h1 h2, sub_self, abs_zero]; positivity
    · exact h
  · exact Or.inr

theorem iscloseD_self (x : ℝ) : iscloseD x x := by
  rw [iscloseD_iff, sub_self, abs_zero]; positivity

theorem iscloseD_zero {x : ℝ} (h : iscloseD x 0) : |x| ≤ 1 / 100000000 := by
  rw [iscloseD_iff] at h; simpa using h

theorem not_iscloseD_neg_one : ¬ iscloseD (-1 : ℝ) 1 := by
  rw [iscloseD_iff]; norm_num

theorem allclose3_self (v : V3 ℝ) : allclose3 v v := ⟨iscloseD_self _, iscloseD_self _, iscloseD_self _⟩

theorem axisSign_eq {s : ℤ} (hs : s = 1 ∨ s = -1) {e : V3 ℝ} (he : ¬ allclose3 (-e) e) : axisSign ((s : ℝ) • e) e = s := by
  unfold axisSign
  rcases hs with rfl | rfl
  · have : ((1 : ℤ) : ℝ) • e = e := by ext <;> simp
    rw [this, if_pos (allclose3_self e)]
  · have : ((-1 : ℤ) : ℝ) • e = -e := by ext <;> simp
    rw [this, if_neg he, if_pos (allclose3_self _)]

theorem not_close_ex : ¬ allclose3 (-V3.ex : V3 ℝ) V3.ex := fun h => not_iscloseD_neg_one h.1
theorem not_close_ey : ¬ allclose3 (-V3.ey : V3 ℝ) V3.ey := fun h => not_iscloseD_neg_one h.2.1
theorem not_close_ez : ¬ allclose3 (-V3.ez : V3 ℝ) V3.ez := fun h => not_iscloseD_neg_one h.2.2

theorem pm_ne_zero {s : ℤ} (hs : s = 1 ∨ s = -1) : s ≠ 0 := by rcases hs with rfl | rfl <;> decide

theorem axisSign_pair {s t : ℤ} (hs : s = 1 ∨ s = -1) (ht : t = 1 ∨ t = -1) (e : V3 ℝ) : axisSign ((s : ℝ) • e) ((t : ℝ) • e) ≠ 0 := by
  unfold axisSign
  by_cases h : s = t
  · subst h; rw [if_pos (allclose3_self _)]; decide
  · have : (s : ℝ) • e = -((t : ℝ) • e) := by
      have : s = -t := by rcases hs with rfl | rfl <;> rcases ht with rfl | rfl <;> simp_all
      subst this; ext <;> simp
    rw [this, if_pos (allclose3_self _)]
    split_ifs <;> decide

theorem allcloseM_self (A : M3 ℝ) (t : ℝ) : allcloseM A A t = true := by
  unfold allcloseM Transform.allIsclose
  rw [List.all_eq_true]
  intro ab hab
  have : ab.1 = ab.2 := by
    simp only [M3.toList, List.zip_cons_cons, List.zip_nil_right, List.mem_cons, List.not_mem_nil, or_false] at hab
    rcases hab with rfl | rfl | rfl | rfl | rfl | rfl | rfl | rfl | rfl <;> rfl
  rw [this]
  exact decide_eq_true (Or.inl ⟨le_refl ab.2, le_refl ab.2⟩)

/-- What the bending and straightening of the arm preserve. -/
structure OpwGood (p2 p3 : V3 ℝ) (x4 x5 x6 o : ℝ) (s2 s3 s4 s5 : ℤ) (s : OpwState ℝ) : Prop where
  e2 : p2 = (rot V3.ey (-s.o1)).mulVec s.p2
  e3 : p3 = (rot V3.ey (-(s.o1 + s.o2))).mulVec s.p3
  eo : s.o1 + s.o2 = o
  e4 : s.p4 = ⟨0, 0, x4⟩
  e5 : s.p5 = ⟨0, 0, x5⟩
  e6 : s.p6 = ⟨0, 0, x6⟩
  h2 : s.h2 = (s2 : ℝ) • V3.ey
  h3 : s.h3 = (s3 : ℝ) • V3.ez
  h4 : s.h4 = (s4 : ℝ) • V3.ey
  h5 : s.h5 = (s5 : ℝ) • V3.ez

theorem bend_rot : (rot V3.ey (-Elem.pi / lit 2) : M3 ℝ) = ⟨0, 0, -1, 0, 1, 0, 1, 0, 0⟩ := by
  have : (-Elem.pi / lit 2 : ℝ) = -(Real.pi / 2) := by
    show -Real.pi / ((2 : ℚ) : ℝ) = _
    push_cast; ring
  rw [this]
  ext <;> simp [rot]

theorem bend_angle : (-Elem.pi / lit 2 : ℝ) = -(Real.pi / 2) := by
  show -Real.pi / ((2 : ℚ) : ℝ) = _
  push_cast; ring

theorem bend2_good (p2 p3 : V3 ℝ) (x4 x5 x6 : ℝ) (s2 s3 s4 s5 : ℤ) :
    OpwGood p2 p3 x4 x5 x6 (-(Real.pi / 2)) s2 s3 s4 s5 (OpwState.bend2 ⟨p2, p3, ⟨x4, 0, 0⟩, ⟨x5, 0, 0⟩, ⟨x6, 0, 0⟩, (s2 : ℝ) • V3.ey,
      (s3 : ℝ) • V3.ex, (s4 : ℝ) • V3.ey, (s5 : ℝ) • V3.ex, 0, 0⟩) := by
  constructor <;> simp only [OpwState.bend2, bend_rot] <;> try simp only [bend_angle, neg_neg, add_zero]
  · rw [rot_ey_mulVec]; ext <;> simp
  · rw [rot_ey_mulVec]; ext <;> simp
  all_goals ext <;> simp

theorem bend3_good (p2 p3 : V3 ℝ) (x4 x5 x6 : ℝ) (s2 s3 s4 s5 : ℤ) :
    OpwGood p2 p3 x4 x5 x6 (-(Real.pi / 2)) s2 s3 s4 s5 (OpwState.bend3 ⟨p2, p3, ⟨x4, 0, 0⟩, ⟨x5, 0, 0⟩, ⟨x6, 0, 0⟩, (s2 : ℝ) • V3.ey,
      (s3 : ℝ) • V3.ex, (s4 : ℝ) • V3.ey, (s5 : ℝ) • V3.ex, 0, 0⟩) := by
  constructor <;> simp only [OpwState.bend3, bend_rot] <;> try simp only [bend_angle, neg_neg, zero_add, neg_zero]
  · rw [rot_ey_mulVec]; ext <;> simp
  · rw [rot_ey_mulVec]; ext <;> simp
  all_goals ext <;> simp

theorem bend_good (p2 p3 : V3 ℝ) (x4 x5 x6 : ℝ) (s2 s3 s4 s5 : ℤ) (h5 : s5 = 1 ∨ s5 = -1) :
    OpwGood p2 p3 x4 x5 x6 (-(Real.pi / 2)) s2 s3 s4 s5 (OpwState.bend ⟨p2, p3, ⟨x4, 0, 0⟩, ⟨x5, 0, 0⟩, ⟨x6, 0, 0⟩, (s2 : ℝ) • V3.ey,
      (s3 : ℝ) • V3.ex, (s4 : ℝ) • V3.ey, (s5 : ℝ) • V3.ex, 0, 0⟩) := by
  unfold OpwState.bend
  rw [if_pos (by simp only [axisSign_eq h5 not_close_ex]; exact pm_ne_zero h5)]
  split_ifs
  · exact bend2_good ..
  · exact bend3_good ..
  · exact bend2_good ..

theorem straighten_good {p2 p3 : V3 ℝ} {x4 x5 x6 o : ℝ} {s2 s3 s4 s5 : ℤ} {s : OpwState ℝ}
    (h : OpwGood p2 p3 x4 x5 x6 o s2 s3 s4 s5 s) :
    OpwGood p2 p3 x4 x5 x6 o s2 s3 s4 s5 s.straighten ∧ iscloseD s.straighten.p2.x 0 := by
  unfold OpwState.straighten
  split_ifs with hc
  · exact ⟨h, hc⟩
  · simp only
    refine ⟨⟨?_, ?_, ?_, h.e4, h.e5, h.e6, h.h2, h.h3, h.h4, h.h5⟩, ?_⟩
    · rw [h.e2, M3.mulVec_mulVec, rot_mul _ unit_ey]; congr 2; ring
    · have := h.e3
      simp only [] at this ⊢
      rw [this]; congr 3; ring
    · have := h.eo
      simp only
      linarith
    · rw [rot_ey_mulVec]
      obtain ⟨h1, h2⟩ := polar_arg s.p2.z s.p2.x
      have : Real.cos (-Elem.arctan2 s.p2.x s.p2.z) * s.p2.x + Real.sin (-Elem.arctan2 s.p2.x s.p2.z) * s.p2.z = 0 := by
        show Real.cos (-Complex.arg ⟨s.p2.z, s.p2.x⟩) * s.p2.x + Real.sin (-Complex.arg ⟨s.p2.z, s.p2.x⟩) * s.p2.z = 0
        rw [Real.cos_neg, Real.sin_neg]
        generalize Real.sqrt (s.p2.z * s.p2.z + s.p2.x * s.p2.x) = k at h1 h2
        generalize Complex.arg ⟨s.p2.z, s.p2.x⟩ = φ at h1 h2 ⊢
        rw [← h1, ← h2]; ring
      show iscloseD (_ + _) (0 : ℝ)
      rw [this]
      exact iscloseD_self 0

theorem pyAssert_true {c : Bool} (h : c = true) : pyAssert c = .ok () := by subst h; rfl

/-- The parameters of an arm in a good state. -/
theorem params_good {p2 p3 : V3 ℝ} {x4 x5 x6 o z0 : ℝ} {p1 : V3 ℝ} {s0 s1 s2 s3 s4 s5 : ℤ}
    (hs : ∀ s ∈ [s0, s1, s2, s3, s4, s5], s = 1 ∨ s = -1) {s : OpwState ℝ}
    (h : OpwGood p2 p3 x4 x5 x6 o s2 s3 s4 s5 s) (hc : iscloseD s.p2.x 0) :
    s.params ⟨0, 0, z0⟩ p1 ((s0 : ℝ) • V3.ez) ((s1 : ℝ) • V3.ey) = .ok
      { a1 := npRound 6 p1.x
        a2 := npRound 6 s.p3.x
        b := npRound 6 (p1.y + s.p2.y + s.p3.y)
        c1 := npRound 6 (z0 + p1.z)
        c2 := npRound 6 s.p2.z
        c3 := npRound 6 (s.p3.z + x4)
        c4 := npRound 6 (x5 + x6)
        offsets := [npRound 8 0, npRound 8 s.o1, npRound 8 s.o2, npRound 8 0, npRound 8 0, npRound 8 0]
        signs := [s0, s1, s2, s3, s4, s5] } := by
  simp only [List.mem_cons, List.not_mem_nil, or_false, forall_eq_or_imp, forall_eq] at hs
  obtain ⟨k0, k1, k2, k3, k4, k5⟩ := hs
  have z := iscloseD_self 0
  unfold OpwState.params
  rw [pyAssert_true (by simp [z]), h.e4, h.e5, h.e6, pyAssert_true (by simp [z]), pyAssert_true (by simpa using hc),
    h.h2, h.h3, h.h4, h.h5, axisSign_eq k0 not_close_ez, axisSign_eq k1 not_close_ey, axisSign_eq k2 not_close_ey,
    axisSign_eq k3 not_close_ez, axisSign_eq k4 not_close_ey, axisSign_eq k5 not_close_ez]
  rfl
