import Verif.Lemmas.JacDet
import Verif.Props.RoundingIkAll
import Verif.Props.RoundingUr

/-!
# Property C85: the determinant of the Jacobian of spherical-wrist and UR arms

`Spec.jacDet` is the determinant of the matrix with the six given columns.
-/
set_option autoImplicit false

section
variable {r : Robot ℝ} {h0 h1 h2 h3 h4 h5 P0 P1 P2 P3 P4 P5 P6 : V3 ℝ}

theorem cross_axis {a : V3 ℝ} {c : ℝ} {v : V3 ℝ} (h : v = c • a) : a.cross v = 0 := by
  subst h
  ext <;> simp <;> ring

theorem wrist_arm_factor (par1 : h1 = V3.ey ∨ h1 = -V3.ey) (par2 : h2 = V3.ey ∨ h2 = -V3.ey) (u0 : IsUnit3 h0) (P1 P2 Q : V3 ℝ) (q1 q2 q3 : ℝ)
    {a1 a2 a3 c1 c2 c3 : V3 ℝ} (e1 : a1 = (rot h0 q1).mulVec h0) (e2 : a2 = (rot h0 q1 * rot h1 q2).mulVec h1) (e3 : a3 = (rot h0 q1 * rot h1 q2 * rot h2 q3).mulVec h2)
    (k1 : c1 = (rot h0 q1).mulVec (P1 + (rot h1 q2).mulVec (P2 + (rot h2 q3).mulVec Q)))
    (k2 : c2 = (rot h0 q1).mulVec ((rot h1 q2).mulVec (P2 + (rot h2 q3).mulVec Q)))
    (k3 : c3 = (rot h0 q1).mulVec ((rot h1 q2).mulVec ((rot h2 q3).mulVec Q))) :
    |(a1.cross c1).dot ((a2.cross c2).cross (a3.cross c3))| =
      |V3.ey.dot (h0.cross (P1 + (rot h1 q2).mulVec (P2 + (rot h2 q3).mulVec Q)))| * |P2.dot (h2.cross ((rot h2 q3).mulVec Q))| := by
  have hR := rot_isRot h0 u0 q1
  have f : (rot h1 q2).mulVec h2 = h2 := by
    rcases par1 with rfl | rfl <;> rcases par2 with rfl | rfl <;> ext <;> simp [rot]
  have e2' : a2 = (rot h0 q1).mulVec h1 := by rw [e2, ← M3.mulVec_mulVec, rot_axis]
  have e3' : a3 = (rot h0 q1).mulVec h2 := by rw [e3, ← M3.mulVec_mulVec, ← M3.mulVec_mulVec, rot_axis, f]
  rw [e1, e2', e3', k1, k2, k3, ← hR.mulVec_cross, ← hR.mulVec_cross, ← hR.mulVec_cross, JacDet.triple_rot hR, JacDet.arm_triple par1 par2]

theorem wrist_hand_factor {A : M3 ℝ} (hA : IsRot A) (h3 h4 h5 : V3 ℝ) (q5 q6 : ℝ) :
    |(A.mulVec h3).dot (((A * rot h4 q5).mulVec h4).cross ((A * rot h4 q5 * rot h5 q6).mulVec h5))| = |(h3.cross h4).dot ((rot h4 q5).mulVec h5)| := by
  rw [← M3.mulVec_mulVec A, rot_axis, ← M3.mulVec_mulVec (A * rot h4 q5), rot_axis, ← M3.mulVec_mulVec A, JacDet.triple_rot hA]
  congr 1
  simp [V3.dot]
  ring

/-- C85: for every arm with a spherical wrist (the last three axes through one point), with any base, flange and tool, at every joint vector the
determinant of the Jacobian is, up to sign, the product of three numbers: how far joint 1 moves the wrist centre along y, how far joint 3
changes its distance from the shoulder, and the sine of the angle between the fourth and the sixth axis. -/
theorem C85_wrist_det (hr : Spec.WristArm r h0 h1 h2 h3 h4 h5 P0 P1 P2 P3 P4 P5 P6) (hP4 : P4 = (P4.dot h3) • h3) (hP5 : P5 = (P5.dot h5) • h5)
    (q1 q2 q3 q4 q5 q6 : ℝ) : ∃ c1 c2 c3 c4 c5 c6, robotjacobian r [q1, q2, q3, q4, q5, q6] true = .ok [c1, c2, c3, c4, c5, c6] ∧
      |Spec.jacDet c1 c2 c3 c4 c5 c6| = |V3.ey.dot (h0.cross (P1 + (rot h1 q2).mulVec (P2 + (rot h2 q3).mulVec (P3 + P4))))| *
        |P2.dot (h2.cross ((rot h2 q3).mulVec (P3 + P4)))| * |(h3.cross h4).dot ((rot h4 q5).mulVec h5)| := by
  obtain ⟨e, he⟩ := JacDet.jac6 hr.types hr.axes hr.links q1 q2 q3 q4 q5 q6
  obtain ⟨hB, -, -⟩ := hr.aux
  refine ⟨_, _, _, _, _, _, he, ?_⟩
  have R3 := ((rot_isRot _ hr.unit0 q1).mul (rot_isRot _ (pm_unit hr.par1) q2)).mul (rot_isRot _ (pm_unit hr.par2) q3)
  have R4 := R3.mul (rot_isRot _ hr.unit3 q4)
  have R5 := R4.mul (rot_isRot _ hr.unit4 q5)
  have f3 : (rot h3 q4).mulVec P4 = P4 := by rw [hP4]; exact rot_hsmul_axis _ _ _
  have f5 : (rot h5 q6).mulVec P5 = P5 := by rw [hP5]; exact rot_hsmul_axis _ _ _
  set A3 := rot h0 q1 * rot h1 q2 * rot h2 q3 with hA3
  set O3 := P0 + (rot h0 q1).mulVec P1 + (rot h0 q1 * rot h1 q2).mulVec P2 with hO3
  set C := O3 + A3.mulVec P3 + (A3 * rot h3 q4).mulVec P4 with hC
  have hC' : C = O3 + A3.mulVec (P3 + P4) := by
    rw [hC, ← M3.mulVec_mulVec A3, f3, M3.mulVec_add]
    ext <;> simp <;> ring
  rw [JacDet.wrist_cols hB (C := C)]
  · congr 1
    · refine wrist_arm_factor hr.par1 hr.par2 hr.unit0 P1 P2 (P3 + P4) q1 q2 q3 rfl rfl rfl ?_ ?_ ?_
      all_goals rw [hC', hO3, hA3]; simp only [← M3.mulVec_mulVec, M3.mulVec_add]; ext <;> simp <;> ring
    · exact wrist_hand_factor R4 _ _ _ _ _
  · refine cross_axis (c := P4.dot h3) ?_
    rw [← M3.mulVec_mulVec A3, rot_axis, hC']
    conv_lhs => rw [hP4]
    ext <;> simp <;> ring
  · rw [show C - C = (0 : V3 ℝ) by ext <;> simp]
    ext <;> simp
  · refine cross_axis (c := -(P5.dot h5)) ?_
    rw [← M3.mulVec_mulVec (A3 * rot h3 q4 * rot h4 q5), rot_axis]
    conv_lhs => rw [hP5]
    ext <;> simp <;> ring

/-- C85: for every UR arm, with any base, flange and tool, at every joint vector the determinant of the Jacobian is, up to sign, the product of
three numbers: how far joint 1 moves the point where the last two axes meet along y, how far joint 3 changes the distance between joints 2 and
4, and the sine of joint 5. -/
theorem C85_ur_det {k : V3 ℝ} (hr : Spec.UrChain r k P0 P1 P2 P3 P4 P5 P6) (q1 q2 q3 q4 q5 q6 : ℝ) :
    ∃ c1 c2 c3 c4 c5 c6, robotjacobian r [q1, q2, q3, q4, q5, q6] true = .ok [c1, c2, c3, c4, c5, c6] ∧
      |Spec.jacDet c1 c2 c3 c4 c5 c6| =
        |V3.ey.dot (V3.ez.cross (P1 + (rot k q2).mulVec (P2 + (rot k q3).mulVec (P3 + (rot k q4).mulVec P4))))| *
        |P2.dot (k.cross ((rot k q3).mulVec P3))| * |Real.sin q5| := by
  obtain ⟨e, he⟩ := JacDet.jac6 hr.types hr.axes hr.links q1 q2 q3 q4 q5 q6
  obtain ⟨hB, -, -⟩ := hr.aux
  obtain ⟨c, hc⟩ := hr.wrist
  refine ⟨_, _, _, _, _, _, he, ?_⟩
  have uk := pm_unit hr.par
  have R1 := rot_isRot _ ez_unit q1
  have R4 := ((R1.mul (rot_isRot _ uk q2)).mul (rot_isRot _ uk q3)).mul (rot_isRot _ uk q4)
  set A1 := rot V3.ez q1 with hA1
  set A4 := A1 * rot k q2 * rot k q3 * rot k q4 with hA4
  have x2 : (A1 * rot k q2).mulVec k = A1.mulVec k := by rw [← M3.mulVec_mulVec A1, rot_axis]
  have x3 : (A1 * rot k q2 * rot k q3).mulVec k = A1.mulVec k := by rw [← M3.mulVec_mulVec (A1 * rot k q2), rot_axis, x2]
  have x4 : A4.mulVec k = A1.mulVec k := by rw [hA4, ← M3.mulVec_mulVec (A1 * rot k q2 * rot k q3), rot_axis, x3]
  simp only [x2, x3, x4]
  set O4 := P0 + A1.mulVec P1 + (A1 * rot k q2).mulVec P2 + (A1 * rot k q2 * rot k q3).mulVec P3 with hO4
  set C := O4 + A4.mulVec P4 with hC
  have d2 : O4 - (P0 + A1.mulVec P1) = A1.mulVec ((rot k q2).mulVec (P2 + (rot k q3).mulVec P3)) := by
    rw [hO4]; simp only [← M3.mulVec_mulVec, M3.mulVec_add]; ext <;> simp <;> ring
  have d3 : O4 - (P0 + A1.mulVec P1 + (A1 * rot k q2).mulVec P2) = A1.mulVec ((rot k q2).mulVec ((rot k q3).mulVec P3)) := by
    rw [hO4]; simp only [← M3.mulVec_mulVec]; ext <;> simp
  have d4 : C - O4 = A1.mulVec ((rot k q2).mulVec ((rot k q3).mulVec ((rot k q4).mulVec P4))) := by
    rw [hC, hA4]; simp only [← M3.mulVec_mulVec]; ext <;> simp
  have d1 : C - P0 = A1.mulVec (P1 + (rot k q2).mulVec (P2 + (rot k q3).mulVec (P3 + (rot k q4).mulVec P4))) := by
    rw [hC, hO4, hA4]; simp only [← M3.mulVec_mulVec, M3.mulVec_add]; ext <;> simp <;> ring
  rw [JacDet.parallel_cols hB (C := C)]
  · rw [d1, d2, d3]
    congr 1
    · simp only [← R1.mulVec_cross, JacDet.triple_rot R1]
      rw [R1.dot_mulVec, JacDet.arm_triple hr.par hr.par]
    · have := wrist_hand_factor R4 k (-V3.ez) k q5 q6
      rw [x4] at this
      rw [this]
      rcases hr.par with rfl | rfl <;> simp [rot, V3.dot]
  · rw [show C - C = (0 : V3 ℝ) by ext <;> simp]
    ext <;> simp
  · refine cross_axis (c := -c) ?_
    rw [← M3.mulVec_mulVec (A4 * rot (-V3.ez) q5), rot_axis]
    conv_lhs => rw [hc]
    ext <;> simp <;> ring
  · rw [d2, d3, d4]
    simp only [← R1.mulVec_cross, JacDet.triple_rot R1]
    rw [R1.dot_mulVec]
    exact JacDet.arm_flat hr.par _ _ _

/-! ## A determinant away from zero gives the margins of the solvers -/

theorem abs_le_of_prod {a b c m A : ℝ} (ha : 0 ≤ a) (hb : 0 ≤ b) (hc : 0 ≤ c) (hbA : b * c ≤ A) (hA : 0 < A) (h : A * m ≤ a * b * c) : m ≤ a := by
  have : a * (b * c) ≤ a * A := mul_le_mul_of_nonneg_left hbA ha
  nlinarith

/-- how far the elbow changes the distance, against the distance from the axis -/
theorem elbow_le_radius (h P w : V3 ℝ) : |P.dot (h.cross w)| ≤ (h.cross (P + w)).norm * w.norm := by
  rw [show P.dot (h.cross w) = -((h.cross (P + w)).dot w) by simp [V3.dot]; ring, abs_neg]
  exact V3.abs_dot_le _ _

/-- products of lengths that add up to 1.9 -/
theorem lengths_prod {s e w S a b : ℝ} (hs0 : 0 ≤ s) (he0 : 0 ≤ e) (hw0 : 0 ≤ w) (hs : s ≤ S) (he : e ≤ a * b) (hw : w ≤ 1) (ha : 0 ≤ a) (hb : 0 ≤ b)
    (hS : S ≤ 19 / 10) (hab : a + b ≤ 19 / 10) : e * w ≤ 4 ∧ s * w ≤ 4 ∧ s * e ≤ 4 ∧ s * w * b ≤ 4 := by
  have h1 : a * b ≤ 1 := by nlinarith [sq_nonneg (a - b)]
  have he1 : e ≤ 1 := he.trans h1
  have hs1 : s ≤ 19 / 10 := hs.trans hS
  have sw : s * w ≤ 19 / 10 := by nlinarith
  refine ⟨by nlinarith, by linarith, by nlinarith, ?_⟩
  have : 0 ≤ s * w := by positivity
  nlinarith

theorem margins_of_prod {s e w rad S a b m : ℝ} (hs0 : 0 ≤ s) (he0 : 0 ≤ e) (hw0 : 0 ≤ w) (hr0 : 0 ≤ rad) (hs : s ≤ S) (he : e ≤ a * b) (hw : w ≤ 1)
    (ha : 0 ≤ a) (hb : 0 ≤ b) (hS : S ≤ 19 / 10) (hab : a + b ≤ 19 / 10) (hrad : e ≤ rad * b) (h : 4 * m ≤ s * e * w) :
    m ≤ s ∧ m ≤ e ∧ m ≤ rad ∧ m ≤ w := by
  obtain ⟨h1, h2, h3, h4⟩ := lengths_prod hs0 he0 hw0 hs he hw ha hb hS hab
  refine ⟨abs_le_of_prod hs0 he0 hw0 h1 (by norm_num) h, abs_le_of_prod he0 hs0 hw0 h2 (by norm_num) (by linarith [mul_comm s e, show e * s * w = s * e * w by ring]), ?_,
    abs_le_of_prod hw0 hs0 he0 h3 (by norm_num) (by linarith [show w * s * e = s * e * w by ring])⟩
  refine abs_le_of_prod hr0 (by positivity : 0 ≤ s * w) hb h4 (by norm_num) (h.trans ?_)
  have : s * w * e ≤ s * w * (rad * b) := mul_le_mul_of_nonneg_left hrad (by positivity)
  linarith [show s * e * w = s * w * e by ring, show rad * (s * w) * b = s * w * (rad * b) by ring]

theorem cross_norm_par {h1 h2 : V3 ℝ} (par1 : h1 = V3.ey ∨ h1 = -V3.ey) (par2 : h2 = V3.ey ∨ h2 = -V3.ey) (v : V3 ℝ) :
    (h2.cross v).norm = (h1.cross v).norm := by
  simp only [V3.norm_eq]
  rcases par1 with rfl | rfl <;> rcases par2 with rfl | rfl <;> congr 1 <;> simp [V3.dot]

/-- The absolute value of the determinant of the Jacobian at `q` is at least `d`. -/
def Spec.DetAtLeast (r : Robot ℝ) (q : List ℝ) (d : ℝ) : Prop :=
  ∀ c1 c2 c3 c4 c5 c6, robotjacobian r q true = .ok [c1, c2, c3, c4, c5, c6] → d ≤ |Spec.jacDet c1 c2 c3 c4 c5 c6|

/-- C85: for an arm with offsets of total length at most 1.9 up to the wrist, a determinant of at least `4m` means that the arm is at least `m` away
from each of the four degeneracies of the solver: wrist centre above joint 1, arm stretched, wrist centre on the axis of joint 2, and fourth and sixth
axes parallel. -/
theorem C85_wrist_margin (hr : Spec.WristArm r h0 h1 h2 h3 h4 h5 P0 P1 P2 P3 P4 P5 P6) (hP4 : P4 = (P4.dot h3) • h3) (hP5 : P5 = (P5.dot h5) • h5)
    (hl : P0.norm + P1.norm + P2.norm + (P3.norm + P4.norm) ≤ 19 / 10) {q1 q2 q3 q4 q5 q6 m : ℝ}
    (hd : Spec.DetAtLeast r [q1, q2, q3, q4, q5, q6] (4 * m)) : Spec.WristMargin h0 h1 h2 h3 h4 h5 P1 P2 (P3 + P4) q2 q3 q5 m := by
  obtain ⟨c1, c2, c3, c4, c5, c6, hJ, hdet⟩ := C85_wrist_det hr hP4 hP5 q1 q2 q3 q4 q5 q6
  have h := hd _ _ _ _ _ _ hJ
  rw [hdet] at h
  have n0 := V3.norm_nonneg P0
  have n1 := V3.norm_nonneg P1
  have n34 := V3.norm_add_le P3 P4
  have i1 := rot_isRot _ (pm_unit hr.par1) q2
  have i2 := rot_isRot _ (pm_unit hr.par2) q3
  have l2 : (P2 + (rot h2 q3).mulVec (P3 + P4)).norm ≤ P2.norm + (P3 + P4).norm := by
    have := V3.norm_add_le P2 ((rot h2 q3).mulVec (P3 + P4))
    rwa [i2.norm_mulVec] at this
  refine (fun h => ?_ : _ ∧ _ ∧ _ ∧ _ → _) (margins_of_prod (rad := (h1.cross (P2 + (rot h2 q3).mulVec (P3 + P4))).norm) (S := P1.norm + (P2.norm + (P3 + P4).norm))
    (a := P2.norm) (b := (P3 + P4).norm) (abs_nonneg _) (abs_nonneg _) (abs_nonneg _) (V3.norm_nonneg _) ?_ ?_ ?_
    (V3.norm_nonneg _) (V3.norm_nonneg _) (by linarith) (by linarith) ?_ h)
  · exact ⟨h.1, h.2.1, h.2.2.1, h.2.2.2⟩
  · refine (V3.abs_dot_le _ _).trans ?_
    rw [V3.norm_eq_one (by simp [IsUnit3, V3.dot]), one_mul]
    refine (V3.norm_cross_le _ _).trans ?_
    rw [V3.norm_eq_one hr.unit0, one_mul]
    have := V3.norm_add_le P1 ((rot h1 q2).mulVec (P2 + (rot h2 q3).mulVec (P3 + P4)))
    rw [i1.norm_mulVec] at this
    linarith
  · refine (V3.abs_dot_le _ _).trans (mul_le_mul_of_nonneg_left ?_ (V3.norm_nonneg _))
    refine (V3.norm_cross_le _ _).trans ?_
    rw [V3.norm_eq_one (pm_unit hr.par2), one_mul, i2.norm_mulVec]
  · refine (V3.abs_dot_le _ _).trans ?_
    rw [(rot_isRot _ hr.unit4 q5).norm_mulVec, V3.norm_eq_one hr.unit5, mul_one]
    refine (V3.norm_cross_le _ _).trans ?_
    rw [V3.norm_eq_one hr.unit3, V3.norm_eq_one hr.unit4, mul_one]
  · have := elbow_le_radius h2 P2 ((rot h2 q3).mulVec (P3 + P4))
    rw [i2.norm_mulVec] at this
    refine this.trans (le_of_eq ?_)
    congr 1
    exact cross_norm_par hr.par1 hr.par2 _

/-- C85: likewise for UR arms. -/
theorem C85_ur_margin {k : V3 ℝ} (hr : Spec.UrChain r k P0 P1 P2 P3 P4 P5 P6) (hl : P0.norm + P1.norm + P2.norm + P3.norm + P4.norm ≤ 19 / 10)
    {q1 q2 q3 q4 q5 q6 m : ℝ} (hd : Spec.DetAtLeast r [q1, q2, q3, q4, q5, q6] (4 * m)) :
    Spec.UrMargin k P2 P3 q3 m ∧ m ≤ |Real.sin q5| ∧
      m ≤ |V3.ey.dot (V3.ez.cross (P1 + (rot k q2).mulVec (P2 + (rot k q3).mulVec (P3 + (rot k q4).mulVec P4))))| := by
  obtain ⟨c1, c2, c3, c4, c5, c6, hJ, hdet⟩ := C85_ur_det hr q1 q2 q3 q4 q5 q6
  have h := hd _ _ _ _ _ _ hJ
  rw [hdet] at h
  have n0 := V3.norm_nonneg P0
  have n1 := V3.norm_nonneg P1
  have n4 := V3.norm_nonneg P4
  have uk := pm_unit hr.par
  have i1 := rot_isRot _ uk q2
  have i2 := rot_isRot _ uk q3
  have i3 := rot_isRot _ uk q4
  have l3 := V3.norm_add_le P3 ((rot k q4).mulVec P4)
  have l2 := V3.norm_add_le P2 ((rot k q3).mulVec (P3 + (rot k q4).mulVec P4))
  have l1 := V3.norm_add_le P1 ((rot k q2).mulVec (P2 + (rot k q3).mulVec (P3 + (rot k q4).mulVec P4)))
  rw [i3.norm_mulVec] at l3
  rw [i2.norm_mulVec] at l2
  rw [i1.norm_mulVec] at l1
  refine (fun h => ?_ : _ ∧ _ ∧ _ ∧ _ → _) (margins_of_prod (rad := (k.cross (P2 + (rot k q3).mulVec P3)).norm) (S := P1.norm + (P2.norm + (P3.norm + P4.norm)))
    (a := P2.norm) (b := P3.norm) (abs_nonneg _) (abs_nonneg _) (abs_nonneg _) (V3.norm_nonneg _) ?_ ?_ (Real.abs_sin_le_one q5)
    (V3.norm_nonneg _) (V3.norm_nonneg _) (by linarith) (by linarith) ?_ h)
  · exact ⟨⟨h.2.1, h.2.2.1⟩, h.2.2.2, h.1⟩
  · refine (V3.abs_dot_le _ _).trans ?_
    rw [V3.norm_eq_one (by simp [IsUnit3, V3.dot]), one_mul]
    refine (V3.norm_cross_le _ _).trans ?_
    rw [V3.norm_eq_one ez_unit, one_mul]
    linarith
  · refine (V3.abs_dot_le _ _).trans (mul_le_mul_of_nonneg_left ?_ (V3.norm_nonneg _))
    refine (V3.norm_cross_le _ _).trans ?_
    rw [V3.norm_eq_one uk, one_mul, i2.norm_mulVec]
  · have := elbow_le_radius k P2 ((rot k q3).mulVec P3)
    rwa [i2.norm_mulVec] at this

theorem gram {a b c : V3 ℝ} (ha : a.dot a = 1) (hb : b.dot b = 1) (hc : c.dot c = 1) (hab : a.dot b = 0) (hbc : b.dot c = 0) :
    (a.cross b).dot c ^ 2 = 1 - a.dot c ^ 2 := by
  have h : (a.cross b).dot c ^ 2 = a.dot a * b.dot b * c.dot c + 2 * (a.dot b * b.dot c * a.dot c) - a.dot a * b.dot c ^ 2 - b.dot b * a.dot c ^ 2
      - c.dot c * a.dot b ^ 2 := by
    simp [V3.dot]; ring
  rw [h, ha, hb, hc, hab, hbc]; ring

/-- C85: the Jacobian of such an arm is singular exactly at the three known kinds of configuration: wrist centre above joint 1, arm stretched (or
folded), fourth and sixth axes parallel. -/
theorem C85_wrist_singular_iff (hr : Spec.WristArm r h0 h1 h2 h3 h4 h5 P0 P1 P2 P3 P4 P5 P6) (hP4 : P4 = (P4.dot h3) • h3)
    (hP5 : P5 = (P5.dot h5) • h5) (q1 q2 q3 q4 q5 q6 : ℝ) : ∃ c1 c2 c3 c4 c5 c6, robotjacobian r [q1, q2, q3, q4, q5, q6] true = .ok [c1, c2, c3, c4, c5, c6] ∧
      (Spec.jacDet c1 c2 c3 c4 c5 c6 = 0 ↔ V3.ey.dot (h0.cross (P1 + (rot h1 q2).mulVec (P2 + (rot h2 q3).mulVec (P3 + P4)))) = 0 ∨
        P2.dot (h2.cross ((rot h2 q3).mulVec (P3 + P4))) = 0 ∨ h3.dot ((rot h4 q5).mulVec h5) ^ 2 = 1) := by
  obtain ⟨c1, c2, c3, c4, c5, c6, hJ, hdet⟩ := C85_wrist_det hr hP4 hP5 q1 q2 q3 q4 q5 q6
  refine ⟨c1, c2, c3, c4, c5, c6, hJ, ?_⟩
  have hw : (h3.cross h4).dot ((rot h4 q5).mulVec h5) ^ 2 = 1 - h3.dot ((rot h4 q5).mulVec h5) ^ 2 := by
    have i := rot_isRot _ hr.unit4 q5
    have w1 : ((rot h4 q5).mulVec h5).dot ((rot h4 q5).mulVec h5) = 1 := by rw [i.dot_mulVec]; exact hr.unit5
    have w2 : h4.dot ((rot h4 q5).mulVec h5) = 0 := by
      conv_lhs => rw [show h4.dot ((rot h4 q5).mulVec h5) = ((rot h4 q5).mulVec h4).dot ((rot h4 q5).mulVec h5) by rw [rot_axis]]
      rw [i.dot_mulVec, hr.perp45]
    generalize (rot h4 q5).mulVec h5 = w at w1 w2 ⊢
    exact gram hr.unit3 hr.unit4 w1 hr.perp34 w2
  rw [← abs_eq_zero, hdet, mul_eq_zero, mul_eq_zero, abs_eq_zero, abs_eq_zero, abs_eq_zero, or_assoc, ← sq_eq_zero_iff (a := (h3.cross h4).dot _), hw,
    sub_eq_zero, eq_comm (a := (1 : ℝ))]

/-- C85: the Jacobian of a UR arm is singular exactly where the meeting point of the last two axes is above joint 1 (seen along y), the elbow is
stretched or folded, or joint 5 is at a multiple of half a turn.  At the last, `ur_invkin` raises (`C60_ur_singular_raises`). -/
theorem C85_ur_singular_iff {k : V3 ℝ} (hr : Spec.UrChain r k P0 P1 P2 P3 P4 P5 P6) (q1 q2 q3 q4 q5 q6 : ℝ) :
    ∃ c1 c2 c3 c4 c5 c6, robotjacobian r [q1, q2, q3, q4, q5, q6] true = .ok [c1, c2, c3, c4, c5, c6] ∧
      (Spec.jacDet c1 c2 c3 c4 c5 c6 = 0 ↔
        V3.ey.dot (V3.ez.cross (P1 + (rot k q2).mulVec (P2 + (rot k q3).mulVec (P3 + (rot k q4).mulVec P4)))) = 0 ∨
        P2.dot (k.cross ((rot k q3).mulVec P3)) = 0 ∨ ∃ n : ℤ, q5 = n * Real.pi) := by
  obtain ⟨c1, c2, c3, c4, c5, c6, hJ, hdet⟩ := C85_ur_det hr q1 q2 q3 q4 q5 q6
  refine ⟨c1, c2, c3, c4, c5, c6, hJ, ?_⟩
  rw [← abs_eq_zero, hdet, mul_eq_zero, mul_eq_zero, abs_eq_zero, abs_eq_zero, abs_eq_zero, or_assoc, Real.sin_eq_zero_iff]
  simp only [eq_comm (a := q5)]

/-- C85 with C83: in floating point the spherical wrist solver returns all joint vectors that reach the pose, and only such, wherever the determinants
of the Jacobian at these joint vectors are bounded away from zero (and joint 1 leaves the elbow a distance that it can produce, or that is out of
reach by a margin).  The other hypotheses are those of `C83_robot6_coord_partial`. -/
theorem C85_robot6_rounding {F : FSys} (hF : Spec.InvAcc F) (hE : Spec.ExactRnd F) (hr : Spec.WristArm r h0 h1 h2 h3 h4 h5 P0 P1 P2 P3 P4 P5 P6)
    (k3 : Spec.CoordAxis h3) (k4 : Spec.CoordAxis h4) (k5 : Spec.CoordAxis h5)
    (hP4 : P4 = (P4.dot h3) • h3) (hP5 : P5 = (P5.dot h5) • h5) (hl : P0.norm + P1.norm + P2.norm + (P3.norm + P4.norm) ≤ 19 / 10)
    (hl6 : P6.norm + P5.norm ≤ 1) (r' : Robot (Fl F)) (hr' : Spec.RobotNear r' r) (hlim : r'.lower = none ∨ r'.upper = none)
    (hH' : r'.H.tail = [h1, h2, h3, h4, h5].map (V3.map Fl.of)) (c4 c5 : ℝ) (hc4 : Fl.Rep F c4) (hc5 : Fl.Rep F c5)
    (hP4' : r'.P[4]? = some ((c4 • h3).map Fl.of)) (hP5' : r'.P[5]? = some ((c5 • h5).map Fl.of))
    (T : Transform ℝ) (q1 q2 q3 q4 q5 q6 : ℝ) (hT : fwdkin r [q1, q2, q3, q4, q5, q6] true = .ok T)
    (T' : Transform (Fl F)) (ε : ℝ) (hR' : Spec.MNear T'.R T.R ε) (hp' : Spec.VNear T'.p T.p ε)
    (L : ℝ) (hL : 1 ≤ L) (hlen : T.p.norm + Spec.auxLength r ≤ L) (hbig : 5 * L ≤ F.big)
    (hu0 : 0 < F.u) (hu : F.u ≤ 1 / 100000000000) (hη : 16 * F.η ≤ F.u ^ 3) (m δ : ℝ) (hm : 1 / 1000000 ≤ m)
    (hdet : ∀ q1 q2 q3 q4 q5 q6, fwdkin r [q1, q2, q3, q4, q5, q6] true = .ok T → Spec.DetAtLeast r [q1, q2, q3, q4, q5, q6] (4 * m))
    (hreach : Spec.ReachDecided h0 h2 P0 P1 P2 (P3 + P4) (Spec.wristCentre r P5 P6 T) m)
    (hδ : 960 / (33554432 * m ^ 3) + (1100000 * ε + 3500000000 * F.u) * L / m ^ 5 ≤ δ) (hδ1 : δ ≤ 1 / 5) :
    ∃ sols, (robot6_sphericalwrist_invkin r' T').2 = .ok sols ∧
      (∀ row ∈ sols, ∃ q, fwdkin r q true = .ok T ∧ Spec.RowNear row q δ) ∧
      (∀ q1 q2 q3 q4 q5 q6, fwdkin r [q1, q2, q3, q4, q5, q6] true = .ok T → ∃ row ∈ sols, Spec.RowNear row [q1, q2, q3, q4, q5, q6] δ) :=
  C83_robot6_coord_partial hF hE hr k3 k4 k5 hP4 hP5 hl hl6 r' hr' hlim hH' c4 c5 hc4 hc5 hP4' hP5' T q1 q2 q3 q4 q5 q6 hT T' ε hR' hp' L hL hlen hbig
    hu0 hu hη m δ hm (fun _ _ _ _ _ _ h => C85_wrist_margin hr hP4 hP5 hl (hdet _ _ _ _ _ _ h)) hreach hδ hδ1

/-- C85 with C84: likewise for UR arms. -/
theorem C85_ur_rounding {F : FSys} {k : V3 ℝ} (hF : Spec.InvAcc F) (hE : Spec.ExactRnd F) (hr : Spec.UrChain r k P0 P1 P2 P3 P4 P5 P6)
    (hl : P0.norm + P1.norm + P2.norm + P3.norm + P4.norm ≤ 19 / 10) (hl6 : P6.norm + P5.norm ≤ 1)
    (r' : Robot (Fl F)) (hr' : Spec.RobotNear r' r) (hlim : r'.lower = none ∨ r'.upper = none) (hH' : r'.H = r.H.map (V3.map Fl.of))
    (T : Transform ℝ) (q1 q2 q3 q4 q5 q6 : ℝ) (hT : fwdkin r [q1, q2, q3, q4, q5, q6] true = .ok T)
    (T' : Transform (Fl F)) (ε : ℝ) (hR' : Spec.MNear T'.R T.R ε) (hp' : Spec.VNear T'.p T.p ε)
    (L : ℝ) (hL : 1 ≤ L) (hlen : T.p.norm + Spec.auxLength r ≤ L) (hbig : 5 * L ≤ F.big)
    (hu0 : 0 < F.u) (hu : F.u ≤ 1 / 100000000000) (hη : 16 * F.η ≤ F.u ^ 3) (m δ : ℝ) (hm : 1 / 1000000 ≤ m)
    (hdet : ∀ q1 q2 q3 q4 q5 q6, fwdkin r [q1, q2, q3, q4, q5, q6] true = .ok T → Spec.DetAtLeast r [q1, q2, q3, q4, q5, q6] (4 * m))
    (hdec : Spec.UrDecided k P0 P1 P2 P3 P4 (unapplyAux r T).R (Spec.wristCentre r P5 P6 T) m)
    (hδ : 160 / (33554432 * m ^ 3) + (200000 * ε + 610000000 * F.u) * L / m ^ 5 ≤ δ) (hδ1 : δ ≤ 1 / 5) :
    ∃ sols, ur_invkin r' T' = .ok sols ∧
      (∀ row ∈ sols, ∃ q, fwdkin r q true = .ok T ∧ Spec.RowNear row q δ) ∧
      (∀ q1 q2 q3 q4 q5 q6, fwdkin r [q1, q2, q3, q4, q5, q6] true = .ok T → ∃ row ∈ sols, Spec.RowNear row [q1, q2, q3, q4, q5, q6] δ) :=
  C84_ur_rounding hF hE hr hl hl6 r' hr' hlim hH' T q1 q2 q3 q4 q5 q6 hT T' ε hR' hp' L hL hlen hbig hu0 hu hη m δ hm
    (fun _ _ _ _ _ _ h => (C85_ur_margin hr hl (hdet _ _ _ _ _ _ h)).1) hdec hδ hδ1

end

/-! ## Concrete arms -/

/-- An arm with links of 7/8. -/
noncomputable def B64Wrist.long : Robot ℝ :=
  { H := [V3.ez, V3.ey, V3.ey, V3.ex, V3.ey, V3.ex], P := [0, 0, ⟨0, 0, 7 / 8⟩, ⟨7 / 8, 0, 0⟩, 0, 0, ⟨1 / 2, 0, 0⟩],
    jointType := [0, 0, 0, 0, 0, 0], lower := none, upper := none }

theorem B64Wrist.long_wrist : Spec.WristArm B64Wrist.long V3.ez V3.ey V3.ey V3.ex V3.ey V3.ex 0 0 ⟨0, 0, 7 / 8⟩ ⟨7 / 8, 0, 0⟩ 0 0 ⟨1 / 2, 0, 0⟩ where
  types := rfl
  axes := rfl
  links := rfl
  unit0 := by simp [IsUnit3]
  unit3 := by simp [IsUnit3]
  unit4 := by simp [IsUnit3]
  unit5 := by simp [IsUnit3]
  par1 := .inl rfl
  par2 := .inl rfl
  perp34 := by simp [V3.dot]
  perp45 := by simp [V3.dot]
  first := ⟨0, by ext <;> simp⟩
  level := by simp [V3.dot]
  base := by intro B h; cases h
  flange := by intro B h; cases h
  tool := by intro B h; cases h

theorem axis_zero (h : V3 ℝ) : (0 : V3 ℝ) = ((0 : V3 ℝ).dot h) • h := by ext <;> simp [V3.dot]

/-- the determinant of this arm -/
theorem B64Wrist.long_det (q1 q2 q3 q4 q5 q6 : ℝ) : ∃ c1 c2 c3 c4 c5 c6, robotjacobian B64Wrist.long [q1, q2, q3, q4, q5, q6] true = .ok [c1, c2, c3, c4, c5, c6] ∧
    |Spec.jacDet c1 c2 c3 c4 c5 c6| = 343 / 512 * (|Real.sin q2 + Real.cos (q2 + q3)| * |Real.cos q3| * |Real.sin q5|) := by
  obtain ⟨c1, c2, c3, c4, c5, c6, hJ, hdet⟩ := C85_wrist_det B64Wrist.long_wrist (axis_zero _) (axis_zero _) q1 q2 q3 q4 q5 q6
  refine ⟨c1, c2, c3, c4, c5, c6, hJ, ?_⟩
  rw [hdet]
  have e1 : V3.ey.dot (V3.ez.cross (0 + (rot V3.ey q2).mulVec (⟨0, 0, 7 / 8⟩ + (rot V3.ey q3).mulVec (⟨7 / 8, 0, 0⟩ + 0)))) =
      7 / 8 * (Real.sin q2 + Real.cos (q2 + q3)) := by
    rw [Real.cos_add]; simp [rot, V3.dot]; ring
  have e2 : (⟨0, 0, 7 / 8⟩ : V3 ℝ).dot (V3.ey.cross ((rot V3.ey q3).mulVec (⟨7 / 8, 0, 0⟩ + 0))) = -(49 / 64 * Real.cos q3) := by
    simp [rot, V3.dot]; ring
  have e3 : (V3.ex.cross V3.ey : V3 ℝ).dot ((rot V3.ey q5).mulVec V3.ex) = -Real.sin q5 := by simp [rot, V3.dot]
  rw [e1, e2, e3, abs_neg, abs_neg, abs_mul, abs_mul, abs_of_pos (show (0 : ℝ) < 7 / 8 by norm_num), abs_of_pos (show (0 : ℝ) < 49 / 64 by norm_num)]
  ring

-- both cases of `C85_wrist_singular_iff` occur: the arm is singular with the hand along the forearm, and not with forearm level and the hand across
example : (∃ c1 c2 c3 c4 c5 c6, robotjacobian B64Wrist.long [0, 0, 0, 0, 0, 0] true = .ok [c1, c2, c3, c4, c5, c6] ∧ Spec.jacDet c1 c2 c3 c4 c5 c6 = 0) ∧
    ∃ c1 c2 c3 c4 c5 c6, robotjacobian B64Wrist.long [0, 0, 0, 0, Real.pi / 2, 0] true = .ok [c1, c2, c3, c4, c5, c6] ∧
      |Spec.jacDet c1 c2 c3 c4 c5 c6| = 343 / 512 := by
  obtain ⟨c1, c2, c3, c4, c5, c6, h, e⟩ := B64Wrist.long_det 0 0 0 0 0 0
  obtain ⟨d1, d2, d3, d4, d5, d6, h', e'⟩ := B64Wrist.long_det 0 0 0 0 (Real.pi / 2) 0
  refine ⟨⟨c1, c2, c3, c4, c5, c6, h, by simpa using e⟩, d1, d2, d3, d4, d5, d6, h', by simpa using e'⟩

/-- The arm stored exactly: all its numbers are representable. -/
noncomputable def B64Wrist.long' (F : FSys) : Robot (Fl F) :=
  { H := B64Wrist.long.H.map (V3.map Fl.of), P := B64Wrist.long.P.map (V3.map Fl.of), jointType := [0, 0, 0, 0, 0, 0], lower := none, upper := none }

theorem B64Wrist.long_near (F : FSys) : Spec.RobotNear (B64Wrist.long' F) B64Wrist.long where
  types := rfl
  axes := by
    have e : ∀ v : V3 ℝ, IsUnit3 v → IsUnit3 v ∧ Spec.VNear (F := F) (v.map Fl.of) v F.u := fun v h => ⟨h, Fl.vNear_self v F.u_nonneg⟩
    exact .cons (e V3.ez (by simp [IsUnit3])) (.cons (e V3.ey (by simp [IsUnit3])) (.cons (e V3.ey (by simp [IsUnit3])) (.cons (e V3.ex (by simp [IsUnit3]))
      (.cons (e V3.ey (by simp [IsUnit3])) (.cons (e V3.ex (by simp [IsUnit3])) .nil)))))
  links := by
    have e : ∀ v : V3 ℝ, Spec.VNear (F := F) (v.map Fl.of) v (F.u * v.norm) := fun v => Fl.vNear_self v (mul_nonneg F.u_nonneg (V3.norm_nonneg _))
    exact .cons (e _) (.cons (e _) (.cons (e _) (.cons (e _) (.cons (e _) (.cons (e _) (.cons (e _) .nil))))))
  flange := .none
  base := .none
  toolR := .none
  toolp := .none

/-- every solution for the pose with level forearm and hand along y has a determinant of 343/512 -/
theorem B64Wrist.long_solutions {T : Transform ℝ} (hT : fwdkin B64Wrist.long [0, 0, 0, Real.pi / 2, Real.pi / 2, 0] true = .ok T) (q1 q2 q3 q4 q5 q6 : ℝ)
    (h : fwdkin B64Wrist.long [q1, q2, q3, q4, q5, q6] true = .ok T) : Spec.DetAtLeast B64Wrist.long [q1, q2, q3, q4, q5, q6] (4 * (1 / 6)) := by
  obtain ⟨e1, e2⟩ := wristArm_pose B64Wrist.long_wrist (axis_zero _) (axis_zero _) hT
  obtain ⟨f1, f2⟩ := wristArm_pose B64Wrist.long_wrist (axis_zero _) (axis_zero _) h
  rw [e2] at f2
  rw [e1] at f1
  have f3 := congrArg (fun M => M.mulVec V3.ex) f1
  simp only [← M3.mulVec_mulVec, rot_zero, M3.one_mulVec] at f3
  rw [rot_axis V3.ex q6] at f3
  simp [Spec.wristAt, rot, V3.ext_iff] at f2 f3
  have p1 := Real.sin_sq_add_cos_sq q1
  have p2 := Real.sin_sq_add_cos_sq q2
  have p3 := Real.sin_sq_add_cos_sq q3
  have p5 := Real.sin_sq_add_cos_sq q5
  obtain ⟨g1, g2, g3⟩ := f2
  obtain ⟨k1, -, k3⟩ := f3
  have s1 : Real.sin q1 = 0 := g2.resolve_right fun h => by rw [h] at g1; norm_num at g1
  rw [s1] at p1 k1
  have c1 : Real.cos q1 ≠ 0 := fun h => by rw [h] at p1; norm_num at p1
  simp only [zero_mul, neg_zero, add_zero] at k1
  have k1' := (mul_eq_zero.1 k1.symm).resolve_left c1
  have ha : (Real.cos q2 * Real.cos q3 + Real.sin q2 * (1 - Real.sin q3)) ^ 2 = 1 := by
    have := congrArg (fun x : ℝ => (8 / 7 * x) ^ 2) g1
    beta_reduce at this
    linear_combination -this - (Real.cos q2 * Real.cos q3 + Real.sin q2 * (1 - Real.sin q3)) ^ 2 * p1
  have s3 : Real.sin q3 = 0 := by
    have hb := congrArg (fun x : ℝ => (8 / 7 * x) ^ 2) g3
    beta_reduce at hb
    linear_combination (1 / 2) * p3 * (Real.sin q2 ^ 2 + Real.cos q2 ^ 2) + (1 - Real.sin q3) * p2 - 1 / 2 * ha + 1 / 2 * hb
  have c3 : Real.cos q3 ^ 2 = 1 := by rw [s3] at p3; linarith
  have c5 : Real.cos q5 = 0 := by
    rw [s3] at k1' k3
    have : Real.cos q3 * Real.cos q5 = 0 := by
      linear_combination Real.cos q2 * k1' + Real.sin q2 * k3 - Real.cos q3 * Real.cos q5 * p2
    rcases mul_eq_zero.1 this with h | h
    · rw [h] at c3; norm_num at c3
    · exact h
  have s5 : Real.sin q5 ^ 2 = 1 := by rw [c5] at p5; linarith
  intro c1 c2 c3 c4 c5 c6 hJ
  obtain ⟨d1, d2, d3, d4, d5, d6, hJ', hdet⟩ := B64Wrist.long_det q1 q2 q3 q4 q5 q6
  rw [hJ'] at hJ
  obtain ⟨rfl, rfl, rfl, rfl, rfl, rfl⟩ : d1 = c1 ∧ d2 = c2 ∧ d3 = c3 ∧ d4 = c4 ∧ d5 = c5 ∧ d6 = c6 := by simpa using hJ
  have one : ∀ {x : ℝ}, x ^ 2 = 1 → |x| = 1 := fun {x} hx => by rw [← Real.sqrt_sq_eq_abs, hx, Real.sqrt_one]
  rw [hdet, one s5, one (x := Real.cos q3) (by assumption), one]
  · norm_num
  · rw [Real.cos_add]; linear_combination ha

theorem B64Wrist.long_reach {T : Transform ℝ} (hT : fwdkin B64Wrist.long [0, 0, 0, Real.pi / 2, Real.pi / 2, 0] true = .ok T) (m : ℝ) :
    Spec.ReachDecided V3.ez V3.ey 0 0 ⟨0, 0, 7 / 8⟩ (⟨7 / 8, 0, 0⟩ + 0) (Spec.wristCentre B64Wrist.long 0 ⟨1 / 2, 0, 0⟩ T) m := by
  intro q1 g hb _
  obtain ⟨-, e2⟩ := wristArm_pose B64Wrist.long_wrist (axis_zero _) (axis_zero _) hT
  rw [Spec.wristCentre, e2] at hb
  refine .inl ⟨0, ?_⟩
  have e : (⟨0, 0, 7 / 8⟩ + (⟨7 / 8, 0, 0⟩ + 0) : V3 ℝ) = (rot V3.ez q1).mulVec g := by
    simp only [Spec.wristAt, rot_zero, M3.one_mulVec, V3.ext_iff] at hb ⊢
    simpa using hb
  rw [rot_zero, M3.one_mulVec, e, (rot_isRot _ (by simp [IsUnit3]) _).norm_mulVec]

/-- Non-vacuity of `C85_robot6_rounding`: the concrete arm in binary64 with a correctly rounded library, and a pose known up to 1e-12. -/
example : ∃ T, fwdkin B64Wrist.long [0, 0, 0, Real.pi / 2, Real.pi / 2, 0] true = .ok T ∧ ∀ (T' : Transform (Fl (b64 Libm.rounded))),
    Spec.MNear T'.R T.R (1 / 1000000000000) → Spec.VNear T'.p T.p (1 / 1000000000000) →
    ∃ sols, (robot6_sphericalwrist_invkin (B64Wrist.long' _) T').2 = .ok sols ∧
      (∀ row ∈ sols, ∃ q, fwdkin B64Wrist.long q true = .ok T ∧ Spec.RowNear row q (1 / 10)) ∧
      (∀ q1 q2 q3 q4 q5 q6, fwdkin B64Wrist.long [q1, q2, q3, q4, q5, q6] true = .ok T →
        ∃ row ∈ sols, Spec.RowNear row [q1, q2, q3, q4, q5, q6] (1 / 10)) := by
  have hT := fwdkin_chain6 B64Wrist.long_wrist.types B64Wrist.long_wrist.axes B64Wrist.long_wrist.links 0 0 0 (Real.pi / 2) (Real.pi / 2) 0
  refine ⟨_, hT, fun T' hR hp => ?_⟩
  have nz : (⟨0, 0, 7 / 8⟩ : V3 ℝ).norm ≤ 7 / 8 := by rw [V3.norm_eq]; exact Real.sqrt_le_iff.2 ⟨by norm_num, by norm_num [V3.dot]⟩
  have nx : (⟨7 / 8, 0, 0⟩ : V3 ℝ).norm ≤ 7 / 8 := by rw [V3.norm_eq]; exact Real.sqrt_le_iff.2 ⟨by norm_num, by norm_num [V3.dot]⟩
  have nh : (⟨1 / 2, 0, 0⟩ : V3 ℝ).norm ≤ 1 / 2 := by rw [V3.norm_eq]; exact Real.sqrt_le_iff.2 ⟨by norm_num, by norm_num [V3.dot]⟩
  have z' : ∀ h : V3 ℝ, (0 : ℝ) • h = 0 := by intro h; ext <;> simp
  refine C85_robot6_rounding invAcc_rounded (b64_exactRnd _) B64Wrist.long_wrist (.inl rfl) (.inr (.inl rfl)) (.inl rfl) (axis_zero _) (axis_zero _)
    (by rw [V3.norm_zero]; linarith) (by rw [V3.norm_zero]; linarith) _
    (B64Wrist.long_near _) (.inl rfl) rfl 0 0 Fl.Rep.zero Fl.Rep.zero (by rw [z']; rfl) (by rw [z']; rfl) _ 0 0 0 (Real.pi / 2) (Real.pi / 2) 0 hT T' _ hR hp
    2 (by norm_num) ?_ ?_ ?_ ?_ (b64_eta _) (1 / 6) (1 / 10) (by norm_num) (B64Wrist.long_solutions hT) (B64Wrist.long_reach hT _) ?_ (by norm_num)
  · simp only [rot_zero, M3.one_mulVec]
    rw [show Spec.auxLength B64Wrist.long = 0 by simp [Spec.auxLength, B64Wrist.long], add_zero, V3.norm_eq]
    refine Real.sqrt_le_iff.2 ⟨by norm_num, ?_⟩
    simp [applyAux, B64Wrist.long, rot, V3.dot]
    norm_num
  · have := (b64 Libm.rounded).big_ge; linarith
  · rw [b64_u]; positivity
  · rw [b64_u]; norm_num
  · rw [b64_u]; norm_num

namespace B64Ur

/-- An arm with the axes of the UR robots, links of 3/4 and an offset of 3/8 between joints 4 and 5. -/
noncomputable def long : Robot ℝ :=
  { H := [V3.ez, V3.ey, V3.ey, V3.ey, -V3.ez, V3.ey], P := [0, 0, ⟨0, 0, 3 / 4⟩, ⟨0, 0, 3 / 4⟩, ⟨0, 3 / 8, 0⟩, 0, 0]
    jointType := [0, 0, 0, 0, 0, 0], lower := none, upper := none }

theorem long_chain : Spec.UrChain long V3.ey 0 0 ⟨0, 0, 3 / 4⟩ ⟨0, 0, 3 / 4⟩ ⟨0, 3 / 8, 0⟩ 0 0 where
  types := rfl
  axes := rfl
  links := rfl
  par := .inl rfl
  first := ⟨0, by ext <;> simp⟩
  wrist := ⟨0, by ext <;> simp⟩
  base := by intro B h; cases h
  flange := by intro B h; cases h
  tool := by intro B h; cases h

/-- The arm stored exactly: all its numbers are representable. -/
noncomputable def long' (F : FSys) : Robot (Fl F) :=
  { H := long.H.map (V3.map Fl.of), P := long.P.map (V3.map Fl.of), jointType := [0, 0, 0, 0, 0, 0], lower := none, upper := none }

theorem long_near (F : FSys) : Spec.RobotNear (long' F) long where
  types := rfl
  axes := by
    have e : ∀ v : V3 ℝ, IsUnit3 v → IsUnit3 v ∧ Spec.VNear (F := F) (v.map Fl.of) v F.u := fun v h => ⟨h, Fl.vNear_self v F.u_nonneg⟩
    exact .cons (e V3.ez (by simp [IsUnit3])) (.cons (e V3.ey (by simp [IsUnit3])) (.cons (e V3.ey (by simp [IsUnit3])) (.cons (e V3.ey (by simp [IsUnit3]))
      (.cons (e (-V3.ez) (by simp [IsUnit3])) (.cons (e V3.ey (by simp [IsUnit3])) .nil)))))
  links := by
    have e : ∀ v : V3 ℝ, Spec.VNear (F := F) (v.map Fl.of) v (F.u * v.norm) := fun v => Fl.vNear_self v (mul_nonneg F.u_nonneg (V3.norm_nonneg _))
    exact .cons (e _) (.cons (e _) (.cons (e _) (.cons (e _) (.cons (e _) (.cons (e _) (.cons (e _) .nil))))))
  flange := .none
  base := .none
  toolR := .none
  toolp := .none

/-- the determinant of this arm -/
theorem long_det (q1 q2 q3 q4 q5 q6 : ℝ) : ∃ c1 c2 c3 c4 c5 c6, robotjacobian long [q1, q2, q3, q4, q5, q6] true = .ok [c1, c2, c3, c4, c5, c6] ∧
    |Spec.jacDet c1 c2 c3 c4 c5 c6| = 27 / 64 * (|Real.sin q2 + Real.sin (q2 + q3)| * |Real.sin q3| * |Real.sin q5|) := by
  obtain ⟨c1, c2, c3, c4, c5, c6, hJ, hdet⟩ := C85_ur_det long_chain q1 q2 q3 q4 q5 q6
  refine ⟨c1, c2, c3, c4, c5, c6, hJ, ?_⟩
  rw [hdet]
  have e1 : V3.ey.dot (V3.ez.cross (0 + (rot V3.ey q2).mulVec (⟨0, 0, 3 / 4⟩ + (rot V3.ey q3).mulVec (⟨0, 0, 3 / 4⟩ + (rot V3.ey q4).mulVec ⟨0, 3 / 8, 0⟩)))) =
      3 / 4 * (Real.sin q2 + Real.sin (q2 + q3)) := by
    rw [Real.sin_add]; simp [rot, V3.dot]; ring
  have e2 : (⟨0, 0, 3 / 4⟩ : V3 ℝ).dot (V3.ey.cross ((rot V3.ey q3).mulVec ⟨0, 0, 3 / 4⟩)) = -(9 / 16 * Real.sin q3) := by
    simp [rot, V3.dot]; ring
  rw [e1, e2, abs_neg, abs_mul, abs_mul, abs_of_pos (show (0 : ℝ) < 3 / 4 by norm_num), abs_of_pos (show (0 : ℝ) < 9 / 16 by norm_num)]
  ring

-- both cases of `C85_ur_singular_iff` occur
example : (∃ c1 c2 c3 c4 c5 c6, robotjacobian long [0, 0, Real.pi / 2, 0, 0, 0] true = .ok [c1, c2, c3, c4, c5, c6] ∧ Spec.jacDet c1 c2 c3 c4 c5 c6 = 0) ∧
    ∃ c1 c2 c3 c4 c5 c6, robotjacobian long [0, 0, Real.pi / 2, 0, Real.pi / 2, 0] true = .ok [c1, c2, c3, c4, c5, c6] ∧
      |Spec.jacDet c1 c2 c3 c4 c5 c6| = 27 / 64 := by
  obtain ⟨c1, c2, c3, c4, c5, c6, h, e⟩ := long_det 0 0 (Real.pi / 2) 0 0 0
  obtain ⟨d1, d2, d3, d4, d5, d6, h', e'⟩ := long_det 0 0 (Real.pi / 2) 0 (Real.pi / 2) 0
  refine ⟨⟨c1, c2, c3, c4, c5, c6, h, by simpa using e⟩, d1, d2, d3, d4, d5, d6, h', by simpa using e'⟩

section
variable {T : Transform ℝ} (hT : fwdkin long [0, 0, Real.pi / 2, 0, Real.pi / 2, 0] true = .ok T)
include hT

theorem long_pose : (unapplyAux long T).R.mulVec V3.ey = -V3.ez ∧ Spec.wristCentre long 0 0 T = ⟨3 / 4, 3 / 8, 3 / 4⟩ := by
  obtain ⟨h1, h2⟩ := ur_solve long_chain hT
  rw [h1, h2]
  constructor <;> ext <;> simp [rot]

/-- every candidate for the shoulder and the wrist, with what it leaves to upper arm and forearm -/
theorem long_solved {q1 q24 q5 q6 : ℝ} {g : V3 ℝ} (hR : (unapplyAux long T).R = rot V3.ez q1 * rot V3.ey q24 * rot (-V3.ez) q5 * rot V3.ey q6)
    (hc : Spec.wristCentre long 0 0 T = 0 + (rot V3.ez q1).mulVec (0 + (g + (rot V3.ey q24).mulVec ⟨0, 3 / 8, 0⟩))) (hy : g.y = 0) :
    g.x ^ 2 = 9 / 16 ∧ g.z = 3 / 4 ∧ Real.sin q5 ^ 2 = 1 := by
  obtain ⟨p1, p2⟩ := long_pose hT
  rw [p2] at hc
  rw [hR] at p1
  simp only [← M3.mulVec_mulVec] at p1
  rw [rot_axis V3.ey q6] at p1
  have s1 := Real.sin_sq_add_cos_sq q1
  have s5 := Real.sin_sq_add_cos_sq q5
  simp [rot, V3.ext_iff, hy] at hc p1
  obtain ⟨c1, c2, c3⟩ := hc
  obtain ⟨d1, d2, d3⟩ := p1
  have e5 : Real.cos q5 = 0 := by linear_combination -Real.sin q1 * d1 + Real.cos q1 * d2 - Real.cos q5 * s1
  rw [e5] at s5
  refine ⟨?_, c3.symm, by linarith⟩
  have t1 := congrArg (fun x : ℝ => x ^ 2) c1
  have t2 := congrArg (fun x : ℝ => x ^ 2) c2
  beta_reduce at t1 t2
  linear_combination -(g.x ^ 2 + 9 / 64) * s1 - t1 - t2

theorem long_decided : Spec.UrDecided V3.ey 0 0 ⟨0, 0, 3 / 4⟩ ⟨0, 0, 3 / 4⟩ ⟨0, 3 / 8, 0⟩ (unapplyAux long T).R (Spec.wristCentre long 0 0 T) (1 / 10) := by
  intro q1 q24 q5 q6 g hR hc hy
  have hy : g.y = 0 := by simpa [V3.dot] using hy
  obtain ⟨h1, h2, h3⟩ := long_solved hT hR hc hy
  refine ⟨?_, ?_, .inl ⟨Real.pi / 2, ?_⟩⟩
  · have : V3.ey.dot (V3.ez.cross (0 + (g + (rot V3.ey q24).mulVec ⟨0, 3 / 8, 0⟩))) = g.x := by simp [rot, V3.dot]
    rw [this]
    refine abs_le_of_sq_le_sq' ?_ (abs_nonneg _) |>.2
    rw [sq_abs, h1]; norm_num
  · refine abs_le_of_sq_le_sq' ?_ (abs_nonneg _) |>.2
    rw [sq_abs, h3]; norm_num
  · rw [V3.norm_eq, V3.norm_eq]
    congr 1
    simp [rot, V3.dot, hy, h2]
    linarith

/-- every solution for this pose has a determinant of 27/64 -/
theorem long_solutions (q1 q2 q3 q4 q5 q6 : ℝ) (h : fwdkin long [q1, q2, q3, q4, q5, q6] true = .ok T) :
    Spec.DetAtLeast long [q1, q2, q3, q4, q5, q6] (4 * (1 / 10)) := by
  obtain ⟨hR, hc⟩ := ur_solve long_chain h
  obtain ⟨h1, h2, s5⟩ := long_solved hT hR hc (by simp [rot])
  have s2 := Real.sin_sq_add_cos_sq q2
  have s3 := Real.sin_sq_add_cos_sq q3
  simp [rot] at h1 h2
  have ha : (Real.sin q2 + Real.sin (q2 + q3)) ^ 2 = 1 := by
    rw [Real.sin_add]; linear_combination 16 / 9 * h1
  have e3 : Real.cos q3 = 0 := by
    have t2 := congrArg (fun x : ℝ => x ^ 2) h2
    beta_reduce at t2
    linear_combination 8 / 9 * h1 + 8 / 9 * t2 - (Real.sin q3 ^ 2 + (1 + Real.cos q3) ^ 2) / 2 * s2 - 1 / 2 * s3
  rw [e3] at s3
  intro c1 c2 c3 c4 c5 c6 hJ
  obtain ⟨d1, d2, d3, d4, d5, d6, hJ', hdet⟩ := long_det q1 q2 q3 q4 q5 q6
  rw [hJ'] at hJ
  obtain ⟨rfl, rfl, rfl, rfl, rfl, rfl⟩ : d1 = c1 ∧ d2 = c2 ∧ d3 = c3 ∧ d4 = c4 ∧ d5 = c5 ∧ d6 = c6 := by simpa using hJ
  have one : ∀ {x : ℝ}, x ^ 2 = 1 → |x| = 1 := fun {x} hx => by rw [← Real.sqrt_sq_eq_abs, hx, Real.sqrt_one]
  rw [hdet, one s5, one (x := Real.sin q3) (by linarith), one ha]
  norm_num

end

/-- Non-vacuity of `C85_ur_rounding`: the concrete arm in binary64 with a correctly rounded library, and a pose known up to 1e-12. -/
example : ∃ T, fwdkin long [0, 0, Real.pi / 2, 0, Real.pi / 2, 0] true = .ok T ∧ ∀ (T' : Transform (Fl (b64 Libm.rounded))),
    Spec.MNear T'.R T.R (1 / 1000000000000) → Spec.VNear T'.p T.p (1 / 1000000000000) →
    ∃ sols, ur_invkin (long' _) T' = .ok sols ∧
      (∀ row ∈ sols, ∃ q, fwdkin long q true = .ok T ∧ Spec.RowNear row q (1 / 5)) ∧
      (∀ q1 q2 q3 q4 q5 q6, fwdkin long [q1, q2, q3, q4, q5, q6] true = .ok T →
        ∃ row ∈ sols, Spec.RowNear row [q1, q2, q3, q4, q5, q6] (1 / 5)) := by
  have hT := fwdkin_chain6 long_chain.types long_chain.axes long_chain.links 0 0 (Real.pi / 2) 0 (Real.pi / 2) 0
  refine ⟨_, hT, fun T' hR hp => ?_⟩
  have nz : (⟨0, 0, 3 / 4⟩ : V3 ℝ).norm ≤ 3 / 4 := by rw [V3.norm_eq]; exact Real.sqrt_le_iff.2 ⟨by norm_num, by norm_num [V3.dot]⟩
  have ny : (⟨0, 3 / 8, 0⟩ : V3 ℝ).norm ≤ 3 / 8 := by rw [V3.norm_eq]; exact Real.sqrt_le_iff.2 ⟨by norm_num, by norm_num [V3.dot]⟩
  refine C85_ur_rounding invAcc_rounded (b64_exactRnd _) long_chain (by rw [V3.norm_zero]; linarith) (by rw [V3.norm_zero]; norm_num) _
    (long_near _) (.inl rfl) rfl _ 0 0 (Real.pi / 2) 0 (Real.pi / 2) 0 hT T' _ hR hp
    2 (by norm_num) ?_ ?_ ?_ ?_ (b64_eta _) (1 / 10) (1 / 5) (by norm_num) (long_solutions hT) (long_decided hT) ?_ (by norm_num)
  · simp only [rot_zero, M3.one_mulVec]
    rw [show Spec.auxLength long = 0 by simp [Spec.auxLength, long], add_zero, V3.norm_eq]
    refine Real.sqrt_le_iff.2 ⟨by norm_num, ?_⟩
    simp [applyAux, long, rot, V3.dot]
    norm_num
  · have := (b64 Libm.rounded).big_ge; linarith
  · rw [b64_u]; positivity
  · rw [b64_u]; norm_num
  · rw [b64_u]; norm_num

end B64Ur
