import Verif.Lemmas.Opw

/-! # Properties C55, C56: solver parameters extracted from a robot -/
set_option autoImplicit false

/-! ## C55 -/

/-- A robot with an orthogonal-parallel base and a spherical wrist, stretched out along `w` (the x axis for a horizontal forearm, the z
axis for a vertical one) when all joints are zero. -/
structure Spec.OpwArm (robot : Robot ℝ) (w : V3 ℝ) (s0 s1 s2 s3 s4 s5 : ℤ) (z0 : ℝ) (p1 p2 p3 : V3 ℝ) (x4 x5 x6 : ℝ) : Prop where
  types : robot.jointType = [0, 0, 0, 0, 0, 0]
  signs : ∀ s ∈ [s0, s1, s2, s3, s4, s5], s = 1 ∨ s = -1
  axes : robot.H = [(s0 : ℝ) • V3.ez, (s1 : ℝ) • V3.ey, (s2 : ℝ) • V3.ey, (s3 : ℝ) • w, (s4 : ℝ) • V3.ey, (s5 : ℝ) • w]
  links : robot.P = [⟨0, 0, z0⟩, p1, p2, p3, x4 • w, x5 • w, x6 • w]
  flange : ∃ pa ch, robot.Tflange = some ⟨rot V3.ey (Real.pi / 2), 0, pa, ch⟩

/-- The pose of the flange seen from the base of the robot, without the tool. -/
noncomputable def Spec.flangePose (robot : Robot ℝ) (θ : List ℝ) : Except PyErr (Transform ℝ) :=
  fwdkin { robot with Tbase := none, Rtool := none, ptool := none } θ true

theorem npRound_zero (k : Nat) : npRound k (0 : ℝ) = 0 := by
  have : npRound k (0 : ℝ) = (Real.rintEven (0 * ((10 ^ k : ℚ) : ℝ)) : ℝ) / ((10 ^ k : ℚ) : ℝ) := rfl
  rw [this, zero_mul]
  have : Real.rintEven (0 : ℝ) = 0 := by norm_num [Real.rintEven]
  rw [this]; simp

theorem flange_lit : (Elem.pi / lit 2 : ℝ) = Real.pi / 2 := by
  show Real.pi / ((2 : ℚ) : ℝ) = _
  push_cast; rfl

/-- The function succeeds on an arm and returns the parameters of the straightened state. -/
theorem robotToOpw_arm {robot : Robot ℝ} {w : V3 ℝ} {s0 s1 s2 s3 s4 s5 : ℤ} {z0 : ℝ} {p1 p2 p3 : V3 ℝ} {x4 x5 x6 : ℝ}
    (h : Spec.OpwArm robot w s0 s1 s2 s3 s4 s5 z0 p1 p2 p3 x4 x5 x6) (hw : w = V3.ex ∨ w = V3.ez) :
    robotToOpw robot = (OpwState.bend ⟨p2, p3, x4 • w, x5 • w, x6 • w, (s2 : ℝ) • V3.ey,
      (s3 : ℝ) • w, (s4 : ℝ) • V3.ey, (s5 : ℝ) • w, 0, 0⟩).straighten.params ⟨0, 0, z0⟩ p1 ((s0 : ℝ) • V3.ez) ((s1 : ℝ) • V3.ey) := by
  obtain ⟨ht, hs, hH, hP, pa, ch, hF⟩ := h
  obtain ⟨k0, k1, k2, k3, k4, k5⟩ : (s0 = 1 ∨ s0 = -1) ∧ (s1 = 1 ∨ s1 = -1) ∧ (s2 = 1 ∨ s2 = -1) ∧ (s3 = 1 ∨ s3 = -1) ∧
      (s4 = 1 ∨ s4 = -1) ∧ (s5 = 1 ∨ s5 = -1) := by simpa using hs
  have hor : (axisSign ((s5 : ℝ) • w) V3.ez != 0 || axisSign ((s5 : ℝ) • w) V3.ex != 0) = true := by
    rcases hw with rfl | rfl
    · rw [axisSign_eq k5 not_close_ex]; simp [pm_ne_zero k5]
    · rw [axisSign_eq k5 not_close_ez]; simp [pm_ne_zero k5]
  unfold robotToOpw
  rw [hF]
  simp only []
  rw [flange_lit, pyAssert_true (allcloseM_self _ _), pyAssert_true (decide_eq_true (allclose3_self 0)), ht, hH, hP]
  simp only []
  rw [axisSign_eq k0 not_close_ez, axisSign_eq k1 not_close_ey, axisSign_eq k2 not_close_ey, axisSign_eq k4 not_close_ey,
    pyAssert_true (c := s0 != 0) (by simpa using pm_ne_zero k0), pyAssert_true (c := s1 != 0) (by simpa using pm_ne_zero k1),
    pyAssert_true (c := s2 != 0) (by simpa using pm_ne_zero k2), pyAssert_true (c := s4 != 0) (by simpa using pm_ne_zero k4),
    pyAssert_true (c := axisSign ((s3 : ℝ) • w) ((s5 : ℝ) • w) != 0) (by simpa using axisSign_pair k3 k5 w), pyAssert_true hor]
  rfl

/-- The robot and the returned parameters agree up to rounding, except for the turn `rot ey o` times the flange's. -/
theorem opw_close {robot : Robot ℝ} {w : V3 ℝ} {s0 s1 s2 s3 s4 s5 : ℤ} {z0 : ℝ} {p1 p2 p3 : V3 ℝ} {x4 x5 x6 o : ℝ}
    (h : Spec.OpwArm robot w s0 s1 s2 s3 s4 s5 z0 p1 p2 p3 x4 x5 x6) (hw : w = (rot V3.ey (-o)).mulVec V3.ez)
    {s : OpwState ℝ} (hg : OpwGood p2 p3 x4 x5 x6 o s2 s3 s4 s5 s) (hc : iscloseD s.p2.x 0) :
    ∃ p, s.params ⟨0, 0, z0⟩ p1 ((s0 : ℝ) • V3.ez) ((s1 : ℝ) • V3.ey) = .ok p ∧
      ∀ t0 t1 t2 t3 t4 t5 : ℝ, ∃ T R, Spec.flangePose robot [t0, t1, t2, t3, t4, t5] = .ok T ∧
      T.R = R * rot V3.ey o * rot V3.ey (Real.pi / 2) ∧ IsRot R ∧
      (∀ v : V3 ℝ, (R.mulVec v - (Spec.opwForward p [t0, t1, t2, t3, t4, t5]).R.mulVec v).norm ≤ 1 / 10 ^ 8 * v.norm) ∧
      (T.p - (Spec.opwForward p [t0, t1, t2, t3, t4, t5]).p).norm ≤
        4 / 10 ^ 6 + 1 / 10 ^ 8 * (|p.c2| + |p.a2| + |p.c3| + |p.c4|) := by
  obtain ⟨ht, hs, hH, hP, pa, ch, hF⟩ := h
  have hpar := params_good (z0 := z0) (p1 := p1) (s0 := s0) (s1 := s1) hs hg hc
  refine ⟨_, hpar, ?_⟩
  intro t0 t1 t2 t3 t4 t5
  rw [← hg.eo] at hw
  obtain ⟨T, hT, hR, hp⟩ := arm_fwdkin robot s0 s1 s2 s3 s4 s5 hs z0 p1 p2 p3 s.p2 s.p3 x4 x5 x6 s.o1 s.o2 _ w hw hH hP pa ch hF ht
    hg.e2 hg.e3 t0 t1 t2 t3 t4 t5
  rw [hg.eo] at hR
  have e1 := npRound_err 8 s.o1
  have e2 := npRound_err 8 s.o2
  have r1 : |t1 * s1 - s.o1 - (t1 * s1 - npRound 8 s.o1)| ≤ 1 / 10 ^ 8 := by
    rw [show t1 * s1 - s.o1 - (t1 * s1 - npRound 8 s.o1) = npRound 8 s.o1 - s.o1 by ring]
    exact e1.trans (by norm_num)
  have r12 : |t1 * s1 - s.o1 + (t2 * s2 - s.o2) - (t1 * s1 - npRound 8 s.o1 + (t2 * s2 - npRound 8 s.o2))| ≤ 1 / 10 ^ 8 := by
    rw [show t1 * s1 - s.o1 + (t2 * s2 - s.o2) - (t1 * s1 - npRound 8 s.o1 + (t2 * s2 - npRound 8 s.o2)) =
      (npRound 8 s.o1 - s.o1) + (npRound 8 s.o2 - s.o2) by ring]
    refine (abs_add_le _ _).trans ((add_le_add e1 e2).trans (by norm_num))
  refine ⟨T, _, hT, hR, ((rot_isRot _ unit_ez _).mul (rot_isRot _ unit_ey _)).mul
      (((rot_isRot _ unit_ez _).mul (rot_isRot _ unit_ey _)).mul (rot_isRot _ unit_ez _)), ?_, ?_⟩
  · intro v
    rw [opwForward_eq, npRound_zero]
    simp only [sub_zero]
    refine (opwM_R_close ..).trans (mul_le_mul_of_nonneg_right r12 (V3.norm_nonneg v))
  · rw [opwForward_eq, npRound_zero, hp]
    simp only [sub_zero]
    have hx : ((rot V3.ez (t0 * s0)).mulVec ((rot V3.ey (t1 * s1 - s.o1)).mulVec ⟨s.p2.x, 0, 0⟩)).norm ≤ 1 / 100000000 := by
      rw [(rot_isRot _ unit_ez _).norm_mulVec, (rot_isRot _ unit_ey _).norm_mulVec, norm_axis_x]
      exact iscloseD_zero hc
    have hm := opwM_p_close p1.x s.p3.x (p1.y + s.p2.y + s.p3.y) (z0 + p1.z) s.p2.z (s.p3.z + x4) (x5 + x6)
      (npRound 6 p1.x) (npRound 6 s.p3.x) (npRound 6 (p1.y + s.p2.y + s.p3.y)) (npRound 6 (z0 + p1.z)) (npRound 6 s.p2.z)
      (npRound 6 (s.p3.z + x4)) (npRound 6 (x5 + x6)) (t0 * s0) (t1 * s1 - s.o1) (t1 * s1 - npRound 8 s.o1)
      (t1 * s1 - s.o1 + (t2 * s2 - s.o2)) (t1 * s1 - npRound 8 s.o1 + (t2 * s2 - npRound 8 s.o2)) (t3 * s3) (t4 * s4) (t5 * s5)
    have hr : ∀ x : ℝ, |x - npRound 6 x| ≤ 5 / 10 ^ 7 := by
      intro x; rw [abs_sub_comm]; exact (npRound_err 6 x).trans (by norm_num)
    have g1 := hr p1.x
    have g2 := hr s.p3.x
    have g3 := hr (p1.y + s.p2.y + s.p3.y)
    have g4 := hr (z0 + p1.z)
    have g5 := hr s.p2.z
    have g6 := hr (s.p3.z + x4)
    have g7 := hr (x5 + x6)
    have m1 := mul_le_mul_of_nonneg_right r1 (abs_nonneg (npRound 6 s.p2.z))
    have m2 := mul_le_mul_of_nonneg_right r12 (add_nonneg (add_nonneg (abs_nonneg (npRound 6 s.p3.x))
      (abs_nonneg (npRound 6 (s.p3.z + x4)))) (abs_nonneg (npRound 6 (x5 + x6))))
    generalize (opwM p1.x s.p3.x (p1.y + s.p2.y + s.p3.y) (z0 + p1.z) s.p2.z (s.p3.z + x4) (x5 + x6) (t0 * s0) (t1 * s1 - s.o1)
      (t1 * s1 - s.o1 + (t2 * s2 - s.o2)) (t3 * s3) (t4 * s4) (t5 * s5)).p = A at hm ⊢
    generalize (rot V3.ez (t0 * s0)).mulVec ((rot V3.ey (t1 * s1 - s.o1)).mulVec ⟨s.p2.x, 0, 0⟩) = B at hx ⊢
    rw [show ∀ C : V3 ℝ, A + B - C = (A - C) + B from fun C => by ext <;> simp <;> ring]
    refine (V3.norm_add_le _ _).trans ((add_le_add hm hx).trans ?_)
    linarith

/-- C55 for robots whose forearm is horizontal at zero (the x axis): parameters are always found, and for every joint vector the pose
computed by the OPW solver's own forward kinematics from these parameters differs from the robot's by no more than the rounding to six
and eight decimals explains.  Missing: robots whose axes are only within the tolerances of the checks; robots whose forearm is vertical
are accepted but get wrong parameters (`C55_vertical_false`). -/
theorem C55_opw_partial (robot : Robot ℝ) (s0 s1 s2 s3 s4 s5 : ℤ) (z0 : ℝ) (p1 p2 p3 : V3 ℝ) (x4 x5 x6 : ℝ)
    (h : Spec.OpwArm robot V3.ex s0 s1 s2 s3 s4 s5 z0 p1 p2 p3 x4 x5 x6) :
    ∃ p, robotToOpw robot = .ok p ∧ ∀ t0 t1 t2 t3 t4 t5 : ℝ, ∃ T, Spec.flangePose robot [t0, t1, t2, t3, t4, t5] = .ok T ∧
      (∀ v : V3 ℝ, (T.R.mulVec v - (Spec.opwForward p [t0, t1, t2, t3, t4, t5]).R.mulVec v).norm ≤ 1 / 10 ^ 8 * v.norm) ∧
      (T.p - (Spec.opwForward p [t0, t1, t2, t3, t4, t5]).p).norm ≤
        4 / 10 ^ 6 + 1 / 10 ^ 8 * (|p.c2| + |p.a2| + |p.c3| + |p.c4|) := by
  have k5 : s5 = 1 ∨ s5 = -1 := h.signs s5 (by simp)
  have hex : ∀ x : ℝ, x • (V3.ex : V3 ℝ) = ⟨x, 0, 0⟩ := by intro x; ext <;> simp
  obtain ⟨hg, hc⟩ := straighten_good (bend_good p2 p3 x4 x5 x6 s2 s3 s4 s5 k5)
  obtain ⟨p, hp, H⟩ := opw_close h (by rw [neg_neg, rot_ey_mulVec]; ext <;> simp) hg hc
  rw [← hex x4, ← hex x5, ← hex x6] at hp
  refine ⟨p, (robotToOpw_arm h (Or.inl rfl)).trans hp, ?_⟩
  intro t0 t1 t2 t3 t4 t5
  obtain ⟨T, R, hT, hR, _, h1, h2⟩ := H t0 t1 t2 t3 t4 t5
  rw [M3.mul_assoc', rot_mul _ unit_ey, neg_add_cancel, rot_zero, M3.mul_one'] at hR
  exact ⟨T, hT, by rw [hR]; exact h1, h2⟩

/-- C55 fails for every robot whose forearm is vertical at zero (the z axis): the function demands the same flange frame as for a
horizontal forearm and succeeds, but at every joint vector some unit vector is turned to directions at distance at least 1 apart. -/
theorem C55_vertical_false (robot : Robot ℝ) (s0 s1 s2 s3 s4 s5 : ℤ) (z0 : ℝ) (p1 p2 p3 : V3 ℝ) (x4 x5 x6 : ℝ)
    (h : Spec.OpwArm robot V3.ez s0 s1 s2 s3 s4 s5 z0 p1 p2 p3 x4 x5 x6) :
    ∃ p, robotToOpw robot = .ok p ∧ ∀ t0 t1 t2 t3 t4 t5 : ℝ, ∃ T, Spec.flangePose robot [t0, t1, t2, t3, t4, t5] = .ok T ∧
      ∃ v : V3 ℝ, v.norm = 1 ∧ 1 ≤ (T.R.mulVec v - (Spec.opwForward p [t0, t1, t2, t3, t4, t5]).R.mulVec v).norm := by
  have k5 : s5 = 1 ∨ s5 = -1 := h.signs s5 (by simp)
  have hez : ∀ x : ℝ, x • (V3.ez : V3 ℝ) = ⟨0, 0, x⟩ := by intro x; ext <;> simp
  have hx0 : axisSign ((s5 : ℝ) • V3.ez : V3 ℝ) V3.ex = 0 := by
    have e : ((s5 : ℝ) • V3.ez : V3 ℝ).x = 0 := by simp
    unfold axisSign
    rw [if_neg, if_neg]
    · rintro ⟨hx, _⟩
      rw [iscloseD_iff, e] at hx; norm_num at hx
    · rintro ⟨hx, _⟩
      rw [iscloseD_iff, e] at hx; norm_num at hx
  have g0 : OpwGood p2 p3 x4 x5 x6 0 s2 s3 s4 s5 (OpwState.bend ⟨p2, p3, x4 • V3.ez, x5 • V3.ez, x6 • V3.ez, (s2 : ℝ) • V3.ey,
      (s3 : ℝ) • V3.ez, (s4 : ℝ) • V3.ey, (s5 : ℝ) • V3.ez, 0, 0⟩) := by
    unfold OpwState.bend
    rw [if_neg (by simp only [hx0]; simp)]
    constructor <;> simp [hez, rot_zero]
  obtain ⟨hg, hc⟩ := straighten_good g0
  obtain ⟨p, hp, H⟩ := opw_close h (by rw [neg_zero, rot_zero, M3.one_mulVec]) hg hc
  refine ⟨p, (robotToOpw_arm h (Or.inr rfl)).trans hp, ?_⟩
  intro t0 t1 t2 t3 t4 t5
  obtain ⟨T, R, hT, hR, hrot, h1, _⟩ := H t0 t1 t2 t3 t4 t5
  refine ⟨T, hT, V3.ex, by rw [V3.norm_eq]; simp [V3.dot], ?_⟩
  have h1 := h1 V3.ex
  have n1 : (V3.ex : V3 ℝ).norm = 1 := by rw [V3.norm_eq]; simp [V3.dot]
  rw [n1] at h1
  have hT' : T.R.mulVec V3.ex = R.mulVec ⟨0, 0, -1⟩ := by
    rw [hR, rot_zero, M3.mul_one', ← M3.mulVec_mulVec, rot_ey_mulVec]
    congr 1; ext <;> simp
  have hd : (R.mulVec ⟨0, 0, -1⟩ - R.mulVec V3.ex : V3 ℝ).norm = Real.sqrt 2 := by
    rw [show (R.mulVec ⟨0, 0, -1⟩ - R.mulVec V3.ex : V3 ℝ) = R.mulVec ⟨-1, 0, -1⟩ by ext <;> simp <;> ring, hrot.norm_mulVec, V3.norm_eq]
    norm_num [V3.dot]
  have h2 : (1.4 : ℝ) ≤ Real.sqrt 2 := Real.le_sqrt_of_sq_le (by norm_num)
  rw [hT']
  set Q := (Spec.opwForward p [t0, t1, t2, t3, t4, t5]).R.mulVec V3.ex
  have tri := V3.norm_add_le (R.mulVec ⟨0, 0, -1⟩ - Q) (Q - R.mulVec V3.ex)
  have hs : (Q - R.mulVec V3.ex).norm = (R.mulVec V3.ex - Q).norm := by
    rw [V3.norm_eq, V3.norm_eq]; congr 1; simp [V3.dot]; ring
  rw [show (R.mulVec ⟨0, 0, -1⟩ - Q) + (Q - R.mulVec V3.ex) = (R.mulVec ⟨0, 0, -1⟩ - R.mulVec V3.ex : V3 ℝ) by ext <;> simp, hd, hs] at tri
  norm_num at h1 h2 tri ⊢
  linarith

/-! ## C56 -/

/-- One step of the Denavit-Hartenberg convention (specification): turn about z, move along z, move along x, turn about x. -/
noncomputable def Spec.dh (d a al θ : ℝ) : Iso ℝ :=
  (⟨rot V3.ez θ, 0⟩ * ⟨1, ⟨0, 0, d⟩⟩) * (⟨1, ⟨a, 0, 0⟩⟩ * ⟨rot V3.ex al, 0⟩)

/-- Forward kinematics of a Universal Robots arm from its parameters (specification: the manufacturer's Denavit-Hartenberg table, seen
from a base frame turned by half a turn about z, as in the `URInvKin` solver). -/
noncomputable def Spec.urForward (q : UrParams ℝ) (t0 t1 t2 t3 t4 t5 : ℝ) : Iso ℝ :=
  ⟨rot V3.ez Real.pi, 0⟩ * (Spec.dh q.d1 0 (Real.pi / 2) t0 * (Spec.dh 0 q.a2 0 t1 * (Spec.dh 0 q.a3 0 t2 *
    (Spec.dh q.d4 0 (Real.pi / 2) t3 * (Spec.dh q.d5 0 (-(Real.pi / 2)) t4 * Spec.dh q.d6 0 0 t5)))))

/-- A Universal Robots arm with the axes `[k ez, -k ey, -k ey, -k ey, -k ez, -k ey]`. -/
structure Spec.UrArm (robot : Robot ℝ) (k d1 y1 x2 y2 x3 y3 y4 z4 y5 y6 : ℝ) : Prop where
  types : robot.jointType = [0, 0, 0, 0, 0, 0]
  axes : robot.H = [⟨0, 0, k⟩, ⟨0, -k, 0⟩, ⟨0, -k, 0⟩, ⟨0, -k, 0⟩, ⟨0, 0, -k⟩, ⟨0, -k, 0⟩]
  links : robot.P = [⟨0, 0, d1⟩, ⟨0, y1, 0⟩, ⟨x2, y2, 0⟩, ⟨x3, y3, 0⟩, ⟨0, y4, z4⟩, ⟨0, y5, 0⟩, ⟨0, y6, 0⟩]
  flange : ∃ pa ch, robot.Tflange = some ⟨⟨1, 0, 0, 0, 0, -1, 0, 1, 0⟩, 0, pa, ch⟩
  base : ∃ pa ch, robot.Tbase = some ⟨rot V3.ez Real.pi, 0, pa, ch⟩

/-- The robot's own pose without the tool. -/
noncomputable def Spec.toollessPose (robot : Robot ℝ) (θ : List ℝ) : Except PyErr (Transform ℝ) :=
  fwdkin { robot with Rtool := none, ptool := none } θ true

theorem toolless_six (robot : Robot ℝ) (h0 h1 h2 h3 h4 h5 p0 p1 p2 p3 p4 p5 p6 : V3 ℝ) (F B : M3 ℝ)
    (hH : robot.H = [h0, h1, h2, h3, h4, h5]) (hP : robot.P = [p0, p1, p2, p3, p4, p5, p6])
    (hF : ∃ pa ch, robot.Tflange = some ⟨F, 0, pa, ch⟩) (hB : ∃ pa ch, robot.Tbase = some ⟨B, 0, pa, ch⟩)
    (ht : robot.jointType = [0, 0, 0, 0, 0, 0]) (t0 t1 t2 t3 t4 t5 : ℝ) :
    ∃ T, Spec.toollessPose robot [t0, t1, t2, t3, t4, t5] = .ok T ∧
      T.R = B * (rot h0 t0 * rot h1 t1 * rot h2 t2 * rot h3 t3 * rot h4 t4 * rot h5 t5 * F) ∧
      T.p = B.mulVec (p0 + (rot h0 t0).mulVec (p1 + (rot h1 t1).mulVec (p2 + (rot h2 t2).mulVec (p3 + (rot h3 t3).mulVec (p4 +
        (rot h4 t4).mulVec (p5 + (rot h5 t5).mulVec p6)))))) := by
  obtain ⟨pa, ch, hF⟩ := hF
  obtain ⟨pb, cb, hB⟩ := hB
  rcases robot with ⟨H, P, jt, lo, up, ve, ac, M, Rt, pt, jn, rl, tl, Tf, Tb, ef⟩
  simp only at hH hP hF ht hB
  subst hH hP hF ht hB
  have h0 : ∀ A : M3 ℝ, A.mulVec 0 = 0 := by intro A; ext <;> simp
  refine ⟨_, rfl, ?_, ?_⟩
  · simp only [applyAux, fwdStep_rotary (t := 0) (Or.inl rfl), Transform.mul_R, M3.one_mul']
  · simp only [applyAux, fwdStep_rotary (t := 0) (Or.inl rfl), Transform.mul_p, M3.one_mul', M3.mulVec_add, M3.mulVec_mulVec,
      M3.mul_assoc', h0]
    have : ∀ v : V3 ℝ, 0 + v = v := by intro v; ext <;> simp
    rw [this]
    simp only [add_assoc, add_zero]

theorem rot_ex_mulVec (a : ℝ) (v : V3 ℝ) : (rot V3.ex a).mulVec v =
    ⟨v.x, Real.cos a * v.y - Real.sin a * v.z, Real.sin a * v.y + Real.cos a * v.z⟩ := by
  ext <;> simp [rot, V3.ex, M3.outer] <;> ring

theorem unit_ex' : IsUnit3 (V3.ex : V3 ℝ) := unit_ex

theorem rot_quarter : (rot V3.ex (Real.pi / 2) : M3 ℝ) = ⟨1, 0, 0, 0, 0, -1, 0, 1, 0⟩ := by
  ext <;> simp [rot]

theorem rot_quarter' : (rot V3.ex (-(Real.pi / 2)) : M3 ℝ) = ⟨1, 0, 0, 0, 0, 1, 0, -1, 0⟩ := by
  ext <;> simp [rot]

theorem M3.ext_mulVec {A B : M3 ℝ} (h : ∀ v, A.mulVec v = B.mulVec v) : A = B := by
  have h1 := h V3.ex
  have h2 := h V3.ey
  have h3 := h V3.ez
  have g1 := congrArg V3.x h1
  have g2 := congrArg V3.y h1
  have g3 := congrArg V3.z h1
  have g4 := congrArg V3.x h2
  have g5 := congrArg V3.y h2
  have g6 := congrArg V3.z h2
  have g7 := congrArg V3.x h3
  have g8 := congrArg V3.y h3
  have g9 := congrArg V3.z h3
  simp at g1 g2 g3 g4 g5 g6 g7 g8 g9
  ext <;> assumption

theorem rot_my_mulVec (k a : ℝ) (hk : k = 1 ∨ k = -1) (v : V3 ℝ) : (rot ⟨0, -k, 0⟩ a).mulVec v =
    ⟨Real.cos a * v.x - k * Real.sin a * v.z, v.y, k * Real.sin a * v.x + Real.cos a * v.z⟩ := by
  rcases hk with rfl | rfl <;> ext <;> simp [rot, M3.outer] <;> ring

theorem rot_mz_mulVec (k a : ℝ) (hk : k = 1 ∨ k = -1) (v : V3 ℝ) : (rot ⟨0, 0, k⟩ a).mulVec v =
    ⟨Real.cos a * v.x - k * Real.sin a * v.y, k * Real.sin a * v.x + Real.cos a * v.y, v.z⟩ := by
  rcases hk with rfl | rfl <;> ext <;> simp [rot, M3.outer] <;> ring

theorem rot_my1_mulVec (a : ℝ) (v : V3 ℝ) : (rot ⟨0, -1, 0⟩ a).mulVec v =
    ⟨Real.cos a * v.x - Real.sin a * v.z, v.y, Real.sin a * v.x + Real.cos a * v.z⟩ := by
  have := rot_my_mulVec 1 a (Or.inl rfl) v
  rwa [one_mul] at this

theorem rot_mz1_mulVec (a : ℝ) (v : V3 ℝ) : (rot ⟨0, 0, -1⟩ a).mulVec v =
    ⟨Real.cos a * v.x + Real.sin a * v.y, -Real.sin a * v.x + Real.cos a * v.y, v.z⟩ := by
  rw [rot_mz_mulVec (-1) a (Or.inr rfl) v]; ext <;> simp

theorem rot_z1_mulVec (a : ℝ) (v : V3 ℝ) : (rot ⟨0, 0, 1⟩ a).mulVec v =
    ⟨Real.cos a * v.x - Real.sin a * v.y, Real.sin a * v.x + Real.cos a * v.y, v.z⟩ := rot_ez_mulVec a v

theorem quarter_mulVec (v : V3 ℝ) : (⟨1, 0, 0, 0, 0, -1, 0, 1, 0⟩ : M3 ℝ).mulVec v = ⟨v.x, -v.z, v.y⟩ := by
  ext <;> simp

theorem quarter_mulVec' (v : V3 ℝ) : (rot V3.ex (Real.pi / 2)).mulVec v = ⟨v.x, -v.z, v.y⟩ := by
  rw [rot_quarter, quarter_mulVec]

theorem quarter_mulVec'' (v : V3 ℝ) : (rot V3.ex (-(Real.pi / 2))).mulVec v = ⟨v.x, v.z, -v.y⟩ := by
  rw [rot_quarter']; ext <;> simp

theorem ur_R (t0 t1 t2 t3 t4 t5 : ℝ) : rot ⟨0, 0, 1⟩ t0 * rot ⟨0, -1, 0⟩ t1 * rot ⟨0, -1, 0⟩ t2 * rot ⟨0, -1, 0⟩ t3 *
      rot ⟨0, 0, -1⟩ t4 * rot ⟨0, -1, 0⟩ t5 * ⟨1, 0, 0, 0, 0, -1, 0, 1, 0⟩ =
    rot V3.ez t0 * rot V3.ex (Real.pi / 2) * (rot V3.ez t1 * (rot V3.ez t2 * (rot V3.ez t3 * rot V3.ex (Real.pi / 2) *
      (rot V3.ez t4 * rot V3.ex (-(Real.pi / 2)) * rot V3.ez t5)))) := by
  refine M3.ext_mulVec fun v => ?_
  simp only [← M3.mulVec_mulVec]
  simp only [quarter_mulVec, quarter_mulVec', quarter_mulVec'', rot_my1_mulVec, rot_mz1_mulVec, rot_z1_mulVec, rot_ez_mulVec]
  ext <;> simp <;> ring

theorem dh_R (d a al θ : ℝ) : (Spec.dh d a al θ).R = rot V3.ez θ * rot V3.ex al := by
  show rot V3.ez θ * 1 * (1 * rot V3.ex al) = _
  rw [M3.mul_one', M3.one_mul']

theorem dh_p (d a al θ : ℝ) : (Spec.dh d a al θ).p = (rot V3.ez θ).mulVec ⟨a, 0, d⟩ := by
  show (0 + (rot V3.ez θ).mulVec ⟨0, 0, d⟩ + (rot V3.ez θ * 1).mulVec (⟨a, 0, 0⟩ + (1 : M3 ℝ).mulVec 0) : V3 ℝ) = _
  rw [M3.mul_one']
  ext <;> simp <;> ring

theorem Iso.mul_R' (A B : Iso ℝ) : (A * B).R = A.R * B.R := rfl
theorem Iso.mul_p' (A B : Iso ℝ) : (A * B).p = A.p + A.R.mulVec B.p := rfl

theorem urForward_R (q : UrParams ℝ) (t0 t1 t2 t3 t4 t5 : ℝ) : (Spec.urForward q t0 t1 t2 t3 t4 t5).R = rot V3.ez Real.pi *
    (rot ⟨0, 0, 1⟩ t0 * rot ⟨0, -1, 0⟩ t1 * rot ⟨0, -1, 0⟩ t2 * rot ⟨0, -1, 0⟩ t3 *
      rot ⟨0, 0, -1⟩ t4 * rot ⟨0, -1, 0⟩ t5 * ⟨1, 0, 0, 0, 0, -1, 0, 1, 0⟩) := by
  rw [ur_R]
  simp only [Spec.urForward, Iso.mul_R', dh_R, rot_zero, M3.mul_one']

/-- Where the parameters put the flange. -/
theorem urForward_p (q : UrParams ℝ) (y1 y2 y3 y4 t0 t1 t2 t3 t4 t5 : ℝ) (hd : q.d4 = -(y1 + y2 + y3 + y4)) :
    (Spec.urForward q t0 t1 t2 t3 t4 t5).p = (rot V3.ez Real.pi).mulVec (⟨0, 0, q.d1⟩ + (rot ⟨0, 0, 1⟩ t0).mulVec (⟨0, y1, 0⟩ +
      (rot ⟨0, -1, 0⟩ t1).mulVec (⟨q.a2, y2, 0⟩ + (rot ⟨0, -1, 0⟩ t2).mulVec (⟨q.a3, y3, 0⟩ + (rot ⟨0, -1, 0⟩ t3).mulVec (⟨0, y4, -q.d5⟩ +
        (rot ⟨0, 0, -1⟩ t4).mulVec ⟨0, -q.d6, 0⟩))))) := by
  simp only [Spec.urForward, Iso.mul_p', dh_p, dh_R, rot_zero, M3.mul_one', hd]
  rw [show ∀ v : V3 ℝ, 0 + v = v from fun v => by ext <;> simp]
  congr 1
  simp only [← M3.mulVec_mulVec]
  simp only [quarter_mulVec, quarter_mulVec', quarter_mulVec'', rot_my1_mulVec, rot_mz1_mulVec, rot_z1_mulVec, rot_ez_mulVec]
  ext <;> simp <;> ring

theorem not_plus {h : List (V3 ℝ)} : ((V3.ez :: h).zip urAxes).all (fun he => decide (allclose3 he.1 (-he.2))) = false := by
  simp only [urAxes, List.zip_cons_cons, List.all_cons]
  rw [decide_eq_false, Bool.false_and]
  rintro ⟨-, -, hz⟩
  rw [iscloseD_iff] at hz
  norm_num at hz

theorem is_minus : ([⟨0, 0, 1⟩, ⟨0, -1, 0⟩, ⟨0, -1, 0⟩, ⟨0, -1, 0⟩, ⟨0, 0, -1⟩, ⟨0, -1, 0⟩].zip (urAxes : List (V3 ℝ))).all
    (fun he => decide (allclose3 he.1 he.2)) = true := by
  simp [urAxes, allclose3, iscloseD_self]

theorem is_plus : ([⟨0, 0, -1⟩, ⟨0, 1, 0⟩, ⟨0, 1, 0⟩, ⟨0, 1, 0⟩, ⟨0, 0, 1⟩, ⟨0, 1, 0⟩].zip (urAxes : List (V3 ℝ))).all
    (fun he => decide (allclose3 he.1 (-he.2))) = true := by
  simp [urAxes, allclose3, iscloseD_self]

theorem ur_flange : (⟨1, 0, 0, 0, 0, -1, 0, 1, 0⟩ : M3 ℝ) = M3.ofCols V3.ex V3.ez (-V3.ey) := by
  ext <;> simp [M3.ofCols]

/-- The parameters read off the links. -/
theorem urParams_links (d1 y1 x2 y2 x3 y3 y4 z4 y5 y6 : ℝ) :
    urParams [⟨0, 0, d1⟩, ⟨0, y1, 0⟩, ⟨x2, y2, 0⟩, ⟨x3, y3, 0⟩, ⟨0, y4, z4⟩, ⟨0, y5, 0⟩, (⟨0, y6, 0⟩ : V3 ℝ)] =
      .ok ⟨d1, x2, x3, -(y1 + y2 + y3 + y4), -z4, -y5⟩ := by
  have z := iscloseD_self 0
  unfold urParams
  simp only []
  rw [pyAssert_true (by simp [z]), pyAssert_true (by simp [z]), pyAssert_true (by simp [z]), pyAssert_true (by simp [z]),
    pyAssert_true (by simp [z]), pyAssert_true (by simp [z])]
  rfl

theorem sixCols_six {H : List (V3 ℝ)} (h : H.length = 6) : sixCols H = H := by
  match H, h with
  | [_, _, _, _, _, _], _ => rfl

theorem sixCols_length {H : List (V3 ℝ)} (h : (sixCols H).length = 6) : H.length = 6 ∨ ∃ x, H = [x] := by
  match H, h with
  | [x], _ => exact Or.inr ⟨x, rfl⟩
  | [_, _, _, _, _, _], _ => exact Or.inl rfl

/-- a single axis is not near both `ez` and `-ey`, nor near both of their opposites -/
theorem one_axis (x : V3 ℝ) : ((sixCols [x]).zip urAxes).all (fun he => decide (allclose3 he.1 he.2)) = false ∧
    ((sixCols [x]).zip urAxes).all (fun he => decide (allclose3 he.1 (-he.2))) = false := by
  simp only [sixCols, urAxes, List.zip_cons_cons, List.all_cons]
  constructor
  · by_cases h : allclose3 x V3.ez
    · rw [decide_eq_false (p := allclose3 x (-V3.ey)), Bool.false_and, Bool.and_false]
      rintro ⟨-, -, h2⟩
      have h1 := h.2.2
      rw [iscloseD_iff] at h1 h2
      norm_num at h1 h2
      rw [abs_le] at h1 h2
      linarith
    · rw [decide_eq_false h, Bool.false_and]
  · by_cases h : allclose3 x (-V3.ez)
    · rw [decide_eq_false (p := allclose3 x (-(-V3.ey))), Bool.false_and, Bool.and_false]
      rintro ⟨-, -, h2⟩
      have h1 := h.2.2
      rw [iscloseD_iff] at h1 h2
      norm_num at h1 h2
      rw [abs_le] at h1 h2
      linarith
    · rw [decide_eq_false h, Bool.false_and]

theorem robotToUr_minus {robot : Robot ℝ} {d1 y1 x2 y2 x3 y3 y4 z4 y5 y6 : ℝ} (h : Spec.UrArm robot 1 d1 y1 x2 y2 x3 y3 y4 z4 y5 y6) :
    robotToUr robot = .ok ⟨d1, x2, x3, -(y1 + y2 + y3 + y4), -z4, -y5⟩ := by
  obtain ⟨-, hH, hP, ⟨pa, ch, hF⟩, pb, cb, hB⟩ := h
  unfold robotToUr
  rw [hF, hB]
  simp only []
  rw [ur_flange, pyAssert_true (allcloseM_self _ _), pyAssert_true (decide_eq_true (allclose3_self 0))]
  rw [show (Elem.pi : ℝ) = Real.pi from rfl, hH, hP, sixCols_six rfl, pyAssert_true (allcloseM_self _ _), is_minus, pyAssert_true (by simp)]
  have := not_plus (h := [⟨0, -1, 0⟩, ⟨0, -1, 0⟩, ⟨0, -1, 0⟩, ⟨0, 0, -1⟩, ⟨0, -1, 0⟩])
  rw [show (V3.ez : V3 ℝ) = ⟨0, 0, 1⟩ from rfl] at this
  rw [this]
  exact urParams_links ..

theorem robotToUr_plus {robot : Robot ℝ} {d1 y1 x2 y2 x3 y3 y4 z4 y5 y6 : ℝ} (h : Spec.UrArm robot (-1) d1 y1 x2 y2 x3 y3 y4 z4 y5 y6) :
    robotToUr robot = .ok ⟨d1, -x2, -x3, y1 + y2 + y3 + y4, -z4, y5⟩ := by
  obtain ⟨-, hH, hP, ⟨pa, ch, hF⟩, pb, cb, hB⟩ := h
  rw [neg_neg] at hH
  unfold robotToUr
  rw [hF, hB]
  simp only []
  rw [ur_flange, pyAssert_true (allcloseM_self _ _), pyAssert_true (decide_eq_true (allclose3_self 0))]
  rw [show (Elem.pi : ℝ) = Real.pi from rfl, hH, hP, sixCols_six rfl, pyAssert_true (allcloseM_self _ _), is_plus, pyAssert_true (by simp)]
  have := urParams_links d1 (-y1) (-x2) (-y2) (-x3) (-y3) (-y4) z4 (-y5) (-y6)
  have e : ∀ x y z : ℝ, (rot V3.ez Real.pi).mulVec ⟨x, y, z⟩ = ⟨-x, -y, z⟩ := by
    intro x y z; rw [rot_ez_mulVec]; ext <;> simp
  simp only [List.map_cons, List.map_nil, e, neg_zero]
  rw [neg_neg, show -(-y1 + -y2 + -y3 + -y4) = y1 + y2 + y3 + y4 by ring] at this
  exact this

/-- C56 for the factory convention (arm along -x) with the last link merged into the one before it: parameters are found and describe
exactly the robot's own kinematics without the tool, for every joint vector.  Missing: robots that are only within the tolerances of the
checks.  Not true with a last link (`C56_last_link_false`), nor for the other convention (`C56_urdf_false`, `C56_plus_false`). -/
theorem C56_ur_partial (robot : Robot ℝ) (d1 y1 x2 y2 x3 y3 y4 z4 y5 : ℝ) (h : Spec.UrArm robot 1 d1 y1 x2 y2 x3 y3 y4 z4 y5 0) :
    ∃ q, robotToUr robot = .ok q ∧ ∀ t0 t1 t2 t3 t4 t5 : ℝ, ∃ T, Spec.toollessPose robot [t0, t1, t2, t3, t4, t5] = .ok T ∧
      T.R = (Spec.urForward q t0 t1 t2 t3 t4 t5).R ∧ T.p = (Spec.urForward q t0 t1 t2 t3 t4 t5).p := by
  refine ⟨_, robotToUr_minus h, ?_⟩
  intro t0 t1 t2 t3 t4 t5
  obtain ⟨T, hT, hR, hp⟩ := toolless_six robot _ _ _ _ _ _ _ _ _ _ _ _ _ _ _ h.axes h.links h.flange h.base h.types t0 t1 t2 t3 t4 t5
  refine ⟨T, hT, ?_, ?_⟩
  · rw [hR, urForward_R]
  · rw [hp, urForward_p _ y1 y2 y3 y4 _ _ _ _ _ _ rfl]
    simp only [neg_neg]
    rw [show (rot ⟨0, -1, 0⟩ t5).mulVec (⟨0, 0, 0⟩ : V3 ℝ) = 0 by ext <;> simp, show (⟨0, y5, 0⟩ + 0 : V3 ℝ) = ⟨0, y5, 0⟩ by ext <;> simp]

/-- C56 fails for every robot with a last link along the last axis: it is accepted, but the parameter `d6` leaves the last link out
(line 1007 sums one column only), and the position is off by its length at every joint vector. -/
theorem C56_last_link_false (robot : Robot ℝ) (d1 y1 x2 y2 x3 y3 y4 z4 y5 y6 : ℝ)
    (h : Spec.UrArm robot 1 d1 y1 x2 y2 x3 y3 y4 z4 y5 y6) :
    ∃ q, robotToUr robot = .ok q ∧ ∀ t0 t1 t2 t3 t4 t5 : ℝ, ∃ T, Spec.toollessPose robot [t0, t1, t2, t3, t4, t5] = .ok T ∧
      (T.p - (Spec.urForward q t0 t1 t2 t3 t4 t5).p).norm = |y6| := by
  refine ⟨_, robotToUr_minus h, ?_⟩
  intro t0 t1 t2 t3 t4 t5
  obtain ⟨T, hT, hR, hp⟩ := toolless_six robot _ _ _ _ _ _ _ _ _ _ _ _ _ _ _ h.axes h.links h.flange h.base h.types t0 t1 t2 t3 t4 t5
  refine ⟨T, hT, ?_⟩
  rw [hp, urForward_p _ y1 y2 y3 y4 _ _ _ _ _ _ rfl]
  simp only [neg_neg, M3.mulVec_add]
  rw [rot_my1_mulVec t5]
  simp only [mul_zero, sub_zero, add_zero]
  have uy : IsUnit3 (⟨0, -1, 0⟩ : V3 ℝ) := by norm_num [IsUnit3, V3.dot]
  have uz : IsUnit3 (⟨0, 0, -1⟩ : V3 ℝ) := by norm_num [IsUnit3, V3.dot]
  have uz1 : IsUnit3 (⟨0, 0, 1⟩ : V3 ℝ) := by norm_num [IsUnit3, V3.dot]
  set W := (rot V3.ez Real.pi).mulVec ((rot ⟨0, 0, 1⟩ t0).mulVec ((rot ⟨0, -1, 0⟩ t1).mulVec ((rot ⟨0, -1, 0⟩ t2).mulVec
    ((rot ⟨0, -1, 0⟩ t3).mulVec ((rot ⟨0, 0, -1⟩ t4).mulVec ⟨0, y6, 0⟩))))) with hW
  have hn : W.norm = |y6| := by
    rw [hW, (rot_isRot _ unit_ez _).norm_mulVec, (rot_isRot _ uz1 _).norm_mulVec, (rot_isRot _ uy _).norm_mulVec,
      (rot_isRot _ uy _).norm_mulVec, (rot_isRot _ uy _).norm_mulVec, (rot_isRot _ uz _).norm_mulVec, norm_axis_y]
  rw [← hn]
  congr 1
  ext <;> simp <;> ring

/-- C56 fails: the axes with which `ur_invkin` recognizes the URDF convention (arm along +x) are rejected whatever the rest of the
robot is. -/
theorem C56_urdf_false (robot : Robot ℝ) (hH : robot.H = [V3.ez, V3.ey, V3.ey, V3.ey, -V3.ez, V3.ey]) :
    robotToUr robot = .error .assertion := by
  have hl : robot.H.length = 6 := by rw [hH]; rfl
  have hs := sixCols_six hl
  have hm : (robot.H.zip urAxes).all (fun he => decide (allclose3 he.1 he.2)) = false := by
    rw [hH]
    simp only [urAxes, List.zip_cons_cons, List.all_cons]
    rw [decide_eq_false (p := allclose3 (V3.ey : V3 ℝ) (-V3.ey)), Bool.false_and, Bool.and_false]
    rintro ⟨-, hy, -⟩
    rw [iscloseD_iff] at hy
    norm_num at hy
  have hp : (robot.H.zip urAxes).all (fun he => decide (allclose3 he.1 (-he.2))) = false := by
    rw [hH]; exact not_plus
  unfold robotToUr
  rcases robot.Tflange with _ | F
  · rfl
  rcases robot.Tbase with _ | B
  · simp only []
    cases allcloseM F.R (M3.ofCols V3.ex V3.ez (-V3.ey)) (lit (1 / 1000000)) <;> cases decide (allclose3 F.p 0) <;> rfl
  · simp only []
    rw [hs, hm, hp, if_neg (by simpa using hl)]
    cases allcloseM F.R (M3.ofCols V3.ex V3.ez (-V3.ey)) (lit (1 / 1000000)) <;> cases decide (allclose3 F.p 0) <;>
      cases allcloseM B.R (rot V3.ez Elem.pi) (lit (1 / 1000000)) <;> cases decide (allclose3 B.p 0) <;> rfl

/-- C56 fails for every arm along +x that is accepted (all axes reversed, also the vertical ones): in the zero position the returned
parameters put the flange on the other side of the base, at twice the horizontal reach from where the robot has it. -/
theorem C56_plus_false (robot : Robot ℝ) (d1 y1 x2 y2 x3 y3 y4 z4 y5 : ℝ) (h : Spec.UrArm robot (-1) d1 y1 x2 y2 x3 y3 y4 z4 y5 0) :
    ∃ q T, robotToUr robot = .ok q ∧ Spec.toollessPose robot [0, 0, 0, 0, 0, 0] = .ok T ∧
      T.p - (Spec.urForward q 0 0 0 0 0 0).p = ⟨-2 * (x2 + x3), -2 * (y1 + y2 + y3 + y4 + y5), 0⟩ := by
  obtain ⟨T, hT, hR, hp⟩ := toolless_six robot _ _ _ _ _ _ _ _ _ _ _ _ _ _ _ h.axes h.links h.flange h.base h.types 0 0 0 0 0 0
  refine ⟨_, T, robotToUr_plus h, hT, ?_⟩
  rw [hp, urForward_p _ (-y1) (-y2) (-y3) (-y4) _ _ _ _ _ _ (by simp only []; ring)]
  simp only [rot_zero, M3.one_mulVec]
  rw [rot_ez_mulVec, rot_ez_mulVec]
  ext <;> simp <;> ring

/-! ## Concrete robots -/

/-- A horizontal six-joint arm with the dimensions of the ABB IRB1200. -/
noncomputable def exAbb : Robot ℝ :=
  { H := [V3.ez, V3.ey, V3.ey, V3.ex, V3.ey, V3.ex]
    P := [⟨0, 0, 0.3991⟩, ⟨0, 0, 0⟩, ⟨0, 0, 0.448⟩, ⟨0, 0, 0.042⟩, ⟨0.451, 0, 0⟩, ⟨0.082, 0, 0⟩, ⟨0, 0, 0⟩]
    jointType := [0, 0, 0, 0, 0, 0]
    lower := none
    upper := none
    vel := none
    acc := none
    Tflange := some ⟨rot V3.ey (Real.pi / 2), 0, none, none⟩ }

/-- The same arm with a vertical forearm. -/
noncomputable def exVertical : Robot ℝ :=
  { exAbb with
    H := [V3.ez, V3.ey, V3.ey, V3.ez, V3.ey, V3.ez]
    P := [⟨0, 0, 0.3991⟩, ⟨0, 0, 0⟩, ⟨0, 0, 0.448⟩, ⟨0, 0, 0.042⟩, ⟨0, 0, 0.451⟩, ⟨0, 0, 0.082⟩, ⟨0, 0, 0⟩] }

/-- A UR5e-like arm: axis sign `k`, last link `y6`. -/
noncomputable def exUr (k y6 : ℝ) : Robot ℝ :=
  { exAbb with
    H := [⟨0, 0, k⟩, ⟨0, -k, 0⟩, ⟨0, -k, 0⟩, ⟨0, -k, 0⟩, ⟨0, 0, -k⟩, ⟨0, -k, 0⟩]
    P := [⟨0, 0, 0.1625⟩, ⟨0, 0, 0⟩, ⟨-0.425, 0, 0⟩, ⟨-0.3922, 0, 0⟩, ⟨0, -0.1333, -0.0997⟩, ⟨0, -0.0996, 0⟩, ⟨0, y6, 0⟩]
    Tflange := some ⟨⟨1, 0, 0, 0, 0, -1, 0, 1, 0⟩, 0, none, none⟩
    Tbase := some ⟨rot V3.ez Real.pi, 0, none, none⟩ }

theorem exAbb_arm : Spec.OpwArm exAbb V3.ex 1 1 1 1 1 1 0.3991 ⟨0, 0, 0⟩ ⟨0, 0, 0.448⟩ ⟨0, 0, 0.042⟩ 0.451 0.082 0 := by
  refine ⟨rfl, by simp, ?_, ?_, none, none, rfl⟩
  · simp only [exAbb, List.cons.injEq, and_true]
    refine ⟨?_, ?_, ?_, ?_, ?_, ?_⟩ <;> ext <;> simp
  · simp only [exAbb, List.cons.injEq, and_true]
    refine ⟨?_, ?_, ?_, ?_, ?_, ?_, ?_⟩ <;> first | trivial | (ext <;> simp)

theorem exVertical_arm : Spec.OpwArm exVertical V3.ez 1 1 1 1 1 1 0.3991 ⟨0, 0, 0⟩ ⟨0, 0, 0.448⟩ ⟨0, 0, 0.042⟩ 0.451 0.082 0 := by
  refine ⟨rfl, by simp, ?_, ?_, none, none, rfl⟩
  · simp only [exVertical, List.cons.injEq, and_true]
    refine ⟨?_, ?_, ?_, ?_, ?_, ?_⟩ <;> ext <;> simp
  · simp only [exVertical, List.cons.injEq, and_true]
    refine ⟨?_, ?_, ?_, ?_, ?_, ?_, ?_⟩ <;> first | trivial | (ext <;> simp)

theorem exUr_arm (k y6 : ℝ) : Spec.UrArm (exUr k y6) k 0.1625 0 (-0.425) 0 (-0.3922) 0 (-0.1333) (-0.0997) (-0.0996) y6 :=
  ⟨rfl, rfl, rfl, ⟨none, none, rfl⟩, none, none, rfl⟩

-- non-vacuity: the hypotheses hold for concrete robots
example : (∃ p, robotToOpw exAbb = .ok p) ∧ (∃ p, robotToOpw exVertical = .ok p) ∧ (∃ q, robotToUr (exUr 1 0) = .ok q) ∧
    (∃ q, robotToUr (exUr 1 (-0.1)) = .ok q) ∧ (∃ q, robotToUr (exUr (-1) 0) = .ok q) :=
  ⟨(C55_opw_partial _ _ _ _ _ _ _ _ _ _ _ _ _ _ exAbb_arm).imp fun _ h => h.1,
    (C55_vertical_false _ _ _ _ _ _ _ _ _ _ _ _ _ _ exVertical_arm).imp fun _ h => h.1,
    ⟨_, robotToUr_minus (exUr_arm 1 0)⟩, ⟨_, robotToUr_minus (exUr_arm 1 (-0.1))⟩, ⟨_, robotToUr_plus (exUr_arm (-1) 0)⟩⟩
