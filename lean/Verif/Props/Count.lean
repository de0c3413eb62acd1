import Verif.Lemmas.Twice
import Verif.Props.Robot6
import Verif.Props.Ur

/-!
# C89: how many joint vectors the analytic solvers list, and when they list one twice
-/
set_option autoImplicit false

/-! ### At most eight -/

section
variable {α : Type} [Add α] [Sub α] [Mul α] [Div α] [Neg α] [Zero α] [One α] [LT α] [LE α]
  [DecidableLT α] [DecidableLE α] [Elem α]

/-- C89: whatever the robot, the pose, the limits and the last joint values, and in exact as in floating point arithmetic, the
spherical wrist solver lists at most eight joint vectors, each with six entries. -/
theorem C89_robot6_at_most_eight {robot : Robot α} {pose : Transform α} {last : Option (List α)} {sols : List (List α)}
    (h : (robot6_sphericalwrist_invkin robot pose last).2 = .ok sols) : sols.length ≤ 8 ∧ ∀ s ∈ sols, s.length = 6 := by
  unfold robot6_sphericalwrist_invkin at h
  rcases fixWrist robot.H robot.P with ⟨P', r⟩
  obtain ⟨-, -, h⟩ := Except.bind_eq_ok h
  obtain ⟨rows, h1, h⟩ := Except.bind_eq_ok h
  obtain ⟨h2, h3⟩ := r6Search_rows h1
  have hp := sortByLast_perm h
  exact ⟨hp.length_eq.trans_le h2, fun s hs => h3 s (hp.mem_iff.1 hs)⟩

/-- C89: so does the UR solver. -/
theorem C89_ur_at_most_eight {robot : Robot α} {pose : Transform α} {last : Option (List α)} {sols : List (List α)}
    (h : ur_invkin robot pose last = .ok sols) : sols.length ≤ 8 ∧ ∀ s ∈ sols, s.length = 6 := by
  obtain ⟨-, rows, h1, h⟩ := ur_invkin_ok h
  obtain ⟨h2, h3⟩ := urSearch_rows h1
  have hp := sortByLast_perm h
  exact ⟨hp.length_eq.trans_le h2, fun s hs => h3 s (hp.mem_iff.1 hs)⟩
end

/-! ### None twice -/

/-- The position asked of the last link of the arm when `T` is asked of the tool: base, flange and tool taken away. -/
noncomputable def Spec.lastLinkP (r : Robot ℝ) (T : Transform ℝ) : V3 ℝ :=
  (auxB r).R.transpose.mulVec (T.p - (T.R * (auxX r).R.transpose).mulVec (auxX r).p -
    (T.R * (auxX r).R.transpose * (auxF r).R.transpose).mulVec (auxF r).p - (auxB r).p)

/-- Where the pose asks the point to be that is `P` before the origin of the last link. -/
noncomputable def Spec.centreGoal (r : Robot ℝ) (T : Transform ℝ) (P : V3 ℝ) : V3 ℝ := Spec.lastLinkP r T - (Spec.lastLinkR r T).mulVec P

theorem centreGoal_eq (r : Robot ℝ) (T : Transform ℝ) (P : V3 ℝ) :
    Spec.centreGoal r T P = (unapplyAux r T).p - (unapplyAux r T).R.mulVec P := by
  rw [Spec.centreGoal, Spec.lastLinkP, Spec.lastLinkR, ← unapplyAux_R, ← unapplyAux_p]

section
variable {r : Robot ℝ} {h0 h1 h2 h3 h4 h5 k P0 P1 P2 P3 P4 P5 P6 : V3 ℝ}

/-- C89 (`_partial`: the property has no regularity condition; see `C89_robot6_twice_false`).  For every arm of this geometry with any
rigid base, flange, tool and limits, with or without last joint values: two joint vectors at different places of the list differ by
more than whole turns, if in both the shoulder is not at the end of its lateral reach and the forearm is not folded back onto the
upper arm. -/
theorem C89_robot6_distinct_partial (hr : Spec.WristArm r h0 h1 h2 h3 h4 h5 P0 P1 P2 P3 P4 P5 P6) {T : Transform ℝ} (hT : IsRot T.R)
    {last : Option (List ℝ)} {sols : List (List XReal)}
    (h : (robot6_sphericalwrist_invkin r.up T.up (last.map (·.map .fin))).2 = .ok sols) :
    sols.Pairwise fun a b => Spec.regularRow h0 h2 P2 (P3 + P4) (Spec.centreGoal r T (P6 + P5)) a →
      Spec.regularRow h0 h2 P2 (P3 + P4) (Spec.centreGoal r T (P6 + P5)) b → Spec.differ a b := by
  obtain ⟨-, -, rows, h1, h⟩ := robot6_search_last hr h
  obtain ⟨hB, hF, hX⟩ := hr.aux
  rw [centreGoal_eq]
  refine ((sortByLast_perm h).symm.pairwise (r6Search_differ hr.unit0 (pm_unit hr.par1) (pm_unit hr.par2) hr.unit3 hr.unit4 hr.unit5 hr.perp34
    hr.perp45 (unapply_rot hB hF hX hT) h1) ?_)
  intro a b hab hb ha
  exact (hab ha hb).symm

/-- C89 (`_partial`: see `C89_ur_twice_false`): the same for the UR solver. -/
theorem C89_ur_distinct_partial (hr : Spec.UrChain r k P0 P1 P2 P3 P4 P5 P6) {T : Transform ℝ} (hT : IsRot T.R)
    {last : Option (List ℝ)} {sols : List (List XReal)} (h : ur_invkin r.up T.up (last.map (·.map .fin)) = .ok sols) :
    sols.Pairwise fun a b => Spec.regularRow V3.ez k P2 P3 (Spec.centreGoal r T (P6 + P5)) a →
      Spec.regularRow V3.ez k P2 P3 (Spec.centreGoal r T (P6 + P5)) b → Spec.differ a b := by
  obtain ⟨rows, h1, h⟩ := ur_search_last hr h
  obtain ⟨hB, hF, hX⟩ := hr.aux
  rw [centreGoal_eq]
  refine ((sortByLast_perm h).symm.pairwise (urSearch_differ hr.par (unapply_rot hB hF hX hT) h1) ?_)
  intro a b hab hb ha
  exact (hab ha hb).symm

/-! ### Twice -/

/-- C89: at the end of the lateral reach of the shoulder, that is if the wrist centre is as far from the first axis as the offsets of
the arm along y, every joint vector is listed twice: the list is a permutation of a shorter list repeated. -/
theorem C89_robot6_reach_twice (hr : Spec.WristArm r h0 h1 h2 h3 h4 h5 P0 P1 P2 P3 P4 P5 P6) (hu : V3.ey.dot h0 = 0) {T : Transform ℝ}
    (hd : V3.ey.dot (P1 + P2 + (P3 + P4)) = (h0.cross (Spec.centreGoal r T (P6 + P5))).norm)
    (hs : h0.cross (Spec.centreGoal r T (P6 + P5)) ≠ 0) {last : Option (List ℝ)} {sols : List (List XReal)}
    (h : (robot6_sphericalwrist_invkin r.up T.up (last.map (·.map .fin))).2 = .ok sols) : ∃ A, sols.Perm (A ++ A) := by
  obtain ⟨-, -, rows, h1, h⟩ := robot6_search_last hr h
  rw [centreGoal_eq] at hd hs
  obtain ⟨A, rfl⟩ := r6Search_twice hr.unit0 hu hd hs h1
  exact ⟨A, sortByLast_perm h⟩

/-- C89: the same for the UR solver. -/
theorem C89_ur_reach_twice (hr : Spec.UrChain r k P0 P1 P2 P3 P4 P5 P6) {T : Transform ℝ}
    (hd : V3.ey.dot (P1 + P2 + P3 + P4) = (V3.ez.cross (Spec.centreGoal r T (P6 + P5))).norm)
    (hs : V3.ez.cross (Spec.centreGoal r T (P6 + P5)) ≠ 0) {last : Option (List ℝ)} {sols : List (List XReal)}
    (h : ur_invkin r.up T.up (last.map (·.map .fin)) = .ok sols) : ∃ A, sols.Perm (A ++ A) := by
  obtain ⟨rows, h1, h⟩ := ur_search_last hr h
  rw [centreGoal_eq] at hd hs
  obtain ⟨A, rfl⟩ := urSearch_twice hd hs h1
  exact ⟨A, sortByLast_perm h⟩
end

/-! ### Concrete arms -/

/-- The small arm with the upper arm moved sideways by 1. -/
noncomputable def Spec.sideArm (lo up : Option (List ℝ)) : Robot ℝ :=
  { Spec.smallArm lo up with P := [V3.ez, 0, V3.ez + V3.ey, V3.ex, 0, 0, V3.ex] }

theorem Spec.sideArm_wrist (lo up : Option (List ℝ)) :
    Spec.WristArm (Spec.sideArm lo up) V3.ez V3.ey V3.ey V3.ex V3.ey V3.ex V3.ez 0 (V3.ez + V3.ey) V3.ex 0 0 V3.ex :=
  { Spec.smallArm_wrist lo up with links := rfl }

theorem Spec.sideArm_regular : Spec.RegularArm (V3.ez : V3 ℝ) V3.ey (V3.ez + V3.ey) (V3.ex + 0) where
  upright := by simp [V3.dot]
  upper := by intro h; have := congrArg V3.x h; simp at this
  fore := by intro h; have := congrArg V3.z h; simp at this
  bend := by
    right
    have e1 : Spec.dir (V3.ex + 0 : V3 ℝ) V3.ey = V3.ex := by
      simp [Spec.dir, V3.perp, V3.dot, V3.norm_eq]; ext <;> simp
    have e2 : Spec.dir (V3.ez + V3.ey : V3 ℝ) V3.ey = V3.ez := by
      simp [Spec.dir, V3.perp, V3.dot, V3.norm_eq]; ext <;> simp
    rw [e1, e2, V3.norm_eq]
    simp [V3.dot]
    rw [snap_eq]
    exact Real.le_sqrt_of_sq_le (by norm_num)

/-- a regular joint vector at the end of the lateral reach: the forearm pointing up, the hand pointing along x -/
theorem Spec.sideArm_conf : Spec.RegularConf (V3.ez : V3 ℝ) V3.ey V3.ey V3.ex V3.ey V3.ex 0 (V3.ez + V3.ey) (V3.ex + 0) 0 (-(Real.pi / 2)) 0
    (Real.pi / 2) 0 where
  shoulder := by simp only [rot_zero, M3.one_mulVec]; intro h; have := congrArg V3.x h; simp [rot] at this
  wrist := by rw [npEps_real]; simp [rot, V3.dot]; norm_num
  clear2 := .inl ⟨0, by simp⟩
  clear4 := .inl ⟨0, by simp⟩
  clear5 := by
    right
    rw [snap_eq, V3.norm_eq]
    apply Real.le_sqrt_of_sq_le
    simp [rot, V3.dot]; norm_num
  clear6 := .inl ⟨0, by simp⟩

theorem V3.abs_z_le (v : V3 ℝ) : |v.z| ≤ v.norm := by
  rw [V3.norm_eq]; apply Real.abs_le_sqrt; simp only [V3.dot]; nlinarith [sq_nonneg v.x, sq_nonneg v.y]

/-- No placement of the wrist centre makes the wrist singular for this pose. -/
theorem Spec.sideArm_away (lo up : Option (List ℝ)) {T : Transform ℝ}
    (hT : fwdkin (Spec.sideArm lo up) [0, 0, -(Real.pi / 2), 0, Real.pi / 2, 0] true = .ok T) (a b c : ℝ)
    (h : (Spec.wristAt (V3.ez : V3 ℝ) V3.ey V3.ey V3.ez 0 (V3.ez + V3.ey) (V3.ex + 0) a b c -
      Spec.wristAt V3.ez V3.ey V3.ey V3.ez 0 (V3.ez + V3.ey) (V3.ex + 0) 0 0 (-(Real.pi / 2))).norm < snap) :
    npEps ≤ Spec.wristSq (Spec.sideArm lo up) T V3.ez V3.ey V3.ey V3.ex V3.ex a b c := by
  have hr := Spec.sideArm_wrist lo up
  have z : (0 : V3 ℝ) = ((0 : V3 ℝ).dot V3.ex) • V3.ex := by ext <;> simp [V3.dot]
  obtain ⟨eR, -⟩ := wristArm_pose hr z z hT
  have e5 : (Spec.lastLinkR (Spec.sideArm lo up) T).mulVec V3.ex = V3.ex := by
    rw [Spec.lastLinkR, ← unapplyAux_R, eR, rot_zero, rot_zero]
    ext <;> simp [rot]
  rw [Spec.wristSq, e5]
  have hz := V3.abs_z_le (Spec.wristAt (V3.ez : V3 ℝ) V3.ey V3.ey V3.ez 0 (V3.ez + V3.ey) (V3.ex + 0) a b c -
    Spec.wristAt V3.ez V3.ey V3.ey V3.ez 0 (V3.ez + V3.ey) (V3.ex + 0) 0 0 (-(Real.pi / 2)))
  have ez : (Spec.wristAt (V3.ez : V3 ℝ) V3.ey V3.ey V3.ez 0 (V3.ez + V3.ey) (V3.ex + 0) a b c -
      Spec.wristAt V3.ez V3.ey V3.ey V3.ez 0 (V3.ez + V3.ey) (V3.ex + 0) 0 0 (-(Real.pi / 2))).z = Real.cos b - Real.sin (b + c) - 2 := by
    rw [Real.sin_add]
    simp [Spec.wristAt, rot]; ring
  have e3 : ((rot (V3.ez : V3 ℝ) a * rot V3.ey b * rot V3.ey c).mulVec V3.ex).dot V3.ex = Real.cos a * Real.cos (b + c) := by
    rw [Real.cos_add]
    simp [rot, V3.dot]; ring
  rw [e3]
  rw [ez] at hz
  have hz' := abs_lt.1 (hz.trans_lt h)
  have hs := snap_eq
  have h1 := Real.cos_le_one b
  have h2 := Real.cos_sq_le_one a
  have h3 := Real.sin_sq_add_cos_sq (b + c)
  have h4 : Real.sin (b + c) < -(1 / 2) := by rw [hs] at hz'; linarith [hz'.1]
  have h5 : Real.cos (b + c) ^ 2 < 3 / 4 := by nlinarith
  have h6 : (Real.cos a * Real.cos (b + c)) ^ 2 ≤ Real.cos (b + c) ^ 2 := by nlinarith [sq_nonneg (Real.cos (b + c))]
  rw [npEps_real]
  norm_num
  linarith

/-- C89 is false at the end of the lateral reach: for an arm whose upper arm is one unit to the side, and a pose reached with the
forearm pointing straight up above it, the spherical wrist solver lists joint vectors, and each of them twice. -/
theorem C89_robot6_twice_false : ∃ (r : Robot ℝ) (θ : List ℝ) (T : Transform ℝ) (s : List XReal) (A : List (List XReal)) (sols : List (List XReal)),
    fwdkin r θ true = .ok T ∧ (robot6_sphericalwrist_invkin r.up T.up).2 = .ok sols ∧ s ∈ A ∧ sols.Perm (A ++ A) := by
  have hr := Spec.sideArm_wrist none none
  have hT := fwdkin_chain6 hr.types hr.axes hr.links 0 0 (-(Real.pi / 2)) 0 (Real.pi / 2) 0
  have z : (0 : V3 ℝ) = ((0 : V3 ℝ).dot V3.ex) • V3.ex := by ext <;> simp [V3.dot]
  obtain ⟨sols, hs⟩ := C30_robot6_returns hr Spec.sideArm_regular z z (by rintro _ _ ⟨⟩) Spec.sideArm_conf.shoulder hT (Spec.sideArm_away none none hT)
  have hw : ∀ j q, Spec.withinLimits (Spec.sideArm none none) j q := by rintro j q _ _ ⟨⟩
  obtain ⟨_, _, _, _, _, _, hm⟩ := C30_robot6_complete_partial hr Spec.sideArm_regular Spec.sideArm_conf (hw _ _) (hw _ _) (hw _ _) (hw _ _)
    (hw _ _) (hw _ _) hT hs
  obtain ⟨-, ep⟩ := wristArm_pose hr z z hT
  have ec : (V3.ez : V3 ℝ).cross (Spec.wristAt V3.ez V3.ey V3.ey V3.ez 0 (V3.ez + V3.ey) (V3.ex + 0) 0 0 (-(Real.pi / 2))) = -V3.ex := by
    ext <;> simp [Spec.wristAt, rot]
  obtain ⟨A, hA⟩ := C89_robot6_reach_twice hr (by simp [V3.dot]) (last := none)
    (by rw [centreGoal_eq, ep, ec]; simp [V3.dot, V3.norm_eq])
    (by rw [centreGoal_eq, ep, ec]; intro h; have := congrArg V3.x h; simp at this) hs
  exact ⟨_, _, _, _, A, sols, hT, hs, by simpa using hA.mem_iff.1 hm, hA⟩

/-- a regular joint vector of the small UR arm at the end of the lateral reach: upper arm and forearm pointing straight up -/
theorem Spec.smallUr_reach : Spec.RegularUr (V3.ey : V3 ℝ) 0 V3.ez V3.ez V3.ey 0 0 (Real.pi / 2) (Real.pi / 2) 0 where
  upper := Spec.smallUr_conf.upper
  fore := Spec.smallUr_conf.fore
  bend := .inl rfl
  shoulder := by intro h; have := congrArg V3.x h; simp [rot] at this
  wrist := Spec.smallUr_conf.wrist
  clear2 := .inl ⟨0, by simp⟩
  clear24 := by
    right
    rw [snap_eq, V3.norm_eq]
    apply Real.le_sqrt_of_sq_le
    simp [rot, V3.dot]; norm_num
  clear5 := Spec.smallUr_conf.clear5
  clear6 := .inl ⟨0, by simp⟩

/-- C89 is false for the UR solver, too: stretched straight up, every joint vector is listed twice. -/
theorem C89_ur_twice_false : ∃ (r : Robot ℝ) (θ : List ℝ) (T : Transform ℝ) (s : List XReal) (A : List (List XReal)) (sols : List (List XReal)),
    fwdkin r θ true = .ok T ∧ ur_invkin r.up T.up = .ok sols ∧ s ∈ A ∧ sols.Perm (A ++ A) := by
  have hr := Spec.smallUr_arm none none
  obtain ⟨T, hT⟩ : ∃ T, fwdkin (Spec.smallUr none none) [0, 0, 0, Real.pi / 2, Real.pi / 2, 0] true = .ok T :=
    ⟨_, fwdkin_chain6 hr.types hr.axes hr.links 0 0 0 (Real.pi / 2) (Real.pi / 2) 0⟩
  obtain ⟨eR, ep⟩ := urArm_pose hr hT
  obtain ⟨sols, hs⟩ := C60_ur_returns hr (by rintro _ _ ⟨⟩) Spec.smallUr_reach.upper Spec.smallUr_reach.fore Spec.smallUr_reach.bend
    Spec.smallUr_reach.shoulder hT (by
      intro a _
      have e5 : (Spec.lastLinkR (Spec.smallUr none none) T).mulVec V3.ey = -V3.ez := by
        rw [Spec.lastLinkR, ← unapplyAux_R, eR]
        ext <;> simp [rot]
      rw [Spec.urWristSq, e5, npEps_real]
      simp [rot, V3.dot]; norm_num)
  obtain ⟨_, _, _, _, _, _, hm, -⟩ := C60_ur_complete_partial hr Spec.smallUr_reach (by rintro _ _ ⟨⟩) (by rintro _ _ ⟨⟩) (by rintro _ _ ⟨⟩) hT hs
  have ec : (V3.ez : V3 ℝ).cross ((unapplyAux (Spec.smallUr none none) T).p - (unapplyAux (Spec.smallUr none none) T).R.mulVec (0 + 0)) = -V3.ex := by
    rw [ep]
    ext <;> simp [rot]
  obtain ⟨A, hA⟩ := C89_ur_reach_twice hr (last := none)
    (by rw [centreGoal_eq, ec]; simp [V3.dot, V3.norm_eq])
    (by rw [centreGoal_eq, ec]; intro h; have := congrArg V3.x h; simp at this) hs
  exact ⟨_, _, _, _, A, sols, hT, hs, by simpa using hA.mem_iff.1 hm, hA⟩

-- non-vacuity of `C89_robot6_distinct_partial`: the small arm has a regular joint vector in a list
example : ∃ T sols s, IsRot T.R ∧ (robot6_sphericalwrist_invkin (Spec.smallArm none none).up T.up none).2 = .ok sols ∧ s ∈ sols ∧
    Spec.regularRow V3.ez V3.ey V3.ez (V3.ex + 0) (Spec.centreGoal (Spec.smallArm none none) T (V3.ex + 0)) s := by
  have hr := Spec.smallArm_wrist none none
  have z : (0 : V3 ℝ) = ((0 : V3 ℝ).dot V3.ex) • V3.ex := by ext <;> simp [V3.dot]
  obtain ⟨T, hT⟩ : ∃ T, fwdkin (Spec.smallArm none none) [(0 : ℤ) * (2 * Real.pi), 0, 0, Real.pi / 2, Real.pi / 2, 0] true = .ok T :=
    ⟨_, fwdkin_chain6 hr.types hr.axes hr.links _ 0 0 (Real.pi / 2) (Real.pi / 2) 0⟩
  obtain ⟨sols, hs⟩ := Spec.smallArm_returns none none (by rintro _ _ ⟨⟩) 0 hT
  have hw : ∀ j q, Spec.withinLimits (Spec.smallArm none none) j q := by rintro j q _ _ ⟨⟩
  obtain ⟨n1, _, n3, _, _, _, hm⟩ := C30_robot6_complete_partial hr Spec.smallArm_regular Spec.smallArm_conf (hw _ _) (hw _ _) (hw _ _) (hw _ _)
    (hw _ _) (hw _ _) hT hs
  obtain ⟨-, ep⟩ := wristArm_pose hr z z hT
  have hR : IsRot T.R := by
    obtain ⟨hB, hF, hX⟩ := hr.aux
    rw [fwdkin_chain6 hr.types hr.axes hr.links] at hT
    cases hT
    rw [applyAux_R]
    exact hB.mul (((((((rot_isRot _ hr.unit0 _).mul (rot_isRot _ (pm_unit hr.par1) _)).mul (rot_isRot _ (pm_unit hr.par2) _)).mul
      ((rot_isRot _ hr.unit3 _).mul (rot_isRot _ hr.unit4 _))).mul (rot_isRot _ hr.unit5 _)).mul hF).mul hX)
  refine ⟨T, sols, _, hR, hs, hm, _, _, rfl, rfl, ?_, ?_⟩
  · rw [centreGoal_eq, ep, rot_periodic, rot_turns]
    simp [Spec.wristAt, rot, V3.dot]
  · have e1 : Spec.dir (V3.ex + 0 : V3 ℝ) V3.ey = V3.ex := by
      simp [Spec.dir, V3.perp, V3.dot, V3.norm_eq]; ext <;> simp
    have e2 : Spec.dir (V3.ez : V3 ℝ) V3.ey = V3.ez := by
      simp [Spec.dir, V3.perp, V3.dot, V3.norm_eq]; ext <;> simp
    rw [e1, e2, rot_periodic, rot_zero, V3.norm_eq, snap_eq]
    exact Real.le_sqrt_of_sq_le (by simp [V3.dot]; norm_num)

-- non-vacuity of `C89_ur_distinct_partial`: so has the small UR arm
example : ∃ T sols s, IsRot T.R ∧ ur_invkin (Spec.smallUr none none).up T.up none = .ok sols ∧ s ∈ sols ∧
    Spec.regularRow V3.ez V3.ey V3.ez V3.ez (Spec.centreGoal (Spec.smallUr none none) T (0 + 0)) s := by
  have hr := Spec.smallUr_arm none none
  obtain ⟨T, hT⟩ : ∃ T, fwdkin (Spec.smallUr none none) [(0 : ℤ) * (2 * Real.pi), 0, Real.pi / 2, 0, Real.pi / 2, 0] true = .ok T :=
    ⟨_, fwdkin_chain6 hr.types hr.axes hr.links _ 0 (Real.pi / 2) 0 (Real.pi / 2) 0⟩
  obtain ⟨sols, hs⟩ := Spec.smallUr_returns none none (by rintro _ _ ⟨⟩) 0 hT
  obtain ⟨n1, _, n3, _, _, _, hm, -⟩ := C60_ur_complete_partial hr Spec.smallUr_conf (by rintro _ _ ⟨⟩) (by rintro _ _ ⟨⟩) (by rintro _ _ ⟨⟩) hT hs
  obtain ⟨-, ep⟩ := urArm_pose hr hT
  have hR : IsRot T.R := by
    obtain ⟨hB, hF, hX⟩ := hr.aux
    have uk := pm_unit hr.par
    rw [fwdkin_chain6 hr.types hr.axes hr.links] at hT
    cases hT
    rw [applyAux_R]
    exact hB.mul (((((((rot_isRot _ ez_unit _).mul (rot_isRot _ uk _)).mul (rot_isRot _ uk _)).mul
      ((rot_isRot _ uk _).mul (rot_isRot _ nez_unit _))).mul (rot_isRot _ uk _)).mul hF).mul hX)
  refine ⟨T, sols, _, hR, hs, hm, _, _, rfl, rfl, ?_, ?_⟩
  · rw [centreGoal_eq, ep, rot_periodic, rot_turns]
    simp [rot, V3.dot]
  · have e2 : Spec.dir (V3.ez : V3 ℝ) V3.ey = V3.ez := by
      simp [Spec.dir, V3.perp, V3.dot, V3.norm_eq]; ext <;> simp
    rw [e2, rot_periodic, V3.norm_eq, snap_eq]
    exact Real.le_sqrt_of_sq_le (by simp [rot, V3.dot]; norm_num)
