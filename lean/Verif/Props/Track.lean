import Verif.Lemmas.Track

/-! # C67: asked for the pose the arm is in, the inverse kinematics answers with the joint values the arm has -/
set_option autoImplicit false

section
variable {r : Robot ℝ} {h0 h1 h2 h3 h4 h5 P0 P1 P2 P3 P4 P5 P6 : V3 ℝ} {q1 q2 q3 q4 q5 q6 : ℝ}

/-- C67 (`_partial`: the property has no regularity conditions and allows all limits).  For every arm of this geometry with any rigid
base, flange and tool, and every regular joint vector strictly inside limits of the usual kind: if the call for its pose, with these
joint values as the last ones, returns, then the first solution is this joint vector - the same numbers, without added turns, first in
the list, and although `normalize_joints` prunes candidates. -/
theorem C67_robot6_tracks_partial (hr : Spec.WristArm r h0 h1 h2 h3 h4 h5 P0 P1 P2 P3 P4 P5 P6)
    (ha : Spec.RegularArm h0 h2 P2 (P3 + P4)) (hc : Spec.RegularConf h0 h1 h2 h3 h4 h5 P1 P2 (P3 + P4) q2 q3 q4 q5 q6)
    (l1 : Spec.withinLimits r 0 q1) (l2 : Spec.withinLimits r 1 q2) (l3 : Spec.withinLimits r 2 q3) (l4 : Spec.withinLimits r 3 q4)
    (l5 : Spec.withinLimits r 4 q5) (l6 : Spec.withinLimits r 5 q6) {T : Transform ℝ}
    (hT : fwdkin r [q1, q2, q3, q4, q5, q6] true = .ok T) {sols : List (List XReal)}
    (h : (robot6_sphericalwrist_invkin r.up T.up (some [.fin q1, .fin q2, .fin q3, .fin q4, .fin q5, .fin q6])).2 = .ok sols) :
    sols.head? = some [.fin q1, .fin q2, .fin q3, .fin q4, .fin q5, .fin q6] := by
  obtain ⟨hP4, hP5, rows, h, hso⟩ := robot6_search_last (last := some [q1, q2, q3, q4, q5, q6]) hr h
  obtain ⟨eR, ep⟩ := wristArm_pose hr hP4 hP5 hT
  obtain ⟨c, hP0⟩ := hr.first
  have hR1 := rot_isRot h0 hr.unit0 q1
  have h6 : IsRot (unapplyAux r T).R := by
    rw [eR]
    exact (((hR1.mul (rot_isRot h1 (pm_unit hr.par1) q2)).mul (rot_isRot h2 (pm_unit hr.par2) q3)).mul
      ((rot_isRot h3 hr.unit3 q4).mul (rot_isRot h4 hr.unit4 q5))).mul (rot_isRot h5 hr.unit5 q6)
  have hfin := fun s hs => r6Search_sound (r := r) (s := s) hr.unit0 hr.par1 hr.par2 hr.unit3 hr.unit4
    hr.unit5 hr.perp34 hr.perp45 hP0 hr.level h6 h hs
  obtain ⟨n1, n3, sl, ⟨rfl, rfl⟩, he, hsub⟩ := r6Search_reach hr.unit0 hr.par1 hr.par2 hP0 ha.upright ep hc.shoulder ha.fore ha.upper ha.bend
    (keeps_last rfl l1) (keeps_last rfl l3) h
  rw [eR] at he
  obtain ⟨n2, n4, n5, n6, ⟨rfl, rfl, rfl, rfl⟩, hm⟩ := r6Elbow_complete (pm_unit hr.par1) (pm_unit hr.par2) hr.unit3 hr.unit4 hr.unit5 hr.perp34
    hr.perp45 (rot_isRot h0 hr.unit0 q1) hc.clear2 hc.clear4 hc.clear5 hc.clear6 hc.wrist (keeps_last rfl l2) (keeps_last rfl l4)
    (keeps_last rfl l5) (keeps_last rfl l6) he
  refine sortByLast_head (l := [q1, q2, q3, q4, q5, q6]) hso ?_ ?_
  · intro s hs
    obtain ⟨a1, a2, a3, a4, a5, a6, rfl, -⟩ := hfin s hs
    exact ⟨[a1, a2, a3, a4, a5, a6], rfl, rfl⟩
  · simpa using hsub _ hm

/-- C67: the call does return, under the conditions of `C30_robot6_returns`. -/
theorem C67_robot6_returns (hr : Spec.WristArm r h0 h1 h2 h3 h4 h5 P0 P1 P2 P3 P4 P5 P6)
    (ha : Spec.RegularArm h0 h2 P2 (P3 + P4)) (hP4 : P4 = (P4.dot h3) • h3) (hP5 : P5 = (P5.dot h5) • h5) (hl : Spec.limitsSized r 6)
    (hc : Spec.RegularConf h0 h1 h2 h3 h4 h5 P1 P2 (P3 + P4) q2 q3 q4 q5 q6)
    (l1 : Spec.withinLimits r 0 q1) (l2 : Spec.withinLimits r 1 q2) (l3 : Spec.withinLimits r 2 q3) (l4 : Spec.withinLimits r 3 q4)
    (l5 : Spec.withinLimits r 4 q5) (l6 : Spec.withinLimits r 5 q6) {T : Transform ℝ}
    (hT : fwdkin r [q1, q2, q3, q4, q5, q6] true = .ok T)
    (hns : ∀ a b c : ℝ, (Spec.wristAt h0 h1 h2 P0 P1 P2 (P3 + P4) a b c - Spec.wristAt h0 h1 h2 P0 P1 P2 (P3 + P4) q1 q2 q3).norm < snap →
      npEps ≤ Spec.wristSq r T h0 h1 h2 h3 h5 a b c) :
    ∃ sols, (robot6_sphericalwrist_invkin r.up T.up (some [.fin q1, .fin q2, .fin q3, .fin q4, .fin q5, .fin q6])).2 =
      .ok ([.fin q1, .fin q2, .fin q3, .fin q4, .fin q5, .fin q6] :: sols) := by
  obtain ⟨rows, hrows⟩ := robot6_rows hr ha hP4 hP5 hl (last := some [q1, q2, q3, q4, q5, q6])
    (by rintro _ ⟨⟩; simp) hc.shoulder hT hns
  obtain ⟨eR, ep⟩ := wristArm_pose hr hP4 hP5 hT
  obtain ⟨c, hP0⟩ := hr.first
  have hR1 := rot_isRot h0 hr.unit0 q1
  have h6 : IsRot (unapplyAux r T).R := by
    rw [eR]
    exact (((hR1.mul (rot_isRot h1 (pm_unit hr.par1) q2)).mul (rot_isRot h2 (pm_unit hr.par2) q3)).mul
      ((rot_isRot h3 hr.unit3 q4).mul (rot_isRot h4 hr.unit4 q5))).mul (rot_isRot h5 hr.unit5 q6)
  have hfin := fun s hs => r6Search_sound (r := r) (s := s) hr.unit0 hr.par1 hr.par2 hr.unit3 hr.unit4
    hr.unit5 hr.perp34 hr.perp45 hP0 hr.level h6 hrows hs
  have hne : rows ≠ [] := by
    rintro rfl
    obtain ⟨n1, n3, sl, -, he, hsub⟩ := r6Search_reach hr.unit0 hr.par1 hr.par2 hP0 ha.upright ep hc.shoulder ha.fore ha.upper ha.bend
      (keeps_last rfl l1) (keeps_last rfl l3) hrows
    rw [eR] at he
    obtain ⟨n2, n4, n5, n6, -, hm⟩ := r6Elbow_complete (pm_unit hr.par1) (pm_unit hr.par2) hr.unit3 hr.unit4 hr.unit5 hr.perp34
      hr.perp45 (rot_isRot h0 hr.unit0 q1) hc.clear2 hc.clear4 hc.clear5 hc.clear6 hc.wrist (keeps_last rfl l2) (keeps_last rfl l4)
      (keeps_last rfl l5) (keeps_last rfl l6) he
    exact absurd (hsub _ hm) (by simp)
  obtain ⟨sols, hs⟩ := sortByLast_total (l := [q1, q2, q3, q4, q5, q6]) hne (by
    intro s hs
    obtain ⟨a1, a2, a3, a4, a5, a6, rfl, -⟩ := hfin s hs
    rfl)
  have hcall : (robot6_sphericalwrist_invkin r.up T.up (some [.fin q1, .fin q2, .fin q3, .fin q4, .fin q5, .fin q6])).2 = .ok sols :=
    (robot6_eval hr hP4 hP5 T (some [q1, q2, q3, q4, q5, q6])).trans (by rw [hrows]; exact hs)
  have := C67_robot6_tracks_partial hr ha hc l1 l2 l3 l4 l5 l6 hT hcall
  rcases sols with _ | ⟨s, sols⟩
  · cases this
  · cases this; exact ⟨sols, hcall⟩
end

section
variable {r : Robot ℝ} {k P0 P1 P2 P3 P4 P5 P6 : V3 ℝ} {q1 q2 q3 q4 q5 q6 : ℝ}

theorem ur_rot (hr : Spec.UrChain r k P0 P1 P2 P3 P4 P5 P6) {T : Transform ℝ} (hT : fwdkin r [q1, q2, q3, q4, q5, q6] true = .ok T) :
    IsRot (unapplyAux r T).R := by
  have u := pm_unit hr.par
  rw [(urArm_pose hr hT).1]
  exact ((((rot_isRot V3.ez ez_unit q1).mul (rot_isRot k u _)).mul (rot_isRot _ nez_unit q5)).mul (rot_isRot k u q6))

/-- the search keeps the last joint values -/
theorem ur_rows_last (hr : Spec.UrChain r k P0 P1 P2 P3 P4 P5 P6) (hc : Spec.RegularUr k P1 P2 P3 P4 q2 q3 q4 q5 q6)
    (l1 : Spec.withinLimits r 0 q1) (l234 : Spec.urTrackLimits r q2 q3 q4) (h5 : |q5| ≤ Real.pi) (l6 : Spec.withinLimits r 5 q6)
    {T : Transform ℝ} (hT : fwdkin r [q1, q2, q3, q4, q5, q6] true = .ok T) {rows : List (List XReal)}
    (h : urSearch [V3.ez.up, k.up, k.up, k.up, (-V3.ez : V3 ℝ).up, k.up] [P0.up, P1.up, P2.up, P3.up, P4.up, P5.up, P6.up]
      (upNormalizer r (some [q1, q2, q3, q4, q5, q6])) (unapplyAux r T).R.up (unapplyAux r T).p.up = .ok rows) :
    [.fin q1, .fin q2, .fin q3, .fin q4, .fin q5, .fin q6] ∈ rows := by
  have hpi := Real.pi_pos
  obtain ⟨eR, ep⟩ := urArm_pose hr hT
  obtain ⟨c, hP0⟩ := hr.first
  obtain ⟨k2, k3, k4⟩ := keepsTo_ur_last (xs := [q1, q2, q3, q4, q5, q6]) rfl rfl rfl l234
  obtain ⟨n1, n2, n3, n4, n5, n6, ⟨rfl, rfl, rfl, rfl, rfl⟩, hm, hb⟩ := urSearch_complete hr.par hP0 eR ep hc.shoulder hc.fore hc.upper hc.bend
    (by rw [cos_q5 hr.par]; have := hc.wrist; rw [Real.sin_sq] at this; exact this)
    hc.clear2 hc.clear24 hc.clear5 hc.clear6 (keeps_last rfl l1) k2 k3 k4 (keeps_last rfl l6) h
  have hs5 : Real.sin q5 ≠ 0 := by
    intro h0
    have := hc.wrist
    rw [h0] at this
    have := npEps_pos
    norm_num at *
    linarith
  have n5z : n5 = 0 := by
    have hne : |q5| ≠ Real.pi := by
      intro e
      rcases abs_eq hpi.le |>.1 e with e | e <;> exact hs5 (by rw [e]; simp)
    rw [abs_le] at hb
    have h5' : |q5| < Real.pi := lt_of_le_of_ne h5 hne
    rw [abs_lt] at h5'
    have n1 : (n5 : ℝ) < 1 := by nlinarith [hb.2, h5'.1]
    have n2 : (-1 : ℝ) < n5 := by nlinarith [hb.1, h5'.2]
    have n1' : n5 < 1 := by exact_mod_cast n1
    have n2' : -1 < n5 := by exact_mod_cast n2
    omega
  subst n5z
  simpa using hm

/-- C67 for UR arms (`_partial`: the property has no regularity conditions and allows all limits and joint values; see
`C67_ur_wrist_turn_lost` and `C67_ur_fourth_lost`).  Joint 5 has to be within half a turn, and the parallel joints have to satisfy
`Spec.urTrackLimits`; for limits of one turn this means that the sum of joints 2 to 4, brought to half a turn around zero, minus the
joints 2 and 3 is less than two turns. -/
theorem C67_ur_tracks_partial (hr : Spec.UrChain r k P0 P1 P2 P3 P4 P5 P6) (hc : Spec.RegularUr k P1 P2 P3 P4 q2 q3 q4 q5 q6)
    (l1 : Spec.withinLimits r 0 q1) (l234 : Spec.urTrackLimits r q2 q3 q4) (h5 : |q5| ≤ Real.pi) (l6 : Spec.withinLimits r 5 q6)
    {T : Transform ℝ} (hT : fwdkin r [q1, q2, q3, q4, q5, q6] true = .ok T) {sols : List (List XReal)}
    (h : ur_invkin r.up T.up (some [.fin q1, .fin q2, .fin q3, .fin q4, .fin q5, .fin q6]) = .ok sols) :
    sols.head? = some [.fin q1, .fin q2, .fin q3, .fin q4, .fin q5, .fin q6] := by
  obtain ⟨rows, h, hso⟩ := ur_search_last (last := some [q1, q2, q3, q4, q5, q6]) hr h
  obtain ⟨c, hP0⟩ := hr.first
  refine sortByLast_head (l := [q1, q2, q3, q4, q5, q6]) hso ?_ (ur_rows_last hr hc l1 l234 h5 l6 hT h)
  intro s hs
  obtain ⟨a1, a2, a3, a4, a5, a6, rfl, -⟩ := urSearch_sound (r := r) hr.par hP0 (ur_rot hr hT) h hs
  exact ⟨[a1, a2, a3, a4, a5, a6], rfl, rfl⟩

/-- C67: the call does return, under the conditions of `C60_ur_returns`. -/
theorem C67_ur_returns (hr : Spec.UrChain r k P0 P1 P2 P3 P4 P5 P6) (hl : Spec.limitsSized r 6)
    (hc : Spec.RegularUr k P1 P2 P3 P4 q2 q3 q4 q5 q6) (l1 : Spec.withinLimits r 0 q1) (l234 : Spec.urTrackLimits r q2 q3 q4)
    (h5 : |q5| ≤ Real.pi) (l6 : Spec.withinLimits r 5 q6) {T : Transform ℝ} (hT : fwdkin r [q1, q2, q3, q4, q5, q6] true = .ok T)
    (hns : ∀ a : ℝ, V3.ey.dot ((rot V3.ez (a - q1)).transpose.mulVec (P1 + (rot k q2).mulVec (P2 + (rot k q3).mulVec (P3 + (rot k q4).mulVec P4)))) =
      V3.ey.dot (P1 + P2 + P3 + P4) → npEps ≤ Spec.urWristSq r T a) :
    ∃ sols, ur_invkin r.up T.up (some [.fin q1, .fin q2, .fin q3, .fin q4, .fin q5, .fin q6]) =
      .ok ([.fin q1, .fin q2, .fin q3, .fin q4, .fin q5, .fin q6] :: sols) := by
  obtain ⟨rows, hrows⟩ := ur_rows hr hl (last := some [q1, q2, q3, q4, q5, q6]) (by rintro _ ⟨⟩; simp) hc.upper hc.fore hc.bend hc.shoulder
    hT hns
  obtain ⟨c, hP0⟩ := hr.first
  have hm := ur_rows_last hr hc l1 l234 h5 l6 hT hrows
  obtain ⟨sols, hs⟩ := sortByLast_total (l := [q1, q2, q3, q4, q5, q6]) (List.ne_nil_of_mem hm) (by
    intro s hs
    obtain ⟨a1, a2, a3, a4, a5, a6, rfl, -⟩ := urSearch_sound (r := r) hr.par hP0 (ur_rot hr hT) hrows hs
    rfl)
  have hcall : ur_invkin r.up T.up (some [.fin q1, .fin q2, .fin q3, .fin q4, .fin q5, .fin q6]) = .ok sols :=
    (ur_eval hr T (some [q1, q2, q3, q4, q5, q6])).trans (by rw [hrows]; exact hs)
  have := C67_ur_tracks_partial hr hc l1 l234 h5 l6 hT hcall
  rcases sols with _ | ⟨s, sols⟩
  · cases this
  · cases this; exact ⟨sols, hcall⟩

/-- C67 is false for UR arms when joint 5 is more than half a turn away from zero: whatever the robot, the pose and the last joint
values, no solution has such a value of joint 5, since it is not normalized. -/
theorem C67_ur_wrist_turn_lost (robot : Robot XReal) (pose : Transform XReal) (last : Option (List XReal)) (sols : List (List XReal))
    (h : ur_invkin robot pose last = .ok sols) (s : List XReal) (hs : s ∈ sols) (t : ℝ) (ht : s[4]? = some (.fin t)) : |t| ≤ Real.pi := by
  obtain ⟨-, rows, h1, h⟩ := ur_invkin_ok h
  obtain ⟨q1, q2, q3, q4, q5, q6, q24, rfl, -, b5, -⟩ := urSearch_angles h1 ((sortByLast_mem h).mem_iff.1 hs)
  simp only [List.getElem?_cons_succ, List.getElem?_cons_zero, Option.some.injEq] at ht
  subst ht
  rcases b5 with e | ⟨x, e, b⟩
  · cases e
  · cases e; exact b

/-- C67 is false for UR arms with limits of one turn for joint 4: if the sum of joints 2 to 4, brought to half a turn around zero, minus
joints 2 and 3 is two turns or more, then this joint vector is not returned, whatever the pose and the last joint values; the
difference is only moved by one turn.  (`C67_ur_tracks_partial` is the converse.) -/
theorem C67_ur_fourth_lost (r : Robot ℝ) (pose : Transform XReal) (last : Option (List ℝ)) (sols : List (List XReal)) (lo up : List ℝ)
    (hlo : r.lower = some lo) (hup : r.upper = some up) (hl : Spec.oneTurn lo up 3)
    (hn : ∀ n : ℤ, |q2 + q3 + q4 + n * (2 * Real.pi)| ≤ Real.pi → 4 * Real.pi ≤ |q4 + n * (2 * Real.pi)|)
    (h : ur_invkin r.up pose (last.map (·.map .fin)) = .ok sols) : [.fin q1, .fin q2, .fin q3, .fin q4, .fin q5, .fin q6] ∉ sols := by
  intro hs
  have hpi := Real.pi_pos
  obtain ⟨-, rows, h1, h⟩ := ur_invkin_ok h
  obtain ⟨a1, a2, a3, a4, a5, a6, q24, e, b24, -, n4⟩ := urSearch_angles h1 ((sortByLast_mem h).mem_iff.1 hs)
  cases e
  have n4 : (upNormalizer r last).normalize 3 (q24 - .fin q2 - .fin q3) = .ok (some (.fin q4)) := n4
  rcases b24 with rfl | ⟨t, rfl, b24⟩
  · cases normalize_nan (N := upNormalizer r last) n4
  simp only [XReal.fin_sub] at n4
  obtain ⟨n, e⟩ := normalize_shift n4
  simp only [XReal.fin.injEq] at e
  have hbig := hn (-n) (by rw [e]; push_cast; convert b24 using 2; ring)
  have e4 : q4 + ((-n : ℤ) : ℝ) * (2 * Real.pi) = t - q2 - q3 := by rw [e]; push_cast; ring
  rw [e4] at hbig
  have g1 : getI (lo.map XReal.fin) 3 = .ok (.fin (-(2 * Real.pi))) := getI_some (by simp [hl.1])
  have g2 : getI (up.map XReal.fin) 3 = .ok (.fin (2 * Real.pi)) := getI_some (by simp [hl.2])
  simp only [Normalizer.normalize, upNormalizer_limits hlo hup, g1, g2, Except.bind_ok, Except.pure_eq] at n4
  rcases hn4 : normLimits (XReal.fin (-(2 * Real.pi))) (XReal.fin (2 * Real.pi)) (XReal.fin (t - q2 - q3)) with _ | x
  · rw [hn4] at n4; cases n4
  obtain ⟨m, m1, m2, m3⟩ := normLimits_near hn4
  have m4 : (m : ℝ) ≤ 1 := by exact_mod_cast (abs_le.1 m1).2
  have m5 : (-1 : ℝ) ≤ m := by exact_mod_cast (abs_le.1 m1).1
  rcases le_abs.1 hbig with hb | hb <;> nlinarith
end

/-! ### Concrete cases -/

-- non-vacuity of `C67_robot6_tracks_partial` and `C67_robot6_returns`
example : ∃ T sols, fwdkin (Spec.smallArm (some [-3, -3, -3, -3, -3, -3]) (some [3, 3, 3, 3, 3, 3])) [0, 0, 0, Real.pi / 2, Real.pi / 2, 0] true = .ok T ∧
    (robot6_sphericalwrist_invkin (Spec.smallArm (some [-3, -3, -3, -3, -3, -3]) (some [3, 3, 3, 3, 3, 3])).up T.up
      (some [.fin 0, .fin 0, .fin 0, .fin (Real.pi / 2), .fin (Real.pi / 2), .fin 0])).2 =
      .ok ([.fin 0, .fin 0, .fin 0, .fin (Real.pi / 2), .fin (Real.pi / 2), .fin 0] :: sols) := by
  set lo : List ℝ := [-3, -3, -3, -3, -3, -3] with hlo
  set up : List ℝ := [3, 3, 3, 3, 3, 3] with hup
  have hr := Spec.smallArm_wrist (some lo) (some up)
  have hT := fwdkin_chain6 hr.types hr.axes hr.links 0 0 0 (Real.pi / 2) (Real.pi / 2) 0
  have p1 := Real.pi_gt_three
  have p2 := Real.pi_lt_d2
  have z : (0 : V3 ℝ) = ((0 : V3 ℝ).dot V3.ex) • V3.ex := by ext <;> simp [V3.dot]
  have hw : ∀ j < 6, ∀ q : ℝ, -3 < q → q < 3 → Spec.withinLimits (Spec.smallArm (some lo) (some up)) j q := by
    rintro j hj q h1 h2 _ _ ⟨⟩ ⟨⟩
    refine ⟨-3, 3, ?_, ?_, h1, h2, .inl ⟨by linarith, by linarith⟩⟩ <;> interval_cases j <;> rfl
  have haway := Spec.smallArm_away (some lo) (some up) 0 (T := _) (by rw [Int.cast_zero, zero_mul]; exact hT)
  rw [Int.cast_zero, zero_mul] at haway
  obtain ⟨sols, hs⟩ := C67_robot6_returns hr Spec.smallArm_regular z z (by rintro _ _ ⟨⟩ ⟨⟩; simp [hlo, hup]) Spec.smallArm_conf
    (hw 0 (by norm_num) 0 (by norm_num) (by norm_num)) (hw 1 (by norm_num) 0 (by norm_num) (by norm_num))
    (hw 2 (by norm_num) 0 (by norm_num) (by norm_num)) (hw 3 (by norm_num) _ (by linarith) (by linarith))
    (hw 4 (by norm_num) _ (by linarith) (by linarith)) (hw 5 (by norm_num) 0 (by norm_num) (by norm_num)) hT haway
  exact ⟨_, _, hT, hs⟩

/-- one turn on both sides for all joints, the limits of UR arms -/
noncomputable def Spec.urLo : List ℝ := List.replicate 6 (-(2 * Real.pi))
noncomputable def Spec.urUp : List ℝ := List.replicate 6 (2 * Real.pi)

theorem Spec.urLo_lt {q1 q2 q3 q4 q5 q6 : ℝ} (h : ∀ q ∈ [q1, q2, q3, q4, q5, q6], -(2 * Real.pi) < q) :
    List.Forall₂ (· < ·) Spec.urLo [q1, q2, q3, q4, q5, q6] := by
  simpa [Spec.urLo, List.replicate] using h

theorem Spec.urUp_lt {q1 q2 q3 q4 q5 q6 : ℝ} (h : ∀ q ∈ [q1, q2, q3, q4, q5, q6], q < 2 * Real.pi) :
    List.Forall₂ (· < ·) [q1, q2, q3, q4, q5, q6] Spec.urUp := by
  simpa [Spec.urUp, List.replicate] using h

-- non-vacuity of `C67_ur_tracks_partial` and `C67_ur_returns`, with the limits of UR arms
example : ∃ T sols, fwdkin (Spec.smallUr (some Spec.urLo) (some Spec.urUp)) [0, 0, Real.pi / 2, 0, Real.pi / 2, 0] true = .ok T ∧
    ur_invkin (Spec.smallUr (some Spec.urLo) (some Spec.urUp)).up T.up
      (some [.fin 0, .fin 0, .fin (Real.pi / 2), .fin 0, .fin (Real.pi / 2), .fin 0]) =
      .ok ([.fin 0, .fin 0, .fin (Real.pi / 2), .fin 0, .fin (Real.pi / 2), .fin 0] :: sols) := by
  have hr := Spec.smallUr_arm (some Spec.urLo) (some Spec.urUp)
  have hT := fwdkin_chain6 hr.types hr.axes hr.links 0 0 (Real.pi / 2) 0 (Real.pi / 2) 0
  have hpi := Real.pi_pos
  have hw : ∀ j < 6, ∀ q : ℝ, -(2 * Real.pi) < q → q < 2 * Real.pi → Spec.withinLimits (Spec.smallUr (some Spec.urLo) (some Spec.urUp)) j q := by
    rintro j hj q h1 h2 _ _ ⟨⟩ ⟨⟩
    refine ⟨-(2 * Real.pi), 2 * Real.pi, ?_, ?_, h1, h2, .inr ⟨by linarith, by linarith⟩⟩ <;> interval_cases j <;> rfl
  have hsize : Spec.limitsSized (Spec.smallUr (some Spec.urLo) (some Spec.urUp)) 6 := by
    rintro _ _ ⟨⟩ ⟨⟩; simp [Spec.urLo, Spec.urUp]
  have haway := Spec.smallUr_away (some Spec.urLo) (some Spec.urUp) 0 (T := _) (by rw [Int.cast_zero, zero_mul]; exact hT)
  obtain ⟨sols, hs⟩ := C67_ur_returns hr hsize Spec.smallUr_conf (hw 0 (by norm_num) 0 (by linarith) (by linarith))
    (by
      rintro _ _ ⟨⟩ ⟨⟩
      right
      refine ⟨⟨_, _, rfl, rfl, le_rfl, le_rfl, ?_, ?_⟩, ⟨_, _, rfl, rfl, le_rfl, le_rfl, ?_, ?_⟩, ⟨_, _, rfl, rfl, le_rfl, le_rfl, ?_, ?_⟩, ?_⟩ <;>
        try linarith
      intro n hn
      rw [abs_le] at hn
      rw [abs_lt]
      constructor <;> linarith [hn.1, hn.2])
    (by rw [abs_of_pos] <;> linarith) (hw 5 (by norm_num) 0 (by linarith) (by linarith)) hT fun a _ => haway a
  exact ⟨_, _, hT, hs⟩

/-- C67 is false for UR arms: with the usual limits of one turn and joint 5 at minus three quarters of a turn, the joint values of the
arm are not among the solutions, whatever the pose. -/
theorem C67_ur_wrist_false : ∃ (r : Robot ℝ) (θ : List ℝ) (T : Transform ℝ), r.lower = some Spec.urLo ∧ r.upper = some Spec.urUp ∧
    List.Forall₂ (· < ·) Spec.urLo θ ∧ List.Forall₂ (· < ·) θ Spec.urUp ∧ fwdkin r θ true = .ok T ∧
    ∀ sols, ur_invkin r.up T.up (some (θ.map .fin)) = .ok sols → θ.map .fin ∉ sols := by
  have hr := Spec.smallUr_arm (some Spec.urLo) (some Spec.urUp)
  have hpi := Real.pi_pos
  refine ⟨_, [0, 0, Real.pi / 2, 0, -(3 / 2 * Real.pi), 0], _, rfl, rfl, Spec.urLo_lt ?_, Spec.urUp_lt ?_,
    fwdkin_chain6 hr.types hr.axes hr.links _ _ _ _ _ _, fun sols h hm => ?_⟩
  · simp only [List.mem_cons, List.not_mem_nil, or_false]; rintro q (rfl | rfl | rfl | rfl | rfl | rfl) <;> linarith
  · simp only [List.mem_cons, List.not_mem_nil, or_false]; rintro q (rfl | rfl | rfl | rfl | rfl | rfl) <;> linarith
  · have := C67_ur_wrist_turn_lost _ _ _ _ h _ hm (-(3 / 2 * Real.pi)) rfl
    rw [abs_neg, abs_of_pos (by linarith)] at this
    linarith

/-- C67 is false for UR arms, also with joint 5 within half a turn: with the usual limits of one turn, joints 2 and 3 at seven eighths of
a turn and joint 4 at minus one eighth, the joint values of the arm are not among the solutions. -/
theorem C67_ur_fourth_false : ∃ (r : Robot ℝ) (θ : List ℝ) (T : Transform ℝ), r.lower = some Spec.urLo ∧ r.upper = some Spec.urUp ∧
    List.Forall₂ (· < ·) Spec.urLo θ ∧ List.Forall₂ (· < ·) θ Spec.urUp ∧ (∃ q5, θ[4]? = some q5 ∧ |q5| < Real.pi) ∧
    fwdkin r θ true = .ok T ∧ ∀ sols, ur_invkin r.up T.up (some (θ.map .fin)) = .ok sols → θ.map .fin ∉ sols := by
  have hr := Spec.smallUr_arm (some Spec.urLo) (some Spec.urUp)
  have hpi := Real.pi_pos
  refine ⟨_, [0, 7 / 4 * Real.pi, 7 / 4 * Real.pi, -(Real.pi / 4), Real.pi / 2, 0], _, rfl, rfl, Spec.urLo_lt ?_, Spec.urUp_lt ?_,
    ⟨_, rfl, ?_⟩, fwdkin_chain6 hr.types hr.axes hr.links _ _ _ _ _ _, fun sols h => ?_⟩
  · simp only [List.mem_cons, List.not_mem_nil, or_false]; rintro q (rfl | rfl | rfl | rfl | rfl | rfl) <;> linarith
  · simp only [List.mem_cons, List.not_mem_nil, or_false]; rintro q (rfl | rfl | rfl | rfl | rfl | rfl) <;> linarith
  · rw [abs_of_pos] <;> linarith
  · refine C67_ur_fourth_lost _ _ (some [0, 7 / 4 * Real.pi, 7 / 4 * Real.pi, -(Real.pi / 4), Real.pi / 2, 0]) sols Spec.urLo Spec.urUp rfl rfl ⟨rfl, rfl⟩ ?_ h
    intro n hn
    rw [abs_le] at hn
    have n1 : (n : ℝ) < -1 := by nlinarith [hn.2]
    have n1' : n < -1 := by exact_mod_cast n1
    have n2 : (n : ℝ) ≤ -2 := by exact_mod_cast (by omega : n ≤ -2)
    rw [le_abs]
    right
    nlinarith
