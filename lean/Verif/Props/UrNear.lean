import Verif.Props.OpwNear

/-! # Property C56 for robots that are only within the tolerances of the checks -/
set_option autoImplicit false

/-- A matrix accepted as one with entries 0 and ±1. -/
theorem nearM_opLe {A B : M3 ℝ} (h : Spec.NearM (1 / 10 ^ 6) A B) (hB : ∀ x ∈ B.toList, |x| ≤ 1) : OpLe (A - B) (33 / 10 ^ 6) := by
  rcases A with ⟨a00, a01, a02, a10, a11, a12, a20, a21, a22⟩
  rcases B with ⟨b00, b01, b02, b10, b11, b12, b20, b21, b22⟩
  simp only [Spec.NearM, M3.toList, List.zip_cons_cons, List.zip_nil_right, List.mem_cons, List.not_mem_nil, or_false,
      forall_eq_or_imp, forall_eq] at h hB
  obtain ⟨h1, h2, h3, h4, h5, h6, h7, h8, h9⟩ := h
  obtain ⟨k1, k2, k3, k4, k5, k6, k7, k8, k9⟩ := hB
  have e : ∀ {a b : ℝ}, |a - b| ≤ 1 / 10 ^ 6 + 1 / 10 ^ 5 * |b| → |b| ≤ 1 → |a - b| ≤ 11 / 10 ^ 6 := by
    intro a b h k
    norm_num at h ⊢
    linarith
  exact (OpLe.of_entries (d := 11 / 10 ^ 6) (e h1 k1) (e h2 k2) (e h3 k3) (e h4 k4) (e h5 k5) (e h6 k6) (e h7 k7) (e h8 k8) (e h9 k9)).mono
    (by norm_num)

/-- The parameters of an accepted robot in the factory convention are numbers read off its links. -/
theorem robotToUr_reads {robot : Robot ℝ} {h0 p0 p1 p2 p3 p4 p5 p6 : V3 ℝ} {hs : List (V3 ℝ)} (hH : robot.H = h0 :: hs)
    (hP : robot.P = [p0, p1, p2, p3, p4, p5, p6]) (hz : 0 < h0.z) {q : UrParams ℝ} (hq : robotToUr robot = .ok q) :
    q = ⟨p0.z, p2.x, p3.x, -(p1.y + p2.y + p3.y + p4.y), -p4.z, -p5.y⟩ := by
  have np : ((sixCols (h0 :: hs)).zip urAxes).all (fun he => decide (allclose3 he.1 (-he.2))) = false := by
    obtain ⟨hs', e⟩ : ∃ hs', sixCols (h0 :: hs) = h0 :: hs' := by cases hs <;> exact ⟨_, rfl⟩
    simp only [e, urAxes, List.zip_cons_cons, List.all_cons]
    rw [decide_eq_false, Bool.false_and]
    rintro ⟨-, -, h⟩
    rw [iscloseD_near] at h
    unfold Spec.Near at h
    simp only [V3.neg_z, V3.ez, abs_neg, abs_one, sub_neg_eq_add] at h
    rw [abs_of_pos (by linarith)] at h
    norm_num at h
    linarith
  unfold robotToUr at hq
  cases hF : robot.Tflange with
  | none => rw [hF] at hq; cases hq
  | some F =>
    cases hB : robot.Tbase with
    | none =>
      rw [hF, hB] at hq
      simp only [pyAssert_bind_ok] at hq
      exact absurd hq.2.2 (by simp)
    | some B =>
      rw [hF, hB] at hq
      simp only [pyAssert_bind_ok] at hq
      obtain ⟨_, _, _, _, hq⟩ := hq
      by_cases h6 : (sixCols robot.H).length ≠ 6
      · rw [if_pos h6] at hq; cases hq
      · rw [if_neg h6] at hq
        simp only [pyAssert_bind_ok] at hq
        obtain ⟨_, hq⟩ := hq
        rw [hH, np, hP] at hq
        simp only [Bool.false_eq_true, if_false, urParams, pyAssert_bind_ok] at hq
        obtain ⟨_, _, _, _, _, _, hq⟩ := hq
        cases hq
        rfl

/-- C56 for all robots that are accepted in the factory convention, not only those with exact frames, axes and links: for every joint
vector the orientation computed by the manufacturer's forward kinematics from the parameters is within 1/400 of the robot's (every vector
is turned to places that far apart, relative to its length), and the position within 1/400 of the total length of the links plus the last
link, which the parameters leave out (`C56_last_link_false`).  Missing: the other convention (`C56_urdf_false`, `C56_plus_false`) and other
joint types (`C56_sliding_false`). -/
theorem C56_accepted_partial (robot : Robot ℝ) (ht : robot.jointType = [0, 0, 0, 0, 0, 0]) (h0 : V3 ℝ) (hs : List (V3 ℝ))
    (hH : robot.H = h0 :: hs) (hz : 0 < h0.z) (q : UrParams ℝ) (hq : robotToUr robot = .ok q) (t0 t1 t2 t3 t4 t5 : ℝ) :
    ∃ T, Spec.toollessPose robot [t0, t1, t2, t3, t4, t5] = .ok T ∧
      (∀ v : V3 ℝ, (T.R.mulVec v - (Spec.urForward q t0 t1 t2 t3 t4 t5).R.mulVec v).norm ≤ 1 / 400 * v.norm) ∧
      (T.p - (Spec.urForward q t0 t1 t2 t3 t4 t5).p).norm ≤
        1 / 10 ^ 6 + 1 / 400 * (robot.P.map V3.norm).sum + |(robot.P.getD 6 0).y| := by
  obtain ⟨h0', h1, h2, h3, h4, h5, p0, p1, p2, p3, p4, p5, p6, F, B, hH', hP, hF, hFR, hFp, hB, hBR, hBp, ⟨k, hk, a0, a1, a2, a3, a4, a5⟩, hl⟩ :=
    (ur_ok_iff robot).1 ⟨q, hq⟩
  have hq' := robotToUr_reads hH hP hz hq
  rw [hH] at hH'
  obtain ⟨rfl, hrest⟩ := List.cons.inj hH'
  rw [hrest] at hH
  have k1 : k = 1 := by
    rcases hk with h | rfl
    · exact h
    · obtain ⟨_, _, h⟩ := a0
      unfold Spec.Near at h
      simp only [abs_neg, abs_one, sub_neg_eq_add] at h
      rw [abs_of_pos (by linarith)] at h
      norm_num at h
      linarith
  subst k1
  simp only [List.mem_cons, List.not_mem_nil, or_false, forall_eq_or_imp, forall_eq] at hl
  obtain ⟨l0, l1, l2, l3, l4, l5, l6, l7, l8, l9, l10⟩ := hl
  -- the exact arm
  let r : Robot ℝ := { robot with
    H := [⟨0, 0, 1⟩, ⟨0, -1, 0⟩, ⟨0, -1, 0⟩, ⟨0, -1, 0⟩, ⟨0, 0, -1⟩, ⟨0, -1, 0⟩]
    P := [⟨0, 0, p0.z⟩, ⟨0, p1.y, 0⟩, ⟨p2.x, p2.y, 0⟩, ⟨p3.x, p3.y, 0⟩, ⟨0, p4.y, p4.z⟩, ⟨0, p5.y, 0⟩, ⟨0, p6.y, 0⟩]
    Tflange := some ⟨⟨1, 0, 0, 0, 0, -1, 0, 1, 0⟩, 0, F.parent, F.child⟩
    Tbase := some ⟨rot V3.ez Real.pi, 0, B.parent, B.child⟩
    Rtool := none
    ptool := none }
  have harm : Spec.UrArm r 1 p0.z p1.y p2.x p2.y p3.x p3.y p4.y p4.z p5.y p6.y := ⟨ht, rfl, rfl, ⟨_, _, rfl⟩, _, _, rfl⟩
  obtain ⟨q0, hq0, H⟩ := C56_last_link_false r _ _ _ _ _ _ _ _ _ _ harm
  have eq0 : q0 = q := by
    have := (robotToUr_minus harm).symm.trans hq0
    rw [hq']
    cases this; rfl
  subst eq0
  obtain ⟨T0, hT0, b2⟩ := H t0 t1 t2 t3 t4 t5
  obtain ⟨T1, hT1, hR, _⟩ := toolless_six r _ _ _ _ _ _ _ _ _ _ _ _ _ _ _ harm.axes harm.links harm.flange harm.base harm.types t0 t1 t2 t3 t4 t5
  have e1 : T0 = T1 := by
    have := hT0.symm.trans hT1
    cases this; rfl
  subst e1
  rw [← urForward_R q0] at hR
  -- the distance of the two arms
  have nv : ∀ {h v : V3 ℝ}, Spec.Near3 h v → |v.x| + |v.y| + |v.z| ≤ 1 → (h - v).norm ≤ 33 / 10 ^ 6 := fun hn hv =>
    (near3_norm hn hv).trans (by norm_num)
  have m : ∀ p w : V3 ℝ, |p.x - w.x| ≤ 1 / 10 ^ 8 → |p.y - w.y| ≤ 1 / 10 ^ 8 → |p.z - w.z| ≤ 1 / 10 ^ 8 → (p - w).norm ≤ 3 / 10 ^ 8 := by
    intro p w hx hy hz
    have := V3.norm_le_sum (p - w)
    simp only [V3.sub_x, V3.sub_y, V3.sub_z] at this
    norm_num at hx hy hz ⊢
    linarith
  have zero : ∀ x : ℝ, |x - x| ≤ 1 / 10 ^ 8 := fun x => by rw [sub_self, abs_zero]; norm_num
  have off : ∀ {x : ℝ}, |x| ≤ 1 / 10 ^ 8 → |x - 0| ≤ 1 / 10 ^ 8 := fun h => by rwa [sub_zero]
  have mp : ∀ {p : V3 ℝ}, Spec.Near3 p 0 → (p - 0).norm ≤ 3 / 10 ^ 8 := by
    intro p h
    obtain ⟨a, b, c⟩ := h
    refine m _ _ ?_ ?_ ?_
    · simpa [Spec.Near] using a
    · simpa [Spec.Near] using b
    · simpa [Spec.Near] using c
  have near : Spec.RobotsNear (33 / 10 ^ 6) (3 / 10 ^ 8) r { robot with Rtool := none, ptool := none } := by
    refine ⟨rfl, ?_, ?_, ?_, ?_, Option.Rel.none, Option.Rel.none⟩
    · show List.Forall₂ _ _ robot.H
      rw [hH]
      exact .cons (nv a0 (by norm_num)) (.cons (nv a1 (by norm_num)) (.cons (nv a2 (by norm_num)) (.cons (nv a3 (by norm_num))
        (.cons (nv a4 (by norm_num)) (.cons (nv a5 (by norm_num)) .nil)))))
    · show List.Forall₂ _ _ robot.P
      rw [hP]
      exact .cons (m _ _ (off l0) (off l1) (zero _)) (.cons (m _ _ (off l2) (zero _) (off l3)) (.cons (m _ _ (zero _) (zero _) (off l4))
        (.cons (m _ _ (zero _) (zero _) (off l5)) (.cons (m _ _ (off l6) (zero _) (zero _)) (.cons (m _ _ (off l7) (zero _) (off l9))
        (.cons (m _ _ (off l8) (zero _) (off l10)) .nil))))))
    · show Option.Rel _ _ robot.Tflange
      rw [hF]
      exact Option.Rel.some ⟨opLe_sub_iff.1 (nearM_opLe hFR (by simp [M3.toList])), mp hFp⟩
    · show Option.Rel _ _ robot.Tbase
      rw [hB]
      refine Option.Rel.some ⟨opLe_sub_iff.1 ?_, mp hBp⟩
      show OpLe (B.R - rot V3.ez Elem.pi) _
      rw [turn_pi]
      exact nearM_opLe hBR (by simp [M3.toList])
  have uy : IsUnit3 (⟨0, -1, 0⟩ : V3 ℝ) := by norm_num [IsUnit3, V3.dot]
  have uz : IsUnit3 (⟨0, 0, -1⟩ : V3 ℝ) := by norm_num [IsUnit3, V3.dot]
  have uz1 : IsUnit3 (⟨0, 0, 1⟩ : V3 ℝ) := by norm_num [IsUnit3, V3.dot]
  have wf : r.WF := by
    refine ⟨rfl, (by show robot.jointType.length = 6; rw [ht]; rfl), ?_, ?_, ?_, ?_, (fun B h => nomatch h), ⟨fun _ => rfl, fun _ => rfl⟩⟩
    · show ∀ t ∈ robot.jointType, t < 4
      rw [ht]; simp
    · intro h hm
      simp only [r, List.mem_cons, List.not_mem_nil, or_false] at hm
      rcases hm with rfl | rfl | rfl | rfl | rfl | rfl
      exacts [uz1, uy, uy, uy, uz, uy]
    · intro G hG
      cases hG
      exact rot_isRot _ unit_ez _
    · intro G hG
      cases hG
      show IsRot (⟨1, 0, 0, 0, 0, -1, 0, 1, 0⟩ : M3 ℝ)
      rw [← rot_quarter]
      exact rot_isRot _ unit_ex _
  have hT0' : fwdkin r [t0, t1, t2, t3, t4, t5] true = .ok T0 := hT0
  obtain ⟨T, hT, c1, c2⟩ := C99_pose (33 / 10 ^ 6) (3 / 10 ^ 8) (by norm_num) (by norm_num) (by norm_num) r _ wf near _ T0 hT0'
  have hlen : r.jointType.length = 6 := by show robot.jointType.length = 6; rw [ht]; rfl
  have hsl : Spec.slides r.jointType [t0, t1, t2, t3, t4, t5] = 0 := by
    show Spec.slides robot.jointType _ = 0
    rw [ht]; simp [Spec.slides]
  have part : ∀ p w : V3 ℝ, w.x ^ 2 ≤ p.x ^ 2 → w.y ^ 2 ≤ p.y ^ 2 → w.z ^ 2 ≤ p.z ^ 2 → w.norm ≤ p.norm := by
    intro p w hx hy hz
    rw [V3.norm_eq, V3.norm_eq]
    apply Real.sqrt_le_sqrt
    simp only [V3.dot]
    linarith
  have sq0 : ∀ x : ℝ, (0 : ℝ) ^ 2 ≤ x ^ 2 := fun x => by rw [zero_pow two_ne_zero]; exact sq_nonneg x
  have hreach : Spec.reach r [t0, t1, t2, t3, t4, t5] ≤ (robot.P.map V3.norm).sum := by
    have : Spec.reach r [t0, t1, t2, t3, t4, t5] = (⟨0, 0, p0.z⟩ : V3 ℝ).norm + ((⟨0, p1.y, 0⟩ : V3 ℝ).norm + ((⟨p2.x, p2.y, 0⟩ : V3 ℝ).norm +
        ((⟨p3.x, p3.y, 0⟩ : V3 ℝ).norm + ((⟨0, p4.y, p4.z⟩ : V3 ℝ).norm + ((⟨0, p5.y, 0⟩ : V3 ℝ).norm + (⟨0, p6.y, 0⟩ : V3 ℝ).norm))))) := by
      show _ + Spec.travel robot.jointType _ _ + _ + _ + _ = _
      rw [ht]
      simp [Spec.travel, r, V3.norm_zero]
    rw [this, hP]
    have g0 := part p0 ⟨0, 0, p0.z⟩ (sq0 _) (sq0 _) le_rfl
    have g1 := part p1 ⟨0, p1.y, 0⟩ (sq0 _) le_rfl (sq0 _)
    have g2 := part p2 ⟨p2.x, p2.y, 0⟩ le_rfl le_rfl (sq0 _)
    have g3 := part p3 ⟨p3.x, p3.y, 0⟩ le_rfl le_rfl (sq0 _)
    have g4 := part p4 ⟨0, p4.y, p4.z⟩ (sq0 _) le_rfl le_rfl
    have g5 := part p5 ⟨0, p5.y, 0⟩ (sq0 _) le_rfl (sq0 _)
    have g6 := part p6 ⟨0, p6.y, 0⟩ (sq0 _) le_rfl (sq0 _)
    simp only [List.map_cons, List.map_nil, List.sum_cons, List.sum_nil, add_zero]
    linarith
  have hsum0 : 0 ≤ (robot.P.map V3.norm).sum := List.sum_nonneg (by simp only [List.mem_map]; rintro x ⟨p, _, rfl⟩; exact p.norm_nonneg)
  have cc : ((1 + 7 * (33 / 10 ^ 6)) ^ 9 : ℝ) ≤ 1 + 1 / 400 := by norm_num
  have cc1 : (1 : ℝ) ≤ (1 + 7 * (33 / 10 ^ 6)) ^ 9 := by norm_num
  rw [hlen] at c1 c2
  rw [hsl] at c2
  refine ⟨T, hT, fun v => ?_, ?_⟩
  · rw [← hR]
    exact (c1 v).trans (mul_le_mul_of_nonneg_right (by linarith) v.norm_nonneg)
  · have i3 := V3.norm_add_le (T.p - T0.p) (T0.p - (Spec.urForward q0 t0 t1 t2 t3 t4 t5).p)
    rw [show T.p - T0.p + (T0.p - (Spec.urForward q0 t0 t1 t2 t3 t4 t5).p) = T.p - (Spec.urForward q0 t0 t1 t2 t3 t4 t5).p by ext <;> simp, b2] at i3
    have j1 : (((1 + 7 * (33 / 10 ^ 6)) ^ (6 + 3) : ℝ) - 1) * Spec.reach r [t0, t1, t2, t3, t4, t5] ≤ 1 / 400 * (robot.P.map V3.norm).sum :=
      (mul_le_mul_of_nonneg_left hreach (by linarith)).trans (mul_le_mul_of_nonneg_right (by linarith) hsum0)
    have j2 : ((1 + 7 * (33 / 10 ^ 6)) ^ (6 + 3) : ℝ) * (0 * (33 / 10 ^ 6) + (((6 : ℕ) : ℝ) + 4) * (3 / 10 ^ 8)) ≤ 1 / 10 ^ 6 := by norm_num
    have j3 := c2.trans (add_le_add j1 j2)
    have e6 : (robot.P.getD 6 0).y = p6.y := by rw [hP]; rfl
    rw [e6]
    linarith

/-- A robot that meets the hypotheses of `C56_accepted_partial`. -/
example : (exUr 1 0).jointType = [0, 0, 0, 0, 0, 0] ∧ (exUr 1 0).H = ⟨0, 0, 1⟩ :: (exUr 1 0).H.tail ∧ (0 : ℝ) < (⟨0, 0, 1⟩ : V3 ℝ).z ∧
    ∃ q, robotToUr (exUr 1 0) = .ok q := by
  refine ⟨rfl, rfl, one_pos, _, robotToUr_minus (d1 := 0.1625) (y1 := 0) (x2 := -0.425) (y2 := 0) (x3 := -0.3922) (y3 := 0) (y4 := -0.1333)
    (z4 := -0.0997) (y5 := -0.0996) (y6 := 0) ⟨rfl, rfl, rfl, ⟨_, _, rfl⟩, _, _, rfl⟩⟩

/-- C56 fails for every arm whose first joint slides instead of turning: joint types are not looked at, so the arm is accepted with the
same parameters, but after moving the first joint by `π` the x axis of the flange points the other way. -/
theorem C56_sliding_false (robot : Robot ℝ) (d1 y1 x2 y2 x3 y3 y4 z4 y5 y6 : ℝ) (h : Spec.UrArm robot 1 d1 y1 x2 y2 x3 y3 y4 z4 y5 y6) :
    ∃ q T, robotToUr { robot with jointType := [1, 0, 0, 0, 0, 0] } = .ok q ∧
      Spec.toollessPose { robot with jointType := [1, 0, 0, 0, 0, 0] } [Real.pi, 0, 0, 0, 0, 0] = .ok T ∧
      T.R.mulVec V3.ex = -V3.ex ∧ (Spec.urForward q Real.pi 0 0 0 0 0).R.mulVec V3.ex = V3.ex := by
  have hT : ∃ T, Spec.toollessPose { robot with jointType := [1, 0, 0, 0, 0, 0] } [Real.pi, 0, 0, 0, 0, 0] = .ok T ∧
      T.R = rot V3.ez Real.pi * ⟨1, 0, 0, 0, 0, -1, 0, 1, 0⟩ := by
    unfold Spec.toollessPose
    obtain ⟨-, hax, hli, ⟨pa, ch, hF⟩, pb, cb, hB⟩ := h
    rcases robot with ⟨H, P, jt, lo, up, ve, ac, M, Rt, pt, jn, rl, tl, Tf, Tb, ef⟩
    simp only at hax hli hF hB
    subst hax hli hF hB
    refine ⟨_, rfl, ?_⟩
    simp only [applyAux, fwdStep_rotary (t := 0) (Or.inl rfl), Transform.mul_R, rot_zero, M3.mul_one']
    rw [fwdStep_prismatic (Or.inl rfl), M3.one_mul']
  obtain ⟨T, hT, hTR⟩ := hT
  have same : robotToUr { robot with jointType := [1, 0, 0, 0, 0, 0] } = robotToUr robot := rfl
  refine ⟨_, T, same.trans (robotToUr_minus h), hT, ?_, ?_⟩
  · rw [hTR, ← M3.mulVec_mulVec, quarter_mulVec, rot_ez_mulVec]
    ext <;> simp
  · rw [urForward_R]
    simp only [rot_zero, M3.mul_one', ← M3.mulVec_mulVec]
    rw [quarter_mulVec, rot_z1_mulVec, rot_ez_mulVec]
    ext <;> simp
