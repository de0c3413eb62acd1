import Verif.Lemmas.Taylor

/-! # Property C78: the Jacobian predicts finite motions up to second order, and is itself Lipschitz -/
set_option autoImplicit false

theorem aux_norm {robot : Robot ℝ} (hw : robot.WF) : ((auxF robot).p + (auxF robot).R.mulVec (auxX robot).p).norm ≤
    (robot.Tflange.map (·.p.norm)).getD 0 + (robot.ptool.map V3.norm).getD 0 := by
  have h1 := V3.norm_add_le (auxF robot).p ((auxF robot).R.mulVec (auxX robot).p)
  rw [(auxF_rot hw).norm_mulVec] at h1
  have h2 : (auxF robot).p.norm ≤ (robot.Tflange.map (·.p.norm)).getD 0 := by
    unfold auxF
    cases robot.Tflange with
    | none => simp [identityTransform, V3.norm_zero]
    | some F => simp
  have h3 : (auxX robot).p.norm ≤ (robot.ptool.map V3.norm).getD 0 := by
    unfold auxX
    cases hx : robot.ptool with
    | none => rw [hw.toolBoth.2 hx]; simp [identityTransform, V3.norm_zero]
    | some x =>
      cases hr : robot.Rtool with
      | none => rw [hw.toolBoth.1 hr] at hx; cases hx
      | some r => simp
  linarith

/-- C78: let `δ` be the difference of the joint vectors `φ` and `θ`, `A` the total difference of the turning joints and `B` that of the
sliding joints.  The motion of the tool frame from `θ` to `φ` is the one that the Jacobian at `θ` predicts for `δ`, up to `A² / 2` for
orientations (of unit vectors) and up to `A² / 2` times the length of the arm, plus `A B`, for positions.  Chains of any length of turning
and sliding joints, with tool, flange and base, and motions of any size. -/
theorem C78_jacobian_taylor (robot : Robot ℝ) (hw : robot.WF) (hty : ∀ t ∈ robot.jointType, t = 0 ∨ t = 1) (θ φ : List ℝ)
    (lθ : θ.length = robot.H.length) (lφ : φ.length = robot.H.length) :
    ∃ (J : List (V6 ℝ)) (T U : Transform ℝ), robotjacobian robot θ true = .ok J ∧ fwdkin robot θ true = .ok T ∧ fwdkin robot φ true = .ok U ∧
      (∀ v, (U.R.mulVec v - T.R.mulVec v - (sumTop J (List.zipWith (fun y x => y - x) φ θ)).cross (T.R.mulVec v)).norm ≤
        Spec.turnDiff robot.jointType θ φ ^ 2 / 2 * v.norm) ∧
      (U.p - T.p - sumBot J (List.zipWith (fun y x => y - x) φ θ)).norm ≤
        Spec.turnDiff robot.jointType θ φ ^ 2 / 2 * Spec.arm robot θ +
          Spec.turnDiff robot.jointType θ φ * Spec.slideDiff robot.jointType θ φ := by
  obtain ⟨P0, Ps, hP, lP⟩ := hw.sized.P_cons
  have hj := hw.joints
  obtain ⟨fs, Rn, pn, e1, e2⟩ := jacLoop_ok robot.jointType robot.H Ps θ hj.symm (by rw [lP, hj]) (by rw [lθ, hj]) (1, P0)
  have e1' := jacLoop_fwd _ _ _ _ _ _ _ _ e1
  obtain ⟨gs, Sn, qn, e3, e4⟩ := jacLoop_ok robot.jointType robot.H Ps φ hj.symm (by rw [lP, hj]) (by rw [lφ, hj]) (1, P0)
  have e3' := jacLoop_fwd _ _ _ _ _ _ _ _ e3
  have o0 : ∀ A : M3 ℝ, A = 0 → OpLe A 0 := fun A hA v => by
    rw [hA, show (0 : M3 ℝ).mulVec v = 0 by ext <;> simp, V3.norm_zero, zero_mul]
  obtain ⟨r0, r1, r2, r3, r4⟩ := loops_taylor robot.jointType robot.H Ps θ φ 1 1 P0 P0 0 0 0 0 fs Rn Sn pn qn hw.unit hw.types e1 e3'
    IsRot.one IsRot.one (o0 _ (by ext <;> simp)) ((o0 _ (by ext <;> simp)).mono (by simp))
    (by rw [show P0 - P0 - (0 + (0 : V3 ℝ).cross P0) = 0 by ext <;> simp, V3.norm_zero])
  simp only [zero_add] at r3 r4
  have hlen : fs.length = robot.H.length := by rw [← hj, ← r0, List.length_map]
  obtain ⟨cols, c1, c2, c3⟩ := jacCols_serial (pn + Rn.mulVec (auxF robot).p + (Rn * (auxF robot).R).mulVec (auxX robot).p) fs
    (fun f hf => hty _ (by rw [← r0]; exact List.mem_map_of_mem hf))
  obtain ⟨c4, c5⟩ := c3 (List.zipWith (fun y x => y - x) φ θ) (by simp [lθ, lφ, hlen])
  refine ⟨_, applyAux robot ⟨Rn, pn, none, none⟩, applyAux robot ⟨Sn, qn, none, none⟩,
    robotjacobian_eq robot hw.toolBoth _ P0 Ps hP fs _ _ e1 cols c1, ?_, ?_, ?_, ?_⟩
  · simp only [fwdkin, checkLimits, if_true, hP, e1']; rfl
  · simp only [fwdkin, checkLimits, if_true, hP, e3']; rfl
  · intro v
    rw [sumTop_map, c4, applyAux_R, applyAux_R]
    simp only [← M3.mulVec_mulVec]
    rw [← (auxB_rot hw).mulVec_cross, ← M3.mulVec_sub, ← M3.mulVec_sub, (auxB_rot hw).norm_mulVec]
    have := r3 ((auxF robot).R.mulVec ((auxX robot).R.mulVec v))
    rw [(auxF_rot hw).norm_mulVec, (auxX_rot hw).norm_mulVec] at this
    refine le_trans (le_of_eq ?_) this
    congr 1
    generalize (auxF robot).R.mulVec ((auxX robot).R.mulVec v) = g
    rw [← hat_mulVec, M3.mulVec_mulVec]
    generalize hat _ * Rn = Q
    ext <;> simp <;> ring
  · rw [sumBot_map, c5, applyAux_p, applyAux_p]
    have l := link_taylor (P := (auxF robot).p + (auxF robot).R.mulVec (auxX robot).p) r3 r4
    have e : ∀ (M : M3 ℝ) (m : V3 ℝ), m + M.mulVec (auxF robot).p + (M * (auxF robot).R).mulVec (auxX robot).p =
        m + M.mulVec ((auxF robot).p + (auxF robot).R.mulVec (auxX robot).p) := by
      intro M m
      rw [← M3.mulVec_mulVec, M3.mulVec_add]
      ext <;> simp only [V3.add_x, V3.add_y, V3.add_z] <;> ring
    simp only [e]
    rw [show ∀ b x y z : V3 ℝ, b + (auxB robot).R.mulVec x - (b + (auxB robot).R.mulVec y) - (auxB robot).R.mulVec z =
      (auxB robot).R.mulVec (x - y - z) by intro b x y z; rw [M3.mulVec_sub, M3.mulVec_sub]; ext <;> simp only [V3.add_x, V3.add_y, V3.add_z, V3.sub_x, V3.sub_y, V3.sub_z] <;> ring,
      (auxB_rot hw).norm_mulVec]
    refine l.trans ?_
    have hc := mul_le_mul_of_nonneg_left (aux_norm hw) (show 0 ≤ Spec.turnDiff robot.jointType θ φ ^ 2 / 2 by positivity)
    unfold Spec.arm
    rw [hP, List.tail_cons]
    linarith

/-- C78: for a joint step that solves the linearised equation for the position, the remaining position error is of second order. -/
theorem C78_newton_position (robot : Robot ℝ) (hw : robot.WF) (hty : ∀ t ∈ robot.jointType, t = 0 ∨ t = 1) (θ φ : List ℝ)
    (lθ : θ.length = robot.H.length) (lφ : φ.length = robot.H.length) {J : List (V6 ℝ)} {T U : Transform ℝ}
    (hJ : robotjacobian robot θ true = .ok J) (hT : fwdkin robot θ true = .ok T) (hU : fwdkin robot φ true = .ok U) (goal : V3 ℝ)
    (hstep : sumBot J (List.zipWith (fun y x => y - x) φ θ) = goal - T.p) :
    (U.p - goal).norm ≤ Spec.turnDiff robot.jointType θ φ ^ 2 / 2 * Spec.arm robot θ +
      Spec.turnDiff robot.jointType θ φ * Spec.slideDiff robot.jointType θ φ := by
  obtain ⟨J', T', U', h1, h2, h3, -, h5⟩ := C78_jacobian_taylor robot hw hty θ φ lθ lφ
  rw [hJ] at h1; cases h1
  rw [hT] at h2; cases h2
  rw [hU] at h3; cases h3
  rw [hstep, show U.p - T.p - (goal - T.p) = U.p - goal by ext <;> simp] at h5
  exact h5

/-- C78: the Jacobian is Lipschitz: from `θ` to `φ` the angular part of every column changes by at most `A`, and the linear part by at most
`A` times the length of the arm (at least 1, for the columns of the sliding joints), plus `B`. -/
theorem C78_jacobian_lipschitz (robot : Robot ℝ) (hw : robot.WF) (hty : ∀ t ∈ robot.jointType, t = 0 ∨ t = 1) (θ φ : List ℝ)
    (lθ : θ.length = robot.H.length) (lφ : φ.length = robot.H.length) :
    ∃ J K : List (V6 ℝ), robotjacobian robot θ true = .ok J ∧ robotjacobian robot φ true = .ok K ∧
      J.length = robot.H.length ∧ K.length = robot.H.length ∧ ∀ i (hi : i < J.length) (hk : i < K.length),
        (K[i].top - J[i].top).norm ≤ Spec.turnDiff robot.jointType θ φ ∧
        (K[i].bot - J[i].bot).norm ≤ Spec.turnDiff robot.jointType θ φ * max 1 (Spec.arm robot θ) + Spec.slideDiff robot.jointType θ φ := by
  obtain ⟨P0, Ps, hP, lP⟩ := hw.sized.P_cons
  have hj := hw.joints
  obtain ⟨fs, Rn, pn, e1, e2⟩ := jacLoop_ok robot.jointType robot.H Ps θ hj.symm (by rw [lP, hj]) (by rw [lθ, hj]) (1, P0)
  obtain ⟨gs, Sn, qn, e3, e4⟩ := jacLoop_ok robot.jointType robot.H Ps φ hj.symm (by rw [lP, hj]) (by rw [lφ, hj]) (1, P0)
  have e : ∀ (M : M3 ℝ) (m : V3 ℝ), m + M.mulVec (auxF robot).p + (M * (auxF robot).R).mulVec (auxX robot).p =
      m + M.mulVec ((auxF robot).p + (auxF robot).R.mulVec (auxX robot).p) := by
    intro M m
    rw [← M3.mulVec_mulVec, M3.mulVec_add]
    ext <;> simp only [V3.add_x, V3.add_y, V3.add_z] <;> ring
  have hl : fs.length = robot.H.length := by rw [← hj, ← e2, List.length_map]
  have hl' : gs.length = robot.H.length := by rw [← hj, ← e4, List.length_map]
  obtain ⟨as, a1, a2, -⟩ := jacCols_serial (pn + Rn.mulVec (auxF robot).p + (Rn * (auxF robot).R).mulVec (auxX robot).p) fs
    (fun f hf => hty _ (by rw [← e2]; exact List.mem_map_of_mem hf))
  obtain ⟨bs, b1, b2, -⟩ := jacCols_serial (qn + Sn.mulVec (auxF robot).p + (Sn * (auxF robot).R).mulVec (auxX robot).p) gs
    (fun f hf => hty _ (by rw [← e4]; exact List.mem_map_of_mem hf))
  have o0 : OpLe ((1 : M3 ℝ) - 1) 0 := fun v => by
    rw [show ((1 : M3 ℝ) - 1).mulVec v = 0 by ext <;> simp, V3.norm_zero, zero_mul]
  have h := (cols_lip robot.jointType robot.H Ps θ φ 1 1 P0 P0 ((auxF robot).p + (auxF robot).R.mulVec (auxX robot).p) 0 fs gs Rn Sn pn qn
    hw.unit hty e1 e3 IsRot.one IsRot.one o0).2 as bs (by rw [← e]; exact a1) (by rw [← e]; exact b1)
  refine ⟨_, _, robotjacobian_eq robot hw.toolBoth _ P0 Ps hP fs _ _ e1 as a1, robotjacobian_eq robot hw.toolBoth _ P0 Ps hP gs _ _ e3 bs b1,
    by simp [a2, hl], by simp [b2, hl'], fun i hi hk => ?_⟩
  rw [List.length_map] at hi hk
  have := h.get hi hk
  simp only [List.get_eq_getElem, zero_add] at this
  simp only [List.getElem_map, ← M3.mulVec_sub, (auxB_rot hw).norm_mulVec]
  refine ⟨this.1, this.2.trans ?_⟩
  unfold Spec.arm
  rw [hP, List.tail_cons]
  have hc := aux_norm hw
  have := mul_le_mul_of_nonneg_left (max_le_max_left 1 (show Spec.travel robot.jointType Ps θ + ((auxF robot).p + (auxF robot).R.mulVec (auxX robot).p).norm ≤
    Spec.travel robot.jointType Ps θ + (robot.Tflange.map (·.p.norm)).getD 0 + (robot.ptool.map V3.norm).getD 0 by linarith))
    (turnDiff_nonneg robot.jointType θ φ)
  linarith

-- non-vacuity: a turning and a sliding joint, with tool and base: turning by 0.1 and sliding by 0.2 from a pose with an arm of length 4
-- moves the tool by what the Jacobian predicts, up to 0.04
example : ∃ (robot : Robot ℝ) (J : List (V6 ℝ)) (T U : Transform ℝ), robot.WF ∧ robotjacobian robot [0, 1] true = .ok J ∧
    fwdkin robot [0, 1] true = .ok T ∧ fwdkin robot [1/10, 6/5] true = .ok U ∧ (U.p - T.p - sumBot J [1/10, 1/5]).norm ≤ 1/25 := by
  set robot : Robot ℝ := {
    H := [⟨0, 0, 1⟩, ⟨1, 0, 0⟩]
    P := [⟨0, 0, 5⟩, ⟨1, 0, 0⟩, ⟨0, 1, 0⟩]
    jointType := [0, 1]
    Rtool := some 1
    ptool := some ⟨0, 0, 1⟩
    Tbase := some ⟨⟨0, -1, 0, 1, 0, 0, 0, 0, 1⟩, ⟨7, 0, 0⟩, none, none⟩ } with hr
  have hw : robot.WF := ⟨rfl, rfl, by simp [hr], by simp [hr, IsUnit3], by
    rintro B hB
    simp only [hr, Option.some.injEq] at hB
    subst hB
    exact ⟨by ext <;> simp, by norm_num [M3.det]⟩, by simp [hr], by simp [hr, IsRot.one], by simp [hr]⟩
  obtain ⟨J, T, U, h1, h2, h3, -, h5⟩ := C78_jacobian_taylor robot hw (by simp [hr]) [0, 1] [1/10, 6/5] rfl rfl
  refine ⟨robot, J, T, U, hw, h1, h2, h3, ?_⟩
  have nx : (⟨1, 0, 0⟩ : V3 ℝ).norm = 1 := V3.norm_ex
  have ny : (⟨0, 1, 0⟩ : V3 ℝ).norm = 1 := V3.norm_ey
  have nz : (⟨0, 0, 1⟩ : V3 ℝ).norm = 1 := V3.norm_ez
  simp only [Spec.turnDiff, Spec.slideDiff, Spec.arm, Spec.travel, hr, nx, ny, nz, List.tail_cons, Option.map_none, Option.map_some, Option.getD_none, Option.getD_some] at h5
  norm_num [abs_of_nonneg] at h5 ⊢
  exact h5
