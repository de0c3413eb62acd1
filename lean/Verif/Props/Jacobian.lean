import Verif.Props.Kinematics

/-!
# Properties C19, C20, C22: periodicity of `fwdkin`, and `robotjacobian` as its derivative
-/
set_option autoImplicit false

/-! ## C19 -/

/-- Joint vector with whole turns `ns` added to the rotary joints. -/
noncomputable def shiftTurns : List Nat → List ℝ → List ℤ → List ℝ
  | t :: ts, θ :: θs, n :: ns => (if t = 0 ∨ t = 2 then θ + n * (2 * Real.pi) else θ) :: shiftTurns ts θs ns
  | _, θs, _ => θs

theorem fwdLoop_shiftTurns (ts : List Nat) (hs Ps : List (V3 ℝ)) (θs : List ℝ) (ns : List ℤ) (Rp : M3 ℝ × V3 ℝ) :
    fwdLoop ts hs Ps (shiftTurns ts θs ns) Rp = fwdLoop ts hs Ps θs Rp := by
  induction ts generalizing hs Ps θs ns Rp with
  | nil => rfl
  | cons t ts ih =>
    obtain _ | ⟨θ, θs⟩ := θs
    · rfl
    obtain _ | ⟨n, ns⟩ := ns
    · rfl
    obtain _ | ⟨h, hs⟩ := hs
    · rfl
    obtain _ | ⟨P, Ps⟩ := Ps
    · rfl
    simp only [shiftTurns, fwdLoop]
    rw [ih]
    congr 1
    split_ifs with hr
    · obtain ⟨R, p⟩ := Rp
      rw [fwdStep_rotary hr, fwdStep_rotary hr, rot_periodic]
    · rfl

/-- C19: adding whole turns to any of the rotary joints does not change `fwdkin` (for every robot, well formed or
not). -/
theorem C19_fwdkin_periodic (robot : Robot ℝ) (θ : List ℝ) (ns : List ℤ) :
    fwdkin robot (shiftTurns robot.jointType θ ns) true = fwdkin robot θ true := by
  simp only [fwdkin, checkLimits, if_true]
  rcases robot.P with _ | ⟨P0, Ps⟩
  · rfl
  · simp only [fwdLoop_shiftTurns]

example : shiftTurns [0, 1, 0] [1, 2, 3] [1, 5, -2] = [1 + (1:ℤ) * (2 * Real.pi), 2, 3 + (-2 : ℤ) * (2 * Real.pi)] := by
  simp [shiftTurns]

theorem fwdLoop_translate (ts : List Nat) (hs Ps : List (V3 ℝ)) (θs : List ℝ) (R R' : M3 ℝ) (p p' e : V3 ℝ)
    (h : fwdLoop ts hs Ps θs (R, p) = .ok (R', p')) : fwdLoop ts hs Ps θs (R, p + e) = .ok (R', p' + e) := by
  induction ts generalizing hs Ps θs R p with
  | nil => simp only [fwdLoop, Except.ok.injEq, Prod.mk.injEq] at h ⊢; rw [h.1, h.2]; exact ⟨rfl, rfl⟩
  | cons t ts ih =>
    obtain _ | ⟨θ, θs⟩ := θs
    · simp [fwdLoop] at h
    obtain _ | ⟨k, hs⟩ := hs
    · simp [fwdLoop] at h
    obtain _ | ⟨P, Ps⟩ := Ps
    · simp [fwdLoop] at h
    simp only [fwdLoop] at h ⊢
    have hstep : fwdStep t k P θ (R, p + e) = ((fwdStep t k P θ (R, p)).1, (fwdStep t k P θ (R, p)).2 + e) := by
      unfold fwdStep
      split_ifs <;> simp only [Prod.mk.injEq, true_and] <;> ext <;> simp <;> ring
    rw [hstep]
    exact ih hs Ps θs _ _ h

/-- Moving a prismatic joint inside the loop. -/
theorem fwdLoop_prismatic (ts : List Nat) (hs Ps : List (V3 ℝ)) (θs : List ℝ) (R R' : M3 ℝ) (p p' : V3 ℝ)
    (i : Nat) (hi : i < ts.length) (hp : IsPrismatic ts[i]) (k : V3 ℝ) (hk : hs[i]? = some k) (θi d : ℝ)
    (hθ : θs[i]? = some θi) (h : fwdLoop ts hs Ps θs (R, p) = .ok (R', p')) :
    ∃ Ri pi, fwdLoop (ts.take i) (hs.take i) (Ps.take i) (θs.take i) (R, p) = .ok (Ri, pi) ∧
      fwdLoop ts hs Ps (θs.set i (θi + d)) (R, p) = .ok (R', p' + d • Ri.mulVec k) := by
  induction ts generalizing hs Ps θs R p i with
  | nil => simp at hi
  | cons t ts ih =>
    obtain _ | ⟨θ, θs⟩ := θs
    · simp [fwdLoop] at h
    obtain _ | ⟨k', hs⟩ := hs
    · simp [fwdLoop] at h
    obtain _ | ⟨P, Ps⟩ := Ps
    · simp [fwdLoop] at h
    cases i with
    | zero =>
      simp only [List.getElem_cons_zero] at hp
      obtain rfl : k' = k := by simpa using hk
      obtain rfl : θ = θi := by simpa using hθ
      refine ⟨R, p, rfl, ?_⟩
      simp only [List.set_cons_zero, fwdLoop] at h ⊢
      rw [fwdStep_prismatic hp] at h ⊢
      have := fwdLoop_translate ts hs Ps θs _ _ _ _ (d • R.mulVec k') h
      rw [← this]
      congr 2
      ext <;> simp <;> ring
    | succ i =>
      simp only [fwdLoop] at h
      obtain ⟨Ri, pi, e1, e2⟩ := ih hs Ps θs (fwdStep t k' P θ (R, p)).1 (fwdStep t k' P θ (R, p)).2 i (by simpa using hi)
        (by simpa using hp) (by simpa using hk) (by simpa using hθ) h
      exact ⟨Ri, pi, by simpa only [List.take_succ_cons, fwdLoop] using e1, by simpa only [List.set_cons_succ, fwdLoop] using e2⟩

/-- The same robot cut off before joint `i`, without flange and tool: its `fwdkin` is the frame in which joint `i` sits. -/
def Robot.upTo {α : Type} (robot : Robot α) (i : Nat) : Robot α :=
  { robot with
    H := robot.H.take i, P := robot.P.take (i + 1), jointType := robot.jointType.take i, Tflange := none,
    Rtool := none, ptool := none }

/-- C19: moving a prismatic joint by `d` leaves the orientation alone and translates the tool by `d` along the
joint's current axis. -/
theorem C19_fwdkin_prismatic (robot : Robot ℝ) (hs : robot.Sized) (θ : List ℝ) (lθ : θ.length = robot.H.length)
    (i : Nat) (hi : i < robot.H.length) (t : Nat) (ht : robot.jointType[i]? = some t) (htp : t = 1 ∨ t = 3) (d : ℝ) :
    ∃ T Ti : Transform ℝ, fwdkin robot θ true = .ok T ∧ fwdkin (robot.upTo i) (θ.take i) true = .ok Ti ∧
      fwdkin robot (θ.set i (θ[i] + d)) true = .ok ⟨T.R, T.p + d • Ti.R.mulVec robot.H[i], T.parent, T.child⟩ := by
  obtain ⟨P0, Ps, hP, lP⟩ := hs.P_cons
  obtain ⟨⟨R', p'⟩, e⟩ := fwdLoop_ok robot.jointType robot.H Ps θ hs.joints.symm (by rw [lP, hs.joints])
    (by rw [lθ, hs.joints]) (1, P0)
  have hi' : i < robot.jointType.length := by rw [hs.joints]; exact hi
  obtain ⟨Ri, pi, e1, e2⟩ := fwdLoop_prismatic robot.jointType robot.H Ps θ 1 R' P0 p' i hi'
    (by rw [List.getElem?_eq_getElem hi', Option.some.injEq] at ht; rw [ht]; exact htp) robot.H[i]
    (List.getElem?_eq_getElem hi) θ[i] d (List.getElem?_eq_getElem (by rw [lθ]; exact hi)) e
  refine ⟨applyAux robot ⟨R', p', none, none⟩, applyAux (robot.upTo i) ⟨Ri, pi, none, none⟩, ?_, ?_, ?_⟩
  · simp only [fwdkin, checkLimits, if_true, hP, e]; rfl
  · simp only [fwdkin, checkLimits, if_true, Robot.upTo, hP, List.take_succ_cons, e1]; rfl
  · simp only [fwdkin, checkLimits, if_true, hP, e2, bind, Except.bind, pure, Except.pure, Except.ok.injEq]
    apply Transform.ext
    · simp only [applyAux_R]
    · simp only [applyAux_p, applyAux_R]
      have hB : auxB (robot.upTo i) = auxB robot := rfl
      have hF : auxF (robot.upTo i) = identityTransform := rfl
      have hX : auxX (robot.upTo i) = identityTransform := rfl
      rw [hB, hF, hX]
      simp only [identityTransform, M3.mul_one', ← M3.mulVec_mulVec, M3.mulVec_add, M3.mulVec_hsmul]
      abel
    · rcases robot with ⟨_, _, _, _, _, _, _, _, R, p, _, _, _, F, B, _⟩
      rcases B with _ | B <;> rcases F with _ | F <;> rcases R with _ | R <;> rcases p with _ | p <;> rfl
    · rcases robot with ⟨_, _, _, _, _, _, _, _, R, p, _, _, _, F, B, _⟩
      rcases B with _ | B <;> rcases F with _ | F <;> rcases R with _ | R <;> rcases p with _ | p <;> rfl

-- non-vacuity: a rotary joint followed by a prismatic one
example : (Robot.Sized (α := ℝ) { H := [⟨0, 0, 1⟩, ⟨1, 0, 0⟩], P := [⟨0, 0, 1⟩, ⟨1, 0, 0⟩, ⟨0, 1, 0⟩], jointType := [0, 1] }) ∧
    [0, 1][1]? = some 1 := ⟨⟨rfl, rfl⟩, rfl⟩

/-! ## C20 -/

theorem Robot.WF.sized {robot : Robot ℝ} (hw : robot.WF) : robot.Sized := ⟨hw.columns, hw.joints⟩

/-- `robotjacobian` after its first loop, with the auxiliary transforms filled in by identities. -/
theorem robotjacobian_eq (robot : Robot ℝ) (htool : robot.Rtool = none ↔ robot.ptool = none) (θ : List ℝ) (P0 : V3 ℝ)
    (Ps : List (V3 ℝ)) (hP : robot.P = P0 :: Ps) (fs : List (JointFrame ℝ)) (R : M3 ℝ) (p : V3 ℝ)
    (hl : jacLoop robot.jointType robot.H Ps θ (1, P0) = .ok (fs, R, p)) (cols : List (V6 ℝ))
    (hc : jacCols (p + R.mulVec (auxF robot).p + (R * (auxF robot).R).mulVec (auxX robot).p) fs = .ok cols) :
    robotjacobian robot θ true =
      .ok (cols.map fun c => ⟨(auxB robot).R.mulVec c.top, (auxB robot).R.mulVec c.bot⟩) := by
  rcases robot with ⟨_, _, _, _, _, _, _, _, Rt, pt, _, _, _, F, B, _⟩
  simp only at hP hl htool
  subst hP
  rcases F with _ | F <;> rcases Rt with _ | Rt <;> rcases pt with _ | pt <;> rcases B with _ | B <;>
    simp [auxF, auxX, auxB, identityTransform] at htool hc ⊢ <;>
    simp [robotjacobian, checkLimits, hl, hc, bind, Except.bind, pure, Except.pure]

/-- C20, along any joint trajectory: for rotary/prismatic chains of any length, with any tool, flange and base, the
Jacobian times the joint rates is the angular and linear velocity of the tool frame of `fwdkin`. -/
theorem C20_jacobian_velocity (robot : Robot ℝ) (hw : robot.WF) (hty : ∀ t ∈ robot.jointType, t = 0 ∨ t = 1)
    (θs : List (ℝ → ℝ)) (ds : List ℝ) (t : ℝ) (lθ : θs.length = robot.H.length)
    (hd : List.Forall₂ (fun f d => HasDerivAt f d t) θs ds) :
    ∃ (J : List (V6 ℝ)) (T : ℝ → Transform ℝ), robotjacobian robot (θs.map (· t)) true = .ok J ∧
      J.length = robot.H.length ∧ (∀ s, fwdkin robot (θs.map (· s)) true = .ok (T s)) ∧
      HasDerivM3 (fun s => (T s).R) (hat (sumTop J ds) * (T t).R) t ∧
      HasDerivV3 (fun s => (T s).p) (sumBot J ds) t := by
  obtain ⟨P0, Ps, hP, lP⟩ := hw.sized.P_cons
  have hj := hw.joints
  obtain ⟨Rn, pn, fs, e1, e2, e3, e4, -, e6, e7⟩ := loops_deriv robot.jointType robot.H Ps θs ds t hj.symm
    (by omega) hd (by omega) hw.unit hw.types (fun _ => 1) (fun _ => P0) IsRot.one 0 0
    ((HasDerivM3.const 1 t).congr_deriv (by ext <;> simp)) ((HasDerivV3.const P0 t).congr_deriv (by ext <;> simp))
  rw [zero_add] at e6
  rw [zero_add, zero_add] at e7
  have hlen : fs.length = robot.H.length := by rw [← hj, ← e4, List.length_map]
  obtain ⟨cols, c1, c2, c3⟩ := jacCols_serial (pn t + (Rn t).mulVec (auxF robot).p +
    (Rn t * (auxF robot).R).mulVec (auxX robot).p) fs
    (fun f hf => hty _ (by rw [← e4]; exact List.mem_map_of_mem hf))
  obtain ⟨c4, c5⟩ := c3 ds (by rw [← hd.length_eq, lθ, hlen])
  obtain ⟨d1, d2⟩ := applyAux_deriv robot (auxB_rot hw) Rn pn t _ _ e6 e7
  refine ⟨_, fun s => applyAux robot ⟨Rn s, pn s, none, none⟩,
    robotjacobian_eq robot hw.toolBoth _ P0 Ps hP fs _ _ e2 cols c1, by simp [c2, hlen], fun s => ?_, ?_, ?_⟩
  · simp only [fwdkin, checkLimits, if_true, hP, e1 s]; rfl
  · rw [sumTop_map, c4]; exact d1
  · rw [sumBot_map, c5]; exact d2

theorem sumTop_single (J : List (V6 ℝ)) (n i : Nat) (hn : J.length = n) (hi : i < J.length) :
    sumTop J ((List.replicate n 0).set i 1) = J[i].top ∧ sumBot J ((List.replicate n 0).set i 1) = J[i].bot := by
  have hz : ∀ (J : List (V6 ℝ)) (n : Nat), sumTop J (List.replicate n 0) = 0 ∧ sumBot J (List.replicate n 0) = 0 := by
    intro J
    induction J with
    | nil => intro n; exact ⟨rfl, rfl⟩
    | cons c J ih =>
      intro n
      cases n with
      | zero => exact ⟨rfl, rfl⟩
      | succ n => simp [List.replicate_succ, sumTop, sumBot, ih n]
  induction J generalizing n i with
  | nil => simp at hi
  | cons c J ih =>
    cases n with
    | zero => simp at hn
    | succ n =>
      cases i with
      | zero => simp [List.replicate_succ, sumTop, sumBot, hz]
      | succ i =>
        have := ih n i (by simpa using hn) (by simpa using hi)
        simp [List.replicate_succ, sumTop, sumBot, this]

/-- C20: column `i` of the Jacobian is the velocity of the tool frame when only joint `i` moves. -/
theorem C20_jacobian_columns (robot : Robot ℝ) (hw : robot.WF) (hty : ∀ t ∈ robot.jointType, t = 0 ∨ t = 1)
    (θ : List ℝ) (lθ : θ.length = robot.H.length) :
    ∃ J, robotjacobian robot θ true = .ok J ∧ J.length = robot.H.length ∧
      ∀ i (hi : i < θ.length) (hJ : i < J.length), ∃ T : ℝ → Transform ℝ,
        (∀ s, fwdkin robot (θ.set i s) true = .ok (T s)) ∧
        HasDerivM3 (fun s => (T s).R) (hat J[i].top * (T θ[i]).R) θ[i] ∧
        HasDerivV3 (fun s => (T s).p) J[i].bot θ[i] := by
  obtain ⟨J, hJ, lJ⟩ := robotjacobian_ok hw.sized lθ hty
  refine ⟨J, hJ, lJ, fun i hi hiJ => ?_⟩
  have hmap : ∀ s, (((θ.map fun c => (fun _ => c : ℝ → ℝ)).set i id).map (· s)) = θ.set i s := by
    intro s; rw [List.map_set, List.map_map]; simp [Function.comp_def]
  obtain ⟨J', T, h1, h2, h3, h4, h5⟩ := C20_jacobian_velocity robot hw hty ((θ.map fun c => (fun _ => c)).set i id)
    ((List.replicate θ.length 0).set i 1) θ[i] (by simp [lθ]) (by
      rw [List.forall₂_iff_get]
      refine ⟨by simp, fun k h1 h2 => ?_⟩
      simp only [List.get_eq_getElem, List.getElem_set, List.getElem_map, List.getElem_replicate]
      split_ifs
      · exact hasDerivAt_id _
      · exact hasDerivAt_const _ _)
  simp only [hmap] at h1 h3
  rw [List.set_getElem_self, hJ] at h1
  obtain rfl : J = J' := by simpa using h1
  obtain ⟨s1, s2⟩ := sumTop_single J θ.length i (by rw [lJ, lθ]) hiJ
  rw [s1] at h4
  rw [s2] at h5
  exact ⟨T, h3, h4, h5⟩

-- non-vacuity: a well-formed rotary/prismatic robot with tool, flange and base
example : ∃ robot : Robot ℝ, robot.WF ∧ (∀ t ∈ robot.jointType, t = 0 ∨ t = 1) ∧ robot.H.length = 2 ∧
    robot.Tbase.isSome ∧ robot.Tflange.isSome ∧ robot.Rtool.isSome := by
  refine ⟨{ H := [⟨0, 0, 1⟩, ⟨1, 0, 0⟩], P := [⟨0, 0, 1⟩, ⟨1, 0, 0⟩, ⟨0, 1, 0⟩], jointType := [0, 1],
            Rtool := some 1, ptool := some ⟨1, 2, 3⟩, Tflange := some ⟨1, ⟨0, 1, 0⟩, none, none⟩,
            Tbase := some ⟨⟨0, 0, 1, 0, 1, 0, -1, 0, 0⟩, ⟨0, 5, 0⟩, none, none⟩ }, ?_, by simp, rfl, rfl, rfl, rfl⟩
  constructor
  · rfl
  · rfl
  · simp
  · simp [IsUnit3]
  · intro B hB; simp only [Option.some.injEq] at hB; subst hB; exact ⟨by ext <;> norm_num, by norm_num [M3.det]⟩
  · intro B hB; simp only [Option.some.injEq] at hB; subst hB; exact IsRot.one
  · intro B hB; simp only [Option.some.injEq] at hB; subst hB; exact IsRot.one
  · simp

/-! ## C22 -/

/-- C22: a mobile base (types 3, 3, 2: two translations along `hx`, `hy` and a heading about `hz`, an orthonormal
right-handed frame) carrying any rotary/prismatic arm.  The Jacobian has one column fewer than joints, and times
`(v, w, arm rates)` it is the tool twist of `fwdkin` while the base drives with speed `v` along its heading and turns with
rate `w`. -/
theorem C22_mobile_jacobian (robot : Robot ℝ) (hw : robot.WF) (hx hy hz : V3 ℝ) (Hs : List (V3 ℝ)) (ts : List Nat)
    (hH : robot.H = hx :: hy :: hz :: Hs) (hT : robot.jointType = 3 :: 3 :: 2 :: ts)
    (hframe : IsRot (M3.ofCols hx hy hz)) (hty : ∀ t ∈ ts, t = 0 ∨ t = 1)
    (x y φ : ℝ → ℝ) (θs : List (ℝ → ℝ)) (v w : ℝ) (ds : List ℝ) (t : ℝ) (lθ : θs.length = Hs.length)
    (hdx : HasDerivAt x (v * Real.cos (φ t)) t) (hdy : HasDerivAt y (v * Real.sin (φ t)) t) (hdφ : HasDerivAt φ w t)
    (hd : List.Forall₂ (fun f d => HasDerivAt f d t) θs ds) :
    ∃ (J : List (V6 ℝ)) (T : ℝ → Transform ℝ),
      robotjacobian robot (x t :: y t :: φ t :: θs.map (· t)) true = .ok J ∧ J.length + 1 = robot.H.length ∧
      (∀ s, fwdkin robot (x s :: y s :: φ s :: θs.map (· s)) true = .ok (T s)) ∧
      HasDerivM3 (fun s => (T s).R) (hat (sumTop J (v :: w :: ds)) * (T t).R) t ∧
      HasDerivV3 (fun s => (T s).p) (sumBot J (v :: w :: ds)) t := by
  obtain ⟨P0, Ps, hP, lP⟩ := hw.sized.P_cons
  have hj := hw.joints
  have hlts : ts.length = Hs.length := by rw [hH, hT] at hj; simpa using hj
  obtain ⟨Rn, pn, fs, e1, e2, e3, e4, e5, e6, e7⟩ := loops_deriv robot.jointType robot.H Ps (x :: y :: φ :: θs)
    (v * Real.cos (φ t) :: v * Real.sin (φ t) :: w :: ds) t hj.symm
    (by omega) (.cons hdx (.cons hdy (.cons hdφ hd))) (by rw [hT]; simp; omega) hw.unit hw.types (fun _ => 1) (fun _ => P0) IsRot.one 0 0
    ((HasDerivM3.const 1 t).congr_deriv (by ext <;> simp)) ((HasDerivV3.const P0 t).congr_deriv (by ext <;> simp))
  rw [zero_add] at e6
  rw [zero_add, zero_add] at e7
  -- the first three recorded frames
  obtain ⟨P1, P2, P3, Ps', rfl⟩ : ∃ P1 P2 P3 Ps', Ps = P1 :: P2 :: P3 :: Ps' := by
    rw [hH] at lP
    rcases Ps with _ | ⟨P1, _ | ⟨P2, _ | ⟨P3, Ps'⟩⟩⟩ <;> simp at lP
    exact ⟨_, _, _, _, rfl⟩
  have e2' := e2
  rw [hT, hH] at e2'
  simp only [List.map_cons, jacLoop] at e2'
  set step1 := fwdStep 3 hx P1 (x t) (1, P0) with hs1
  set step2 := fwdStep 3 hy P2 (y t) step1 with hs2
  set step3 := fwdStep 2 hz P3 (φ t) step2 with hs3
  have r1 : step1.1 = 1 := by rw [hs1, fwdStep_prismatic (Or.inr rfl)]
  have r2 : step2.1 = 1 := by
    rw [hs2, show step1 = (step1.1, step1.2) from rfl, fwdStep_prismatic (Or.inr rfl)]; exact r1
  have r3 : step3.1 = rot hz (φ t) := by
    rw [hs3, show step2 = (step2.1, step2.2) from rfl, fwdStep_rotary (Or.inr rfl)]; simp [r2]
  rw [r1, r2, r3, M3.one_mulVec, M3.one_mulVec, rot_axis] at e2'
  rcases hjl : jacLoop ts Hs Ps' (θs.map (· t)) step3 with e | ⟨fs', Rl, pl⟩
  · rw [hjl] at e2'; simp [bind, Except.bind] at e2'
  rw [hjl] at e2'
  simp only [bind, Except.bind, pure, Except.pure, Except.ok.injEq, Prod.mk.injEq] at e2'
  obtain ⟨hfs, -, -⟩ := e2'
  have hfs' : fs'.map (·.ty) = ts := by
    rw [← hfs, hT] at e4; simpa using e4
  have hlen : fs'.length = Hs.length := by rw [← hlts, ← hfs', List.length_map]
  obtain ⟨cols, c1, c2, c3⟩ := jacCols_serial (pn t + (Rn t).mulVec (auxF robot).p +
    (Rn t * (auxF robot).R).mulVec (auxX robot).p) fs'
    (fun f hf => hty _ (by rw [← hfs']; exact List.mem_map_of_mem hf))
  obtain ⟨c4, c5⟩ := c3 ds (by rw [← hd.length_eq, lθ, hlen])
  obtain ⟨d1, d2⟩ := applyAux_deriv robot (auxB_rot hw) Rn pn t _ _ e6 e7
  set pOT := pn t + (Rn t).mulVec (auxF robot).p + (Rn t * (auxF robot).R).mulVec (auxX robot).p with hpOT
  have hcols : jacCols pOT fs = .ok (⟨0, (rot hz (φ t)).mulVec hx⟩ :: ⟨hz, (hat hz).mulVec (pOT - step2.2)⟩ :: cols) := by
    rw [← hfs, jacCols.eq_def]
    simp only [c1, bind, Except.bind, pure, Except.pure]
    rfl
  have hzu : IsUnit3 hz := hw.unit hz (by rw [hH]; simp)
  have hhead : (rot hz (φ t)).mulVec hx = Real.cos (φ t) • hx + Real.sin (φ t) • hy := by
    have o := hframe.transpose_eq_adj
    simp [M3.ext_iff, M3.adj, M3.ofCols] at o
    have o2 := hframe.orth
    simp [M3.ext_iff, M3.ofCols] at o2
    rw [rot_mulVec hz hzu]
    have hc : hz.cross hx = hy := by ext <;> simp <;> grind
    have hdot : hz.dot hx = 0 := by simp only [V3.dot]; grind
    rw [hc, hdot]
    simp
  have hr2 : IsRotary 2 := Or.inr rfl
  have hr3 : ¬ IsRotary 3 := by unfold IsRotary; omega
  have hp3 : IsPrismatic 3 := Or.inr rfl
  have hW : sumW fs (v * Real.cos (φ t) :: v * Real.sin (φ t) :: w :: ds) = w • hz + sumW fs' ds := by
    rw [← hfs]; simp only [sumW, if_pos hr2, if_neg hr3, zero_add]
  have hU : sumU fs (v * Real.cos (φ t) :: v * Real.sin (φ t) :: w :: ds) =
      (v * Real.cos (φ t)) • hx + ((v * Real.sin (φ t)) • hy + (w • step2.2.cross hz + sumU fs' ds)) := by
    rw [← hfs]; simp only [sumU, if_pos hr2, if_neg hr3, if_pos hp3]
  refine ⟨_, fun s => applyAux robot ⟨Rn s, pn s, none, none⟩,
    robotjacobian_eq robot hw.toolBoth _ P0 _ hP fs _ _ e2 _ hcols, by simp [c2, hlen, hH], fun s => ?_, ?_, ?_⟩
  · simp only [fwdkin, checkLimits, if_true, hP]
    have := e1 s
    simp only [List.map_cons] at this
    rw [this]; rfl
  · rw [sumTop_map]
    refine d1.congr_deriv ?_
    rw [hW]
    simp only [sumTop, c4, smul_zero, zero_add]
  · rw [sumBot_map]
    refine d2.congr_deriv ?_
    rw [hW, hU]
    simp only [sumBot, c5, hhead, hat_mulVec, V3.add_cross]
    congr 1
    ext <;> simp <;> ring

-- non-vacuity: planar base with one arm joint
example : ∃ robot : Robot ℝ, robot.WF ∧ robot.jointType = [3, 3, 2, 0] ∧
    robot.H = [V3.ex, V3.ey, V3.ez, V3.ey] ∧ IsRot (M3.ofCols V3.ex V3.ey V3.ez : M3 ℝ) := by
  refine ⟨{ H := [V3.ex, V3.ey, V3.ez, V3.ey], P := [0, 0, 0, ⟨0, 0, 1⟩, ⟨1, 0, 0⟩], jointType := [3, 3, 2, 0] }, ?_, rfl, rfl, ?_⟩
  · constructor <;> simp [IsUnit3]
  · exact ⟨by ext <;> simp [M3.ofCols], by simp [M3.det, M3.ofCols]⟩
