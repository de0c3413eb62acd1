import Verif.Props.TesseractEnv

/-! # Property C61: `TesseractRobot` in terms of the original robot -/
set_option autoImplicit false

/-- poses in a graph of rigid joints are rigid -/
theorem Spec.PoseIn.isRot {js : List (TJoint ℝ)} {q : String → ℝ} {root l : String} {T : Iso ℝ} (h : Spec.PoseIn js q root l T)
    (hj : ∀ j ∈ js, IsRot j.origin.R ∧ (j.type = .revolute → IsUnit3 j.axis)) : IsRot T.R := by
  induction h with
  | root => exact IsRot.one
  | step j T hm _ ih =>
    obtain ⟨h1, h2⟩ := hj j hm
    refine (ih.mul h1).mul ?_
    unfold Spec.motion
    cases ht : j.type with
    | fixed => exact IsRot.one
    | prismatic => exact IsRot.one
    | revolute =>
      simp only
      rw [_root_.sdiv_norm_unit (h2 ht)]
      exact rot_isRot _ (h2 ht) _

theorem ChainJs.rigid {i : Nat} {parent : String} {ts : List Nat} {H P : List (V3 ℝ)} {names : List String}
    {lims : List (TLimits ℝ)} {js : List (TJoint ℝ)} (h : ChainJs i parent ts H P names lims js) (hu : ∀ h ∈ H, IsUnit3 h) :
    ∀ j ∈ js, IsRot j.origin.R ∧ IsUnit3 j.axis := by
  induction h with
  | nil => simp
  | cons i parent t ht ts h p H P nm names lim lims js hr ih =>
    intro j hj
    rcases List.mem_cons.1 hj with rfl | hj
    · refine ⟨?_, hu _ (by simp)⟩
      simp only [toIsometry_real (T := ⟨1, p, none, none⟩) IsRot.one]
      exact IsRot.one
    · exact ih (fun x hx => hu x (by simp [hx])) j hj

theorem fixed_rigid {T : Transform ℝ} (h : IsRot T.R) (l n p : String) :
    IsRot (getFixedJoint T l n p).origin.R ∧ ((getFixedJoint T l n p).type = .revolute → IsUnit3 (getFixedJoint T l n p).axis) := by
  refine ⟨?_, fun h => by cases h⟩
  simp only [getFixedJoint, toIsometry_real h]
  exact h

/-- the joints of the environment are rigid -/
theorem env_rigid {robot : Robot ℝ} {name : String} {solver : Option String} {over : Option (PluginOverride ℝ)} {env : SGraph ℝ}
    {links joints : List String} (h : robotToEnv robot name true solver over = .ok (env, links, joints))
    (hu : ∀ h ∈ robot.H, IsUnit3 h) (hF : ∀ F, robot.Tflange = some F → IsRot F.R) (hR : ∀ R, robot.Rtool = some R → IsRot R)
    (hB : ∀ B, robot.Tbase = some B → IsRot B.R) :
    ∀ j ∈ env.joints, IsRot j.origin.R ∧ (j.type = .revolute → IsUnit3 j.axis) := by
  obtain ⟨r, hr, hins, rfl, rfl⟩ := robotToEnv_contents h
  obtain ⟨C⟩ := robotToSceneGraph_contents hr
  obtain ⟨-, -, -, -, -, -, rfl⟩ := insertWith_iff.1 hins
  intro j hj
  simp only [worldSceneGraph, List.nil_append, List.mem_append, List.mem_map, List.mem_singleton] at hj
  rcases hj with ⟨k, hk, rfl⟩ | rfl
  · show IsRot k.origin.R ∧ (k.type = .revolute → IsUnit3 k.axis)
    rw [C.joints_eq] at hk
    simp only [List.mem_append, List.mem_singleton] at hk
    rcases hk with ((hk | rfl) | hk) | hk
    · have := C.chain.rigid hu k hk
      exact ⟨this.1, fun _ => this.2⟩
    · exact fixed_rigid IsRot.one _ _ _
    · unfold flangeJs at hk
      cases hf : robot.Tflange with
      | none => rw [hf] at hk; cases hk
      | some F => rw [hf] at hk; rw [List.mem_singleton.1 hk]; exact fixed_rigid (hF F hf) _ _ _
    · unfold toolJs at hk
      cases hr : robot.Rtool with
      | none => rw [hr] at hk; cases hk
      | some R =>
        cases hp : robot.ptool with
        | none => rw [hr, hp] at hk; cases hk
        | some p => rw [hr, hp] at hk; rw [List.mem_singleton.1 hk]; exact fixed_rigid (hR R hr) _ _ _
  · refine ⟨?_, fun h => by cases h⟩
    simp only [worldToBaseJoint]
    cases hb : robot.Tbase with
    | none => exact IsRot.one
    | some B => simp only [toIsometry_real (hB B hb)]; exact hB B hb

theorem Iso.inv_mul_cancel' {A : Iso ℝ} (h : IsRot A.R) (B : Iso ℝ) : A.inv * (A * B) = B := by
  apply Iso.ext
  · simp only [Iso.mul_R, Iso.inv, ← M3.mul_assoc', h.orth, M3.one_mul']
  · simp only [Iso.mul_p, Iso.inv, M3.mulVec_add, h.transpose_mulVec_mulVec]
    ext <;> simp

theorem Iso.mul_inv_cancel' {A : Iso ℝ} (h : IsRot A.R) (B : Iso ℝ) : A * (A.inv * B) = B := by
  apply Iso.ext
  · simp only [Iso.mul_R, Iso.inv, ← M3.mul_assoc', h.orth', M3.one_mul']
  · have h1 : ∀ v, A.R.mulVec (A.R.transpose.mulVec v) = v := fun v => by rw [M3.mulVec_mulVec, h.orth', M3.one_mulVec]
    simp only [Iso.mul_p, Iso.inv, M3.mulVec_add, h1]
    have h2 : A.R.mulVec (-A.R.transpose.mulVec A.p) = -A.p := by
      have := h1 A.p
      generalize A.R.transpose.mulVec A.p = w at this
      rw [← this]
      ext <;> simp <;> ring
    rw [h2]
    ext <;> simp

/-- C61: the links of the environment each have exactly one pose. -/
theorem C61_pose_exists (robot : Robot ℝ) (name : String) (solver : Option String) (over : Option (PluginOverride ℝ)) (env : SGraph ℝ)
    (links joints : List String) (h : robotToEnv robot name true solver over = .ok (env, links, joints)) (q : String → ℝ) (l : String) :
    (∃! A, Spec.PoseIn env.joints q "world" l A) ↔ l ∈ links := by
  obtain ⟨h1, -, -, -, -, -, ht⟩ := C53_env robot name solver over env links joints h
  constructor
  · rintro ⟨A, hA, -⟩
    rw [← h1]
    cases hA with
    | root => exact ht.root_mem
    | step j T hj _ => exact ht.child_mem j hj
  · intro hl
    rw [← h1] at hl
    obtain ⟨A, hA⟩ := (ht.reach l hl).pose q
    exact ⟨A, hA, fun B hB => ht.pose_unique hB hA⟩

theorem TRobot.init_env {robot : Robot ℝ} {name : String} {solver : Option String} {r : TRobot ℝ}
    (h : TRobot.init robot name solver = .ok r) :
    ∃ links joints, robotToEnv robot name true solver none = .ok (r.env, links, joints) ∧ links.head? = some r.base ∧
      links.getLast? = some r.tip := by
  unfold TRobot.init at h
  obtain ⟨⟨env, links, joints⟩, he, h⟩ := Except.bind_eq_ok h
  obtain ⟨b, hb, h⟩ := Except.bind_eq_ok h
  obtain ⟨tip, ht, h⟩ := Except.bind_eq_ok h
  cases h
  refine ⟨links, joints, he, ?_, ?_⟩
  · cases e : links.head? with
    | none => simp only [e] at hb; cases hb
    | some x => simp only [e] at hb; cases hb; rfl
  · cases e : links.getLast? with
    | none => simp only [e] at ht; cases ht
    | some x => simp only [e] at ht; cases ht; rfl

/-- C61: the pose returned by `TesseractRobot.fwdkin` for any base link and any tip link of the environment takes the base link's
frame to the tip link's; any other link name is a KeyError.  `frames` are the frames that `calcFwdKin` returns: the poses of the links
in the environment. -/
theorem C61_fwdkin (robot : Robot ℝ) (name : String) (solver : Option String) (r : TRobot ℝ) (h : TRobot.init robot name solver = .ok r)
    (hu : ∀ h ∈ robot.H, IsUnit3 h) (hF : ∀ F, robot.Tflange = some F → IsRot F.R) (hR : ∀ R, robot.Rtool = some R → IsRot R)
    (hB : ∀ B, robot.Tbase = some B → IsRot B.R) (q : String → ℝ) (frames : String → Option (Iso ℝ))
    (hfr : ∀ l A, frames l = some A ↔ Spec.PoseIn r.env.joints q "world" l A) (base tip : String) :
    (base ∈ r.env.links → tip ∈ r.env.links → ∃ A B T, Spec.PoseIn r.env.joints q "world" base A ∧
      Spec.PoseIn r.env.joints q "world" tip B ∧ A * ⟨T.R, T.p⟩ = B ∧ IsRot T.R ∧ r.fwdkin frames (some base) (some tip) = .ok T) ∧
    (base ∉ r.env.links ∨ tip ∉ r.env.links → r.fwdkin frames (some base) (some tip) = .error .key) := by
  obtain ⟨links, joints, he, -, -⟩ := TRobot.init_env h
  have hl := (C53_env robot name solver none r.env links joints he).1
  have hrig := env_rigid he hu hF hR hB
  constructor
  · intro hb ht
    rw [hl] at hb ht
    obtain ⟨A, hA, -⟩ := (C61_pose_exists robot name solver none r.env links joints he q base).2 hb
    obtain ⟨B, hB', -⟩ := (C61_pose_exists robot name solver none r.env links joints he q tip).2 ht
    have hAr := hA.isRot hrig
    refine ⟨A, B, ofIsometry (A.inv * B), hA, hB', Iso.mul_inv_cancel' hAr B, hAr.transpose.mul (hB'.isRot hrig), ?_⟩
    simp only [TRobot.fwdkin, Option.getD_some, (hfr _ _).2 hA, (hfr _ _).2 hB']
  · have hnone : ∀ l, l ∉ r.env.links → frames l = none := by
      intro l hn
      cases e : frames l with
      | none => rfl
      | some A =>
        exfalso
        rw [hl] at hn
        refine hn ((C61_pose_exists robot name solver none r.env links joints he q l).1 ⟨A, (hfr _ _).1 e, fun B hB => ?_⟩)
        exact (C53_env robot name solver none r.env links joints he).2.2.2.2.2.2.pose_unique hB ((hfr _ _).1 e)
    rintro (hn | hn)
    · simp only [TRobot.fwdkin, Option.getD_some, hnone _ hn]
      cases frames tip <;> rfl
    · simp only [TRobot.fwdkin, Option.getD_some, hnone _ hn]

/-- The problem that is given to `calcInvKin` (specification): at joint positions `q` the tip link has the requested pose in the
working frame. -/
def Spec.Solves (env : SGraph ℝ) (q : String → ℝ) (i : IKInput ℝ) : Prop :=
  ∃ W B, Spec.PoseIn env.joints q "world" i.workingFrame W ∧ Spec.PoseIn env.joints q "world" i.tip B ∧ B = W * i.pose

/-- C61: `TesseractRobot.invkin(T, seed)` asks the solver for the joint vectors at which the original robot's forward kinematics is
`T`, and returns what the solver returns; with the robot's base link as base link, for those at which it is `T` without the base
frame. -/
theorem C61_invkin (robot : Robot ℝ) (name : String) (solver : Option String) (r : TRobot ℝ) (h : TRobot.init robot name solver = .ok r)
    (hu : ∀ h ∈ robot.H, IsUnit3 h) (hF : ∀ F, robot.Tflange = some F → IsRot F.R) (hR : ∀ R, robot.Rtool = some R → IsRot R)
    (hB : ∀ B, robot.Tbase = some B → IsRot B.R) (T : Transform ℝ) (hT : IsRot T.R) :
    ∃ links joints i i0, robotToEnv robot name true solver none = .ok (r.env, links, joints) ∧
      (∀ ik seed, r.invkin ik T seed none none = ik i seed ∧ r.invkin ik T seed (some (name ++ "_base_link")) none = ik i0 seed) ∧
      ∀ q, (Spec.Solves r.env q i ↔ ∃ T', fwdkin robot (joints.map q) true = .ok T' ∧ T'.R = T.R ∧ T'.p = T.p) ∧
        (Spec.Solves r.env q i0 ↔ ∃ T', fwdkin { robot with Tbase := none } (joints.map q) true = .ok T' ∧ T'.R = T.R ∧ T'.p = T.p) := by
  obtain ⟨links, joints, he, hb, ht⟩ := TRobot.init_env h
  obtain ⟨hl, -, hh, -, -, -, htree⟩ := C53_env robot name solver none r.env links joints he
  have hbw : r.base = "world" := Option.some.inj (hb.symm.trans hh)
  refine ⟨links, joints, ⟨toIsometry T, r.base, r.tip⟩, ⟨toIsometry T, name ++ "_base_link", r.tip⟩, he, fun _ _ => ⟨rfl, rfl⟩, ?_⟩
  intro q
  rw [toIsometry_real hT]
  constructor
  · obtain ⟨X, t, hX, htip, hpose, -⟩ := C52_pose robot name solver none r.env links joints he hu hF hR hB q
    rw [ht] at htip
    cases htip
    constructor
    · rintro ⟨W, B, hW, hB', rfl⟩
      have hB1 := htree.pose_unique hB' hpose
      rw [hbw] at hW
      have hW1 := htree.pose_unique hW Spec.PoseIn.root
      refine ⟨X, hX, ?_⟩
      subst hW1
      have e1 := congrArg Iso.R hB1
      have e2 := congrArg Iso.p hB1
      simp only [Iso.mul_R, Iso.mul_p, M3.one_mul', M3.one_mulVec] at e1 e2
      refine ⟨e1.symm, ?_⟩
      rw [← e2]; ext <;> simp
    · rintro ⟨T', hT', e1, e2⟩
      rw [hX] at hT'
      cases hT'
      refine ⟨⟨1, 0⟩, _, ?_, hpose, ?_⟩
      · rw [hbw]; exact Spec.PoseIn.root
      · apply Iso.ext
        · simp only [Iso.mul_R, M3.one_mul', e1]
        · simp only [Iso.mul_p, M3.one_mulVec, e2]; ext <;> simp
  · obtain ⟨X, B0, t, hX, htip, hpB, hBr, hpose⟩ := C52_pose_base robot name solver none r.env links joints he hu hF hR hB q
    rw [ht] at htip
    cases htip
    constructor
    · rintro ⟨W, B, hW, hB', rfl⟩
      have hB1 := htree.pose_unique hB' hpose
      have hW1 := htree.pose_unique hW hpB
      subst hW1
      have e := congrArg (W.inv * ·) hB1
      simp only [Iso.inv_mul_cancel' hBr] at e
      exact ⟨X, hX, (congrArg Iso.R e).symm, (congrArg Iso.p e).symm⟩
    · rintro ⟨T', hT', e1, e2⟩
      rw [hX] at hT'
      cases hT'
      exact ⟨B0, _, hpB, hpose, by rw [e1, e2]⟩

/-- C61: the columns of `TesseractRobot.jacobian` for a base and a link that the caller names: the angular velocity of that link relative to
that base is on top and its linear velocity below (`calcJacobian` has them the other way round). -/
theorem C61_jacobian_links (r : TRobot ℝ) (q : String → ℝ) (joints : List String) (jac : String → String → Except PyErr (List (V6 ℝ))) (base link : String)
    (hcalc : ∃ K, jac base link = .ok K ∧ K.length = joints.length ∧ ∀ i (hi : i < joints.length) (hK : i < K.length), ∃ T : ℝ → Iso ℝ,
      (∀ s, ∃ W B, Spec.PoseIn r.env.joints (Function.update q joints[i] s) "world" base W ∧
        Spec.PoseIn r.env.joints (Function.update q joints[i] s) "world" link B ∧ B = W * T s) ∧
      HasDerivV3 (fun s => (T s).p) K[i].top (q joints[i]) ∧ HasDerivM3 (fun s => (T s).R) (hat K[i].bot * (T (q joints[i])).R) (q joints[i])) :
    ∃ J, r.jacobian jac (some base) (some link) = .ok J ∧ J.length = joints.length ∧ ∀ i (hi : i < joints.length) (hJ : i < J.length), ∃ T : ℝ → Iso ℝ,
      (∀ s, ∃ W B, Spec.PoseIn r.env.joints (Function.update q joints[i] s) "world" base W ∧
        Spec.PoseIn r.env.joints (Function.update q joints[i] s) "world" link B ∧ B = W * T s) ∧
      HasDerivV3 (fun s => (T s).p) J[i].bot (q joints[i]) ∧ HasDerivM3 (fun s => (T s).R) (hat J[i].top * (T (q joints[i])).R) (q joints[i]) := by
  obtain ⟨K, hK, lK, h⟩ := hcalc
  refine ⟨tesseractJacobian K, ?_, by simp [tesseractJacobian, lK], fun i hi hJ => ?_⟩
  · simp only [TRobot.jacobian, Option.getD_some, hK, Except.bind_ok, Except.pure_eq]
  · obtain ⟨T, h1, h2, h3⟩ := h i hi (by rw [lK]; exact hi)
    exact ⟨T, h1, by simpa [tesseractJacobian] using h2, by simpa [tesseractJacobian] using h3⟩

-- non-vacuity: two prismatic joints in series, the velocity of the link between them
example : ∃ J, TRobot.jacobian (⟨⟨["world", "a", "b"], [⟨"j", .prismatic, ⟨1, 0⟩, V3.ez, "world", "a", none⟩, ⟨"k", .prismatic, ⟨1, 0⟩, V3.ex, "a", "b", none⟩]⟩,
    "r", "world", "b"⟩ : TRobot ℝ) (fun _ l => .ok (if l = "b" then [⟨V3.ez, 0⟩, ⟨V3.ex, 0⟩] else [⟨V3.ez, 0⟩, ⟨0, 0⟩])) (some "world") (some "a") = .ok J ∧
    J.length = 2 := by
  suffices hc : _ by
    obtain ⟨J, h1, h2, -⟩ := C61_jacobian_links
      (⟨⟨["world", "a", "b"], [⟨"j", .prismatic, ⟨1, 0⟩, V3.ez, "world", "a", none⟩, ⟨"k", .prismatic, ⟨1, 0⟩, V3.ex, "a", "b", none⟩]⟩,
        "r", "world", "b"⟩ : TRobot ℝ) (fun _ => 0) ["j", "k"] (fun _ l => .ok (if l = "b" then [⟨V3.ez, 0⟩, ⟨V3.ex, 0⟩] else [⟨V3.ez, 0⟩, ⟨0, 0⟩]))
      "world" "a" hc
    exact ⟨J, h1, h2⟩
  refine ⟨[⟨V3.ez, 0⟩, ⟨0, 0⟩], by simp, rfl, ?_⟩
  have step := fun q : String → ℝ => Spec.PoseIn.step (joints := [⟨"j", .prismatic, ⟨1, 0⟩, V3.ez, "world", "a", none⟩, ⟨"k", .prismatic, ⟨1, 0⟩, V3.ex, "a", "b", none⟩])
    (q := q) (root := "world") ⟨"j", .prismatic, ⟨1, 0⟩, V3.ez, "world", "a", none⟩ ⟨1, 0⟩ (by simp) Spec.PoseIn.root
  have hun : V3.sdiv (V3.ez : V3 ℝ) (V3.norm V3.ez) = V3.ez := _root_.sdiv_norm_unit (by simp [IsUnit3, V3.dot, V3.ez])
  have one : ((⟨1, 0⟩ : Iso ℝ) * ⟨1, 0⟩) = ⟨1, 0⟩ := by ext <;> simp [Iso.mul_R, Iso.mul_p]
  have onel : ∀ T : Iso ℝ, (⟨1, 0⟩ : Iso ℝ) * T = T := by intro T; ext <;> simp [Iso.mul_R, Iso.mul_p]
  have zero_hat : ∀ M : M3 ℝ, hat (0 : V3 ℝ) * M = 0 := by intro M; ext <;> simp [hat]
  intro i hi hK
  match i, hi with
  | 0, _ =>
    refine ⟨fun s => ⟨1, V3.smul s V3.ez⟩, fun s => ⟨⟨1, 0⟩, _, .root, step _, ?_⟩, ?_, ?_⟩
    · simp [Spec.motion, one, onel, hun]
    · exact ((HasDerivV3.smul (hasDerivAt_id _) (HasDerivV3.const V3.ez _))).congr_deriv (by ext <;> simp [V3.smul, V3.ez])
    · exact (HasDerivM3.const _ _).congr_deriv (zero_hat _).symm
  | 1, _ =>
    refine ⟨fun _ => ⟨1, 0⟩, fun s => ⟨⟨1, 0⟩, _, .root, step _, ?_⟩, ?_, ?_⟩
    · simp [Spec.motion, one, onel, hun, V3.smul, V3.ext_iff]
    · exact HasDerivV3.const _ _
    · exact (HasDerivM3.const _ _).congr_deriv (zero_hat _).symm

/-- C61: if `calcJacobian` returns, for a base and a link, the linear and angular velocity of the link relative to the base per unit
joint velocity, linear velocity on top, then `TesseractRobot.jacobian` is the `robotjacobian` of the original robot. -/
theorem C61_jacobian (robot : Robot ℝ) (name : String) (solver : Option String) (r : TRobot ℝ) (h : TRobot.init robot name solver = .ok r)
    (hw : robot.WF) (hu : ∀ h ∈ robot.H, IsUnit3 h) (hF : ∀ F, robot.Tflange = some F → IsRot F.R)
    (hR : ∀ R, robot.Rtool = some R → IsRot R) (hB : ∀ B, robot.Tbase = some B → IsRot B.R) (q : String → ℝ)
    (jac : String → String → Except PyErr (List (V6 ℝ)))
    (hcalc : ∀ links joints, robotToEnv robot name true solver none = .ok (r.env, links, joints) → ∀ base ∈ links, ∀ link ∈ links,
      ∃ K, jac base link = .ok K ∧ K.length = joints.length ∧ ∀ i (hi : i < joints.length) (hK : i < K.length), ∃ T : ℝ → Iso ℝ,
        (∀ s, ∃ W B, Spec.PoseIn r.env.joints (Function.update q joints[i] s) "world" base W ∧
          Spec.PoseIn r.env.joints (Function.update q joints[i] s) "world" link B ∧ B = W * T s) ∧
        HasDerivV3 (fun s => (T s).p) K[i].top (q joints[i]) ∧
        HasDerivM3 (fun s => (T s).R) (hat K[i].bot * (T (q joints[i])).R) (q joints[i])) :
    ∃ links joints, robotToEnv robot name true solver none = .ok (r.env, links, joints) ∧
      r.jacobian jac none none = robotjacobian robot (joints.map q) true := by
  obtain ⟨links, joints, he, hb, ht⟩ := TRobot.init_env h
  obtain ⟨hl, -, hh, -, hnod, -, htree⟩ := C53_env robot name solver none r.env links joints he
  have hbw : r.base = "world" := Option.some.inj (hb.symm.trans hh)
  obtain ⟨K, hK, lK, hcol⟩ := hcalc links joints he r.base (List.mem_of_mem_head? hb) r.tip (List.mem_of_getLast? ht)
  refine ⟨links, joints, he, ?_⟩
  obtain ⟨-, -, -, -, -, -, -, -, lj, -⟩ := C52_joints robot name solver none r.env links joints he
  have lH : joints.length = robot.H.length := by rw [lj]; exact hw.sized.joints
  have hty : ∀ t ∈ robot.jointType, t = 0 ∨ t = 1 := by
    obtain ⟨r', hr', -⟩ := robotToEnv_contents he
    exact (C53_needs robot r' hr').types
  simp only [TRobot.jacobian, Option.getD_none, hK, Except.bind_ok, Except.pure_eq]
  refine (C57_jacobian robot hw hty (joints.map q) (by simp [lH]) K (by rw [lK, lH]) ?_).symm
  intro i hi hK'
  have hi' : i < joints.length := by simpa using hi
  obtain ⟨T, hT, hd1, hd2⟩ := hcol i hi' hK'
  have hmap : ∀ s, joints.map (Function.update q joints[i] s) = (joints.map q).set i s := by
    intro s
    refine List.ext_getElem (by simp) ?_
    intro k h1 h2
    simp only [List.getElem_map, List.getElem_set]
    by_cases hik : i = k
    · subst hik; simp
    · rw [if_neg hik, Function.update_of_ne]
      intro e
      exact hik ((List.Nodup.getElem_inj_iff hnod).1 e).symm
  have hX : ∀ s, ∃ X, fwdkin robot ((joints.map q).set i s) true = .ok X ∧ X.R = (T s).R ∧ X.p = (T s).p := by
    intro s
    obtain ⟨W, B, hW, hB', e⟩ := hT s
    obtain ⟨X, t, hX, htip, hpose, -⟩ := C52_pose robot name solver none r.env links joints he hu hF hR hB (Function.update q joints[i] s)
    rw [ht] at htip
    cases htip
    have e1 := htree.pose_unique hB' hpose
    rw [hbw] at hW
    have hW1 := htree.pose_unique hW Spec.PoseIn.root
    subst hW1
    rw [e] at e1
    have e2 := congrArg Iso.R e1
    have e3 := congrArg Iso.p e1
    simp only [Iso.mul_R, Iso.mul_p, M3.one_mul', M3.one_mulVec] at e2 e3
    rw [hmap s] at hX
    refine ⟨X, hX, e2.symm, ?_⟩
    rw [← e3]; ext <;> simp
  choose X hX1 hX2 hX3 using hX
  refine ⟨X, hX1, ?_, ?_⟩
  · simp only [hX3, List.getElem_map]; exact hd1
  · simp only [hX2, List.getElem_map]; exact hd2

-- non-vacuity: such an object exists for the example robot
example : ∃ r, TRobot.init exUrTool "ur" (some "URInvKin") = .ok r := by
  obtain ⟨⟨env, links, joints⟩, h⟩ := (C53_default_succeeds exUrTool rfl "ur" (some "URInvKin") none).2
    ⟨⟨by simp [exUrTool, exUr, exAbb], by simp [exUrTool, exUr, exAbb], by simp [exUrTool, exUr, exAbb], by simp [exUrTool, exUr, exAbb],
      by simp [exUrTool, exUr, exAbb]⟩, Or.inr (Or.inr (Or.inr (Or.inr ⟨rfl, _, robotToUr_minus exUrTool_arm⟩)))⟩
  obtain ⟨-, -, hh, -⟩ := C53_env _ _ _ _ _ _ _ h
  cases links with
  | nil => cases hh
  | cons a l =>
    unfold TRobot.init
    rw [h]
    simp only [Except.bind_ok, List.head?_cons, orElseGet, List.getLast?_cons]
    exact ⟨_, rfl⟩
