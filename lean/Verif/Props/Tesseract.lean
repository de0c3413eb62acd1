import Verif.Lemmas.SceneGraph2

/-!
# Properties C52, C53, C58: scene graph, names and isometries of `tesseract.py`

The pose of a link in a scene graph is specified by `Spec.PoseIn` (walk from the root through the joints, each contributing its
origin transform and its motion), independently of the functions that build the graph.
-/
set_option autoImplicit false

/-! ## C58 -/

/-- C58: converting a rigid transform to an isometry and back gives the same rotation and position, without NaN, whatever branch
Eigen's quaternion construction takes (frame ids are not kept). -/
theorem C58_roundtrip (R : M3 ℝ) (p : V3 ℝ) (h : IsRot R) (pa ch : Option String) :
    ofIsometry (toIsometry (⟨R.up, p.up, pa, ch⟩ : Transform XReal)) = ⟨R.up, p.up, none, none⟩ := by
  rw [toIsometry_up (T := ⟨R, p, none, none⟩) h]; rfl

/-- C58: the other way round, for every isometry whose linear part is a rotation. -/
theorem C58_roundtrip_iso (A : Iso ℝ) (h : IsRot A.R) : toIsometry (ofIsometry A) = A := by
  rw [toIsometry_real (T := ofIsometry A) h]; rfl

/-- C58: conversion is compatible with composition and inversion of rigid transforms. -/
theorem C58_homomorphism (A B : Transform ℝ) (hA : IsRot A.R) (hB : IsRot B.R) :
    toIsometry (A * B) = toIsometry A * toIsometry B ∧ toIsometry A.inv = (toIsometry A).inv := by
  have h1 : IsRot (A * B).R := hA.mul hB
  have h2 : IsRot A.inv.R := hA.transpose
  rw [toIsometry_real h1, toIsometry_real hA, toIsometry_real hB, toIsometry_real h2]
  exact ⟨rfl, rfl⟩

-- half turns about each axis, where the trace is negative and the quaternion has no scalar part, and the identity, where the angle is 0
example : IsRot (⟨1, 0, 0, 0, -1, 0, 0, 0, -1⟩ : M3 ℝ) ∧ IsRot (⟨-1, 0, 0, 0, 1, 0, 0, 0, -1⟩ : M3 ℝ) ∧
    IsRot (⟨-1, 0, 0, 0, -1, 0, 0, 0, 1⟩ : M3 ℝ) ∧ IsRot (1 : M3 ℝ) := by
  refine ⟨⟨?_, ?_⟩, ⟨?_, ?_⟩, ⟨?_, ?_⟩, IsRot.one⟩ <;> first | (ext <;> norm_num) | norm_num [M3.det]

/-! ## C52 -/

section
variable {α : Type} [Add α] [Sub α] [Mul α] [Div α] [Neg α] [Zero α] [One α] [LT α] [LE α]
  [DecidableLT α] [DecidableLE α] [Elem α]

theorem prefix_base (name : String) : name ++ "_base_link" = name ++ "_" ++ "base_link" := by
  rw [String.append_assoc]; rfl

theorem prefixNames_eq (names : List String) (name : String) :
    prefixNames names name = names.map ((name ++ "_") ++ ·) := rfl

theorem envCommands_contents {robot : Robot α} {name : String} {w : Bool} {solver : Option String}
    {over : Option (PluginOverride α)} {c : EnvCommands α} (h : envCommands robot name w solver over = .ok c) :
    ∃ r, robotToSceneGraph robot = .ok r ∧ c.world = w ∧ c.sg = r.sg ∧ c.joint = worldToBaseJoint robot name ∧
      c.pre = name ++ "_" ∧ c.jointNames = prefixNames r.jointNames name ∧
      c.linkNames = (if w then ["world"] else []) ++ prefixNames r.linkNames name := by
  unfold envCommands at h
  obtain ⟨r, hr, h⟩ := Except.bind_eq_ok h
  obtain ⟨tip, -, h⟩ := Except.bind_eq_ok h
  obtain ⟨info, -, h⟩ := Except.bind_eq_ok h
  cases h
  refine ⟨r, hr, rfl, rfl, rfl, rfl, rfl, ?_⟩
  cases w <;> rfl

theorem worldTree : Spec.IsTree "world" (worldSceneGraph : SGraph α) :=
  ⟨by simp [worldSceneGraph], by simp [worldSceneGraph], by simp [worldSceneGraph], by simp [worldSceneGraph],
    by simp [worldSceneGraph], by simp [worldSceneGraph], by simp [worldSceneGraph], by simp [worldSceneGraph]; exact .root⟩

theorem robotToEnv_contents {robot : Robot α} {name : String} {solver : Option String} {over : Option (PluginOverride α)}
    {env : SGraph α} {links joints : List String} (h : robotToEnv robot name true solver over = .ok (env, links, joints)) :
    ∃ r, robotToSceneGraph robot = .ok r ∧
      SGraph.insertWith worldSceneGraph r.sg (worldToBaseJoint robot name) (name ++ "_") = some env ∧
      links = "world" :: prefixNames r.linkNames name ∧ joints = prefixNames r.jointNames name := by
  unfold robotToEnv at h
  obtain ⟨c, hc, h⟩ := Except.bind_eq_ok h
  obtain ⟨r, hr, e1, e2, e3, e4, e5, e6⟩ := envCommands_contents hc
  unfold EnvCommands.apply at h
  rw [e1, e2, e3, e4] at h
  simp only [if_true, SGraph.empty] at h
  split at h
  · cases h
  · rename_i e he
    cases h
    exact ⟨r, hr, he, by rw [e6]; rfl, e5⟩

end

/-- C52: in the environment built from a robot, with any joint positions `q`, the last returned link is at the pose that `fwdkin` of
the robot gives for these positions, base frame, flange and tool included; and no link has a second pose.  The robot's auxiliary
rotations must be rotations and its axes unit vectors. -/
theorem C52_pose (robot : Robot ℝ) (name : String) (solver : Option String) (over : Option (PluginOverride ℝ)) (env : SGraph ℝ)
    (links joints : List String) (h : robotToEnv robot name true solver over = .ok (env, links, joints))
    (hu : ∀ h ∈ robot.H, IsUnit3 h) (hF : ∀ F, robot.Tflange = some F → IsRot F.R) (hR : ∀ R, robot.Rtool = some R → IsRot R)
    (hB : ∀ B, robot.Tbase = some B → IsRot B.R) (q : String → ℝ) :
    ∃ T tip, fwdkin robot (joints.map q) true = .ok T ∧ links.getLast? = some tip ∧
      Spec.PoseIn env.joints q "world" tip ⟨T.R, T.p⟩ ∧
      ∀ l A A', Spec.PoseIn env.joints q "world" l A → Spec.PoseIn env.joints q "world" l A' → A = A' := by
  obtain ⟨r, hr, hins, rfl, rfl⟩ := robotToEnv_contents h
  obtain ⟨C⟩ := robotToSceneGraph_contents hr
  have htree : Spec.IsTree "world" env := IsTree.insertWith worldTree C.tree (prefix_base name) hins
  obtain ⟨-, -, -, -, -, -, rfl⟩ := insertWith_iff.1 hins
  set joints := worldSceneGraph.joints ++ r.sg.joints.map (·.withPrefix (name ++ "_")) ++ [worldToBaseJoint robot name] with hj
  have hmem : ∀ j ∈ r.sg.joints, j.withPrefix (name ++ "_") ∈ joints := by
    intro j hjm
    rw [hj]
    exact List.mem_append_left _ (List.mem_append_right _ (List.mem_map.2 ⟨j, hjm, rfl⟩))
  obtain ⟨T, hT, hpose⟩ := sg_tip_pose C hu hF hR hmem q
  have hbase := Spec.PoseIn.fixed (joints := joints) (q := q) (root := "world") (j := worldToBaseJoint robot name)
    (T := ⟨1, 0⟩) Spec.PoseIn.root (by simp [hj]) rfl
  have hbase' : Spec.PoseIn joints q "world" (name ++ "_" ++ "base_link") (⟨1, 0⟩ * (worldToBaseJoint robot name).origin) := by
    rw [← prefix_base]; exact hbase
  have hall := hbase'.trans hpose
  have hnames : (prefixNames r.jointNames name).map q = (sgJointNames robot).map fun n => q (name ++ "_" ++ n) := by
    rw [C.jointNames_eq, prefixNames_eq, List.map_map]; rfl
  have hone : ∀ A : Iso ℝ, (⟨1, 0⟩ : Iso ℝ) * A = A := by
    intro A
    apply Iso.ext
    · simp [M3.one_mul']
    · simp only [Iso.mul_p]; ext <;> simp
  rw [hone] at hall
  have hlast : ("world" :: prefixNames r.linkNames name).getLast? = some (name ++ "_" ++ sgTip robot) := by
    rw [C.linkNames_eq, prefixNames_eq, List.getLast?_cons, List.getLast?_map, sgLinkNames_getLast?]; rfl
  cases hb : robot.Tbase with
  | none =>
    refine ⟨T, _, ?_, hlast, ?_, fun l A A' => htree.pose_unique⟩
    · rw [hnames]; rw [← hT]; congr 1
      cases robot; simp only at hb; subst hb; rfl
    · simp only [worldToBaseJoint, hb] at hall
      rw [show (Iso.one : Iso ℝ) = ⟨1, 0⟩ from rfl, hone] at hall
      exact hall
  | some B =>
    refine ⟨B * T, _, ?_, hlast, ?_, fun l A A' => htree.pose_unique⟩
    · rw [hnames]
      simp only [fwdkin, checkLimits, if_true, Except.bind_ok] at hT ⊢
      cases hP : robot.P with
      | nil => rw [hP] at hT; cases hT
      | cons P0 Ps =>
        rw [hP] at hT
        simp only at hT ⊢
        obtain ⟨x, hx, hT⟩ := Except.bind_eq_ok hT
        rw [hx]
        simp only [Except.bind_ok, Except.pure_eq, Except.ok.injEq] at hT ⊢
        rw [← hT]
        simp only [applyAux, hb]
    · simp only [worldToBaseJoint, hb, toIsometry_real (hB B hb)] at hall
      exact hall

/-- C52: relative to the robot's base link the same environment gives the kinematics without the base frame. -/
theorem C52_pose_base (robot : Robot ℝ) (name : String) (solver : Option String) (over : Option (PluginOverride ℝ)) (env : SGraph ℝ)
    (links joints : List String) (h : robotToEnv robot name true solver over = .ok (env, links, joints))
    (hu : ∀ h ∈ robot.H, IsUnit3 h) (hF : ∀ F, robot.Tflange = some F → IsRot F.R) (hR : ∀ R, robot.Rtool = some R → IsRot R)
    (hB : ∀ B, robot.Tbase = some B → IsRot B.R) (q : String → ℝ) :
    ∃ T B tip, fwdkin { robot with Tbase := none } (joints.map q) true = .ok T ∧ links.getLast? = some tip ∧
      Spec.PoseIn env.joints q "world" (name ++ "_base_link") B ∧ IsRot B.R ∧
      Spec.PoseIn env.joints q "world" tip (B * ⟨T.R, T.p⟩) := by
  obtain ⟨r, hr, hins, rfl, rfl⟩ := robotToEnv_contents h
  obtain ⟨C⟩ := robotToSceneGraph_contents hr
  obtain ⟨-, -, -, -, -, -, rfl⟩ := insertWith_iff.1 hins
  set joints := worldSceneGraph.joints ++ r.sg.joints.map (·.withPrefix (name ++ "_")) ++ [worldToBaseJoint robot name] with hj
  have hmem : ∀ j ∈ r.sg.joints, j.withPrefix (name ++ "_") ∈ joints := by
    intro j hjm
    rw [hj]
    exact List.mem_append_left _ (List.mem_append_right _ (List.mem_map.2 ⟨j, hjm, rfl⟩))
  obtain ⟨T, hT, hpose⟩ := sg_tip_pose C hu hF hR hmem q
  have hbase := Spec.PoseIn.fixed (joints := joints) (q := q) (root := "world") (j := worldToBaseJoint robot name)
    (T := ⟨1, 0⟩) Spec.PoseIn.root (by simp [hj]) rfl
  have hone : ∀ A : Iso ℝ, (⟨1, 0⟩ : Iso ℝ) * A = A := by
    intro A
    apply Iso.ext
    · simp [M3.one_mul']
    · simp only [Iso.mul_p]; ext <;> simp
  rw [hone] at hbase
  have hnames : (prefixNames r.jointNames name).map q = (sgJointNames robot).map fun n => q (name ++ "_" ++ n) := by
    rw [C.jointNames_eq, prefixNames_eq, List.map_map]; rfl
  refine ⟨T, (worldToBaseJoint robot name).origin, name ++ "_" ++ sgTip robot, ?_, ?_, hbase, ?_, ?_⟩
  · rw [hnames]; exact hT
  · rw [C.linkNames_eq, prefixNames_eq, List.getLast?_cons, List.getLast?_map, sgLinkNames_getLast?]; rfl
  · unfold worldToBaseJoint
    cases hb : robot.Tbase with
    | none => exact IsRot.one
    | some B => simp only [toIsometry_real (hB B hb)]; exact hB B hb
  · refine Spec.PoseIn.trans ?_ hpose
    rw [← prefix_base]; exact hbase

/-- C52: `TesseractRobot(robot, name).fwdkin(q)` returns the same pose as `fwdkin(robot, q)`; with the robot's base link as base link
it returns the pose without the base frame.  `frames` are the frames that `calcFwdKin` returns: the poses of the links in the
environment. -/
theorem C52_fwdkin (robot : Robot ℝ) (name : String) (solver : Option String) (r : TRobot ℝ)
    (h : TRobot.init robot name solver = .ok r)
    (hu : ∀ h ∈ robot.H, IsUnit3 h) (hF : ∀ F, robot.Tflange = some F → IsRot F.R) (hR : ∀ R, robot.Rtool = some R → IsRot R)
    (hB : ∀ B, robot.Tbase = some B → IsRot B.R) (q : String → ℝ) (frames : String → Option (Iso ℝ))
    (hfr : ∀ l A, frames l = some A ↔ Spec.PoseIn r.env.joints q "world" l A) :
    ∃ links joints T T0, robotToEnv robot name true solver none = .ok (r.env, links, joints) ∧
      fwdkin robot (joints.map q) true = .ok T ∧ fwdkin { robot with Tbase := none } (joints.map q) true = .ok T0 ∧
      r.fwdkin frames none none = .ok ⟨T.R, T.p, none, none⟩ ∧
      r.fwdkin frames (some (name ++ "_base_link")) none = .ok ⟨T0.R, T0.p, none, none⟩ := by
  unfold TRobot.init at h
  obtain ⟨⟨env, links, joints⟩, he, h⟩ := Except.bind_eq_ok h
  obtain ⟨b, hb, h⟩ := Except.bind_eq_ok h
  obtain ⟨tip, ht, h⟩ := Except.bind_eq_ok h
  cases h
  obtain ⟨T, t1, h1, h2, h3, huniq⟩ := C52_pose robot name solver none env links joints he hu hF hR hB q
  obtain ⟨T0, B, t2, h4, h5, h6, h7, h8⟩ := C52_pose_base robot name solver none env links joints he hu hF hR hB q
  simp only [h2, orElseGet, Except.ok.injEq] at ht
  rw [h2] at h5
  obtain rfl := Option.some.inj h5
  subst ht
  refine ⟨links, joints, T, T0, he, h1, h4, ?_, ?_⟩
  · simp only [TRobot.fwdkin, Option.getD_none, (hfr _ _).2 h3]; rfl
  · simp only [TRobot.fwdkin, Option.getD_none, (hfr _ _).2 h8, (hfr _ _).2 h6]
    have : B.inv * (B * (⟨T0.R, T0.p⟩ : Iso ℝ)) = ⟨T0.R, T0.p⟩ := by
      apply Iso.ext
      · simp only [Iso.mul_R, Iso.inv, ← M3.mul_assoc', h7.orth, M3.one_mul']
      · simp only [Iso.mul_p, Iso.inv, M3.mulVec_add, h7.transpose_mulVec_mulVec]
        ext <;> simp
    rw [this]; rfl

/-- C52: every joint of the robot is in the environment under its prefixed name, with the robot's axis, type and limits. -/
theorem C52_joints (robot : Robot ℝ) (name : String) (solver : Option String) (over : Option (PluginOverride ℝ)) (env : SGraph ℝ)
    (links joints : List String) (h : robotToEnv robot name true solver over = .ok (env, links, joints)) :
    ∃ lo up ve ac, robot.lower = some lo ∧ robot.upper = some up ∧ robot.vel = some ve ∧ robot.acc = some ac ∧
      joints.length = robot.jointType.length ∧
      ∀ k, (hk : k < robot.jointType.length) → ∃ j ax nm l u v a, j ∈ env.joints ∧ joints[k]? = some nm ∧ robot.H[k]? = some ax ∧
        lo[k]? = some l ∧ up[k]? = some u ∧ ve[k]? = some v ∧ ac[k]? = some a ∧ j.name = nm ∧ j.axis = ax ∧
        j.limits = some ⟨l, u, 1000, v, a⟩ ∧ (robot.jointType[k] = 0 ∧ j.type = .revolute ∨ robot.jointType[k] = 1 ∧ j.type = .prismatic) := by
  obtain ⟨r, hr, hins, rfl, rfl⟩ := robotToEnv_contents h
  obtain ⟨C⟩ := robotToSceneGraph_contents hr
  obtain ⟨-, -, -, -, -, -, rfl⟩ := insertWith_iff.1 hins
  obtain ⟨lo, up, ve, ac, e1, e2, e3, e4, hl⟩ := C.limits
  refine ⟨lo, up, ve, ac, e1, e2, e3, e4, ?_, ?_⟩
  · rw [C.jointNames_eq, prefixNames_eq, List.length_map, C.names_len, C.len]
  · intro k hk
    obtain ⟨j, ax, nm, t, l, u, v, a, hj, hax, hnm, ht, h1, h2, h3, h4, hjn, hja, hjt, hty, hlim⟩ := C.chain.get hl hk
    refine ⟨j.withPrefix (name ++ "_"), ax, name ++ "_" ++ nm, l, u, v, a, ?_, ?_, hax, h1, h2, h3, h4, ?_, hja, ?_, ?_⟩
    · apply List.mem_append_left _ (List.mem_append_right _ (List.mem_map.2 ⟨j, ?_, rfl⟩))
      rw [C.joints_eq]; simp [hj]
    · rw [C.jointNames_eq, prefixNames_eq, List.getElem?_map, hnm]; rfl
    · rw [TJoint.withPrefix, hjn]
    · rw [TJoint.withPrefix, hlim]; norm_num [lit]
    · rw [List.getElem?_eq_getElem hk] at ht
      have ht := Option.some.inj ht
      rw [ht]
      rcases hty with rfl | rfl
      · left; exact ⟨rfl, hjt⟩
      · right; exact ⟨rfl, hjt⟩

/-! ## C53 -/

section
variable {α : Type} [Add α] [Sub α] [Mul α] [Div α] [Neg α] [Zero α] [One α] [LT α] [LE α]
  [DecidableLT α] [DecidableLE α] [Elem α]

/-- C53: the graph of a robot has the returned link names, in order and without repetition, starting at the base link; its movable
joints are the returned joint names, in order; all its joint names, fixed joints included, are distinct; it is a tree. -/
theorem C53_scene_graph (robot : Robot α) (r : SgResult α) (h : robotToSceneGraph robot = .ok r) :
    r.sg.links = r.linkNames ∧ r.linkNames.Nodup ∧ r.linkNames.head? = some "base_link" ∧
    (r.sg.joints.filter fun j => j.type ≠ .fixed).map (·.name) = r.jointNames ∧ r.jointNames.length = robot.jointType.length ∧
    (r.sg.joints.map (·.name)).Nodup ∧ Spec.IsTree "base_link" r.sg := by
  obtain ⟨C⟩ := robotToSceneGraph_contents h
  have hn := C.chain.names (by rw [C.names_len, C.len])
  refine ⟨by rw [C.links_eq, C.linkNames_eq], ?_, ?_, ?_, ?_, C.tree.names_nodup, C.tree⟩
  · rw [C.linkNames_eq, ← C.links_eq]; exact C.tree.links_nodup
  · rw [C.linkNames_eq]; simp [sgLinkNames]
  · rw [C.joints_eq, C.jointNames_eq]
    have hf : (flangeJs robot).filter (fun j => decide (j.type ≠ .fixed)) = [] := by
      unfold flangeJs; cases robot.Tflange <;> rfl
    have ht : (toolJs robot).filter (fun j => decide (j.type ≠ .fixed)) = [] := by
      unfold toolJs; cases robot.Rtool <;> cases robot.ptool <;> rfl
    rw [List.filter_append, List.filter_append, List.filter_append, hf, ht,
      List.filter_eq_self.2 (fun j hj => by simpa using hn.2.1 j hj)]
    simp [getFixedJoint, hn.1]
  · rw [C.jointNames_eq, C.names_len, C.len]

/-- C53: prefixing is injective. -/
theorem C53_prefix_injective (name : String) (a b : List String) (h : prefixNames a name = prefixNames b name) : a = b :=
  List.map_injective_iff.2 (fun _ _ => append_inj_right) h

/-- C53: the same for the environment: its links are the returned names, distinct, starting with "world"; its movable joints are the
returned joint names, distinct; it is a tree. -/
theorem C53_env (robot : Robot α) (name : String) (solver : Option String) (over : Option (PluginOverride α)) (env : SGraph α)
    (links joints : List String) (h : robotToEnv robot name true solver over = .ok (env, links, joints)) :
    env.links = links ∧ links.Nodup ∧ links.head? = some "world" ∧ (env.joints.filter fun j => j.type ≠ .fixed).map (·.name) = joints ∧
    joints.Nodup ∧ (∀ l ∈ links.tail ++ joints, ∃ s, l = name ++ "_" ++ s) ∧ Spec.IsTree "world" env := by
  obtain ⟨r, hr, hins, rfl, rfl⟩ := robotToEnv_contents h
  obtain ⟨C⟩ := robotToSceneGraph_contents hr
  obtain ⟨h1, h2, -, h4, h5, h6, -⟩ := C53_scene_graph robot r hr
  have htree := IsTree.insertWith worldTree C.tree (prefix_base name) hins
  obtain ⟨-, -, -, -, -, -, rfl⟩ := insertWith_iff.1 hins
  have hl : "world" :: prefixNames r.linkNames name = (worldSceneGraph : SGraph α).links ++ r.sg.links.map ((name ++ "_") ++ ·) := by
    rw [h1]; rfl
  refine ⟨hl.symm, ?_, rfl, ?_, ?_, ?_, htree⟩
  · rw [hl]; exact htree.links_nodup
  · rw [List.filter_append, List.filter_append]
    have e : ∀ l : List (TJoint α), ((l.map (·.withPrefix (name ++ "_"))).filter fun j => decide (j.type ≠ .fixed)).map (·.name) =
        (((l.filter fun j => decide (j.type ≠ .fixed)).map (·.name)).map ((name ++ "_") ++ ·)) := by
      intro l
      induction l with
      | nil => rfl
      | cons j l ih =>
        by_cases hj : j.type = .fixed <;> simp_all [TJoint.withPrefix]
    simp only [List.map_append, e, h4]
    simp [worldSceneGraph, worldToBaseJoint, prefixNames]
  · rw [prefixNames_eq]
    refine List.Nodup.map (fun _ _ => append_inj_right) ?_
    rw [← h4]
    exact h6.sublist (List.filter_sublist.map _)
  · intro l hl
    simp only [List.tail_cons, List.mem_append, prefixNames, List.mem_map] at hl
    rcases hl with ⟨s, -, rfl⟩ | ⟨s, -, rfl⟩ <;> exact ⟨s, rfl⟩

/-- C53: the conversion succeeds exactly when the joint names are distinct from each other and from the names of the fixed joints. -/
theorem C53_succeeds_iff (robot : Robot α) (hc : Spec.Convertible robot) (names : List String) (hn : robot.jointNames = some names) :
    (∃ r, robotToSceneGraph robot = .ok r) ↔ names.length = robot.jointType.length ∧ names.Nodup ∧
      linkName (robot.jointType.length - 1) ++ "_to_chain_tip" ∉ names ∧ (robot.Tflange.isSome → "tip_to_flange" ∉ names) ∧
      (robot.Rtool.isSome → robot.ptool.isSome → "tip_to_tool" ∉ names) := by
  have hs : sgJointNames robot = names := by unfold sgJointNames; rw [hn]
  obtain ⟨m, hm⟩ : ∃ m, robot.jointType.length = m + 1 := ⟨robot.jointType.length - 1, by
    have := List.length_pos_of_ne_nil hc.pos; omega⟩
  constructor
  · rintro ⟨r, hr⟩
    obtain ⟨C⟩ := robotToSceneGraph_contents hr
    have hnod := C.tree.names_nodup
    have em : C.m = m := by have := C.len; omega
    rw [C.all_names, hs, em, List.nodup_append] at hnod
    obtain ⟨n1, -, n3⟩ := hnod
    refine ⟨by rw [← hs, C.names_len, C.len], n1, ?_, ?_, ?_⟩
    · rw [hm, Nat.add_sub_cancel]
      exact fun hmem => n3 _ hmem _ (by simp [fixedNames]) rfl
    · exact fun hF hmem => n3 _ hmem _ (by simp [fixedNames, hF]) rfl
    · exact fun hR hp hmem => n3 _ hmem _ (by simp [fixedNames, hR, hp]) rfl
  · rintro ⟨h1, h2, h3, h4, h5⟩
    rw [hm, Nat.add_sub_cancel] at h3
    refine robotToSceneGraph_succeeds hc hm (by rw [hs, h1, hm]) ?_
    rw [hs]
    have := default_nodup (robot := { robot with jointNames := none }) rfl (m := m) hm
    rw [List.nodup_append] at this ⊢
    refine ⟨h2, this.2.1, ?_⟩
    intro a ha b hb e
    subst e
    unfold fixedNames at hb
    simp only [List.mem_append, List.mem_singleton] at hb
    rcases hb with (rfl | hb) | hb
    · exact h3 ha
    · split_ifs at hb with hF
      · rw [List.mem_singleton.1 hb] at ha; exact h4 hF ha
      · simp at hb
    · split_ifs at hb with hF
      · rw [List.mem_singleton.1 hb] at ha; exact h5 hF.1 hF.2 ha
      · simp at hb

/-- C53: what stops the conversion apart from names: no joint at all, a joint of unknown type, arrays that are too short, missing limits. -/
theorem C53_needs (robot : Robot α) (r : SgResult α) (h : robotToSceneGraph robot = .ok r) : Spec.Convertible robot := by
  obtain ⟨C⟩ := robotToSceneGraph_contents h
  have hn := C.chain.names (by rw [C.names_len, C.len])
  obtain ⟨lo, up, ve, ac, e1, e2, e3, e4, hl⟩ := C.limits
  have key : ∀ k, k < robot.jointType.length → k < robot.H.length ∧ k < lo.length ∧ k < up.length ∧ k < ve.length ∧ k < ac.length := by
    intro k hk
    obtain ⟨j, ax, nm, t, l, u, v, a, hj, hax, hnm, ht, h1, h2, h3, h4, -⟩ := C.chain.get hl hk
    exact ⟨(List.getElem?_eq_some_iff.1 hax).1, (List.getElem?_eq_some_iff.1 h1).1, (List.getElem?_eq_some_iff.1 h2).1,
      (List.getElem?_eq_some_iff.1 h3).1, (List.getElem?_eq_some_iff.1 h4).1⟩
  have hm := key C.m (by rw [C.len]; omega)
  refine ⟨?_, hn.2.2.1, ?_, ?_, ?_⟩
  · intro e; have := C.len; rw [e] at this; simp at this
  · rw [C.len]; omega
  · rw [C.len]; exact (List.getElem?_eq_some_iff.1 C.hpN).1
  · rw [C.len]
    simp only [List.mem_cons, List.not_mem_nil, or_false]
    rintro x (rfl | rfl | rfl | rfl)
    · exact ⟨lo, e1, by omega⟩
    · exact ⟨up, e2, by omega⟩
    · exact ⟨ve, e3, by omega⟩
    · exact ⟨ac, e4, by omega⟩

/-- A robot can be given to a solver: KDL solves for every robot, the analytic solvers for those whose parameters can be computed; a
plugin dictionary of the caller's own must have a section for inverse kinematics (specification). -/
def Spec.SolverFits (robot : Robot α) : Option String → Option (PluginOverride α) → Prop
  | solver, none => solver = none ∨ solver = some "KDLInvKinChainLMA" ∨ solver = some "KDLInvKinChainNR" ∨
      (solver = some "OPWInvKin" ∧ ∃ q, robotToOpw robot = .ok q) ∨ (solver = some "URInvKin" ∧ ∃ q, robotToUr robot = .ok q)
  | _, some (.pair (.dict d) _) => (d.lookup "inv_kin_plugins").isSome
  | _, some _ => False

/-- the plugin dictionary can be built exactly if the solver fits -/
theorem plugin_ok_iff (robot : Robot α) (name : String) (links : List String) (c0 : String) (chain : List String) (b t : String)
    (solver : Option String) (over : Option (PluginOverride α)) :
    (∃ d, pluginInfoDict robot name links (c0 :: chain) solver over (some b) (some t) = .ok d) ↔ Spec.SolverFits robot solver over := by
  rcases over with _ | ⟨info, libs⟩ | s
  · constructor
    · rintro ⟨d, h⟩
      simp only [pluginInfoDict, orElseGet, Except.bind_ok] at h
      obtain ⟨ik, hik, -⟩ := Except.bind_eq_ok h
      rcases solver with _ | s
      · exact Or.inl rfl
      · simp only [invkinInfo, Option.getD_some] at hik
        split_ifs at hik with h1 h2 h3
        · rcases h1 with rfl | rfl <;> simp [Spec.SolverFits]
        · obtain ⟨q, hq, -⟩ := Except.bind_eq_ok hik
          subst h2
          exact Or.inr (Or.inr (Or.inr (Or.inl ⟨rfl, q, hq⟩)))
        · obtain ⟨q, hq, -⟩ := Except.bind_eq_ok hik
          subst h3
          exact Or.inr (Or.inr (Or.inr (Or.inr ⟨rfl, q, hq⟩)))
    · rintro (rfl | rfl | rfl | ⟨rfl, q, hq⟩ | ⟨rfl, q, hq⟩)
      · exact ⟨_, rfl⟩
      · exact ⟨_, rfl⟩
      · exact ⟨_, rfl⟩
      · refine ⟨_, by
          simp only [pluginInfoDict, orElseGet, Except.bind_ok, invkinInfo, Option.getD_some]
          rw [if_neg (by decide), if_pos trivial, hq]
          rfl⟩
      · refine ⟨_, by
          simp only [pluginInfoDict, orElseGet, Except.bind_ok, invkinInfo, Option.getD_some]
          rw [if_neg (by decide), if_neg (by decide), if_pos trivial, hq]
          rfl⟩
  · simp only [pluginInfoDict, orElseGet, Except.bind_ok, invkinInfo]
    constructor
    · rintro ⟨d, h⟩
      obtain ⟨fks, -, h⟩ := Except.bind_eq_ok h
      obtain ⟨iks, hk, -⟩ := Except.bind_eq_ok h
      rcases info with _ | _ | _ | _ | _ | _ | l
      all_goals try cases hk
      simp only [Yaml.item] at hk
      simp only [Spec.SolverFits]
      cases e : l.lookup "inv_kin_plugins" with
      | none => rw [e] at hk; cases hk
      | some v => rfl
    · intro h
      rcases info with _ | _ | _ | _ | _ | _ | l
      all_goals try exact h.elim
      simp only [Spec.SolverFits] at h
      obtain ⟨v, hv⟩ := Option.isSome_iff_exists.1 h
      refine ⟨_, by
        simp only [Yaml.item, hv]
        rfl⟩
  · constructor
    · rintro ⟨d, h⟩
      simp only [pluginInfoDict, orElseGet, Except.bind_ok, invkinInfo] at h
      split_ifs at h <;> cases h
    · intro h; exact h.elim

theorem envCommands_succeeds {robot : Robot α} {r : SgResult α} (hr : robotToSceneGraph robot = .ok r) (name : String) (w : Bool)
    (solver : Option String) (over : Option (PluginOverride α)) (hs : Spec.SolverFits robot solver over) :
    ∃ c, envCommands robot name w solver over = .ok c := by
  obtain ⟨C⟩ := robotToSceneGraph_contents hr
  have ht : (prefixNames r.linkNames name).getLast? = some (name ++ "_" ++ sgTip robot) := by
    rw [C.linkNames_eq, prefixNames_eq, List.getLast?_map, sgLinkNames_getLast?]; rfl
  obtain ⟨d, hd⟩ := (plugin_ok_iff robot name (prefixNames r.linkNames name) (name ++ "_" ++ "base_link")
    (((List.range (C.m + 1)).map linkName).map ((name ++ "_") ++ ·)) "world" (name ++ "_" ++ sgTip robot) solver over).2 hs
  have hch : prefixNames r.chainNames name = (name ++ "_" ++ "base_link") :: ((List.range (C.m + 1)).map linkName).map ((name ++ "_") ++ ·) := by
    rw [C.chainNames_eq, prefixNames_eq]; rfl
  unfold envCommands
  rw [hr]
  simp only [Except.bind_ok, ht, orElseGet, hch, hd, Except.pure_eq]
  exact ⟨_, rfl⟩

theorem envCommands_needs {robot : Robot α} {name : String} {w : Bool} {solver : Option String} {over : Option (PluginOverride α)}
    {c : EnvCommands α} (h : envCommands robot name w solver over = .ok c) :
    Spec.Convertible robot ∧ Spec.SolverFits robot solver over := by
  unfold envCommands at h
  obtain ⟨r, hr, h⟩ := Except.bind_eq_ok h
  obtain ⟨tip, -, h⟩ := Except.bind_eq_ok h
  obtain ⟨info, hinfo, h⟩ := Except.bind_eq_ok h
  obtain ⟨C⟩ := robotToSceneGraph_contents hr
  refine ⟨C53_needs robot r hr, (plugin_ok_iff robot name (prefixNames r.linkNames name) (name ++ "_" ++ "base_link")
    (((List.range (C.m + 1)).map linkName).map ((name ++ "_") ++ ·)) "world" tip solver over).1 ⟨info, ?_⟩⟩
  rw [← hinfo]
  congr 1
  rw [C.chainNames_eq, prefixNames_eq]; rfl

/-- C53: an environment can be built from a robot without joint names of its own, under any robot name, exactly if the robot can be
converted at all and the requested solver fits. -/
theorem C53_default_succeeds (robot : Robot α) (hn : robot.jointNames = none) (name : String) (solver : Option String)
    (over : Option (PluginOverride α)) :
    (∃ res, robotToEnv robot name true solver over = .ok res) ↔ Spec.Convertible robot ∧ Spec.SolverFits robot solver over := by
  constructor
  · rintro ⟨res, h⟩
    unfold robotToEnv at h
    obtain ⟨c, hc, -⟩ := Except.bind_eq_ok h
    exact envCommands_needs hc
  rintro ⟨hc, hs⟩
  obtain ⟨m, hm⟩ : ∃ m, robot.jointType.length = m + 1 := ⟨robot.jointType.length - 1, by
    have := List.length_pos_of_ne_nil hc.pos; omega⟩
  obtain ⟨r, hr⟩ := robotToSceneGraph_succeeds hc hm (by simp [sgJointNames, hn, hm]) (default_nodup hn hm)
  obtain ⟨c, hcm⟩ := envCommands_succeeds hr name true solver over hs
  obtain ⟨r', hr', e1, e2, e3, e4, -, -⟩ := envCommands_contents hcm
  rw [hr] at hr'
  cases hr'
  obtain ⟨C⟩ := robotToSceneGraph_contents hr
  have happ : c.apply SGraph.empty = some ⟨(worldSceneGraph : SGraph α).links ++ r.sg.links.map ((name ++ "_") ++ ·),
      (worldSceneGraph : SGraph α).joints ++ r.sg.joints.map (·.withPrefix (name ++ "_")) ++ [worldToBaseJoint robot name]⟩ := by
    unfold EnvCommands.apply
    rw [e1, e2, e3, e4]
    simp only [if_true, SGraph.empty]
    refine insertWith_iff.2 ⟨by simp [worldToBaseJoint, worldSceneGraph], ?_, by simp [worldSceneGraph], ?_, by simp [worldSceneGraph],
      ?_, rfl⟩
    · rw [C.links_eq]
      exact List.mem_map.2 ⟨"base_link", by simp [sgLinkNames], (prefix_base name).symm⟩
    · intro l _ hmem
      simp only [worldSceneGraph, List.mem_singleton] at hmem
      exact prefixed_ne_world name l hmem
    · intro k hk
      have : k.name ∈ sgJointNames robot ++ fixedNames robot C.m := by
        rw [← C.all_names]; exact List.mem_map.2 ⟨k, hk, rfl⟩
      exact prefixed_ne_world_to (default_isJointName hn this).no_w
  unfold robotToEnv
  rw [hcm]
  simp only [Except.bind_ok, happ]
  exact ⟨_, rfl⟩

/-- C53: `robot_to_tesseract_env(robot, name, include_world=False)` never succeeds: the joint that connects the robot has no parent
link in the new environment. -/
theorem C53_without_world (robot : Robot α) (name : String) (solver : Option String) (over : Option (PluginOverride α))
    (res : SGraph α × List String × List String) : robotToEnv robot name false solver over ≠ .ok res := by
  intro h
  unfold robotToEnv at h
  obtain ⟨c, hc, h⟩ := Except.bind_eq_ok h
  obtain ⟨r, hr, e1, e2, e3, e4, -⟩ := envCommands_contents hc
  have : c.apply SGraph.empty = none := by
    unfold EnvCommands.apply
    rw [e1, e3]
    simp [SGraph.insertWith, SGraph.empty, worldToBaseJoint]
  rw [this] at h
  cases h

/-- C53: what happens instead is AssertionError, whenever the commands could be made at all (line 797). -/
theorem C53_without_world_error (robot : Robot α) (name : String) (solver : Option String) (over : Option (PluginOverride α))
    (c : EnvCommands α) (h : envCommands robot name false solver over = .ok c) :
    robotToEnv robot name false solver over = .error .assertion := by
  have h' : ∀ res, robotToEnv robot name false solver over ≠ .ok res := C53_without_world robot name solver over
  unfold robotToEnv at h' ⊢
  rw [h, Except.bind_ok] at h' ⊢
  cases e : c.apply SGraph.empty with
  | none => rfl
  | some g => rw [e] at h'; exact absurd rfl (h' _)

theorem prefix_of_append {w n J r : List Char} (hw : '_' ∉ w) (h : n ++ '_' :: J = w ++ r) : w <+: n := by
  rcases List.append_eq_append_iff.1 h with ⟨a, h1, h2⟩ | ⟨a, h1, -⟩
  · cases a with
    | nil => rw [h1]; simp
    | cons x a =>
      simp only [List.cons_append, List.cons.injEq] at h2
      exact absurd (by rw [h1, ← h2.1]; simp) hw
  · exact ⟨a, h1.symm⟩

/-- C53: a second robot can be put into the same environment under any other name, if neither name starts with "world".  Both robots
without joint names of their own. -/
theorem C53_two_robots (r1 r2 : Robot α) (n1 n2 : String) (hne : n1 ≠ n2) (hw1 : ¬ "world".toList <+: n1.toList)
    (hw2 : ¬ "world".toList <+: n2.toList) (hn1 : r1.jointNames = none) (hn2 : r2.jointNames = none)
    (s1 s2 : Option String) (o1 o2 : Option (PluginOverride α)) (env : SGraph α) (links joints : List String)
    (h1 : robotToEnv r1 n1 true s1 o1 = .ok (env, links, joints)) (c : EnvCommands α) (h2 : envCommands r2 n2 false s2 o2 = .ok c) :
    ∃ env2, c.apply env = some env2 ∧ env2.links = env.links ++ c.linkNames ∧ (∀ j ∈ env.joints, j ∈ env2.joints) ∧
      Spec.IsTree "world" env2 := by
  have htree1 := (C53_env r1 n1 s1 o1 env links joints h1).2.2.2.2.2.2
  obtain ⟨a, ha, hins, -, -⟩ := robotToEnv_contents h1
  obtain ⟨A⟩ := robotToSceneGraph_contents ha
  obtain ⟨-, -, -, -, -, -, rfl⟩ := insertWith_iff.1 hins
  obtain ⟨b, hb, e1, e2, e3, e4, e5, e6⟩ := envCommands_contents h2
  obtain ⟨B⟩ := robotToSceneGraph_contents hb
  have pre : ∀ n J m : String, ¬ "world".toList <+: n.toList → n ++ "_" ++ J ≠ "world_to_" ++ m := by
    intro n J m hn e
    rw [← String.toList_inj, String.toList_append, String.toList_append, String.toList_append] at e
    refine hn (prefix_of_append (J := J.toList) (r := "_to_".toList ++ m.toList) (by decide) ?_)
    rw [← List.append_assoc]
    simpa using e
  have happ : c.apply ⟨(worldSceneGraph : SGraph α).links ++ a.sg.links.map ((n1 ++ "_") ++ ·),
      (worldSceneGraph : SGraph α).joints ++ a.sg.joints.map (·.withPrefix (n1 ++ "_")) ++ [worldToBaseJoint r1 n1]⟩ =
      some ⟨(worldSceneGraph : SGraph α).links ++ a.sg.links.map ((n1 ++ "_") ++ ·) ++ b.sg.links.map ((n2 ++ "_") ++ ·),
      (worldSceneGraph : SGraph α).joints ++ a.sg.joints.map (·.withPrefix (n1 ++ "_")) ++ [worldToBaseJoint r1 n1] ++
        b.sg.joints.map (·.withPrefix (n2 ++ "_")) ++ [worldToBaseJoint r2 n2]⟩ := by
    unfold EnvCommands.apply
    rw [e1, e2, e3, e4]
    simp only [Bool.false_eq_true, if_false]
    refine insertWith_iff.2 ⟨by simp [worldToBaseJoint, worldSceneGraph], ?_, ?_, ?_, ?_, ?_, rfl⟩
    · rw [B.links_eq]
      exact List.mem_map.2 ⟨"base_link", by simp [sgLinkNames], (prefix_base n2).symm⟩
    · intro hmem
      simp only [worldSceneGraph, List.nil_append, List.map_append, List.map_map, List.mem_append, List.mem_map, List.map_cons,
        List.map_nil, List.mem_singleton, Function.comp, TJoint.withPrefix, worldToBaseJoint] at hmem
      rcases hmem with ⟨j, -, hj⟩ | hj
      · exact pre n1 j.name n2 hw1 hj
      · exact hne (append_inj_right hj).symm
    · intro l hl hmem
      simp only [worldSceneGraph, List.mem_append, List.mem_singleton, List.mem_map] at hmem
      rcases hmem with h | ⟨l', hl', h⟩
      · exact prefixed_ne_world n2 l h
      · rw [A.links_eq] at hl'
        rw [B.links_eq] at hl
        have i1 := sgLinkNames_isLinkName hl'
        have i2 := sgLinkNames_isLinkName hl
        rw [← String.toList_inj] at h
        simp only [String.toList_append, List.append_assoc] at h
        rcases prefixed_eq (n1 := n1.toList) (n2 := n2.toList) (a := l'.toList) (b := l.toList) (by simpa using h) with h | h | h
        · exact hne (String.toList_inj.1 h.1)
        · exact i1.no_suffix i2 h
        · exact i2.no_suffix i1 h
    · intro k hk hmem
      have i2 : IsJointName k.name := default_isJointName hn2 (m := B.m) (by
        rw [← B.all_names]; exact List.mem_map.2 ⟨k, hk, rfl⟩)
      simp only [worldSceneGraph, List.nil_append, List.map_append, List.map_map, List.mem_append, List.mem_map, List.map_cons,
        List.map_nil, List.mem_singleton, Function.comp, TJoint.withPrefix, worldToBaseJoint] at hmem
      rcases hmem with ⟨j, hj, h⟩ | h
      · have i1 : IsJointName j.name := default_isJointName hn1 (m := A.m) (by
          rw [← A.all_names]; exact List.mem_map.2 ⟨j, hj, rfl⟩)
        rw [← String.toList_inj] at h
        simp only [String.toList_append, List.append_assoc] at h
        rcases prefixed_eq (n1 := n1.toList) (n2 := n2.toList) (a := j.name.toList) (b := k.name.toList) (by simpa using h) with h | h | h
        · exact hne (String.toList_inj.1 h.1)
        · exact i1.no_suffix i2 h
        · exact i2.no_suffix i1 h
      · exact pre n2 k.name n1 hw2 h
    · intro k hk
      have i2 : IsJointName k.name := default_isJointName hn2 (m := B.m) (by
        rw [← B.all_names]; exact List.mem_map.2 ⟨k, hk, rfl⟩)
      exact prefixed_ne_world_to i2.no_w
  refine ⟨_, happ, ?_, ?_, ?_⟩
  · rw [e6, (C53_scene_graph r2 b hb).1]; rfl
  · intro j hj; exact List.mem_append_left _ (List.mem_append_left _ hj)
  · have : ∀ e, c.apply e = SGraph.insertWith e b.sg (worldToBaseJoint r2 n2) (n2 ++ "_") := by
      intro e
      unfold EnvCommands.apply
      rw [e1, e2, e3, e4]
      simp only [Bool.false_eq_true, if_false]
    rw [this] at happ
    exact IsTree.insertWith htree1 B.tree (prefix_base n2) happ

/-- C53 (false without the condition on the names): a robot named "world_to" has a joint of the same name as the joint that connects
a robot named "joint_1" to the world, so both cannot be in one environment. -/
theorem C53_two_robots_false (r1 r2 : Robot α) (hn1 : r1.jointNames = none) (s1 s2 : Option String)
    (o1 o2 : Option (PluginOverride α)) (env : SGraph α) (links joints : List String)
    (h1 : robotToEnv r1 "world_to" true s1 o1 = .ok (env, links, joints)) (c : EnvCommands α)
    (h2 : envCommands r2 "joint_1" false s2 o2 = .ok c) : c.apply env = none := by
  obtain ⟨a, ha, hins, -, -⟩ := robotToEnv_contents h1
  obtain ⟨A⟩ := robotToSceneGraph_contents ha
  obtain ⟨-, -, -, -, -, -, rfl⟩ := insertWith_iff.1 hins
  obtain ⟨b, hb, e1, e2, e3, e4, e5, e6⟩ := envCommands_contents h2
  rw [Option.eq_none_iff_forall_ne_some]
  intro e he
  unfold EnvCommands.apply at he
  rw [e1, e2, e3, e4] at he
  simp only [Bool.false_eq_true, if_false] at he
  refine (insertWith_iff.1 he).2.2.1 ?_
  have hj : "joint_1" ∈ a.sg.joints.map (·.name) := by
    rw [A.all_names]
    refine List.mem_append_left _ ?_
    unfold sgJointNames
    rw [hn1]
    exact List.mem_map.2 ⟨0, by rw [A.len]; simp, rfl⟩
  obtain ⟨j, hj, hjn⟩ := List.mem_map.1 hj
  refine List.mem_map.2 ⟨j.withPrefix ("world_to" ++ "_"), ?_, ?_⟩
  · exact List.mem_append_left _ (List.mem_append_right _ (List.mem_map.2 ⟨j, hj, rfl⟩))
  · simp only [TJoint.withPrefix, worldToBaseJoint, hjn]
    decide

end

/-- A robot with a rotary and a prismatic joint, base frame, flange and tool. -/
def exTess : Robot ℝ :=
  { H := [V3.ez, V3.ex]
    P := [⟨0, 0, 1⟩, ⟨0, 1, 0⟩, ⟨1, 0, 0⟩]
    jointType := [0, 1]
    lower := some [-1, 0]
    upper := some [1, 2]
    vel := some [3, 4]
    acc := some [5, 6]
    Rtool := some 1
    ptool := some ⟨0, 0, 1⟩
    Tflange := some ⟨⟨-1, 0, 0, 0, -1, 0, 0, 0, 1⟩, ⟨1, 2, 3⟩, none, none⟩
    Tbase := some ⟨⟨1, 0, 0, 0, -1, 0, 0, 0, -1⟩, ⟨1, 2, 3⟩, none, none⟩ }

-- the hypotheses of C52 and C53 are met: the environment can be built, under any name, also next to another robot
example : Spec.Convertible exTess ∧ (∀ h ∈ exTess.H, IsUnit3 h) ∧ (∀ F, exTess.Tflange = some F → IsRot F.R) ∧
    (∀ R, exTess.Rtool = some R → IsRot R) ∧ (∀ B, exTess.Tbase = some B → IsRot B.R) ∧
    (∃ res, robotToEnv exTess "left" true none none = .ok res) ∧
    (∃ r, robotToSceneGraph { exTess with jointNames := some ["elbow", "slide"] } = .ok r) ∧
    ¬ ∃ r, robotToSceneGraph { exTess with jointNames := some ["elbow", "tip_to_tool"] } = .ok r := by
  have hc : Spec.Convertible exTess :=
    ⟨by simp [exTess], by simp [exTess], by simp [exTess], by simp [exTess], by simp [exTess]⟩
  have h2 := (C53_default_succeeds exTess rfl "left" none none).2 ⟨hc, Or.inl rfl⟩
  refine ⟨hc, ?_, ?_, ?_, ?_, h2, ?_, ?_⟩
  · simp [exTess, IsUnit3, V3.ex, V3.ez]
  · rintro F ⟨⟩; constructor
    · ext <;> norm_num
    · norm_num [M3.det]
  · rintro F ⟨⟩; exact IsRot.one
  · rintro F ⟨⟩; constructor
    · ext <;> norm_num
    · norm_num [M3.det]
  · refine (C53_succeeds_iff { exTess with jointNames := some ["elbow", "slide"] } ⟨hc.1, hc.2, hc.3, hc.4, hc.5⟩ _ rfl).2 ?_
    refine ⟨rfl, by decide, ?_, by decide, by decide⟩
    show linkName 1 ++ "_to_chain_tip" ∉ ["elbow", "slide"]
    decide
  · intro h
    have := (C53_succeeds_iff { exTess with jointNames := some ["elbow", "tip_to_tool"] } ⟨hc.1, hc.2, hc.3, hc.4, hc.5⟩ _ rfl).1 h
    exact this.2.2.2.2 rfl rfl (by decide)

-- the names "left" and "right" can be used together
example : ("left" : String) ≠ "right" ∧ ¬ "world".toList <+: "left".toList ∧ ¬ "world".toList <+: "right".toList := by decide
