import Verif.Lemmas.SceneGraph

/-! Auxiliary lemmas: when `robot_to_scene_graph` succeeds, and which names it uses. -/
set_option autoImplicit false

section
variable {α : Type} [Add α] [Sub α] [Mul α] [Div α] [Neg α] [Zero α] [One α] [LT α] [LE α]
  [DecidableLT α] [DecidableLE α] [Elem α]

theorem ChainJs.names {i : Nat} {parent : String} {ts : List Nat} {H P : List (V3 α)} {names : List String}
    {lims : List (TLimits α)} {js : List (TJoint α)} (h : ChainJs i parent ts H P names lims js) (hl : names.length = ts.length) :
    js.map (·.name) = names ∧ (∀ j ∈ js, j.type ≠ .fixed) ∧ (∀ t ∈ ts, t = 0 ∨ t = 1) ∧ js.map (·.limits) = lims.map some := by
  induction h with
  | nil i parent H P names =>
    refine ⟨?_, by simp, by simp, rfl⟩
    have : names = [] := List.eq_nil_of_length_eq_zero (by simpa using hl)
    rw [this]; rfl
  | cons i parent t ht ts h p H P nm names lim lims js hr ih =>
    obtain ⟨h1, h2, h3, h4⟩ := ih (by simpa using hl)
    refine ⟨by simp [h1], ?_, ?_, by simp [h4]⟩
    · intro j hj
      rcases List.mem_cons.1 hj with rfl | hj
      · simp only [tType]; split_ifs <;> simp
      · exact h2 j hj
    · intro s hs
      rcases List.mem_cons.1 hs with rfl | hs
      · exact ht
      · exact h3 s hs

/-- The names of the fixed joints of a robot with `m + 1` joints. -/
def fixedNames (robot : Robot α) (m : Nat) : List String :=
  [linkName m ++ "_to_chain_tip"] ++ (if robot.Tflange.isSome then ["tip_to_flange"] else []) ++
    (if robot.Rtool.isSome ∧ robot.ptool.isSome then ["tip_to_tool"] else [])

theorem flangeJs_names (robot : Robot α) :
    (flangeJs robot).map (·.name) = (if robot.Tflange.isSome then ["tip_to_flange"] else []) := by
  unfold flangeJs
  cases robot.Tflange <;> rfl

theorem toolJs_names (robot : Robot α) :
    (toolJs robot).map (·.name) = (if robot.Rtool.isSome ∧ robot.ptool.isSome then ["tip_to_tool"] else []) := by
  unfold toolJs
  cases robot.Rtool <;> cases robot.ptool <;> rfl

theorem SgContents.all_names {robot : Robot α} {r : SgResult α} (C : SgContents robot r) :
    r.sg.joints.map (·.name) = sgJointNames robot ++ fixedNames robot C.m := by
  rw [C.joints_eq]
  simp only [List.map_append, List.map_cons, List.map_nil, flangeJs_names, toolJs_names, fixedNames]
  rw [(C.chain.names (by rw [C.names_len, C.len])).1]
  simp [getFixedJoint]

/-- `flange` and `tool` cannot be refused for their link names -/
theorem links_fresh (n : Nat) :
    "chain_tip" ∉ ["base_link"] ++ (List.range n).map linkName ∧
    "flange" ∉ ["base_link"] ++ (List.range n).map linkName ++ ["chain_tip"] ∧
    "tool_tcp" ∉ ["base_link"] ++ (List.range n).map linkName ++ ["chain_tip"] ++ ["flange"] := by
  have h : ∀ i s, s ∈ ["chain_tip", "flange", "tool_tcp"] → linkName i ≠ s := by
    intro i s hs e
    rw [← String.toList_inj, linkName_toList] at e
    simp only [List.mem_cons, List.not_mem_nil, or_false] at hs
    rcases hs with rfl | rfl | rfl <;> simp at e
  refine ⟨?_, ?_, ?_⟩ <;> simp
  · exact fun i _ => h i _ (by simp)
  · exact fun i _ => h i _ (by simp)
  · exact fun i _ => h i _ (by simp)

theorem sgFlange_succeeds {robot : Robot α} {sg : SGraph α} {names : List String}
    (h1 : "flange" ∉ sg.links) (h2 : "chain_tip" ∈ sg.links)
    (h3 : robot.Tflange.isSome → "tip_to_flange" ∉ sg.joints.map (·.name)) :
    sgFlange robot sg "chain_tip" names =
      .ok (⟨sg.links ++ flangeLs robot, sg.joints ++ flangeJs robot⟩, tipF robot, names ++ flangeLs robot) := by
  unfold sgFlange flangeLs flangeJs tipF
  cases hT : robot.Tflange with
  | none => simp
  | some T =>
    have := (addLinkJoint_iff (sg := sg) (l := "flange") (j := getFixedJoint T "flange" "tip_to_flange" "chain_tip")
      (sg' := ⟨sg.links ++ ["flange"], sg.joints ++ [getFixedJoint T "flange" "tip_to_flange" "chain_tip"]⟩)).2
      ⟨h1, h3 (by simp [hT]), by simp [getFixedJoint, h2], by simp [getFixedJoint], rfl⟩
    simp [this, Except.bind_ok, Except.pure_eq]

theorem sgTool_succeeds {robot : Robot α} {sg : SGraph α} {names : List String}
    (h1 : "tool_tcp" ∉ sg.links) (h2 : tipF robot ∈ sg.links)
    (h3 : robot.Rtool.isSome → robot.ptool.isSome → "tip_to_tool" ∉ sg.joints.map (·.name)) :
    ∃ r, sgTool robot sg (tipF robot) names = .ok r := by
  unfold sgTool
  cases hR : robot.Rtool with
  | none => exact ⟨_, rfl⟩
  | some R =>
    cases hp : robot.ptool with
    | none => exact ⟨_, rfl⟩
    | some p =>
      have := (addLinkJoint_iff (sg := sg) (l := "tool_tcp") (j := getFixedJoint ⟨R, p, none, none⟩ "tool_tcp" "tip_to_tool" (tipF robot))
        (sg' := ⟨sg.links ++ ["tool_tcp"], sg.joints ++ [getFixedJoint ⟨R, p, none, none⟩ "tool_tcp" "tip_to_tool" (tipF robot)]⟩)).2
        ⟨h1, h3 (by simp [hR]) (by simp [hp]), by simp [getFixedJoint, h2], by simp [getFixedJoint], rfl⟩
      simp [this, Except.bind_ok, Except.pure_eq]

/-- What `robot_to_scene_graph` needs apart from usable names: at least one joint, rotary and prismatic joints only, arrays long
enough, and all four kinds of limits. -/
structure Spec.Convertible (robot : Robot α) : Prop where
  pos : robot.jointType ≠ []
  types : ∀ t ∈ robot.jointType, t = 0 ∨ t = 1
  lenH : robot.jointType.length ≤ robot.H.length
  lenP : robot.jointType.length < robot.P.length
  lims : ∀ x ∈ [robot.lower, robot.upper, robot.vel, robot.acc], ∃ l, x = some l ∧ robot.jointType.length ≤ l.length

theorem robotToSceneGraph_succeeds {robot : Robot α} (hc : Spec.Convertible robot) {m : Nat} (hm : robot.jointType.length = m + 1)
    (hl : (sgJointNames robot).length = m + 1) (hn : (sgJointNames robot ++ fixedNames robot m).Nodup) :
    ∃ r, robotToSceneGraph robot = .ok r := by
  obtain ⟨lo, elo, llo⟩ := hc.lims _ (List.mem_cons_self)
  obtain ⟨up, eup, lup⟩ := hc.lims _ (List.mem_cons_of_mem _ List.mem_cons_self)
  obtain ⟨ve, eve, lve⟩ := hc.lims _ (List.mem_cons_of_mem _ (List.mem_cons_of_mem _ List.mem_cons_self))
  obtain ⟨ac, eac, lac⟩ := hc.lims _ (List.mem_cons_of_mem _ (List.mem_cons_of_mem _ (List.mem_cons_of_mem _ List.mem_cons_self)))
  rw [List.nodup_append] at hn
  obtain ⟨hn1, hn2, hn3⟩ := hn
  obtain ⟨sg1, e1, n1, l1⟩ := sgLoop_succeeds (i := 0) (parent := "base_link") (sg := (⟨["base_link"], []⟩ : SGraph α)) hc.types hc.lenH
    hc.lenP.le llo lup lve lac (by rw [hl, hm]) hn1 (by simp)
    (by
      intro k _ hk
      simp only [List.mem_singleton] at hk
      rw [← String.toList_inj, linkName_toList] at hk
      simp at hk) (by simp)
  obtain ⟨pN, hpN⟩ : ∃ pN, robot.P[m + 1]? = some pN := by
    have := hc.lenP
    rw [hm] at this
    exact ⟨_, List.getElem?_eq_getElem this⟩
  simp only [List.map_nil, List.nil_append] at n1
  rw [← List.range_eq_range', hm] at l1
  obtain ⟨f1, f2, f3⟩ := links_fresh (m + 1)
  have hlast : linkName m ∈ sg1.links := by rw [l1]; simp [List.range_succ]
  have e2 := (addLinkJoint_iff (sg := sg1) (l := "chain_tip")
      (j := getFixedJoint ⟨1, pN, none, none⟩ "chain_tip" (linkName m ++ "_to_chain_tip") (linkName m))
      (sg' := ⟨sg1.links ++ ["chain_tip"], sg1.joints ++
        [getFixedJoint ⟨1, pN, none, none⟩ "chain_tip" (linkName m ++ "_to_chain_tip") (linkName m)]⟩)).2
      ⟨by rw [l1]; exact f1, by
        rw [n1]
        intro hmem
        exact hn3 _ hmem (linkName m ++ "_to_chain_tip") (by simp [fixedNames]) rfl, by simp [getFixedJoint, hlast],
        by simp [getFixedJoint], rfl⟩
  have e3 := sgFlange_succeeds (robot := robot) (names := ["base_link"] ++ (List.range (m + 1)).map linkName ++ ["chain_tip"])
    (sg := ⟨sg1.links ++ ["chain_tip"], sg1.joints ++
        [getFixedJoint ⟨1, pN, none, none⟩ "chain_tip" (linkName m ++ "_to_chain_tip") (linkName m)]⟩)
    (by rw [l1]; exact f2) (by simp) (by
      intro hF
      simp only [List.map_append, n1, List.mem_append, not_or]
      refine ⟨fun hmem => hn3 _ hmem _ (by simp [fixedNames, hF]) rfl, ?_⟩
      intro hmem
      simp only [getFixedJoint, List.map_cons, List.map_nil, List.mem_singleton] at hmem
      simp only [fixedNames, hF, if_true, List.cons_append, List.nil_append, List.nodup_cons] at hn2
      exact hn2.1 (by rw [← hmem]; simp))
  obtain ⟨r4, e4⟩ := sgTool_succeeds (robot := robot)
    (names := ["base_link"] ++ (List.range (m + 1)).map linkName ++ ["chain_tip"] ++ flangeLs robot)
    (sg := ⟨sg1.links ++ ["chain_tip"] ++ flangeLs robot, sg1.joints ++
        [getFixedJoint ⟨1, pN, none, none⟩ "chain_tip" (linkName m ++ "_to_chain_tip") (linkName m)] ++ flangeJs robot⟩)
    (by
      rw [l1]
      intro hmem
      apply f3
      simp only [List.mem_append] at hmem ⊢
      rcases hmem with h | h
      · exact Or.inl h
      · right; unfold flangeLs at h; split_ifs at h <;> simp_all)
    (by unfold tipF flangeLs; split_ifs <;> simp)
    (by
      intro hR hp
      simp only [List.map_append, n1, List.mem_append, not_or, flangeJs_names]
      refine ⟨⟨fun hmem => hn3 _ hmem _ (by simp [fixedNames, hR, hp]) rfl, ?_⟩, ?_⟩
      · intro hmem
        simp only [getFixedJoint, List.map_cons, List.map_nil, List.mem_singleton] at hmem
        simp only [fixedNames, hR, hp, and_self, if_true, List.cons_append, List.nil_append, List.nodup_cons] at hn2
        exact hn2.1 (by rw [← hmem]; simp)
      · split_ifs <;> simp)
  refine ⟨⟨r4.1, r4.2.2, sgJointNames robot, ["base_link"] ++ (List.range (m + 1)).map linkName⟩, ?_⟩
  unfold robotToSceneGraph
  rw [show (SGraph.empty : SGraph α).addLink "base_link" = .ok ⟨["base_link"], []⟩ from rfl]
  simp only [Except.bind_ok]
  rw [elo, eup, eve, eac]
  show (pyAssert ((sgJointNames robot).length == robot.jointType.length) >>= fun _ =>
    sgLoop 0 "base_link" robot.jointType robot.H robot.P (some lo) (some up) (some ve) (some ac) (sgJointNames robot) _ >>= _) = _
  have ha : pyAssert ((sgJointNames robot).length == robot.jointType.length) = .ok () := by
    rw [hl, hm]; simp [pyAssert]
  rw [ha]
  simp only [Except.bind_ok, e1, hm, getI, hpN, getLast?_range_map, orElseGet, e2, e3, e4, Except.pure_eq]
  unfold sgJointNames
  rw [hm]
  cases robot.jointNames <;> rfl

/-- The names used by a robot without joint names are distinct. -/
theorem default_nodup {robot : Robot α} (h : robot.jointNames = none) {m : Nat} (hm : robot.jointType.length = m + 1) :
    (sgJointNames robot ++ fixedNames robot m).Nodup := by
  have key : ∀ i s, s ∈ fixedNames robot m → defaultJointName i ≠ s := by
    intro i s hs e
    rw [← String.toList_inj, defaultJointName_toList] at e
    unfold fixedNames at hs
    simp only [List.mem_append, List.mem_singleton] at hs
    rcases hs with (rfl | hs) | hs
    · rw [String.toList_append, linkName_toList] at e; simp at e
    · split_ifs at hs
      · simp only [List.mem_singleton] at hs; subst hs; simp at e
      · simp at hs
    · split_ifs at hs
      · simp only [List.mem_singleton] at hs; subst hs; simp at e
      · simp at hs
  rw [List.nodup_append]
  unfold sgJointNames
  rw [h]
  refine ⟨?_, ?_, ?_⟩
  · exact List.Nodup.map (fun a b => defaultJointName_inj) List.nodup_range
  · have hL : ∀ s, s ∈ ["tip_to_flange", "tip_to_tool"] → linkName m ++ "_to_chain_tip" ≠ s := by
      intro s hs e
      rw [← String.toList_inj, String.toList_append, linkName_toList] at e
      simp only [List.mem_cons, List.not_mem_nil, or_false] at hs
      rcases hs with rfl | rfl <;> simp at e
    have := hL "tip_to_flange" (by simp)
    have := hL "tip_to_tool" (by simp)
    unfold fixedNames
    split_ifs <;> simp [*]
  · intro a ha b hb
    simp only [List.mem_map] at ha
    obtain ⟨i, -, rfl⟩ := ha
    exact key i b hb

end

section
variable {α : Type} [Add α] [Sub α] [Mul α] [Div α] [Neg α] [Zero α] [One α] [LT α] [LE α]
  [DecidableLT α] [DecidableLE α] [Elem α]

theorem ChainJs.get {i : Nat} {parent : String} {ts : List Nat} {H P : List (V3 α)} {names : List String}
    {lims : List (TLimits α)} {js : List (TJoint α)} (h : ChainJs i parent ts H P names lims js) {lo up ve ac : List α}
    (hl : LimsOf lims lo up ve ac) {k : Nat} (hk : k < ts.length) :
    ∃ j ax nm t l u v a, j ∈ js ∧ H[k]? = some ax ∧ names[k]? = some nm ∧ ts[k]? = some t ∧ lo[k]? = some l ∧ up[k]? = some u ∧
      ve[k]? = some v ∧ ac[k]? = some a ∧ j.name = nm ∧ j.axis = ax ∧ j.type = tType t ∧ (t = 0 ∨ t = 1) ∧
      j.limits = some ⟨l, u, lit 1000, v, a⟩ := by
  induction h generalizing k lo up ve ac with
  | nil i parent H P names => simp at hk
  | cons i parent t ht ts h p H P nm names lim lims js hr ih =>
    cases hl with
    | cons l u v a ls us vs as r hr' =>
      cases k with
      | zero => exact ⟨_, h, nm, t, l, u, v, a, List.mem_cons_self, rfl, rfl, rfl, rfl, rfl, rfl, rfl, rfl, rfl, rfl, ht, rfl⟩
      | succ k =>
        obtain ⟨j, ax, nm, t, l, u, v, a, hj, rest⟩ := ih hr' (k := k) (by simpa using hk)
        exact ⟨j, ax, nm, t, l, u, v, a, List.mem_cons_of_mem _ hj, rest⟩

/-- The names of the links of a scene graph. -/
theorem sgLinkNames_isLinkName {robot : Robot α} {l : String} (h : l ∈ sgLinkNames robot) : IsLinkName l := by
  unfold sgLinkNames flangeLs toolLs at h
  simp only [List.mem_append, List.mem_singleton, List.mem_map] at h
  rcases h with (((rfl | ⟨i, -, rfl⟩) | rfl) | h) | h
  · exact .base
  · exact .link i
  · exact .tip
  · split_ifs at h
    · rw [List.mem_singleton.1 h]; exact .flange
    · simp at h
  · split_ifs at h
    · rw [List.mem_singleton.1 h]; exact .tool
    · simp at h

/-- The names of the joints of the scene graph of a robot without joint names. -/
theorem default_isJointName {robot : Robot α} (hn : robot.jointNames = none) {m : Nat} {l : String}
    (h : l ∈ sgJointNames robot ++ fixedNames robot m) : IsJointName l := by
  unfold sgJointNames fixedNames at h
  rw [hn] at h
  simp only [List.mem_append, List.mem_singleton, List.mem_map] at h
  rcases h with ⟨i, -, rfl⟩ | (rfl | h) | h
  · exact .joint i
  · exact .tip m
  · split_ifs at h
    · rw [List.mem_singleton.1 h]; exact .flange
    · simp at h
  · split_ifs at h
    · rw [List.mem_singleton.1 h]; exact .tool
    · simp at h

/-- A prefixed name contains an underscore -/
theorem prefixed_ne_world (name l : String) : name ++ "_" ++ l ≠ "world" := by
  intro h
  rw [← String.toList_inj, String.toList_append, String.toList_append] at h
  have : '_' ∈ "world".toList := by rw [← h]; simp
  simp at this

theorem IsJointName.no_w {J : String} (h : IsJointName J) : 'w' ∉ J.toList := by
  have hd : ∀ n, 'w' ∉ Nat.toDigits 10 n := fun n => digits_not_mem (by decide)
  cases h <;> simp [defaultJointName_toList, linkName_toList, String.toList_append, hd]

/-- A joint of the robot without the letter w never has the name of the joint that connects the robot to the world. -/
theorem prefixed_ne_world_to {name J : String} (h : 'w' ∉ J.toList) : name ++ "_" ++ J ≠ "world_to_" ++ name := by
  intro e
  rw [← String.toList_inj, String.toList_append, String.toList_append, String.toList_append] at e
  have := congrArg (List.count 'w') e
  simp only [List.count_append, List.count_eq_zero.2 h] at this
  have h1 : List.count 'w' "_".toList = 0 := by decide
  have h2 : List.count 'w' "world_to_".toList = 1 := by decide
  omega

end
