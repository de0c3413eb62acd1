import Verif.Props.TesseractWrap

/-!
# Property C112: several robots in one Tesseract environment

`robot_to_tesseract_env_commands(robot, name, include_world=False)` is documented (tesseract.py lines 362-377) as the way to add
another robot to an environment.  Here any number of robots is added one after another.
-/
set_option autoImplicit false

section
variable {α : Type} [Add α] [Sub α] [Mul α] [Div α] [Neg α] [Zero α] [One α] [LT α] [LE α]
  [DecidableLT α] [DecidableLE α] [Elem α]

/-- What `robot_to_tesseract_env_commands` is called with for one robot of a cell. -/
structure Spec.CellRobot (α : Type) where
  robot : Robot α
  name : String
  solver : Option String
  over : Option (PluginOverride α)

/-- the commands that add the robot to an environment that has a world link already -/
def Spec.CellRobot.commands (e : Spec.CellRobot α) : Except PyErr (EnvCommands α) := envCommands e.robot e.name false e.solver e.over

/-- `Cell es env`: the environment `env` has come about by adding the robots `es` one after another, the last one first in the list, to
an environment with nothing but the world link. -/
inductive Spec.Cell : List (Spec.CellRobot α) → SGraph α → Prop
  | world : Spec.Cell [] worldSceneGraph
  | robot (es : List (Spec.CellRobot α)) (env : SGraph α) (e : Spec.CellRobot α) (c : EnvCommands α) (env' : SGraph α)
      (h : Spec.Cell es env) (hc : e.commands = .ok c) (ha : c.apply env = some env') : Spec.Cell (e :: es) env'

/-! ## Helper lemmas -/

theorem apply_of_commands {e : Spec.CellRobot α} {c : EnvCommands α} (hc : e.commands = .ok c) :
    ∃ r, robotToSceneGraph e.robot = .ok r ∧ c.jointNames = prefixNames r.jointNames e.name ∧
      c.linkNames = prefixNames r.linkNames e.name ∧
      ∀ env, c.apply env = SGraph.insertWith env r.sg (worldToBaseJoint e.robot e.name) (e.name ++ "_") := by
  obtain ⟨r, hr, e1, e2, e3, e4, e5, e6⟩ := envCommands_contents hc
  refine ⟨r, hr, e5, by rw [e6]; rfl, fun env => ?_⟩
  unfold EnvCommands.apply
  rw [e1, e2, e3, e4]
  simp only [Bool.false_eq_true, if_false]

theorem commands_tip {e : Spec.CellRobot α} {c : EnvCommands α} (hc : e.commands = .ok c) :
    c.chain.1 = "world" ∧ c.chain.2 = e.name ++ "_" ++ sgTip e.robot := by
  unfold Spec.CellRobot.commands envCommands at hc
  obtain ⟨r, hr, hc⟩ := Except.bind_eq_ok hc
  obtain ⟨tip, ht, hc⟩ := Except.bind_eq_ok hc
  obtain ⟨info, -, hc⟩ := Except.bind_eq_ok hc
  cases hc
  obtain ⟨C⟩ := robotToSceneGraph_contents hr
  have hl : (prefixNames r.linkNames e.name).getLast? = some (e.name ++ "_" ++ sgTip e.robot) := by
    rw [C.linkNames_eq, prefixNames_eq, List.getLast?_map, sgLinkNames_getLast?]; rfl
  rw [hl] at ht
  cases ht
  exact ⟨rfl, rfl⟩

theorem Spec.Cell.tree {es : List (Spec.CellRobot α)} {env : SGraph α} (h : Spec.Cell es env) : Spec.IsTree "world" env := by
  induction h with
  | world => exact worldTree
  | robot es env e c env' h hc ha ih =>
    obtain ⟨r, hr, -, -, happ⟩ := apply_of_commands hc
    obtain ⟨C⟩ := robotToSceneGraph_contents hr
    rw [happ] at ha
    exact IsTree.insertWith ih C.tree (prefix_base e.name) ha

/-- the joints that a robot brings into the environment -/
def Spec.CellRobot.joints (e : Spec.CellRobot α) (r : SgResult α) : List (TJoint α) :=
  r.sg.joints.map (·.withPrefix (e.name ++ "_")) ++ [worldToBaseJoint e.robot e.name]

theorem Spec.Cell.split {es : List (Spec.CellRobot α)} {env : SGraph α} {e : Spec.CellRobot α} (h : Spec.Cell (e :: es) env) :
    ∃ env0 r, Spec.Cell es env0 ∧ robotToSceneGraph e.robot = .ok r ∧
      (∀ c, e.commands = .ok c → c.jointNames = prefixNames r.jointNames e.name ∧ c.linkNames = prefixNames r.linkNames e.name) ∧
      (∃ c, e.commands = .ok c) ∧
      SGraph.insertWith env0 r.sg (worldToBaseJoint e.robot e.name) (e.name ++ "_") = some env ∧
      env.links = env0.links ++ r.sg.links.map ((e.name ++ "_") ++ ·) ∧ env.joints = env0.joints ++ e.joints r := by
  cases h with
  | robot _ env0 _ c _ h hc ha =>
    obtain ⟨r, hr, h1, h2, happ⟩ := apply_of_commands hc
    rw [happ] at ha
    refine ⟨env0, r, h, hr, ?_, ⟨c, hc⟩, ha, ?_⟩
    · intro c' hc'
      rw [hc] at hc'
      cases hc'
      exact ⟨h1, h2⟩
    · obtain ⟨-, -, -, -, -, -, rfl⟩ := insertWith_iff.1 ha
      exact ⟨rfl, by simp only [Spec.CellRobot.joints, List.append_assoc]⟩

theorem Spec.Cell.mem {es : List (Spec.CellRobot α)} {env : SGraph α} (h : Spec.Cell es env) {e : Spec.CellRobot α} (he : e ∈ es) :
    ∃ r c, robotToSceneGraph e.robot = .ok r ∧ e.commands = .ok c ∧ c.jointNames = prefixNames r.jointNames e.name ∧
      c.linkNames = prefixNames r.linkNames e.name ∧ ∀ j ∈ e.joints r, j ∈ env.joints := by
  induction es generalizing env with
  | nil => cases he
  | cons x es ih =>
    obtain ⟨env0, r, h0, hr, hn, ⟨c, hc⟩, -, -, hj⟩ := h.split
    rcases List.mem_cons.1 he with rfl | he
    · exact ⟨r, c, hr, hc, (hn c hc).1, (hn c hc).2, fun j hjm => by rw [hj]; exact List.mem_append_right _ hjm⟩
    · obtain ⟨r', c', h1, h2, h3, h4, h5⟩ := ih h0 he
      exact ⟨r', c', h1, h2, h3, h4, fun j hjm => by rw [hj]; exact List.mem_append_left _ (h5 j hjm)⟩

theorem Spec.Cell.links_mem {es : List (Spec.CellRobot α)} {env : SGraph α} (h : Spec.Cell es env) {l : String} (hl : l ∈ env.links) :
    l = "world" ∨ ∃ e ∈ es, ∃ k, IsLinkName k ∧ l = e.name ++ "_" ++ k := by
  induction es generalizing env with
  | nil =>
    cases h
    exact Or.inl (by simpa [worldSceneGraph] using hl)
  | cons x es ih =>
    obtain ⟨env0, r, h0, hr, -, -, -, hk, -⟩ := h.split
    obtain ⟨C⟩ := robotToSceneGraph_contents hr
    rw [hk] at hl
    rcases List.mem_append.1 hl with hl | hl
    · rcases ih h0 hl with h | ⟨e, he, k, hk⟩
      · exact Or.inl h
      · exact Or.inr ⟨e, List.mem_cons_of_mem _ he, k, hk⟩
    · obtain ⟨k, hk, rfl⟩ := List.mem_map.1 hl
      rw [C.links_eq] at hk
      exact Or.inr ⟨x, List.mem_cons_self, k, sgLinkNames_isLinkName hk, rfl⟩

theorem Spec.Cell.joints_mem {es : List (Spec.CellRobot α)} {env : SGraph α} (h : Spec.Cell es env)
    (hn : ∀ e ∈ es, e.robot.jointNames = none) {l : String} (hl : l ∈ env.joints.map (·.name)) :
    ∃ e ∈ es, l = "world_to_" ++ e.name ∨ ∃ k, IsJointName k ∧ l = e.name ++ "_" ++ k := by
  induction es generalizing env with
  | nil =>
    cases h
    simp [worldSceneGraph] at hl
  | cons x es ih =>
    obtain ⟨env0, r, h0, hr, -, -, -, -, hj⟩ := h.split
    obtain ⟨C⟩ := robotToSceneGraph_contents hr
    rw [hj, List.map_append] at hl
    rcases List.mem_append.1 hl with hl | hl
    · obtain ⟨e, he, h⟩ := ih h0 (fun e he => hn e (List.mem_cons_of_mem _ he)) hl
      exact ⟨e, List.mem_cons_of_mem _ he, h⟩
    · refine ⟨x, List.mem_cons_self, ?_⟩
      simp only [Spec.CellRobot.joints, List.map_append, List.map_map, List.map_cons, List.map_nil, List.mem_append, List.mem_map,
        Function.comp, TJoint.withPrefix, List.mem_singleton, worldToBaseJoint] at hl
      rcases hl with ⟨j, hj, rfl⟩ | rfl
      · refine Or.inr ⟨j.name, default_isJointName (hn x List.mem_cons_self) (m := C.m) ?_, rfl⟩
        rw [← C.all_names]
        exact List.mem_map.2 ⟨j, hj, rfl⟩
      · exact Or.inl rfl

/-! ## C112: adding robots -/

/-- C112: `robot_to_tesseract_env(robot, name)` is the environment of a cell with this robot alone. -/
theorem C112_first (e : Spec.CellRobot α) (env : SGraph α) :
    (∃ links joints, robotToEnv e.robot e.name true e.solver e.over = .ok (env, links, joints)) ↔ Spec.Cell [e] env := by
  have key : ∀ w, envCommands e.robot e.name w e.solver e.over = (envCommands e.robot e.name false e.solver e.over).map fun c =>
      { c with world := w, linkNames := if w then "world" :: c.linkNames else c.linkNames } := by
    intro w
    unfold envCommands
    cases robotToSceneGraph e.robot with
    | error x => rfl
    | ok r =>
      simp only [Except.bind_ok]
      cases orElseGet none (prefixNames r.linkNames e.name).getLast? with
      | error x => rfl
      | ok t =>
        simp only [Except.bind_ok]
        cases pluginInfoDict e.robot e.name (prefixNames r.linkNames e.name) (prefixNames r.chainNames e.name) e.solver e.over
            (some "world") (some t) with
        | error x => rfl
        | ok i => rfl
  constructor
  · rintro ⟨links, joints, h⟩
    unfold robotToEnv at h
    rw [key] at h
    cases hc : envCommands e.robot e.name false e.solver e.over with
    | error x => rw [hc] at h; cases h
    | ok c =>
      rw [hc] at h
      refine .robot [] worldSceneGraph e c env .world hc ?_
      obtain ⟨r, hr, -, -, happ⟩ := apply_of_commands (e := e) hc
      have hw := (envCommands_contents hc).choose_spec.2.1
      simp only [Except.map, Except.bind_ok, EnvCommands.apply, if_true, SGraph.empty] at h
      simp only [EnvCommands.apply, hw, Bool.false_eq_true, if_false]
      cases hi : SGraph.insertWith worldSceneGraph c.sg c.joint c.pre with
      | none => rw [hi] at h; cases h
      | some x => rw [hi] at h; cases h; rfl
  · intro h
    cases h with
    | robot _ env0 _ c _ h hc ha =>
      cases h
      have hc' : envCommands e.robot e.name false e.solver e.over = .ok c := hc
      have hw := (envCommands_contents hc').choose_spec.2.1
      simp only [EnvCommands.apply, hw, Bool.false_eq_true, if_false] at ha
      unfold robotToEnv
      rw [key, hc']
      simp only [Except.map, Except.bind_ok, EnvCommands.apply, if_true, SGraph.empty, ha]
      exact ⟨_, _, rfl⟩

/-- C112: a name that is in use already is refused, whatever the robot. -/
theorem C112_name_taken (es : List (Spec.CellRobot α)) (env : SGraph α) (h : Spec.Cell es env) (e : Spec.CellRobot α)
    (hn : e.name ∈ es.map (·.name)) (c : EnvCommands α) (hc : e.commands = .ok c) : c.apply env = none := by
  obtain ⟨r, hr, -, -, happ⟩ := apply_of_commands hc
  obtain ⟨x, hx, hxn⟩ := List.mem_map.1 hn
  obtain ⟨r', c', hr', -, -, -, hj⟩ := h.mem hx
  rw [happ, Option.eq_none_iff_forall_ne_some]
  intro env' ha
  refine (insertWith_iff.1 ha).2.2.1 (List.mem_map.2 ⟨worldToBaseJoint x.robot x.name, hj _ ?_, ?_⟩)
  · exact List.mem_append_right _ (List.mem_singleton.2 rfl)
  · simp [worldToBaseJoint, hxn]

/-- C112: robots without joint names of their own can be put together exactly if each of them can be converted and no two of them
have the same name; no name may start with "world". -/
theorem C112_succeeds_iff (es : List (Spec.CellRobot α)) (hn : ∀ e ∈ es, e.robot.jointNames = none)
    (hw : ∀ e ∈ es, ¬ "world".toList <+: e.name.toList) :
    (∃ env, Spec.Cell es env) ↔ (es.map (·.name)).Nodup ∧ ∀ e ∈ es, ∃ c, e.commands = .ok c := by
  constructor
  · rintro ⟨env, h⟩
    induction h with
    | world => exact ⟨List.nodup_nil, by simp⟩
    | robot es env e c env' h hc ha ih =>
      obtain ⟨i1, i2⟩ := ih (fun x hx => hn x (List.mem_cons_of_mem _ hx)) (fun x hx => hw x (List.mem_cons_of_mem _ hx))
      refine ⟨?_, ?_⟩
      · rw [List.map_cons, List.nodup_cons]
        refine ⟨fun hm => ?_, i1⟩
        rw [C112_name_taken es env h e hm c hc] at ha
        cases ha
      · intro x hx
        rcases List.mem_cons.1 hx with rfl | hx
        · exact ⟨c, hc⟩
        · exact i2 x hx
  · rintro ⟨hnd, hcs⟩
    induction es with
    | nil => exact ⟨_, .world⟩
    | cons e es ih =>
      have hn' : ∀ x ∈ es, x.robot.jointNames = none := fun x hx => hn x (List.mem_cons_of_mem _ hx)
      rw [List.map_cons, List.nodup_cons] at hnd
      obtain ⟨env, h⟩ := ih hn' (fun x hx => hw x (List.mem_cons_of_mem _ hx)) hnd.2
        (fun x hx => hcs x (List.mem_cons_of_mem _ hx))
      obtain ⟨c, hc⟩ := hcs e List.mem_cons_self
      obtain ⟨r, hr, -, -, happ⟩ := apply_of_commands hc
      obtain ⟨C⟩ := robotToSceneGraph_contents hr
      have hne : ∀ x ∈ es, x.name ≠ e.name := fun x hx he => hnd.1 (List.mem_map.2 ⟨x, hx, he⟩)
      have pre : ∀ n J m : String, ¬ "world".toList <+: n.toList → n ++ "_" ++ J ≠ "world_to_" ++ m := by
        intro n J m hn e
        rw [← String.toList_inj, String.toList_append, String.toList_append, String.toList_append] at e
        refine hn (prefix_of_append (J := J.toList) (r := "_to_".toList ++ m.toList) (by decide) ?_)
        rw [← List.append_assoc]
        simpa using e
      have hjn : ∀ k ∈ r.sg.joints, IsJointName k.name := fun k hk =>
        default_isJointName (hn e List.mem_cons_self) (m := C.m) (by rw [← C.all_names]; exact List.mem_map.2 ⟨k, hk, rfl⟩)
      have hins := (insertWith_iff (env := env) (sg := r.sg) (j := worldToBaseJoint e.robot e.name) (pre := e.name ++ "_")).2
        ⟨by simpa [worldToBaseJoint] using h.tree.root_mem, by
            rw [C.links_eq]; exact List.mem_map.2 ⟨"base_link", by simp [sgLinkNames], (prefix_base e.name).symm⟩, by
            intro hm
            obtain ⟨x, hx, hx'⟩ := h.joints_mem hn' hm
            rcases hx' with hx' | ⟨k, -, hk⟩
            · exact hne x hx (append_inj_right (show "world_to_" ++ e.name = "world_to_" ++ x.name from hx')).symm
            · exact pre x.name k e.name (hw x (List.mem_cons_of_mem _ hx)) hk.symm, by
            intro l hl hm
            rw [C.links_eq] at hl
            have i2 := sgLinkNames_isLinkName hl
            rcases h.links_mem hm with hm | ⟨x, hx, k, i1, hm⟩
            · exact prefixed_ne_world e.name l hm
            · rw [← String.toList_inj] at hm
              simp only [String.toList_append, List.append_assoc] at hm
              rcases prefixed_eq (n1 := x.name.toList) (n2 := e.name.toList) (a := k.toList) (b := l.toList)
                (by simpa using hm.symm) with h | h | h
              · exact hne x hx (String.toList_inj.1 h.1)
              · exact i1.no_suffix i2 h
              · exact i2.no_suffix i1 h, by
            intro k hk hm
            have i2 := hjn k hk
            obtain ⟨x, hx, hx'⟩ := h.joints_mem hn' hm
            rcases hx' with hx' | ⟨k', i1, hm⟩
            · exact pre e.name k.name x.name (hw e List.mem_cons_self) hx'
            · rw [← String.toList_inj] at hm
              simp only [String.toList_append, List.append_assoc] at hm
              rcases prefixed_eq (n1 := x.name.toList) (n2 := e.name.toList) (a := k'.toList) (b := k.name.toList)
                (by simpa using hm.symm) with h | h | h
              · exact hne x hx (String.toList_inj.1 h.1)
              · exact i1.no_suffix i2 h
              · exact i2.no_suffix i1 h, fun k hk => prefixed_ne_world_to (hjn k hk).no_w, rfl⟩
      exact ⟨_, .robot es env e c _ h hc ((happ env).trans hins)⟩

theorem Spec.Cell.apart {es : List (Spec.CellRobot α)} {env : SGraph α} (h : Spec.Cell es env) :
    es.Pairwise fun e e' => ∀ r r', robotToSceneGraph e.robot = .ok r → robotToSceneGraph e'.robot = .ok r' →
      ∀ j ∈ e.joints r, ∀ j' ∈ e'.joints r', j.name ≠ j'.name := by
  induction es generalizing env with
  | nil => exact .nil
  | cons e es ih =>
    have hnd := h.tree.names_nodup
    obtain ⟨env0, r, h0, hr, -, -, -, -, hj⟩ := h.split
    refine List.pairwise_cons.2 ⟨?_, ih h0⟩
    intro e' he' r1 r2 h1 h2 j hjm j' hjm' heq
    rw [hr] at h1
    cases h1
    obtain ⟨r', -, hr', -, -, -, hmem⟩ := h0.mem he'
    rw [h2] at hr'
    cases hr'
    rw [hj, List.map_append, List.nodup_append] at hnd
    exact hnd.2.2 _ (List.mem_map.2 ⟨j', hmem j' hjm', rfl⟩) _ (List.mem_map.2 ⟨j, hjm, rfl⟩) heq.symm

theorem moving_mem {e : Spec.CellRobot α} {r : SgResult α} (hr : robotToSceneGraph e.robot = .ok r) {n : String}
    (hn : n ∈ prefixNames r.jointNames e.name) : ∃ j ∈ e.joints r, j.name = n := by
  rw [prefixNames_eq] at hn
  obtain ⟨m, hm, rfl⟩ := List.mem_map.1 hn
  rw [← (C53_scene_graph e.robot r hr).2.2.2.1] at hm
  obtain ⟨j, hj, rfl⟩ := List.mem_map.1 hm
  exact ⟨j.withPrefix (e.name ++ "_"), List.mem_append_left _ (List.mem_map.2 ⟨j, List.mem_of_mem_filter hj, rfl⟩), rfl⟩

/-- C112: different robots of a cell have no joint in common. -/
theorem C112_joints_apart (es : List (Spec.CellRobot α)) (env : SGraph α) (h : Spec.Cell es env) :
    es.Pairwise fun e e' => ∀ c c', e.commands = .ok c → e'.commands = .ok c' → ∀ n ∈ c.jointNames, n ∉ c'.jointNames := by
  refine h.apart.imp ?_
  intro e e' hap c c' hc hc' n hn hn'
  obtain ⟨r, hr, h1, -, -⟩ := apply_of_commands hc
  obtain ⟨r', hr', h2, -, -⟩ := apply_of_commands hc'
  rw [h1] at hn
  rw [h2] at hn'
  obtain ⟨j, hj, e1⟩ := moving_mem hr hn
  obtain ⟨j', hj', e2⟩ := moving_mem hr' hn'
  exact hap r r' hr hr' j hj j' hj' (e1.trans e2.symm)

/-- C112: joint names of the robots' own can clash although the robots' names differ: "arm" with a joint "left_wrist" and "arm_left" with a
joint "wrist" cannot be put together, in either order. -/
theorem C112_own_names_clash (e e' : Spec.CellRobot α) (names names' : List String) (hn : e.robot.jointNames = some names)
    (hn' : e'.robot.jointNames = some names') (h1 : e.name = "arm") (h2 : "left_wrist" ∈ names) (h1' : e'.name = "arm_left")
    (h2' : "wrist" ∈ names') (env : SGraph α) : ¬ Spec.Cell [e, e'] env ∧ ¬ Spec.Cell [e', e] env := by
  have key : ∀ (x : Spec.CellRobot α) (ns : List String) (c : EnvCommands α) (n : String), x.robot.jointNames = some ns → n ∈ ns →
      x.commands = .ok c → x.name ++ "_" ++ n ∈ c.jointNames := by
    intro x ns c n hx hm hc
    obtain ⟨r, hr, hj, -, -⟩ := apply_of_commands hc
    obtain ⟨C⟩ := robotToSceneGraph_contents hr
    rw [hj, prefixNames_eq, C.jointNames_eq]
    exact List.mem_map.2 ⟨n, by simpa [sgJointNames, hx] using hm, rfl⟩
  constructor <;> intro h <;> have hap := C112_joints_apart _ env h
  all_goals
    obtain ⟨-, c, -, hc, -⟩ := h.mem (e := e) (by simp)
    obtain ⟨-, c', -, hc', -⟩ := h.mem (e := e') (by simp)
    have m1 := key e names c _ hn h2 hc
    have m2 := key e' names' c' _ hn' h2' hc'
    rw [h1, show "arm" ++ "_" ++ "left_wrist" = "arm_left_wrist" from rfl] at m1
    rw [h1', show "arm_left" ++ "_" ++ "wrist" = "arm_left_wrist" from rfl] at m2
  · exact (List.pairwise_cons.1 hap).1 e' (by simp) c c' hc hc' _ m1 m2
  · exact (List.pairwise_cons.1 hap).1 e (by simp) c' c hc' hc _ m2 m1

theorem reach_prefix {js : List (TJoint α)} {root l pre : String} (h : Spec.Reach js root l) :
    Spec.Reach (js.map (·.withPrefix pre)) (pre ++ root) (pre ++ l) := by
  induction h with
  | root => exact .root
  | step j hj _ ih => exact Spec.Reach.step (j.withPrefix pre) (List.mem_map.2 ⟨j, hj, rfl⟩) ih

theorem reach_own {e : Spec.CellRobot α} {r : SgResult α} (hr : robotToSceneGraph e.robot = .ok r) {l : String}
    (hl : l ∈ prefixNames r.linkNames e.name) : Spec.Reach (e.joints r) "world" l := by
  obtain ⟨C⟩ := robotToSceneGraph_contents hr
  rw [prefixNames_eq, (C53_scene_graph e.robot r hr).1.symm] at hl
  obtain ⟨k, hk, rfl⟩ := List.mem_map.1 hl
  have h1 := reach_prefix (pre := e.name ++ "_") (C.tree.reach k hk)
  have h2 : Spec.Reach (e.joints r) "world" (e.name ++ "_base_link") :=
    Spec.Reach.step (worldToBaseJoint e.robot e.name) (List.mem_append_right _ (List.mem_singleton.2 rfl)) .root
  rw [prefix_base] at h2
  exact h2.trans (h1.mono fun j hj => List.mem_append_left _ hj)

/-- nothing hangs below the tip of a robot -/
theorem Spec.Cell.tip_last {es : List (Spec.CellRobot α)} {env : SGraph α} (h : Spec.Cell es env) {e : Spec.CellRobot α} (he : e ∈ es) :
    e.name ++ "_" ++ sgTip e.robot ∈ env.links ∧ ∀ j ∈ env.joints, j.parent ≠ e.name ++ "_" ++ sgTip e.robot := by
  induction es generalizing env with
  | nil => cases he
  | cons x es ih =>
    have hnd := h.tree.links_nodup
    obtain ⟨env0, r, h0, hr, -, -, -, hk, hj⟩ := h.split
    obtain ⟨C⟩ := robotToSceneGraph_contents hr
    rw [hk, List.nodup_append] at hnd
    obtain ⟨-, hnd2, hnd3⟩ := hnd
    have hpar : ∀ j ∈ x.joints r, j.parent = "world" ∨ j.parent ∈ (r.sg.links.dropLast).map ((x.name ++ "_") ++ ·) := by
      intro j hj
      rcases List.mem_append.1 hj with hj | hj
      · obtain ⟨k, hk, rfl⟩ := List.mem_map.1 hj
        right
        rw [← C.parents]
        exact List.mem_map.2 ⟨k.parent, List.mem_map_of_mem hk, rfl⟩
      · rw [List.mem_singleton] at hj
        subst hj
        exact Or.inl rfl
    rcases List.mem_cons.1 he with rfl | he
    · have hlast : r.sg.links.getLast? = some (sgTip e.robot) := by rw [C.links_eq, sgLinkNames_getLast?]
      have hne : r.sg.links ≠ [] := by rw [C.links_eq]; simp [sgLinkNames]
      have hd : r.sg.links = r.sg.links.dropLast ++ [sgTip e.robot] := by
        rw [List.getLast?_eq_some_getLast hne] at hlast
        conv_lhs => rw [← List.dropLast_append_getLast hne, Option.some.inj hlast]
      have hm : e.name ++ "_" ++ sgTip e.robot ∈ r.sg.links.map ((e.name ++ "_") ++ ·) :=
        List.mem_map.2 ⟨_, by rw [hd]; simp, rfl⟩
      refine ⟨by rw [hk]; exact List.mem_append_right _ hm, ?_⟩
      intro j hjm hp
      rw [hj] at hjm
      rcases List.mem_append.1 hjm with hjm | hjm
      · exact hnd3 _ (h0.tree.parent_mem j hjm) _ hm hp
      · rcases hpar j hjm with h | h
        · exact prefixed_ne_world _ _ (hp.symm.trans h)
        · rw [hp] at h
          rw [hd, List.map_append, List.nodup_append] at hnd2
          exact hnd2.2.2 _ h _ (by simp) rfl
    · obtain ⟨i1, i2⟩ := ih h0 he
      refine ⟨by rw [hk]; exact List.mem_append_left _ i1, ?_⟩
      intro j hjm hp
      rw [hj] at hjm
      rcases List.mem_append.1 hjm with hjm | hjm
      · exact i2 j hjm hp
      · rcases hpar j hjm with h | h
        · exact prefixed_ne_world _ _ (hp.symm.trans h)
        · obtain ⟨k, hk, hkk⟩ := List.mem_map.1 h
          exact hnd3 _ i1 _ (List.mem_map.2 ⟨k, List.dropLast_subset _ hk, rfl⟩) (hp.symm.trans hkk.symm)
end

/-! ## C112: moving robots -/

theorem poseIn_congr {js js' : List (TJoint ℝ)} {q q' : String → ℝ} {root l : String} {A : Iso ℝ} (h : Spec.PoseIn js q root l A)
    (hs : ∀ j ∈ js, j ∈ js') (hq : ∀ j ∈ js, q j.name = q' j.name) : Spec.PoseIn js' q' root l A := by
  induction h with
  | root => exact .root
  | step j T hj _ ih => rw [hq j hj]; exact .step j T (hs j hj) ih

/-- the robot's own requirements, as in C52 -/
structure Spec.CellRobot.Proper (e : Spec.CellRobot ℝ) : Prop where
  axes : ∀ h ∈ e.robot.H, IsUnit3 h
  flange : ∀ F, e.robot.Tflange = some F → IsRot F.R
  tool : ∀ R, e.robot.Rtool = some R → IsRot R
  base : ∀ B, e.robot.Tbase = some B → IsRot B.R

theorem cell_tip_pose {e : Spec.CellRobot ℝ} {r : SgResult ℝ} (hr : robotToSceneGraph e.robot = .ok r) (hp : e.Proper)
    {joints : List (TJoint ℝ)} (hmem : ∀ j ∈ e.joints r, j ∈ joints) (q : String → ℝ) :
    ∃ T, fwdkin e.robot ((prefixNames r.jointNames e.name).map q) true = .ok T ∧
      Spec.PoseIn joints q "world" (e.name ++ "_" ++ sgTip e.robot) ⟨T.R, T.p⟩ := by
  obtain ⟨robot, name, solver, over⟩ := e
  obtain ⟨hu, hF, hR, hB⟩ := hp
  simp only [Spec.CellRobot.joints] at hr hmem hu hF hR hB ⊢
  obtain ⟨C⟩ := robotToSceneGraph_contents hr
  obtain ⟨T, hT, hpose⟩ := sg_tip_pose C hu hF hR (joints := joints) (pre := name ++ "_")
    (fun j hj => hmem _ (List.mem_append_left _ (List.mem_map.2 ⟨j, hj, rfl⟩))) q
  have hbase := Spec.PoseIn.fixed (joints := joints) (q := q) (root := "world") (j := worldToBaseJoint robot name)
    (T := ⟨1, 0⟩) Spec.PoseIn.root (hmem _ (List.mem_append_right _ (List.mem_singleton.2 rfl))) rfl
  have hbase' : Spec.PoseIn joints q "world" (name ++ "_" ++ "base_link") (⟨1, 0⟩ * (worldToBaseJoint robot name).origin) := by
    rw [← prefix_base]; exact hbase
  have hall := hbase'.trans hpose
  have hnames : (prefixNames r.jointNames name).map q = (sgJointNames robot).map fun n => q (name ++ "_" ++ n) := by
    rw [C.jointNames_eq, prefixNames_eq, List.map_map]; rfl
  have hone : ∀ A : Iso ℝ, (⟨1, 0⟩ : Iso ℝ) * A = A := by
    intro A
    apply Iso.ext
    · simp [M3.one_mul']
    · simp only [Iso.mul_p]; ext <;> simp
  rw [hone] at hall
  cases hb : robot.Tbase with
  | none =>
    refine ⟨T, ?_, ?_⟩
    · rw [hnames]; rw [← hT]; congr 1
      cases robot; simp only at hb; subst hb; rfl
    · simp only [worldToBaseJoint, hb] at hall
      rw [show (Iso.one : Iso ℝ) = ⟨1, 0⟩ from rfl, hone] at hall
      exact hall
  | some B =>
    refine ⟨B * T, ?_, ?_⟩
    · rw [hnames]
      simp only [fwdkin, checkLimits, if_true, Except.bind_ok] at hT ⊢
      cases hP : robot.P with
      | nil => rw [hP] at hT; cases hT
      | cons P0 Ps =>
        rw [hP] at hT
        simp only at hT ⊢
        obtain ⟨x, hx, hT⟩ := Except.bind_eq_ok hT
        rw [hx]
        simp only [Except.bind_ok, Except.pure_eq, Except.ok.injEq] at hT ⊢
        rw [← hT]
        simp only [applyAux, hb]
    · simp only [worldToBaseJoint, hb, toIsometry_real (hB B hb)] at hall
      exact hall

/-- C112: in a cell with any number of robots, with any joint positions `q` of all of them, the tip of every robot is where `fwdkin`
of this robot puts it for the positions of its own joints; and no link has a second pose. -/
theorem C112_pose (es : List (Spec.CellRobot ℝ)) (env : SGraph ℝ) (h : Spec.Cell es env) (e : Spec.CellRobot ℝ) (he : e ∈ es)
    (hp : e.Proper) (q : String → ℝ) :
    ∃ c T, e.commands = .ok c ∧ fwdkin e.robot (c.jointNames.map q) true = .ok T ∧ c.chain.2 ∈ c.linkNames ∧
      Spec.PoseIn env.joints q "world" c.chain.2 ⟨T.R, T.p⟩ ∧
      ∀ l A A', Spec.PoseIn env.joints q "world" l A → Spec.PoseIn env.joints q "world" l A' → A = A' := by
  obtain ⟨r, c, hr, hc, hj, hl, hmem⟩ := h.mem he
  obtain ⟨T, hT, hpose⟩ := cell_tip_pose hr hp hmem q
  refine ⟨c, T, hc, by rw [hj]; exact hT, ?_, by rw [(commands_tip hc).2]; exact hpose, fun l A A' => h.tree.pose_unique⟩
  obtain ⟨C⟩ := robotToSceneGraph_contents hr
  rw [hl, (commands_tip hc).2, prefixNames_eq, C.linkNames_eq]
  exact List.mem_map.2 ⟨_, List.mem_of_getLast? (sgLinkNames_getLast? _), rfl⟩

/-- C112: moving one robot of a cell moves no link of any other robot. -/
theorem C112_independent (es : List (Spec.CellRobot ℝ)) (env : SGraph ℝ) (h : Spec.Cell es env) (i k : Nat) (hik : i ≠ k)
    (e e' : Spec.CellRobot ℝ) (he : es[i]? = some e) (he' : es[k]? = some e') (c c' : EnvCommands ℝ) (hc : e.commands = .ok c)
    (hc' : e'.commands = .ok c') (q q' : String → ℝ) (hq : ∀ n, n ∉ c'.jointNames → q n = q' n) (l : String) (hl : l ∈ c.linkNames) :
    ∃ A, Spec.PoseIn env.joints q "world" l A ∧ Spec.PoseIn env.joints q' "world" l A := by
  obtain ⟨r, c1, hr, hc1, -, hl1, hmem⟩ := h.mem (List.mem_of_getElem? he)
  rw [hc] at hc1
  cases hc1
  obtain ⟨r', hr', hj', -, -⟩ := apply_of_commands hc'
  have hap : ∀ j ∈ e.joints r, ∀ j' ∈ e'.joints r', j.name ≠ j'.name := by
    obtain ⟨hi, rfl⟩ := List.getElem?_eq_some_iff.1 he
    obtain ⟨hk, rfl⟩ := List.getElem?_eq_some_iff.1 he'
    have := List.pairwise_iff_getElem.1 h.apart
    rcases Nat.lt_or_gt_of_ne hik with hlt | hlt
    · exact this i k hi hk hlt r r' hr hr'
    · exact fun j hj j' hj' e => this k i hk hi hlt r' r hr' hr j' hj' j hj e.symm
  rw [hl1] at hl
  obtain ⟨A, hA⟩ := (reach_own hr hl).pose q
  refine ⟨A, poseIn_congr hA hmem (fun _ _ => rfl), poseIn_congr hA hmem fun j hj => hq _ fun hn => ?_⟩
  rw [hj'] at hn
  obtain ⟨j', hjm, hjn⟩ := moving_mem hr' hn
  exact hap j hj j' hjm hjn.symm

/-- C112: `TesseractRobot(None, name, tesseract_env=env).fwdkin(q)` in a cell with any number of robots returns what `fwdkin` of the
robot of that name returns. -/
theorem C112_fwdkin (es : List (Spec.CellRobot ℝ)) (env : TEnv ℝ) (h : Spec.Cell es env.graph) (e : Spec.CellRobot ℝ) (he : e ∈ es)
    (hp : e.Proper) (c : EnvCommands ℝ) (hc : e.commands = .ok c) (g : KinGroup ℝ) (hg : env.group e.name = some g)
    (hG : Spec.GroupOf c.chain env.graph g) (solver : Option String) (q : String → ℝ) (frames : String → Option (Iso ℝ))
    (hfr : ∀ l A, frames l = some A ↔ Spec.PoseIn env.graph.joints q "world" l A) :
    ∃ r T, TRobot.new none e.name solver (some env) = .ok r ∧ fwdkin e.robot (c.jointNames.map q) true = .ok T ∧
      r.base = "world" ∧ r.tip = c.chain.2 ∧ r.fwdkin frames none none = .ok ⟨T.R, T.p, none, none⟩ := by
  obtain ⟨c', T, hc', hT, -, hpose, -⟩ := C112_pose es env.graph h e he hp q
  rw [hc] at hc'
  cases hc'
  obtain ⟨t, ts, hts⟩ := List.exists_cons_of_ne_nil hG.nonempty
  have htt : t = c.chain.2 := by
    have hr := hG.below t (by rw [hts]; exact List.mem_cons_self)
    have hno := (h.tip_last he).2
    rw [← (commands_tip hc).2] at hno
    clear hts
    induction hr with
    | root => rfl
    | step j hj _ ih => exact absurd ih (hno j hj)
  refine ⟨⟨env.graph, e.name, g.base, t⟩, T, ?_, hT, by rw [hG.base, (commands_tip hc).1], htt, ?_⟩
  · unfold TRobot.new
    simp [hg, hts, pyAssert, getI]
  · unfold TRobot.fwdkin
    rw [← htt, ← hfr] at hpose
    simp only [Option.getD_none, hpose]
    rfl

/-! ## Examples -/

theorem exTess_commands (name : String) : ∃ c, (⟨exTess, name, none, none⟩ : Spec.CellRobot ℝ).commands = .ok c := by
  have hc : Spec.Convertible exTess :=
    ⟨by simp [exTess], by simp [exTess], by simp [exTess], by simp [exTess], by simp [exTess]⟩
  obtain ⟨⟨env, links, joints⟩, h⟩ := (C53_default_succeeds exTess rfl name none none).2 ⟨hc, Or.inl rfl⟩
  obtain ⟨-, -, -, -, -, h, -⟩ := ((C112_first ⟨exTess, name, none, none⟩ env).1 ⟨links, joints, h⟩).split
  exact h

-- three robots, one of them named after the beginning of another one's name, fit into one environment; each of them is as C112 needs
-- it; a fourth one named like the first is refused
example : ∃ env, Spec.Cell [⟨exTess, "left", none, none⟩, ⟨exTess, "left_link", none, none⟩, ⟨exTess, "right", none, none⟩] env ∧
    (⟨exTess, "left", none, none⟩ : Spec.CellRobot ℝ).Proper ∧
    ∀ c, (⟨exTess, "right", none, none⟩ : Spec.CellRobot ℝ).commands = .ok c → c.apply env = none := by
  obtain ⟨env, h⟩ := (C112_succeeds_iff (α := ℝ)
    [⟨exTess, "left", none, none⟩, ⟨exTess, "left_link", none, none⟩, ⟨exTess, "right", none, none⟩]
    (by simp [exTess]) (by simp)).2 ⟨by simp, by simp [exTess_commands]⟩
  refine ⟨env, h, ⟨?_, ?_, ?_, ?_⟩, fun c hc => C112_name_taken _ env h _ (by simp) c hc⟩
  · simp [exTess, IsUnit3, V3.ex, V3.ez]
  · rintro F ⟨⟩; constructor
    · ext <;> norm_num
    · norm_num [M3.det]
  · rintro F ⟨⟩; exact IsRot.one
  · rintro F ⟨⟩; constructor
    · ext <;> norm_num
    · norm_num [M3.det]
