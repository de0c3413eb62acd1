import Verif.Lemmas.SceneGraph3
import Verif.Props.Tesseract
import Verif.Props.UrdfInertia
import Verif.Props.RobotRaconteurWell

/-!
# C90: which robots can be converted to Tesseract, and what is raised for the others

`Spec.Fits` and `Spec.HasLimits` (in `Verif.Lemmas.SceneGraph3`) say which arrays of the robot are there and how long they are.
-/
set_option autoImplicit false

section
variable {α : Type} [Add α] [Sub α] [Mul α] [Div α] [Neg α] [Zero α] [One α] [LT α] [LE α]
  [DecidableLT α] [DecidableLE α] [Elem α]

/-- C90: every robot that the constructor makes is like this. -/
theorem C90_init_fits {H P : List (V3 α)} {jointType : List Nat} {lower upper vel acc : Option (List α)} {M : Option (List (M6 α))}
    {Rtool : Option (M3 α)} {ptool : Option (V3 α)} {jointNames : Option (List String)} {rootLink tipLink : Option String}
    {Tflange Tbase : Option (Transform α)} {r : Robot α}
    (h : Robot.init H P jointType lower upper vel acc M Rtool ptool jointNames rootLink tipLink Tflange Tbase = .ok r) : Spec.Fits r := by
  simp only [Robot.init] at h
  obtain ⟨-, -, h⟩ := Except.bind_eq_ok h
  obtain ⟨-, -, h⟩ := Except.bind_eq_ok h
  obtain ⟨_, h1, h⟩ := Except.bind_eq_ok h
  have e1 := pyAssert_ok h1
  simp only [Bool.and_eq_true, beq_iff_eq] at e1
  have e2 : P.length = jointType.length + 1 := by rw [← e1.1, e1.2]
  have key : ∀ {lu : Option (List α) × Option (List α)} {x : Robot α},
      (∀ l, lu.1 = some l → l.length = jointType.length) → (∀ l, lu.2 = some l → l.length = jointType.length) →
      (do
        pyAssert (lenOk vel jointType.length)
        pyAssert (lenOk acc jointType.length)
        pyAssert (lenOk M P.length)
        pyAssert (lenOk jointNames jointType.length)
        pure x : Except PyErr (Robot α)) = .ok r → x.H = H → x.P = P → x.jointType = jointType → x.lower = lu.1 → x.upper = lu.2 →
      x.vel = vel → x.acc = acc → x.jointNames = jointNames → Spec.Fits r := by
    intro lu x a b h eH eP eT el eu ev ea en
    obtain ⟨_, h3, h⟩ := Except.bind_eq_ok h
    obtain ⟨_, h4, h⟩ := Except.bind_eq_ok h
    obtain ⟨-, -, h⟩ := Except.bind_eq_ok h
    obtain ⟨_, h5, h⟩ := Except.bind_eq_ok h
    cases h
    exact ⟨by rw [eH, eT, e1.2], by rw [eP, eT, e2], by rw [eT, el]; exact a, by rw [eT, eu]; exact b,
      by rw [eT, ev]; exact lenOk_some (pyAssert_ok h3), by rw [eT, ea]; exact lenOk_some (pyAssert_ok h4),
      by rw [eT, en]; exact lenOk_some (pyAssert_ok h5)⟩
  rcases lower with _ | lo
  · exact key (lu := (none, none)) (by simp) (by simp) h rfl rfl rfl rfl rfl rfl rfl rfl
  rcases upper with _ | up
  · exact key (lu := (none, none)) (by simp) (by simp) h rfl rfl rfl rfl rfl rfl rfl rfl
  obtain ⟨_, a1, h⟩ := Except.bind_eq_ok h
  obtain ⟨_, a2, h⟩ := Except.bind_eq_ok h
  have a1 := pyAssert_ok a1
  have a2 := pyAssert_ok a2
  simp only [beq_iff_eq] at a1 a2
  exact key (lu := (some lo, some up)) (by rintro l ⟨⟩; exact a1) (by rintro l ⟨⟩; exact a2) h rfl rfl rfl rfl rfl rfl rfl rfl

/-- C90: joint names that are not as many as joints are an AssertionError (they can only be assigned after construction). -/
theorem C90_wrong_names (robot : Robot α) (names : List String) (hn : robot.jointNames = some names)
    (hl : names.length ≠ robot.jointType.length) : robotToSceneGraph robot = .error .assertion := by
  have e0 : (SGraph.empty : SGraph α).addLink "base_link" = .ok ⟨["base_link"], []⟩ := by simp [SGraph.addLink, SGraph.empty]
  unfold robotToSceneGraph
  rw [e0, Except.bind_ok, hn]
  have : pyAssert (names.length == robot.jointType.length) = .error .assertion := by simp [pyAssert, hl]
  simp only [this]
  rfl

/-- C90: a robot without joints is an IndexError. -/
theorem C90_no_joints (robot : Robot α) (hf : Spec.Fits robot) (h : robot.jointType = []) : robotToSceneGraph robot = .error .index := by
  obtain ⟨p, hp⟩ : ∃ p, robot.P = [p] := List.length_eq_one_iff.1 (by rw [hf.links, h]; rfl)
  rw [robotToSceneGraph_eq (sgNames_length hf), h, hp]
  rfl

/-- C90: if any of the four limits is missing the conversion of a robot with joints is a TypeError. -/
theorem C90_missing_limits (robot : Robot α) (hf : Spec.Fits robot) (h : robot.jointType ≠ [])
    (hm : robot.lower = none ∨ robot.upper = none ∨ robot.vel = none ∨ robot.acc = none) : robotToSceneGraph robot = .error .type := by
  rw [robotToSceneGraph_eq (sgNames_length hf)]
  have hlo := hf.lower
  have hup := hf.upper
  have hve := hf.vel
  have hac := hf.acc
  have hH := hf.axes
  have hP := hf.links
  rcases ht : robot.jointType with _ | ⟨t, ts⟩
  · exact absurd ht h
  rw [ht] at hlo hup hve hac hH hP
  rcases hx : robot.H with _ | ⟨x, H⟩
  · rw [hx] at hH; cases hH
  rcases hp : robot.P with _ | ⟨p, P⟩
  · rw [hp] at hP; cases hP
  have key : ∀ o : Option (List α), (∀ l, o = some l → l.length = (t :: ts).length) → o = none ∧ hdO o = .error .type ∨ ∃ x, hdO o = .ok x := by
    intro o ho
    rcases o with _ | ⟨_ | ⟨x, l⟩⟩
    · exact .inl ⟨rfl, rfl⟩
    · cases ho [] rfl
    · exact .inr ⟨x, rfl⟩
  have : ∀ (i : Nat) (par : String) (nm : List String) (sg : SGraph α),
      sgLoop i par (t :: ts) (x :: H) (p :: P) robot.lower robot.upper robot.vel robot.acc nm sg = .error .type := by
    intro i par nm sg
    simp only [sgLoop, hd, Except.bind_ok]
    rcases key _ hlo with ⟨-, e⟩ | ⟨a1, e⟩
    · rw [e]; rfl
    rw [e, Except.bind_ok]
    rcases key _ hup with ⟨-, e'⟩ | ⟨a2, e'⟩
    · rw [e']; rfl
    rw [e', Except.bind_ok]
    rcases key _ hve with ⟨-, e''⟩ | ⟨a3, e''⟩
    · rw [e'']; rfl
    rw [e'', Except.bind_ok]
    rcases key _ hac with ⟨-, e3⟩ | ⟨a4, e3⟩
    · rw [e3]; rfl
    exfalso
    rcases hm with hm | hm | hm | hm
    · rw [hm] at e; cases e
    · rw [hm] at e'; cases e'
    · rw [hm] at e''; cases e''
    · rw [hm] at e3; cases e3
  rw [this]
  rfl

/-- C90: a robot with joints and all four limits is converted, exactly if its joints are rotary or prismatic and its joint names
distinct from each other and from the names of the fixed joints. -/
theorem C90_converts (robot : Robot α) (hf : Spec.Fits robot) (h : robot.jointType ≠ []) (hl : Spec.HasLimits robot) :
    (∃ r, robotToSceneGraph robot = .ok r) ↔ (∀ t ∈ robot.jointType, t = 0 ∨ t = 1) ∧ ∀ names, robot.jointNames = some names →
      names.Nodup ∧ linkName (robot.jointType.length - 1) ++ "_to_chain_tip" ∉ names ∧
      (robot.Tflange.isSome → "tip_to_flange" ∉ names) ∧ (robot.Rtool.isSome → robot.ptool.isSome → "tip_to_tool" ∉ names) := by
  have hc : (∀ t ∈ robot.jointType, t = 0 ∨ t = 1) → Spec.Convertible robot := by
    intro ht
    refine ⟨h, ht, hf.axes.ge, by rw [hf.links]; omega, ?_⟩
    obtain ⟨lo, e1⟩ := Option.ne_none_iff_exists'.1 hl.lower
    obtain ⟨up, e2⟩ := Option.ne_none_iff_exists'.1 hl.upper
    obtain ⟨ve, e3⟩ := Option.ne_none_iff_exists'.1 hl.vel
    obtain ⟨ac, e4⟩ := Option.ne_none_iff_exists'.1 hl.acc
    intro x hx
    simp only [List.mem_cons, List.not_mem_nil, or_false] at hx
    rcases hx with rfl | rfl | rfl | rfl
    · exact ⟨lo, e1, (hf.lower _ e1).ge⟩
    · exact ⟨up, e2, (hf.upper _ e2).ge⟩
    · exact ⟨ve, e3, (hf.vel _ e3).ge⟩
    · exact ⟨ac, e4, (hf.acc _ e4).ge⟩
  constructor
  · rintro ⟨r, hr⟩
    have hcv := C53_needs robot r hr
    refine ⟨hcv.types, fun names hn => ?_⟩
    exact ((C53_succeeds_iff robot hcv names hn).1 ⟨r, hr⟩).2
  · rintro ⟨ht, hn⟩
    rcases e : robot.jointNames with _ | names
    · obtain ⟨m, hm⟩ : ∃ m, robot.jointType.length = m + 1 := ⟨robot.jointType.length - 1, by
        have := List.length_pos_of_ne_nil h; omega⟩
      exact robotToSceneGraph_succeeds (hc ht) hm (by rw [sgNames_length hf, hm]) (default_nodup e hm)
    · exact (C53_succeeds_iff robot (hc ht) names e).2 ⟨hf.names _ e, hn names e⟩

/-- C90: and if it is not converted, the exception is an AssertionError. -/
theorem C90_otherwise (robot : Robot α) (hf : Spec.Fits robot) (h : robot.jointType ≠ []) (hl : Spec.HasLimits robot) {e : PyErr}
    (he : robotToSceneGraph robot = .error e) : e = .assertion := by
  obtain ⟨lo, e1⟩ := Option.ne_none_iff_exists'.1 hl.lower
  obtain ⟨up, e2⟩ := Option.ne_none_iff_exists'.1 hl.upper
  obtain ⟨ve, e3⟩ := Option.ne_none_iff_exists'.1 hl.vel
  obtain ⟨ac, e4⟩ := Option.ne_none_iff_exists'.1 hl.acc
  rw [robotToSceneGraph_eq (sgNames_length hf), e1, e2, e3, e4] at he
  rcases Except.bind_eq_error he with he | ⟨sg, -, he⟩
  · exact sgLoop_outcome 0 _ _ hf.axes.ge (by rw [hf.links]; omega) (hf.lower _ e1).ge (hf.upper _ e2).ge (hf.vel _ e3).ge (hf.acc _ e4).ge
      (sgNames_length hf).ge he
  obtain ⟨p, hp⟩ : ∃ p, getI robot.P robot.jointType.length = .ok p := by
    unfold getI
    rw [List.getElem?_eq_getElem (by rw [hf.links]; omega)]
    exact ⟨_, rfl⟩
  obtain ⟨m, hm⟩ : ∃ m, robot.jointType.length = m + 1 := ⟨robot.jointType.length - 1, by
    have := List.length_pos_of_ne_nil h; omega⟩
  rw [hp, Except.bind_ok, hm, getLast?_range_map] at he
  simp only [orElseGet, Except.bind_ok] at he
  rcases Except.bind_eq_error he with he | ⟨sg2, -, he⟩
  · exact addLink_error he
  rcases Except.bind_eq_error he with he | ⟨r3, -, he⟩
  · unfold sgFlange at he
    split at he
    · cases he
    · rcases Except.bind_eq_error he with he | ⟨_, -, he⟩
      · exact addLink_error he
      · cases he
  rcases Except.bind_eq_error he with he | ⟨r4, -, he⟩
  · unfold sgTool at he
    split at he
    · rcases Except.bind_eq_error he with he | ⟨_, -, he⟩
      · exact addLink_error he
      · cases he
    · cases he
  cases he

/-- C90: what the scene graph raises, the commands, the environment and `TesseractRobot` raise too. -/
theorem C90_propagates (robot : Robot α) (e : PyErr) (h : robotToSceneGraph robot = .error e) (name : String) (w : Bool)
    (solver : Option String) (over : Option (PluginOverride α)) :
    envCommands robot name w solver over = .error e ∧ robotToEnv robot name w solver over = .error e ∧
    TRobot.init robot name solver = .error e := by
  have a : ∀ w over, envCommands robot name w solver over = .error e := by
    intro w over
    unfold envCommands
    rw [h]
    rfl
  have b : ∀ w over, robotToEnv robot name w solver over = .error e := by
    intro w over
    unfold robotToEnv
    rw [a]
    rfl
  refine ⟨a w over, b w over, ?_⟩
  unfold TRobot.init
  rw [b]
  rfl

/-- C90 is false for URDF files: no robot that the URDF loader returns can be converted.  The loader never passes acceleration limits to
the robot, and the conversion subscripts them. -/
theorem C90_urdf_false (fuel : Nat) (u : Urdf α) (root tip : Option String) (r : Robot α) (h : urdfLoad fuel u root tip = .ok r) :
    Spec.Fits r ∧ r.acc = none ∧ robotToSceneGraph r = .error (if r.jointType = [] then .index else .type) := by
  unfold urdfLoad at h
  obtain ⟨rt, -, h⟩ := Except.bind_eq_ok h
  obtain ⟨tips, -, h⟩ := Except.bind_eq_ok h
  obtain ⟨t, -, h⟩ := Except.bind_eq_ok h
  obtain ⟨chain, -, h⟩ := Except.bind_eq_ok h
  obtain ⟨js, -, h⟩ := Except.bind_eq_ok h
  split at h
  · cases h
  unfold urdfBuild at h
  obtain ⟨s, -, h⟩ := Except.bind_eq_ok h
  obtain ⟨link, -, h⟩ := Except.bind_eq_ok h
  obtain ⟨r0, h0, h⟩ := Except.bind_eq_ok h
  have hf := C90_init_fits h0
  have ha : r0.acc = none := by
    refine congrArg Robot.acc (init_ok' ?_ ?_ h0).1
    · unfold limitPair
      split <;> simp
    · unfold urdfTool
      split_ifs <;> simp
  cases h
  have hf' : Spec.Fits { r0 with effortLimit := noneIn s.effort } := ⟨hf.axes, hf.links, hf.lower, hf.upper, hf.vel, hf.acc, hf.names⟩
  refine ⟨hf', ha, ?_⟩
  split_ifs with hj
  · exact C90_no_joints _ hf' hj
  · exact C90_missing_limits _ hf' hj (.inr (.inr (.inr ha)))

end

/-- C90: robots from a Robot Raconteur document have all the arrays that the conversion needs, and only rotary and prismatic joints.
One with joints is converted exactly if the joint names of the document are distinct from each other and from those of the fixed
joints; otherwise an AssertionError is raised. -/
theorem C90_robot_raconteur (parse : String → Option XReal) (doc : Yaml XReal) (c : Int) (r : Robot XReal)
    (h : rrLoadRobot parse doc c = .ok r) : Spec.Fits r ∧ Spec.HasLimits r ∧ (∀ t ∈ r.jointType, t = 0 ∨ t = 1) ∧
    ∃ names, r.jointNames = some names ∧ (r.jointType = [] → robotToSceneGraph r = .error .index) ∧ (r.jointType ≠ [] →
      ((∃ g, robotToSceneGraph r = .ok g) ↔ names.Nodup ∧ linkName (r.jointType.length - 1) ++ "_to_chain_tip" ∉ names ∧
        "tip_to_flange" ∉ names ∧ (r.Rtool.isSome → "tip_to_tool" ∉ names)) ∧
      ((∃ g, robotToSceneGraph r = .ok g) ∨ robotToSceneGraph r = .error .assertion)) := by
  obtain ⟨A⟩ := rrLoad_accepted parse doc c r h
  obtain ⟨tool, root, tip, flange, base, hi⟩ := A.init
  have hf := C90_init_fits hi
  obtain ⟨⟨-, -, ht, h1, h2, h3, h4, hn, -, -, hfl, -⟩, -⟩ := init_ok hi
  obtain ⟨hR, hp⟩ := init_tool hi
  have hl : Spec.HasLimits r := ⟨by simp [h1], by simp [h2], by simp [h3], by simp [h4]⟩
  have hty : ∀ t ∈ r.jointType, t = 0 ∨ t = 1 := by
    intro t hx
    rw [ht] at hx
    obtain ⟨x, hx', rfl⟩ := List.mem_map.1 hx
    obtain ⟨i, -, info, j, -, -, hj⟩ := Forall₂.exists_left A.js_eq hx'
    rcases hj.type with ⟨-, e⟩ | ⟨-, e⟩
    · exact .inl e
    · exact .inr e
  refine ⟨hf, hl, hty, _, hn, C90_no_joints r hf, fun hne => ⟨?_, ?_⟩⟩
  · rw [C90_converts r hf hne hl]
    have : r.Rtool.isSome → r.ptool.isSome := by
      rw [hR, hp]; simp
    constructor
    · rintro ⟨-, hh⟩
      obtain ⟨a, b, c, d⟩ := hh _ hn
      exact ⟨a, b, c (by rw [hfl]; rfl), fun e => d e (this e)⟩
    · rintro ⟨a, b, c, d⟩
      refine ⟨hty, fun names e => ?_⟩
      rw [hn] at e
      cases e
      exact ⟨a, b, fun _ => c, fun e _ => d e⟩
  · rcases hr : robotToSceneGraph r with e | g
    · rw [C90_otherwise r hf hne hl hr]
      exact .inr rfl
    · exact .inl ⟨g, rfl⟩

/-- C90: in particular not if two of the joints that the loader reads have no name in the document. -/
theorem C90_unnamed_false (parse : String → Option XReal) (doc : Yaml XReal) (c : Int) (r : Robot XReal)
    (h : rrLoadRobot parse doc c = .ok r) (info : List (Yaml XReal)) (hi : Spec.field doc "joint_info" (.list info)) {i j : Nat}
    (hij : i < j) (hj : j < r.jointType.length) {a b : Yaml XReal} (ha : info[i]? = some a) (hb : info[j]? = some b)
    (ha' : Spec.field a "joint_identifier" .null) (hb' : Spec.field b "joint_identifier" .null) :
    robotToSceneGraph r = .error .assertion := by
  obtain ⟨-, -, -, names, hn, -, hc⟩ := C90_robot_raconteur parse doc c r h
  have hne : r.jointType ≠ [] := by rintro e; rw [e] at hj; cases hj
  obtain ⟨hc, ho⟩ := hc hne
  rcases ho with ho | ho
  swap
  · exact ho
  exfalso
  have hnd := (hc.1 ho).1
  obtain ⟨A⟩ := rrLoad_accepted parse doc c r h
  obtain ⟨tool, root, tip, flange, base, hini⟩ := A.init
  obtain ⟨⟨-, -, ht, -, -, -, -, hn', -⟩, -⟩ := init_ok hini
  rw [hn] at hn'
  cases hn'
  have hlen : r.jointType.length = A.js.length := by rw [ht, List.length_map]
  have key : ∀ {k : Nat} {x : Yaml XReal}, k < A.js.length → info[k]? = some x → Spec.field x "joint_identifier" .null →
      (A.js.map RRJoint.name)[k]? = some "" := by
    intro k x hk hx hnull
    obtain ⟨e, he⟩ : ∃ e, A.js[k]? = some e := ⟨_, List.getElem?_eq_getElem hk⟩
    have hl := A.js_eq.length_eq
    obtain ⟨info', y, f1, f2, f3⟩ := (List.forall₂_iff_get.1 A.js_eq).2 k (by omega) hk
    simp only [List.get_eq_getElem, List.getElem_range] at f2 f3
    have e1 : info' = .list info := by
      have := (item_iff _ _ _).2 f1
      rw [(item_iff _ _ _).2 hi] at this
      cases this; rfl
    subst e1
    rw [index_list, hx] at f2
    cases f2
    have en : A.js[k].name = "" := by
      rcases f3.name with ⟨-, h⟩ | ⟨z, hz, hz'⟩
      · exact h
      · have := (item_iff _ _ _).2 hz
        rw [(item_iff _ _ _).2 hnull] at this
        cases this
        rcases hz' with hz' | ⟨l, hz', -⟩ <;> cases hz'
    rw [List.getElem?_map, List.getElem?_eq_getElem hk, Option.map_some, en]
  have k1 := key (by omega) ha ha'
  have k2 := key (by omega) hb hb'
  have := (List.getElem?_inj (i := i) (j := j) (by rw [List.length_map]; omega) hnd).1 (k1.trans k2.symm)
  omega

/-! ## Examples -/

/-- the URDF file with a rotary and a prismatic joint is loaded but not converted -/
example : ∃ r, urdfLoad 5 UrdfDoc.doc none none = .ok r ∧ robotToSceneGraph r = .error .type := by
  obtain ⟨r, hr, hH⟩ := UrdfDoc.load
  refine ⟨r, hr, ?_⟩
  obtain ⟨hf, -, e⟩ := C90_urdf_false 5 _ none none r hr
  rw [e]
  have : r.jointType ≠ [] := by
    rintro h
    have := hf.axes
    rw [hH, h] at this
    cases this
  simp [this]

/-- a Robot Raconteur document with one joint is converted -/
example (parse : String → Option XReal) : ∃ r, rrLoadRobot parse (RRDoc.doc (.int 0) [RRDoc.joint "a" (.int (-1))]) 0 = .ok r ∧
    ∃ g, robotToSceneGraph r = .ok g := by
  have hr := RRDoc.load parse (.int 0) "a" (.int (-1)) (.fin (-1)) (by simp [Yaml.toFloat, RRDoc.intFin]) [] 0 (Or.inl rfl)
  refine ⟨_, hr, ?_⟩
  obtain ⟨-, -, -, names, hn, -, hc⟩ := C90_robot_raconteur parse _ _ _ hr
  cases hn
  refine (hc (by simp [RRDoc.robot])).1.2 ?_
  refine ⟨by simp, ?_, by simp, by simp⟩
  show linkName 0 ++ _ ∉ _
  decide

namespace RRDoc

/-- a joint without a name -/
def unnamed : Yaml XReal :=
  .dict [("joint_type", .str "revolute"),
    ("joint_limits", .dict [("lower", .int 0), ("upper", .int 2), ("velocity", .int 1), ("acceleration", .int 1)]),
    ("joint_identifier", .null)]

end RRDoc

/-- a document with two unnamed joints is loaded but not converted -/
example (parse : String → Option XReal) : ∃ r,
    rrLoadRobot parse (RRDoc.doc2 (RRDoc.chain2 (RRDoc.numbers2 0 1) RRDoc.axes2 RRDoc.links2) (.list [RRDoc.unnamed, RRDoc.unnamed])) 0 = .ok r ∧
    robotToSceneGraph r = .error .assertion := by
  have hj : Spec.JointData parse RRDoc.unnamed 0 (.fin 0) (.fin 2) (.fin 1) (.fin 1) "" := by
    refine ⟨.inl ⟨⟨_, rfl, by simp [List.lookup_cons]⟩, rfl⟩, ⟨_, .int 0, .int 2, .int 1, .int 1, ⟨_, rfl, by simp [List.lookup_cons]; rfl⟩,
      ⟨_, rfl, by simp [List.lookup_cons]⟩, ⟨_, rfl, by simp [List.lookup_cons]⟩, ⟨_, rfl, by simp [List.lookup_cons]⟩,
      ⟨_, rfl, by simp [List.lookup_cons]⟩, ?_, ?_, ?_, ?_⟩, .inl ⟨⟨_, rfl, by simp [List.lookup_cons]⟩, rfl⟩⟩ <;>
    · rw [← toFloat_iff]
      simp [Yaml.toFloat, RRDoc.intFin]
  have hr : ∃ r, rrLoadRobot parse (RRDoc.doc2 (RRDoc.chain2 (RRDoc.numbers2 0 1) RRDoc.axes2 RRDoc.links2) (.list [RRDoc.unnamed, RRDoc.unnamed]))
      ((0 : Nat) : Int) = .ok r ∧ r.jointType = [0, 0] := by
    refine ⟨{ H := [⟨.fin 0, .fin 0, .fin 1⟩, ⟨.fin 0, .fin 0, .fin 1⟩],
              P := [⟨.fin 0, .fin 0, .fin 0⟩, ⟨.fin 0, .fin 0, .fin 1⟩, ⟨.fin 1, .fin 0, .fin 0⟩], jointType := [0, 0],
              lower := some [.fin 0, .fin 0], upper := some [.fin 2, .fin 2], vel := some [.fin 1, .fin 1], acc := some [.fin 1, .fin 1],
              jointNames := some ["", ""], Tflange := some RRDoc.poseT },
      C88_accepts _ _ _ 0 (RRDoc.doc2_chains _ _) rfl _ ⟨⟨_, _, _, ⟨RRDoc.chain2_numbers _ _ _, RRDoc.doc2_joints _ _, RRDoc.isNums 0 1, by norm_num, by norm_num⟩, rfl⟩,
      ⟨_, RRDoc.chain2_H _ _ _, ?_⟩, ?_, ⟨_, RRDoc.chain2_P _ _ _, ?_, rfl⟩,
      ⟨_, [⟨0, .fin 0, .fin 2, .fin 1, .fin 1, ""⟩, ⟨0, .fin 0, .fin 2, .fin 1, .fin 1, ""⟩], RRDoc.doc2_joints _ _, ?_, rfl, rfl, rfl, rfl, rfl, rfl, rfl⟩,
      ⟨RRDoc.pose, _, ⟨_, rfl, by simp [List.lookup_cons]⟩, RRDoc.isPose _, rfl⟩,
      ⟨none, none, .null ⟨_, rfl, by simp [List.lookup_cons]⟩, .noTool ⟨⟨_, rfl⟩, ?_⟩, rfl, rfl⟩, .noInfo ⟨⟨_, rfl⟩, ?_⟩, .missing ⟨_, rfl⟩ ?_, rfl, rfl⟩, rfl⟩
    · have := RRDoc.isVec parse 0 0 1
      simp only [Int.cast_zero, Int.cast_one] at this
      exact .cons this (.cons this .nil)
    · simp [RRDoc.unitZ]
    · have h1 := RRDoc.isVec parse 0 0 0
      have h2 := RRDoc.isVec parse 0 0 1
      have h3 := RRDoc.isVec parse 1 0 0
      simp only [Int.cast_zero, Int.cast_one] at h1 h2 h3
      exact .cons h1 (.cons h2 (.cons h3 .nil))
    · exact .cons hj (.cons hj .nil)
    · rintro ⟨v, ⟨l, hl, h⟩, -⟩
      cases hl
      simp [List.lookup_cons] at h
    · rintro ⟨v, ⟨l, hl, h⟩, -⟩
      cases hl
      simp [List.lookup_cons] at h
    · rintro ⟨v, l, hl, h⟩
      cases hl
      simp [List.lookup_cons] at h
  obtain ⟨r, hr, ht⟩ := hr
  exact ⟨r, hr, C90_unnamed_false parse _ _ r hr _ (RRDoc.doc2_joints _ _) (i := 0) (j := 1) (by omega) (by rw [ht]; simp) rfl rfl
    ⟨_, rfl, by simp [List.lookup_cons]⟩ ⟨_, rfl, by simp [List.lookup_cons]⟩⟩

/-- robots that meet the other hypotheses -/
example : robotToSceneGraph ({ H := [⟨0, 0, 1⟩], P := [0, 0], jointType := [0], jointNames := some [] } : Robot ℝ) = .error .assertion :=
  C90_wrong_names _ [] rfl (by simp)

example : Spec.Fits ({ H := [], P := [0], jointType := [] } : Robot ℝ) := ⟨rfl, rfl, by simp, by simp, by simp, by simp, by simp⟩

example : Spec.Fits ({ H := [⟨0, 0, 1⟩], P := [0, 0], jointType := [0], lower := some [-1], upper := some [1], vel := some [1] } : Robot ℝ) :=
  ⟨rfl, rfl, by simp, by simp, by simp, by simp, by simp⟩

/-- two joints with the same name -/
example : ∃ r : Robot ℝ, Spec.Fits r ∧ r.jointType ≠ [] ∧ Spec.HasLimits r ∧ robotToSceneGraph r = .error .assertion := by
  obtain ⟨r, hr⟩ : ∃ r : Robot ℝ, r =
      { H := [⟨0, 0, 1⟩, ⟨0, 0, 1⟩], P := [0, 0, 0], jointType := [0, 0], lower := some [-1, -1], upper := some [1, 1],
        vel := some [1, 1], acc := some [1, 1], jointNames := some ["a", "a"] } := ⟨_, rfl⟩
  have hf : Spec.Fits r := by subst hr; exact ⟨rfl, rfl, by simp, by simp, by simp, by simp, by simp⟩
  have hl : Spec.HasLimits r := by subst hr; exact ⟨by simp, by simp, by simp, by simp⟩
  have ht : r.jointType ≠ [] := by subst hr; simp
  refine ⟨r, hf, ht, hl, ?_⟩
  rcases h : robotToSceneGraph r with e | g
  · rw [C90_otherwise r hf ht hl h]
  · have := ((C90_converts r hf ht hl).1 ⟨g, h⟩).2 ["a", "a"] (by rw [hr])
    simp at this
