import Verif.Props.Tesseract
import Verif.Props.TesseractMisc
import Verif.Props.TesseractParams

/-! # Properties C53, C54: the kinematics information of `robot_to_tesseract_env_commands` refers to the environment it is put into -/
set_option autoImplicit false

section
variable {α : Type} [Add α] [Sub α] [Mul α] [Div α] [Neg α] [Zero α] [One α] [LT α] [LE α]
  [DecidableLT α] [DecidableLE α] [Elem α]

/-- C53: the kinematic group of a robot goes from "world" to the last of the returned links, and applying the commands to a new
environment gives one in which both exist. -/
theorem C53_group (robot : Robot α) (name : String) (solver : Option String) (over : Option (PluginOverride α)) (c : EnvCommands α)
    (h : envCommands robot name true solver over = .ok c) (env : SGraph α) (he : c.apply SGraph.empty = some env) :
    c.chain.1 = "world" ∧ c.linkNames.getLast? = some c.chain.2 ∧ c.chain.1 ∈ env.links ∧ c.chain.2 ∈ env.links ∧
    c.chain.2 ≠ "world" ∧ env.links = c.linkNames := by
  have henv : robotToEnv robot name true solver over = .ok (env, c.linkNames, c.jointNames) := by
    unfold robotToEnv
    rw [h]
    simp only [Except.bind_ok, he, Except.pure_eq]
  obtain ⟨h1, h2, h3, -⟩ := C53_env robot name solver over env c.linkNames c.jointNames henv
  unfold envCommands at h
  obtain ⟨r, hr, h⟩ := Except.bind_eq_ok h
  obtain ⟨tip, ht, h⟩ := Except.bind_eq_ok h
  obtain ⟨info, -, h⟩ := Except.bind_eq_ok h
  cases h
  have ht' : (prefixNames r.linkNames name).getLast? = some tip := by
    cases e : (prefixNames r.linkNames name).getLast? with
    | none => rw [e] at ht; cases ht
    | some t => rw [e] at ht; cases ht; rfl
  have hmem := List.mem_of_getLast? ht'
  simp only [if_true] at h1 h2 h3 ⊢
  refine ⟨trivial, ?_, ?_, ?_, ?_, h1⟩
  · rw [List.getLast?_cons, ht']; rfl
  · rw [h1]; exact List.mem_cons_self
  · rw [h1]; exact List.mem_cons_of_mem _ hmem
  · rintro rfl
    exact (List.nodup_cons.1 h2).1 hmem

/-- C54: in the plugin dictionary of the commands for a robot (any supported solver), the default solver's plugin and the forward
kinematics plugin name links of the environment that the commands create. -/
theorem C54_links_exist (robot : Robot α) (name solver : String) (c : EnvCommands α)
    (h : envCommands robot name true (some solver) none = .ok c) (env : SGraph α) (he : c.apply SGraph.empty = some env) :
    (∃ b t, Spec.atPath c.plugins (ikAt name ["plugins", solver, "config", "base_link"]) = some (.str b) ∧
      Spec.atPath c.plugins (ikAt name ["plugins", solver, "config", "tip_link"]) = some (.str t) ∧ b ∈ env.links ∧ t ∈ env.links ∧
      if solver = "OPWInvKin" then b = name ++ "_base_link" ∧ t = name ++ "_flange" else b = c.chain.1 ∧ t = c.chain.2) ∧
    Spec.atPath c.plugins (fkAt name ["plugins", "KDLFwdKinChain", "config", "base_link"]) = some (.str c.chain.1) ∧
    Spec.atPath c.plugins (fkAt name ["plugins", "KDLFwdKinChain", "config", "tip_link"]) = some (.str c.chain.2) := by
  obtain ⟨-, -, hw, ht, -, hlinks⟩ := C53_group robot name (some solver) none c h env he
  obtain ⟨r', hr', -, -, -, -, -, hnames⟩ := envCommands_contents h
  unfold envCommands at h
  obtain ⟨r, hr, h⟩ := Except.bind_eq_ok h
  obtain ⟨tip, htip, h⟩ := Except.bind_eq_ok h
  obtain ⟨info, hinfo, h⟩ := Except.bind_eq_ok h
  rw [hr] at hr'
  cases hr'
  obtain ⟨C⟩ := robotToSceneGraph_contents hr
  cases h
  obtain ⟨-, -, -, b, t, e1, e2, e3⟩ := C54_default_configured robot name _ _ _ _ solver info hinfo
  refine ⟨⟨b, t, e1, e2, ?_⟩, ?_⟩
  · by_cases hs : solver = "OPWInvKin"
    · rw [if_pos hs] at e3
      have hF : robot.Tflange.isSome := by
        simp only [pluginInfoDict, orElseGet, Except.bind_ok] at hinfo
        obtain ⟨ik, hik, -⟩ := Except.bind_eq_ok hinfo
        subst hs
        simp only [invkinInfo, Option.getD_some] at hik
        rw [if_neg (by decide), if_pos trivial] at hik
        obtain ⟨q, hq, -⟩ := Except.bind_eq_ok hik
        unfold robotToOpw at hq
        cases hf : robot.Tflange with
        | none => rw [hf] at hq; cases hq
        | some F => rfl
      have hb : b = name ++ "_base_link" := by
        rw [C.chainNames_eq] at e3
        rw [prefix_base]
        exact (Option.some.inj e3.1).symm
      rw [if_pos hs, hlinks]
      simp only [if_true, C.linkNames_eq, hb, e3.2]
      refine ⟨?_, ?_, trivial, trivial⟩
      · refine List.mem_cons_of_mem _ (List.mem_map.2 ⟨"base_link", by simp [sgLinkNames], ?_⟩)
        rw [prefix_base]
      · refine List.mem_cons_of_mem _ (List.mem_map.2 ⟨"flange", by simp [sgLinkNames, flangeLs, hF], ?_⟩)
        rw [String.append_assoc]; rfl
    · rw [if_neg hs] at e3 ⊢
      rw [e3.1, e3.2]
      exact ⟨hw, ht, rfl, rfl⟩
  · simp only [pluginInfoDict, orElseGet, Except.bind_ok] at hinfo
    obtain ⟨ik, -, hinfo⟩ := Except.bind_eq_ok hinfo
    obtain ⟨fks, hfk, hinfo⟩ := Except.bind_eq_ok hinfo
    obtain ⟨iks, -, hinfo⟩ := Except.bind_eq_ok hinfo
    cases hinfo
    simp only [fwdkinKdlInfo, Yaml.item, List.lookup_cons, beq_self_eq_true] at hfk
    cases hfk
    simp [Spec.atPath, fkAt, List.lookup_cons]

end

/-- C54 fails for a UR robot with a tool: the solver is configured with the tool frame as its tip link, but its parameters end at the
flange, so at every joint vector the pose that the parameters give for the tip link (`A`) is not the pose of that link in the
environment: the tool transform is missing. -/
theorem C54_ur_tool_false (robot : Robot ℝ) (d1 y1 x2 y2 x3 y3 y4 z4 y5 : ℝ) (h : Spec.UrArm robot 1 d1 y1 x2 y2 x3 y3 y4 z4 y5 0)
    (R : M3 ℝ) (p : V3 ℝ) (hR : IsRot R) (hRt : robot.Rtool = some R) (hpt : robot.ptool = some p) (name : String) (c : EnvCommands ℝ)
    (hc : envCommands robot name true (some "URInvKin") none = .ok c) (env : SGraph ℝ) (he : c.apply SGraph.empty = some env) :
    ∃ q, robotToUr robot = .ok q ∧
      Spec.atPath c.plugins (ikAt name ["plugins", "URInvKin", "config", "tip_link"]) = some (.str (name ++ "_tool_tcp")) ∧
      (∀ k v, (k, v) ∈ [("d1", q.d1), ("a2", q.a2), ("a3", q.a3), ("d4", q.d4), ("d5", q.d5), ("d6", q.d6)] →
        Spec.atPath c.plugins (ikAt name ["plugins", "URInvKin", "config", "params", k]) = some (.num v)) ∧
      ∀ (θ : String → ℝ) (t0 t1 t2 t3 t4 t5 : ℝ), c.jointNames.map θ = [t0, t1, t2, t3, t4, t5] →
        ∃ A B, A = Spec.urForward q t0 t1 t2 t3 t4 t5 ∧ Spec.PoseIn env.joints θ "world" (name ++ "_tool_tcp") B ∧
          B.R = A.R * R ∧ (B.p - A.p).norm = p.norm := by
  obtain ⟨q, hq, hfw⟩ := C56_ur_partial robot d1 y1 x2 y2 x3 y3 y4 z4 y5 h
  have henv : robotToEnv robot name true (some "URInvKin") none = .ok (env, c.linkNames, c.jointNames) := by
    unfold robotToEnv
    rw [hc]
    simp only [Except.bind_ok, he, Except.pure_eq]
  obtain ⟨pa, ch, hF⟩ := h.flange
  obtain ⟨pb, cb, hB⟩ := h.base
  have hlast : c.linkNames.getLast? = some (name ++ "_tool_tcp") := by
    obtain ⟨r, hr, -, -, -, -, -, e⟩ := envCommands_contents hc
    obtain ⟨C⟩ := robotToSceneGraph_contents hr
    rw [e, C.linkNames_eq, prefixNames_eq, List.getLast?_append, List.getLast?_map, sgLinkNames_getLast?]
    simp only [sgTip, hRt, hpt, Option.isSome_some, and_self, if_true, Option.map_some, Option.some_or]
    rw [String.append_assoc]; rfl
  have hchain := (C53_group robot name (some "URInvKin") none c hc env he).2.1
  have htip : c.chain.2 = name ++ "_tool_tcp" := Option.some.inj (hchain.symm.trans hlast)
  refine ⟨q, hq, ?_, ?_, ?_⟩
  · obtain ⟨⟨b, t, -, e2, -, -, e3⟩, -⟩ := C54_links_exist robot name "URInvKin" c hc env he
    rw [if_neg (by decide)] at e3
    rw [e2, e3.2, htip]
  · unfold envCommands at hc
    obtain ⟨r, hr, hc⟩ := Except.bind_eq_ok hc
    obtain ⟨tip, -, hc⟩ := Except.bind_eq_ok hc
    obtain ⟨info, hinfo, hc⟩ := Except.bind_eq_ok hc
    cases hc
    simp only [pluginInfoDict, orElseGet, Except.bind_ok, invkinInfo, Option.getD_some] at hinfo
    rw [if_neg (by decide), if_neg (by decide), if_pos trivial, hq] at hinfo
    simp only [Except.bind_ok, Except.pure_eq, invkinUrInfo, fwdkinKdlInfo, Yaml.item, List.lookup_cons, beq_self_eq_true] at hinfo
    cases hinfo
    intro k v hk
    simp only [List.mem_cons, Prod.mk.injEq, List.not_mem_nil, or_false] at hk
    rcases hk with ⟨rfl, rfl⟩ | ⟨rfl, rfl⟩ | ⟨rfl, rfl⟩ | ⟨rfl, rfl⟩ | ⟨rfl, rfl⟩ | ⟨rfl, rfl⟩ <;>
      simp [Spec.atPath, ikAt, List.lookup_cons]
  · intro θ t0 t1 t2 t3 t4 t5 hθ
    have hu : ∀ h ∈ robot.H, IsUnit3 h := by rw [h.axes]; simp [IsUnit3]
    obtain ⟨T, tip, hT, hl, hpose, -⟩ := C52_pose robot name (some "URInvKin") none env c.linkNames c.jointNames henv hu
      (by rw [hF]; rintro F ⟨⟩; rw [← rot_quarter]; exact rot_isRot _ unit_ex _)
      (by rw [hRt]; rintro F ⟨⟩; exact hR)
      (by rw [hB]; rintro F ⟨⟩; exact rot_isRot _ unit_ez _) θ
    rw [hlast] at hl
    cases hl
    obtain ⟨T', hT', eR, ep⟩ := hfw t0 t1 t2 t3 t4 t5
    rw [hθ] at hT
    have : T.R = T'.R * R ∧ T.p = T'.p + T'.R.mulVec p := by
      unfold Spec.toollessPose at hT'
      simp only [fwdkin, checkLimits, if_true, Except.bind_ok] at hT hT'
      cases hP : robot.P with
      | nil => rw [hP] at hT; cases hT
      | cons P0 Ps =>
        rw [hP] at hT hT'
        dsimp only at hT hT'
        obtain ⟨Rp, hRp, hT⟩ := Except.bind_eq_ok hT
        rw [hRp] at hT'
        cases hT
        cases hT'
        simp only [applyAux, hRt, hpt, hB, hF]
        constructor
        · simp [M3.mul_assoc']
        · simp only [Transform.mul_p, Transform.mul_R, M3.mulVec_add, M3.mulVec_mulVec, add_assoc]
    refine ⟨_, _, rfl, hpose, by rw [this.1, eR], ?_⟩
    rw [← ep, this.2, show T'.p + T'.R.mulVec p - T'.p = T'.R.mulVec p by ext <;> simp]
    have hrT : IsRot T'.R := by
      obtain ⟨T2, h2, e2, -⟩ := toolless_six robot _ _ _ _ _ _ _ _ _ _ _ _ _ _ _ h.axes h.links h.flange h.base h.types t0 t1 t2 t3 t4 t5
      rw [hT'] at h2
      cases h2
      have uy : IsUnit3 (⟨0, -1, 0⟩ : V3 ℝ) := by norm_num [IsUnit3, V3.dot]
      have uz : IsUnit3 (⟨0, 0, -1⟩ : V3 ℝ) := by norm_num [IsUnit3, V3.dot]
      rw [e2, ← rot_quarter]
      have uz1 : IsUnit3 (⟨0, 0, 1⟩ : V3 ℝ) := by norm_num [IsUnit3, V3.dot]
      exact (rot_isRot _ unit_ez _).mul (((((((rot_isRot _ uz1 _).mul (rot_isRot _ uy _)).mul (rot_isRot _ uy _)).mul
        (rot_isRot _ uy _)).mul (rot_isRot _ uz _)).mul (rot_isRot _ uy _)).mul (rot_isRot _ unit_ex _))
    exact hrT.norm_mulVec p

/-- A UR5e-like robot with limits and a tool of 0.1 m. -/
noncomputable def exUrTool : Robot ℝ :=
  { exUr 1 0 with
    lower := some [-1, -1, -1, -1, -1, -1]
    upper := some [1, 1, 1, 1, 1, 1]
    vel := some [1, 1, 1, 1, 1, 1]
    acc := some [1, 1, 1, 1, 1, 1]
    Rtool := some 1
    ptool := some ⟨0, 0, 0.1⟩ }

theorem exUrTool_arm : Spec.UrArm exUrTool 1 0.1625 0 (-0.425) 0 (-0.3922) 0 (-0.1333) (-0.0997) (-0.0996) 0 :=
  have h := exUr_arm 1 0
  ⟨h.types, h.axes, h.links, h.flange, h.base⟩

-- non-vacuity of C53_group, C54_links_exist and C54_ur_tool_false: the commands exist and can be applied
example : ∃ c env, envCommands exUrTool "ur" true (some "URInvKin") none = .ok c ∧ c.apply SGraph.empty = some env := by
  obtain ⟨res, h⟩ := (C53_default_succeeds exUrTool rfl "ur" (some "URInvKin") none).2
    ⟨⟨by simp [exUrTool, exUr, exAbb], by simp [exUrTool, exUr, exAbb], by simp [exUrTool, exUr, exAbb], by simp [exUrTool, exUr, exAbb],
      by simp [exUrTool, exUr, exAbb]⟩, Or.inr (Or.inr (Or.inr (Or.inr ⟨rfl, _, robotToUr_minus exUrTool_arm⟩)))⟩
  unfold robotToEnv at h
  obtain ⟨c, hc, h⟩ := Except.bind_eq_ok h
  cases e : c.apply SGraph.empty with
  | none => rw [e] at h; cases h
  | some env => exact ⟨c, env, hc, e⟩

-- non-vacuity of C54_opw_params and C54_ur_params: the dictionaries exist
example : (∃ d, pluginInfoDict exAbb "abb" ["base_link"] ["abb_base_link"] (some "OPWInvKin") none (some "world") (some "tip") = .ok d) ∧
    ∃ d, pluginInfoDict (exUr 1 0) "ur" ["base_link"] ["ur_base_link"] (some "URInvKin") none (some "world") (some "tip") = .ok d := by
  obtain ⟨p, hp, -⟩ := C55_opw_partial _ _ _ _ _ _ _ _ _ _ _ _ _ _ exAbb_arm
  have hu := robotToUr_minus (exUr_arm 1 0)
  constructor
  · simp [pluginInfoDict, orElseGet, invkinInfo, hp, hd, invkinOpwInfo, fwdkinKdlInfo, Yaml.item, List.lookup_cons]
  · simp [pluginInfoDict, orElseGet, invkinInfo, hu, invkinUrInfo, fwdkinKdlInfo, Yaml.item, List.lookup_cons]
