import Verif.Lemmas.ListM
import Verif.Model.Tesseract
import Verif.Props.Jacobian

/-! # Properties C54, C57: kinematics plugins and Jacobian of `tesseract.py` -/
set_option autoImplicit false

/-! ## C54 -/

/-- The value at a path of keys in a tree of dictionaries (specification). -/
def Spec.atPath {α : Type} : Yaml α → List String → Option (Yaml α)
  | y, [] => some y
  | .dict d, k :: ks => match d.lookup k with
    | some y => Spec.atPath y ks
    | none => none
  | _, _ :: _ => none

section
variable {α : Type} [Add α] [Sub α] [Mul α] [Div α] [Neg α] [Zero α] [One α] [LT α] [LE α]
  [DecidableLT α] [DecidableLE α] [Elem α]

/-- path of the inverse kinematics section of a robot -/
def ikAt (name : String) (l : List String) : List String := ["kinematic_plugins", "inv_kin_plugins", name] ++ l

/-- path of the forward kinematics section of a robot -/
def fkAt (name : String) (l : List String) : List String := ["kinematic_plugins", "fwd_kin_plugins", name] ++ l

/-- C54: with no solver or one of the KDL solvers, the dictionary can always be built; the default solver is the requested one (the
LMA solver if none is), it is one of the configured plugins, and forward and inverse kinematics are configured with the given base and
tip links (by default the first and the last link). -/
theorem C54_kdl (robot : Robot α) (name : String) (links chain : List String) (first last : String)
    (hf : links.head? = some first) (hl : links.getLast? = some last) (base tip : Option String) (solver : Option String)
    (hs : solver = none ∨ solver = some "KDLInvKinChainLMA" ∨ solver = some "KDLInvKinChainNR") :
    ∃ d, pluginInfoDict robot name links chain solver none base tip = .ok d ∧
      Spec.atPath d (ikAt name ["default"]) = some (.str (solver.getD "KDLInvKinChainLMA")) ∧
      (∀ s ∈ ["KDLInvKinChainLMA", "KDLInvKinChainNR"],
        Spec.atPath d (ikAt name ["plugins", s, "class"]) = some (.str (s ++ "Factory")) ∧
        Spec.atPath d (ikAt name ["plugins", s, "config", "base_link"]) = some (.str (base.getD first)) ∧
        Spec.atPath d (ikAt name ["plugins", s, "config", "tip_link"]) = some (.str (tip.getD last))) ∧
      Spec.atPath d (fkAt name ["default"]) = some (.str "KDLFwdKinChain") ∧
      Spec.atPath d (fkAt name ["plugins", "KDLFwdKinChain", "class"]) = some (.str "KDLFwdKinChainFactory") ∧
      Spec.atPath d (fkAt name ["plugins", "KDLFwdKinChain", "config", "base_link"]) = some (.str (base.getD first)) ∧
      Spec.atPath d (fkAt name ["plugins", "KDLFwdKinChain", "config", "tip_link"]) = some (.str (tip.getD last)) ∧
      Spec.atPath d ["kinematic_plugins", "search_libraries"] = some (.list [.str "tesseract_kinematics_kdl_factories"]) := by
  have hb : orElseGet base links.head? = .ok (base.getD first) := by
    rw [hf]; cases base <;> rfl
  have ht : orElseGet tip links.getLast? = .ok (tip.getD last) := by
    rw [hl]; cases tip <;> rfl
  have hik : invkinInfo robot name chain solver none (base.getD first) (tip.getD last) =
      .ok (invkinKdlInfo name (base.getD first) (tip.getD last) (solver.getD "KDLInvKinChainLMA")) := by
    rcases hs with rfl | rfl | rfl <;> rfl
  refine ⟨_, by
    simp only [pluginInfoDict, hb, ht, hik, Except.bind_ok]
    rfl, ?_⟩
  simp [Spec.atPath, ikAt, fkAt, List.lookup_cons]
  show [("tesseract_kinematics_kdl_factories" : String)].eraseDups = _
  decide

/-- C54: whatever solver is requested, if the dictionary can be built without an override then the solver is one of the four
supported; it is the default solver; it is one of the configured plugins and has a base and a tip link: the given ones, except that
the OPW solver works from the robot's base link to its flange. -/
theorem C54_default_configured (robot : Robot α) (name : String) (links chain : List String) (base tip solver : String) (d : Yaml α)
    (h : pluginInfoDict robot name links chain (some solver) none (some base) (some tip) = .ok d) :
    solver ∈ ["KDLInvKinChainLMA", "KDLInvKinChainNR", "OPWInvKin", "URInvKin"] ∧
    Spec.atPath d (ikAt name ["default"]) = some (.str solver) ∧
    Spec.atPath d (ikAt name ["plugins", solver, "class"]) = some (.str (solver ++ "Factory")) ∧
    ∃ b t, Spec.atPath d (ikAt name ["plugins", solver, "config", "base_link"]) = some (.str b) ∧
      Spec.atPath d (ikAt name ["plugins", solver, "config", "tip_link"]) = some (.str t) ∧
      if solver = "OPWInvKin" then chain.head? = some b ∧ t = name ++ "_flange" else b = base ∧ t = tip := by
  simp only [pluginInfoDict] at h
  obtain ⟨b', hb, h⟩ := Except.bind_eq_ok h
  obtain ⟨t', ht, h⟩ := Except.bind_eq_ok h
  obtain ⟨ik, hik, h⟩ := Except.bind_eq_ok h
  obtain ⟨fks, hfk, h⟩ := Except.bind_eq_ok h
  obtain ⟨iks, hiks, h⟩ := Except.bind_eq_ok h
  cases hb; cases ht; cases h
  simp only [invkinInfo, Option.getD_some] at hik
  split_ifs at hik with h1 h2 h3
  · cases hik
    simp only [invkinKdlInfo, Yaml.item, List.lookup_cons, beq_self_eq_true] at hiks
    cases hiks
    rcases h1 with rfl | rfl <;> simp [Spec.atPath, ikAt, List.lookup_cons] <;> decide
  · obtain ⟨q, -, hik⟩ := Except.bind_eq_ok hik
    obtain ⟨c, hc, hik⟩ := Except.bind_eq_ok hik
    cases hik
    cases hiks
    subst h2
    obtain _ | ⟨c', cs⟩ := chain
    · cases hc
    cases hc
    simp [Spec.atPath, ikAt, List.lookup_cons]
  · obtain ⟨q, -, hik⟩ := Except.bind_eq_ok hik
    cases hik
    cases hiks
    subst h3
    simp [Spec.atPath, ikAt, List.lookup_cons]

/-- C54: with the OPW solver the dictionary holds exactly the parameters computed from the robot, each under its own name, and names
the library of the solver (the forward kinematics plugin names none, line 447). -/
theorem C54_opw_params (robot : Robot α) (name : String) (links chain : List String) (base tip : String) (d : Yaml α)
    (h : pluginInfoDict robot name links chain (some "OPWInvKin") none (some base) (some tip) = .ok d) :
    ∃ q, robotToOpw robot = .ok q ∧
      (∀ k v, (k, v) ∈ [("a1", q.a1), ("a2", q.a2), ("b", q.b), ("c1", q.c1), ("c2", q.c2), ("c3", q.c3), ("c4", q.c4)] →
        Spec.atPath d (ikAt name ["plugins", "OPWInvKin", "config", "params", k]) = some (.num v)) ∧
      Spec.atPath d (ikAt name ["plugins", "OPWInvKin", "config", "params", "offsets"]) = some (.list (q.offsets.map .num)) ∧
      Spec.atPath d (ikAt name ["plugins", "OPWInvKin", "config", "params", "sign_corrections"]) = some (.list (q.signs.map .int)) ∧
      Spec.atPath d ["kinematic_plugins", "search_libraries"] =
        some (.list [.str "tesseract_kinematics_opw_factories"]) := by
  simp only [pluginInfoDict] at h
  obtain ⟨b', hb, h⟩ := Except.bind_eq_ok h
  obtain ⟨t', ht, h⟩ := Except.bind_eq_ok h
  obtain ⟨ik, hik, h⟩ := Except.bind_eq_ok h
  obtain ⟨fks, hfk, h⟩ := Except.bind_eq_ok h
  obtain ⟨iks, hiks, h⟩ := Except.bind_eq_ok h
  cases hb; cases ht; cases h
  obtain ⟨q, hq, hik⟩ := Except.bind_eq_ok (show (do
    let q ← robotToOpw robot
    let b ← hd chain
    return invkinOpwInfo name b (name ++ "_flange") q) = Except.ok ik from hik)
  obtain ⟨c, hc, hik⟩ := Except.bind_eq_ok hik
  cases hik
  cases hiks
  refine ⟨q, hq, ?_, ?_, ?_, ?_⟩
  · simp only [List.mem_cons, List.not_mem_nil, or_false, Prod.mk.injEq]
    rintro k v (⟨rfl, rfl⟩ | ⟨rfl, rfl⟩ | ⟨rfl, rfl⟩ | ⟨rfl, rfl⟩ | ⟨rfl, rfl⟩ | ⟨rfl, rfl⟩ | ⟨rfl, rfl⟩) <;>
      simp [Spec.atPath, ikAt, List.lookup_cons]
  · simp [Spec.atPath, ikAt, List.lookup_cons]
  · simp [Spec.atPath, ikAt, List.lookup_cons]
  · have e : ["tesseract_kinematics_opw_factories"].eraseDups =
        ["tesseract_kinematics_opw_factories"] := by decide
    simp [Spec.atPath, List.lookup_cons, fwdkinKdlInfo, invkinOpwInfo, e]

/-- C54: with the UR solver the dictionary holds exactly the parameters computed from the robot, each under its own name, and names the
library of the solver. -/
theorem C54_ur_params (robot : Robot α) (name : String) (links chain : List String) (base tip : String) (d : Yaml α)
    (h : pluginInfoDict robot name links chain (some "URInvKin") none (some base) (some tip) = .ok d) :
    ∃ q, robotToUr robot = .ok q ∧
      (∀ k v, (k, v) ∈ [("d1", q.d1), ("a2", q.a2), ("a3", q.a3), ("d4", q.d4), ("d5", q.d5), ("d6", q.d6)] →
        Spec.atPath d (ikAt name ["plugins", "URInvKin", "config", "params", k]) = some (.num v)) ∧
      Spec.atPath d ["kinematic_plugins", "search_libraries"] =
        some (.list [.str "tesseract_kinematics_ur_factories"]) := by
  simp only [pluginInfoDict] at h
  obtain ⟨b', hb, h⟩ := Except.bind_eq_ok h
  obtain ⟨t', ht, h⟩ := Except.bind_eq_ok h
  obtain ⟨ik, hik, h⟩ := Except.bind_eq_ok h
  obtain ⟨fks, hfk, h⟩ := Except.bind_eq_ok h
  obtain ⟨iks, hiks, h⟩ := Except.bind_eq_ok h
  cases hb; cases ht; cases h
  obtain ⟨q, hq, hik⟩ := Except.bind_eq_ok (show (do
    let q ← robotToUr robot
    return invkinUrInfo name base tip q) = Except.ok ik from hik)
  cases hik
  cases hiks
  refine ⟨q, hq, ?_, ?_⟩
  · simp only [List.mem_cons, List.not_mem_nil, or_false, Prod.mk.injEq]
    rintro k v (⟨rfl, rfl⟩ | ⟨rfl, rfl⟩ | ⟨rfl, rfl⟩ | ⟨rfl, rfl⟩ | ⟨rfl, rfl⟩ | ⟨rfl, rfl⟩) <;>
      simp [Spec.atPath, ikAt, List.lookup_cons]
  · have e : ["tesseract_kinematics_ur_factories"].eraseDups =
        ["tesseract_kinematics_ur_factories"] := by decide
    simp [Spec.atPath, List.lookup_cons, fwdkinKdlInfo, invkinUrInfo, e]

/-- C54: any other solver name is an AssertionError. -/
theorem C54_unknown (robot : Robot α) (name : String) (links chain : List String) (base tip solver : String)
    (h : solver ∉ ["KDLInvKinChainLMA", "KDLInvKinChainNR", "OPWInvKin", "URInvKin"]) :
    pluginInfoDict robot name links chain (some solver) none (some base) (some tip) = .error .assertion := by
  simp only [List.mem_cons, List.not_mem_nil, or_false, not_or] at h
  simp only [pluginInfoDict, orElseGet, Except.bind_ok, invkinInfo, Option.getD_some, h.1, h.2.1, h.2.2.1, h.2.2.2, or_self, if_false]
  rfl

/-- C54: an override given as a pair replaces the inverse kinematics section and the libraries, whatever solver is requested and
whether or not the robot fits it. -/
theorem C54_override (robot : Robot α) (name : String) (links chain : List String) (base tip : String) (solver : Option String)
    (items : List (String × Yaml α)) (iks : Yaml α) (libs : List String) (h : items.lookup "inv_kin_plugins" = some iks) :
    ∃ d, pluginInfoDict robot name links chain solver (some (.pair (.dict items) libs)) (some base) (some tip) = .ok d ∧
      Spec.atPath d ["kinematic_plugins", "inv_kin_plugins"] = some iks ∧
      Spec.atPath d ["kinematic_plugins", "search_libraries"] = some (.list (libs.eraseDups.map .str)) := by
  refine ⟨_, by
    simp only [pluginInfoDict, orElseGet, Except.bind_ok, invkinInfo, Yaml.item, h]
    rfl, ?_⟩
  simp [Spec.atPath, List.lookup_cons, fwdkinKdlInfo]

/-- C54 (false for the documented form): an override given as a string, as the documentation says, is never accepted. -/
theorem C54_string_override_false (robot : Robot α) (name : String) (links chain : List String) (base tip solver : Option String)
    (s : String) (d : Yaml α) : pluginInfoDict robot name links chain solver (some (.str s)) base tip ≠ .ok d := by
  intro h
  simp only [pluginInfoDict] at h
  obtain ⟨b', -, h⟩ := Except.bind_eq_ok h
  obtain ⟨t', -, h⟩ := Except.bind_eq_ok h
  obtain ⟨ik, hik, h⟩ := Except.bind_eq_ok h
  simp only [invkinInfo] at hik
  split_ifs at hik

end

example : ["a_base_link", "a_link_1"].head? = some "a_base_link" ∧ ["a_base_link", "a_link_1"].getLast? = some "a_link_1" := by decide

/-! ## C57 -/

/-- C57: the rows are exchanged: nothing is lost (doing it twice gives the matrix back), columns keep their order and number. -/
theorem C57_rows {α : Type} (J : List (V6 α)) :
    (tesseractJacobian J).length = J.length ∧ tesseractJacobian (tesseractJacobian J) = J ∧
    ∀ i (h : i < J.length) (h' : i < (tesseractJacobian J).length),
      (tesseractJacobian J)[i].top = J[i].bot ∧ (tesseractJacobian J)[i].bot = J[i].top := by
  refine ⟨by simp [tesseractJacobian], ?_, ?_⟩
  · simp [tesseractJacobian, Function.comp_def]
  · intro i h h'
    simp [tesseractJacobian]

/-- C57: if the columns of `K` are the linear and the angular velocity of the tool frame per unit joint velocity, linear velocity on top,
then `TesseractRobot.jacobian` returns the same matrix as `robotjacobian`. -/
theorem C57_jacobian (robot : Robot ℝ) (hw : robot.WF) (hty : ∀ t ∈ robot.jointType, t = 0 ∨ t = 1) (θ : List ℝ)
    (lθ : θ.length = robot.H.length) (K : List (V6 ℝ)) (lK : K.length = robot.H.length)
    (hK : ∀ i (hi : i < θ.length) (hJ : i < K.length), ∃ T : ℝ → Transform ℝ, (∀ s, fwdkin robot (θ.set i s) true = .ok (T s)) ∧
      HasDerivV3 (fun s => (T s).p) K[i].top θ[i] ∧ HasDerivM3 (fun s => (T s).R) (hat K[i].bot * (T θ[i]).R) θ[i]) :
    robotjacobian robot θ true = .ok (tesseractJacobian K) := by
  obtain ⟨J, hJ, lJ, hcol⟩ := C20_jacobian_columns robot hw hty θ lθ
  rw [hJ]
  congr 1
  refine List.ext_getElem (by simp [tesseractJacobian, lJ, lK]) ?_
  intro i h1 h2
  obtain ⟨T, t1, t2, t3⟩ := hcol i (by omega) h1
  obtain ⟨T', t4, t5, t6⟩ := hK i (by omega) (by omega)
  have e : T' = T := by
    funext s
    have := (t1 s).symm.trans (t4 s)
    exact (Except.ok.inj this).symm
  subst e
  obtain ⟨P0, Ps, hP, -⟩ := hw.sized.P_cons
  obtain ⟨T0, hT0, hrig, -⟩ := C17_fwdkin_chain robot hw θ lθ P0 Ps hP
  have hset : θ.set i θ[i] = θ := by simp
  have h0 := t1 θ[i]
  rw [hset, hT0] at h0
  have hR : IsRot (T' θ[i]).R := by cases h0; exact hrig
  have etop : J[i].top = K[i].bot := by
    have hm : hat J[i].top * (T' θ[i]).R = hat K[i].bot * (T' θ[i]).R := by
      apply M3.ext
      · exact t2.d00.unique t6.d00
      · exact t2.d01.unique t6.d01
      · exact t2.d02.unique t6.d02
      · exact t2.d10.unique t6.d10
      · exact t2.d11.unique t6.d11
      · exact t2.d12.unique t6.d12
      · exact t2.d20.unique t6.d20
      · exact t2.d21.unique t6.d21
      · exact t2.d22.unique t6.d22
    have hm' := congrArg (· * (T' θ[i]).R.transpose) hm
    simp only [M3.mul_assoc', hR.orth', M3.mul_one'] at hm'
    have a := congrArg M3.a21 hm'
    have b := congrArg M3.a02 hm'
    have c := congrArg M3.a10 hm'
    simp only [hat] at a b c
    exact V3.ext a b c
  have ebot : J[i].bot = K[i].top := V3.ext (t3.1.unique t5.1) (t3.2.1.unique t5.2.1) (t3.2.2.unique t5.2.2)
  simp only [tesseractJacobian, List.getElem_map]
  rw [← etop, ← ebot]

-- such a matrix exists for every robot
example (robot : Robot ℝ) (hw : robot.WF) (hty : ∀ t ∈ robot.jointType, t = 0 ∨ t = 1) (θ : List ℝ) (lθ : θ.length = robot.H.length) :
    ∃ K : List (V6 ℝ), K.length = robot.H.length ∧
    (∀ i (hi : i < θ.length) (hJ : i < K.length), ∃ T : ℝ → Transform ℝ, (∀ s, fwdkin robot (θ.set i s) true = .ok (T s)) ∧
      HasDerivV3 (fun s => (T s).p) K[i].top θ[i] ∧ HasDerivM3 (fun s => (T s).R) (hat K[i].bot * (T θ[i]).R) θ[i]) := by
  obtain ⟨J, hJ, lJ, hcol⟩ := C20_jacobian_columns robot hw hty θ lθ
  refine ⟨tesseractJacobian J, by simp [tesseractJacobian, lJ], fun i hi hK => ?_⟩
  obtain ⟨T, t1, t2, t3⟩ := hcol i hi (by simpa [tesseractJacobian] using hK)
  exact ⟨T, t1, by simpa [tesseractJacobian] using t3, by simpa [tesseractJacobian] using t2⟩
