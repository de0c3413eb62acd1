import Verif.Model.TesseractText
import Verif.Props.TesseractMisc
import Verif.XReal

/-! # Property C54: the plugin configuration as text -/
set_option autoImplicit false

namespace Spec

/-- Reading a text that was written gives back every string and every number in its place; the order of the keys may change. -/
def ReadsBack {α : Type} (dump : Yaml α → Except PyErr String) (load : String → Except PyErr (Yaml α)) : Prop :=
  ∀ d text, dump d = .ok text → ∃ d', load text = .ok d' ∧ ∀ path v, (∃ s, v = .str s) ∨ (∃ x, v = .num x) →
    atPath d path = some v → atPath d' path = some v

end Spec

section
variable {α : Type} [Add α] [Sub α] [Mul α] [Div α] [Neg α] [Zero α] [One α] [LT α] [LE α]
  [DecidableLT α] [DecidableLE α] [Elem α]

/-- C54: the text can be built exactly if the dictionary can be built and written, and raises the exception of whichever fails first. -/
theorem C54_string_raises (dump : Yaml α → Except PyErr String) (robot : Robot α) (name : String) (links chain : List String)
    (solver : Option String) (over : Option (PluginOverride α)) (base tip : Option String) (e : PyErr) :
    pluginInfoString dump robot name links chain solver over base tip = .error e ↔
      pluginInfoDict robot name links chain solver over base tip = .error e ∨
      ∃ d, pluginInfoDict robot name links chain solver over base tip = .ok d ∧ dump d = .error e := by
  unfold pluginInfoString
  rcases pluginInfoDict robot name links chain solver over base tip with e' | d
  · simp [Except.bind_error]
  · simp [Except.bind_ok]

/-- C54: with a library that reads back what it writes, `tesseract_kinematics_information` makes one chain group, from the base link to
the tip link (by default the first and the last link), and its plugin configuration names the requested solver (by default the KDL LMA
solver) as default, one of the four supported, configured with these links, except that the OPW solver works from the robot's base link
to its flange. -/
theorem C54_information (dump : Yaml α → Except PyErr String) (load : String → Except PyErr (Yaml α)) (hd : Spec.ReadsBack dump load)
    (robot : Robot α) (name : String) (links chain : List String) (solver base tip : Option String) (info : KinInfo (Yaml α))
    (h : kinematicsInformation dump load robot name links chain solver none base tip = .ok info) :
    ∃ first last b t, (base.orElse fun _ => links.head?) = some first ∧ (tip.orElse fun _ => links.getLast?) = some last ∧
    info.chains = [(name, [(first, last)])] ∧
    solver.getD "KDLInvKinChainLMA" ∈ ["KDLInvKinChainLMA", "KDLInvKinChainNR", "OPWInvKin", "URInvKin"] ∧
    Spec.atPath info.plugins (ikAt name ["default"]) = some (.str (solver.getD "KDLInvKinChainLMA")) ∧
    Spec.atPath info.plugins (ikAt name ["plugins", solver.getD "KDLInvKinChainLMA", "class"]) =
      some (.str (solver.getD "KDLInvKinChainLMA" ++ "Factory")) ∧
    Spec.atPath info.plugins (ikAt name ["plugins", solver.getD "KDLInvKinChainLMA", "config", "base_link"]) = some (.str b) ∧
    Spec.atPath info.plugins (ikAt name ["plugins", solver.getD "KDLInvKinChainLMA", "config", "tip_link"]) = some (.str t) ∧
    if solver = some "OPWInvKin" then chain.head? = some b ∧ t = name ++ "_flange" else b = first ∧ t = last := by
  unfold kinematicsInformation at h
  obtain ⟨first, h1, h⟩ := Except.bind_eq_ok h
  obtain ⟨last, h2, h⟩ := Except.bind_eq_ok h
  obtain ⟨text, h3, h⟩ := Except.bind_eq_ok h
  obtain ⟨d', h4, h⟩ := Except.bind_eq_ok h
  cases h
  unfold pluginInfoString at h3
  obtain ⟨d, h5, h6⟩ := Except.bind_eq_ok h3
  obtain ⟨d'', h7, hp⟩ := hd d text h6
  rw [h4] at h7
  cases h7
  have hg : ∀ x y : Option String, ∀ z, orElseGet x y = .ok z → (x.orElse fun _ => y) = some z := by
    rintro (_ | x) (_ | y) z hz <;> cases hz <;> rfl
  have h5' : pluginInfoDict robot name links chain (some (solver.getD "KDLInvKinChainLMA")) none (some first) (some last) = .ok d := by
    rw [← h5]; cases solver <;> rfl
  obtain ⟨c1, c2, c3, b, t, c4, c5, c6⟩ := C54_default_configured robot name links chain first last _ d h5'
  refine ⟨first, last, b, t, hg _ _ _ h1, hg _ _ _ h2, rfl, c1, hp _ _ (.inl ⟨_, rfl⟩) c2, hp _ _ (.inl ⟨_, rfl⟩) c3, hp _ _ (.inl ⟨_, rfl⟩) c4,
    hp _ _ (.inl ⟨_, rfl⟩) c5, ?_⟩
  rcases solver with _ | s
  · simpa using c6
  · simpa using c6

end

/-- A library that can write one dictionary, the one of a robot with the KDL solver, and reads it back: the hypotheses are met. -/
example : ∃ (dump : Yaml Float → Except PyErr String) (load : String → Except PyErr (Yaml Float)) (info : KinInfo (Yaml Float)),
    Spec.ReadsBack dump load ∧
    kinematicsInformation dump load { H := [V3.ez], P := [0, V3.ex], jointType := [0] } "arm" ["base", "tip"] ["base", "tip"] none none none none = .ok info := by
  classical
  obtain ⟨d, hd, -⟩ := C54_kdl ({ H := [V3.ez], P := [0, V3.ex], jointType := [0] } : Robot Float) "arm" ["base", "tip"] ["base", "tip"] "base" "tip"
    rfl rfl (some "base") (some "tip") none (.inl rfl)
  refine ⟨fun x => if x = d then .ok "text" else .error .value, fun _ => .ok d, ⟨[("arm", [("base", "tip")])], d⟩, ?_, ?_⟩
  · intro x text h
    refine ⟨d, rfl, fun path v _ hv => ?_⟩
    by_cases hx : x = d
    · rwa [← hx]
    · simp [hx] at h
  · simp [kinematicsInformation, pluginInfoString, orElseGet, Except.bind_ok, hd]
