import Verif.Model.Tesseract

/-!
# Model of `tesseract.py`, lines 313-359 and 562-597: the plugin dictionary as text

`yaml.safe_dump` and `parseKinematicsPluginConfigString` of tesseract are parameters.
-/
set_option autoImplicit false

variable {α : Type} [Add α] [Sub α] [Mul α] [Div α] [Neg α] [Zero α] [One α] [LT α] [LE α]
  [DecidableLT α] [DecidableLE α] [Elem α]

/-- `kinematics_plugin_info_string` (lines 562-597); `dump` is the text that `yaml.safe_dump` writes to the buffer (lines 593-595), or
its exception.  `joint_names` is not used by the function (line 562). -/
def pluginInfoString (dump : Yaml α → Except PyErr String) (robot : Robot α) (robotName : String) (linkNames chainNames : List String)
    (solver : Option String) (over : Option (PluginOverride α)) (base tip : Option String) : Except PyErr String := do
  let d ← pluginInfoDict robot robotName linkNames chainNames solver over base tip
  dump d

/-- The two parts of a `KinematicsInformation` that are set (lines 346-357): the chain groups by name and the plugin configuration. -/
structure KinInfo (β : Type) where
  chains : List (String × List (String × String))
  plugins : β

/-- `tesseract_kinematics_information` (lines 313-359); `parse` is tesseract's reader of the text (line 355). -/
def kinematicsInformation {β : Type} (dump : Yaml α → Except PyErr String) (parse : String → Except PyErr β) (robot : Robot α)
    (robotName : String) (linkNames chainNames : List String) (solver : Option String) (over : Option (PluginOverride α))
    (base tip : Option String) : Except PyErr (KinInfo β) := do
  let base ← orElseGet base linkNames.head?
  let tip ← orElseGet tip linkNames.getLast?
  let text ← pluginInfoString dump robot robotName linkNames chainNames solver over (some base) (some tip)
  let plugins ← parse text
  return ⟨[(robotName, [(base, tip)])], plugins⟩
