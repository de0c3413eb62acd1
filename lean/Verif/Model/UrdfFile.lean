import Verif.Model.Urdf

/-! # The functions of `urdf.py` that read files

Source: `/repo/src/general_robotics_toolbox/urdf.py`.  The file system, the ROS package index, xacro, the XML parser and the parameter
server are external: they are arguments of the model, total functions that may raise. -/

/-- The external services. -/
structure UrdfIo (α : Type) where
  /-- `rospkg.RosPack().get_path(package)` (line 42) -/
  packagePath : String → Except PyErr String
  /-- `open(fname, 'r')` and `read()` (lines 54-55) -/
  read : String → Except PyErr String
  /-- `xacro.process_file(fname).toprettyxml(indent='  ')` (line 50) -/
  xacro : String → Except PyErr String
  /-- `URDF.from_xml_string` (line 80) -/
  parse : String → Except PyErr (Urdf α)
  /-- `URDF.from_parameter_server` (line 303) -/
  param : String → Except PyErr (Urdf α)

/-- `os.path.join(a, b)` of the Python library on POSIX systems, for two arguments (called in line 43). -/
def osPathJoin (a b : List Char) : List Char :=
  if b.head? = some '/' then b
  else if a = [] ∨ a.getLast? = some '/' then a ++ b
  else a ++ '/' :: b

/-- `_resolve_file` (lines 39-45) -/
def resolveFile {α : Type} (io : UrdfIo α) (fname : String) (package : Option String) : Except PyErr String :=
  match package with
  | some p => do
      let path ← io.packagePath p
      return String.ofList (osPathJoin path.toList fname.toList)
  | none => .ok fname

section
variable {α : Type} [Add α] [Sub α] [Mul α] [Div α] [Neg α] [Zero α] [One α] [LT α] [LE α]
  [DecidableLT α] [DecidableLE α] [Elem α]

/-- `robot_from_xml_string` (lines 61-81) -/
def robotFromXmlString (io : UrdfIo α) (fuel : Nat) (xml : String) (root tip : Option String) : Except PyErr (Robot α) := do
  let u ← io.parse xml
  urdfLoad fuel u root tip

/-- `robot_from_xml_file` (lines 232-256), with `_load_xml_to_string` (lines 52-55) -/
def robotFromXmlFile (io : UrdfIo α) (fuel : Nat) (fname : String) (package root tip : Option String) : Except PyErr (Robot α) := do
  let fname2 ← resolveFile io fname package
  let xml ← io.read fname2
  robotFromXmlString io fuel xml root tip

/-- `robot_from_xacro_file` (lines 258-282), with `_load_xacro_to_string` (lines 47-50) -/
def robotFromXacroFile (io : UrdfIo α) (fuel : Nat) (fname : String) (package root tip : Option String) : Except PyErr (Robot α) := do
  let fname2 ← resolveFile io fname package
  let xml ← io.xacro fname2
  robotFromXmlString io fuel xml root tip

/-- `robot_from_parameter_server` (lines 284-304) -/
def robotFromParameterServer (io : UrdfIo α) (fuel : Nat) (key : String) (root tip : Option String) : Except PyErr (Robot α) := do
  let u ← io.param key
  urdfLoad fuel u root tip

end
