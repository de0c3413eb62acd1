import Verif.Model.Robot

/-!
# Model of `robotraconteur.py`

Line numbers refer to `/repo/src/general_robotics_toolbox/robotraconteur.py`.  The input is the tree that `yaml.safe_load` returns
(or the dict given by the caller); reading the file is not modelled.
-/
set_option autoImplicit false

/-- A YAML document as Python objects.  Simplification: keys of mappings are strings, and a mapping is the list of its items,
looked up from the front (a Python dict has each key once). -/
inductive Yaml (α : Type) where
  | null
  | bool (b : Bool)
  | int (n : Int)
  | num (x : α)
  | str (s : String)
  | list (l : List (Yaml α))
  | dict (d : List (String × Yaml α))

namespace Yaml
variable {α : Type}

/-- `d[key]` for a string key -/
def item (d : Yaml α) (key : String) : Except PyErr (Yaml α) :=
  match d with
  | .dict l => match l.lookup key with
    | some v => .ok v
    | none => .error .key
  | _ => .error .type

/-- `d.get(key)` -/
def get (d : Yaml α) (key : String) : Except PyErr (Yaml α) :=
  match d with
  | .dict l => .ok ((l.lookup key).getD .null)
  | _ => .error .attribute

/-- `l[i]` of Python for a sequence of length `n`: negative indices count from the end -/
def pyIdx (n : Nat) (i : Int) : Option Nat :=
  if 0 ≤ i then (if i < n then some i.toNat else none)
  else if 0 ≤ i + n then some (i + n).toNat else none

/-- `l[i]` for an integer index -/
def index (l : Yaml α) (i : Int) : Except PyErr (Yaml α) :=
  match l with
  | .list l => match pyIdx l.length i with
    | some k => match l[k]? with
      | some v => .ok v
      | none => .error .index
    | none => .error .index
  | .str s => match pyIdx s.toList.length i with
    | some k => match s.toList[k]? with
      | some c => .ok (.str (String.ofList [c]))
      | none => .error .index
    | none => .error .index
  | .dict _ => .error .key
  | _ => .error .type

/-- `len(l)` -/
def len (l : Yaml α) : Except PyErr Nat :=
  match l with
  | .list l => .ok l.length
  | .str s => .ok s.toList.length
  | .dict d => .ok d.length
  | _ => .error .type

/-- `x is None` -/
def isNone (x : Yaml α) : Bool :=
  match x with
  | .null => true
  | _ => false

/-- `x == "..."` -/
def eqStr (x : Yaml α) (s : String) : Bool :=
  match x with
  | .str t => t == s
  | _ => false

/-- `key in d` for a dict -/
def hasKey (d : Yaml α) (key : String) : Bool :=
  match d with
  | .dict l => (l.lookup key).isSome
  | _ => false

end Yaml

section
variable {α : Type} [Add α] [Sub α] [Mul α] [Div α] [Neg α] [Zero α] [One α] [LT α] [LE α]
  [DecidableLT α] [DecidableLE α] [Elem α]

/-- `a >= b` on the values of a document.  Simplification: comparing anything but two numbers raises TypeError (Python also orders
two strings or two lists, but then line 100 raises, since neither can be compared to the integer of `len`). -/
def Yaml.ge (a b : Yaml α) : Except PyErr Bool :=
  let num (x : Yaml α) : Option (Int ⊕ α) := match x with
    | .int n => some (.inl n)
    | .bool b => some (.inl (if b then 1 else 0))
    | .num x => some (.inr x)
    | _ => none
  match num a, num b with
  | some (.inl m), some (.inl n) => .ok (decide (n ≤ m))
  | some (.inl m), some (.inr y) => .ok (decide (y ≤ lit m))
  | some (.inr x), some (.inl n) => .ok (decide (lit n ≤ x))
  | some (.inr x), some (.inr y) => .ok (decide (y ≤ x))
  | _, _ => .error .type

/-- Conversion of one value to `float64` by NumPy (`np.array([...], dtype=np.float64)`, `a[i] = v`): `None` becomes NaN, strings are
parsed (`parse`, a parameter of the model).  Simplification: a nested sequence raises ValueError. -/
def Yaml.toFloat (parse : String → Option α) (x : Yaml α) : Except PyErr α :=
  match x with
  | .null => .ok (0 / 0)
  | .bool b => .ok (if b then 1 else 0)
  | .int n => .ok (lit n)
  | .num x => .ok x
  | .str s => match parse s with
    | some x => .ok x
    | none => .error .value
  | .list _ => .error .value
  | .dict _ => .error .type

/-- `_check_list` (lines 39-45); `expected = none` for the default -1 -/
def rrCheckList (l : Yaml α) (expected : Option Nat := none) : Except PyErr Unit := do
  if l.isNone then .error .value
  else match expected with
    | none => .ok ()
    | some n => do
        let k ← l.len
        if k ≠ n then .error .value else .ok ()

/-- `_identifier_name` (lines 48-52).  Simplification: a name that is not a string, which the code passes on, raises TypeError
here. -/
def rrIdentifierName (x : Yaml α) : Except PyErr String :=
  match x with
  | .str s => .ok s
  | x => do
      let n ← x.item "name"
      match n with
      | .str s => .ok s
      | _ => .error .type

/-- `_to_vec3` (lines 55-56) -/
def rrToVec3 (parse : String → Option α) (d : Yaml α) : Except PyErr (V3 α) := do
  let x ← d.item "x"
  let y ← d.item "y"
  let z ← d.item "z"
  return ⟨← x.toFloat parse, ← y.toFloat parse, ← z.toFloat parse⟩

/-- `_to_qvec` (lines 59-60) -/
def rrToQvec (parse : String → Option α) (d : Yaml α) : Except PyErr (V4 α) := do
  let w ← d.item "w"
  let x ← d.item "x"
  let y ← d.item "y"
  let z ← d.item "z"
  return ⟨← w.toFloat parse, ← x.toFloat parse, ← y.toFloat parse, ← z.toFloat parse⟩

/-- `_to_transform` (lines 63-71).  `"orientation" in d` is also defined for lists and strings, but then every subscript by a string
raises TypeError, as it does here. -/
def rrToTransform (parse : String → Option α) (d : Yaml α) : Except PyErr (Transform α) := do
  if d.hasKey "orientation" then
    let q ← rrToQvec parse (← d.item "orientation")
    let p ← rrToVec3 parse (← d.item "position")
    return ⟨q2R q, p, none, none⟩
  else
    let q ← rrToQvec parse (← d.item "rotation")
    let p ← rrToVec3 parse (← d.item "translation")
    return ⟨q2R q, p, none, none⟩

/-- What the loop of lines 124-144 stores for one joint. -/
structure RRJoint (α : Type) where
  ty : Nat
  lower : α
  upper : α
  vel : α
  acc : α
  name : String

/-- Lines 126-133: the joint type. -/
def rrType (t : Yaml α) : Except PyErr Nat :=
  if t.eqStr "revolute" then .ok 0 else if t.eqStr "prismatic" then .ok 1 else .error .value

/-- Lines 141-144: the joint name. -/
def rrName (id : Yaml α) : Except PyErr String :=
  if id.isNone then .ok "" else rrIdentifierName id

/-- Lines 126-144: one joint from its `joint_info` entry. -/
def rrJoint (parse : String → Option α) (j : Yaml α) : Except PyErr (RRJoint α) := do
  let t ← j.item "joint_type"
  let ty ← rrType t
  let lim ← j.item "joint_limits"
  if lim.isNone then .error .value
  else
    let lower ← (← lim.item "lower").toFloat parse
    let upper ← (← lim.item "upper").toFloat parse
    let vel ← (← lim.item "velocity").toFloat parse
    let acc ← (← lim.item "acceleration").toFloat parse
    let id ← j.item "joint_identifier"
    let name ← rrName id
    return ⟨ty, lower, upper, vel, acc, name⟩

/-- Lines 95-102: the joint numbers from the second on are increasing and less than the number of joints. -/
def rrCheckNumbers (doc numbers : Yaml α) (n : Nat) : Except PyErr Unit := do
  let _ ← (List.range' 1 (n - 1)).mapM fun i => do
    let a ← numbers.index (i - 1 : Nat)
    let b ← numbers.index i
    if ← a.ge b then .error .value
    else
      let k ← (← doc.item "joint_info").len
      if ← b.ge (.int k) then .error .value else .ok ()
  return ()

/-- Lines 146-148: the root link name. -/
def rrRootLink (chain : Yaml α) : Except PyErr (Option String) := do
  if chain.hasKey "link_identifiers" then
    let l ← chain.item "link_identifiers"
    if 0 < (← l.len) then
      let x ← l.index 0
      if x.isNone then return none
      else return some (← rrIdentifierName x)
    else return none
  else return none

/-- Lines 159-168: the current tool: tool transform and possibly a new tip link name. -/
def rrCurrentTool (parse : String → Option α) (chain : Yaml α) (tip : Option String) :
    Except PyErr (Option (Transform α) × Option String) := do
  let tool ← chain.get "current_tool"
  if tool.isNone then return (none, tip)
  else
    let tcp ← tool.get "tcp"
    if tcp.isNone then return (none, tip)
    else
      let T ← rrToTransform parse tcp
      let info ← tool.get "device_info"
      if info.isNone then return (some T, tip)
      else return (some T, some (← rrIdentifierName (← info.item "device")))

/-- Lines 170-175: the base transform. -/
def rrBase (parse : String → Option α) (doc : Yaml α) : Except PyErr (Option (Transform α)) := do
  let info ← doc.get "device_info"
  if info.isNone then return none
  else
    let o ← info.get "device_origin_pose"
    if o.isNone then return none
    else return some (← rrToTransform parse (← o.item "pose"))

/-- Lines 150-152: the tip link name. -/
def rrTip (id : Yaml α) : Except PyErr (Option String) :=
  if id.isNone then .ok none else (rrIdentifierName id).map some

/-- `load_robot_info_yaml_to_robot` (lines 74-181) -/
def rrLoadRobot (parse : String → Option α) (doc : Yaml α) (chainNumber : Int := 0) : Except PyErr (Robot α) := do
  let chains ← doc.item "chains"
  rrCheckList chains
  if (← chains.len) ≤ chainNumber then .error .value
  else
    let chain ← chains.index chainNumber
    let numbers ← chain.item "joint_numbers"
    let n ← numbers.len
    rrCheckNumbers doc numbers n
    let cH ← chain.item "H"
    rrCheckList cH (some n)
    let cP ← chain.item "P"
    rrCheckList cP (some (n + 1))
    let H ← (List.range n).mapM fun (i : Nat) => do rrToVec3 parse (← cH.index i)
    let P ← (List.range (n + 1)).mapM fun (i : Nat) => do rrToVec3 parse (← cP.index i)
    -- line 125 uses `joint_info[i]`, not `joint_info[joint_numbers[i]]`
    let js ← (List.range n).mapM fun (i : Nat) => do
      let info ← doc.item "joint_info"
      rrJoint parse (← info.index i)
    let root ← rrRootLink chain
    let fid ← chain.item "flange_identifier"
    let tip ← rrTip fid
    let flange ← rrToTransform parse (← chain.item "flange_pose")
    let (tool, tip) ← rrCurrentTool parse chain tip
    let base ← rrBase parse doc
    Robot.init H P (js.map RRJoint.ty) (some (js.map RRJoint.lower)) (some (js.map RRJoint.upper)) (some (js.map RRJoint.vel))
      (some (js.map RRJoint.acc)) none (tool.map Transform.R) (tool.map Transform.p) (some (js.map RRJoint.name)) root tip
      (some flange) base

/-- `load_robot_and_tool_info_yaml_to_robot` (lines 184-214) -/
def rrLoadRobotTool (parse : String → Option α) (doc tool : Yaml α) (chainNumber : Int := 0) : Except PyErr (Robot α) := do
  let robot ← rrLoadRobot parse doc chainNumber
  let T ← rrToTransform parse (← tool.item "tcp")
  let info ← tool.item "device_info"
  let tip ← rrIdentifierName (← info.item "device")
  return { robot with Rtool := some T.R, ptool := some T.p, tipLink := some tip }

end
