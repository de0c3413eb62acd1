import Verif.Model.Robot

/-!
# Model of `urdf.py`

Line numbers refer to `/repo/src/general_robotics_toolbox/urdf.py`.  The input is the object that `urdf_parser_py` builds from the XML
text; parsing, xacro, ROS packages and the parameter server (lines 39-55, 80, 255-256, 281-282, 303) are not modelled.

`urdf_parser_py` is a dependency that is not in the sandbox; its `link_map`, `joint_map`, `parent_map`, `child_map`, `get_root` and
`get_chain` are modelled from its published source and are part of the trusted base.
-/
set_option autoImplicit false

/-- `Pose`: `origin` elements -/
structure UOrigin (α : Type) where
  xyz : Option (V3 α)
  rpy : Option (V3 α)

/-- `Inertia` -/
structure UInertia (α : Type) where
  ixx : α
  ixy : α
  ixz : α
  iyy : α
  iyz : α
  izz : α

/-- `Inertial` -/
structure UInertial (α : Type) where
  mass : Option α
  origin : Option (UOrigin α)
  inertia : Option (UInertia α)

/-- `Link`; geometry is not used by the loader -/
structure ULink (α : Type) where
  name : String
  inertial : Option (UInertial α) := none

/-- `JointLimit` -/
structure ULimit (α : Type) where
  lower : Option α
  upper : Option α
  velocity : Option α
  effort : Option α

/-- `Joint` -/
structure UJoint (α : Type) where
  name : String
  jointType : String
  parent : String
  child : String
  origin : Option (UOrigin α) := none
  axis : Option (V3 α) := none
  limit : Option (ULimit α) := none

/-- `Robot` of `urdf_parser_py`: links and joints in the order of the file -/
structure Urdf (α : Type) where
  links : List (ULink α)
  joints : List (UJoint α)

namespace Urdf
variable {α : Type}

/-- The keys of `link_map`, in insertion order. -/
def linkNames (u : Urdf α) : List String := (u.links.map ULink.name).eraseDups

/-- `link_map[name]`; a later link of the same name replaces an earlier one -/
def link (u : Urdf α) (name : String) : Except PyErr (ULink α) :=
  match u.links.reverse.find? fun l => l.name == name with
  | some l => .ok l
  | none => .error .key

/-- `joint_map[name]` -/
def joint (u : Urdf α) (name : String) : Except PyErr (UJoint α) :=
  match u.joints.reverse.find? fun j => j.name == name with
  | some j => .ok j
  | none => .error .key

/-- `parent_map[link]`: joint name and parent link -/
def parentOf (u : Urdf α) (link : String) : Except PyErr (String × String) :=
  match u.joints.reverse.find? fun j => j.child == link with
  | some j => .ok (j.name, j.parent)
  | none => .error .key

/-- `link in parent_map` -/
def hasParent (u : Urdf α) (link : String) : Bool := u.joints.any fun j => j.child == link

/-- `link in child_map` -/
def hasChild (u : Urdf α) (link : String) : Bool := u.joints.any fun j => j.parent == link

/-- `get_root`: the only link that is nobody's child -/
def getRoot (u : Urdf α) : Except PyErr String := do
  let r ← u.linkNames.foldlM (fun (root : Option String) l =>
    if u.hasParent l then .ok root else if root.isNone then .ok (some l) else .error .assertion) none
  match r with
  | some r => .ok r
  | none => .error .assertion

/-- The `while` loop of `get_chain(root, tip, True, False, True)`.  It does not terminate on a cycle that misses the root, so the
model counts steps and gives `diverge` when `fuel` runs out; every theorem holds for all values of `fuel`. -/
def chainLoop (u : Urdf α) (root : String) : Nat → String → List String → Except PyErr (List String)
  | 0, _, _ => .error .diverge
  | fuel + 1, link, acc =>
    if link = root then .ok acc
    else do
      let jp ← u.parentOf link
      chainLoop u root fuel jp.2 (jp.1 :: acc)

/-- `get_chain(root, tip, True, False, True)`: the joint names from root to tip -/
def getChain (u : Urdf α) (fuel : Nat) (root tip : String) : Except PyErr (List String) := u.chainLoop root fuel tip []

/-- Lines 94-101: is the leaf `l` the tip of a valid chain? -/
def validTip (u : Urdf α) (fuel : Nat) (root l : String) : Except PyErr Bool := do
  let chain ← u.getChain fuel root l
  let js ← chain.mapM u.joint
  return !(js.any fun j => j.jointType == "floating") && !(js.all fun j => j.jointType == "fixed")

/-- Lines 93-103: the valid tips among the given leaves; a KeyError skips the leaf. -/
def tipLoop (u : Urdf α) (fuel : Nat) (root : String) : List String → Except PyErr (List String)
  | [] => .ok []
  | l :: ls =>
    match u.validTip fuel root l with
    | .ok true => do return l :: (← tipLoop u fuel root ls)
    | .ok false => tipLoop u fuel root ls
    | .error .key => tipLoop u fuel root ls
    | .error e => .error e

/-- Lines 93-103: `tip_links` -/
def tipLinks (u : Urdf α) (fuel : Nat) (root : String) : Except PyErr (List String) :=
  u.tipLoop fuel root (u.linkNames.filter fun l => !u.hasChild l)

/-- Lines 85-88: the root link -/
def rootLink (u : Urdf α) (root : Option String) : Except PyErr String :=
  match root with
  | some r => if r ∈ u.linkNames then .ok r else .error .assertion
  | none => u.getRoot

/-- Lines 105-107: the tip link -/
def tipLink (tip : Option String) (tips : List String) : Except PyErr String :=
  match tip with
  | some t => .ok t
  | none => match tips with
    | [t] => .ok t
    | _ => .error .assertion

end Urdf

section
variable {α : Type} [Add α] [Sub α] [Mul α] [Div α] [Neg α] [Zero α] [One α] [LT α] [LE α]
  [DecidableLT α] [DecidableLE α] [Elem α]

/-- `_rpy_to_rot` (lines 57-58) -/
def urdfRot (rpy : V3 α) : M3 α := (rot V3.ez rpy.z * rot V3.ey rpy.y) * rot V3.ex rpy.x

/-- Lines 195-202: position and rotation of the `origin` of an inertial, identity where not given. -/
def originPose (o : Option (UOrigin α)) : M3 α × V3 α :=
  match o with
  | none => (1, 0)
  | some o => ((match o.rpy with | none => 1 | some rpy => urdfRot rpy), (match o.xyz with | none => 0 | some p => p))

/-- Lines 204-209: the 3x3 inertia matrix. -/
def inertiaMatrix (i : Option (UInertia α)) : M3 α :=
  match i with
  | none => 0
  | some i => ⟨i.ixx, i.ixy, i.ixz, i.ixy, i.iyy, i.iyz, i.ixz, i.iyz, i.izz⟩

/-- `_convert_inertial` (lines 186-219); its argument `R` is never used. -/
def convertInertial (x : Option (UInertial α)) : Option (M6 α) :=
  match x with
  | none => none
  | some x => match x.mass with
    | none => none
    | some m =>
      if m ≤ lit (1/1000000) then none
      else
        let Rp := originPose x.origin
        let R := Rp.1
        let p := Rp.2
        let I := (R * inertiaMatrix x.inertia) * R.transpose
        let I' := I + (M3.smul (m * p.dot p) 1 - M3.smul m (M3.outer p p))
        some ⟨I', M3.smul m (hat p), M3.smul (-m) (hat p), M3.smul m 1⟩

/-- `_append_inertia` (lines 223-228) -/
def appendInertia (old new : Option (M6 α)) : Option (M6 α) :=
  match new, old with
  | none, old => old
  | some n, none => some n
  | some n, some o => some (o.add n)

/-- The variables of the loop of lines 113-149.  `P`, `M`, `H`, ... hold the columns/entries with index less than `i`, which are final;
`p` is `P[:,i]` and `m` is `M[i]`.  Simplification: the code fills arrays of the final size; entries after `i` still have their
initial value and each is written once, in order. -/
structure UState (α : Type) where
  P : List (V3 α) := []
  p : V3 α
  R : M3 α
  H : List (V3 α) := []
  ty : List Nat := []
  lower : List (Option α) := []
  upper : List (Option α) := []
  vel : List (Option α) := []
  effort : List (Option α) := []
  names : List String := []
  M : List (Option (M6 α)) := []
  m : Option (M6 α) := none

/-- Lines 129-133: apply the origin of the joint: new `P[:,i]` and `R`. -/
def applyOrigin (o : Option (UOrigin α)) (p : V3 α) (R : M3 α) : V3 α × M3 α :=
  match o with
  | none => (p, R)
  | some o => ((match o.xyz with | none => p | some x => p + R.mulVec x), (match o.rpy with | none => R | some rpy => R * urdfRot rpy))

/-- Lines 134-135: tests the inertial of the child link but converts the inertial of the parent link. -/
def jointInertia (u : Urdf α) (j : UJoint α) (m : Option (M6 α)) : Except PyErr (Option (M6 α)) := do
  let child ← u.link j.child
  match child.inertial with
  | none => .ok m
  | some _ => do
      let parent ← u.link j.parent
      return appendInertia m (convertInertial parent.inertial)

/-- Lines 136-149: a moving joint closes the current column.  `np.matmul(R, None)` for a joint without axis raises ValueError. -/
def addJoint (j : UJoint α) (s : UState α) : Except PyErr (UState α) :=
  if j.jointType = "fixed" then .ok s
  else if j.jointType = "revolute" ∨ j.jointType = "prismatic" then
    match j.axis with
    | none => .error .value
    | some a => .ok
        { P := s.P ++ [s.p], p := 0, R := s.R, H := s.H ++ [s.R.mulVec a], ty := s.ty ++ [if j.jointType = "revolute" then 0 else 1],
          lower := s.lower ++ [j.limit.bind ULimit.lower], upper := s.upper ++ [j.limit.bind ULimit.upper],
          vel := s.vel ++ [j.limit.bind ULimit.velocity], effort := s.effort ++ [j.limit.bind ULimit.effort],
          names := s.names ++ [j.name], M := s.M ++ [s.m], m := none }
  else .error .assertion

/-- Lines 128-149: the loop body. -/
def urdfStep (u : Urdf α) (j : UJoint α) (s : UState α) : Except PyErr (UState α) := do
  let pR := applyOrigin j.origin s.p s.R
  let m ← jointInertia u j s.m
  addJoint j { s with p := pR.1, R := pR.2, m := m }

/-- Lines 127-149: the loop.  `joint_map[c]` cannot fail here, since `chain` was looked up before. -/
def urdfLoop (u : Urdf α) : List (UJoint α) → UState α → Except PyErr (UState α)
  | [], s => .ok s
  | j :: js, s => do
      let s' ← urdfStep u j s
      urdfLoop u js s'

/-- `None if None in l else l` (lines 153-163, 172-173, 181) -/
def noneIn {β : Type} : List (Option β) → Option (List β)
  | [] => some []
  | none :: _ => none
  | some x :: l => (noneIn l).map (x :: ·)

/-- Lines 153-158: both limits, or none if any is missing. -/
def limitPair {β : Type} (l u : List (Option β)) : Option (List β) × Option (List β) :=
  match noneIn l, noneIn u with
  | some l, some u => (some l, some u)
  | _, _ => (none, none)

/-- Lines 165-170: the tool transform. -/
def urdfTool (R : M3 α) : Option (M3 α) × Option (V3 α) :=
  if Transform.allIsclose (0 : M3 α).toList R.toList (lit (1/100000)) (lit (1/100000)) then (none, none) else (some R, some 0)

/-- Lines 112-184: the robot of a chain. -/
def urdfBuild (u : Urdf α) (root tip : String) (js : List (UJoint α)) (last : UJoint α) : Except PyErr (Robot α) := do
  let s ← urdfLoop u js { p := 0, R := 1 }
  let link ← u.link last.child
  let M := s.M ++ [appendInertia s.m (convertInertial link.inertial)]
  let lu := limitPair s.lower s.upper
  let tool := urdfTool s.R
  let robot ← Robot.init s.H (s.P ++ [s.p]) s.ty lu.1 lu.2 (noneIn s.vel) none (noneIn M) tool.1 tool.2 (some s.names) (some root)
    (some tip) none none
  return { robot with effortLimit := noneIn s.effort }

/-- `_robot_from_urdf_robot` (lines 83-184) -/
def urdfLoad (fuel : Nat) (u : Urdf α) (root tip : Option String) : Except PyErr (Robot α) := do
  let root ← u.rootLink root
  let tips ← u.tipLinks fuel root
  let tip ← Urdf.tipLink tip tips
  let chain ← u.getChain fuel root tip
  let js ← chain.mapM u.joint
  match js.getLast? with
  | none => .error .assertion
  | some last => urdfBuild u root tip js last

end
