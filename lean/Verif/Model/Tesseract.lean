import Verif.Model.RobotRaconteur
import Verif.Model.Invkin

/-!
# Model of `tesseract.py`

Line numbers refer to `/repo/src/general_robotics_toolbox/tesseract.py`.  The C++ library `tesseract_robotics` is not part of the
repository; the parts of it that the code relies on (Eigen's rotation conversions, `SceneGraph.addLink`, `insertSceneGraph`,
`Environment.init`) are modelled here from their published sources and marked "external".
-/
set_option autoImplicit false

section
variable {α : Type} [Add α] [Sub α] [Mul α] [Div α] [Neg α] [Zero α] [One α] [LT α] [LE α]
  [DecidableLT α] [DecidableLE α] [Elem α]

/-! ## Isometries -/

/-- `Eigen::Quaternion(mat)` (external, Eigen `quaternionbase_assign_impl<_,3,3>`). -/
def eigenQuat (R : M3 α) : V4 α :=
  if 0 < R.trace then
    let t := Elem.sqrt (R.trace + 1)
    let w := lit (1/2) * t
    let t := lit (1/2) / t
    ⟨w, (R.a21 - R.a12) * t, (R.a02 - R.a20) * t, (R.a10 - R.a01) * t⟩
  else if R.a00 < R.a11 then
    if R.a11 < R.a22 then eigenQuat2 R else
      -- i = 1, j = 2, k = 0
      let t := Elem.sqrt (R.a11 - R.a22 - R.a00 + 1)
      let y := lit (1/2) * t
      let t := lit (1/2) / t
      ⟨(R.a02 - R.a20) * t, (R.a01 + R.a10) * t, y, (R.a21 + R.a12) * t⟩
  else
    if R.a00 < R.a22 then eigenQuat2 R else
      -- i = 0, j = 1, k = 2
      let t := Elem.sqrt (R.a00 - R.a11 - R.a22 + 1)
      let x := lit (1/2) * t
      let t := lit (1/2) / t
      ⟨(R.a21 - R.a12) * t, x, (R.a10 + R.a01) * t, (R.a20 + R.a02) * t⟩
where
  /-- i = 2, j = 0, k = 1 -/
  eigenQuat2 (R : M3 α) : V4 α :=
    let t := Elem.sqrt (R.a22 - R.a00 - R.a11 + 1)
    let z := lit (1/2) * t
    let t := lit (1/2) / t
    ⟨(R.a10 - R.a01) * t, (R.a02 + R.a20) * t, (R.a12 + R.a21) * t, z⟩

/-- `Eigen::AngleAxis = quaternion` (external): angle and axis.  (`stableNorm`, used for tiny vectors, has the same value.) -/
def eigenAngleAxis (q : V4 α) : α × V3 α :=
  let n := q.vec.norm
  if feq n 0 then (0, ⟨1, 0, 0⟩)
  else
    let angle := lit 2 * Elem.arctan2 n (Elem.abs q.w)
    let n := if q.w < 0 then -n else n
    (angle, q.vec.sdiv n)

/-- `Eigen::AngleAxis::toRotationMatrix` (external). -/
def eigenToMatrix (angle : α) (k : V3 α) : M3 α :=
  let s := V3.smul (Elem.sin angle) k
  let c := Elem.cos angle
  let d := V3.smul (1 - c) k
  ⟨d.x * k.x + c, d.x * k.y - s.z, d.x * k.z + s.y,
   d.x * k.y + s.z, d.y * k.y + c, d.y * k.z - s.x,
   d.x * k.z - s.y, d.y * k.z + s.x, d.z * k.z + c⟩

/-- `Isometry3d` (external): rotation and translation. -/
@[ext] structure Iso (α : Type) where
  R : M3 α
  p : V3 α

/-- `A * B` of isometries (external) -/
def Iso.mul (A B : Iso α) : Iso α := ⟨A.R * B.R, A.p + A.R.mulVec B.p⟩

instance : Mul (Iso α) := ⟨Iso.mul⟩

/-- `A.inverse()` of an isometry (external) -/
def Iso.inv (A : Iso α) : Iso α := ⟨A.R.transpose, -(A.R.transpose.mulVec A.p)⟩

/-- `iso.setIdentity()` (external) -/
def Iso.one : Iso α := ⟨1, 0⟩

/-- `transform_to_isometry3d` (lines 94-104): `Translation3d(T.p) * AngleAxisd(T.R)`. -/
def toIsometry (T : Transform α) : Iso α :=
  let aa := eigenAngleAxis (eigenQuat T.R)
  ⟨eigenToMatrix aa.1 aa.2, T.p⟩

/-- `isometry3d_to_transform` (lines 106-118). -/
def ofIsometry (H : Iso α) : Transform α := ⟨H.R, H.p, none, none⟩

/-! ## Scene graphs -/

/-- The joint types used (lines 84-85) -/
inductive TJointType where
  | fixed
  | revolute
  | prismatic
deriving DecidableEq, Repr

/-- `JointLimits(lower, upper, effort, velocity, acceleration)` (external) -/
structure TLimits (α : Type) where
  lower : α
  upper : α
  effort : α
  vel : α
  acc : α

/-- `Joint` (external).  A fixed joint has no axis and no limits. -/
structure TJoint (α : Type) where
  name : String
  type : TJointType
  origin : Iso α
  axis : V3 α
  parent : String
  child : String
  limits : Option (TLimits α)

/-- `SceneGraph` (external): link names and joints, in the order in which they were added. -/
structure SGraph (α : Type) where
  links : List String
  joints : List (TJoint α)

/-- `SceneGraph()` -/
def SGraph.empty : SGraph α := ⟨[], []⟩

/-- `assert sg.addLink(link)` (external): refused when a link of that name exists. -/
def SGraph.addLink (sg : SGraph α) (l : String) : Except PyErr (SGraph α) :=
  if l ∈ sg.links then .error .assertion else .ok ⟨sg.links ++ [l], sg.joints⟩

/-- `assert sg.addLink(link, joint)` (external): refused when the link or the joint name exists or when the joint's parent or child
link does not exist after adding the link. -/
def SGraph.addLinkJoint (sg : SGraph α) (l : String) (j : TJoint α) : Except PyErr (SGraph α) :=
  if l ∈ sg.links ∨ j.name ∈ sg.joints.map (·.name) then .error .assertion
  else if j.parent ∈ sg.links ++ [l] ∧ j.child ∈ sg.links ++ [l] then .ok ⟨sg.links ++ [l], sg.joints ++ [j]⟩
  else .error .assertion

/-- `get_link_and_joint` (lines 120-167). -/
def getLinkAndJoint (h p : V3 α) (jointType : Nat) (lower upper vel acc effort : α) (linkName jointName parent : String) :
    Except PyErr (TJoint α) := do
  let ty ← if jointType = 0 then pure TJointType.revolute
    else if jointType = 1 then pure TJointType.prismatic
    else .error .assertion
  return {
    name := jointName
    type := ty
    origin := toIsometry ⟨1, p, none, none⟩
    axis := h
    parent := parent
    child := linkName
    limits := some ⟨lower, upper, effort, vel, acc⟩ }

/-- `get_fixed_link_and_joint` (lines 169-192). -/
def getFixedJoint (T : Transform α) (linkName jointName parent : String) : TJoint α :=
  { name := jointName
    type := .fixed
    origin := toIsometry T
    axis := V3.ex
    parent := parent
    child := linkName
    limits := none }

/-- `get_robot_world_to_base_joint` (lines 194-219).  (A `Transform` is always truthy.) -/
def worldToBaseJoint (robot : Robot α) (robotName : String) : TJoint α :=
  { name := "world_to_" ++ robotName
    type := .fixed
    origin := match robot.Tbase with
      | some T => toIsometry T
      | none => Iso.one
    axis := V3.ex
    parent := "world"
    child := robotName ++ "_base_link"
    limits := none }

/-- `_prefix_names` (lines 221-222). -/
def prefixNames (names : List String) (robotName : String) : List String :=
  names.map fun n => robotName ++ "_" ++ n

/-- `f"link_{i+1}"` (line 252) -/
def linkName (i : Nat) : String := "link_" ++ toString (i + 1)

/-- `f"joint_{i+1}"` (line 247) -/
def defaultJointName (i : Nat) : String := "joint_" ++ toString (i + 1)

/-- head of an array that is walked in step with the loop counter: IndexError when it is exhausted -/
def hd {β : Type} : List β → Except PyErr β
  | [] => .error .index
  | x :: _ => .ok x

/-- the same for an optional array: subscripting `None` is a TypeError -/
def hdO {β : Type} : Option (List β) → Except PyErr β
  | none => .error .type
  | some l => hd l

/-- `link_names[0]` / `link_names[-1]` (lines 271, 342-344, 519-523, 838-839), used when no name is given -/
def orElseGet (x : Option String) (y : Option String) : Except PyErr String :=
  match x, y with
  | some s, _ => .ok s
  | none, some s => .ok s
  | none, none => .error .index

/-- The loop of `robot_to_scene_graph` (lines 258-268), walking all arrays in step. -/
def sgLoop : Nat → String → List Nat → List (V3 α) → List (V3 α) → Option (List α) → Option (List α) → Option (List α) →
    Option (List α) → List String → SGraph α → Except PyErr (SGraph α)
  | _, _, [], _, _, _, _, _, _, _, sg => .ok sg
  | i, parent, t :: ts, H, P, lo, up, ve, ac, names, sg => do
      let h ← hd H
      let p ← hd P
      let l ← hdO lo
      let u ← hdO up
      let v ← hdO ve
      let a ← hdO ac
      let nm ← hd names
      let j ← getLinkAndJoint h p t l u v a (lit 1000) (linkName i) nm parent
      let sg ← sg.addLinkJoint (linkName i) j
      sgLoop (i + 1) (linkName i) ts H.tail P.tail (lo.map List.tail) (up.map List.tail) (ve.map List.tail)
        (ac.map List.tail) names.tail sg

/-- What `robot_to_scene_graph` returns with `return_names = True`. -/
structure SgResult (α : Type) where
  sg : SGraph α
  linkNames : List String
  jointNames : List String
  chainNames : List String

/-- The flange of `robot_to_scene_graph` (lines 278-283): graph, tip link and link names. -/
def sgFlange (robot : Robot α) (sg : SGraph α) (tip : String) (names : List String) :
    Except PyErr (SGraph α × String × List String) :=
  match robot.Tflange with
  | none => .ok (sg, tip, names)
  | some T => do
      let sg ← sg.addLinkJoint "flange" (getFixedJoint T "flange" "tip_to_flange" tip)
      return (sg, "flange", names ++ ["flange"])

/-- The tool of `robot_to_scene_graph` (lines 287-292). -/
def sgTool (robot : Robot α) (sg : SGraph α) (tip : String) (names : List String) :
    Except PyErr (SGraph α × String × List String) :=
  match robot.Rtool, robot.ptool with
  | some R, some p => do
      let sg ← sg.addLinkJoint "tool_tcp" (getFixedJoint ⟨R, p, none, none⟩ "tool_tcp" "tip_to_tool" tip)
      return (sg, "tool_tcp", names ++ ["tool_tcp"])
  | _, _ => .ok (sg, tip, names)

/-- `robot_to_scene_graph` (lines 224-297) with `return_names = True`.  With no joint at all, `link_names[-1]` of the empty list
(line 271) is an IndexError. -/
def robotToSceneGraph (robot : Robot α) : Except PyErr (SgResult α) := do
  let sg ← SGraph.empty.addLink "base_link"
  let n := robot.jointType.length
  let jointNames := match robot.jointNames with
    | none => (List.range n).map defaultJointName
    | some l => l
  let linkNames := (List.range n).map linkName
  pyAssert (jointNames.length == n)
  let sg ← sgLoop 0 "base_link" robot.jointType robot.H robot.P robot.lower robot.upper robot.vel robot.acc jointNames sg
  let p ← getI robot.P n
  let last ← orElseGet none linkNames.getLast?
  let sg ← sg.addLinkJoint "chain_tip" (getFixedJoint ⟨1, p, none, none⟩ "chain_tip" (last ++ "_to_chain_tip") last)
  let r ← sgFlange robot sg "chain_tip" (["base_link"] ++ linkNames ++ ["chain_tip"])
  let r ← sgTool robot r.1 r.2.1 r.2.2
  return ⟨r.1, r.2.2, jointNames, ["base_link"] ++ linkNames⟩

/-- `world_scene_graph` (lines 299-310). -/
def worldSceneGraph : SGraph α := ⟨["world"], []⟩

/-! ## Environment -/

/-- A joint renamed with a prefix (external, `insertSceneGraph`). -/
def TJoint.withPrefix (pre : String) (j : TJoint α) : TJoint α :=
  { j with name := pre ++ j.name, parent := pre ++ j.parent, child := pre ++ j.child }

/-- `insertSceneGraph(graph, prefix)` (external): false when a link or joint name is already there. -/
def SGraph.insert (env sg : SGraph α) (pre : String) : Option (SGraph α) :=
  if (sg.links.any fun l => decide (pre ++ l ∈ env.links)) || (sg.joints.any fun j => decide (pre ++ j.name ∈ env.joints.map (·.name)))
  then none
  else some ⟨env.links ++ sg.links.map (pre ++ ·), env.joints ++ sg.joints.map (·.withPrefix pre)⟩

/-- `insertSceneGraph(graph, joint, prefix)` (external): the joint's parent must be in the environment, its child must be a link of
the new graph, its name must be new (before and after inserting the graph). -/
def SGraph.insertWith (env sg : SGraph α) (j : TJoint α) (pre : String) : Option (SGraph α) :=
  if ¬ j.parent ∈ env.links ∨ ¬ j.child ∈ sg.links.map (pre ++ ·) ∨ j.name ∈ env.joints.map (·.name) then none
  else match env.insert sg pre with
    | none => none
    | some e => if j.name ∈ e.joints.map (·.name) then none else some ⟨e.links, e.joints ++ [j]⟩

/-! ## Kinematics plugins -/

/-- `kinematics_plugin_fwdkin_kdl_plugin_info_dict` (lines 417-447): dictionary and libraries. -/
def fwdkinKdlInfo (robotName base tip : String) : Yaml α × List String :=
  (.dict [("fwd_kin_plugins", .dict [(robotName, .dict [
    ("default", .str "KDLFwdKinChain"),
    ("plugins", .dict [("KDLFwdKinChain", .dict [
      ("class", .str "KDLFwdKinChainFactory"),
      ("config", .dict [("base_link", .str base), ("tip_link", .str tip)])])])])])], [])

/-- `kinematics_plugin_invkin_kdl_plugin_info_dict` (lines 449-489). -/
def invkinKdlInfo (robotName base tip solver : String) : Yaml α × List String :=
  (.dict [("inv_kin_plugins", .dict [(robotName, .dict [
    ("default", .str solver),
    ("plugins", .dict [
      ("KDLInvKinChainLMA", .dict [
        ("class", .str "KDLInvKinChainLMAFactory"),
        ("config", .dict [("base_link", .str base), ("tip_link", .str tip)])]),
      ("KDLInvKinChainNR", .dict [
        ("class", .str "KDLInvKinChainNRFactory"),
        ("config", .dict [("base_link", .str base), ("tip_link", .str tip)])])])])])], ["tesseract_kinematics_kdl_factories"])

/-- `OPWInvKinParameters` (lines 599-612).  Simplification: the sign corrections are 1, -1 or 0 and kept as integers
(`np.round(_, 8)` and the int8 conversion of line 754 do not change them). -/
structure OpwParams (α : Type) where
  a1 : α
  a2 : α
  b : α
  c1 : α
  c2 : α
  c3 : α
  c4 : α
  offsets : List α
  signs : List Int

/-- `np.allclose(v, w)` of 3-vectors -/
def allclose3 (v w : V3 α) : Prop := iscloseD v.x w.x ∧ iscloseD v.y w.y ∧ iscloseD v.z w.z

instance (v w : V3 α) : Decidable (allclose3 v w) := inferInstanceAs (Decidable (_ ∧ _))

/-- `np.allclose(A, B, atol)` of 3x3 matrices -/
def allcloseM (A B : M3 α) (atol : α) : Bool :=
  Transform.allIsclose A.toList B.toList (lit (1/100000)) atol

/-- `axis_sign` (lines 643-649). -/
def axisSign (h e : V3 α) : Int :=
  if allclose3 h e then 1 else if allclose3 h (-e) then -1 else 0

/-- `np.round(x, k)`: scale, round to even, unscale. -/
def npRound (k : Nat) (x : α) : α := Elem.rint (x * lit (10 ^ k)) / lit (10 ^ k)

/-- The arrays `P2`, `H2` and `offset` of `robot_to_opw_inv_kin_parameters` while they are being changed: the columns of `P2` and `H2`
that can change and the two offsets that can be nonzero. -/
structure OpwState (α : Type) where
  p2 : V3 α
  p3 : V3 α
  p4 : V3 α
  p5 : V3 α
  p6 : V3 α
  h2 : V3 α
  h3 : V3 α
  h4 : V3 α
  h5 : V3 α
  o1 : α
  o2 : α

/-- lines 667-670 and 679-682: bend at joint 2 -/
def OpwState.bend2 (s : OpwState α) : OpwState α :=
  let R := rot V3.ey (-Elem.pi / lit 2)
  { p2 := R.mulVec s.p2
    p3 := R.mulVec s.p3
    p4 := R.mulVec s.p4
    p5 := R.mulVec s.p5
    p6 := R.mulVec s.p6
    h2 := R.mulVec s.h2
    h3 := R.mulVec s.h3
    h4 := R.mulVec s.h4
    h5 := R.mulVec s.h5
    o1 := -Elem.pi / lit 2
    o2 := s.o2 }

/-- lines 673-676: bend at joint 3 -/
def OpwState.bend3 (s : OpwState α) : OpwState α :=
  let R := rot V3.ey (-Elem.pi / lit 2)
  { p2 := s.p2
    p3 := R.mulVec s.p3
    p4 := R.mulVec s.p4
    p5 := R.mulVec s.p5
    p6 := R.mulVec s.p6
    h2 := s.h2
    h3 := R.mulVec s.h3
    h4 := R.mulVec s.h4
    h5 := R.mulVec s.h5
    o1 := s.o1
    o2 := -Elem.pi / lit 2 }

/-- lines 663-682 -/
def OpwState.bend (s : OpwState α) : OpwState α :=
  if axisSign s.h5 V3.ex ≠ 0 then
    if Elem.abs s.p2.z < Elem.abs s.p2.x then s.bend2
    else if Elem.abs (s.p3.z + s.p4.z) < Elem.abs (s.p3.x + s.p4.x) then s.bend3
    else s.bend2
  else s

/-- lines 684-688 -/
def OpwState.straighten (s : OpwState α) : OpwState α :=
  if iscloseD s.p2.x 0 then s
  else
    let q := -Elem.arctan2 s.p2.x s.p2.z
    { s with
      p2 := (rot V3.ey q).mulVec s.p2
      o1 := s.o1 + q
      o2 := s.o2 - q }

/-- lines 690-718, with `P2[:,0:2]` and `H2[:,0:2]` unchanged from the robot. -/
def OpwState.params (s : OpwState α) (p0 p1 h0 h1 : V3 α) : Except PyErr (OpwParams α) := do
  pyAssert (decide (iscloseD p0.x 0) && decide (iscloseD p0.y 0))
  pyAssert ([s.p4, s.p5, s.p6].all fun p => decide (iscloseD p.x 0) && decide (iscloseD p.y 0))
  pyAssert (decide (iscloseD s.p2.x 0))
  return {
    c1 := npRound 6 (p0.z + p1.z)
    c2 := npRound 6 s.p2.z
    c3 := npRound 6 (s.p3.z + s.p4.z)
    c4 := npRound 6 (s.p5.z + s.p6.z)
    a1 := npRound 6 p1.x
    a2 := npRound 6 s.p3.x
    b := npRound 6 (p1.y + s.p2.y + s.p3.y)
    offsets := [0, s.o1, s.o2, 0, 0, 0].map (npRound 8)
    signs := [axisSign h0 V3.ez, axisSign h1 V3.ey, axisSign s.h2 V3.ey, axisSign s.h3 V3.ez, axisSign s.h4 V3.ey,
      axisSign s.h5 V3.ez] }

/-- `robot_to_opw_inv_kin_parameters` (lines 614-718).  Six joints mean six columns of `H` and seven of `P` (checked by the
constructor); other shapes are reported as IndexError. -/
def robotToOpw (robot : Robot α) : Except PyErr (OpwParams α) := do
  match robot.Tflange with
  | none => .error .assertion
  | some F => do
    pyAssert (allcloseM F.R (rot V3.ey (Elem.pi / lit 2)) (lit (1/100000000)))
    pyAssert (decide (allclose3 F.p 0))
    pyAssert (robot.jointType.length == 6)
    match robot.H, robot.P with
    | [h0, h1, h2, h3, h4, h5], [p0, p1, p2, p3, p4, p5, p6] => do
        pyAssert (axisSign h0 V3.ez != 0)
        pyAssert (axisSign h1 V3.ey != 0)
        pyAssert (axisSign h2 V3.ey != 0)
        pyAssert (axisSign h4 V3.ey != 0)
        pyAssert (axisSign h3 h5 != 0)
        pyAssert (axisSign h5 V3.ez != 0 || axisSign h5 V3.ex != 0)
        let s : OpwState α := ⟨p2, p3, p4, p5, p6, h2, h3, h4, h5, 0, 0⟩
        s.bend.straighten.params p0 p1 h0 h1
    | _, _ => .error .index

/-- `kinematics_plugin_invkin_opw_plugin_info_dict` (lines 720-764). -/
def invkinOpwInfo (robotName base tip : String) (q : OpwParams α) : Yaml α × List String :=
  (.dict [("inv_kin_plugins", .dict [(robotName, .dict [
    ("default", .str "OPWInvKin"),
    ("plugins", .dict [("OPWInvKin", .dict [
      ("class", .str "OPWInvKinFactory"),
      ("config", .dict [
        ("base_link", .str base),
        ("tip_link", .str tip),
        ("params", .dict [("a1", .num q.a1), ("a2", .num q.a2), ("b", .num q.b), ("c1", .num q.c1), ("c2", .num q.c2),
          ("c3", .num q.c3), ("c4", .num q.c4), ("offsets", .list (q.offsets.map .num)),
          ("sign_corrections", .list (q.signs.map .int))])])])])])])], ["tesseract_kinematics_opw_factories"])

/-- `URInvKinParameters` (lines 949-958). -/
structure UrParams (α : Type) where
  d1 : α
  a2 : α
  a3 : α
  d4 : α
  d5 : α
  d6 : α

/-- The axes of line 984, and line 985 with all signs changed. -/
def urAxes : List (V3 α) := [V3.ez, -V3.ey, -V3.ey, -V3.ey, -V3.ez, -V3.ey]

/-- lines 995-1011 -/
def urParams (P2 : List (V3 α)) : Except PyErr (UrParams α) :=
  match P2 with
  | [p0, p1, p2, p3, p4, p5, p6] => do
      pyAssert (decide (iscloseD p0.x 0) && decide (iscloseD p0.y 0))
      pyAssert (decide (iscloseD p1.x 0))
      pyAssert ([p1, p2, p3].all fun p => decide (iscloseD p.z 0))
      pyAssert ([p4, p5, p6].all fun p => decide (iscloseD p.x 0))
      pyAssert ([p5, p6].all fun p => decide (iscloseD p.z 0))
      pyAssert ([p5, p6].all fun p => decide (iscloseD p.x 0))
      return {
        d1 := p0.z
        a2 := p2.x
        a3 := p3.x
        d4 := -(p1.y + p2.y + p3.y + p4.y)
        d5 := -p4.z
        d6 := -p5.y }
  | _ => .error .index

/-- The columns of `robot.H` when it is compared with an array of six columns (line 984): numpy repeats a single column. -/
def sixCols : List (V3 α) → List (V3 α)
  | [h] => [h, h, h, h, h, h]
  | H => H

/-- `robot_to_ur_inv_kin_parameters` (lines 960-1011).  `np.allclose(robot.H, _)` of arrays that cannot be broadcast is a ValueError
(line 984). -/
def robotToUr (robot : Robot α) : Except PyErr (UrParams α) := do
  match robot.Tflange with
  | none => .error .assertion
  | some F => do
    pyAssert (allcloseM F.R (M3.ofCols V3.ex V3.ez (-V3.ey)) (lit (1/1000000)))
    pyAssert (decide (allclose3 F.p 0))
    match robot.Tbase with
    | none => .error .assertion
    | some B => do
      pyAssert (allcloseM B.R (rot V3.ez Elem.pi) (lit (1/1000000)))
      pyAssert (decide (allclose3 B.p 0))
      if (sixCols robot.H).length ≠ 6 then .error .value
      else do
        let minus := ((sixCols robot.H).zip urAxes).all fun he => decide (allclose3 he.1 he.2)
        let plus := ((sixCols robot.H).zip urAxes).all fun he => decide (allclose3 he.1 (-he.2))
        pyAssert (minus || plus)
        urParams (if plus then robot.P.map (rot V3.ez Elem.pi).mulVec else robot.P)

/-- `kinematics_plugin_invkin_ur_plugin_info_dict` (lines 1013-1053). -/
def invkinUrInfo (robotName base tip : String) (q : UrParams α) : Yaml α × List String :=
  (.dict [("inv_kin_plugins", .dict [(robotName, .dict [
    ("default", .str "URInvKin"),
    ("plugins", .dict [("URInvKin", .dict [
      ("class", .str "URInvKinFactory"),
      ("config", .dict [
        ("base_link", .str base),
        ("tip_link", .str tip),
        ("params", .dict [("d1", .num q.d1), ("a2", .num q.a2), ("a3", .num q.a3), ("d4", .num q.d4), ("d5", .num q.d5),
          ("d6", .num q.d6)])])])])])])], ["tesseract_kinematics_ur_factories"])

/-- The argument `invkin_plugin_info`: a pair of dictionary and library list (as line 533 expects), or a string (as the
documentation says). -/
inductive PluginOverride (α : Type) where
  | pair (info : Yaml α) (libs : List String)
  | str (s : String)

/-- lines 529-550: the inverse kinematics plugin and its libraries.  Unpacking a string into two names is a ValueError unless it has
two characters, and then line 550 adds a string to a list, a TypeError. -/
def invkinInfo (robot : Robot α) (robotName : String) (chainNames : List String) (solver : Option String)
    (over : Option (PluginOverride α)) (base tip : String) : Except PyErr (Yaml α × List String) :=
  let solver := solver.getD "KDLInvKinChainLMA"
  match over with
  | some (.pair info libs) => .ok (info, libs)
  | some (.str s) => if s.toList.length = 2 then .error .type else .error .value
  | none =>
    if solver = "KDLInvKinChainLMA" ∨ solver = "KDLInvKinChainNR" then .ok (invkinKdlInfo robotName base tip solver)
    else if solver = "OPWInvKin" then do
      let q ← robotToOpw robot
      let b ← hd chainNames
      return invkinOpwInfo robotName b (robotName ++ "_flange") q
    else if solver = "URInvKin" then do
      let q ← robotToUr robot
      return invkinUrInfo robotName base tip q
    else .error .assertion

/-- `kinematics_plugin_info_dict` (lines 491-560).  Simplification: `list(set(libs))` keeps the order (Python's order of a set of
strings is unspecified). -/
def pluginInfoDict (robot : Robot α) (robotName : String) (linkNames chainNames : List String) (solver : Option String)
    (over : Option (PluginOverride α)) (base tip : Option String) : Except PyErr (Yaml α) := do
  let base ← orElseGet base linkNames.head?
  let tip ← orElseGet tip linkNames.getLast?
  let fk := fwdkinKdlInfo (α := α) robotName base tip
  let ik ← invkinInfo robot robotName chainNames solver over base tip
  let fks ← fk.1.item "fwd_kin_plugins"
  let iks ← ik.1.item "inv_kin_plugins"
  return .dict [("kinematic_plugins", .dict [
    ("search_libraries", .list ((fk.2 ++ ik.2).eraseDups.map .str)),
    ("fwd_kin_plugins", fks),
    ("inv_kin_plugins", iks)])]

/-- What `robot_to_tesseract_env_commands` (lines 362-415) puts into the environment: the robot's graph with its world joint and
prefix, the base and tip link of the chain group, the plugin dictionary (its YAML text is in `Model/TesseractText.lean`), and the
returned names. -/
structure EnvCommands (α : Type) where
  world : Bool
  sg : SGraph α
  joint : TJoint α
  pre : String
  chain : String × String
  plugins : Yaml α
  linkNames : List String
  jointNames : List String

/-- `robot_to_tesseract_env_commands` (lines 362-415) with `return_names = True`, including `tesseract_kinematics_information`
(lines 313-359). -/
def envCommands (robot : Robot α) (robotName : String) (includeWorld : Bool) (solver : Option String)
    (over : Option (PluginOverride α)) : Except PyErr (EnvCommands α) := do
  let r ← robotToSceneGraph robot
  let linkNames := prefixNames r.linkNames robotName
  let jointNames := prefixNames r.jointNames robotName
  let chainNames := prefixNames r.chainNames robotName
  let tip ← orElseGet none linkNames.getLast?
  let info ← pluginInfoDict robot robotName linkNames chainNames solver over (some "world") (some tip)
  return {
    world := includeWorld
    sg := r.sg
    joint := worldToBaseJoint robot robotName
    pre := robotName ++ "_"
    chain := ("world", tip)
    plugins := info
    linkNames := if includeWorld then "world" :: linkNames else linkNames
    jointNames := jointNames }

/-- Applying the commands to an environment with scene graph `env` (external): the world link is inserted first if asked for (only
into an empty environment), then the robot. -/
def EnvCommands.apply (c : EnvCommands α) (env : SGraph α) : Option (SGraph α) :=
  if c.world then
    if env.links = [] then SGraph.insertWith worldSceneGraph c.sg c.joint c.pre else none
  else env.insertWith c.sg c.joint c.pre

/-- `robot_to_tesseract_env` (lines 766-799): scene graph of the new environment and returned names. -/
def robotToEnv (robot : Robot α) (robotName : String) (includeWorld : Bool) (solver : Option String)
    (over : Option (PluginOverride α)) : Except PyErr (SGraph α × List String × List String) := do
  let c ← envCommands robot robotName includeWorld solver over
  match c.apply SGraph.empty with
  | none => .error .assertion
  | some e => return (e, c.linkNames, c.jointNames)

/-! ## `TesseractRobot` -/

/-- A `TesseractRobot` (lines 833-844): the environment's scene graph and the default link names. -/
structure TRobot (α : Type) where
  env : SGraph α
  robotName : String
  base : String
  tip : String

/-- `TesseractRobot.__init__` (lines 810-839) with a robot. -/
def TRobot.init (robot : Robot α) (robotName : String) (solver : Option String) : Except PyErr (TRobot α) := do
  let r ← robotToEnv robot robotName true solver none
  let base ← orElseGet none r.2.1.head?
  let tip ← orElseGet none r.2.1.getLast?
  return ⟨r.1, robotName, base, tip⟩

/-- `TesseractRobot.fwdkin` (lines 846-873), given the frames that `calcFwdKin` returns (external: a map from link names to poses;
a missing name is reported as KeyError). -/
def TRobot.fwdkin (r : TRobot α) (frames : String → Option (Iso α)) (base tip : Option String) : Except PyErr (Transform α) :=
  match frames (tip.getD r.tip) with
  | none => .error .key
  | some T => match base with
    | none => .ok (ofIsometry T)
    | some b => match frames b with
      | none => .error .key
      | some B => .ok (ofIsometry (B.inv * T))

/-- `TesseractRobot.jacobian` (lines 875-898), given the columns of the matrix that `calcJacobian` returns (external; linear velocity
in the upper half). -/
def tesseractJacobian (J : List (V6 α)) : List (V6 α) := J.map fun c => ⟨c.bot, c.top⟩

/-- `TesseractRobot.jacobian` (lines 887-898) with its default arguments; `calcJacobian` (external, at the given joint positions) maps
base link and link name to the columns of the matrix, or raises. -/
def TRobot.jacobian (r : TRobot α) (calcJacobian : String → String → Except PyErr (List (V6 α))) (base link : Option String) :
    Except PyErr (List (V6 α)) := do
  let J ← calcJacobian (base.getD r.base) (link.getD r.tip)
  return tesseractJacobian J

/-- What `calcInvKin` is called with (lines 921-926): pose of the tip link, working frame and tip link. -/
structure IKInput (α : Type) where
  pose : Iso α
  workingFrame : String
  tip : String

/-- `TesseractRobot.invkin` (lines 900-933); `calcInvKin` (external) maps input and seed to a list of joint vectors, or raises.
`flatten()` of a vector (line 932) is the vector. -/
def TRobot.invkin (r : TRobot α) (calcInvKin : IKInput α → List α → Except PyErr (List (List α))) (T : Transform α) (seed : List α)
    (base tip : Option String) : Except PyErr (List (List α)) :=
  calcInvKin ⟨toIsometry T, base.getD r.base, tip.getD r.tip⟩ seed

end
