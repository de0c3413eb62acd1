import Verif.Model.Robot

/-!
# Model of `ros_msg.py` and `ros_tf.py`

Line numbers refer to `/repo/src/general_robotics_toolbox/ros_msg.py`, or `ros_tf.py` where said.

`geometry_msgs` classes are generated by genpy from the message definitions: positional constructor arguments are the fields in
order, fields left out get the zero value of their type (`""` for strings).
-/
set_option autoImplicit false

/-- `geometry_msgs/Vector3` and `geometry_msgs/Point`: same fields, told apart by `type`. -/
@[ext] structure RosXYZ (α : Type) where
  type : String
  x : α
  y : α
  z : α
deriving Repr

/-- `geometry_msgs/Quaternion`: the field order is x, y, z, w. -/
@[ext] structure RosQuaternion (α : Type) where
  x : α
  y : α
  z : α
  w : α
deriving Repr

/-- `std_msgs/Header`; `seq` and `stamp` are not touched by the code. -/
structure RosHeader where
  frame_id : String := ""
deriving Repr

/-- `geometry_msgs/Transform` -/
structure RosTransform (α : Type) where
  translation : RosXYZ α
  rotation : RosQuaternion α
deriving Repr

/-- `geometry_msgs/TransformStamped` -/
structure RosTransformStamped (α : Type) where
  header : RosHeader
  child_frame_id : String
  transform : RosTransform α
deriving Repr

/-- `geometry_msgs/Pose` -/
structure RosPose (α : Type) where
  position : RosXYZ α
  orientation : RosQuaternion α
deriving Repr

/-- `geometry_msgs/PoseStamped` -/
structure RosPoseStamped (α : Type) where
  header : RosHeader
  pose : RosPose α
deriving Repr

/-- `geometry_msgs/Twist`: the field order is linear, angular. -/
@[ext] structure RosTwist (α : Type) where
  linear : RosXYZ α
  angular : RosXYZ α
deriving Repr

/-- `geometry_msgs/Wrench`: the field order is force, torque. -/
@[ext] structure RosWrench (α : Type) where
  force : RosXYZ α
  torque : RosXYZ α
deriving Repr

/-- An arbitrary Python object as seen by `msg2transform`: the attributes it looks for, `none` when `hasattr` is false. -/
structure RosObj (α : Type) where
  translation : Option (RosXYZ α) := none
  rotation : Option (RosQuaternion α) := none
  header : Option RosHeader := none
  transform : Option (RosTransform α) := none
  child_frame_id : Option String := none
  position : Option (RosXYZ α) := none
  orientation : Option (RosQuaternion α) := none
  pose : Option (RosPose α) := none

namespace RosObj
variable {α : Type}
def ofTransform (m : RosTransform α) : RosObj α := { translation := some m.translation, rotation := some m.rotation }
def ofTransformStamped (m : RosTransformStamped α) : RosObj α :=
  { header := some m.header, transform := some m.transform, child_frame_id := some m.child_frame_id }
def ofPose (m : RosPose α) : RosObj α := { position := some m.position, orientation := some m.orientation }
def ofPoseStamped (m : RosPoseStamped α) : RosObj α := { header := some m.header, pose := some m.pose }
end RosObj

section
variable {α : Type} [Add α] [Sub α] [Mul α] [Div α] [Neg α] [Zero α] [One α] [LT α] [LE α]
  [DecidableLT α] [DecidableLE α] [Elem α]

def rosVector3 : String := "geometry_msgs/Vector3"
def rosPoint : String := "geometry_msgs/Point"

/-- `msg2q` (lines 39-48) -/
def msg2q (m : RosQuaternion α) : V4 α := ⟨m.w, m.x, m.y, m.z⟩

/-- `q2msg` (lines 50-60).  The argument is the flattened array; `np.reshape(q, (4,))` raises ValueError for any other size. -/
def q2msg (q : List α) : Except PyErr (RosQuaternion α) :=
  match q with
  | [q0, q1, q2, q3] => .ok ⟨q1, q2, q3, q0⟩
  | _ => .error .value

/-- `msg2R` (lines 62-71) -/
def msg2R (m : RosQuaternion α) : M3 α := q2R (msg2q m)

/-- `R2msg` (lines 73-82) -/
def R2msg (R : M3 α) : Except PyErr (RosQuaternion α) := do
  let q ← R2q R
  q2msg [q.w, q.x, q.y, q.z]

/-- `msg2p` (lines 84-93); any object with x, y, z will do. -/
def msg2p (m : RosXYZ α) : V3 α := ⟨m.x, m.y, m.z⟩

/-- `p2msg` (lines 95-105) -/
def p2msg (p : List α) : Except PyErr (RosXYZ α) :=
  match p with
  | [x, y, z] => .ok ⟨rosVector3, x, y, z⟩
  | _ => .error .value

/-- `point_msg2p` (lines 107-116) -/
def point_msg2p (m : RosXYZ α) : V3 α := ⟨m.x, m.y, m.z⟩

/-- `p2point_msg` (lines 118-128) -/
def p2point_msg (p : List α) : Except PyErr (RosXYZ α) :=
  match p with
  | [x, y, z] => .ok ⟨rosPoint, x, y, z⟩
  | _ => .error .value

/-- `msg2transform` (lines 130-165), branch by branch. -/
def msg2transform (o : RosObj α) : Except PyErr (Transform α) :=
  match o.translation, o.rotation with
  | some t, some r => .ok ⟨msg2R r, msg2p t, none, none⟩
  | _, _ =>
    match o.header, o.transform with
    | some h, some t =>
      match o.child_frame_id with
      | some c => .ok ⟨msg2R t.rotation, msg2p t.translation, some h.frame_id, some c⟩
      | none => .error .attribute
    | _, _ =>
      match o.position, o.orientation with
      | some p, some r => .ok ⟨msg2R r, msg2p p, none, none⟩
      | _, _ =>
        match o.header, o.pose with
        | some h, some t => .ok ⟨msg2R t.orientation, msg2p t.position, some h.frame_id, none⟩
        | _, _ => .error .assertion

/-- `transform2msg` (lines 167-176) -/
def transform2msg (T : Transform α) : Except PyErr (RosTransform α) := do
  let t ← p2msg T.p.toList
  let r ← R2msg T.R
  return ⟨t, r⟩

/-- `transform2transform_stamped_msg` (lines 178-193) -/
def transform2transform_stamped_msg (T : Transform α) : Except PyErr (RosTransformStamped α) := do
  let t ← p2msg T.p.toList
  let r ← R2msg T.R
  let child := match T.child with
    | some c => c
    | none => ""
  let frame := match T.parent with
    | some c => c
    | none => ""
  return ⟨⟨frame⟩, child, ⟨t, r⟩⟩

/-- `transform2pose_msg` (lines 195-204) -/
def transform2pose_msg (T : Transform α) : Except PyErr (RosPose α) := do
  let t ← p2point_msg T.p.toList
  let r ← R2msg T.R
  return ⟨t, r⟩

/-- `transform2pose_stamped_msg` (lines 206-219) -/
def transform2pose_stamped_msg (T : Transform α) : Except PyErr (RosPoseStamped α) := do
  let t ← p2point_msg T.p.toList
  let r ← R2msg T.R
  let frame := match T.parent with
    | some c => c
    | none => ""
  return ⟨⟨frame⟩, ⟨t, r⟩⟩

/-- `msg2twist` (lines 221-231): a 6-vector, `top` = entries 0:3, `bot` = entries 3:6. -/
def msg2twist (m : RosTwist α) : V6 α :=
  ⟨⟨m.angular.x, m.angular.y, m.angular.z⟩, ⟨m.linear.x, m.linear.y, m.linear.z⟩⟩

/-- `twist2msg` (lines 233-244) -/
def twist2msg (v : List α) : Except PyErr (RosTwist α) :=
  match v with
  | [v0, v1, v2, v3, v4, v5] => .ok ⟨⟨rosVector3, v3, v4, v5⟩, ⟨rosVector3, v0, v1, v2⟩⟩
  | _ => .error .value

/-- `msg2wrench` (lines 246-256) -/
def msg2wrench (m : RosWrench α) : V6 α :=
  ⟨⟨m.torque.x, m.torque.y, m.torque.z⟩, ⟨m.force.x, m.force.y, m.force.z⟩⟩

/-- `wrench2msg` (lines 258-269) -/
def wrench2msg (v : List α) : Except PyErr (RosWrench α) :=
  match v with
  | [v0, v1, v2, v3, v4, v5] => .ok ⟨⟨rosVector3, v3, v4, v5⟩, ⟨rosVector3, v0, v1, v2⟩⟩
  | _ => .error .value

/-! ## `ros_tf.py` -/

/-- The `tf.TransformListener` that the wrapper holds: an external object with its own state `σ`, exceptions `ε` and time
stamps `τ`.  Lookups give a translation and a quaternion as tuples, the quaternion in the order x, y, z, w. -/
structure TfListener (σ τ ε α : Type) where
  canTransform : String → String → τ → σ → Except ε Bool × σ
  canTransformFull : String → τ → String → τ → String → σ → Except ε Bool × σ
  waitForTransform : String → String → τ → τ → Option τ → σ → Except ε Unit × σ
  waitForTransformFull : String → τ → String → τ → String → τ → Option τ → σ → Except ε Unit × σ
  clear : σ → σ
  lookupTransform : String → String → τ → σ → Except ε (V3 α × RosQuaternion α) × σ
  lookupTransformFull : String → τ → String → τ → String → σ → Except ε (V3 α × RosQuaternion α) × σ

namespace TfListener
variable {σ τ ε : Type}

/-- `TransformListener.canTransform` (ros_tf.py lines 47-51) -/
def tlCanTransform (l : TfListener σ τ ε α) (target source : String) (time : τ) (s : σ) : Except ε Bool × σ :=
  l.canTransform target source time s

/-- `TransformListener.canTransformFull` (ros_tf.py lines 53-55) -/
def tlCanTransformFull (l : TfListener σ τ ε α) (target : String) (targetTime : τ) (source : String) (sourceTime : τ)
    (fixed : String) (s : σ) : Except ε Bool × σ :=
  l.canTransformFull target targetTime source sourceTime fixed s

/-- `TransformListener.waitForTransform` (ros_tf.py lines 57-59); `polling = none` is the default -/
def tlWait (l : TfListener σ τ ε α) (target source : String) (time timeout : τ) (polling : Option τ) (s : σ) : Except ε Unit × σ :=
  l.waitForTransform target source time timeout polling s

/-- `TransformListener.waitForTransformFull` (ros_tf.py lines 61-63) -/
def tlWaitFull (l : TfListener σ τ ε α) (target : String) (targetTime : τ) (source : String) (sourceTime : τ) (fixed : String)
    (timeout : τ) (polling : Option τ) (s : σ) : Except ε Unit × σ :=
  l.waitForTransformFull target targetTime source sourceTime fixed timeout polling s

/-- `TransformListener.clear` (ros_tf.py lines 65-67) -/
def tlClear (l : TfListener σ τ ε α) (s : σ) : σ := l.clear s

/-- lines 71-73 and 77-79: `q=[r[3], r[0], r[1], r[2]]`, then the `Transform` -/
def convert (target source : String) (tr : V3 α × RosQuaternion α) : Transform α :=
  ⟨q2R ⟨tr.2.w, tr.2.x, tr.2.y, tr.2.z⟩, tr.1, some target, some source⟩

/-- `TransformListener.lookupTransform` (ros_tf.py lines 69-73) -/
def tlLookup (l : TfListener σ τ ε α) (target source : String) (time : τ) (s : σ) : Except ε (Transform α) × σ :=
  match l.lookupTransform target source time s with
  | (.error e, s') => (.error e, s')
  | (.ok tr, s') => (.ok (convert target source tr), s')

/-- `TransformListener.lookupTransformFull` (ros_tf.py lines 75-79) -/
def tlLookupFull (l : TfListener σ τ ε α) (target : String) (targetTime : τ) (source : String) (sourceTime : τ) (fixed : String)
    (s : σ) : Except ε (Transform α) × σ :=
  match l.lookupTransformFull target targetTime source sourceTime fixed s with
  | (.error e, s') => (.error e, s')
  | (.ok tr, s') => (.ok (convert target source tr), s')

end TfListener
end
