import Verif.Model.Invkin

/-! # Arrays shared between objects

numpy arrays are passed by reference.  In the other files a robot or transform owns its arrays; here the ones that can be shared and
written to are looked up in a memory.

Sources: `/repo/src/general_robotics_toolbox/general_robotics_toolbox.py` (lines 440-441 `self.H = H`, `self.P = P`; lines 481-482
`self.R=np.array(R)`, `self.p=np.reshape(p,(3,))`), `general_robotics_toolbox_invkin.py` (lines 145-161, `P = robot.P`, `P[:,3] += P[:,4]` etc.).
Only `P` is modelled as shared: no function of the toolbox writes to another array that belongs to a robot. -/

/-- The arrays by address: 3 × n matrices (by columns) and vectors of three numbers. -/
structure Mem (α : Type) where
  mats : Nat → List (V3 α)
  vecs : Nat → V3 α

/-- A `Robot` object: its attributes, where the matrix `P` is the one at an address (`Robot.__init__` does not copy it, line 441). -/
structure RobotObj (α : Type) where
  body : Robot α
  P : Nat

/-- A `Transform` object: `np.array(R)` is a copy (line 481); `np.reshape(p,(3,))` of an array is a view of its memory (line 482). -/
structure TransObj (α : Type) where
  R : M3 α
  p : Nat

section
variable {α : Type}

/-- What the object is at the moment. -/
def RobotObj.get (o : RobotObj α) (m : Mem α) : Robot α := { o.body with P := m.mats o.P }

/-- `Robot(H, P, ...)` for a matrix at an address -/
def RobotObj.new (robot : Robot α) (addr : Nat) : RobotObj α := ⟨robot, addr⟩

/-- `P[...] = ...` on the matrix at an address -/
def Mem.setMat (m : Mem α) (addr : Nat) (P : List (V3 α)) : Mem α :=
  { m with mats := fun a => if a = addr then P else m.mats a }

/-- `p[:] = ...` on the vector at an address -/
def Mem.setVec (m : Mem α) (addr : Nat) (p : V3 α) : Mem α :=
  { m with vecs := fun a => if a = addr then p else m.vecs a }

/-- `Transform(R, p)` for a vector at an address -/
def TransObj.new (R : M3 α) (addr : Nat) : TransObj α := ⟨R, addr⟩

/-- What the object is at the moment. -/
def TransObj.get (T : TransObj α) (m : Mem α) : Transform α := ⟨T.R, m.vecs T.p, none, none⟩

variable [Add α] [Sub α] [Mul α] [Div α] [Neg α] [Zero α] [One α] [LT α] [LE α] [DecidableLT α] [DecidableLE α] [Elem α]

/-- `robot6_sphericalwrist_invkin(robot, pose, last)` on an object: the memory after the call, and the returned list or the exception. -/
def callSpherical (m : Mem α) (o : RobotObj α) (pose : Transform α) (last : Option (List α)) : Mem α × Except PyErr (List (List α)) :=
  let r := robot6_sphericalwrist_invkin (o.get m) pose last
  (m.setMat o.P r.1.P, r.2)

end
