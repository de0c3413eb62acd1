import Verif.XReal

/-!
# Small vectors and matrices

NumPy arrays of fixed shape `(3,)`/`(3,1)`, `(3,3)`, `(4,)`, `(6,)` as structures.  The operations below are the
NumPy primitives the code calls (`np.dot`, `np.matmul`, `np.cross`, `np.linalg.norm`, `.T`, `np.identity`, ...).
-/

/-- A `(3,)` or `(3,1)` array. -/
@[ext] structure V3 (α : Type) where
  x : α
  y : α
  z : α
deriving Repr

/-- A `(3,3)` array; `aij` is row `i`, column `j`. -/
@[ext] structure M3 (α : Type) where
  a00 : α
  a01 : α
  a02 : α
  a10 : α
  a11 : α
  a12 : α
  a20 : α
  a21 : α
  a22 : α
deriving Repr

/-- A quaternion `[w, x, y, z]`, the code's `[q0; qv]`. -/
@[ext] structure V4 (α : Type) where
  w : α
  x : α
  y : α
  z : α
deriving Repr

/-- A `(6,)` array made of two stacked 3-vectors (twist, wrench, Jacobian column). -/
@[ext] structure V6 (α : Type) where
  top : V3 α
  bot : V3 α
deriving Repr

section
variable {α : Type} [Add α] [Sub α] [Mul α] [Div α] [Neg α] [Zero α] [One α] [LT α] [LE α]
  [DecidableLT α] [DecidableLE α] [Elem α]

namespace V3
def add (a b : V3 α) : V3 α := ⟨a.x + b.x, a.y + b.y, a.z + b.z⟩
def sub (a b : V3 α) : V3 α := ⟨a.x - b.x, a.y - b.y, a.z - b.z⟩
def neg (a : V3 α) : V3 α := ⟨-a.x, -a.y, -a.z⟩
def smul (c : α) (a : V3 α) : V3 α := ⟨c * a.x, c * a.y, c * a.z⟩
/-- `v / c` -/
def sdiv (a : V3 α) (c : α) : V3 α := ⟨a.x / c, a.y / c, a.z / c⟩
def zero : V3 α := ⟨0, 0, 0⟩
/-- `np.dot(a, b)` -/
def dot (a b : V3 α) : α := a.x * b.x + a.y * b.y + a.z * b.z
/-- `np.cross(a, b)` -/
def cross (a b : V3 α) : V3 α :=
  ⟨a.y * b.z - a.z * b.y, a.z * b.x - a.x * b.z, a.x * b.y - a.y * b.x⟩
/-- `np.linalg.norm(a)` -/
def norm (a : V3 α) : α := Elem.sqrt (a.x * a.x + a.y * a.y + a.z * a.z)
instance : Add (V3 α) := ⟨add⟩
instance : Sub (V3 α) := ⟨sub⟩
instance : Neg (V3 α) := ⟨neg⟩
instance : Zero (V3 α) := ⟨zero⟩
def ex : V3 α := ⟨1, 0, 0⟩
def ey : V3 α := ⟨0, 1, 0⟩
def ez : V3 α := ⟨0, 0, 1⟩
end V3

namespace M3
def one : M3 α := ⟨1, 0, 0, 0, 1, 0, 0, 0, 1⟩
def zero : M3 α := ⟨0, 0, 0, 0, 0, 0, 0, 0, 0⟩
def add (A B : M3 α) : M3 α :=
  ⟨A.a00 + B.a00, A.a01 + B.a01, A.a02 + B.a02, A.a10 + B.a10, A.a11 + B.a11, A.a12 + B.a12,
   A.a20 + B.a20, A.a21 + B.a21, A.a22 + B.a22⟩
def sub (A B : M3 α) : M3 α :=
  ⟨A.a00 - B.a00, A.a01 - B.a01, A.a02 - B.a02, A.a10 - B.a10, A.a11 - B.a11, A.a12 - B.a12,
   A.a20 - B.a20, A.a21 - B.a21, A.a22 - B.a22⟩
def smul (c : α) (A : M3 α) : M3 α :=
  ⟨c * A.a00, c * A.a01, c * A.a02, c * A.a10, c * A.a11, c * A.a12, c * A.a20, c * A.a21, c * A.a22⟩
/-- matrix product -/
def mul (A B : M3 α) : M3 α :=
  ⟨A.a00 * B.a00 + A.a01 * B.a10 + A.a02 * B.a20,
   A.a00 * B.a01 + A.a01 * B.a11 + A.a02 * B.a21,
   A.a00 * B.a02 + A.a01 * B.a12 + A.a02 * B.a22,
   A.a10 * B.a00 + A.a11 * B.a10 + A.a12 * B.a20,
   A.a10 * B.a01 + A.a11 * B.a11 + A.a12 * B.a21,
   A.a10 * B.a02 + A.a11 * B.a12 + A.a12 * B.a22,
   A.a20 * B.a00 + A.a21 * B.a10 + A.a22 * B.a20,
   A.a20 * B.a01 + A.a21 * B.a11 + A.a22 * B.a21,
   A.a20 * B.a02 + A.a21 * B.a12 + A.a22 * B.a22⟩
/-- matrix times column vector -/
def mulVec (A : M3 α) (v : V3 α) : V3 α :=
  ⟨A.a00 * v.x + A.a01 * v.y + A.a02 * v.z,
   A.a10 * v.x + A.a11 * v.y + A.a12 * v.z,
   A.a20 * v.x + A.a21 * v.y + A.a22 * v.z⟩
/-- row vector times matrix -/
def vecMul (v : V3 α) (A : M3 α) : V3 α :=
  ⟨v.x * A.a00 + v.y * A.a10 + v.z * A.a20,
   v.x * A.a01 + v.y * A.a11 + v.z * A.a21,
   v.x * A.a02 + v.y * A.a12 + v.z * A.a22⟩
def transpose (A : M3 α) : M3 α :=
  ⟨A.a00, A.a10, A.a20, A.a01, A.a11, A.a21, A.a02, A.a12, A.a22⟩
def trace (A : M3 α) : α := A.a00 + A.a11 + A.a22
/-- matrix with the given columns -/
def ofCols (a b c : V3 α) : M3 α := ⟨a.x, b.x, c.x, a.y, b.y, c.y, a.z, b.z, c.z⟩
/-- `np.linalg.norm(A)` (Frobenius) -/
def frob (A : M3 α) : α :=
  Elem.sqrt (A.a00 * A.a00 + A.a01 * A.a01 + A.a02 * A.a02 + A.a10 * A.a10 + A.a11 * A.a11 + A.a12 * A.a12
    + A.a20 * A.a20 + A.a21 * A.a21 + A.a22 * A.a22)
/-- `np.outer(a, b)` -/
def outer (a b : V3 α) : M3 α :=
  ⟨a.x * b.x, a.x * b.y, a.x * b.z, a.y * b.x, a.y * b.y, a.y * b.z, a.z * b.x, a.z * b.y, a.z * b.z⟩
def toList (A : M3 α) : List α := [A.a00, A.a01, A.a02, A.a10, A.a11, A.a12, A.a20, A.a21, A.a22]
instance : Add (M3 α) := ⟨add⟩
instance : Sub (M3 α) := ⟨sub⟩
instance : Mul (M3 α) := ⟨mul⟩
instance : One (M3 α) := ⟨one⟩
instance : Zero (M3 α) := ⟨zero⟩
end M3

def V3.toList (v : V3 α) : List α := [v.x, v.y, v.z]

namespace V4
/-- `np.dot` of 4-vectors -/
def dot (a b : V4 α) : α := a.w * b.w + a.x * b.x + a.y * b.y + a.z * b.z
def norm (a : V4 α) : α := Elem.sqrt (a.w * a.w + a.x * a.x + a.y * a.y + a.z * a.z)
def add (a b : V4 α) : V4 α := ⟨a.w + b.w, a.x + b.x, a.y + b.y, a.z + b.z⟩
def neg (a : V4 α) : V4 α := ⟨-a.w, -a.x, -a.y, -a.z⟩
def smul (c : α) (a : V4 α) : V4 α := ⟨c * a.w, c * a.x, c * a.y, c * a.z⟩
def sdiv (a : V4 α) (c : α) : V4 α := ⟨a.w / c, a.x / c, a.y / c, a.z / c⟩
/-- `q[1:4]` -/
def vec (q : V4 α) : V3 α := ⟨q.x, q.y, q.z⟩
instance : Add (V4 α) := ⟨add⟩
instance : Neg (V4 α) := ⟨neg⟩
end V4

namespace V6
def add (a b : V6 α) : V6 α := ⟨a.top + b.top, a.bot + b.bot⟩
def dot (a b : V6 α) : α := a.top.dot b.top + a.bot.dot b.bot
end V6

end

/-! ### Map along a scalar function; embedding of real arrays into `XReal` arrays -/
def V3.map {α β : Type} (f : α → β) (v : V3 α) : V3 β := ⟨f v.x, f v.y, f v.z⟩
def M3.map {α β : Type} (f : α → β) (A : M3 α) : M3 β :=
  ⟨f A.a00, f A.a01, f A.a02, f A.a10, f A.a11, f A.a12, f A.a20, f A.a21, f A.a22⟩
def V4.map {α β : Type} (f : α → β) (v : V4 α) : V4 β := ⟨f v.w, f v.x, f v.y, f v.z⟩

/-- The finite `XReal` array with the given real entries. -/
def V3.up (v : V3 ℝ) : V3 XReal := v.map XReal.fin
/-- The finite `XReal` array with the given real entries. -/
def M3.up (A : M3 ℝ) : M3 XReal := A.map XReal.fin
/-- The finite `XReal` array with the given real entries. -/
def V4.up (v : V4 ℝ) : V4 XReal := v.map XReal.fin
