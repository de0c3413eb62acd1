import Verif.Vec

/-!
# Model of `general_robotics_toolbox.py`, lines 37-331: rotations and quaternions

All line numbers refer to `/repo/src/general_robotics_toolbox/general_robotics_toolbox.py`.
Shapes `(3,)` and `(3,1)` are not distinguished.
-/

/-- A 6x6 matrix as four 3x3 blocks `[[tl, tr], [bl, br]]`. -/
@[ext] structure M6 (α : Type) where
  tl : M3 α
  tr : M3 α
  bl : M3 α
  br : M3 α
deriving Repr

/-- A 4x4 matrix acting on quaternions, in blocks `[[s, row], [col, blk]]`. -/
@[ext] structure M4 (α : Type) where
  s : α
  row : V3 α
  col : V3 α
  blk : M3 α
deriving Repr

/-- A 4x3 matrix in blocks `[row; blk]`. -/
@[ext] structure M43 (α : Type) where
  row : V3 α
  blk : M3 α
deriving Repr

/-- A rotation axis as Python returns it: a plain `list` or a `numpy.array`.  The distinction is observable
because `rot2q` calls `.reshape` on it. -/
inductive Axis (α : Type) where
  | list (v : V3 α)
  | array (v : V3 α)

/-- the entries of the axis -/
def Axis.v {α : Type} : Axis α → V3 α
  | .list v => v
  | .array v => v

section
variable {α : Type} [Add α] [Sub α] [Mul α] [Div α] [Neg α] [Zero α] [One α] [LT α] [LE α]
  [DecidableLT α] [DecidableLE α] [Elem α]

namespace M6
def one : M6 α := ⟨1, 0, 0, 1⟩
def add (A B : M6 α) : M6 α := ⟨A.tl + B.tl, A.tr + B.tr, A.bl + B.bl, A.br + B.br⟩
def mul (A B : M6 α) : M6 α :=
  ⟨A.tl * B.tl + A.tr * B.bl, A.tl * B.tr + A.tr * B.br, A.bl * B.tl + A.br * B.bl, A.bl * B.tr + A.br * B.br⟩
def mulVec (A : M6 α) (v : V6 α) : V6 α :=
  ⟨A.tl.mulVec v.top + A.tr.mulVec v.bot, A.bl.mulVec v.top + A.br.mulVec v.bot⟩
def transpose (A : M6 α) : M6 α := ⟨A.tl.transpose, A.bl.transpose, A.tr.transpose, A.br.transpose⟩
end M6

namespace M4
/-- matrix times quaternion -/
def mulVec (A : M4 α) (q : V4 α) : V4 α :=
  let v := V3.smul q.w A.col + A.blk.mulVec q.vec
  ⟨A.s * q.w + A.row.dot q.vec, v.x, v.y, v.z⟩
end M4

namespace M43
/-- 4x3 matrix times 3-vector -/
def mulVec (A : M43 α) (w : V3 α) : V4 α :=
  let v := A.blk.mulVec w
  ⟨A.row.dot w, v.x, v.y, v.z⟩
end M43

/-- `hat` (lines 37-58). -/
def hat (k : V3 α) : M3 α :=
  ⟨0, -k.z, k.y,
   k.z, 0, -k.x,
   -k.y, k.x, 0⟩

/-- `invhat` (lines 60-61). -/
def invhat (S : M3 α) : V3 α :=
  V3.sdiv ⟨-S.a12 + S.a21, S.a02 - S.a20, -S.a01 + S.a10⟩ (lit 2)

/-- `rot` (lines 64-82). -/
def rot (k : V3 α) (theta : α) : M3 α :=
  let khat := hat k
  let khat2 := khat * khat
  1 + M3.smul (Elem.sin theta) khat + M3.smul (1 - Elem.cos theta) khat2

/-- `R2rot` (lines 84-123).  Line 111 returns a Python list, lines 120 and 123 arrays. -/
def R2rot (R : M3 α) : Axis α × α :=
  let R1 := R - R.transpose
  let sin_theta := R1.frob / Elem.sqrt (lit 8)
  let cos_theta := (R.trace - 1) / lit 2
  let theta := Elem.arctan2 sin_theta cos_theta
  if sin_theta < lit (1/1000000) then
    if 0 < cos_theta then
      (.list V3.ez, 0)
    else
      let B := M3.smul (lit (1/2)) (R + 1)
      let k : V3 α := ⟨Elem.sqrt B.a00, Elem.sqrt B.a11, Elem.sqrt B.a22⟩
      if lit (1/1000000) < Elem.abs k.x then
        (.array ⟨k.x, k.y * Elem.sign (B.a01 / k.x), k.z * Elem.sign (B.a02 / k.x)⟩, Elem.pi)
      else if lit (1/1000000) < Elem.abs k.y then
        -- line 119 really uses B[0,2] here
        (.array ⟨k.x, k.y, k.z * Elem.sign (B.a02 / k.y)⟩, Elem.pi)
      else
        (.array k, Elem.pi)
  else
    (.array ((invhat R1).sdiv (lit 2 * sin_theta)), theta)

/-- `screw_matrix` (lines 125-143): identity with `G[0:3,3:6] = hat(r)`. -/
def screwMatrix (r : V3 α) : M6 α := { M6.one with tr := hat r }

/-- `q2R` (lines 145-159). -/
def q2R (q : V4 α) : M3 α :=
  let qhat := hat q.vec
  let qhat2 := qhat * qhat
  1 + M3.smul (lit 2 * q.w) qhat + M3.smul (lit 2) qhat2

/-- `math.sqrt`: raises ValueError on a negative argument (unlike `np.sqrt`). -/
def mathSqrt (x : α) : Except PyErr α :=
  if x < 0 then .error .value else .ok (Elem.sqrt x)

/-- `R2q` (lines 161-199). -/
def R2q (R : M3 α) : Except PyErr (V4 α) := do
  let tr := R.trace
  if 0 < tr then
    let r ← mathSqrt (tr + 1)
    let S := lit 2 * r
    return ⟨lit (1/4) * S, (R.a21 - R.a12) / S, (R.a02 - R.a20) / S, (R.a10 - R.a01) / S⟩
  else if R.a11 < R.a00 ∧ R.a22 < R.a00 then
    let r ← mathSqrt (1 + R.a00 - R.a11 - R.a22)
    let S := lit 2 * r
    return ⟨(R.a21 - R.a12) / S, lit (1/4) * S, (R.a01 + R.a10) / S, (R.a02 + R.a20) / S⟩
  else if R.a22 < R.a11 then
    let r ← mathSqrt (1 - R.a00 + R.a11 - R.a22)
    let S := lit 2 * r
    return ⟨(R.a02 - R.a20) / S, (R.a01 + R.a10) / S, lit (1/4) * S, (R.a12 + R.a21) / S⟩
  else
    let r ← mathSqrt (1 - R.a00 - R.a11 + R.a22)
    let S := lit 2 * r
    return ⟨(R.a10 - R.a01) / S, (R.a02 + R.a20) / S, (R.a12 + R.a21) / S, lit (1/4) * S⟩

/-- `q2rot` (lines 201-214). -/
def q2rot (q : V4 α) : Axis α × α :=
  let theta := lit 2 * Elem.arccos q.w
  if Elem.abs theta < lit (1/1000000) then
    (.array V3.ez, 0)
  else
    (.array (q.vec.sdiv (Elem.sin (theta / lit 2))), theta)

/-- `rot2q` (lines 216-229) on an array axis. -/
def rot2qA (k : V3 α) (theta : α) : V4 α :=
  let s := Elem.sin (theta / lit 2)
  ⟨Elem.cos (theta / lit 2), k.x * s, k.y * s, k.z * s⟩

/-- `rot2q` (lines 216-229).  `k.reshape` exists on arrays only: a list raises AttributeError. -/
def rot2q (k : Axis α) (theta : α) : Except PyErr (V4 α) :=
  match k with
  | .list _ => .error .attribute
  | .array v => .ok (rot2qA v theta)

/-- `quatcomplement` (lines 231-244). -/
def quatcomplement (q : V4 α) : V4 α :=
  ⟨q.w, lit (-1) * q.x, lit (-1) * q.y, lit (-1) * q.z⟩

/-- `quatproduct` (lines 247-268). -/
def quatproduct (q : V4 α) : M4 α :=
  ⟨q.w, -q.vec, q.vec, M3.smul q.w 1 + hat q.vec⟩

/-- `quatjacobian` (lines 271-287). -/
def quatjacobian (q : V4 α) : M43 α :=
  ⟨V3.smul (lit (1/2)) (-q.vec), M3.smul (lit (1/2)) (M3.smul q.w 1 - hat q.vec)⟩

/-- `rpy2R` (lines 289-290); `rpy = (r, p, y)` as a vector. -/
def rpy2R (rpy : V3 α) : M3 α :=
  (rot V3.ez rpy.z * rot V3.ey rpy.y) * rot V3.ex rpy.x

/-- `R2rpy` (lines 292-299). -/
def R2rpy (R : M3 α) : Except PyErr (V3 α) :=
  if npEps * lit 10 < Elem.sqrt (R.a00 * R.a00 + R.a10 * R.a10) then
    let r := Elem.arctan2 R.a21 R.a22
    let y := Elem.arctan2 R.a10 R.a00
    let p := Elem.arctan2 (-R.a20) (Elem.sqrt (R.a21 * R.a21 + R.a22 * R.a22))
    .ok ⟨r, p, y⟩
  else .error .assertion

/-- `slerp` (lines 302-331). -/
def slerp (q0 q1 : V4 α) (t : α) : Except PyErr (V4 α) :=
  if 0 ≤ t ∧ t ≤ 1 then
    let q0 := q0.sdiv q0.norm
    let q1 := q1.sdiv q1.norm
    let q0 := if q0.dot q1 < 0 then -q0 else q0
    let theta := Elem.arccos (q0.dot q1)
    if Elem.abs theta < lit (1/1000000) then .ok q0
    else
      let q := ((V4.smul (Elem.sin ((1 - t) * theta)) q0) + (V4.smul (Elem.sin (t * theta)) q1)).sdiv
        (Elem.sin theta)
      .ok (q.sdiv q.norm)
  else .error .assertion

end
