import Verif.Model.Core

/-!
# Model of `general_robotics_toolbox.py`, lines 333-636 and 858-915: Robot, Transform, kinematics

All line numbers refer to `/repo/src/general_robotics_toolbox/general_robotics_toolbox.py`.
-/

/-- `Transform` (lines 457-483): rotation, position and optional frame ids.  The shape assertions of lines 478-479
are enforced by the types. -/
@[ext] structure Transform (α : Type) where
  R : M3 α
  p : V3 α
  parent : Option String := none
  child : Option String := none
deriving Repr

/-- `Robot` attributes (lines 333-353, 442-453).  `H` and `P` are lists of columns; optional arguments are
`Option`.  `effortLimit` is the attribute that `urdf.py` line 182 adds. -/
structure Robot (α : Type) where
  H : List (V3 α)
  P : List (V3 α)
  jointType : List Nat
  lower : Option (List α) := none
  upper : Option (List α) := none
  vel : Option (List α) := none
  acc : Option (List α) := none
  M : Option (List (M6 α)) := none
  Rtool : Option (M3 α) := none
  ptool : Option (V3 α) := none
  jointNames : Option (List String) := none
  rootLink : Option String := none
  tipLink : Option String := none
  Tflange : Option (Transform α) := none
  Tbase : Option (Transform α) := none
  effortLimit : Option (List α) := none

/-- `assert c` -/
def pyAssert (c : Bool) : Except PyErr Unit := if c then .ok () else .error .assertion

section
variable {α : Type} [Add α] [Sub α] [Mul α] [Div α] [Neg α] [Zero α] [One α] [LT α] [LE α]
  [DecidableLT α] [DecidableLE α] [Elem α]

namespace Transform

/-- `Transform.__mul__` (lines 486-489). -/
def mul (A B : Transform α) : Transform α :=
  ⟨A.R * B.R, A.p + A.R.mulVec B.p, A.parent, B.child⟩

instance : Mul (Transform α) := ⟨mul⟩

/-- `Transform.inv` (lines 499-502). -/
def inv (A : Transform α) : Transform α :=
  ⟨A.R.transpose, -(A.R.transpose.mulVec A.p), A.child, A.parent⟩

/-- `np.all(np.isclose(a, b, rtol, atol))` for equal-length arrays. -/
def allIsclose (a b : List α) (rtol atol : α) : Bool :=
  (a.zip b).all (fun ab => decide (_root_.isclose ab.1 ab.2 rtol atol))

/-- `Transform.__eq__` (lines 491-494): `np.isclose(_, _, 1e-6)` sets rtol, atol keeps its default 1e-8. -/
def eq (A B : Transform α) : Bool :=
  allIsclose A.R.toList B.R.toList (lit (1/1000000)) (lit (1/100000000)) &&
  allIsclose A.p.toList B.p.toList (lit (1/1000000)) (lit (1/100000000))

/-- `Transform.isclose` (lines 525-528): atol = tol, rtol keeps its default 1e-5. -/
def isclose (A B : Transform α) (tol : α) : Bool :=
  allIsclose A.R.toList B.R.toList (lit (1/100000)) tol &&
  allIsclose A.p.toList B.p.toList (lit (1/100000)) tol

end Transform

/-- `identity_transform` (lines 902-904). -/
def identityTransform : Transform α := ⟨1, 0, none, none⟩

/-- `len(x) == n` for an optional argument that is checked only when given. -/
def lenOk {β : Type} (x : Option (List β)) (n : Nat) : Bool :=
  match x with
  | none => true
  | some l => l.length == n

/-- `Robot.__init__` (lines 356-453).  `H.shape[0] == 3`, `P.shape[0] == 3` (line 403) and `m.shape == (6,6)`
(line 430) are enforced by the types. -/
def Robot.init (H P : List (V3 α)) (jointType : List Nat) (lower upper vel acc : Option (List α))
    (M : Option (List (M6 α))) (Rtool : Option (M3 α)) (ptool : Option (V3 α))
    (jointNames : Option (List String)) (rootLink tipLink : Option String)
    (Tflange Tbase : Option (Transform α)) : Except PyErr (Robot α) := do
  pyAssert (H.all fun h => decide (iscloseD h.norm 1))
  pyAssert (jointType.all fun j => j ∈ [0, 1, 2, 3])
  pyAssert (H.length + 1 == P.length && H.length == jointType.length)
  let (lower', upper') ← match lower, upper with
    | some l, some u => do
        pyAssert (l.length == jointType.length)
        pyAssert (u.length == jointType.length)
        pure (some l, some u)
    | _, _ => pure (none, none)
  pyAssert (lenOk vel jointType.length)
  pyAssert (lenOk acc jointType.length)
  pyAssert (lenOk M P.length)
  let (Rtool', ptool') := match Rtool, ptool with
    | some R, some p => (some R, some p)
    | _, _ => (none, none)
  pyAssert (lenOk jointNames jointType.length)
  return { H := H, P := P, jointType := jointType, lower := lower', upper := upper', vel := vel, acc := acc,
           M := M, Rtool := Rtool', ptool := ptool', jointNames := jointNames, rootLink := rootLink,
           tipLink := tipLink, Tflange := Tflange, Tbase := Tbase }

/-- NumPy broadcasting of two 1-D arrays: equal lengths, or one of length 1; otherwise ValueError. -/
def bcast {β γ : Type} (a : List β) (b : List γ) : Except PyErr (List (β × γ)) :=
  if a.length = b.length then .ok (a.zip b)
  else match a, b with
    | [x], bs => .ok (bs.map fun y => (x, y))
    | as, [y] => .ok (as.map fun x => (x, y))
    | _, _ => .error .value

/-- The joint limit check shared by `fwdkin` (lines 543-547) and `robotjacobian` (lines 576-579). -/
def checkLimits (robot : Robot α) (theta : List α) (ignoreLimits : Bool) : Except PyErr Unit :=
  if ignoreLimits then .ok ()
  else match robot.lower, robot.upper with
    | some l, some u => do
        let gl ← bcast theta l
        pyAssert (gl.all fun tl => decide (tl.2 ≤ tl.1))
        let gu ← bcast theta u
        pyAssert (gu.all fun tu => decide (tu.1 ≤ tu.2))
    | _, _ => .ok ()

/-- `apply_robot_aux_transforms` (lines 858-878). -/
def applyAux (robot : Robot α) (T : Transform α) : Transform α :=
  let T1 := match robot.Tflange with
    | some F => T * F
    | none => T
  let T2 := match robot.Rtool, robot.ptool with
    | some R, some p => T1 * ⟨R, p, none, none⟩
    | _, _ => T1
  match robot.Tbase with
    | some B => B * T2
    | none => T2

/-- `unapply_robot_aux_transforms` (lines 880-900). -/
def unapplyAux (robot : Robot α) (T : Transform α) : Transform α :=
  let T1 := match robot.Rtool, robot.ptool with
    | some R, some p => T * (Transform.inv ⟨R, p, none, none⟩)
    | _, _ => T
  let T2 := match robot.Tflange with
    | some F => T1 * F.inv
    | none => T1
  match robot.Tbase with
    | some B => B.inv * T2
    | none => T2

/-- One pass of the `for` loop body (lines 551-556): new `R` and new `p`, given joint type, axis, the next column
of `P` and the joint value. -/
def fwdStep (t : Nat) (h P : V3 α) (th : α) (Rp : M3 α × V3 α) : M3 α × V3 α :=
  let R := Rp.1
  let p := Rp.2
  if t = 0 ∨ t = 2 then
    let R' := R * rot h th
    (R', p + R'.mulVec P)
  else if t = 1 ∨ t = 3 then
    let p' := p + V3.smul th (R.mulVec h)
    (R, p' + R.mulVec P)
  else (R, p + R.mulVec P)

/-- The `for` loop of `fwdkin` (lines 551-556), walking the columns of `H`, the columns `1..` of `P` and `theta` in
step; running out of any of them is the IndexError of Python (surplus entries are never read). -/
def fwdLoop : List Nat → List (V3 α) → List (V3 α) → List α → M3 α × V3 α → Except PyErr (M3 α × V3 α)
  | [], _, _, _, Rp => .ok Rp
  | t :: ts, h :: hs, P :: Ps, th :: ths, Rp => fwdLoop ts hs Ps ths (fwdStep t h P th Rp)
  | _ :: _, _, _, _, _ => .error .index

/-- `fwdkin` (lines 530-560). -/
def fwdkin (robot : Robot α) (theta : List α) (ignoreLimits : Bool := false) : Except PyErr (Transform α) := do
  checkLimits robot theta ignoreLimits
  match robot.P with
  | [] => .error .index
  | P0 :: Ps =>
    let (R, p) ← fwdLoop robot.jointType robot.H Ps theta (1, P0)
    return applyAux robot ⟨R, p, none, none⟩

/-- What the first loop of `robotjacobian` records for joint `i`: `pOi[:,i]`, `hi[:,i]`, the joint type and
`theta[i]`. -/
structure JointFrame (α : Type) where
  ty : Nat
  pO : V3 α
  h : V3 α
  th : α

/-- The first loop of `robotjacobian` (lines 594-601): returns the recorded frames, the final `R` and the last
column `pOi[:,n]`. -/
def jacLoop : List Nat → List (V3 α) → List (V3 α) → List α → M3 α × V3 α →
    Except PyErr (List (JointFrame α) × M3 α × V3 α)
  | [], _, _, _, Rp => .ok ([], Rp.1, Rp.2)
  | t :: ts, h :: hs, P :: Ps, th :: ths, Rp => do
      let Rp' := fwdStep t h P th Rp
      let (fs, R, p) ← jacLoop ts hs Ps ths Rp'
      return (⟨t, Rp.2, Rp'.1.mulVec h, th⟩ :: fs, R, p)
  | _ :: _, _, _, _, _ => .error .index

/-- The `while` loop of `robotjacobian` (lines 612-630), producing the list of columns of `J`
(`top` = rows 0:3, `bot` = rows 3:6).
Simplification: the code fills a preallocated zero matrix with two counters `i`, `j`, and drops the last column for
every mobile (type 3) group; each column is written once, in order, so the final matrix is the list built here.
A type-2 joint outside a group leaves its zero column. -/
def jacCols (pOT : V3 α) : List (JointFrame α) → Except PyErr (List (V6 α))
  | [] => .ok []
  | f :: fs =>
    if f.ty = 0 then do
      let rest ← jacCols pOT fs
      return ⟨f.h, (hat f.h).mulVec (pOT - f.pO)⟩ :: rest
    else if f.ty = 1 then do
      let rest ← jacCols pOT fs
      return ⟨0, f.h⟩ :: rest
    else if f.ty = 3 then
      match fs with
      | _ :: g :: fs' => do
          let rest ← jacCols pOT fs'
          return ⟨0, (rot g.h g.th).mulVec f.h⟩ :: ⟨g.h, (hat g.h).mulVec (pOT - g.pO)⟩ :: rest
      | _ => .error .index
    else do
      let rest ← jacCols pOT fs
      return ⟨0, 0⟩ :: rest

/-- `robotjacobian` (lines 563-636); the Jacobian is the list of its columns. -/
def robotjacobian (robot : Robot α) (theta : List α) (ignoreLimits : Bool := false) :
    Except PyErr (List (V6 α)) := do
  checkLimits robot theta ignoreLimits
  match robot.P with
  | [] => .error .index
  | P0 :: Ps =>
    let (fs, R, pn) ← jacLoop robot.jointType robot.H Ps theta (1, P0)
    let Rflange : M3 α := match robot.Tflange with
      | some F => F.R
      | none => 1
    let pOT1 := match robot.Tflange with
      | some F => pn + R.mulVec F.p
      | none => pn
    let pOT := match robot.ptool with
      | some pt => pOT1 + (R * Rflange).mulVec pt
      | none => pOT1
    let J ← jacCols pOT fs
    match robot.Tbase with
    | none => return J
    | some B => return J.map fun c => ⟨B.R.mulVec c.top, B.R.mulVec c.bot⟩

end
