import Verif.Model.Invkin
import Verif.Model.Tesseract

/-! # Arrays of integers

numpy keeps the type of an array when numbers are assigned to its elements: a float stored into an array of integers loses its
fraction without an error.  In the other files arrays hold numbers of the scalar type; here the functions that assign to copies of
arrays passed in by the caller are modelled with the conversion `store` on assignment (the identity for arrays of floats). -/

section
variable {α : Type} [Add α] [Sub α] [Mul α] [Div α] [Neg α] [Zero α] [One α] [LT α] [LE α]
  [DecidableLT α] [DecidableLE α] [Elem α]

/-- Assignment to an element of an array of integers: the fraction is dropped.  (Simplification: NaN and infinities, for which numpy
stores an arbitrary number, are kept.) -/
def storeInt (x : α) : α :=
  match Elem.toInt x with
  | some k => lit (k : Rat)
  | none => x

/-- `storeInt` for the three elements of a column -/
def storeInt3 (v : V3 α) : V3 α := ⟨storeInt v.x, storeInt v.y, storeInt v.z⟩

/-- Lines 359-376 of `general_robotics_toolbox_invkin.py` (`equivJoint`): `theta2[ind] += ...` assigns to an element of a copy of the
caller's array. -/
def equivJointStored (store : α → α) (theta1 : List α) (ind nu nl : Nat) (equiv : List (List α)) : List (List α) :=
  let up := (List.range nu).flatMap fun (j : Nat) =>
    (equiv ++ [theta1]).map fun t => shiftJoint t ind fun x => store (x + twoPi * lit ((j + 1 : Nat) : Rat))
  let down := (List.range nl).flatMap fun (j : Nat) =>
    (equiv ++ [theta1]).map fun t => shiftJoint t ind fun x => store (x - twoPi * lit ((j + 1 : Nat) : Rat))
  equiv ++ (up ++ down)

/-- Lines 349-376 (`equivOne`). -/
def equivOneStored (store : α → α) (robot : Robot α) (theta1 : List α) : Except PyErr (List (List α)) := do
  match robot.lower, robot.upper with
  | some lo, some up => do
    let du ← bcast up theta1
    let dl ← bcast theta1 lo
    let ud := du.map fun x => Elem.floorDiv (x.1 - x.2) twoPi
    let ld := dl.map fun x => Elem.floorDiv (x.1 - x.2) twoPi
    let divs ← bcast ud ld
    (divs.zipIdx).foldlM (init := []) fun equiv x => do
      if 0 < x.1.1 ∨ 0 < x.1.2 then
        let ty ← getI robot.jointType x.2
        if ty ≠ 0 then return equiv
        let nu ← rangeLen x.1.1
        let nl ← rangeLen x.1.2
        return equivJointStored store theta1 x.2 nu nl equiv
      else return equiv
  | _, _ => .error .type

/-- `equivalent_configurations` (lines 330-391) for joint vectors in arrays of integers (`store := storeInt`) or floats
(`store := id`). -/
def equivalentStored (store : α → α) (robot : Robot α) (thetaV : List (List α)) (last : Option (List α) := none) :
    Except PyErr (List (List α)) := do
  let equiv ← forAppend thetaV (equivOneStored store robot)
  let _ ← equiv.mapM fun e => thetaV.mapM fun t => allcloseEffect t e
  sortByLast equiv last

/-- Lines 667-670 and 679-682 of `tesseract.py` (`bend2`) for arrays of integers: `P2` and `H2` are copies of the robot's arrays. -/
def OpwState.bend2Int (s : OpwState α) : OpwState α :=
  let R := rot V3.ey (-Elem.pi / lit 2)
  { p2 := storeInt3 (R.mulVec s.p2)
    p3 := storeInt3 (R.mulVec s.p3)
    p4 := storeInt3 (R.mulVec s.p4)
    p5 := storeInt3 (R.mulVec s.p5)
    p6 := storeInt3 (R.mulVec s.p6)
    h2 := storeInt3 (R.mulVec s.h2)
    h3 := storeInt3 (R.mulVec s.h3)
    h4 := storeInt3 (R.mulVec s.h4)
    h5 := storeInt3 (R.mulVec s.h5)
    o1 := -Elem.pi / lit 2
    o2 := s.o2 }

/-- lines 673-676 (`bend3`) -/
def OpwState.bend3Int (s : OpwState α) : OpwState α :=
  let R := rot V3.ey (-Elem.pi / lit 2)
  { p2 := s.p2
    p3 := storeInt3 (R.mulVec s.p3)
    p4 := storeInt3 (R.mulVec s.p4)
    p5 := storeInt3 (R.mulVec s.p5)
    p6 := storeInt3 (R.mulVec s.p6)
    h2 := s.h2
    h3 := storeInt3 (R.mulVec s.h3)
    h4 := storeInt3 (R.mulVec s.h4)
    h5 := storeInt3 (R.mulVec s.h5)
    o1 := s.o1
    o2 := -Elem.pi / lit 2 }

/-- lines 663-682 (`bend`) -/
def OpwState.bendInt (s : OpwState α) : OpwState α :=
  if axisSign s.h5 V3.ex ≠ 0 then
    if Elem.abs s.p2.z < Elem.abs s.p2.x then s.bend2Int
    else if Elem.abs (s.p3.z + s.p4.z) < Elem.abs (s.p3.x + s.p4.x) then s.bend3Int
    else s.bend2Int
  else s

/-- lines 684-688 (`straighten`) -/
def OpwState.straightenInt (s : OpwState α) : OpwState α :=
  if iscloseD s.p2.x 0 then s
  else
    let q := -Elem.arctan2 s.p2.x s.p2.z
    { s with
      p2 := storeInt3 ((rot V3.ey q).mulVec s.p2)
      o1 := s.o1 + q
      o2 := s.o2 - q }

/-- `robot_to_opw_inv_kin_parameters` (lines 614-718) for a robot whose matrices `H` and `P` are arrays of integers. -/
def robotToOpwInt (robot : Robot α) : Except PyErr (OpwParams α) := do
  match robot.Tflange with
  | none => .error .assertion
  | some F => do
    pyAssert (allcloseM F.R (rot V3.ey (Elem.pi / lit 2)) (lit (1/100000000)))
    pyAssert (decide (allclose3 F.p 0))
    pyAssert (robot.jointType.length == 6)
    match robot.H, robot.P with
    | [h0, h1, h2, h3, h4, h5], [p0, p1, p2, p3, p4, p5, p6] => do
        pyAssert (axisSign h0 V3.ez != 0)
        pyAssert (axisSign h1 V3.ey != 0)
        pyAssert (axisSign h2 V3.ey != 0)
        pyAssert (axisSign h4 V3.ey != 0)
        pyAssert (axisSign h3 h5 != 0)
        pyAssert (axisSign h5 V3.ez != 0 || axisSign h5 V3.ex != 0)
        let s : OpwState α := ⟨p2, p3, p4, p5, p6, h2, h3, h4, h5, 0, 0⟩
        s.bendInt.straightenInt.params p0 p1 h0 h1
    | _, _ => .error .index

end
