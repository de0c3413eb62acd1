import Verif.Model.Robot

/-!
# Model of `general_robotics_toolbox.py`, lines 639-855: the canonical geometric subproblems

All line numbers refer to `/repo/src/general_robotics_toolbox/general_robotics_toolbox.py`.
Simplification: `warnings.warn` is left out here (by default it only prints); `Verif.Model.Warnings` has these functions with their warnings.
-/
set_option autoImplicit false

section
variable {α : Type} [Add α] [Sub α] [Mul α] [Div α] [Neg α] [Zero α] [One α] [LT α] [LE α]
  [DecidableLT α] [DecidableLE α] [Elem α]

/-- `subproblem0` (lines 639-673). -/
def subproblem0 (p q k : V3 α) : Except PyErr α := do
  pyAssert (k.dot p < npEps ∧ k.dot q < npEps)
  let ep := p.sdiv p.norm
  let eq := q.sdiv q.norm
  let theta := lit 2 * Elem.arctan2 (ep - eq).norm (ep + eq).norm
  if k.dot (p.cross q) < 0 then return -theta
  return theta

/-- `subproblem1` (lines 675-711). -/
def subproblem1 (p q k : V3 α) : Except PyErr α := do
  if (p - q).norm < Elem.sqrt npEps then return 0
  let k := k.sdiv k.norm
  let pp := p - V3.smul (p.dot k) k
  let qp := q - V3.smul (q.dot k) k
  let epp := pp.sdiv pp.norm
  let eqp := qp.sdiv qp.norm
  subproblem0 epp eqp k

/-- `subproblem2` (lines 714-776).  Lines 765-766 really pass `(k2, p, c1)` and `(k1, q, c1)`. -/
def subproblem2 (p q k1 k2 : V3 α) : Except PyErr (List (α × α)) := do
  let k12 := k1.dot k2
  let pk := p.dot k2
  let qk := q.dot k1
  if Elem.abs (1 - k12 * k12) < npEps then return []
  let den := k12 * k12 - 1
  let a0 := (k12 * pk + lit (-1) * qk) / den
  let a1 := (lit (-1) * pk + k12 * qk) / den
  let bb := p.dot p - (a0 * a0 + a1 * a1) - lit 2 * a0 * a1 * k12
  let bb := if Elem.abs bb < npEps then 0 else bb
  if bb < 0 then return []
  let gamma := Elem.sqrt bb / (k1.cross k2).norm
  if Elem.abs gamma < npEps then
    let cm := M3.ofCols k1 k2 (k1.cross k2)
    let c1 := cm.mulVec ⟨a0, a1, gamma⟩
    let theta2 ← subproblem1 k2 p c1
    let theta1 ← subproblem1 k1 q c1
    return [(-theta1, theta2)]
  let cm := M3.ofCols k1 k2 (k1.cross k2)
  let c1 := cm.mulVec ⟨a0, a1, gamma⟩
  let c2 := cm.mulVec ⟨a0, a1, -gamma⟩
  let t11 ← subproblem1 q c1 k1
  let t12 ← subproblem1 q c2 k1
  let t21 ← subproblem1 p c1 k2
  let t22 ← subproblem1 p c2 k2
  return [(-t11, t21), (-t12, t22)]

/-- `subproblem3` (lines 778-819). -/
def subproblem3 (p q k : V3 α) (d : α) : Except PyErr (List α) := do
  let pp := p - V3.smul (p.dot k) k
  let qp := q - V3.smul (q.dot k) k
  let dpsq := d * d - k.dot (p + q) * k.dot (p + q)
  let bb := -(pp.dot pp + qp.dot qp - dpsq) / (lit 2 * pp.norm * qp.norm)
  if dpsq < 0 ∨ 1 < Elem.abs bb then return []
  let theta ← subproblem1 (pp.sdiv pp.norm) (qp.sdiv qp.norm) k
  let phi := Elem.arccos bb
  if 0 < Elem.abs phi then return [theta + phi, theta - phi]
  else return [theta]

/-- `subproblem4` (lines 821-855).  `np.linalg.norm([a,b])` is `sqrt (a*a + b*b)`. -/
def subproblem4 (p q k : V3 α) (d : α) : List α :=
  let a := (M3.vecMul p (hat k)).dot q
  let b := -(p.dot ((hat k).mulVec ((hat k).mulVec q)))
  let c := d - (p.dot q - b)
  let phi := Elem.arctan2 b a
  let d := c / Elem.sqrt (a * a + b * b)
  if 1 < d then []
  else
    let psi := Elem.arcsin d
    [-phi + psi, -phi - psi + Elem.pi]

end
