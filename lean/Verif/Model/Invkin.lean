import Verif.Model.Subproblems

/-!
# Model of `general_robotics_toolbox_invkin.py`

All line numbers refer to `/repo/src/general_robotics_toolbox/general_robotics_toolbox_invkin.py`.
-/
set_option autoImplicit false

/-- `a[i]` for a non-negative index: IndexError when out of range. -/
def getI {β : Type} (l : List β) (i : Nat) : Except PyErr β :=
  match l[i]? with
  | some x => .ok x
  | none => .error .index

section
variable {α : Type} [Add α] [Sub α] [Mul α] [Div α] [Neg α] [Zero α] [One α] [LT α] [LE α]
  [DecidableLT α] [DecidableLE α] [Elem α]

/-! ## `np.argsort` and row distances -/

/-- NumPy's order on floats for sorting: NaN is larger than everything else. -/
def npLt (a b : α) : Prop := a < b ∨ (¬ feq b b ∧ feq a a)

instance (a b : α) : Decidable (npLt a b) := inferInstanceAs (Decidable (_ ∨ _))

/-- Insert an element with its key into a list sorted by key, before the first entry that is not smaller. -/
def insertKey {β : Type} (x : α × β) : List (α × β) → List (α × β)
  | [] => [x]
  | y :: ys => if npLt y.1 x.1 then y :: insertKey x ys else x :: y :: ys

/-- `[v[i] for i in np.argsort(keys)]` for a list of (key, value).
Simplification: ties keep their order (NumPy's default sort is a stable insertion sort up to 16 entries only). -/
def argsortBy {β : Type} (l : List (α × β)) : List β := (l.foldr insertKey []).map Prod.snd

/-- `np.linalg.norm` of a 1-D array. -/
def listNorm (v : List α) : α := Elem.sqrt ((v.map fun x => x * x).sum)

/-- `np.linalg.norm(np.subtract(rows, last), axis=1)` paired with the rows.  An empty list of rows has shape `(0,)`, for which
either the subtraction (ValueError) or `axis=1` (AxisError, a ValueError) raises.
Simplification: `last` is one-dimensional. -/
def rowDist (rows : List (List α)) (last : List α) : Except PyErr (List (α × List α)) :=
  if rows.isEmpty then .error .value
  else rows.mapM fun r => do
    let d ← bcast r last
    return (listNorm (d.map fun x => x.1 - x.2), r)

/-- The last lines of `robot6_sphericalwrist_invkin` (223-227), `ur_invkin` (322-326) and `equivalent_configurations`
(387-391). -/
def sortByLast (rows : List (List α)) : Option (List α) → Except PyErr (List (List α))
  | none => .ok rows
  | some last => do
      let d ← rowDist rows last
      return argsortBy d

/-! ## `normalize_joints` -/

/-- State of a `normalize_joints` object (lines 46-53).  `limits` holds both limit arrays when `_check_limits` is true. -/
structure Normalizer (α : Type) where
  limits : Option (List α × List α)
  last : Option (List α)

/-- `normalize_joints.__init__` (lines 46-53). -/
def Normalizer.ofRobot (robot : Robot α) (last : Option (List α)) (ignoreLimits : Bool := false) : Normalizer α :=
  { limits := match robot.lower, robot.upper with
      | some l, some u => if ignoreLimits then none else some (l, u)
      | _, _ => none
    last := last }

/-- `2*np.pi` -/
def twoPi : α := lit 2 * Elem.pi

/-- Lines 56-66 of `normalize`: bring the angle inside the limits by at most one turn. -/
def normLimits (l u theta : α) : Option α :=
  if l < theta ∧ theta < u then some theta
  else
    let b0 := twoPi * lit (-1) + theta
    let b1 := twoPi * lit 1 + theta
    if l < b0 ∧ b0 < u then some (theta + twoPi * lit (-1))
    else if l < b1 ∧ b1 < u then some (theta + twoPi * lit 1)
    else none

/-- Lines 69-73 of `normalize`: number of turns towards the last joint value. -/
def turns (last theta : α) : α :=
  let diff := last - theta
  let n := Elem.floorDiv diff twoPi
  if Elem.pi < Elem.remainder diff twoPi then n + 1 else n

/-- Lines 68-80 of `normalize`: move by whole turns towards the last joint value.  `lims` is the pair of limits when these are
checked; then the candidates are `np.arange(n, -sign n, -sign n)`, that is `n, n ∓ 1, ..., 0` turns. -/
def normLast (lims : Option (α × α)) (last theta : α) : Except PyErr α :=
  let n := turns last theta
  if 0 < Elem.abs n then
    match lims with
    | none => .ok (theta + twoPi * n)
    | some (l, u) =>
      match Elem.toInt n with
      | none => .error .value
      | some k =>
        let cands : List α := (List.range (k.natAbs + 1)).map fun (i : Nat) => theta + twoPi * lit ((k - k.sign * (i : Int) : Int) : Rat)
        match cands.find? fun t => decide (l < t ∧ t < u) with
        | some t => .ok t
        | none => .error .index
  else .ok theta

/-- `normalize_joints.normalize` (lines 55-82). -/
def Normalizer.normalize (N : Normalizer α) (joint : Nat) (theta : α) : Except PyErr (Option α) := do
  let lims ← match N.limits with
    | none => pure none
    | some (lo, up) => do
        let l ← getI lo joint
        let u ← getI up joint
        pure (some (l, u))
  let t1 := match lims with
    | none => some theta
    | some (l, u) => normLimits l u theta
  match t1 with
  | none => return none
  | some t =>
    match N.last with
    | none => return some t
    | some last => do
        let x ← getI last joint
        let r ← normLast lims x t
        return some r

/-- Lines 103-116 of `__call__`: pruning and sorting of the normalized candidates, given their distance to the last joints and
whether all their joints are within `pi/2` of them.  (Lines 113-114 set a variable that is never used again.) -/
def pruneSort {β : Type} (l : List (β × α × Bool)) : List β :=
  let near := (l.filter fun x => x.2.2).map fun x => x.1
  if near.length = 1 then near
  else argsortBy (l.map fun x => (x.2.1, x.1))

/-- `normalize_joints.__call__` (lines 86-116) for a single joint number. -/
def Normalizer.callS (N : Normalizer α) (joint : Nat) (theta : List α) : Except PyErr (List α) := do
  let ts ← theta.mapM (N.normalize joint)
  let normed := ts.filterMap id
  match N.last with
  | none => return normed
  | some last =>
    if normed.length < 2 then return normed
    let x ← getI last joint
    return pruneSort (normed.map fun t => (t, Elem.abs (t - x), decide (Elem.abs (t - x) < Elem.pi / lit 2)))

/-- `normalize_joints.__call__` (lines 86-116) for a tuple of joint numbers.
Simplification: the candidates have as many entries as there are joint numbers (so the subtractions do not raise). -/
def Normalizer.callV (N : Normalizer α) (joints : List Nat) (theta : List (List α)) : Except PyErr (List (List α)) := do
  let ts ← theta.mapM fun t1 => do
    let t3 ← (joints.zip t1).mapM fun jt => N.normalize jt.1 jt.2
    return if t3.all Option.isSome then some (t3.filterMap id) else none
  let normed := ts.filterMap id
  match N.last with
  | none => return normed
  | some last =>
    if normed.length < 2 then return normed
    let xs ← joints.mapM (getI last)
    return pruneSort (normed.map fun t =>
      let d := (t.zip xs).map fun tx => tx.1 - tx.2
      (t, listNorm d, d.all fun e => decide (Elem.abs e < Elem.pi / lit 2)))

/-! ## `robot6_sphericalwrist_invkin` -/

/-- `np.all(v == 0)` -/
def isZeroV (v : V3 α) : Prop := feq v.x 0 ∧ feq v.y 0 ∧ feq v.z 0

instance (v : V3 α) : Decidable (isZeroV v) := inferInstanceAs (Decidable (_ ∧ _ ∧ _))

/-- Lines 151-155 and 157-161: move column `src` of `P` into column `dst`, if it is along axis `ax`.  The columns are edited in
place, so the new `P` is returned even when an exception is raised later. -/
def moveColumn (H P : List (V3 α)) (src ax dst : Nat) : List (V3 α) × Except PyErr Unit :=
  match P[src]? with
  | none => (P, .error .index)
  | some a =>
    if isZeroV a then (P, .ok ())
    else match H[ax]? with
      | none => (P, .error .index)
      | some h =>
        if isZeroV (a - V3.smul (a.dot h) h) then
          match P[dst]? with
          | none => (P, .error .index)
          | some b => ((P.set dst (b + a)).set src 0, .ok ())
        else (P, .error .assertion)

/-- Lines 150-161: both corrections. -/
def fixWrist (H P : List (V3 α)) : List (V3 α) × Except PyErr Unit :=
  match moveColumn H P 4 3 3 with
  | (P1, .error e) => (P1, .error e)
  | (P1, .ok ()) => moveColumn H P1 5 5 6

/-- `normalize(j, [q])` followed by `if len(q) == 0: continue; q = q[0]`. -/
def Normalizer.one (N : Normalizer α) (joint : Nat) (q : α) : Except PyErr (Option α) := do
  let l ← N.callS joint [q]
  return l.head?

/-- `for x in l: ...` collecting what the bodies append. -/
def forAppend {β γ : Type} (l : List β) (f : β → Except PyErr (List γ)) : Except PyErr (List γ) := do
  let r ← l.mapM f
  return r.flatten

/-- Lines 208-222: the body of the innermost loop. -/
def r6Last (N : Normalizer α) (h3 h4 h5 : V3 α) (R06 R03 : M3 α) (q1 q2 q3 q4 q5 : α) : Except PyErr (List (List α)) := do
  let R35 := rot h3 q4 * rot h4 q5
  let R05 := R03 * R35
  let R56 := R05.transpose * R06
  let q6 ← subproblem1 h4 (R56.mulVec h4) h5
  match ← N.one 5 q6 with
  | none => return []
  | some q6 => return [[q1, q2, q3, q4, q5, q6]]

/-- Lines 184-222: the body of the loop over `q3`. -/
def r6Elbow (N : Normalizer α) (h1 h2 h3 h4 h5 P2 P3 : V3 α) (R06 R01 : M3 α) (p26 : V3 α) (q1 q3 : α) :
    Except PyErr (List (List α)) := do
  let R23 := rot h2 q3
  let q2 ← subproblem1 (P2 + R23.mulVec P3) p26 h1
  match ← N.one 1 q2 with
  | none => return []
  | some q2 => do
    let R12 := rot h1 q2
    let R03 := (R01 * R12) * R23
    let R36 := R03.transpose * R06
    let Q45 ← subproblem2 h5 (R36.mulVec h5) h3 h4
    let Q45 ← N.callV [3, 4] (Q45.map fun x => [x.1, x.2])
    forAppend Q45 fun t => match t with
      | [q4, q5] => r6Last N h3 h4 h5 R06 R03 q1 q2 q3 q4 q5
      | _ => .error .value

/-- Lines 173-222: the body of the loop over `q1`. -/
def r6Shoulder (N : Normalizer α) (h0 h1 h2 h3 h4 h5 P0 P1 P2 P3 P6 : V3 α) (R06 : M3 α) (p0T : V3 α) (q1 : α) :
    Except PyErr (List (List α)) := do
  let R01 := rot h0 q1
  let p26 := R01.transpose.mulVec (p0T - R06.mulVec P6) - (P0 + P1)
  let Q3 ← subproblem3 P3 P2 h2 p26.norm
  let Q3 ← N.callS 2 Q3
  forAppend Q3 fun q3 => r6Elbow N h1 h2 h3 h4 h5 P2 P3 R06 R01 p26 q1 q3

/-- Lines 163-222: the search itself, on the corrected `P`. -/
def r6Search (H P : List (V3 α)) (N : Normalizer α) (R06 : M3 α) (p0T : V3 α) : Except PyErr (List (List α)) := do
  match H, P with
  | h0 :: h1 :: h2 :: h3 :: h4 :: h5 :: _, P0 :: P1 :: P2 :: P3 :: _ :: _ :: P6 :: _ => do
    let d1 := V3.ey.dot (P1 + P2 + P3)
    let v1 := p0T - R06.mulVec P6
    let Q1 := subproblem4 V3.ey v1 (-h0) d1
    let Q1 ← N.callS 0 Q1
    forAppend Q1 (r6Shoulder N h0 h1 h2 h3 h4 h5 P0 P1 P2 P3 P6 R06 p0T)
  -- Simplification: with fewer than six joints Python may get further before its IndexError
  | _, _ => .error .index

/-- `robot6_sphericalwrist_invkin` (lines 119-227): the robot after the call, and the returned list or the exception. -/
def robot6_sphericalwrist_invkin (robot : Robot α) (pose : Transform α) (last : Option (List α) := none) :
    Robot α × Except PyErr (List (List α)) :=
  let T := unapplyAux robot pose
  let (P', r) := fixWrist robot.H robot.P
  let robot' := { robot with P := P' }
  (robot', do
    r
    let sols ← r6Search robot.H P' (Normalizer.ofRobot robot last) T.R T.p
    sortByLast sols last)

/-! ## `ur_invkin` -/

/-- `np.allclose(A, H)` for two arrays given by their columns (default tolerances, `H` is the reference). -/
def allcloseCols (A H : List (V3 α)) : Except PyErr Bool := do
  let z ← bcast A H
  return z.all fun ab => decide (iscloseD ab.1.x ab.2.x ∧ iscloseD ab.1.y ab.2.y ∧ iscloseD ab.1.z ab.2.z)

/-- The two axis layouts of lines 255-256. -/
def urAxesNeg : List (V3 α) := [V3.ez, -V3.ey, -V3.ey, -V3.ey, -V3.ez, -V3.ey]
def urAxesPos : List (V3 α) := [V3.ez, V3.ey, V3.ey, V3.ey, -V3.ez, V3.ey]

/-- Lines 291-320: the body of the loop over `q3`. -/
def urElbow (N : Normalizer α) (h1 h2 h4 h5 P2 P3 : V3 α) (R06 R01 R04 : M3 α) (p23p : V3 α) (q1 q24 q5 q3 : α) :
    Except PyErr (List (List α)) := do
  let R23 := rot h2 q3
  let v2 := R01.transpose.mulVec p23p
  let p2 := P2 + R23.mulVec P3
  let q2 ← subproblem1 p2 v2 h1
  match ← N.one 1 q2 with
  | none => return []
  | some q2 =>
    match ← N.one 3 (q24 - q2 - q3) with
    | none => return []
    | some q4 =>
      let R45 := rot h4 q5
      let R05 := R04 * R45
      let R56 := R05.transpose * R06
      let q6 ← subproblem1 h4 (R56.mulVec h4) h5
      match ← N.one 5 q6 with
      | none => return []
      | some q6 => return [[q1, q2, q3, q4, q5, q6]]

/-- Lines 281-320: the body of the loop over `(q24, q5)`.  `q5` is not normalized. -/
def urWrist (N : Normalizer α) (h0 h1 h2 h3 h4 h5 P0 P1 P2 P3 P4 : V3 α) (R06 : M3 α) (p04 : V3 α) (q1 q24 q5 : α) :
    Except PyErr (List (List α)) := do
  let R01 := rot h0 q1
  let R04 := rot h0 q1 * rot h3 q24
  let p23p := p04 - P0 - R01.mulVec P1 - R04.mulVec P4
  let Q3 ← subproblem3 P3 P2 h2 p23p.norm
  let Q3 ← N.callS 2 Q3
  forAppend Q3 fun q3 => urElbow N h1 h2 h4 h5 P2 P3 R06 R01 R04 p23p q1 q24 q5 q3

/-- Lines 272-320: the body of the loop over `q1`. -/
def urShoulder (N : Normalizer α) (h0 h1 h2 h3 h4 h5 P0 P1 P2 P3 P4 : V3 α) (R06 : M3 α) (p04 : V3 α) (q1 : α) :
    Except PyErr (List (List α)) := do
  let R01 := rot h0 q1
  let R16 := R01.transpose * R06
  let Q ← subproblem2 h5 (R16.mulVec h5) h3 h4
  forAppend Q fun x => urWrist N h0 h1 h2 h3 h4 h5 P0 P1 P2 P3 P4 R06 p04 q1 x.1 x.2

/-- Lines 261-320: the search. -/
def urSearch (H P : List (V3 α)) (N : Normalizer α) (R06 : M3 α) (p0T : V3 α) : Except PyErr (List (List α)) := do
  match H, P with
  | h0 :: h1 :: h2 :: h3 :: h4 :: h5 :: _, P0 :: P1 :: P2 :: P3 :: P4 :: P5 :: P6 :: _ => do
    let d1 := V3.ey.dot (P1 + P2 + P3 + P4)
    let p04 := p0T - R06.mulVec (P6 + P5)
    let Q1 := subproblem4 V3.ey p04 (-h0) d1
    let Q1 ← N.callS 0 Q1
    forAppend Q1 (urShoulder N h0 h1 h2 h3 h4 h5 P0 P1 P2 P3 P4 R06 p04)
  | _, _ => .error .index

/-- `ur_invkin` (lines 229-326). -/
def ur_invkin (robot : Robot α) (pose : Transform α) (last : Option (List α) := none) : Except PyErr (List (List α)) := do
  let T := unapplyAux robot pose
  let a ← allcloseCols urAxesNeg robot.H
  let ok ← if a then pure true else allcloseCols urAxesPos robot.H
  pyAssert ok
  let sols ← urSearch robot.H robot.P (Normalizer.ofRobot robot last) T.R T.p
  sortByLast sols last

/-! ## `equivalent_configurations` -/

/-- `theta2 = theta.copy(); theta2[ind] += 2.0*np.pi*(j+1)` (or `-=`), lines 362-363, 365-366, 370-371, 373-374.
Simplification: `ind` is in range, since the index comes from an array of the same length. -/
def shiftJoint (theta : List α) (ind : Nat) (s : α → α) : List α := theta.modify ind s

/-- Lines 359-376: extend `equiv` (the configurations found so far for `theta1`) with the shifts of joint `ind` by up to `nu`
turns up and `nl` turns down. -/
def equivJoint (theta1 : List α) (ind nu nl : Nat) (equiv : List (List α)) : List (List α) :=
  let up := (List.range nu).flatMap fun (j : Nat) =>
    (equiv ++ [theta1]).map fun t => shiftJoint t ind fun x => x + twoPi * lit ((j + 1 : Nat) : Rat)
  let down := (List.range nl).flatMap fun (j : Nat) =>
    (equiv ++ [theta1]).map fun t => shiftJoint t ind fun x => x - twoPi * lit ((j + 1 : Nat) : Rat)
  equiv ++ (up ++ down)

/-- `range(int(x))`: the number of iterations; ValueError on NaN. -/
def rangeLen (x : α) : Except PyErr Nat :=
  match Elem.toInt x with
  | none => .error .value
  | some k => .ok k.toNat

/-- Lines 349-376: the loop over the joints of one configuration. -/
def equivOne (robot : Robot α) (theta1 : List α) : Except PyErr (List (List α)) := do
  match robot.lower, robot.upper with
  | some lo, some up => do
    let du ← bcast up theta1
    let dl ← bcast theta1 lo
    let ud := du.map fun x => Elem.floorDiv (x.1 - x.2) twoPi
    let ld := dl.map fun x => Elem.floorDiv (x.1 - x.2) twoPi
    let divs ← bcast ud ld
    (divs.zipIdx).foldlM (init := []) fun equiv x => do
      if 0 < x.1.1 ∨ 0 < x.1.2 then
        let ty ← getI robot.jointType x.2
        if ty ≠ 0 then return equiv
        let nu ← rangeLen x.1.1
        let nl ← rangeLen x.1.2
        return equivJoint theta1 x.2 nu nl equiv
      else return equiv
  | _, _ => .error .type

/-- `np.allclose(theta1, eq_theta)` in the loop of lines 382-384; its value only decides a `continue` of the inner loop, which has
no effect, so only the shape error is observable. -/
def allcloseEffect (a b : List α) : Except PyErr Unit := do
  let _ ← bcast a b
  return ()

/-- `equivalent_configurations` (lines 330-391). -/
def equivalent_configurations (robot : Robot α) (thetaV : List (List α)) (last : Option (List α) := none) :
    Except PyErr (List (List α)) := do
  let equiv ← forAppend thetaV (equivOne robot)
  let _ ← equiv.mapM fun e => thetaV.mapM fun t => allcloseEffect t e
  sortByLast equiv last

/-! ## `iterative_invkin` -/

/-- `np.linalg.pinv` of a 6×n matrix given by its columns; the result is given by its rows.  A parameter of the model, since the
property does not depend on it; it may raise (LinAlgError). -/
abbrev Pinv (α : Type) := List (V6 α) → Except PyErr (List (V6 α))

/-- Outcome of the body of the `while` loop (lines 440-489) before the update of `q_cur`. -/
structure IterStep (α : Type) where
  s : V3 α
  EP : V3 α
  delta : List α

/-- Lines 440-482.  Simplification: the zero blocks of `Tr` (lines 447-449) are left out of the product; they only matter for a Jacobian with
infinite or NaN entries. -/
def iterBody (pinv : Pinv α) (robot : Robot α) (pose : Transform α) (Kp KR : M3 α) (q : List α) : Except PyErr (IterStep α) := do
  let cur ← fwdkin robot q true
  let J ← robotjacobian robot q true
  let J := J.map fun c => (⟨cur.R.transpose.mulVec c.top, cur.R.transpose.mulVec c.bot⟩ : V6 α)
  let ER := pose.R.transpose * cur.R
  let EP := cur.R.transpose.mulVec (cur.p - pose.p)
  let kt := R2rot ER
  let s := V3.smul (Elem.sin (kt.2 / lit 2)) kt.1.v
  let b : V6 α := ⟨KR.mulVec s, Kp.mulVec EP⟩
  let Ji ← pinv J
  return ⟨s, EP, Ji.map fun r => r.dot b⟩

/-- Line 485: `(np.abs(np.hstack((s,EP))) < tol).all()`. -/
def iterDone (st : IterStep α) (tol : α) : Bool :=
  (st.s.toList ++ st.EP.toList).all fun x => decide (Elem.abs x < tol)

/-- The `while` loop (lines 438-491), `fuel` iterations left: final `converged` and `q_cur`. -/
def iterLoop (pinv : Pinv α) (robot : Robot α) (pose : Transform α) (Kp KR : M3 α) (tol : α) :
    Nat → List α → Except PyErr (Bool × List α)
  | 0, q => .ok (false, q)
  | fuel + 1, q => do
      let st ← iterBody pinv robot pose Kp KR q
      if iterDone st tol then return (true, q)
      if st.delta.length = q.length then
        iterLoop pinv robot pose Kp KR tol fuel (q.zipWith (· - ·) st.delta)
      else .error .value

/-- `iterative_invkin` (lines 393-496).  `np.squeeze` of a 1×1 array is 0-dimensional, and iterating over it in `zip` (line 96)
raises TypeError. -/
def iterative_invkin (pinv : Pinv α) (robot : Robot α) (pose : Transform α) (qCurrent : List α) (maxSteps : Int) (Kp KR : M3 α)
    (tol : α) : Except PyErr (Bool × List (List α)) := do
  let n := robot.jointType.length
  if qCurrent.length = n then
    let (converged, q) ← iterLoop pinv robot pose Kp KR tol maxSteps.toNat qCurrent
    if n = 1 then .error .type
    else
      let N := Normalizer.ofRobot robot (some qCurrent) true
      let l ← N.callV (List.range n) [q]
      return (converged, l)
  else .error .value

end
