import Verif.Model.Invkin

/-!
# The warnings of the toolbox

`/repo/src/general_robotics_toolbox/general_robotics_toolbox.py` calls `warnings.warn` at lines 709, 749, 758 and 810; there are no
other calls in the package.  The functions of this file are those of `Verif.Model.Subproblems` and `Verif.Model.Invkin` once more, with
the list of the warnings issued.

Simplifications: a call of `warnings.warn` is recorded; what the filters of the `warnings` module do with it (print it, print it only the
first time, ignore it, raise it) is not modelled.  The RuntimeWarnings of numpy itself are not modelled.
-/
set_option autoImplicit false

/-- The four messages: lines 709, 749, 758 and 810. -/
inductive Warning
  | norms
  | axes
  | cones
  | distance
  deriving DecidableEq

/-- The text of the messages (lines 709, 749, 758, 810). -/
def Warning.text : Warning → String
  | .norms => "||p|| and ||q|| must be the same!!!"
  | .axes => "No solution - k1 != k2"
  | .cones => "No solution - no intersection found between cones"
  | .distance => "No solution - no rotation can achieve specified distance"

/-- What a call does: the warnings issued before it returns or raises, and the returned value or the exception. -/
structure Warned (β : Type) where
  warns : List Warning
  out : Except PyErr β

/-- One statement after the other: an exception skips the second. -/
def Warned.andThen {β γ : Type} (m : Warned β) (f : β → Warned γ) : Warned γ :=
  match m.out with
  | .ok a => ⟨m.warns ++ (f a).warns, (f a).out⟩
  | .error e => ⟨m.warns, .error e⟩

instance : Monad Warned where
  pure a := ⟨[], .ok a⟩
  bind := Warned.andThen

/-- `warnings.warn(message)` -/
def warn (w : Warning) : Warned Unit := ⟨[w], .ok ()⟩

/-- A call that cannot warn. -/
def quiet {β : Type} (m : Except PyErr β) : Warned β := ⟨[], m⟩

/-- `for x in l: ...` collecting what the bodies append, one after the other. -/
def forAppendW {β γ : Type} (f : β → Warned (List γ)) : List β → Warned (List γ)
  | [] => pure []
  | x :: xs => do
    let r ← f x
    let rs ← forAppendW f xs
    return r ++ rs

section
variable {α : Type} [Add α] [Sub α] [Mul α] [Div α] [Neg α] [Zero α] [One α] [LT α] [LE α]
  [DecidableLT α] [DecidableLE α] [Elem α]

/-- `subproblem1` (general_robotics_toolbox.py, lines 675-711).  The comparison of line 708 comes last, so that nothing is issued by a call that raises. -/
def subproblem1W (p q k : V3 α) : Warned α :=
  if (p - q).norm < Elem.sqrt npEps then pure 0
  else do
    let k := k.sdiv k.norm
    let pp := p - V3.smul (p.dot k) k
    let qp := q - V3.smul (q.dot k) k
    let epp := pp.sdiv pp.norm
    let eqp := qp.sdiv qp.norm
    let theta ← quiet (subproblem0 epp eqp k)
    if p.norm * lit (1 / 100) < Elem.abs (p.norm - q.norm) then do
      warn .norms
      return theta
    else return theta

/-- `subproblem2` (lines 714-776). -/
def subproblem2W (p q k1 k2 : V3 α) : Warned (List (α × α)) :=
  let k12 := k1.dot k2
  let pk := p.dot k2
  let qk := q.dot k1
  if Elem.abs (1 - k12 * k12) < npEps then do
    warn .axes
    return []
  else
    let den := k12 * k12 - 1
    let a0 := (k12 * pk + lit (-1) * qk) / den
    let a1 := (lit (-1) * pk + k12 * qk) / den
    let bb := p.dot p - (a0 * a0 + a1 * a1) - lit 2 * a0 * a1 * k12
    let bb := if Elem.abs bb < npEps then 0 else bb
    if bb < 0 then do
      warn .cones
      return []
    else
      let gamma := Elem.sqrt bb / (k1.cross k2).norm
      if Elem.abs gamma < npEps then do
        let cm := M3.ofCols k1 k2 (k1.cross k2)
        let c1 := cm.mulVec ⟨a0, a1, gamma⟩
        let theta2 ← subproblem1W k2 p c1
        let theta1 ← subproblem1W k1 q c1
        return [(-theta1, theta2)]
      else do
        let cm := M3.ofCols k1 k2 (k1.cross k2)
        let c1 := cm.mulVec ⟨a0, a1, gamma⟩
        let c2 := cm.mulVec ⟨a0, a1, -gamma⟩
        let t11 ← subproblem1W q c1 k1
        let t12 ← subproblem1W q c2 k1
        let t21 ← subproblem1W p c1 k2
        let t22 ← subproblem1W p c2 k2
        return [(-t11, t21), (-t12, t22)]

/-- `subproblem3` (lines 778-819). -/
def subproblem3W (p q k : V3 α) (d : α) : Warned (List α) :=
  let pp := p - V3.smul (p.dot k) k
  let qp := q - V3.smul (q.dot k) k
  let dpsq := d * d - k.dot (p + q) * k.dot (p + q)
  let bb := -(pp.dot pp + qp.dot qp - dpsq) / (lit 2 * pp.norm * qp.norm)
  if dpsq < 0 ∨ 1 < Elem.abs bb then do
    warn .distance
    return []
  else do
    let theta ← subproblem1W (pp.sdiv pp.norm) (qp.sdiv qp.norm) k
    let phi := Elem.arccos bb
    if 0 < Elem.abs phi then return [theta + phi, theta - phi]
    else return [theta]

/-- `subproblem4` (lines 821-855): there is no call of `warnings.warn`. -/
def subproblem4W (p q k : V3 α) (d : α) : Warned (List α) := quiet (.ok (subproblem4 p q k d))

/-! ## `robot6_sphericalwrist_invkin` (general_robotics_toolbox_invkin.py, lines 119-227) -/

/-- Lines 208-222. -/
def r6LastW (N : Normalizer α) (h3 h4 h5 : V3 α) (R06 R03 : M3 α) (q1 q2 q3 q4 q5 : α) : Warned (List (List α)) := do
  let R35 := rot h3 q4 * rot h4 q5
  let R05 := R03 * R35
  let R56 := R05.transpose * R06
  let q6 ← subproblem1W h4 (R56.mulVec h4) h5
  quiet do
    match ← N.one 5 q6 with
    | none => return []
    | some q6 => return [[q1, q2, q3, q4, q5, q6]]

/-- Lines 184-222. -/
def r6ElbowW (N : Normalizer α) (h1 h2 h3 h4 h5 P2 P3 : V3 α) (R06 R01 : M3 α) (p26 : V3 α) (q1 q3 : α) : Warned (List (List α)) := do
  let R23 := rot h2 q3
  let q2 ← subproblem1W (P2 + R23.mulVec P3) p26 h1
  match ← quiet (N.one 1 q2) with
  | none => return []
  | some q2 => do
    let R12 := rot h1 q2
    let R03 := (R01 * R12) * R23
    let R36 := R03.transpose * R06
    let Q45 ← subproblem2W h5 (R36.mulVec h5) h3 h4
    let Q45 ← quiet (N.callV [3, 4] (Q45.map fun x => [x.1, x.2]))
    forAppendW (fun t => match t with
      | [q4, q5] => r6LastW N h3 h4 h5 R06 R03 q1 q2 q3 q4 q5
      | _ => quiet (.error .value)) Q45

/-- Lines 173-222. -/
def r6ShoulderW (N : Normalizer α) (h0 h1 h2 h3 h4 h5 P0 P1 P2 P3 P6 : V3 α) (R06 : M3 α) (p0T : V3 α) (q1 : α) : Warned (List (List α)) := do
  let R01 := rot h0 q1
  let p26 := R01.transpose.mulVec (p0T - R06.mulVec P6) - (P0 + P1)
  let Q3 ← subproblem3W P3 P2 h2 p26.norm
  let Q3 ← quiet (N.callS 2 Q3)
  forAppendW (fun q3 => r6ElbowW N h1 h2 h3 h4 h5 P2 P3 R06 R01 p26 q1 q3) Q3

/-- Lines 163-222. -/
def r6SearchW (H P : List (V3 α)) (N : Normalizer α) (R06 : M3 α) (p0T : V3 α) : Warned (List (List α)) :=
  match H, P with
  | h0 :: h1 :: h2 :: h3 :: h4 :: h5 :: _, P0 :: P1 :: P2 :: P3 :: _ :: _ :: P6 :: _ => do
    let d1 := V3.ey.dot (P1 + P2 + P3)
    let v1 := p0T - R06.mulVec P6
    let Q1 ← subproblem4W V3.ey v1 (-h0) d1
    let Q1 ← quiet (N.callS 0 Q1)
    forAppendW (r6ShoulderW N h0 h1 h2 h3 h4 h5 P0 P1 P2 P3 P6 R06 p0T) Q1
  | _, _ => quiet (.error .index)

/-- `robot6_sphericalwrist_invkin` (lines 119-227). -/
def robot6W (robot : Robot α) (pose : Transform α) (last : Option (List α) := none) : Warned (List (List α)) := do
  let T := unapplyAux robot pose
  quiet (fixWrist robot.H robot.P).2
  let sols ← r6SearchW robot.H (fixWrist robot.H robot.P).1 (Normalizer.ofRobot robot last) T.R T.p
  quiet (sortByLast sols last)

/-! ## `ur_invkin` (general_robotics_toolbox_invkin.py, lines 229-326) -/

/-- Lines 291-320. -/
def urElbowW (N : Normalizer α) (h1 h2 h4 h5 P2 P3 : V3 α) (R06 R01 R04 : M3 α) (p23p : V3 α) (q1 q24 q5 q3 : α) : Warned (List (List α)) := do
  let R23 := rot h2 q3
  let v2 := R01.transpose.mulVec p23p
  let p2 := P2 + R23.mulVec P3
  let q2 ← subproblem1W p2 v2 h1
  match ← quiet (N.one 1 q2) with
  | none => return []
  | some q2 =>
    match ← quiet (N.one 3 (q24 - q2 - q3)) with
    | none => return []
    | some q4 => do
      let R45 := rot h4 q5
      let R05 := R04 * R45
      let R56 := R05.transpose * R06
      let q6 ← subproblem1W h4 (R56.mulVec h4) h5
      quiet do
        match ← N.one 5 q6 with
        | none => return []
        | some q6 => return [[q1, q2, q3, q4, q5, q6]]

/-- Lines 281-320. -/
def urWristW (N : Normalizer α) (h0 h1 h2 h3 h4 h5 P0 P1 P2 P3 P4 : V3 α) (R06 : M3 α) (p04 : V3 α) (q1 q24 q5 : α) : Warned (List (List α)) := do
  let R01 := rot h0 q1
  let R04 := rot h0 q1 * rot h3 q24
  let p23p := p04 - P0 - R01.mulVec P1 - R04.mulVec P4
  let Q3 ← subproblem3W P3 P2 h2 p23p.norm
  let Q3 ← quiet (N.callS 2 Q3)
  forAppendW (fun q3 => urElbowW N h1 h2 h4 h5 P2 P3 R06 R01 R04 p23p q1 q24 q5 q3) Q3

/-- Lines 272-320. -/
def urShoulderW (N : Normalizer α) (h0 h1 h2 h3 h4 h5 P0 P1 P2 P3 P4 : V3 α) (R06 : M3 α) (p04 : V3 α) (q1 : α) : Warned (List (List α)) := do
  let R01 := rot h0 q1
  let R16 := R01.transpose * R06
  let Q ← subproblem2W h5 (R16.mulVec h5) h3 h4
  forAppendW (fun x => urWristW N h0 h1 h2 h3 h4 h5 P0 P1 P2 P3 P4 R06 p04 q1 x.1 x.2) Q

/-- Lines 261-320. -/
def urSearchW (H P : List (V3 α)) (N : Normalizer α) (R06 : M3 α) (p0T : V3 α) : Warned (List (List α)) :=
  match H, P with
  | h0 :: h1 :: h2 :: h3 :: h4 :: h5 :: _, P0 :: P1 :: P2 :: P3 :: P4 :: P5 :: P6 :: _ => do
    let d1 := V3.ey.dot (P1 + P2 + P3 + P4)
    let p04 := p0T - R06.mulVec (P6 + P5)
    let Q1 ← subproblem4W V3.ey p04 (-h0) d1
    let Q1 ← quiet (N.callS 0 Q1)
    forAppendW (urShoulderW N h0 h1 h2 h3 h4 h5 P0 P1 P2 P3 P4 R06 p04) Q1
  | _, _ => quiet (.error .index)

/-- `ur_invkin` (lines 229-326). -/
def urW (robot : Robot α) (pose : Transform α) (last : Option (List α) := none) : Warned (List (List α)) := do
  let T := unapplyAux robot pose
  quiet do
    let a ← allcloseCols urAxesNeg robot.H
    let ok ← if a then pure true else allcloseCols urAxesPos robot.H
    pyAssert ok
  let sols ← urSearchW robot.H robot.P (Normalizer.ofRobot robot last) T.R T.p
  quiet (sortByLast sols last)

end
