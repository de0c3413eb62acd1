import Verif.Model.Invkin
import Verif.Model.Tesseract

/-!
# Tests of the model (not proofs)

The definitions of the model, executed in double precision on literals of the repository's own tests
(`/repo/test/test_general_robotics_toolbox.py`, line numbers below).  They check the transcription, and nothing else depends on them.
-/
set_option autoImplicit false

namespace FloatTests

instance : Zero Float := ⟨0.0⟩
instance : One Float := ⟨1.0⟩

abbrev V := V3 Float
abbrev M := M3 Float

def close (a b tol : Float) : Bool := (a - b).abs ≤ tol
def closeL (a b : List Float) (tol : Float) : Bool := a.length == b.length && (a.zip b).all fun x => close x.1 x.2 tol
def closeV (a b : V) (tol : Float := 1e-6) : Bool := closeL a.toList b.toList tol
def closeM (a b : M) (tol : Float := 1e-6) : Bool := closeL a.toList b.toList tol
def q4 (q : V4 Float) : List Float := [q.w, q.x, q.y, q.z]
def deg (x : Float) : Float := x * Elem.pi / 180
/-- the value of a call that does not raise -/
def got {β : Type} (x : Except PyErr β) (f : β → Bool) : Bool := match x with | .ok y => f y | .error _ => false
def raises {β : Type} (x : Except PyErr β) : Bool := match x with | .ok _ => false | .error _ => true

def x : V := ⟨1, 0, 0⟩
def y : V := ⟨0, 1, 0⟩
def z : V := ⟨0, 0, 1⟩
def unit (v : V) : V := v.sdiv v.norm

/-- the rotation of lines 43-46, used throughout -/
def Rt : M := ⟨-0.5057639, -0.1340537, 0.8521928, 0.6456962, -0.7139224, 0.2709081, 0.5720833, 0.6872731, 0.4476342⟩
def kt : V := ⟨0.4490221, 0.30207945, 0.84090853⟩
def qt : V4 Float := ⟨0.2387194, 0.4360402, 0.2933459, 0.8165967⟩

-- test_hat (line 22), test_rot (line 33)
#guard closeM (hat ⟨1, 2, 3⟩) ⟨0, -3, 2, 3, 0, -1, -2, 1, 0⟩
#guard closeM (rot x (Elem.pi / 2)) ⟨1, 0, 0, 0, 0, -1, 0, 1, 0⟩
#guard closeM (rot y (Elem.pi / 2)) ⟨0, 0, 1, 0, 1, 0, -1, 0, 0⟩
#guard closeM (rot z (Elem.pi / 2)) ⟨0, -1, 0, 1, 0, 0, 0, 0, 1⟩
#guard closeM (rot kt 2.65949884) Rt 1e-5

-- test_R2rot (lines 73-86)
def R2rotTest (k : V) (theta : Float) : Bool :=
  let r := R2rot (rot k theta)
  let k2 := r.1.v
  let t2 := r.2
  let flip : Bool := (theta - t2).abs > theta + t2
  let t2 := if flip then -t2 else t2
  let k2 := if flip then -k2 else k2
  close theta t2 1e-6 && (theta.abs < 1e-9 || closeV k k2 || (theta.abs - Elem.pi < 1e-9 && closeV k (-k2)))
#guard R2rotTest x (Elem.pi / 2)
#guard R2rotTest y (Elem.pi / 2)
#guard R2rotTest z (Elem.pi / 2)
#guard R2rotTest kt 2.65949884
#guard R2rotTest (unit ⟨1, 2, 3⟩) 1e-10
#guard R2rotTest (unit ⟨2, -1, 3⟩) (Elem.pi + 1e-10)
#guard R2rotTest (unit ⟨-2, -1, 3⟩) (Elem.pi + 1e-10)
#guard R2rotTest (unit ⟨2, -1, -3⟩) (Elem.pi + 1e-10)
#guard R2rotTest (unit ⟨0, -1, -3⟩) (Elem.pi + 1e-10)
#guard R2rotTest z (Elem.pi + 1e-10)
-- the defect of C04 in double precision: the neighbouring axis gets the wrong sign
#guard !R2rotTest (unit ⟨0, -1, 3⟩) (Elem.pi + 1e-10)

-- test_R2q, test_q2R, test_rot2q, test_q2rot (lines 104-148)
#guard got (R2q Rt) fun q => closeL (q4 q) (q4 qt) 1e-6
#guard closeM (q2R qt) Rt
#guard got (rot2q (R2rot Rt).1 (R2rot Rt).2) fun q => closeL (q4 q) (q4 qt) 1e-6
#guard let r := q2rot qt; closeM (rot r.1.v r.2) Rt
#guard closeL (q4 (quatcomplement qt)) [0.2387194, -0.4360402, -0.2933459, -0.8165967] 0

-- test_quatproduct (lines 160-169), test_quatjacobian (lines 171-180)
def q1 : V4 Float := ⟨0.63867877, 0.52251797, 0.56156573, 0.06089615⟩
def q2 : V4 Float := ⟨0.35764716, 0.61051424, 0.11540801, 0.69716703⟩
#guard got (R2q (q2R q1 * q2R q2)) fun q => closeL (q4 ((quatproduct q1).mulVec q2)) (q4 q) 1e-6
#guard closeV (quatjacobian q1).row ⟨-0.26125898, -0.28078286, -0.03044808⟩
#guard closeM (quatjacobian q1).blk ⟨0.31933938, 0.03044808, -0.28078286, -0.03044808, 0.31933938, 0.26125898, 0.28078286, -0.26125898, 0.31933938⟩

-- test_rpy2R (lines 184-200)
#guard closeM (rpy2R ⟨deg 10, deg (-30), deg 90⟩) ⟨0, -0.9848077, 0.1736482, 0.8660254, -0.0868241, -0.4924039, 0.5, 0.1503837, 0.8528686⟩
#guard got (R2rpy (rpy2R ⟨deg 10, deg (-30), deg 90⟩)) fun v => closeV v ⟨deg 10, deg (-30), deg 90⟩
#guard raises (R2rpy (rpy2R (⟨deg 10, deg 90, deg (-30)⟩ : V)))

-- test_slerp (lines 203-229)
def slerpTest (k1 : V) (t1 : Float) (k2 : V) (t2 t : Float) : Bool :=
  let R1 := rot k1 t1
  let R2 := rot k2 t2
  let kt := R2rot (R1.transpose * R2)
  let Rt := R1 * rot kt.1.v (kt.2 * t)
  got (R2q R1) fun q1 => got (R2q R2) fun q2 =>
    (got (slerp q1 q2 t) fun q => closeM Rt (q2R q)) && (got (slerp q1 (-q2) t) fun q => closeM Rt (q2R q))
#guard slerpTest ⟨0.53436371, 0.24406035, 0.80925273⟩ (-4.643) ⟨-0.71076104, 0.57683297, 0.40259467⟩ 0.25945178 0.72
#guard slerpTest z 0 z 1e-7 0.5
#guard slerpTest z 1.82 x 18.7 0.76

/-! ## Robots (lines 568-635) -/

def inch (v : V) : V := V3.smul 0.0254 v

def puma : Robot Float :=
  { H := [z, y, y, z, y, x]
    P := [⟨0, 0, 13⟩, 0, ⟨7.8, -4.9, -0.75⟩, ⟨0, 0, -8⟩, 0, 0, ⟨2.2, 0, 0⟩].map inch
    jointType := [0, 0, 0, 0, 0, 0]
    lower := some ([-5, -256, -214, -384, -32, -267].map deg)
    upper := some ([313, 76, 34, 194, 212, 267].map deg) }

def pumaTool : Robot Float := { puma with Rtool := some (rot y (Elem.pi / 2)), ptool := some ⟨0.05, 0, 0⟩ }

def abb : Robot Float :=
  { H := [z, y, y, x, y, x]
    P := [⟨0, 0, 0.78⟩, ⟨0.32, 0, 0⟩, ⟨0, 0, 1.075⟩, ⟨0, 0, 0.2⟩, ⟨1.142, 0, 0⟩, ⟨0.2, 0, 0⟩, 0]
    jointType := [0, 0, 0, 0, 0, 0]
    lower := some ([-170, -65, -180, -300, -120, -360].map deg)
    upper := some ([170, 85, 70, 300, 120, 360].map deg)
    Rtool := some (rot y (Elem.pi / 2))
    ptool := some 0 }

def ur5e : Robot Float :=
  { H := [z, -y, -y, -y, -z, -y]
    P := [⟨0, 0, 0.1625⟩, 0, ⟨-0.425, 0, 0⟩, ⟨-0.3922, -0.1333, 0⟩, ⟨0, 0, -0.0997⟩, ⟨0, -0.0996, 0⟩, 0]
    jointType := [0, 0, 0, 0, 0, 0]
    lower := some ([-2, -2, -1, -2, -2, -2].map (· * Elem.pi))
    upper := some ([2, 2, 1, 2, 2, 2].map (· * Elem.pi))
    Rtool := some (rot x (Elem.pi / 2))
    ptool := some 0 }

def zeros : List Float := [0, 0, 0, 0, 0, 0]
def joints2 : List Float := [180, -90, -90, 90, 90, 90].map deg
def joints3 : List Float := [50, -105, 31, 4, 126, -184].map deg

-- the constructor accepts these robots, and rejects a wrong axis or a wrong number of columns
#guard got (Robot.init puma.H puma.P puma.jointType puma.lower puma.upper none none none none none none none none none none) fun _ => true
#guard raises (Robot.init (⟨0, 0, 2⟩ :: puma.H.tail) puma.P puma.jointType puma.lower puma.upper none none none none none none none none none none)
#guard raises (Robot.init puma.H puma.P.tail puma.jointType puma.lower puma.upper none none none none none none none none none none)

-- test_fwdkin (lines 233-269)
#guard got (fwdkin puma zeros) fun T => closeM T.R 1 && closeV T.p (inch ⟨10, -4.9, 4.25⟩)
#guard got (fwdkin puma joints2) fun T => closeM T.R (rot z Elem.pi * rot y (-Elem.pi / 2)) && closeV T.p (inch ⟨-0.75, 4.9, 31⟩)
#guard got (fwdkin puma joints3) fun T =>
  closeM T.R ⟨0.4274, 0.8069, -0.4076, 0.4455, -0.5804, -0.6817, -0.7866, 0.1097, -0.6076⟩ 1e-4 && closeV T.p ⟨0.2236, 0.0693, 0.4265⟩ 1e-4
#guard got (fwdkin pumaTool joints3) fun T =>
  closeM T.R ⟨0.4076, 0.8069, 0.4274, 0.6817, -0.5804, 0.4455, 0.6076, 0.1097, -0.7866⟩ 1e-4 && closeV T.p ⟨0.2450, 0.0916, 0.3872⟩ 1e-4
#guard raises (fwdkin puma ([400, 0, 0, 0, 0, 0].map deg))

-- test_robotjacobian (lines 271-302); columns
def closeJ (J : List (V6 Float)) (t : List (V × V)) : Bool :=
  J.length == t.length && (J.zip t).all fun c => closeV c.1.top c.2.1 1e-4 && closeV c.1.bot c.2.2 1e-4
#guard got (robotjacobian puma zeros) fun J => closeJ J
  [(z, inch ⟨4.9, 10, 0⟩), (y, inch ⟨-8.75, 0, -10⟩), (y, inch ⟨-8, 0, -2.2⟩), (z, inch ⟨0, 2.2, 0⟩), (y, inch ⟨0, 0, -2.2⟩), (x, 0)]
#guard got (robotjacobian puma joints3) fun J => closeJ J
  [(⟨0, 0, 1⟩, ⟨-0.0693, 0.2236, 0⟩), (⟨-0.766, 0.6428, 0⟩, ⟨0.0619, 0.0738, -0.1969⟩), (⟨-0.766, 0.6428, 0⟩, ⟨-0.0643, -0.0766, -0.2298⟩),
   (⟨-0.6179, -0.7364, 0.2756⟩, ⟨0.0255, -0.0206, 0.0022⟩), (⟨-0.7765, 0.6265, -0.0671⟩, ⟨-0.0259, -0.0357, -0.0343⟩),
   (⟨0.4274, 0.4456, -0.7866⟩, 0)]

/-! ## Subproblems (lines 305-356) -/

#guard got (subproblem0 x y z) fun t => t == Elem.pi / 2
#guard got (subproblem1 (unit (x + z)) (unit (y + z)) z) fun t => t == Elem.pi / 2
#guard got (subproblem2 x (unit (x + y + z)) z y) fun l =>
  l.length == 2 && l.all fun a => closeV ((rot z a.1 * rot y a.2).mulVec x) (unit (x + y + z)) 1e-4
#guard got (subproblem2 x z z y) fun l => l.length == 1 && l.all fun a => closeV ((rot z a.1 * rot y a.2).mulVec x) z 1e-4
#guard got (subproblem3 ⟨0.5, 0, 0⟩ ⟨0, 0.75, 0⟩ z 0.5) fun l =>
  l.length == 2 && l.all fun a => close ((⟨0, 0.75, 0⟩ : V) + (rot z a).mulVec ⟨0.5, 0, 0⟩).norm 0.5 1e-7
#guard got (subproblem3 ⟨0.5, 0, 0⟩ ⟨0, 0.75, 0⟩ z 1.25) fun l =>
  l.length == 1 && l.all fun a => close ((⟨0, 0.75, 0⟩ : V) + (rot z a).mulVec ⟨0.5, 0, 0⟩).norm 1.25 1e-7
#guard let l := subproblem4 y ⟨0.8, 0.2, 0.5⟩ z 0.3
  l.length == 2 && l.all fun a => close (y.dot ((rot z a).mulVec ⟨0.8, 0.2, 0.5⟩)) 0.3 1e-4

/-! ## Inverse kinematics (lines 358-470) -/

def reaches (r : Robot Float) (T : Transform Float) (s : List Float) : Bool := got (fwdkin r s) fun T' => T.eq T'
def ikTest (r : Robot Float) (f : Robot Float → Transform Float → Except PyErr (List (List Float))) (theta : List Float) : Bool :=
  got (fwdkin r theta) fun T => got (f r T) fun sols => !sols.isEmpty && sols.all (reaches r T)
def ikLastTest (r : Robot Float) (f : Robot Float → Transform Float → Option (List Float) → Except PyErr (List (List Float)))
    (theta last : List Float) : Bool :=
  got (fwdkin r theta) fun T => got (f r T (some last)) fun sols => match sols with
    | [] => false
    | s :: _ => (got (fwdkin r s) fun T' => T.isclose T' 1e-8) && closeL s last (deg 10 + 1e-3)

def ik6 (r : Robot Float) (T : Transform Float) (last : Option (List Float) := none) := (robot6_sphericalwrist_invkin r T last).2

-- lines 430-442
#guard ikTest puma (fun r T => ik6 r T) zeros
#guard ikTest abb (fun r T => ik6 r T) [-0.09550528, -0.43532822, -2.35369965, -2.42324955, -1.83659391, -4.00786639]
#guard ikTest pumaTool (fun r T => ik6 r T) ([50, -105, 31, 4, 126, -184].map deg)
#guard ikLastTest puma (fun r T l => ik6 r T l) zeros (zeros.map (· + deg 4))
#guard ikLastTest abb (fun r T l => ik6 r T l) (zeros.map (· - deg 4)) [0, 0, 0, 0, 0, Elem.pi * 2]

-- lines 455-474: eight solutions and twelve equivalent configurations
def equivTheta : List Float := [0, 0, -90, 0, 30, -190].map deg
#guard got (fwdkin puma equivTheta) fun T => got (ik6 puma T) fun s => got (equivalent_configurations puma s) fun e =>
  s.length == 8 && e.length == 12 && (s ++ e).all (reaches puma T) && (s ++ e).any fun t => closeL t equivTheta 1e-6

-- test_ur5e_invkin (lines 476-493)
#guard ikTest ur5e (fun r T => ur_invkin r T) ([10, 30, -10, 15, -35, 95].map deg)
#guard ikLastTest ur5e (fun r T l => ur_invkin r T l) ([50, 100, 27, 14, 29, 101].map deg) ([54, 104, 31, 18, 33, 105].map deg)

-- the defects of C30 and C60 in double precision: the home poses, at a wrist singularity, raise
#guard got (fwdkin abb zeros) fun T => raises (ik6 abb T)
#guard got (fwdkin abb ([10, 20, 30, 40, 0, 50].map deg)) fun T => raises (ik6 abb T)
#guard got (fwdkin ur5e zeros) fun T => raises (ur_invkin ur5e T)

-- the defect of C32: an unreachable pose gives the empty list, but raises with last joints
#guard got (ik6 abb ⟨1, ⟨10, 0, 0⟩, none, none⟩) fun l => l.isEmpty
#guard raises (ik6 abb ⟨1, ⟨10, 0, 0⟩, none, none⟩ (some zeros))

-- test_robot_aux_transforms (lines 518-543)
def auxTool : Transform Float := ⟨rot y (deg 30), ⟨0.3, 0.04, 0.09⟩, none, none⟩
def auxFlange : Transform Float := ⟨rot x (deg 86), ⟨0.002, 0.04, 0.1⟩, none, none⟩
def auxBase : Transform Float := ⟨rot z (deg 12), ⟨0.1, 0.8, 0.342⟩, none, none⟩
def pumaAux : Robot Float := { puma with Rtool := some auxTool.R, ptool := some auxTool.p, Tflange := some auxFlange, Tbase := some auxBase }
def T0 : Transform Float := ⟨rot kt 1.1, ⟨0.4, -0.2, 0.7⟩, none, none⟩
#guard (applyAux pumaAux T0).isclose (auxBase * T0 * auxFlange * auxTool) 1e-8
#guard T0.isclose (unapplyAux pumaAux (applyAux pumaAux T0)) 1e-8
#guard got (fwdkin puma ([10, 20, 12, 84, 72, 10].map deg)) fun T => got (fwdkin pumaAux ([10, 20, 12, 84, 72, 10].map deg)) fun T' =>
  T'.isclose (auxBase * T * auxFlange * auxTool) 1e-8

-- the defect of C93: 110 degrees is lost after 60 conversions to a quaternion and back, 80 and 130 degrees are kept
def turns : Nat → M → Except PyErr M
  | 0, R => .ok R
  | n + 1, R => R2q R >>= fun q => turns n (q2R q)
def tilted : V := ⟨1 / 3, 2 / 3, 2 / 3⟩
#guard got (turns 20 (rot tilted (deg 110))) fun R => closeM R (rot tilted (deg 110)) 1e-6
#guard got (turns 60 (rot tilted (deg 110))) fun R => !closeM R (rot tilted (deg 110)) 0.1
#guard got (turns 1000 (rot tilted (deg 80))) fun R => closeM R (rot tilted (deg 80)) 1e-12
#guard got (turns 1000 (rot tilted (deg 130))) fun R => closeM R (rot tilted (deg 130)) 1e-12

/-! ## Tesseract conversions -/
#guard closeM (toIsometry ⟨Rt, 0, none, none⟩).R Rt
#guard closeM (toIsometry ⟨rot y Elem.pi, 0, none, none⟩).R (rot y Elem.pi)

end FloatTests
