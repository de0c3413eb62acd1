import Verif.Spec

/-!
# `Fl F`: floating-point arithmetic with rounding and overflow

The fourth scalar type.  `XReal` computes exactly; here every operation is computed exactly, rounded, and replaced by an infinity
when the rounded value exceeds the largest finite number.  The rounding and the elementary functions are a parameter `F`, of which
only error bounds are assumed, so a theorem about `Fl F` holds for every rounding mode and every library within those bounds.
`Verif/B64.lean` gives the instance of IEEE binary64 with rounding to nearest, ties to even.

Simplifications: the sign of zero is ignored; NumPy's `dot`/`matmul` are summed from left to right and every operation is rounded
(BLAS may choose another order or fused operations; the error bounds proved from this model have slack for either, but the model does
not cover them).
-/
set_option autoImplicit false

/-- A floating-point system: rounding `rnd` with relative error `u` and underflow error `η`, largest finite number `big`, and
elementary functions. -/
structure FSys where
  rnd : ℝ → ℝ
  u : ℝ
  η : ℝ
  big : ℝ
  sinF : ℝ → ℝ
  cosF : ℝ → ℝ
  arccosF : ℝ → ℝ
  arcsinF : ℝ → ℝ
  arctan2F : ℝ → ℝ → ℝ
  u_nonneg : 0 ≤ u
  u_le : u ≤ 1 / 1024
  η_nonneg : 0 ≤ η
  η_le : η ≤ u
  big_ge : 1000000 ≤ big
  /-- the standard model of rounding, with underflow -/
  rnd_err : ∀ x, |rnd x - x| ≤ u * |x| + η
  rnd_zero : rnd 0 = 0
  rnd_one : rnd 1 = 1
  rnd_nonneg : ∀ x, 0 ≤ x → 0 ≤ rnd x
  sin_err : ∀ x, |sinF x - Real.sin x| ≤ u
  cos_err : ∀ x, |cosF x - Real.cos x| ≤ u

/-- A floating-point number of the system `F`. -/
structure Fl (F : FSys) where
  val : XReal

namespace FSys
variable (F : FSys)

/-- Round an exact result; overflow gives an infinity. -/
noncomputable def round : XReal → XReal
  | .fin x => if |F.rnd x| ≤ F.big then .fin (F.rnd x) else if x < 0 then .ninf else .pinf
  | x => x

end FSys

namespace Fl
variable {F : FSys}

noncomputable instance : Add (Fl F) := ⟨fun a b => ⟨F.round (a.val + b.val)⟩⟩
noncomputable instance : Sub (Fl F) := ⟨fun a b => ⟨F.round (a.val - b.val)⟩⟩
noncomputable instance : Mul (Fl F) := ⟨fun a b => ⟨F.round (a.val * b.val)⟩⟩
noncomputable instance : Div (Fl F) := ⟨fun a b => ⟨F.round (a.val / b.val)⟩⟩
noncomputable instance : Neg (Fl F) := ⟨fun a => ⟨-a.val⟩⟩
noncomputable instance : Zero (Fl F) := ⟨⟨.fin 0⟩⟩
noncomputable instance : One (Fl F) := ⟨⟨.fin 1⟩⟩
instance : LT (Fl F) := ⟨fun a b => a.val < b.val⟩
instance : LE (Fl F) := ⟨fun a b => a.val ≤ b.val⟩
noncomputable instance : DecidableLT (Fl F) := fun _ _ => Classical.propDecidable _
noncomputable instance : DecidableLE (Fl F) := fun _ _ => Classical.propDecidable _

/-- Simplification: `floor_divide` is the exact floor of the quotient, rounded once (NumPy rounds intermediate results too, but corrects the
outcome to the nearest integer; the two agree for quotients below 2⁵¹).  `remainder` is rounded once, as in NumPy (`fmod` is exact). -/
noncomputable instance : Elem (Fl F) where
  lit q := ⟨F.round (.fin (q : ℝ))⟩
  pi := ⟨F.round (.fin Real.pi)⟩
  sqrt a := ⟨F.round (Elem.sqrt a.val)⟩
  sin a := ⟨XReal.onFin (fun _ => True) F.sinF a.val⟩
  cos a := ⟨XReal.onFin (fun _ => True) F.cosF a.val⟩
  arccos a := ⟨XReal.onFin (fun x => -1 ≤ x ∧ x ≤ 1) F.arccosF a.val⟩
  arcsin a := ⟨XReal.onFin (fun x => -1 ≤ x ∧ x ≤ 1) F.arcsinF a.val⟩
  arctan2 a b := ⟨match a.val, b.val with
    | .fin y, .fin x => .fin (F.arctan2F y x)
    | _, _ => .nan⟩
  abs a := ⟨Elem.abs a.val⟩
  sign a := ⟨Elem.sign a.val⟩
  floorDiv a b := ⟨F.round (Elem.floorDiv a.val b.val)⟩
  remainder a b := ⟨F.round (Elem.remainder a.val b.val)⟩
  rint a := ⟨Elem.rint a.val⟩
  toInt a := Elem.toInt a.val

/-- The finite number `x` (used only for representable or arbitrary exact inputs). -/
def of (x : ℝ) : Fl F := ⟨.fin x⟩

/-- `a` is finite and within `e` of the real number `x`. -/
def Near (a : Fl F) (x e : ℝ) : Prop := ∃ v, a.val = .fin v ∧ |v - x| ≤ e

end Fl

namespace Spec
variable {F : FSys}

/-- The vector `a` is finite and within Euclidean distance `e` of `v`. -/
def VNear (a : V3 (Fl F)) (v : V3 ℝ) (e : ℝ) : Prop := ∃ w : V3 ℝ, a = w.map Fl.of ∧ (w - v).norm ≤ e

/-- The matrix `A` is finite and moves every vector `v` to within `e * |v|` of where `B` moves it. -/
def MNear (A : M3 (Fl F)) (B : M3 ℝ) (e : ℝ) : Prop :=
  ∃ C : M3 ℝ, A = C.map Fl.of ∧ ∀ v, (C.mulVec v - B.mulVec v).norm ≤ e * v.norm

/-- The components of the quaternion `q'` are finite and within `e` of those of `q`. -/
def QNear (q' : V4 (Fl F)) (q : V4 ℝ) (e : ℝ) : Prop := q'.w.Near q.w e ∧ q'.x.Near q.x e ∧ q'.y.Near q.y e ∧ q'.z.Near q.z e

/-- A transform whose entries are stored with relative error `u`. -/
def TNear (T' : Transform (Fl F)) (T : Transform ℝ) : Prop :=
  IsRot T.R ∧ MNear T'.R T.R F.u ∧ VNear T'.p T.p (F.u * T.p.norm)

/-- `robot'` stores the real robot `robot` with relative error `u`: unit axes, link vectors, flange, tool and base.  Limits, names and
inertias are not compared. -/
structure RobotNear (robot' : Robot (Fl F)) (robot : Robot ℝ) : Prop where
  types : robot'.jointType = robot.jointType
  axes : List.Forall₂ (fun h' h => IsUnit3 h ∧ VNear h' h F.u) robot'.H robot.H
  links : List.Forall₂ (fun P' P => VNear P' P (F.u * P.norm)) robot'.P robot.P
  flange : Option.Rel TNear robot'.Tflange robot.Tflange
  base : Option.Rel TNear robot'.Tbase robot.Tbase
  toolR : Option.Rel (fun R' R => IsRot R ∧ MNear R' R F.u) robot'.Rtool robot.Rtool
  toolp : Option.Rel (fun p' p => VNear p' p (F.u * p.norm)) robot'.ptool robot.ptool

/-- The joint values of joints of types `ts`: displacements (types 1 and 3) with relative error `u`, angles with absolute error `u`. -/
def AnglesNear : List Nat → List (Fl F) → List ℝ → Prop
  | [], _, _ => True
  | t :: ts, a :: as, x :: xs => (if t = 1 ∨ t = 3 then a.Near x (F.u * |x|) else a.Near x F.u) ∧ AnglesNear ts as xs
  | _ :: _, _, _ => False

/-- How far the joints of types `ts` with following links `Ps` can carry the tip: the lengths of the links and the displacements. -/
noncomputable def travel : List Nat → List (V3 ℝ) → List ℝ → ℝ
  | t :: ts, P :: Ps, x :: xs => (if t = 1 ∨ t = 3 then |x| else 0) + P.norm + travel ts Ps xs
  | _, _, _ => 0

/-- Upper bound of the distance of the tip of the robot, tool and base included, from the origin. -/
noncomputable def reach (robot : Robot ℝ) (θ : List ℝ) : ℝ :=
  (robot.P.head?.map V3.norm).getD 0 + travel robot.jointType robot.P.tail θ + (robot.Tflange.map (·.p.norm)).getD 0 +
    (robot.ptool.map V3.norm).getD 0 + (robot.Tbase.map (·.p.norm)).getD 0

/-- Which columns of the Jacobian of joints of types `ts` belong to turning joints: one column per joint, except that a mobile base (a
joint of type 3 and the two after it) has two, the first for driving and the second for turning. -/
def columnTurns : List Nat → List Bool
  | 3 :: _ :: _ :: ts => false :: true :: columnTurns ts
  | t :: ts => (t == 0) :: columnTurns ts
  | [] => []

/-- The last joint of every mobile base turns. -/
def GroupsTurn : List Nat → Prop
  | 3 :: _ :: t :: ts => (t ≠ 1 ∧ t ≠ 3) ∧ GroupsTurn ts
  | _ :: ts => GroupsTurn ts
  | [] => True

end Spec
