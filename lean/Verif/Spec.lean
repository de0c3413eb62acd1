import Verif.Model.Robot
import Mathlib.LinearAlgebra.UnitaryGroup
import Mathlib.Algebra.Quaternion
import Mathlib.Analysis.Quaternion
import Mathlib.Analysis.SpecialFunctions.Trigonometric.Deriv

/-!
# Independent specifications

Notions used to state the properties, written without the model's functions.
-/

/-- Determinant of a 3x3 real matrix. -/
def M3.det (A : M3 ℝ) : ℝ :=
  A.a00 * (A.a11 * A.a22 - A.a12 * A.a21) - A.a01 * (A.a10 * A.a22 - A.a12 * A.a20)
    + A.a02 * (A.a10 * A.a21 - A.a11 * A.a20)

/-- Proper rotation: orthogonal with determinant 1. -/
structure IsRot (R : M3 ℝ) : Prop where
  orth : R.transpose * R = 1
  det : R.det = 1

/-- Unit 3-vector. -/
def IsUnit3 (k : V3 ℝ) : Prop := k.x * k.x + k.y * k.y + k.z * k.z = 1

/-- Unit quaternion. -/
def IsUnit4 (q : V4 ℝ) : Prop := q.w * q.w + q.x * q.x + q.y * q.y + q.z * q.z = 1

/-- The Mathlib matrix with the same entries. -/
def M3.toMatrix (A : M3 ℝ) : Matrix (Fin 3) (Fin 3) ℝ :=
  !![A.a00, A.a01, A.a02; A.a10, A.a11, A.a12; A.a20, A.a21, A.a22]

/-- The Mathlib vector with the same entries. -/
def V3.toFun (v : V3 ℝ) : Fin 3 → ℝ := ![v.x, v.y, v.z]

/-- The Mathlib quaternion with the same entries. -/
def V4.toH (q : V4 ℝ) : Quaternion ℝ := ⟨q.w, q.x, q.y, q.z⟩

/-- Rigid motion of the plane/space: rotation part is a proper rotation. -/
def Transform.IsRigid (T : Transform ℝ) : Prop := IsRot T.R

/-- Action of a transform on a point. -/
def Transform.act (T : Transform ℝ) (v : V3 ℝ) : V3 ℝ := T.p + T.R.mulVec v

/-- Entrywise derivative of a vector-valued curve. -/
def HasDerivV3 (f : ℝ → V3 ℝ) (f' : V3 ℝ) (t : ℝ) : Prop :=
  HasDerivAt (fun s => (f s).x) f'.x t ∧ HasDerivAt (fun s => (f s).y) f'.y t ∧
    HasDerivAt (fun s => (f s).z) f'.z t

/-- Entrywise derivative of a quaternion-valued curve. -/
def HasDerivV4 (f : ℝ → V4 ℝ) (f' : V4 ℝ) (t : ℝ) : Prop :=
  HasDerivAt (fun s => (f s).w) f'.w t ∧ HasDerivAt (fun s => (f s).x) f'.x t ∧
    HasDerivAt (fun s => (f s).y) f'.y t ∧ HasDerivAt (fun s => (f s).z) f'.z t

/-- Entrywise derivative of a matrix-valued curve. -/
structure HasDerivM3 (f : ℝ → M3 ℝ) (f' : M3 ℝ) (t : ℝ) : Prop where
  d00 : HasDerivAt (fun s => (f s).a00) f'.a00 t
  d01 : HasDerivAt (fun s => (f s).a01) f'.a01 t
  d02 : HasDerivAt (fun s => (f s).a02) f'.a02 t
  d10 : HasDerivAt (fun s => (f s).a10) f'.a10 t
  d11 : HasDerivAt (fun s => (f s).a11) f'.a11 t
  d12 : HasDerivAt (fun s => (f s).a12) f'.a12 t
  d20 : HasDerivAt (fun s => (f s).a20) f'.a20 t
  d21 : HasDerivAt (fun s => (f s).a21) f'.a21 t
  d22 : HasDerivAt (fun s => (f s).a22) f'.a22 t
