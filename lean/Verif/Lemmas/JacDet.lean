import Verif.Props.Ur
import Verif.Lemmas.FlJac
import Mathlib.LinearAlgebra.Matrix.SchurComplement
import Mathlib.LinearAlgebra.Matrix.Determinant.Basic
import Mathlib.Tactic.FinCases

/-!
# Determinants of 6x6 Jacobians
-/
set_option autoImplicit false

/-- the entries of a column -/
def V6.entry (c : V6 ℝ) : Fin 6 → ℝ := ![c.top.x, c.top.y, c.top.z, c.bot.x, c.bot.y, c.bot.z]

/-- The determinant of a Jacobian with six columns. -/
noncomputable def Spec.jacDet (c1 c2 c3 c4 c5 c6 : V6 ℝ) : ℝ :=
  Matrix.det (Matrix.of fun i j : Fin 6 => V6.entry (![c1, c2, c3, c4, c5, c6] j) i)

namespace JacDet

def colM (a b c : V3 ℝ) : Matrix (Fin 3) (Fin 3) ℝ := !![a.x, b.x, c.x; a.y, b.y, c.y; a.z, b.z, c.z]

theorem det_colM (a b c : V3 ℝ) : (colM a b c).det = a.dot (b.cross c) := by
  rw [Matrix.det_fin_three]
  simp [colM, V3.dot]
  ring

theorem det_blocks (c1 c2 c3 c4 c5 c6 : V6 ℝ) : Spec.jacDet c1 c2 c3 c4 c5 c6 =
    (Matrix.fromBlocks (colM c1.top c2.top c3.top) (colM c4.top c5.top c6.top) (colM c1.bot c2.bot c3.bot) (colM c4.bot c5.bot c6.bot)).det := by
  rw [Spec.jacDet, ← Matrix.det_submatrix_equiv_self (finSumFinEquiv (m := 3) (n := 3))]
  congr 1
  ext i j
  rcases i with i | i <;> rcases j with j | j <;> fin_cases i <;> fin_cases j <;> rfl

/-- `a × d` as a matrix acting on `a` -/
def crossM (d : V3 ℝ) : Matrix (Fin 3) (Fin 3) ℝ := !![0, d.z, -d.y; -d.z, 0, d.x; d.y, -d.x, 0]

theorem crossM_mul (d a b c : V3 ℝ) : crossM d * colM a b c = colM (a.cross d) (b.cross d) (c.cross d) := by
  ext i j
  fin_cases i <;> fin_cases j <;> simp [crossM, colM, Matrix.mul_apply, Fin.sum_univ_three] <;> ring

theorem colM_add (a b c a' b' c' : V3 ℝ) : colM a b c + colM a' b' c' = colM (a + a') (b + b') (c + c') := by
  ext i j
  fin_cases i <;> fin_cases j <;> simp [colM]

/-- moving the reference point does not change the determinant -/
theorem det_shift (d a1 a2 a3 a4 a5 a6 v1 v2 v3 v4 v5 v6 : V3 ℝ) :
    Spec.jacDet ⟨a1, a1.cross d + v1⟩ ⟨a2, a2.cross d + v2⟩ ⟨a3, a3.cross d + v3⟩ ⟨a4, a4.cross d + v4⟩ ⟨a5, a5.cross d + v5⟩ ⟨a6, a6.cross d + v6⟩ =
    Spec.jacDet ⟨a1, v1⟩ ⟨a2, v2⟩ ⟨a3, v3⟩ ⟨a4, v4⟩ ⟨a5, v5⟩ ⟨a6, v6⟩ := by
  rw [det_blocks, det_blocks]
  simp only
  have : Matrix.fromBlocks (colM a1 a2 a3) (colM a4 a5 a6) (colM (a1.cross d + v1) (a2.cross d + v2) (a3.cross d + v3))
      (colM (a4.cross d + v4) (a5.cross d + v5) (a6.cross d + v6)) =
      Matrix.fromBlocks 1 0 (crossM d) 1 * Matrix.fromBlocks (colM a1 a2 a3) (colM a4 a5 a6) (colM v1 v2 v3) (colM v4 v5 v6) := by
    rw [Matrix.fromBlocks_multiply]
    simp only [one_mul, zero_mul, add_zero, crossM_mul, colM_add]
  rw [this, Matrix.det_mul, Matrix.det_fromBlocks_zero₁₂]
  simp

theorem colM_zero : colM 0 0 0 = 0 := by
  ext i j
  fin_cases i <;> fin_cases j <;> rfl

/-- three axes through one point -/
theorem abs_det_wrist (a1 a2 a3 b1 b2 b3 v1 v2 v3 : V3 ℝ) :
    |Spec.jacDet ⟨a1, v1⟩ ⟨a2, v2⟩ ⟨a3, v3⟩ ⟨b1, 0⟩ ⟨b2, 0⟩ ⟨b3, 0⟩| = |v1.dot (v2.cross v3)| * |b1.dot (b2.cross b3)| := by
  rw [det_blocks, ← Matrix.abs_det_submatrix_equiv_equiv (Equiv.refl _) (Equiv.sumComm (Fin 3) (Fin 3))]
  have : (Matrix.fromBlocks (colM a1 a2 a3) (colM b1 b2 b3) (colM v1 v2 v3) (colM 0 0 0)).submatrix (Equiv.refl _) (Equiv.sumComm (Fin 3) (Fin 3)) =
      Matrix.fromBlocks (colM b1 b2 b3) (colM a1 a2 a3) 0 (colM v1 v2 v3) := by
    rw [colM_zero]
    ext i j
    rcases i with i | i <;> rcases j with j | j <;> rfl
  simp only at this ⊢
  rw [this, Matrix.det_fromBlocks_zero₂₁, abs_mul, det_colM, det_colM, mul_comm]

/-- three parallel axes, the last of which is followed by two axes through the reference point -/
theorem abs_det_parallel (a k b2 b3 v1 v2 v3 v4 : V3 ℝ) (hw : v4.dot ((v2 - v4).cross (v3 - v4)) = 0) :
    |Spec.jacDet ⟨a, v1⟩ ⟨k, v2⟩ ⟨k, v3⟩ ⟨k, v4⟩ ⟨b2, 0⟩ ⟨b3, 0⟩| = |v1.dot ((v2 - v4).cross (v3 - v4))| * |k.dot (b2.cross b3)| := by
  rw [det_blocks, ← Matrix.abs_det_submatrix_equiv_equiv (Equiv.refl _) (Equiv.sumComm (Fin 3) (Fin 3))]
  have e1 : (Matrix.fromBlocks (colM a k k) (colM k b2 b3) (colM v1 v2 v3) (colM v4 0 0)).submatrix (Equiv.refl _) (Equiv.sumComm (Fin 3) (Fin 3)) =
      Matrix.fromBlocks (colM k b2 b3) (colM a 0 0) (colM v4 0 0) (colM v1 (v2 - v4) (v3 - v4)) *
        Matrix.fromBlocks 1 !![0, 1, 1; 0, 0, 0; 0, 0, 0] 0 1 := by
    rw [Matrix.fromBlocks_multiply]
    ext i j
    rcases i with i | i <;> rcases j with j | j <;> fin_cases i <;> fin_cases j <;>
      simp [colM, Matrix.mul_apply, Fin.sum_univ_three]
  simp only at e1 ⊢
  rw [e1, Matrix.det_mul, Matrix.det_fromBlocks_zero₂₁, Matrix.det_one, one_mul, mul_one]
  generalize v2 - v4 = w2 at *
  generalize v3 - v4 = w3 at *
  set M := Matrix.fromBlocks (colM k b2 b3) (colM a 0 0) (colM v4 0 0) (colM v1 w2 w3) with hM
  have e2 : M = M.updateCol (Sum.inl 0) (Sum.elim ![k.x, k.y, k.z] ![0, 0, 0] + Sum.elim ![0, 0, 0] ![v4.x, v4.y, v4.z]) := by
    ext i j
    rcases i with i | i <;> rcases j with j | j <;> fin_cases i <;> fin_cases j <;> simp [hM, colM, Matrix.updateCol_apply]
  rw [e2, Matrix.det_updateCol_add]
  have e3 : M.updateCol (Sum.inl 0) (Sum.elim ![k.x, k.y, k.z] ![0, 0, 0]) = Matrix.fromBlocks (colM k b2 b3) (colM a 0 0) 0 (colM v1 w2 w3) := by
    ext i j
    rcases i with i | i <;> rcases j with j | j <;> fin_cases i <;> fin_cases j <;> simp [hM, colM, Matrix.updateCol_apply]
  have e4 : (M.updateCol (Sum.inl 0) (Sum.elim ![0, 0, 0] ![v4.x, v4.y, v4.z])).submatrix (Equiv.refl _) (Equiv.swap (Sum.inl 0) (Sum.inr 0)) =
      Matrix.fromBlocks (colM a b2 b3) 0 (colM v1 0 0) (colM v4 w2 w3) := by
    ext i j
    rcases i with i | i <;> rcases j with j | j <;> fin_cases i <;> fin_cases j <;>
      simp [hM, colM, Matrix.updateCol_apply, Equiv.swap_apply_def]
  have e5 : (M.updateCol (Sum.inl 0) (Sum.elim ![0, 0, 0] ![v4.x, v4.y, v4.z])).det = 0 := by
    rw [← abs_eq_zero, ← Matrix.abs_det_submatrix_equiv_equiv (Equiv.refl _) (Equiv.swap (Sum.inl 0) (Sum.inr 0)), e4, Matrix.det_fromBlocks_zero₁₂,
      det_colM, det_colM, hw, mul_zero, abs_zero]
  rw [e3, e5, add_zero, Matrix.det_fromBlocks_zero₂₁, det_colM, det_colM, abs_mul, mul_comm]

/-- the Jacobian of an arm with six rotary joints and the tool at `e`: columns in the frame of the first link, turned by the base -/
theorem jac6 {r : Robot ℝ} {h0 h1 h2 h3 h4 h5 P0 P1 P2 P3 P4 P5 P6 : V3 ℝ} (ht : r.jointType = [0, 0, 0, 0, 0, 0]) (hH : r.H = [h0, h1, h2, h3, h4, h5])
    (hP : r.P = [P0, P1, P2, P3, P4, P5, P6]) (q1 q2 q3 q4 q5 q6 : ℝ) : ∃ e : V3 ℝ,
    let R1 := rot h0 q1
    let R2 := R1 * rot h1 q2
    let R3 := R2 * rot h2 q3
    let R4 := R3 * rot h3 q4
    let R5 := R4 * rot h4 q5
    let R6 := R5 * rot h5 q6
    let O2 := P0 + R1.mulVec P1
    let O3 := O2 + R2.mulVec P2
    let O4 := O3 + R3.mulVec P3
    let O5 := O4 + R4.mulVec P4
    let O6 := O5 + R5.mulVec P5
    robotjacobian r [q1, q2, q3, q4, q5, q6] true = .ok ([(⟨R1.mulVec h0, (R1.mulVec h0).cross (e - P0)⟩ : V6 ℝ), ⟨R2.mulVec h1, (R2.mulVec h1).cross (e - O2)⟩,
      ⟨R3.mulVec h2, (R3.mulVec h2).cross (e - O3)⟩, ⟨R4.mulVec h3, (R4.mulVec h3).cross (e - O4)⟩, ⟨R5.mulVec h4, (R5.mulVec h4).cross (e - O5)⟩,
      ⟨R6.mulVec h5, (R6.mulVec h5).cross (e - O6)⟩].map fun c => ⟨(auxB r).R.mulVec c.top, (auxB r).R.mulVec c.bot⟩) := by
  rw [robotjacobian_steps r _ P0 [P1, P2, P3, P4, P5, P6] hP, ht, hH]
  simp only [jacLoop, fwdStep, true_or, if_true, Except.bind_ok, Except.pure_eq, M3.one_mul']
  generalize toolP r.ptool _ _ = e
  refine ⟨e, ?_⟩
  simp only [jacCols, if_true, Except.bind_ok, Except.pure_eq, hat_mulVec]
  rcases hB : r.Tbase with _ | B <;> simp [baseJ, auxB, hB, identityTransform, M3.one_mulVec]

/-- the triple product of three vectors turned by a rotation -/
theorem triple_rot {R : M3 ℝ} (hR : IsRot R) (a b c : V3 ℝ) : (R.mulVec a).dot ((R.mulVec b).cross (R.mulVec c)) = a.dot (b.cross c) := by
  rw [← hR.mulVec_cross, hR.dot_mulVec]

/-- first joint, and two parallel joints moving the same point -/
theorem arm_triple {h1 h2 : V3 ℝ} (s1 : h1 = V3.ey ∨ h1 = -V3.ey) (s2 : h2 = V3.ey ∨ h2 = -V3.ey) (v P w : V3 ℝ) (q : ℝ) :
    |v.dot ((h1.cross ((rot h1 q).mulVec (P + w))).cross (h2.cross ((rot h1 q).mulVec w)))| = |V3.ey.dot v| * |P.dot (h2.cross w)| := by
  have hq := Real.sin_sq_add_cos_sq q
  rw [← abs_mul, abs_eq_abs]
  rcases s1 with rfl | rfl <;> rcases s2 with rfl | rfl <;> simp [rot, V3.dot]
  · right; linear_combination -(v.y * (P.x * w.z - P.z * w.x)) * hq
  · right; linear_combination (v.y * (P.x * w.z - P.z * w.x)) * hq
  · left; left; linear_combination (P.x * w.z - P.z * w.x) * hq
  · left; left; linear_combination -(P.x * w.z - P.z * w.x) * hq

/-- two parallel joints move a point in the same plane, which a third one does not leave -/
theorem arm_flat {h : V3 ℝ} (s : h = V3.ey ∨ h = -V3.ey) (x a b : V3 ℝ) : (h.cross x).dot ((h.cross a).cross (h.cross b)) = 0 := by
  rcases s with rfl | rfl <;> simp [V3.dot] <;> ring

/-- a column seen from the point `C` instead of the point `e` -/
theorem col_shift {B : M3 ℝ} (hB : IsRot B) (a e C O : V3 ℝ) :
    (⟨B.mulVec a, B.mulVec (a.cross (e - O))⟩ : V6 ℝ) = ⟨B.mulVec a, (B.mulVec a).cross (B.mulVec (e - C)) + B.mulVec (a.cross (C - O))⟩ := by
  rw [← hB.mulVec_cross, ← M3.mulVec_add]
  congr 2
  ext <;> simp <;> ring

/-- three axes through the point `C` -/
theorem wrist_cols {B : M3 ℝ} (hB : IsRot B) {e C a1 a2 a3 a4 a5 a6 O1 O2 O3 O4 O5 O6 : V3 ℝ} (h4 : a4.cross (C - O4) = 0) (h5 : a5.cross (C - O5) = 0)
    (h6 : a6.cross (C - O6) = 0) : |Spec.jacDet ⟨B.mulVec a1, B.mulVec (a1.cross (e - O1))⟩ ⟨B.mulVec a2, B.mulVec (a2.cross (e - O2))⟩
      ⟨B.mulVec a3, B.mulVec (a3.cross (e - O3))⟩ ⟨B.mulVec a4, B.mulVec (a4.cross (e - O4))⟩ ⟨B.mulVec a5, B.mulVec (a5.cross (e - O5))⟩
      ⟨B.mulVec a6, B.mulVec (a6.cross (e - O6))⟩|
      = |(a1.cross (C - O1)).dot ((a2.cross (C - O2)).cross (a3.cross (C - O3)))| * |a4.dot (a5.cross a6)| := by
  have z : B.mulVec (0 : V3 ℝ) = 0 := by ext <;> simp
  rw [col_shift hB a1 e C, col_shift hB a2 e C, col_shift hB a3 e C, col_shift hB a4 e C, col_shift hB a5 e C, col_shift hB a6 e C, h4, h5, h6, z,
    det_shift, abs_det_wrist, triple_rot hB, triple_rot hB]

/-- three parallel axes, and two through the point `C` -/
theorem parallel_cols {B : M3 ℝ} (hB : IsRot B) {e C a1 k a5 a6 O1 O2 O3 O4 O5 O6 : V3 ℝ} (h5 : a5.cross (C - O5) = 0) (h6 : a6.cross (C - O6) = 0)
    (hw : (k.cross (C - O4)).dot ((k.cross (O4 - O2)).cross (k.cross (O4 - O3))) = 0) :
    |Spec.jacDet ⟨B.mulVec a1, B.mulVec (a1.cross (e - O1))⟩ ⟨B.mulVec k, B.mulVec (k.cross (e - O2))⟩
      ⟨B.mulVec k, B.mulVec (k.cross (e - O3))⟩ ⟨B.mulVec k, B.mulVec (k.cross (e - O4))⟩ ⟨B.mulVec a5, B.mulVec (a5.cross (e - O5))⟩
      ⟨B.mulVec a6, B.mulVec (a6.cross (e - O6))⟩|
      = |(a1.cross (C - O1)).dot ((k.cross (O4 - O2)).cross (k.cross (O4 - O3)))| * |k.dot (a5.cross a6)| := by
  have z : B.mulVec (0 : V3 ℝ) = 0 := by ext <;> simp
  have d : ∀ O, B.mulVec (k.cross (C - O)) - B.mulVec (k.cross (C - O4)) = B.mulVec (k.cross (O4 - O)) := fun O => by
    ext <;> simp <;> ring
  rw [col_shift hB a1 e C, col_shift hB k e C, col_shift hB k e C, col_shift hB k e C, col_shift hB a5 e C, col_shift hB a6 e C, h5, h6, z,
    det_shift, abs_det_parallel, d, d, triple_rot hB, triple_rot hB]
  rw [d, d, triple_rot hB, hw]

end JacDet
