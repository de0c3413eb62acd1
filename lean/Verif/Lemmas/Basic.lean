import Verif.Spec

/-! # Entry lemmas and algebra of the small vectors and matrices -/

set_option linter.unusedSectionVars false
set_option autoImplicit false

section proj
variable {α : Type} [Add α] [Sub α] [Mul α] [Div α] [Neg α] [Zero α] [One α] [LT α] [LE α]
  [DecidableLT α] [DecidableLE α] [Elem α]

namespace V3
@[simp] theorem add_x (a b : V3 α) : (a + b).x = a.x + b.x := rfl
@[simp] theorem add_y (a b : V3 α) : (a + b).y = a.y + b.y := rfl
@[simp] theorem add_z (a b : V3 α) : (a + b).z = a.z + b.z := rfl
@[simp] theorem sub_x (a b : V3 α) : (a - b).x = a.x - b.x := rfl
@[simp] theorem sub_y (a b : V3 α) : (a - b).y = a.y - b.y := rfl
@[simp] theorem sub_z (a b : V3 α) : (a - b).z = a.z - b.z := rfl
@[simp] theorem neg_x (a : V3 α) : (-a).x = -a.x := rfl
@[simp] theorem neg_y (a : V3 α) : (-a).y = -a.y := rfl
@[simp] theorem neg_z (a : V3 α) : (-a).z = -a.z := rfl
@[simp] theorem zero_x : (0 : V3 α).x = 0 := rfl
@[simp] theorem zero_y : (0 : V3 α).y = 0 := rfl
@[simp] theorem zero_z : (0 : V3 α).z = 0 := rfl
@[simp] theorem smul_x (c : α) (a : V3 α) : (smul c a).x = c * a.x := rfl
@[simp] theorem smul_y (c : α) (a : V3 α) : (smul c a).y = c * a.y := rfl
@[simp] theorem smul_z (c : α) (a : V3 α) : (smul c a).z = c * a.z := rfl
@[simp] theorem sdiv_x (a : V3 α) (c : α) : (a.sdiv c).x = a.x / c := rfl
@[simp] theorem sdiv_y (a : V3 α) (c : α) : (a.sdiv c).y = a.y / c := rfl
@[simp] theorem sdiv_z (a : V3 α) (c : α) : (a.sdiv c).z = a.z / c := rfl
@[simp] theorem cross_x (a b : V3 α) : (cross a b).x = a.y * b.z - a.z * b.y := rfl
@[simp] theorem cross_y (a b : V3 α) : (cross a b).y = a.z * b.x - a.x * b.z := rfl
@[simp] theorem cross_z (a b : V3 α) : (cross a b).z = a.x * b.y - a.y * b.x := rfl
@[simp] theorem ex_x : (ex : V3 α).x = 1 := rfl
@[simp] theorem ex_y : (ex : V3 α).y = 0 := rfl
@[simp] theorem ex_z : (ex : V3 α).z = 0 := rfl
@[simp] theorem ey_x : (ey : V3 α).x = 0 := rfl
@[simp] theorem ey_y : (ey : V3 α).y = 1 := rfl
@[simp] theorem ey_z : (ey : V3 α).z = 0 := rfl
@[simp] theorem ez_x : (ez : V3 α).x = 0 := rfl
@[simp] theorem ez_y : (ez : V3 α).y = 0 := rfl
@[simp] theorem ez_z : (ez : V3 α).z = 1 := rfl
end V3

namespace M3
@[simp] theorem add_00 (A B : M3 α) : (A + B).a00 = A.a00 + B.a00 := rfl
@[simp] theorem add_01 (A B : M3 α) : (A + B).a01 = A.a01 + B.a01 := rfl
@[simp] theorem add_02 (A B : M3 α) : (A + B).a02 = A.a02 + B.a02 := rfl
@[simp] theorem add_10 (A B : M3 α) : (A + B).a10 = A.a10 + B.a10 := rfl
@[simp] theorem add_11 (A B : M3 α) : (A + B).a11 = A.a11 + B.a11 := rfl
@[simp] theorem add_12 (A B : M3 α) : (A + B).a12 = A.a12 + B.a12 := rfl
@[simp] theorem add_20 (A B : M3 α) : (A + B).a20 = A.a20 + B.a20 := rfl
@[simp] theorem add_21 (A B : M3 α) : (A + B).a21 = A.a21 + B.a21 := rfl
@[simp] theorem add_22 (A B : M3 α) : (A + B).a22 = A.a22 + B.a22 := rfl
@[simp] theorem sub_00 (A B : M3 α) : (A - B).a00 = A.a00 - B.a00 := rfl
@[simp] theorem sub_01 (A B : M3 α) : (A - B).a01 = A.a01 - B.a01 := rfl
@[simp] theorem sub_02 (A B : M3 α) : (A - B).a02 = A.a02 - B.a02 := rfl
@[simp] theorem sub_10 (A B : M3 α) : (A - B).a10 = A.a10 - B.a10 := rfl
@[simp] theorem sub_11 (A B : M3 α) : (A - B).a11 = A.a11 - B.a11 := rfl
@[simp] theorem sub_12 (A B : M3 α) : (A - B).a12 = A.a12 - B.a12 := rfl
@[simp] theorem sub_20 (A B : M3 α) : (A - B).a20 = A.a20 - B.a20 := rfl
@[simp] theorem sub_21 (A B : M3 α) : (A - B).a21 = A.a21 - B.a21 := rfl
@[simp] theorem sub_22 (A B : M3 α) : (A - B).a22 = A.a22 - B.a22 := rfl
@[simp] theorem smul_00 (c : α) (A : M3 α) : (smul c A).a00 = c * A.a00 := rfl
@[simp] theorem smul_01 (c : α) (A : M3 α) : (smul c A).a01 = c * A.a01 := rfl
@[simp] theorem smul_02 (c : α) (A : M3 α) : (smul c A).a02 = c * A.a02 := rfl
@[simp] theorem smul_10 (c : α) (A : M3 α) : (smul c A).a10 = c * A.a10 := rfl
@[simp] theorem smul_11 (c : α) (A : M3 α) : (smul c A).a11 = c * A.a11 := rfl
@[simp] theorem smul_12 (c : α) (A : M3 α) : (smul c A).a12 = c * A.a12 := rfl
@[simp] theorem smul_20 (c : α) (A : M3 α) : (smul c A).a20 = c * A.a20 := rfl
@[simp] theorem smul_21 (c : α) (A : M3 α) : (smul c A).a21 = c * A.a21 := rfl
@[simp] theorem smul_22 (c : α) (A : M3 α) : (smul c A).a22 = c * A.a22 := rfl
@[simp] theorem mul_00 (A B : M3 α) : (A * B).a00 = A.a00 * B.a00 + A.a01 * B.a10 + A.a02 * B.a20 := rfl
@[simp] theorem mul_01 (A B : M3 α) : (A * B).a01 = A.a00 * B.a01 + A.a01 * B.a11 + A.a02 * B.a21 := rfl
@[simp] theorem mul_02 (A B : M3 α) : (A * B).a02 = A.a00 * B.a02 + A.a01 * B.a12 + A.a02 * B.a22 := rfl
@[simp] theorem mul_10 (A B : M3 α) : (A * B).a10 = A.a10 * B.a00 + A.a11 * B.a10 + A.a12 * B.a20 := rfl
@[simp] theorem mul_11 (A B : M3 α) : (A * B).a11 = A.a10 * B.a01 + A.a11 * B.a11 + A.a12 * B.a21 := rfl
@[simp] theorem mul_12 (A B : M3 α) : (A * B).a12 = A.a10 * B.a02 + A.a11 * B.a12 + A.a12 * B.a22 := rfl
@[simp] theorem mul_20 (A B : M3 α) : (A * B).a20 = A.a20 * B.a00 + A.a21 * B.a10 + A.a22 * B.a20 := rfl
@[simp] theorem mul_21 (A B : M3 α) : (A * B).a21 = A.a20 * B.a01 + A.a21 * B.a11 + A.a22 * B.a21 := rfl
@[simp] theorem mul_22 (A B : M3 α) : (A * B).a22 = A.a20 * B.a02 + A.a21 * B.a12 + A.a22 * B.a22 := rfl
@[simp] theorem one_00 : (1 : M3 α).a00 = 1 := rfl
@[simp] theorem one_01 : (1 : M3 α).a01 = 0 := rfl
@[simp] theorem one_02 : (1 : M3 α).a02 = 0 := rfl
@[simp] theorem one_10 : (1 : M3 α).a10 = 0 := rfl
@[simp] theorem one_11 : (1 : M3 α).a11 = 1 := rfl
@[simp] theorem one_12 : (1 : M3 α).a12 = 0 := rfl
@[simp] theorem one_20 : (1 : M3 α).a20 = 0 := rfl
@[simp] theorem one_21 : (1 : M3 α).a21 = 0 := rfl
@[simp] theorem one_22 : (1 : M3 α).a22 = 1 := rfl
@[simp] theorem zero_00 : (0 : M3 α).a00 = 0 := rfl
@[simp] theorem zero_01 : (0 : M3 α).a01 = 0 := rfl
@[simp] theorem zero_02 : (0 : M3 α).a02 = 0 := rfl
@[simp] theorem zero_10 : (0 : M3 α).a10 = 0 := rfl
@[simp] theorem zero_11 : (0 : M3 α).a11 = 0 := rfl
@[simp] theorem zero_12 : (0 : M3 α).a12 = 0 := rfl
@[simp] theorem zero_20 : (0 : M3 α).a20 = 0 := rfl
@[simp] theorem zero_21 : (0 : M3 α).a21 = 0 := rfl
@[simp] theorem zero_22 : (0 : M3 α).a22 = 0 := rfl
@[simp] theorem transpose_00 (A : M3 α) : A.transpose.a00 = A.a00 := rfl
@[simp] theorem transpose_01 (A : M3 α) : A.transpose.a01 = A.a10 := rfl
@[simp] theorem transpose_02 (A : M3 α) : A.transpose.a02 = A.a20 := rfl
@[simp] theorem transpose_10 (A : M3 α) : A.transpose.a10 = A.a01 := rfl
@[simp] theorem transpose_11 (A : M3 α) : A.transpose.a11 = A.a11 := rfl
@[simp] theorem transpose_12 (A : M3 α) : A.transpose.a12 = A.a21 := rfl
@[simp] theorem transpose_20 (A : M3 α) : A.transpose.a20 = A.a02 := rfl
@[simp] theorem transpose_21 (A : M3 α) : A.transpose.a21 = A.a12 := rfl
@[simp] theorem transpose_22 (A : M3 α) : A.transpose.a22 = A.a22 := rfl
@[simp] theorem mulVec_x (A : M3 α) (v : V3 α) : (A.mulVec v).x = A.a00 * v.x + A.a01 * v.y + A.a02 * v.z := rfl
@[simp] theorem mulVec_y (A : M3 α) (v : V3 α) : (A.mulVec v).y = A.a10 * v.x + A.a11 * v.y + A.a12 * v.z := rfl
@[simp] theorem mulVec_z (A : M3 α) (v : V3 α) : (A.mulVec v).z = A.a20 * v.x + A.a21 * v.y + A.a22 * v.z := rfl
end M3

namespace V4
@[simp] theorem vec_x (q : V4 α) : q.vec.x = q.x := rfl
@[simp] theorem vec_y (q : V4 α) : q.vec.y = q.y := rfl
@[simp] theorem vec_z (q : V4 α) : q.vec.z = q.z := rfl
@[simp] theorem add_w (a b : V4 α) : (a + b).w = a.w + b.w := rfl
@[simp] theorem add_x (a b : V4 α) : (a + b).x = a.x + b.x := rfl
@[simp] theorem add_y (a b : V4 α) : (a + b).y = a.y + b.y := rfl
@[simp] theorem add_z (a b : V4 α) : (a + b).z = a.z + b.z := rfl
@[simp] theorem neg_w (a : V4 α) : (-a).w = -a.w := rfl
@[simp] theorem neg_x (a : V4 α) : (-a).x = -a.x := rfl
@[simp] theorem neg_y (a : V4 α) : (-a).y = -a.y := rfl
@[simp] theorem neg_z (a : V4 α) : (-a).z = -a.z := rfl
@[simp] theorem smul_w (c : α) (a : V4 α) : (smul c a).w = c * a.w := rfl
@[simp] theorem smul_x (c : α) (a : V4 α) : (smul c a).x = c * a.x := rfl
@[simp] theorem smul_y (c : α) (a : V4 α) : (smul c a).y = c * a.y := rfl
@[simp] theorem smul_z (c : α) (a : V4 α) : (smul c a).z = c * a.z := rfl
@[simp] theorem sdiv_w (a : V4 α) (c : α) : (a.sdiv c).w = a.w / c := rfl
@[simp] theorem sdiv_x (a : V4 α) (c : α) : (a.sdiv c).x = a.x / c := rfl
@[simp] theorem sdiv_y (a : V4 α) (c : α) : (a.sdiv c).y = a.y / c := rfl
@[simp] theorem sdiv_z (a : V4 α) (c : α) : (a.sdiv c).z = a.z / c := rfl
end V4

@[simp] theorem hat_00 (k : V3 α) : (hat k).a00 = 0 := rfl
@[simp] theorem hat_01 (k : V3 α) : (hat k).a01 = -k.z := rfl
@[simp] theorem hat_02 (k : V3 α) : (hat k).a02 = k.y := rfl
@[simp] theorem hat_10 (k : V3 α) : (hat k).a10 = k.z := rfl
@[simp] theorem hat_11 (k : V3 α) : (hat k).a11 = 0 := rfl
@[simp] theorem hat_12 (k : V3 α) : (hat k).a12 = -k.x := rfl
@[simp] theorem hat_20 (k : V3 α) : (hat k).a20 = -k.y := rfl
@[simp] theorem hat_21 (k : V3 α) : (hat k).a21 = k.x := rfl
@[simp] theorem hat_22 (k : V3 α) : (hat k).a22 = 0 := rfl
end proj

/-! ### Algebra over ℝ -/

noncomputable instance : AddCommGroup (V3 ℝ) where
  add_assoc a b c := by ext <;> simp <;> ring
  zero_add a := by ext <;> simp
  add_zero a := by ext <;> simp
  add_comm a b := by ext <;> simp <;> ring
  neg_add_cancel a := by ext <;> simp
  sub_eq_add_neg a b := by ext <;> simp <;> ring
  nsmul := nsmulRec
  zsmul := zsmulRec

noncomputable instance : Module ℝ (V3 ℝ) where
  smul c v := V3.smul c v
  one_smul a := by ext <;> change 1 * _ = _ <;> simp
  mul_smul a b c := by ext <;> change (_ * _) * _ = _ * (_ * _) <;> ring
  smul_zero a := by ext <;> change _ * (0 : ℝ) = 0 <;> simp
  smul_add a b c := by ext <;> change _ * (_ + _) = _ * _ + _ * _ <;> ring
  add_smul a b c := by ext <;> change (_ + _) * _ = _ * _ + _ * _ <;> ring
  zero_smul a := by ext <;> change 0 * _ = (0:ℝ) <;> simp

theorem V3.smul_def (c : ℝ) (v : V3 ℝ) : V3.smul c v = c • v := rfl
@[simp] theorem V3.hsmul_x (c : ℝ) (v : V3 ℝ) : (c • v).x = c * v.x := rfl
@[simp] theorem V3.hsmul_y (c : ℝ) (v : V3 ℝ) : (c • v).y = c * v.y := rfl
@[simp] theorem V3.hsmul_z (c : ℝ) (v : V3 ℝ) : (c • v).z = c * v.z := rfl

namespace M3
variable (A B C : M3 ℝ) (u v : V3 ℝ)

theorem mul_assoc' : A * B * C = A * (B * C) := by ext <;> simp <;> ring
@[simp] theorem one_mul' : 1 * A = A := by ext <;> simp
@[simp] theorem mul_one' : A * 1 = A := by ext <;> simp
theorem transpose_mul : (A * B).transpose = B.transpose * A.transpose := by ext <;> simp <;> ring
@[simp] theorem transpose_transpose : A.transpose.transpose = A := by ext <;> simp
@[simp] theorem transpose_one : (1 : M3 ℝ).transpose = 1 := by ext <;> simp
theorem det_mul : (A * B).det = A.det * B.det := by simp [det]; ring
theorem det_transpose : A.transpose.det = A.det := by simp [det]; ring
@[simp] theorem det_one : (1 : M3 ℝ).det = 1 := by simp [det]
theorem mulVec_mulVec : A.mulVec (B.mulVec v) = (A * B).mulVec v := by ext <;> simp <;> ring
@[simp] theorem one_mulVec : (1 : M3 ℝ).mulVec v = v := by ext <;> simp
theorem mulVec_add : A.mulVec (u + v) = A.mulVec u + A.mulVec v := by ext <;> simp <;> ring
theorem mulVec_sub : A.mulVec (u - v) = A.mulVec u - A.mulVec v := by ext <;> simp <;> ring
theorem mulVec_neg : A.mulVec (-v) = -A.mulVec v := by ext <;> simp <;> ring
@[simp] theorem mulVec_zero : A.mulVec 0 = 0 := by ext <;> simp
theorem mulVec_smul (c : ℝ) : A.mulVec (V3.smul c v) = V3.smul c (A.mulVec v) := by ext <;> simp <;> ring
theorem mulVec_hsmul (c : ℝ) : A.mulVec (c • v) = c • (A.mulVec v) := by ext <;> simp <;> ring
theorem add_mulVec : (A + B).mulVec v = A.mulVec v + B.mulVec v := by ext <;> simp <;> ring
theorem mul_add' : A * (B + C) = A * B + A * C := by ext <;> simp <;> ring
theorem add_mul' : (A + B) * C = A * C + B * C := by ext <;> simp <;> ring
@[simp] theorem zero_mulVec : (0 : M3 ℝ).mulVec v = 0 := by ext <;> simp

/-- The adjugate. -/
def adj : M3 ℝ :=
  ⟨A.a11 * A.a22 - A.a12 * A.a21, A.a02 * A.a21 - A.a01 * A.a22, A.a01 * A.a12 - A.a02 * A.a11,
   A.a12 * A.a20 - A.a10 * A.a22, A.a00 * A.a22 - A.a02 * A.a20, A.a02 * A.a10 - A.a00 * A.a12,
   A.a10 * A.a21 - A.a11 * A.a20, A.a01 * A.a20 - A.a00 * A.a21, A.a00 * A.a11 - A.a01 * A.a10⟩

theorem mul_adj : A * A.adj = smul A.det 1 := by ext <;> simp [adj, det] <;> ring
theorem adj_mul : A.adj * A = smul A.det 1 := by ext <;> simp [adj, det] <;> ring
end M3

namespace IsRot
variable {R S : M3 ℝ}

/-- The inverse of a rotation is its adjugate. -/
theorem transpose_eq_adj (h : IsRot R) : R.transpose = R.adj := by
  have h1 : R.transpose * R * R.adj = R.adj := by rw [h.orth]; simp
  rw [M3.mul_assoc', M3.mul_adj, h.det] at h1
  have h2 : M3.smul 1 (1 : M3 ℝ) = 1 := by ext <;> simp
  rw [h2] at h1
  simpa using h1

theorem orth' (h : IsRot R) : R * R.transpose = 1 := by
  rw [h.transpose_eq_adj, M3.mul_adj, h.det]; ext <;> simp

theorem transpose (h : IsRot R) : IsRot R.transpose :=
  ⟨by simpa using h.orth', by rw [M3.det_transpose, h.det]⟩

theorem one : IsRot 1 := ⟨by simp, by simp⟩

theorem mul (h : IsRot R) (h' : IsRot S) : IsRot (R * S) := by
  refine ⟨?_, by rw [M3.det_mul, h.det, h'.det, mul_one]⟩
  rw [M3.transpose_mul, M3.mul_assoc', ← M3.mul_assoc' R.transpose, h.orth]; simpa using h'.orth

theorem transpose_mulVec_mulVec (h : IsRot R) (v : V3 ℝ) : R.transpose.mulVec (R.mulVec v) = v := by
  rw [M3.mulVec_mulVec, h.orth, M3.one_mulVec]

theorem mulVec_transpose_mulVec (h : IsRot R) (v : V3 ℝ) : R.mulVec (R.transpose.mulVec v) = v := by
  rw [M3.mulVec_mulVec, h.orth', M3.one_mulVec]

end IsRot

/-! ### Bridges to Mathlib -/

theorem M3.toMatrix_mul (A B : M3 ℝ) : (A * B).toMatrix = A.toMatrix * B.toMatrix := by
  ext i j; fin_cases i <;> fin_cases j <;> simp [M3.toMatrix, Matrix.mul_apply, Fin.sum_univ_three]

theorem M3.toMatrix_one : (1 : M3 ℝ).toMatrix = 1 := by
  ext i j; fin_cases i <;> fin_cases j <;> simp [M3.toMatrix]

theorem M3.toMatrix_transpose (A : M3 ℝ) : A.transpose.toMatrix = A.toMatrix.transpose := by
  ext i j; fin_cases i <;> fin_cases j <;> simp [M3.toMatrix]

theorem M3.toMatrix_det (A : M3 ℝ) : A.toMatrix.det = A.det := by
  simp [M3.toMatrix, Matrix.det_fin_three, M3.det]; ring

theorem M3.toMatrix_inj {A B : M3 ℝ} (h : A.toMatrix = B.toMatrix) : A = B := by
  have e := fun i j => congrFun (congrFun h i) j
  ext
  · simpa [M3.toMatrix] using e 0 0
  · simpa [M3.toMatrix] using e 0 1
  · simpa [M3.toMatrix] using e 0 2
  · simpa [M3.toMatrix] using e 1 0
  · simpa [M3.toMatrix] using e 1 1
  · simpa [M3.toMatrix] using e 1 2
  · simpa [M3.toMatrix] using e 2 0
  · simpa [M3.toMatrix] using e 2 1
  · simpa [M3.toMatrix] using e 2 2

/-- `IsRot` is membership in Mathlib's special orthogonal group. -/
theorem isRot_iff_SO3 (R : M3 ℝ) : IsRot R ↔ R.toMatrix ∈ Matrix.specialOrthogonalGroup (Fin 3) ℝ := by
  rw [Matrix.mem_specialOrthogonalGroup_iff, Matrix.mem_orthogonalGroup_iff', M3.toMatrix_det]
  rw [← M3.toMatrix_transpose, ← M3.toMatrix_mul, ← M3.toMatrix_one]
  exact ⟨fun h => ⟨by rw [h.orth], h.det⟩, fun h => ⟨M3.toMatrix_inj h.1, h.2⟩⟩

@[simp] theorem V4.toH_re (q : V4 ℝ) : q.toH.re = q.w := rfl
@[simp] theorem V4.toH_imI (q : V4 ℝ) : q.toH.imI = q.x := rfl
@[simp] theorem V4.toH_imJ (q : V4 ℝ) : q.toH.imJ = q.y := rfl
@[simp] theorem V4.toH_imK (q : V4 ℝ) : q.toH.imK = q.z := rfl
