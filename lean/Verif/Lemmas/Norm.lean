import Verif.Lemmas.Rot
import Mathlib.Analysis.InnerProductSpace.PiL2

/-! # Euclidean norm and dot product of `V3 ℝ` -/
set_option autoImplicit false

namespace V3
variable (a b c : V3 ℝ)

theorem dot_comm : a.dot b = b.dot a := by simp only [dot]; ring
theorem dot_add : a.dot (b + c) = a.dot b + a.dot c := by simp [dot]; ring
theorem add_dot : (a + b).dot c = a.dot c + b.dot c := by simp [dot]; ring
theorem dot_sub : a.dot (b - c) = a.dot b - a.dot c := by simp [dot]; ring
theorem sub_dot : (a - b).dot c = a.dot c - b.dot c := by simp [dot]; ring
theorem dot_neg : a.dot (-b) = -a.dot b := by simp [dot]; ring
theorem neg_dot : (-a).dot b = -a.dot b := by simp [dot]; ring
theorem dot_smul (t : ℝ) : a.dot (V3.smul t b) = t * a.dot b := by simp [dot]; ring
theorem smul_dot (t : ℝ) : (V3.smul t a).dot b = t * a.dot b := by simp [dot]; ring
theorem dot_hsmul (t : ℝ) : a.dot (t • b) = t * a.dot b := by simp [dot]; ring
theorem hsmul_dot (t : ℝ) : (t • a).dot b = t * a.dot b := by simp [dot]; ring
@[simp] theorem dot_zero : a.dot 0 = 0 := by simp [dot]
@[simp] theorem zero_dot : (0 : V3 ℝ).dot a = 0 := by simp [dot]

theorem dot_self_nonneg : 0 ≤ a.dot a := by simp only [dot]; nlinarith [sq_nonneg a.x, sq_nonneg a.y, sq_nonneg a.z]

theorem norm_eq : a.norm = Real.sqrt (a.dot a) := rfl
theorem norm_nonneg : 0 ≤ a.norm := Real.sqrt_nonneg _
theorem norm_mul_self : a.norm * a.norm = a.dot a := Real.mul_self_sqrt (dot_self_nonneg a)
theorem norm_sq : a.norm ^ 2 = a.dot a := by rw [sq, norm_mul_self]

theorem eq_zero_of_dot_self {a : V3 ℝ} (h : a.dot a = 0) : a = 0 := by
  simp only [dot] at h
  have hx : a.x = 0 := by nlinarith [sq_nonneg a.x, sq_nonneg a.y, sq_nonneg a.z]
  have hy : a.y = 0 := by nlinarith [sq_nonneg a.x, sq_nonneg a.y, sq_nonneg a.z]
  have hz : a.z = 0 := by nlinarith [sq_nonneg a.x, sq_nonneg a.y, sq_nonneg a.z]
  ext <;> simp [hx, hy, hz]

theorem norm_eq_zero {a : V3 ℝ} : a.norm = 0 ↔ a = 0 := by
  constructor
  · intro h; apply eq_zero_of_dot_self; rw [← norm_mul_self, h, mul_zero]
  · rintro rfl; simp [norm_eq]

theorem norm_pos {a : V3 ℝ} (h : a ≠ 0) : 0 < a.norm := (norm_nonneg a).lt_of_ne' fun e => h (norm_eq_zero.1 e)

theorem norm_eq_one {a : V3 ℝ} (h : IsUnit3 a) : a.norm = 1 := by
  have : a.dot a = 1 := h
  rw [norm_eq, this, Real.sqrt_one]

theorem norm_neg : (-a).norm = a.norm := by rw [norm_eq, norm_eq, dot_neg, neg_dot, neg_neg]
theorem norm_hsmul (t : ℝ) : (t • a).norm = |t| * a.norm := by
  rw [norm_eq, norm_eq, dot_hsmul, hsmul_dot, ← mul_assoc, Real.sqrt_mul (mul_self_nonneg t), Real.sqrt_mul_self_eq_abs]
theorem norm_sub_comm : (a - b).norm = (b - a).norm := by
  rw [← norm_neg]; congr 1; ext <;> simp

/-- the same vector in Mathlib's Euclidean space, used only for the triangle inequality -/
noncomputable def toE (a : V3 ℝ) : EuclideanSpace ℝ (Fin 3) := !₂[a.x, a.y, a.z]

theorem norm_toE : ‖a.toE‖ = a.norm := by
  rw [EuclideanSpace.norm_eq]
  simp only [toE, Fin.sum_univ_three, norm_eq, dot, Real.norm_eq_abs, sq_abs]
  congr 1
  simp
  ring

theorem toE_add : (a + b).toE = a.toE + b.toE := by
  ext i; fin_cases i <;> simp [toE]

theorem norm_add_le : (a + b).norm ≤ a.norm + b.norm := by
  rw [← norm_toE, ← norm_toE, ← norm_toE, toE_add]; exact _root_.norm_add_le _ _

theorem norm_sub_le : (a - b).norm ≤ a.norm + b.norm := by
  rw [show a - b = a + -b by ext <;> simp [sub_eq_add_neg], ← norm_neg b]; exact norm_add_le _ _

theorem abs_dot_le : |a.dot b| ≤ a.norm * b.norm := by
  rw [norm_eq, norm_eq, ← Real.sqrt_mul (dot_self_nonneg a)]
  apply Real.abs_le_sqrt
  simp only [dot]
  nlinarith [sq_nonneg (a.x * b.y - a.y * b.x), sq_nonneg (a.y * b.z - a.z * b.y), sq_nonneg (a.x * b.z - a.z * b.x)]

/-- dividing by the norm gives a unit vector -/
theorem unit_sdiv {a : V3 ℝ} (h : a ≠ 0) : IsUnit3 (a.sdiv a.norm) := by
  have h1 := norm_pos h
  have h2 := norm_mul_self a
  simp only [dot] at h2
  simp only [IsUnit3, sdiv_x, sdiv_y, sdiv_z]
  field_simp
  nlinarith

theorem sdiv_eq (t : ℝ) : a.sdiv t = t⁻¹ • a := by ext <;> simp [div_eq_inv_mul]

end V3

/-- rotations preserve dot products -/
theorem IsRot.dot_mulVec {R : M3 ℝ} (h : IsRot R) (a b : V3 ℝ) : (R.mulVec a).dot (R.mulVec b) = a.dot b := by
  have e : ∀ A : M3 ℝ, (A.mulVec a).dot (A.mulVec b) = a.dot ((A.transpose * A).mulVec b) := by
    intro A; simp [V3.dot]; ring
  rw [e, h.orth]; simp

theorem IsRot.norm_mulVec {R : M3 ℝ} (h : IsRot R) (a : V3 ℝ) : (R.mulVec a).norm = a.norm := by
  rw [V3.norm_eq, V3.norm_eq, h.dot_mulVec]
