import Mathlib.LinearAlgebra.Matrix.DotProduct
import Mathlib.LinearAlgebra.Matrix.NonsingularInverse
import Mathlib.Topology.Instances.Matrix
import Mathlib.Analysis.InnerProductSpace.Basic
import Mathlib.Analysis.Real.Sqrt
import Mathlib.Algebra.Order.BigOperators.Ring.Finset

/-! # Pseudo-inverses of matrices with full row rank -/
set_option autoImplicit false
open Matrix

/-- The four Penrose conditions: `X` is the pseudo-inverse of `A`. -/
structure Spec.IsPinv {m n : Nat} (A : Matrix (Fin m) (Fin n) ℝ) (X : Matrix (Fin n) (Fin m) ℝ) : Prop where
  axa : A * X * A = A
  xax : X * A * X = X
  ax : (A * X)ᵀ = A * X
  xa : (X * A)ᵀ = X * A

/-- All singular values of `A` are positive and larger than `rc` times the largest one, with the largest one overestimated by the
Frobenius norm: `α` is at least the square of the Frobenius norm, `β` at most the square of the smallest singular value. -/
def Spec.condAbove {m n : Nat} (rc : ℝ) (A : Matrix (Fin m) (Fin n) ℝ) : Prop :=
  ∃ α β : ℝ, 0 < β ∧ rc ^ 2 * α < β ∧ (∑ k, ∑ i, A k i ^ 2) ≤ α ∧ ∀ z : Fin m → ℝ, β * (z ⬝ᵥ z) ≤ (z ᵥ* A) ⬝ᵥ (z ᵥ* A)

namespace PinvMat
variable {m n : Nat}

theorem dot_self_nonneg (z : Fin m → ℝ) : 0 ≤ z ⬝ᵥ z := Finset.sum_nonneg fun i _ => mul_self_nonneg (z i)

theorem eq_zero_of_dot_self {z : Fin m → ℝ} (h : z ⬝ᵥ z ≤ 0) : z = 0 :=
  dotProduct_self_eq_zero.1 (le_antisymm h (dot_self_nonneg z))

theorem sq_le_dot_self (z : Fin m → ℝ) (i : Fin m) : z i * z i ≤ z ⬝ᵥ z :=
  Finset.single_le_sum (f := fun i => z i * z i) (fun i _ => mul_self_nonneg (z i)) (Finset.mem_univ i)

theorem right_inv {A : Matrix (Fin m) (Fin n) ℝ} {X : Matrix (Fin n) (Fin m) ℝ} (h : Spec.IsPinv A X) {β : ℝ} (hβ : 0 < β)
    (hc : ∀ z : Fin m → ℝ, β * (z ⬝ᵥ z) ≤ (z ᵥ* A) ⬝ᵥ (z ᵥ* A)) : A * X = 1 := by
  set P : Matrix (Fin m) (Fin m) ℝ := 1 - A * X with hP
  have h1 : P * A = 0 := by rw [hP, Matrix.sub_mul, Matrix.one_mul, h.axa, sub_self]
  have h2 : P = 0 := by
    ext k l
    have e : (P k) ᵥ* A = 0 := by
      ext i
      have := congrFun (congrFun h1 k) i
      simpa [Matrix.mul_apply, vecMul, dotProduct] using this
    have h3 := hc (P k)
    rw [e, dotProduct_zero] at h3
    have h4 : P k = 0 := eq_zero_of_dot_self (by
      by_contra hn
      rw [not_le] at hn
      nlinarith [mul_pos hβ hn])
    rw [h4]; rfl
  exact (sub_eq_zero.1 h2).symm

/-- The step `X b` solves `A δ = b` and is not long. -/
theorem step {A : Matrix (Fin m) (Fin n) ℝ} {X : Matrix (Fin n) (Fin m) ℝ} (h : Spec.IsPinv A X) {β : ℝ} (hβ : 0 < β)
    (hc : ∀ z : Fin m → ℝ, β * (z ⬝ᵥ z) ≤ (z ᵥ* A) ⬝ᵥ (z ᵥ* A)) (b : Fin m → ℝ) :
    A *ᵥ (X *ᵥ b) = b ∧ β * ((X *ᵥ b) ⬝ᵥ (X *ᵥ b)) ≤ b ⬝ᵥ b := by
  have hr := right_inv h hβ hc
  have e1 : A *ᵥ (X *ᵥ b) = b := by rw [mulVec_mulVec, hr, one_mulVec]
  refine ⟨e1, ?_⟩
  set δ := X *ᵥ b with hδ
  set z := Xᵀ *ᵥ δ with hz
  have e2 : δ = z ᵥ* A := by
    rw [← mulVec_transpose, hz, mulVec_mulVec, ← transpose_mul, h.xa, ← mulVec_mulVec, e1]
  have e3 : δ ⬝ᵥ δ = z ⬝ᵥ b := by
    conv_lhs => rw [e2, ← dotProduct_mulVec, ← e2, e1]
  have h1 := hc z
  rw [← e2] at h1
  -- β δ² = β z·b ≤ b²
  have h3 : 0 ≤ (b - β • z) ⬝ᵥ (b - β • z) := dot_self_nonneg _
  have h4 : (b - β • z) ⬝ᵥ (b - β • z) = b ⬝ᵥ b - 2 * β * (z ⬝ᵥ b) + β ^ 2 * (z ⬝ᵥ z) := by
    simp only [sub_dotProduct, dotProduct_sub, smul_dotProduct, dotProduct_smul, smul_eq_mul, dotProduct_comm b z]
    ring
  rw [h4] at h3
  rw [e3] at h1 ⊢
  nlinarith

/-- A matrix with full row rank has a pseudo-inverse. -/
theorem exists_isPinv (A : Matrix (Fin m) (Fin n) ℝ) {β : ℝ} (hβ : 0 < β)
    (hc : ∀ z : Fin m → ℝ, β * (z ⬝ᵥ z) ≤ (z ᵥ* A) ⬝ᵥ (z ᵥ* A)) : ∃ X, Spec.IsPinv A X := by
  have hu : IsUnit (A * Aᵀ) := by
    rw [← Matrix.mulVec_injective_iff_isUnit]
    intro x y hxy
    have e : (A * Aᵀ) *ᵥ (x - y) = 0 := by rw [mulVec_sub]; exact sub_eq_zero.2 hxy
    have h1 : (x - y) ⬝ᵥ ((A * Aᵀ) *ᵥ (x - y)) = 0 := by rw [e, dotProduct_zero]
    rw [← mulVec_mulVec, dotProduct_mulVec, mulVec_transpose] at h1
    have h2 := hc (x - y)
    rw [h1] at h2
    have := eq_zero_of_dot_self (z := x - y) (by
      by_contra hn
      rw [not_le] at hn
      nlinarith [mul_pos hβ hn])
    exact sub_eq_zero.1 this
  have hd := (Matrix.isUnit_iff_isUnit_det _).1 hu
  have e1 : A * Aᵀ * (A * Aᵀ)⁻¹ = 1 := mul_nonsing_inv _ hd
  have e2 : A * (Aᵀ * (A * Aᵀ)⁻¹) = 1 := by rw [← Matrix.mul_assoc, e1]
  have es : ((A * Aᵀ)⁻¹)ᵀ = (A * Aᵀ)⁻¹ := by rw [transpose_nonsing_inv, transpose_mul, transpose_transpose]
  refine ⟨Aᵀ * (A * Aᵀ)⁻¹, ⟨?_, ?_, ?_, ?_⟩⟩
  · rw [e2, Matrix.one_mul]
  · rw [Matrix.mul_assoc, e2, Matrix.mul_one]
  · rw [e2, transpose_one]
  · rw [transpose_mul, transpose_mul, es, transpose_transpose, ← Matrix.mul_assoc]

theorem quad (A : Matrix (Fin m) (Fin n) ℝ) (z : Fin m → ℝ) :
    (z ᵥ* A) ⬝ᵥ (z ᵥ* A) = ∑ k, ∑ l, z k * z l * ∑ i, A k i * A l i := by
  have e : ∀ i, (∑ k, z k * A k i) * (∑ l, z l * A l i) = ∑ k, ∑ l, z k * z l * (A k i * A l i) := fun i => by
    rw [Finset.sum_mul_sum]
    exact Finset.sum_congr rfl fun k _ => Finset.sum_congr rfl fun l _ => by ring
  simp only [vecMul, dotProduct, e]
  rw [Finset.sum_comm]
  refine Finset.sum_congr rfl fun k _ => ?_
  rw [Finset.sum_comm]
  refine Finset.sum_congr rfl fun l _ => ?_
  rw [Finset.mul_sum]

/-- Conditioning is stable under small changes. -/
theorem cond_near {E : Type} [TopologicalSpace E] (A : E → Matrix (Fin m) (Fin n) ℝ) (hA : Continuous A) (a : E) (rc : ℝ)
    (h : Spec.condAbove rc (A a)) :
    ∃ β > 0, ∀ᶠ x in nhds a, Spec.condAbove rc (A x) ∧ ∀ z : Fin m → ℝ, β * (z ⬝ᵥ z) ≤ (z ᵥ* A x) ⬝ᵥ (z ᵥ* A x) := by
  obtain ⟨α, β, b0, hab, hα, hβ⟩ := h
  -- room
  obtain ⟨η, η0, h1, h2⟩ : ∃ η > 0, 0 < β - η ∧ rc ^ 2 * (α + η) < β - η := by
    refine ⟨min (β / 2) ((β - rc ^ 2 * α) / (2 * (rc ^ 2 + 1))), lt_min (by linarith) (div_pos (by linarith) (by positivity)), ?_, ?_⟩
    · have := min_le_left (β / 2) ((β - rc ^ 2 * α) / (2 * (rc ^ 2 + 1)))
      linarith
    · have h3 := min_le_right (β / 2) ((β - rc ^ 2 * α) / (2 * (rc ^ 2 + 1)))
      rw [le_div_iff₀ (by positivity)] at h3
      nlinarith
  have hentry : ∀ k i, Continuous fun x => A x k i := fun k i => hA.matrix_elem k i
  have c1 : Continuous fun x => ∑ k, ∑ i, A x k i ^ 2 := by fun_prop
  have c2 : Continuous fun x => ∑ k, ∑ l, |∑ i, A x k i * A x l i - ∑ i, A a k i * A a l i| := by fun_prop
  have n1 : ∀ᶠ x in nhds a, ∑ k, ∑ i, A x k i ^ 2 < α + η := c1.continuousAt.eventually_lt continuousAt_const (by linarith)
  have n2 : ∀ᶠ x in nhds a, ∑ k, ∑ l, |∑ i, A x k i * A x l i - ∑ i, A a k i * A a l i| < η :=
    c2.continuousAt.eventually_lt continuousAt_const (by simpa using η0)
  refine ⟨β - η, h1, ?_⟩
  filter_upwards [n1, n2] with x hx1 hx2
  have key : ∀ z : Fin m → ℝ, (β - η) * (z ⬝ᵥ z) ≤ (z ᵥ* A x) ⬝ᵥ (z ᵥ* A x) := fun z => by
    have hz := hβ z
    have hd : (z ᵥ* A a) ⬝ᵥ (z ᵥ* A a) - (z ᵥ* A x) ⬝ᵥ (z ᵥ* A x) ≤ η * (z ⬝ᵥ z) := by
      rw [quad, quad, ← Finset.sum_sub_distrib]
      refine le_trans (Finset.sum_le_sum (g := fun k => ∑ l, (z ⬝ᵥ z) * |∑ i, A x k i * A x l i - ∑ i, A a k i * A a l i|) fun k _ => ?_) ?_
      · rw [← Finset.sum_sub_distrib]
        refine Finset.sum_le_sum fun l _ => ?_
        rw [← mul_sub]
        have hzz : |z k * z l| ≤ z ⬝ᵥ z := by
          have e1 := sq_le_dot_self z k
          have e2 := sq_le_dot_self z l
          rw [abs_le]
          constructor <;> nlinarith [sq_nonneg (z k - z l), sq_nonneg (z k + z l)]
        calc z k * z l * (∑ i, A a k i * A a l i - ∑ i, A x k i * A x l i)
            ≤ |z k * z l * (∑ i, A a k i * A a l i - ∑ i, A x k i * A x l i)| := le_abs_self _
          _ = |z k * z l| * |∑ i, A x k i * A x l i - ∑ i, A a k i * A a l i| := by rw [abs_mul, abs_sub_comm (∑ i, A a k i * A a l i)]
          _ ≤ _ := mul_le_mul_of_nonneg_right hzz (abs_nonneg _)
      · simp only [← Finset.mul_sum]
        rw [mul_comm]
        exact mul_le_mul_of_nonneg_right hx2.le (dot_self_nonneg z)
    linarith
  exact ⟨⟨α + η, β - η, h1, h2, hx1.le, key⟩, key⟩

end PinvMat
