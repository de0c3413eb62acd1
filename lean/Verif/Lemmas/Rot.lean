import Verif.Lemmas.Basic

/-! # Lemmas on `rot`, `hat`, quaternions over ℝ -/
set_option autoImplicit false

theorem IsUnit3.sq {k : V3 ℝ} (h : IsUnit3 k) : k.x ^ 2 + k.y ^ 2 + k.z ^ 2 = 1 := by
  unfold IsUnit3 at h; linarith

theorem hat_mulVec (k v : V3 ℝ) : (hat k).mulVec v = k.cross v := by ext <;> simp <;> ring

@[simp] theorem rot_zero (k : V3 ℝ) : rot k 0 = 1 := by ext <;> simp [rot]

theorem rot_mul (k : V3 ℝ) (hk : IsUnit3 k) (a b : ℝ) : rot k a * rot k b = rot k (a + b) := by
  unfold IsUnit3 at hk
  ext <;> simp [rot, Real.sin_add, Real.cos_add] <;> grind

theorem rot_neg (k : V3 ℝ) (a : ℝ) : rot k (-a) = (rot k a).transpose := by
  ext <;> simp [rot] <;> grind

theorem rot_neg_axis (k : V3 ℝ) (a : ℝ) : rot (-k) a = rot k (-a) := by
  ext <;> simp [rot]

theorem rot_det (k : V3 ℝ) (hk : IsUnit3 k) (a : ℝ) : (rot k a).det = 1 := by
  unfold IsUnit3 at hk
  have := Real.sin_sq_add_cos_sq a
  simp [rot, M3.det]; grind

theorem rot_isRot (k : V3 ℝ) (hk : IsUnit3 k) (a : ℝ) : IsRot (rot k a) := by
  refine ⟨?_, rot_det k hk a⟩
  rw [← rot_neg, rot_mul k hk]; simp

theorem rot_periodic (k : V3 ℝ) (a : ℝ) (n : ℤ) : rot k (a + n * (2 * Real.pi)) = rot k a := by
  ext <;> simp [rot, Real.sin_add_int_mul_two_pi, Real.cos_add_int_mul_two_pi]

theorem rot_axis (k : V3 ℝ) (a : ℝ) : (rot k a).mulVec k = k := by
  ext <;> simp [rot] <;> grind

theorem rot_smul_axis (k : V3 ℝ) (a c : ℝ) : (rot k a).mulVec (V3.smul c k) = V3.smul c k := by
  rw [M3.mulVec_smul, rot_axis]

/-- Rodrigues' formula for an arbitrary vector. -/
theorem rot_mulVec (k : V3 ℝ) (hk : IsUnit3 k) (a : ℝ) (v : V3 ℝ) :
    (rot k a).mulVec v = Real.cos a • v + Real.sin a • k.cross v + ((1 - Real.cos a) * k.dot v) • k := by
  unfold IsUnit3 at hk
  ext <;> simp [rot, V3.dot] <;> grind
