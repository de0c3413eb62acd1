import Verif.Lemmas.Rot

/-! # Evaluating the model on finite `XReal` arrays -/
set_option autoImplicit false

attribute [simp] XReal.zero_def XReal.one_def

namespace V3
@[simp] theorem up_x (v : V3 ℝ) : v.up.x = .fin v.x := rfl
@[simp] theorem up_y (v : V3 ℝ) : v.up.y = .fin v.y := rfl
@[simp] theorem up_z (v : V3 ℝ) : v.up.z = .fin v.z := rfl
theorem up_mk (x y z : ℝ) : (⟨.fin x, .fin y, .fin z⟩ : V3 XReal) = V3.up ⟨x, y, z⟩ := rfl
theorem up_inj {a b : V3 ℝ} (h : a.up = b.up) : a = b := by
  simp [V3.ext_iff] at h; ext <;> tauto
theorem up_add (a b : V3 ℝ) : a.up + b.up = (a + b).up := by ext <;> simp
theorem up_sub (a b : V3 ℝ) : a.up - b.up = (a - b).up := by ext <;> simp
theorem up_neg (a : V3 ℝ) : -a.up = (-a).up := by ext <;> simp
theorem up_smul (c : ℝ) (a : V3 ℝ) : V3.smul (.fin c) a.up = (V3.smul c a).up := by ext <;> simp
theorem up_sdiv (a : V3 ℝ) {c : ℝ} (h : c ≠ 0) : a.up.sdiv (.fin c) = (a.sdiv c).up := by
  ext <;> simp [XReal.fin_div _ h]
theorem up_dot (a b : V3 ℝ) : a.up.dot b.up = .fin (a.dot b) := by simp [dot]
theorem up_cross (a b : V3 ℝ) : a.up.cross b.up = (a.cross b).up := by ext <;> simp
theorem sq_nonneg' (a : V3 ℝ) : 0 ≤ a.x * a.x + a.y * a.y + a.z * a.z :=
  add_nonneg (add_nonneg (mul_self_nonneg _) (mul_self_nonneg _)) (mul_self_nonneg _)
theorem up_norm (a : V3 ℝ) : a.up.norm = .fin a.norm := by
  simp [norm, XReal.sqrt_fin (sq_nonneg' a)]
theorem up_zero : (0 : V3 XReal) = (0 : V3 ℝ).up := rfl
theorem up_ex : (ex : V3 XReal) = (ex : V3 ℝ).up := rfl
theorem up_ey : (ey : V3 XReal) = (ey : V3 ℝ).up := rfl
theorem up_ez : (ez : V3 XReal) = (ez : V3 ℝ).up := rfl
end V3

namespace V4
@[simp] theorem up_w (v : V4 ℝ) : v.up.w = .fin v.w := rfl
@[simp] theorem up_x (v : V4 ℝ) : v.up.x = .fin v.x := rfl
@[simp] theorem up_y (v : V4 ℝ) : v.up.y = .fin v.y := rfl
@[simp] theorem up_z (v : V4 ℝ) : v.up.z = .fin v.z := rfl
theorem up_inj {a b : V4 ℝ} (h : a.up = b.up) : a = b := by
  simp [V4.ext_iff] at h; ext <;> tauto
theorem up_add (a b : V4 ℝ) : a.up + b.up = (a + b).up := by ext <;> simp
theorem up_neg (a : V4 ℝ) : -a.up = (-a).up := by ext <;> simp
theorem up_smul (c : ℝ) (a : V4 ℝ) : V4.smul (.fin c) a.up = (V4.smul c a).up := by ext <;> simp
theorem up_sdiv (a : V4 ℝ) {c : ℝ} (h : c ≠ 0) : a.up.sdiv (.fin c) = (a.sdiv c).up := by
  ext <;> simp [XReal.fin_div _ h]
theorem up_dot (a b : V4 ℝ) : a.up.dot b.up = .fin (a.dot b) := by simp [dot]
theorem sq_nonneg' (a : V4 ℝ) : 0 ≤ a.w * a.w + a.x * a.x + a.y * a.y + a.z * a.z :=
  add_nonneg (add_nonneg (add_nonneg (mul_self_nonneg _) (mul_self_nonneg _)) (mul_self_nonneg _))
    (mul_self_nonneg _)
theorem up_norm (a : V4 ℝ) : a.up.norm = .fin a.norm := by
  simp [norm, XReal.sqrt_fin (sq_nonneg' a)]
theorem up_vec (a : V4 ℝ) : a.up.vec = a.vec.up := rfl
end V4

namespace M3
@[simp] theorem up_00 (A : M3 ℝ) : A.up.a00 = .fin A.a00 := rfl
@[simp] theorem up_01 (A : M3 ℝ) : A.up.a01 = .fin A.a01 := rfl
@[simp] theorem up_02 (A : M3 ℝ) : A.up.a02 = .fin A.a02 := rfl
@[simp] theorem up_10 (A : M3 ℝ) : A.up.a10 = .fin A.a10 := rfl
@[simp] theorem up_11 (A : M3 ℝ) : A.up.a11 = .fin A.a11 := rfl
@[simp] theorem up_12 (A : M3 ℝ) : A.up.a12 = .fin A.a12 := rfl
@[simp] theorem up_20 (A : M3 ℝ) : A.up.a20 = .fin A.a20 := rfl
@[simp] theorem up_21 (A : M3 ℝ) : A.up.a21 = .fin A.a21 := rfl
@[simp] theorem up_22 (A : M3 ℝ) : A.up.a22 = .fin A.a22 := rfl
theorem up_inj {a b : M3 ℝ} (h : a.up = b.up) : a = b := by
  simp [M3.ext_iff] at h; ext <;> tauto
theorem up_add (a b : M3 ℝ) : a.up + b.up = (a + b).up := by ext <;> simp
theorem up_sub (a b : M3 ℝ) : a.up - b.up = (a - b).up := by ext <;> simp
theorem up_mul (a b : M3 ℝ) : a.up * b.up = (a * b).up := by ext <;> simp
theorem up_smul (c : ℝ) (a : M3 ℝ) : M3.smul (.fin c) a.up = (M3.smul c a).up := by ext <;> simp
theorem up_mulVec (A : M3 ℝ) (v : V3 ℝ) : A.up.mulVec v.up = (A.mulVec v).up := by ext <;> simp
theorem up_transpose (A : M3 ℝ) : A.up.transpose = A.transpose.up := rfl
theorem up_one : (1 : M3 XReal) = (1 : M3 ℝ).up := rfl
theorem up_zero : (0 : M3 XReal) = (0 : M3 ℝ).up := rfl
theorem up_trace (A : M3 ℝ) : A.up.trace = .fin A.trace := by simp [trace]
theorem sq_nonneg' (A : M3 ℝ) : 0 ≤ A.a00 * A.a00 + A.a01 * A.a01 + A.a02 * A.a02 + A.a10 * A.a10
    + A.a11 * A.a11 + A.a12 * A.a12 + A.a20 * A.a20 + A.a21 * A.a21 + A.a22 * A.a22 := by
  have h : ∀ a : ℝ, 0 ≤ a * a := mul_self_nonneg
  linarith [h A.a00, h A.a01, h A.a02, h A.a10, h A.a11, h A.a12, h A.a20, h A.a21, h A.a22]
theorem up_frob (A : M3 ℝ) : A.up.frob = .fin A.frob := by
  simp [frob, XReal.sqrt_fin (sq_nonneg' A)]
end M3

theorem hat_up (k : V3 ℝ) : hat k.up = (hat k).up := by ext <;> simp
theorem rot_up (k : V3 ℝ) (t : ℝ) : rot k.up (.fin t) = (rot k t).up := by
  ext <;> simp [rot]
theorem q2R_up (q : V4 ℝ) : q2R q.up = (q2R q).up := by
  ext <;> simp [q2R]
theorem invhat_up (S : M3 ℝ) : invhat S.up = (invhat S).up := by
  ext <;> simp [invhat, XReal.fin_div]

theorem mathSqrt_fin {x : ℝ} (h : 0 ≤ x) : mathSqrt (XReal.fin x) = .ok (.fin (Real.sqrt x)) := by
  simp [mathSqrt, not_lt.2 h, XReal.sqrt_fin h]
