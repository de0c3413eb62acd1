import Verif.Lemmas.Deriv
import Mathlib.Analysis.Calculus.MeanValue

/-!
# Properties C01, C02, C05, C08, C09, C12: rotations, cross product matrices, quaternions, screws
-/
set_option autoImplicit false

/-! ## C01 -/

/-- C01: `rot` of a unit axis is a proper rotation. -/
theorem C01_rot_isRot (k : V3 ℝ) (hk : IsUnit3 k) (θ : ℝ) : IsRot (rot k θ) := rot_isRot k hk θ

/-- C01, in Mathlib's terms. -/
theorem C01_rot_mem_SO3 (k : V3 ℝ) (hk : IsUnit3 k) (θ : ℝ) :
    (rot k θ).toMatrix ∈ Matrix.specialOrthogonalGroup (Fin 3) ℝ := (isRot_iff_SO3 _).1 (rot_isRot k hk θ)

/-- C01: the axis is fixed. -/
theorem C01_rot_axis (k : V3 ℝ) (θ : ℝ) : (rot k θ).mulVec k = k := rot_axis k θ

/-- C01: a vector perpendicular to the axis turns by `θ` in the right-hand sense (towards `k × v`). -/
theorem C01_rot_turns (k v : V3 ℝ) (hk : IsUnit3 k) (hv : k.dot v = 0) (θ : ℝ) :
    (rot k θ).mulVec v = Real.cos θ • v + Real.sin θ • k.cross v := by
  rw [rot_mulVec k hk, hv]; simp

/-- C01: rotations about one axis compose by adding angles. -/
theorem C01_rot_add (k : V3 ℝ) (hk : IsUnit3 k) (a b : ℝ) : rot k a * rot k b = rot k (a + b) := rot_mul k hk a b

/-- C01: negating the angle transposes. -/
theorem C01_rot_neg (k : V3 ℝ) (a : ℝ) : rot k (-a) = (rot k a).transpose := rot_neg k a

/-- C01: periodicity, for any integer number of turns. -/
theorem C01_rot_periodic (k : V3 ℝ) (a : ℝ) (n : ℤ) : rot k (a + n * (2 * Real.pi)) = rot k a :=
  rot_periodic k a n

/-- C01: these conditions determine the matrix: a linear map that fixes the axis and turns every perpendicular
vector by `θ` is `rot k θ`. -/
theorem C01_rot_unique (k : V3 ℝ) (hk : IsUnit3 k) (θ : ℝ) (A : M3 ℝ) (hA : A.mulVec k = k)
    (hturn : ∀ v, k.dot v = 0 → A.mulVec v = Real.cos θ • v + Real.sin θ • k.cross v) : A = rot k θ := by
  have key : ∀ v, A.mulVec v = (rot k θ).mulVec v := by
    intro v
    have hd : v = k.dot v • k + (v - k.dot v • k) := by abel
    have hp : k.dot (v - k.dot v • k) = 0 := by
      unfold IsUnit3 at hk; simp [V3.dot]; grind
    rw [hd, M3.mulVec_add, M3.mulVec_add, M3.mulVec_hsmul, M3.mulVec_hsmul, hA, rot_axis, hturn _ hp,
      C01_rot_turns k _ hk hp]
  have e1 := key V3.ex
  have e2 := key V3.ey
  have e3 := key V3.ez
  simp [V3.ext_iff] at e1 e2 e3
  ext <;> tauto

-- the hypotheses are satisfiable by a non-axis-aligned unit vector with a perpendicular vector
example : IsUnit3 ⟨3/5, 0, 4/5⟩ ∧ V3.dot (⟨3/5, 0, 4/5⟩ : V3 ℝ) ⟨-4/5, 2, 3/5⟩ = 0 := by
  constructor <;> norm_num [IsUnit3, V3.dot]

/-! ## C02 -/

/-- C02: `hat k` is the cross product operator. -/
theorem C02_hat_cross (k v : V3 ℝ) : (hat k).mulVec v = k.cross v := hat_mulVec k v

/-- C02: `hat k` is skew symmetric. -/
theorem C02_hat_skew (k : V3 ℝ) : hat k + (hat k).transpose = 0 := by ext <;> simp

/-- C02: `invhat` inverts `hat`. -/
theorem C02_invhat_hat (k : V3 ℝ) : invhat (hat k) = k := by ext <;> simp [invhat]

/-- C02: `hat` inverts `invhat` on skew matrices. -/
theorem C02_hat_invhat (S : M3 ℝ) (hS : S + S.transpose = 0) : hat (invhat S) = S := by
  simp [M3.ext_iff] at hS
  ext <;> simp [invhat] <;> grind

example : (⟨0, -3, 2, 3, 0, -1, -2, 1, 0⟩ : M3 ℝ) + M3.transpose ⟨0, -3, 2, 3, 0, -1, -2, 1, 0⟩ = 0 := by
  ext <;> norm_num

/-! ## C05 -/

/-- C05: `q2R` of a unit quaternion is a proper rotation. -/
theorem C05_q2R_isRot (q : V4 ℝ) (hq : IsUnit4 q) : IsRot (q2R q) := by
  unfold IsUnit4 at hq
  constructor
  · ext <;> simp [q2R] <;> grind
  · simp [q2R, M3.det]; grind

/-- C05: `q` and `-q` give the same rotation. -/
theorem C05_q2R_neg (q : V4 ℝ) : q2R (-q) = q2R q := by ext <;> simp [q2R]

/-- C05: product of quaternions (Mathlib's Hamilton product) to product of matrices. -/
theorem C05_q2R_mul (p q r : V4 ℝ) (hp : IsUnit4 p) (hq : IsUnit4 q) (hr : r.toH = p.toH * q.toH) :
    q2R r = q2R p * q2R q := by
  unfold IsUnit4 at hp hq
  have h0 := congrArg (fun z : Quaternion ℝ => z.re) hr
  have h1 := congrArg (fun z : Quaternion ℝ => z.imI) hr
  have h2 := congrArg (fun z : Quaternion ℝ => z.imJ) hr
  have h3 := congrArg (fun z : Quaternion ℝ => z.imK) hr
  simp at h0 h1 h2 h3
  ext <;> simp [q2R, h0, h1, h2, h3] <;> grind

/-- C05: the same through the library's own product matrix. -/
theorem C05_q2R_quatproduct (p q : V4 ℝ) (hp : IsUnit4 p) (hq : IsUnit4 q) :
    q2R ((quatproduct p).mulVec q) = q2R p * q2R q := by
  apply C05_q2R_mul p q _ hp hq
  ext <;> simp [quatproduct, M4.mulVec, V3.dot] <;> ring

/-- C05: the complement gives the transpose. -/
theorem C05_q2R_complement (q : V4 ℝ) : q2R (quatcomplement q) = (q2R q).transpose := by
  ext <;> simp [q2R, quatcomplement] <;> ring

/-- C05: `q2R` agrees with conjugation `v ↦ q v q*` in Mathlib's quaternions. -/
theorem C05_q2R_conj (q : V4 ℝ) (hq : IsUnit4 q) (v : V3 ℝ) :
    V4.toH ⟨0, ((q2R q).mulVec v).x, ((q2R q).mulVec v).y, ((q2R q).mulVec v).z⟩ =
      q.toH * V4.toH ⟨0, v.x, v.y, v.z⟩ * star q.toH := by
  unfold IsUnit4 at hq
  ext <;> simp [q2R] <;> grind

example : IsUnit4 ⟨1/2, -1/2, 1/2, 1/2⟩ ∧ IsUnit4 ⟨3/5, 0, 0, -4/5⟩ := by
  constructor <;> norm_num [IsUnit4]

/-! ## C08 -/

/-- C08: `quatproduct p` applied to `q` is Mathlib's Hamilton product. -/
theorem C08_quatproduct_hamilton (p q : V4 ℝ) : ((quatproduct p).mulVec q).toH = p.toH * q.toH := by
  ext <;> simp [quatproduct, M4.mulVec, V3.dot] <;> ring

/-- C08: associativity. -/
theorem C08_quatproduct_assoc (p q r : V4 ℝ) :
    (quatproduct ((quatproduct p).mulVec q)).mulVec r = (quatproduct p).mulVec ((quatproduct q).mulVec r) := by
  ext <;> simp [quatproduct, M4.mulVec, V3.dot] <;> ring

/-- C08: `[1,0,0,0]` is neutral on both sides. -/
theorem C08_quatproduct_one (q : V4 ℝ) :
    (quatproduct ⟨1, 0, 0, 0⟩).mulVec q = q ∧ (quatproduct q).mulVec ⟨1, 0, 0, 0⟩ = q := by
  constructor <;> ext <;> simp [quatproduct, M4.mulVec, V3.dot]

/-- C08: the complement is the inverse up to the squared norm. -/
theorem C08_quatproduct_complement (q : V4 ℝ) :
    (quatproduct q).mulVec (quatcomplement q) = ⟨q.dot q, 0, 0, 0⟩ ∧
    (quatproduct (quatcomplement q)).mulVec q = ⟨q.dot q, 0, 0, 0⟩ := by
  constructor <;> ext <;> simp [quatproduct, M4.mulVec, V3.dot, quatcomplement, V4.dot] <;> ring

/-- C08: the norm is multiplicative. -/
theorem C08_quatproduct_norm (p q : V4 ℝ) : ((quatproduct p).mulVec q).norm = p.norm * q.norm := by
  unfold V4.norm
  simp only [sqrt_real]
  have hp : 0 ≤ p.w * p.w + p.x * p.x + p.y * p.y + p.z * p.z :=
    add_nonneg (add_nonneg (add_nonneg (mul_self_nonneg _) (mul_self_nonneg _)) (mul_self_nonneg _))
      (mul_self_nonneg _)
  rw [← Real.sqrt_mul hp]
  congr 1
  simp [quatproduct, M4.mulVec, V3.dot]; ring

/-! ## C09 -/

/-- C09: along a trajectory with `q' = quatjacobian(q) w` through a unit quaternion, `R = q2R(q)` satisfies
`R' = hat(w) R`. -/
theorem C09_quatjacobian_deriv (q : ℝ → V4 ℝ) (t : ℝ) (w : V3 ℝ) (hu : IsUnit4 (q t))
    (hd : HasDerivV4 q ((quatjacobian (q t)).mulVec w) t) :
    HasDerivM3 (fun s => q2R (q s)) (hat w * q2R (q t)) t := by
  obtain ⟨h0, h1, h2, h3⟩ := hd
  have hv : HasDerivV3 (fun s => (q s).vec) ((quatjacobian (q t)).mulVec w).vec t := ⟨h1, h2, h3⟩
  have h2w := HasDerivM3.smul (h0.const_mul 2) hv.hat
  have h2v := HasDerivM3.smul (hasDerivAt_const t (2 : ℝ)) (hv.hat.mul hv.hat)
  have hsum := (((HasDerivM3.const 1 t).add h2w).add h2v)
  have hfun : (fun s => q2R (q s)) = fun s => (1 : M3 ℝ) + M3.smul (2 * (q s).w) (hat (q s).vec)
      + M3.smul 2 (hat (q s).vec * hat (q s).vec) := by
    funext s; simp [q2R]
  rw [hfun]
  refine hsum.congr_deriv ?_
  unfold IsUnit4 at hu
  ext <;> simp [quatjacobian, M43.mulVec, V3.dot, q2R] <;> grind

/-- C09: the rate is always orthogonal to `q`. -/
theorem C09_quatjacobian_orthogonal (q : V4 ℝ) (w : V3 ℝ) : q.dot ((quatjacobian q).mulVec w) = 0 := by
  simp [quatjacobian, M43.mulVec, V3.dot, V4.dot]; ring

/-- C09: hence the norm is constant along any trajectory driven by any angular velocity. -/
theorem C09_norm_preserved (q : ℝ → V4 ℝ) (w : ℝ → V3 ℝ)
    (hd : ∀ t, HasDerivV4 q ((quatjacobian (q t)).mulVec (w t)) t) (s t : ℝ) :
    (q s).dot (q s) = (q t).dot (q t) := by
  have hder : ∀ t, HasDerivAt (fun u => (q u).dot (q u)) 0 t := by
    intro t
    obtain ⟨h0, h1, h2, h3⟩ := hd t
    have := (((h0.mul h0).add (h1.mul h1)).add (h2.mul h2)).add (h3.mul h3)
    have ho := C09_quatjacobian_orthogonal (q t) (w t)
    simp only [V4.dot] at ho ⊢
    exact this.congr_deriv (by linarith)
  exact is_const_of_deriv_eq_zero (fun t => (hder t).differentiableAt) (fun t => (hder t).deriv) s t

/-- Non-vacuity of C09: rotation about z at unit speed, `q t = (cos t/2, 0, 0, sin t/2)`. -/
example : ∀ t, IsUnit4 (⟨Real.cos (t/2), 0, 0, Real.sin (t/2)⟩ : V4 ℝ) ∧
    HasDerivV4 (fun t => ⟨Real.cos (t/2), 0, 0, Real.sin (t/2)⟩)
      ((quatjacobian ⟨Real.cos (t/2), 0, 0, Real.sin (t/2)⟩).mulVec V3.ez) t := by
  intro t
  have hh : HasDerivAt (fun t : ℝ => t / 2) (1/2) t := (hasDerivAt_id t).div_const 2
  refine ⟨by have := Real.sin_sq_add_cos_sq (t/2); simp [IsUnit4]; linarith, ?_, ?_, ?_, ?_⟩
  · convert hh.cos using 1; simp [quatjacobian, M43.mulVec, V3.dot]; ring
  · exact (hasDerivAt_const t (0:ℝ)).congr_deriv (by simp [quatjacobian, M43.mulVec, V3.dot])
  · exact (hasDerivAt_const t (0:ℝ)).congr_deriv (by simp [quatjacobian, M43.mulVec, V3.dot])
  · convert hh.sin using 1; simp [quatjacobian, M43.mulVec, V3.dot]; ring

/-! ## C12 -/

/-- C12: displacements compose by addition. -/
theorem C12_screw_add (r1 r2 : V3 ℝ) : (screwMatrix r1).mul (screwMatrix r2) = screwMatrix (r1 + r2) := by
  apply M6.ext <;> ext <;> simp [screwMatrix, M6.mul, M6.one] <;> ring

/-- C12: no displacement, no change. -/
theorem C12_screw_zero : screwMatrix (0 : V3 ℝ) = M6.one := by
  apply M6.ext <;> ext <;> simp [screwMatrix, M6.one]

/-- C12: a wrench (torque, force) at point 2 maps to the equivalent wrench at point 1. -/
theorem C12_screw_wrench (r tau f : V3 ℝ) :
    (screwMatrix r).mulVec ⟨tau, f⟩ = ⟨tau + r.cross f, f⟩ := by
  apply V6.ext <;> ext <;> simp [screwMatrix, M6.mulVec, M6.one] <;> ring

/-- C12: a twist (angular, linear) at point 1 maps under the transpose to the twist of point 2 of the same rigid
body, `v2 = v1 + w × r`. -/
theorem C12_screw_twist (r w v : V3 ℝ) :
    (screwMatrix r).transpose.mulVec ⟨w, v⟩ = ⟨w, v + w.cross r⟩ := by
  apply V6.ext <;> ext <;> simp [screwMatrix, M6.mulVec, M6.one, M6.transpose] <;> ring

/-- C12: power does not depend on the point of reference. -/
theorem C12_screw_power (r : V3 ℝ) (twist1 wrench2 : V6 ℝ) :
    V6.dot ((screwMatrix r).transpose.mulVec twist1) wrench2 = V6.dot twist1 ((screwMatrix r).mulVec wrench2) := by
  simp [screwMatrix, M6.mulVec, M6.one, M6.transpose, V6.dot, V3.dot]; ring
