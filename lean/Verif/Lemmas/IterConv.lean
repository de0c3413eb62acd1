import Verif.Lemmas.Smooth
import Verif.Lemmas.PinvMat
import Verif.Props.AxisAngle

/-! # One step of `iterative_invkin` near a solution -/
set_option autoImplicit false

namespace IterConv

/-- the antisymmetric part of the error rotation -/
def Wv (E : M3 ℝ) : V3 ℝ := ⟨E.a21 - E.a12, E.a02 - E.a20, E.a10 - E.a01⟩
/-- `sin (θ/2) k = lam • Wv` -/
noncomputable def lam (E : M3 ℝ) : ℝ := 1 / (2 * Real.sqrt (1 + E.trace))
def n1 (v : V3 ℝ) : ℝ := |v.x| + |v.y| + |v.z|

theorem n1_nonneg (v : V3 ℝ) : 0 ≤ n1 v := by unfold n1; positivity

theorem n1_smul (c : ℝ) (v : V3 ℝ) : n1 (V3.smul c v) = |c| * n1 v := by
  simp only [n1, V3.smul_x, V3.smul_y, V3.smul_z, abs_mul]; ring

theorem Wv_fixed {E : M3 ℝ} (h : IsRot E) : E.transpose.mulVec (Wv E) = Wv E := by
  obtain ⟨c1, c2, c3, c4, c5, c6, c7, c8, c9⟩ := h.cof
  ext <;> simp [Wv] <;> linarith

/-- derivative of `Wv` when the error rotation turns about its own axis -/
theorem Wv_turn {E : M3 ℝ} (h : IsRot E) (c : ℝ) : Wv (E * hat (V3.smul c (Wv E))) = V3.smul (c * (E.trace - 1)) (Wv E) := by
  have e : ∀ w : V3 ℝ, Wv (E * hat w) = V3.smul E.trace w - E.transpose.mulVec w := fun w => by
    ext <;> simp [Wv, M3.trace, hat] <;> ring
  have f := Wv_fixed h
  rw [e]
  have f' : E.transpose.mulVec (V3.smul c (Wv E)) = V3.smul c (Wv E) := by
    rw [V3.ext_iff] at f
    obtain ⟨f1, f2, f3⟩ := f
    simp at f1 f2 f3
    ext <;> simp
    · linear_combination c * f1
    · linear_combination c * f2
    · linear_combination c * f3
  rw [f']
  ext <;> simp <;> ring

theorem EP_turn {R : M3 ℝ} (h : IsRot R) (w u d : V3 ℝ) :
    (R * hat w).transpose.mulVec d + R.transpose.mulVec (R.mulVec u) = u - w.cross (R.transpose.mulVec d) := by
  have e : R.transpose.mulVec (R.mulVec u) = u := by rw [M3.mulVec_mulVec, h.orth, M3.one_mulVec]
  rw [e]
  ext <;> simp [hat, V3.cross] <;> ring

section
variable {robot : Robot ℝ} {n : Nat} (K : BodyKin robot n) (pose : Transform ℝ)

def ER (q : Fin n → ℝ) : M3 ℝ := pose.R.transpose * (K.T q).R
def EP (q : Fin n → ℝ) : V3 ℝ := (K.T q).R.transpose.mulVec ((K.T q).p - pose.p)
noncomputable def Nn (q : Fin n → ℝ) : ℝ := n1 (Wv (ER K pose q)) + n1 (EP K pose q)

theorem ER_smooth : SmM (ER K pose) := (SmM.const _).mul K.smR
theorem EP_smooth : SmV (EP K pose) := K.smR.transpose.mulVec (K.smp.sub (SmV.const _))

theorem W_smooth : SmV fun q => Wv (ER K pose q) :=
  let h := ER_smooth K pose
  ⟨h.a21.sub h.a12, h.a02.sub h.a20, h.a10.sub h.a01⟩

theorem EP_deriv (q v : Fin n → ℝ) (w u : V3 ℝ) (hw : sumTop (List.ofFn (K.col q)) (List.ofFn v) = w)
    (hu : sumBot (List.ofFn (K.col q)) (List.ofFn v) = u) :
    HasDerivV3 (fun s : ℝ => EP K pose (q + s • v)) (u - w.cross (EP K pose q)) 0 := by
  have hR := K.velR q v
  have hp := K.velp q v
  rw [hw] at hR
  rw [hu] at hp
  have hT : HasDerivM3 (fun s : ℝ => (K.T (q + s • v)).R.transpose) ((K.T q).R * hat w).transpose 0 :=
    ⟨hR.d00, hR.d10, hR.d20, hR.d01, hR.d11, hR.d21, hR.d02, hR.d12, hR.d22⟩
  have hs : HasDerivV3 (fun s : ℝ => (K.T (q + s • v)).p - pose.p) ((K.T q).R.mulVec u) 0 :=
    ⟨hp.1.sub_const _, hp.2.1.sub_const _, hp.2.2.sub_const _⟩
  refine (hT.mulVec hs).congr_deriv ?_
  simp only [zero_smul, add_zero]
  exact EP_turn (K.rigid q) w u _

theorem W_deriv (hd : IsRot pose.R) (q v : Fin n → ℝ) (c : ℝ)
    (hw : sumTop (List.ofFn (K.col q)) (List.ofFn v) = V3.smul c (Wv (ER K pose q))) :
    HasDerivV3 (fun s : ℝ => Wv (ER K pose (q + s • v))) (V3.smul (c * ((ER K pose q).trace - 1)) (Wv (ER K pose q))) 0 := by
  have hR := K.velR q v
  rw [hw] at hR
  have hE : IsRot (ER K pose q) := hd.transpose.mul (K.rigid q)
  have h := ((HasDerivM3.const pose.R.transpose 0).mul hR).congr_deriv (b := ER K pose q * hat (V3.smul c (Wv (ER K pose q)))) (by
    simp only [zero_smul, add_zero, ER]
    ext <;> simp <;> ring)
  rw [← Wv_turn hE]
  exact ⟨h.d21.sub h.d12, h.d02.sub h.d20, h.d10.sub h.d01⟩

/-- vector version of `linear_approx` -/
theorem vec_approx {E : Type} [NormedAddCommGroup E] [NormedSpace ℝ E] {f : E → V3 ℝ} (hf : SmV f) (a : E) {ε : ℝ} (hε : 0 < ε) :
    ∃ r > 0, ∀ x y, ‖x - a‖ < r → ‖y - a‖ < r → ∀ d : V3 ℝ, HasDerivV3 (fun s : ℝ => f (x + s • (y - x))) d 0 →
      n1 (f y) ≤ n1 (f x + d) + 3 * (ε * ‖y - x‖) := by
  obtain ⟨r1, p1, h1⟩ := linear_approx hf.x a hε
  obtain ⟨r2, p2, h2⟩ := linear_approx hf.y a hε
  obtain ⟨r3, p3, h3⟩ := linear_approx hf.z a hε
  refine ⟨min r1 (min r2 r3), lt_min p1 (lt_min p2 p3), fun x y hx hy d hd => ?_⟩
  simp only [lt_min_iff] at hx hy
  have k1 := h1 x y hx.1 hy.1
  have k2 := h2 x y hx.2.1 hy.2.1
  have k3 := h3 x y hx.2.2 hy.2.2
  rw [fderiv_of_line hf.x hd.1] at k1
  rw [fderiv_of_line hf.y hd.2.1] at k2
  rw [fderiv_of_line hf.z hd.2.2] at k3
  have ab : ∀ p q e t : ℝ, |p - q - e| ≤ t → |p| ≤ |q + e| + t := fun p q e t h => by
    have := abs_sub_abs_le_abs_sub p (q + e)
    rw [← sub_sub] at this
    linarith
  have := ab _ _ _ _ k1
  have := ab _ _ _ _ k2
  have := ab _ _ _ _ k3
  simp only [n1, V3.add_x, V3.add_y, V3.add_z]
  linarith

theorem n1_cross (a b : V3 ℝ) : n1 (a.cross b) ≤ 2 * n1 a * n1 b := by
  have h : ∀ p q r s : ℝ, |p * q - r * s| ≤ |p| * |q| + |r| * |s| := fun p q r s => by
    rw [← abs_mul, ← abs_mul]; exact abs_sub _ _
  have h1 := h a.y b.z a.z b.y
  have h2 := h a.z b.x a.x b.z
  have h3 := h a.x b.y a.y b.x
  have x1 := abs_nonneg a.x
  have x2 := abs_nonneg a.y
  have x3 := abs_nonneg a.z
  have y1 := abs_nonneg b.x
  have y2 := abs_nonneg b.y
  have y3 := abs_nonneg b.z
  simp only [n1, V3.cross]
  nlinarith [mul_nonneg x1 y1, mul_nonneg x2 y2, mul_nonneg x3 y3, mul_nonneg x1 y2, mul_nonneg x1 y3, mul_nonneg x2 y1, mul_nonneg x2 y3,
    mul_nonneg x3 y1, mul_nonneg x3 y2]

theorem n1_add (a b : V3 ℝ) : n1 (a + b) ≤ n1 a + n1 b := by
  simp only [n1, V3.add_x, V3.add_y, V3.add_z]
  linarith [abs_add_le a.x b.x, abs_add_le a.y b.y, abs_add_le a.z b.z]

/-- the estimates of a step, put together -/
theorem finish {κp κR m : ℝ} (hR0 : 0 < κR) (m0 : 0 < m) (C : ℝ) (hC : 0 < C) (W P : V3 ℝ) (E : M3 ℝ) (l : ℝ) (hl01 : 0 ≤ l ∧ l ≤ 1)
    (k2 : |1 - κR * lam E * (E.trace - 1)| ≤ 1 - 2 * m) (k3 : |1 - κp| + 2 * κR * n1 W ≤ 1 - 2 * m) (hlam : lam E ≤ 1) (hl : l = 0 ∨ l = lam E)
    (W' P' : V3 ℝ) (d : ℝ) (q1 : n1 W' ≤ n1 (W + V3.smul (-κR * l * (E.trace - 1)) W) + 3 * (m / (6 * C) * d))
    (q2 : n1 P' ≤ n1 (P + (V3.smul (-κp) P - (V3.smul (-κR * l) W).cross P)) + 3 * (m / (6 * C) * d))
    (hn : d ≤ C * (n1 (V3.smul l W) + n1 P)) :
    n1 W' + n1 P' ≤ n1 W + n1 P - m * (n1 (V3.smul l W) + n1 P) := by
  have W0 := n1_nonneg W
  have P0 := n1_nonneg P
  have lW : n1 (V3.smul l W) = l * n1 W := by rw [n1_smul, abs_of_nonneg hl01.1]
  have lW1 : l * n1 W ≤ n1 W := mul_le_of_le_one_left W0 hl01.2
  -- rotation part
  have b1 : n1 (W + V3.smul (-κR * l * (E.trace - 1)) W) ≤ n1 W - 2 * m * (l * n1 W) := by
    have e : W + V3.smul (-κR * l * (E.trace - 1)) W = V3.smul (1 - κR * l * (E.trace - 1)) W := by
      ext <;> simp <;> ring
    rw [e, n1_smul]
    rcases hl with rfl | rfl
    · simp
    · have h1 : |1 - κR * lam E * (E.trace - 1)| * n1 W ≤ (1 - 2 * m) * n1 W := mul_le_mul_of_nonneg_right k2 W0
      have h2 := mul_le_mul_of_nonneg_left lW1 m0.le
      linarith
  -- position part
  have b2 : n1 (P + (V3.smul (-κp) P - (V3.smul (-κR * l) W).cross P)) ≤ n1 P - 2 * m * n1 P := by
    have e : P + (V3.smul (-κp) P - (V3.smul (-κR * l) W).cross P) = V3.smul (1 - κp) P + (V3.smul (κR * l) W).cross P := by
      ext <;> simp [V3.cross] <;> ring
    rw [e]
    have c1 := n1_add (V3.smul (1 - κp) P) ((V3.smul (κR * l) W).cross P)
    have c2 := n1_cross (V3.smul (κR * l) W) P
    rw [n1_smul] at c1 c2
    rw [abs_of_nonneg (mul_nonneg hR0.le hl01.1)] at c2
    have c3 : 2 * (κR * l * n1 W) * n1 P ≤ 2 * κR * n1 W * n1 P := by
      have := mul_le_mul_of_nonneg_right (mul_le_mul_of_nonneg_left lW1 hR0.le) P0
      linarith
    have c4 := mul_le_mul_of_nonneg_right k3 P0
    linarith
  have b3 : m / (6 * C) * d * 6 ≤ m * (n1 (V3.smul l W) + n1 P) := by
    have h := mul_le_mul_of_nonneg_left hn (show 0 ≤ m / (6 * C) by positivity)
    have e : m / (6 * C) * (C * (n1 (V3.smul l W) + n1 P)) * 6 = m * (n1 (V3.smul l W) + n1 P) := by field_simp
    linarith
  rw [lW] at b3 ⊢
  linarith

/-- Near a solution one step decreases the error in proportion to the measured error. -/
theorem contraction (hd : IsRot pose.R) (qs : Fin n → ℝ) (hR : (K.T qs).R = pose.R) (hp : (K.T qs).p = pose.p) (κp κR : ℝ)
    (hp0 : 0 < κp) (hp2 : κp < 2) (hR0 : 0 < κR) (hR4 : κR < 4) (C : ℝ) (hC : 0 < C) :
    ∃ m > 0, m ≤ 1 ∧ ∃ r > 0, ∀ x, ‖x - qs‖ < r → 2 < (ER K pose x).trace ∧
      (∀ l, (l = 0 ∨ l = lam (ER K pose x)) → n1 (V3.smul l (Wv (ER K pose x))) + n1 (EP K pose x) ≤ Nn K pose x) ∧
      ∀ x', ‖x' - qs‖ < r → ∀ l, (l = 0 ∨ l = lam (ER K pose x)) →
      sumTop (List.ofFn (K.col x)) (List.ofFn (x' - x)) = V3.smul (-κR * l) (Wv (ER K pose x)) →
      sumBot (List.ofFn (K.col x)) (List.ofFn (x' - x)) = V3.smul (-κp) (EP K pose x) →
      ‖x' - x‖ ≤ C * (n1 (V3.smul l (Wv (ER K pose x))) + n1 (EP K pose x)) →
      Nn K pose x' ≤ Nn K pose x - m * (n1 (V3.smul l (Wv (ER K pose x))) + n1 (EP K pose x)) := by
  -- values at the solution
  have e1 : ER K pose qs = 1 := by unfold ER; rw [hR, hd.orth]
  have tr0 : (ER K pose qs).trace = 3 := by rw [e1]; norm_num [M3.trace]
  have cE := ER_smooth K pose
  have ctr : Continuous fun q => (ER K pose q).trace := (cE.a00.continuous.add cE.a11.continuous).add cE.a22.continuous
  have cW := W_smooth K pose
  have cn : Continuous fun q => n1 (Wv (ER K pose q)) := (cW.x.continuous.abs.add cW.y.continuous.abs).add cW.z.continuous.abs
  have W0 : n1 (Wv (ER K pose qs)) = 0 := by rw [e1]; simp [n1, Wv]
  have cf : ContinuousAt (fun q => |1 - κR * lam (ER K pose q) * ((ER K pose q).trace - 1)|) qs := by
    unfold lam
    refine ContinuousAt.abs (continuousAt_const.sub ((continuousAt_const.mul (ContinuousAt.div continuousAt_const ?_ ?_)).mul
      (ctr.continuousAt.sub continuousAt_const)))
    · exact (continuous_const.mul (Real.continuous_sqrt.comp (continuous_const.add ctr))).continuousAt
    · rw [tr0]
      have : (0 : ℝ) < Real.sqrt (1 + 3) := Real.sqrt_pos.2 (by norm_num)
      positivity
  have f0 : |1 - κR * lam (ER K pose qs) * ((ER K pose qs).trace - 1)| = |1 - κR / 2| := by
    unfold lam
    rw [tr0, show (1 : ℝ) + 3 = 2 ^ 2 by norm_num, Real.sqrt_sq (by norm_num)]
    congr 1
    ring
  have a1 : |1 - κR / 2| < 1 := by rw [abs_lt]; constructor <;> linarith
  have a2 : |1 - κp| < 1 := by rw [abs_lt]; constructor <;> linarith
  obtain ⟨m, m0, m1, mR, mp⟩ : ∃ m > 0, m ≤ 1 ∧ |1 - κR / 2| < 1 - 2 * m ∧ |1 - κp| < 1 - 2 * m := by
    refine ⟨min ((1 - |1 - κR / 2|) / 4) ((1 - |1 - κp|) / 4), lt_min (by linarith) (by linarith), ?_, ?_, ?_⟩
    · have := min_le_left ((1 - |1 - κR / 2|) / 4) ((1 - |1 - κp|) / 4)
      linarith [abs_nonneg (1 - κR / 2)]
    · have := min_le_left ((1 - |1 - κR / 2|) / 4) ((1 - |1 - κp|) / 4)
      linarith
    · have := min_le_right ((1 - |1 - κR / 2|) / 4) ((1 - |1 - κp|) / 4)
      linarith
  -- conditions that hold nearby
  have n1' : ∀ᶠ q in nhds qs, 2 < (ER K pose q).trace := continuousAt_const.eventually_lt ctr.continuousAt (by rw [tr0]; norm_num)
  have n2' : ∀ᶠ q in nhds qs, |1 - κR * lam (ER K pose q) * ((ER K pose q).trace - 1)| < 1 - 2 * m :=
    cf.eventually_lt continuousAt_const (by rw [f0]; exact mR)
  have n3' : ∀ᶠ q in nhds qs, |1 - κp| + 2 * κR * n1 (Wv (ER K pose q)) < 1 - 2 * m :=
    (continuous_const.add (continuous_const.mul cn)).continuousAt.eventually_lt continuousAt_const (by
      show |1 - κp| + 2 * κR * n1 (Wv (ER K pose qs)) < 1 - 2 * m
      rw [W0]; linarith)
  obtain ⟨r0, r0p, hr0⟩ := Metric.eventually_nhds_iff.1 (n1'.and (n2'.and n3'))
  have ε0 : 0 < m / (6 * C) := by positivity
  obtain ⟨r1, r1p, hr1⟩ := vec_approx cW qs ε0
  obtain ⟨r2, r2p, hr2⟩ := vec_approx (EP_smooth K pose) qs ε0
  refine ⟨m, m0, m1, min r0 (min r1 r2), lt_min r0p (lt_min r1p r2p), fun x hx => ?_⟩
  rw [lt_min_iff, lt_min_iff] at hx
  obtain ⟨k1, k2, k3⟩ := hr0 (show dist x qs < r0 by rw [dist_eq_norm]; exact hx.1)
  -- the factor
  have hlam : 0 ≤ lam (ER K pose x) ∧ lam (ER K pose x) ≤ 1 := by
    unfold lam
    have h1 : (1 : ℝ) ≤ Real.sqrt (1 + (ER K pose x).trace) := by
      rw [Real.one_le_sqrt]
      linarith
    refine ⟨by positivity, ?_⟩
    rw [div_le_one (by positivity)]
    linarith
  have hl01 : ∀ l, (l = 0 ∨ l = lam (ER K pose x)) → 0 ≤ l ∧ l ≤ 1 := fun l hl => by
    rcases hl with rfl | rfl
    · norm_num
    · exact hlam
  refine ⟨k1, fun l hl => ?_, fun x' hx' l hl hw hu hn => ?_⟩
  · obtain ⟨l0, l1⟩ := hl01 l hl
    have W0 := n1_nonneg (Wv (ER K pose x))
    have := mul_le_of_le_one_left W0 l1
    rw [n1_smul, abs_of_nonneg l0]
    unfold Nn
    linarith
  rw [lt_min_iff, lt_min_iff] at hx'
  have q1 := hr1 x x' hx.2.1 hx'.2.1 _ (W_deriv K pose hd x (x' - x) _ hw)
  have q2 := hr2 x x' hx.2.2 hx'.2.2 _ (EP_deriv K pose x (x' - x) _ _ hw hu)
  set W := Wv (ER K pose x) with hW
  set P := EP K pose x with hP
  exact finish hR0 m0 C hC W P _ l (hl01 l hl) k2.le k3.le hlam.2 hl _ _ _ q1 q2 hn

end
end IterConv
