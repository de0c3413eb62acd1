import Verif.Lemmas.FlJac
import Verif.Lemmas.FlTrans
import Verif.Lemmas.Trig
import Verif.Lemmas.FlEps
import Verif.Lemmas.SO3
import Mathlib.Analysis.SpecialFunctions.Trigonometric.Inverse
import Mathlib.Analysis.Real.Pi.Bounds

/-! # Rounding error of `arctan2`, of two-component norms, and of the roll/pitch/yaw conversions -/
set_option autoImplicit false

namespace Spec

/-- The library's inverse functions are accurate: `arccos` and `arcsin` to the rounding unit, `arctan2` to the rounding unit up to whole turns (at the
cut the sign of a zero, which the model ignores, chooses between `π` and `-π`), with results in a range around `[-π, π]`; two zeros
(positive ones: the only such call of interest is that of `subproblem0`, with two norms) give no more than 3/2. -/
structure InvAcc (F : FSys) : Prop where
  arccos : ∀ x, -1 ≤ x → x ≤ 1 → |F.arccosF x - Real.arccos x| ≤ F.u
  arcsin : ∀ x, -1 ≤ x → x ≤ 1 → |F.arcsinF x - Real.arcsin x| ≤ F.u
  arctan2 : ∀ y x, (y ≠ 0 ∨ x ≠ 0) → ∃ n : ℤ, |F.arctan2F y x - Complex.arg ⟨x, y⟩ - n * (2 * Real.pi)| ≤ F.u
  arctan2_le : ∀ y x, |F.arctan2F y x| ≤ 16 / 5
  arctan2_zero : |F.arctan2F 0 0| ≤ 3 / 2

/-- `a` is finite and within `e` of the angle `θ`, up to whole turns. -/
def AngNear {F : FSys} (a : Fl F) (θ e : ℝ) : Prop := ∃ n : ℤ, a.Near (θ + n * (2 * Real.pi)) e

end Spec

theorem abs_arcsin_le (x : ℝ) : |Real.arcsin x| ≤ Real.pi / 2 * |x| := by
  have pos : ∀ x : ℝ, 0 ≤ x → Real.arcsin x ≤ Real.pi / 2 * x := by
    intro x hx
    rcases le_total x 1 with h | h
    · have h1 := Real.mul_le_sin (Real.arcsin_nonneg.2 hx) (Real.arcsin_le_pi_div_two x)
      rw [Real.sin_arcsin (by linarith) h] at h1
      have hpi := Real.pi_pos
      rw [div_mul_eq_mul_div, div_le_iff₀ hpi] at h1
      linarith
    · have := Real.arcsin_le_pi_div_two x
      have := Real.pi_pos
      nlinarith
  rcases le_total 0 x with h | h
  · rw [abs_of_nonneg h, abs_of_nonneg (Real.arcsin_nonneg.2 h)]
    exact pos x h
  · have := pos (-x) (by linarith)
    rw [Real.arcsin_neg] at this
    rw [abs_of_nonpos h, abs_of_nonpos (Real.arcsin_nonpos.2 h)]
    exact this

/-- The norm of a plane vector whose components are changed by `e`. -/
theorem hyp_lip {c s c₀ s₀ r e : ℝ} (hr : 0 ≤ r) (h : c₀ * c₀ + s₀ * s₀ = r ^ 2) (hc : |c - c₀| ≤ e) (hs : |s - s₀| ≤ e) :
    |Real.sqrt (c * c + s * s) - r| ≤ 3 / 2 * e := by
  have e0 : 0 ≤ e := (abs_nonneg _).trans hc
  have h1 : r = ‖(⟨c₀, s₀⟩ : ℂ)‖ := by rw [norm_mk, h, Real.sqrt_sq hr]
  have h2 : (⟨c, s⟩ : ℂ) - ⟨c₀, s₀⟩ = ⟨c - c₀, s - s₀⟩ := rfl
  rw [← norm_mk, h1]
  refine (abs_norm_sub_norm_le _ _).trans ?_
  rw [h2, norm_mk]
  refine Real.sqrt_le_iff.2 ⟨by positivity, ?_⟩
  have := sq_le_sq' (abs_le.1 hc).1 (abs_le.1 hc).2
  have := sq_le_sq' (abs_le.1 hs).1 (abs_le.1 hs).2
  have := sq_nonneg e
  linarith

/-- An inner product with a plane vector of length `r`. -/
theorem inner_le {a b dc ds r e : ℝ} (hr : 0 ≤ r) (h : a * a + b * b = r ^ 2) (hc : |dc| ≤ e) (hs : |ds| ≤ e) :
    |dc * a + ds * b| ≤ 3 / 2 * (e * r) := by
  have e0 : 0 ≤ e := (abs_nonneg _).trans hc
  refine abs_le_of_sq_le_sq ?_ (by positivity)
  have h1 := sq_le_sq' (abs_le.1 hc).1 (abs_le.1 hc).2
  have h2 := sq_le_sq' (abs_le.1 hs).1 (abs_le.1 hs).2
  have h3 : (dc ^ 2 + ds ^ 2) * r ^ 2 ≤ (2 * e ^ 2) * r ^ 2 := mul_le_mul_of_nonneg_right (by linarith) (sq_nonneg r)
  have h4 : (dc * a + ds * b) ^ 2 + (dc * b - ds * a) ^ 2 = (dc ^ 2 + ds ^ 2) * r ^ 2 := by rw [← h]; ring
  have h5 := sq_nonneg (dc * b - ds * a)
  have h6 := sq_nonneg (e * r)
  have h7 : (3 / 2 * (e * r)) ^ 2 = 2 * e ^ 2 * r ^ 2 + 1 / 4 * (e * r) ^ 2 := by ring
  linarith

/-- Changing a vector of length `r` by `e` in each component turns it by at most `4 e / r`. -/
theorem arg_lip {c s c₀ s₀ r e : ℝ} (hr : 0 < r) (h : c₀ * c₀ + s₀ * s₀ = r ^ 2) (hc : |c - c₀| ≤ e) (hs : |s - s₀| ≤ e) (he : 4 * e ≤ r) :
    ∃ n : ℤ, |Complex.arg ⟨c, s⟩ - Complex.arg ⟨c₀, s₀⟩ - n * (2 * Real.pi)| ≤ 4 * e / r := by
  have e0 : 0 ≤ e := (abs_nonneg _).trans hc
  obtain ⟨p1, p2⟩ := polar_arg c s
  obtain ⟨p3, p4⟩ := polar_arg c₀ s₀
  have hl := abs_le.1 (hyp_lip hr.le h hc hs)
  have b1 := abs_le.1 (inner_le hr.le h hc hs)
  have b2 := inner_le hr.le (show (-s₀) * (-s₀) + c₀ * c₀ = r ^ 2 by linarith) hc hs
  rw [h, Real.sqrt_sq hr.le] at p3 p4
  generalize Complex.arg ⟨c, s⟩ = α at *
  generalize Complex.arg ⟨c₀, s₀⟩ = β at *
  generalize Real.sqrt (c * c + s * s) = r' at *
  have dcos : r' * r * Real.cos (α - β) = r ^ 2 + ((c - c₀) * c₀ + (s - s₀) * s₀) := by
    rw [Real.cos_sub]
    linear_combination (r * Real.cos β) * p1 + c * p3 + (r * Real.sin β) * p2 + s * p4 + h
  have dsin : r' * r * Real.sin (α - β) = (c - c₀) * (-s₀) + (s - s₀) * c₀ := by
    rw [Real.sin_sub]
    linear_combination (r * Real.cos β) * p2 + s * p3 - (r * Real.sin β) * p1 - c * p4
  have er : e * r ≤ r ^ 2 / 4 := by
    have := mul_le_mul_of_nonneg_right he hr.le
    linarith
  have r'pos : 5 / 8 * r ≤ r' := by linarith
  have r'0' : 0 < r' := by linarith
  have hr2 : 0 < r ^ 2 := by positivity
  have hcos : 0 < Real.cos (α - β) := by
    have : 0 < r' * r * Real.cos (α - β) := by rw [dcos]; linarith
    exact (pos_iff_pos_of_mul_pos this).1 (mul_pos r'0' hr)
  set x := Real.sin (α - β) with hx
  have habs : |x| ≤ 12 / 5 * e / r := by
    have h1 : r' * r * |x| ≤ 3 / 2 * (e * r) := by
      rw [← abs_of_pos (mul_pos r'0' hr), ← abs_mul, dsin]; exact b2
    rw [le_div_iff₀ hr]
    have h2 : r' * |x| ≤ 3 / 2 * e := by
      have : (r' * |x|) * r ≤ (3 / 2 * e) * r := by linarith
      exact le_of_mul_le_mul_right this hr
    have h3 : 5 / 8 * r * |x| ≤ r' * |x| := mul_le_mul_of_nonneg_right r'pos (abs_nonneg _)
    linarith
  have hx1 : -1 ≤ x ∧ x ≤ 1 := ⟨Real.neg_one_le_sin _, Real.sin_le_one _⟩
  obtain ⟨n, hn⟩ := angle_eq_of_sin_cos (a := α - β) (b := Real.arcsin x) (by rw [Real.sin_arcsin hx1.1 hx1.2]) (by
    rw [Real.cos_arcsin]
    symm
    have := Real.sin_sq_add_cos_sq (α - β)
    rw [show 1 - x ^ 2 = Real.cos (α - β) ^ 2 by rw [hx]; linarith, Real.sqrt_sq hcos.le])
  refine ⟨n, ?_⟩
  rw [hn, add_sub_cancel_right]
  refine (abs_arcsin_le x).trans ?_
  have hpi := Real.pi_lt_d2
  calc Real.pi / 2 * |x| ≤ 5 / 3 * |x| := mul_le_mul_of_nonneg_right (by linarith) (abs_nonneg _)
    _ ≤ 5 / 3 * (12 / 5 * e / r) := mul_le_mul_of_nonneg_left habs (by norm_num)
    _ = 4 * e / r := by ring

namespace Fl
variable {F : FSys} {ε : ℝ}

/-- `arctan2` of two numbers within `e` of a vector of length `r`. -/
theorem near_arctan2 (hF : Spec.InvAcc F) {b a : Fl F} {s c r e : ℝ} (hr : 0 < r) (h : c * c + s * s = r ^ 2) (hb : b.Near s e)
    (ha : a.Near c e) (he : 4 * e ≤ r) : Spec.AngNear (Elem.arctan2 b a) (Complex.arg ⟨c, s⟩) (4 * e / r + F.u) := by
  obtain ⟨v, hv, h1⟩ := hb
  obtain ⟨w, hw, h2⟩ := ha
  obtain ⟨n, hn⟩ := arg_lip hr h h2 h1 he
  have hne : v ≠ 0 ∨ w ≠ 0 := by
    by_contra hcon
    push Not at hcon
    rw [hcon.1, zero_sub, abs_neg] at h1
    rw [hcon.2, zero_sub, abs_neg] at h2
    have := sq_le_sq' (abs_le.1 h1).1 (abs_le.1 h1).2
    have := sq_le_sq' (abs_le.1 h2).1 (abs_le.1 h2).2
    have e0 : 0 ≤ e := (abs_nonneg _).trans h1
    nlinarith
  obtain ⟨m, hm⟩ := hF.arctan2 v w hne
  refine ⟨n + m, F.arctan2F v w, ?_, ?_⟩
  · change (match b.val, a.val with
      | .fin y, .fin x => XReal.fin (F.arctan2F y x)
      | _, _ => .nan) = _
    rw [hv, hw]
  · push_cast
    have : F.arctan2F v w - (Complex.arg ⟨c, s⟩ + (n + m) * (2 * Real.pi)) =
        (Complex.arg ⟨w, v⟩ - Complex.arg ⟨c, s⟩ - n * (2 * Real.pi)) + (F.arctan2F v w - Complex.arg ⟨w, v⟩ - m * (2 * Real.pi)) := by ring
    rw [this]
    exact (abs_add_le _ _).trans (add_le_add hn hm)

/-- The square root of the rounded sum of two squares, `r'` being the exact norm. -/
theorem near_hyp_exact {v w r' : ℝ} (h0 : 0 < r') (h2 : r' ≤ 5 / 4) (hsq : r' ^ 2 = v * v + w * w) (hη : F.η ≤ 2 * (F.u * r')) (hu : F.u ≤ r' / 30) :
    (Elem.sqrt (of v * of v + of w * of w : Fl F)).Near r' (13 * F.u) := by
  have u0 := F.u_nonneg
  have u1 := F.u_le
  have η0 := F.η_nonneg
  have big := F.big_ge
  have η1 : F.η ≤ 1 / 1024 := by linarith [F.η_le]
  have vv : 0 ≤ v * v := mul_self_nonneg v
  have ww : 0 ≤ w * w := mul_self_nonneg w
  have r2 : r' ^ 2 ≤ 2 := by
    have := pow_le_pow_left₀ h0.le h2 2
    norm_num at this ⊢
    linarith
  have sq : ∀ x : ℝ, x * x ≤ 2 → (of x * of x : Fl F).Near (x * x) (F.u * (x * x) + F.η) := by
    intro x hx
    have xx := mul_self_nonneg x
    have : F.u * (x * x) ≤ 1 / 1024 * 2 := mul_le_mul u1 hx xx (by norm_num)
    refine (near_of x).mul (near_of x) ?_ ?_
    · rw [abs_of_nonneg xx]; simp
    · rw [abs_of_nonneg xx]; linarith
  have hT : (of v * of v + of w * of w : Fl F).Near (r' ^ 2) (33 / 16 * (F.u * r' ^ 2) + 13 / 4 * F.η) := by
    rw [hsq]
    have hvw : |v * v + w * w| = v * v + w * w := abs_of_nonneg (by linarith)
    have ur : 0 ≤ F.u * (v * v + w * w) := mul_nonneg u0 (by linarith)
    have uu : F.u * (F.u * (v * v + w * w)) ≤ 1 / 1024 * (F.u * (v * v + w * w)) := mul_le_mul_of_nonneg_right u1 ur
    have uη : F.u * F.η ≤ 1 / 1024 * F.η := mul_le_mul_of_nonneg_right u1 η0
    refine (sq v (by linarith)).add (sq w (by linarith)) ?_ ?_
    · rw [hvw]; linarith
    · rw [hvw, ← hsq]
      have : F.u * r' ^ 2 ≤ 1 / 1024 * 2 := mul_le_mul u1 r2 (by positivity) (by norm_num)
      linarith
  obtain ⟨W, hW, hWe⟩ := hT
  have ur : F.u * r' ≤ r' ^ 2 / 30 := by
    have := mul_le_mul_of_nonneg_right hu h0.le
    linarith
  have ur2 : F.u * r' ^ 2 ≤ 5 / 4 * (F.u * r') := by
    have := mul_le_mul_of_nonneg_left h2 (mul_nonneg u0 h0.le)
    linarith
  have tot : 33 / 16 * (F.u * r' ^ 2) + 13 / 4 * F.η ≤ 37 / 4 * (F.u * r') := by linarith
  have W0 : 0 ≤ W := by
    have := (abs_le.1 hWe).1
    have := sq_nonneg r'
    linarith
  have hs : |Real.sqrt W - r'| ≤ 37 / 4 * F.u := by
    have e : |Real.sqrt W - r'| * (Real.sqrt W + r') = |W - r' ^ 2| := by
      have := Real.mul_self_sqrt W0
      rw [← abs_of_pos (show 0 < Real.sqrt W + r' by have := Real.sqrt_nonneg W; linarith), ← abs_mul]
      congr 1
      linear_combination this
    have h3 : |Real.sqrt W - r'| * r' ≤ |Real.sqrt W - r'| * (Real.sqrt W + r') :=
      mul_le_mul_of_nonneg_left (by have := Real.sqrt_nonneg W; linarith) (abs_nonneg _)
    have h4 : |Real.sqrt W - r'| * r' ≤ (37 / 4 * F.u) * r' := by linarith
    exact le_of_mul_le_mul_right h4 h0
  have hS := near_round (F := F) (w := Real.sqrt W) (x := r') (d := 37 / 4 * F.u) (e := 13 * F.u) hs (by
    rw [abs_of_pos h0]
    have : F.u * r' ≤ F.u * (5 / 4) := mul_le_mul_of_nonneg_left h2 u0
    have : F.u * (37 / 4 * F.u) ≤ 1 / 1024 * (37 / 4 * F.u) := mul_le_mul_of_nonneg_right u1 (by positivity)
    have := F.η_le
    linarith) (by rw [abs_of_pos h0]; linarith)
  change (⟨F.round (Elem.sqrt (of v * of v + of w * of w : Fl F).val)⟩ : Fl F).Near _ _
  rw [hW, XReal.sqrt_fin W0]
  exact hS

/-- The norm of a vector of two components within `ε` of one of length `r` at most 1. -/
theorem near_hyp {a b : Fl F} {c s r : ℝ} (hu : F.u ≤ ε) (ha : a.Near c ε) (hb : b.Near s ε) (h : c * c + s * s = r ^ 2) (hr : 0 < r) (hr1 : r ≤ 1)
    (he : 32 * ε ≤ r) (hη : F.η ≤ F.u * r) : (Elem.sqrt (a * a + b * b)).Near r (15 * ε) := by
  obtain ⟨v, hv, h1⟩ := ha
  obtain ⟨w, hw, h2⟩ := hb
  have u0 := F.u_nonneg
  have av : a = of v := by cases a; cases hv; rfl
  have bw : b = of w := by cases b; cases hw; rfl
  rw [av, bw]
  have hl := hyp_lip hr.le h h1 h2
  have hl' := abs_le.1 hl
  have sq0 : 0 ≤ v * v + w * w := add_nonneg (mul_self_nonneg v) (mul_self_nonneg w)
  have ur : F.u * r ≤ F.u * (16 / 15 * Real.sqrt (v * v + w * w)) := mul_le_mul_of_nonneg_left (by linarith) u0
  have ur' : 0 ≤ F.u * Real.sqrt (v * v + w * w) := mul_nonneg u0 (Real.sqrt_nonneg _)
  obtain ⟨x, hx, hx'⟩ := near_hyp_exact (F := F) (v := v) (w := w) (r' := Real.sqrt (v * v + w * w)) (by linarith) (by linarith)
    (Real.sq_sqrt sq0) (by linarith) (by linarith)
  refine ⟨x, hx, ?_⟩
  rw [show x - r = (x - Real.sqrt (v * v + w * w)) + (Real.sqrt (v * v + w * w) - r) by ring]
  exact (abs_add_le _ _).trans (by linarith)

/-- `rot` of a stored axis and an angle known up to whole turns. -/
theorem rot_ang {k : V3 ℝ} (hk : IsUnit3 k) {k' : V3 (Fl F)} (hkk : Spec.VNear k' k 0) {th : Fl F} {θ d : ℝ} (hth : Spec.AngNear th θ d) :
    Spec.MNear (rot k' th) (rot k θ) (2 * d + 210 * F.u) := by
  obtain ⟨n, hn⟩ := hth
  have := rot_near' hk hkk (by norm_num) hn
  rw [show rot k (θ + n * (2 * Real.pi)) = rot k θ by
    simp only [rot, Elem.sin, Elem.cos, Real.sin_add_int_mul_two_pi, Real.cos_add_int_mul_two_pi]] at this
  exact MNear.mono this (by linarith)

/-- `rpy2R` of angles known up to `d` and whole turns. -/
theorem rpy2R_near {rpy : V3 ℝ} {rpy' : V3 (Fl F)} {d : ℝ} (hx : Spec.AngNear rpy'.x rpy.x d) (hy : Spec.AngNear rpy'.y rpy.y d)
    (hz : Spec.AngNear rpy'.z rpy.z d) (hd : 2 * d + 210 * F.u ≤ 1 / 100) : Spec.MNear (rpy2R rpy') (rpy2R rpy) (7 * d + 750 * F.u) := by
  have u0 := F.u_nonneg
  have d0 : 0 ≤ d := by obtain ⟨n, hn⟩ := hx; exact hn.nonneg
  have ux : IsUnit3 (V3.ex : V3 ℝ) := by norm_num [IsUnit3]
  have uy : IsUnit3 (V3.ey : V3 ℝ) := by norm_num [IsUnit3]
  have uz : IsUnit3 (V3.ez : V3 ℝ) := by norm_num [IsUnit3]
  have ze : ∀ v : V3 ℝ, (v - v).norm ≤ 0 := fun v => by
    rw [show v - v = 0 by ext <;> simp, V3.norm_zero]
  have rx := rot_ang (F := F) (k' := V3.ex) ux ⟨V3.ex, rfl, ze _⟩ hx
  have ry := rot_ang (F := F) (k' := V3.ey) uy ⟨V3.ey, rfl, ze _⟩ hy
  have rz := rot_ang (F := F) (k' := V3.ez) uz ⟨V3.ez, rfl, ze _⟩ hz
  generalize hE : 2 * d + 210 * F.u = E at *
  have E0 : 0 ≤ E := by rw [← hE]; positivity
  have EE : E * E ≤ 1 / 100 * E := mul_le_mul_of_nonneg_right hd E0
  have h1 := MNear.mul rz ry (rot_isRot _ uz _) (rot_isRot _ uy _) (by linarith) (by linarith)
  have h1' := MNear.mono h1 (show E + (1 + E) * E + 45 * F.u ≤ 2.01 * E + 45 * F.u by linarith)
  have h2 := MNear.mul h1' rx ((rot_isRot _ uz _).mul (rot_isRot _ uy _)) (rot_isRot _ ux _) (by linarith) (by linarith)
  refine MNear.mono h2 ?_
  have : (2.01 * E + 45 * F.u) * E ≤ (2.01 * E + 45 * F.u) * (1 / 100) := mul_le_mul_of_nonneg_left hd (by positivity)
  linarith

/-- The threshold of `R2rpy`. -/
theorem near_thresh {c : ℝ} (hη : F.η ≤ F.u * c) (hc : 1 / 250000000000000 ≤ c) (hc1 : c ≤ 1) :
    (npEps * lit 10 : Fl F).Near (npEps * 10) (c / 64) := by
  have u0 := F.u_nonneg
  have u1 := F.u_le
  have η0 := F.η_nonneg
  have big := F.big_ge
  have uc : F.u * c ≤ 1 / 1024 * c := mul_le_mul_of_nonneg_right u1 (by linarith)
  have q1 : ((1 / 4503599627370496 : ℚ) : ℝ) = 1 / 4503599627370496 := by norm_num
  have q2 : ((10 : ℚ) : ℝ) = 10 := by norm_num
  have h1 : (npEps : Fl F).Near (1 / 4503599627370496) (F.u * (1 / 4503599627370496) + F.η) := by
    have := near_lit_abs (F := F) (1 / 4503599627370496) (by rw [q1, abs_of_pos (by norm_num)]; norm_num)
    rwa [q1, abs_of_pos (by norm_num)] at this
  have h2 : (lit 10 : Fl F).Near 10 (11 * F.u) := by
    have := near_lit (F := F) (ε := F.u) 10 (S := 10) le_rfl (by linarith) (by rw [q2, abs_of_pos (by norm_num)]) (by norm_num)
    rw [q2] at this
    exact this.mono (by linarith)
  have t1 : F.u * (1 / 4503599627370496) ≤ 1 / 1024 * (1 / 4503599627370496) := mul_le_mul_of_nonneg_right u1 (by norm_num)
  have tη : F.η ≤ c / 1024 := by linarith
  have t2 : (F.u * (1 / 4503599627370496) + F.η) * (11 * F.u) ≤ (F.u * (1 / 4503599627370496) + F.η) * (11 * (1 / 1024)) :=
    mul_le_mul_of_nonneg_left (by linarith) (by positivity)
  rw [npEps_real]
  have hu : F.u ≤ 1 / 1024 := u1
  set D := |(1 / 4503599627370496 : ℝ)| * (11 * F.u) + |(10 : ℝ)| * (F.u * (1 / 4503599627370496) + F.η) +
    (F.u * (1 / 4503599627370496) + F.η) * (11 * F.u) with hD
  have a1 : |(1 / 4503599627370496 : ℝ)| = 1 / 4503599627370496 := abs_of_pos (by norm_num)
  have a2 : |(10 : ℝ)| = 10 := abs_of_pos (by norm_num)
  have hD1 : D ≤ 1 / 4503599627370496 * (22 / 1024) + 10.2 / 1024 * c + 1 / 4503599627370496 * (1 / 1024) := by
    rw [hD, a1, a2]; linarith
  have D0 : 0 ≤ D := by rw [hD]; positivity
  have uD : F.u * D ≤ 1 / 1024 * D := mul_le_mul_of_nonneg_right u1 D0
  refine h1.mul h2 ?_ ?_
  · rw [← hD, mul_add, abs_of_pos (by norm_num : (0 : ℝ) < 1 / 4503599627370496 * 10)]
    linarith
  · rw [abs_of_pos (by norm_num : (0 : ℝ) < 1 / 4503599627370496 * 10)]
    linarith

/-- `R2rpy` of a matrix within `ε` of a rotation, `c` being the cosine of its pitch. -/
theorem R2rpy_near (hF : Spec.InvAcc F) {R : M3 ℝ} (hR : IsRot R) {R' : M3 (Fl F)} (h : Spec.MNear R' R ε) (hu : F.u ≤ ε) {c : ℝ}
    (hc : c = Real.sqrt (R.a00 * R.a00 + R.a10 * R.a10)) (hlo : 1 / 250000000000000 ≤ c) (he : 64 * ε ≤ c) (hη : F.η ≤ F.u * c) :
    ∃ rpy', R2rpy R' = .ok rpy' ∧ Spec.AngNear rpy'.x (Complex.arg ⟨R.a22, R.a21⟩) (4 * ε / c + F.u) ∧
      Spec.AngNear rpy'.y (Complex.arg ⟨c, -R.a20⟩) (60 * ε + F.u) ∧ Spec.AngNear rpy'.z (Complex.arg ⟨R.a00, R.a10⟩) (4 * ε / c + F.u) := by
  have u0 := F.u_nonneg
  have e0 : 0 ≤ ε := u0.trans hu
  have c0 : 0 < c := by linarith [hlo]
  obtain ⟨c1, c2, c3, c4, c5, c6⟩ := hR.colEqs
  obtain ⟨r1, r2, r3, r4, r5, r6⟩ := hR.rowEqs
  have sq1 : R.a00 * R.a00 + R.a10 * R.a10 = c ^ 2 := by
    rw [hc, Real.sq_sqrt (add_nonneg (mul_self_nonneg _) (mul_self_nonneg _))]
  have sq2 : R.a22 * R.a22 + R.a21 * R.a21 = c ^ 2 := by rw [← sq1]; grind
  have sq3 : c * c + -R.a20 * -R.a20 = 1 ^ 2 := by
    rw [← pow_two, ← sq1]; grind
  have cle : c ≤ 1 := by
    have := mul_self_nonneg (-R.a20)
    exact (abs_le.1 ((sq_le_one_iff_abs_le_one c).1 (by linarith))).2
  obtain ⟨C, rfl, hC⟩ := mNear_iff.1 h
  obtain ⟨⟨n00, n10, n20⟩, ⟨n01, n11, n21⟩, n02, n12, n22⟩ := hC.entries
  have k00 : (of C.a00 : Fl F).Near R.a00 ε := ⟨_, rfl, n00⟩
  have k10 : (of C.a10 : Fl F).Near R.a10 ε := ⟨_, rfl, n10⟩
  have k20 : (of C.a20 : Fl F).Near R.a20 ε := ⟨_, rfl, n20⟩
  have k21 : (of C.a21 : Fl F).Near R.a21 ε := ⟨_, rfl, n21⟩
  have k22 : (of C.a22 : Fl F).Near R.a22 ε := ⟨_, rfl, n22⟩
  have hy1 := near_hyp hu k00 k10 sq1 c0 cle (by linarith) hη
  have hy2 := near_hyp hu k21 k22 (by linarith) c0 cle (by linarith) hη
  have th := near_thresh hη hlo cle
  have lt : (npEps * lit 10 : Fl F) < Elem.sqrt (of C.a00 * of C.a00 + of C.a10 * of C.a10) := by
    obtain ⟨v, hv, h1⟩ := th
    obtain ⟨w, hw, h2⟩ := hy1
    change (npEps * lit 10 : Fl F).val < _
    rw [hv, hw, XReal.fin_lt]
    rw [npEps_real] at h1
    have := (abs_le.1 h1).2
    have := (abs_le.1 h2).1
    linarith
  refine ⟨⟨Elem.arctan2 (of C.a21) (of C.a22), Elem.arctan2 (-of C.a20) (Elem.sqrt (of C.a21 * of C.a21 + of C.a22 * of C.a22)),
    Elem.arctan2 (of C.a10) (of C.a00)⟩, ?_, near_arctan2 hF c0 sq2 k21 k22 (by linarith), ?_, near_arctan2 hF c0 sq1 k10 k00 (by linarith)⟩
  · unfold R2rpy
    exact if_pos lt
  · obtain ⟨n, hn⟩ := near_arctan2 hF one_pos sq3 (k20.neg.mono (show ε ≤ 15 * ε by linarith)) hy2 (by linarith)
    exact ⟨n, hn.mono (by linarith)⟩

end Fl
