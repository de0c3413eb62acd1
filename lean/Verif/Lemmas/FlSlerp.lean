import Verif.Lemmas.FlR2rot
import Verif.Lemmas.Quat

/-! # Rounding error of `q2rot` and `slerp` -/
set_option autoImplicit false

/-- Change of `arccos` away from the ends of its domain. -/
theorem arccos_lip {x y s δ : ℝ} (hs : 0 < s) (h : y * y + s * s = 1) (hx : |x - y| ≤ δ) (hδ : 16 * δ ≤ s ^ 2) :
    -1 ≤ x ∧ x ≤ 1 ∧ |Real.arccos x - Real.arccos y| ≤ 17 / 10 * (δ / s) := by
  have δ0 := (abs_nonneg _).trans hx
  have yy := mul_self_nonneg y
  have s1 : s ^ 2 ≤ 1 := by rw [pow_two]; linarith
  have hy : |y| ≤ 1 := (sq_le_one_iff_abs_le_one y).1 (by rw [pow_two]; have := mul_self_nonneg s; linarith)
  obtain ⟨y1, y2⟩ := abs_le.1 hy
  obtain ⟨x1, x2⟩ := abs_le.1 hx
  have hxx : |x * x - y * y| ≤ 3 * δ := by
    rw [show x * x - y * y = (x - y) * (x - y + 2 * y) by ring, abs_mul]
    have : |x - y + 2 * y| ≤ 3 := abs_le.2 ⟨by linarith, by linarith⟩
    calc _ ≤ δ * 3 := mul_le_mul hx this (abs_nonneg _) δ0
      _ = _ := by ring
  obtain ⟨q1, q2⟩ := abs_le.1 hxx
  have ss : s ^ 2 = s * s := pow_two s
  have mlo : 13 / 16 * s ^ 2 ≤ 1 - x ^ 2 := by rw [pow_two x]; linarith
  have hxb : |x| ≤ 1 := (sq_le_one_iff_abs_le_one x).1 (by have := sq_nonneg s; linarith)
  obtain ⟨x3, x4⟩ := abs_le.1 hxb
  refine ⟨x3, x4, ?_⟩
  set a := Real.arccos x with ha
  set b := Real.arccos y with hb
  have ca : Real.cos a = x := Real.cos_arccos x3 x4
  have cb : Real.cos b = y := Real.cos_arccos y1 y2
  have sa : 9 / 10 * s ≤ Real.sin a := by
    rw [ha, Real.sin_arccos]
    exact Real.le_sqrt_of_sq_le (by rw [mul_pow]; have := sq_nonneg s; linarith)
  have sb : Real.sin b = s := by
    rw [hb, Real.sin_arccos, show 1 - y ^ 2 = s * s by rw [pow_two]; linarith]
    exact Real.sqrt_mul_self hs.le
  have a0 : 0 ≤ a := Real.arccos_nonneg x
  have b0 : 0 ≤ b := Real.arccos_nonneg y
  have aπ : a ≤ Real.pi := Real.arccos_le_pi x
  have bπ : b ≤ Real.pi := Real.arccos_le_pi y
  have m0 : 0 ≤ Real.sin ((a + b) / 2) := Real.sin_nonneg_of_nonneg_of_le_pi (by linarith) (by linarith)
  have hm : 19 / 20 * s ≤ Real.sin ((a + b) / 2) := by
    have e : Real.sin a + Real.sin b = 2 * Real.sin ((a + b) / 2) * Real.cos ((a - b) / 2) := Real.sin_add_sin a b
    have : Real.sin ((a + b) / 2) * Real.cos ((a - b) / 2) ≤ Real.sin ((a + b) / 2) * 1 :=
      mul_le_mul_of_nonneg_left (Real.cos_le_one _) m0
    linarith
  have hd : |x - y| = 2 * Real.sin ((a + b) / 2) * |Real.sin ((a - b) / 2)| := by
    rw [← ca, ← cb, Real.cos_sub_cos, abs_mul, abs_mul, abs_of_nonneg m0]
    norm_num
  have hj : 2 / Real.pi * |(a - b) / 2| ≤ |Real.sin ((a - b) / 2)| := by
    refine Real.mul_abs_le_abs_sin ?_
    rw [abs_le]
    constructor <;> linarith
  have p1 : (2 / Real.pi) * Real.pi = 2 := by have := Real.pi_pos; field_simp
  have p2 := Real.pi_lt_d2
  have p3 := Real.pi_pos
  have hpi : (63 / 100 : ℝ) ≤ 2 / Real.pi := by rw [le_div_iff₀ p3]; linarith
  have hj' : 63 / 100 * |(a - b) / 2| ≤ |Real.sin ((a - b) / 2)| := le_trans (mul_le_mul_of_nonneg_right hpi (abs_nonneg _)) hj
  rw [abs_div, abs_two] at hj'
  have hz : 19 / 20 * s * (63 / 100 * (|a - b| / 2)) ≤ Real.sin ((a + b) / 2) * |Real.sin ((a - b) / 2)| :=
    mul_le_mul hm hj' (by positivity) m0
  rw [← mul_div_assoc, le_div_iff₀ hs]
  have n0 := mul_nonneg (abs_nonneg (a - b)) hs.le
  nlinarith

namespace Fl
variable {F : FSys} {ε : ℝ}

/-- A quotient of modulus at most 1. -/
theorem near_quotG {a b : Fl F} {x y A B D : ℝ} (ha : a.Near x A) (hb : b.Near y B) (hy : 0 < y) (hq : |x / y| ≤ 1) (hB : 10 * B ≤ y)
    (hD : (A + B) / (9 / 10 * y) ≤ D) (hD1 : D ≤ 1) : (a / b).Near (x / y) (D + 3 * F.u) := by
  obtain ⟨v, hv, h⟩ := ha
  obtain ⟨w, hw, h'⟩ := hb
  have u0 := F.u_nonneg
  have u1 := F.u_le
  have ηu := F.η_le
  have big := F.big_ge
  have A0 := (abs_nonneg _).trans h
  have B0 := (abs_nonneg _).trans h'
  have wlo : 9 / 10 * y ≤ w := by have := (abs_le.1 h').1; linarith
  have w0 : 0 < w := by linarith
  have hd : |v / w - x / y| ≤ D := by
    have e : v / w - x / y = ((v - x) - (x / y) * (w - y)) / w := by field_simp; ring
    rw [e, abs_div, abs_of_pos w0]
    refine le_trans ?_ hD
    refine div_le_div₀ (by linarith) ?_ (by linarith) wlo
    refine (abs_sub _ _).trans ?_
    rw [abs_mul]
    have := mul_le_mul hq h' (abs_nonneg _) zero_le_one
    linarith
  have hS := near_round (F := F) (w := v / w) (x := x / y) (d := D) (e := D + 3 * F.u) hd (by
    have h1 : F.u * (|x / y| + D) ≤ F.u * (1 + 1) := mul_le_mul_of_nonneg_left (by linarith) u0
    linarith) (by linarith)
  change (⟨F.round (a.val / b.val)⟩ : Fl F).Near _ _
  rw [hv, hw, XReal.fin_div _ w0.ne']
  exact hS

theorem abs_le_of_unit {q : V4 ℝ} (h : IsUnit4 q) : |q.w| ≤ 1 ∧ |q.x| ≤ 1 ∧ |q.y| ≤ 1 ∧ |q.z| ≤ 1 := by
  unfold IsUnit4 at h
  have h0 := mul_self_nonneg q.w
  have h1 := mul_self_nonneg q.x
  have h2 := mul_self_nonneg q.y
  have h3 := mul_self_nonneg q.z
  refine ⟨?_, ?_, ?_, ?_⟩ <;> refine (sq_le_one_iff_abs_le_one _).1 ?_ <;> rw [pow_two] <;> linarith

/-- Norm of a quaternion near a unit one. -/
theorem near_norm4 {q : V4 ℝ} (hq : IsUnit4 q) {q' : V4 (Fl F)} {e : ℝ} (h : Spec.QNear q' q e) (he : 20 * e ≤ 1) :
    q'.norm.Near 1 (2 * e + 24 * F.u) := by
  obtain ⟨⟨x0⟩, ⟨x1⟩, ⟨x2⟩, ⟨x3⟩⟩ := q'
  obtain ⟨⟨v0, e0, h0⟩, ⟨v1, e1, h1⟩, ⟨v2, e2, h2⟩, ⟨v3, e3, h3⟩⟩ := h
  cases e0; cases e1; cases e2; cases e3
  have u0 := F.u_nonneg
  have u1 := F.u_le
  have ηu := F.η_le
  have η0 := F.η_nonneg
  have big := F.big_ge
  have ep := (abs_nonneg _).trans h0
  have lip := sqrt_sum_lip ![v0, v1, v2, v3] ![q.w, q.x, q.y, q.z] (e := e) (m := 2)
    (by intro i; fin_cases i <;> assumption) ep (by norm_num) (by norm_num)
  have sA : Real.sqrt (∑ i, ![q.w, q.x, q.y, q.z] i * ![q.w, q.x, q.y, q.z] i) = 1 := by
    rw [Real.sqrt_eq_one, ← hq]
    simp [Fin.sum_univ_succ]; ring
  have sV : ∑ i, ![v0, v1, v2, v3] i * ![v0, v1, v2, v3] i = v0 * v0 + v1 * v1 + v2 * v2 + v3 * v3 := by
    simp [Fin.sum_univ_succ]; ring
  rw [sA, sV] at lip
  have q0 := mul_self_nonneg v0
  have q1 := mul_self_nonneg v1
  have q2 := mul_self_nonneg v2
  have q3 := mul_self_nonneg v3
  set r := Real.sqrt (v0 * v0 + v1 * v1 + v2 * v2 + v3 * v3) with hr
  have r0 : 0 ≤ r := Real.sqrt_nonneg _
  have rsq : r ^ 2 = v0 * v0 + v1 * v1 + v2 * v2 + v3 * v3 := Real.sq_sqrt (by linarith)
  obtain ⟨l1, l2⟩ := abs_le.1 lip
  have rlo : 9 / 10 ≤ r := by linarith
  have rhi : r ≤ 11 / 10 := by linarith
  have r2 : r ^ 2 ≤ 121 / 100 := by
    have := pow_le_pow_left₀ r0 rhi 2
    norm_num at this ⊢
    exact this
  have s0 : RN 1 (of v0 * of v0 : Fl F) _ := RN.sq (by linarith)
  have s1 : RN 1 (of v1 * of v1 : Fl F) _ := RN.sq (by linarith)
  have s2 : RN 1 (of v2 * of v2 : Fl F) _ := RN.sq (by linarith)
  have s3 : RN 1 (of v3 * of v3 : Fl F) _ := RN.sq (by linarith)
  have t1 := s0.add s1 (m := 3.1) (by norm_num) (by norm_num) (by linarith) (by norm_num) (by norm_num)
  have t2 := t1.add s2 (m := 5.2) (by norm_num) (by norm_num) (by linarith) (by norm_num) (by norm_num)
  have t3 := t2.add s3 (m := 8) (by norm_num) (by norm_num) (by linarith) (by norm_num) (by norm_num)
  rw [← rsq] at t3
  obtain ⟨-, W, hW, hWe⟩ := t3
  have ur : F.u * r ^ 2 ≤ F.u * (121 / 100) := mul_le_mul_of_nonneg_left r2 u0
  have r2lo : (9 / 10 : ℝ) ^ 2 ≤ r ^ 2 := pow_le_pow_left₀ (by norm_num) rlo 2
  have W0 : 0 ≤ W := by have := (abs_le.1 hWe).1; norm_num at r2lo; linarith
  have hs : |Real.sqrt W - r| ≤ 20 * F.u := by
    have e : |Real.sqrt W - r| * (Real.sqrt W + r) = |W - r ^ 2| := by
      have := Real.mul_self_sqrt W0
      rw [← abs_of_pos (show 0 < Real.sqrt W + r by have := Real.sqrt_nonneg W; linarith), ← abs_mul]
      congr 1
      linear_combination this
    have h3 : |Real.sqrt W - r| * (9 / 10) ≤ |Real.sqrt W - r| * (Real.sqrt W + r) :=
      mul_le_mul_of_nonneg_left (by have := Real.sqrt_nonneg W; linarith) (abs_nonneg _)
    linarith
  have hs1 : |Real.sqrt W - 1| ≤ 2 * e + 20 * F.u := by
    rw [show Real.sqrt W - 1 = (Real.sqrt W - r) + (r - 1) by ring]
    exact (abs_add_le _ _).trans (by linarith)
  have hS := near_round (F := F) (w := Real.sqrt W) (x := 1) (d := 2 * e + 20 * F.u) (e := 2 * e + 24 * F.u) hs1 (by
    rw [abs_one]
    have : F.u * (1 + (2 * e + 20 * F.u)) ≤ F.u * 2 := mul_le_mul_of_nonneg_left (by linarith) u0
    linarith) (by rw [abs_one]; linarith)
  change (⟨F.round (Elem.sqrt (of v0 * of v0 + of v1 * of v1 + of v2 * of v2 + of v3 * of v3 : Fl F).val)⟩ : Fl F).Near _ _
  rw [hW, XReal.sqrt_fin W0]
  exact hS

/-- Normalisation of a quaternion near a unit one. -/
theorem near_normalize {q : V4 ℝ} (hq : IsUnit4 q) {q' : V4 (Fl F)} {e : ℝ} (h : Spec.QNear q' q e) (he : 25 * e + 240 * F.u ≤ 1) :
    Spec.QNear (q'.sdiv q'.norm) q (34 / 10 * e + 30 * F.u) := by
  have u0 := F.u_nonneg
  have u1 := F.u_le
  have e0 := h.1.nonneg
  have hn := near_norm4 hq h (by linarith)
  obtain ⟨b0, b1, b2, b3⟩ := abs_le_of_unit hq
  have key : ∀ {a : Fl F} {x : ℝ}, a.Near x e → |x| ≤ 1 → (a / q'.norm).Near x (34 / 10 * e + 30 * F.u) := by
    intro a x ha hx
    have := near_quotG ha hn one_pos (by rwa [div_one]) (by linarith) (D := 34 / 10 * e + 27 * F.u) (by
      rw [div_le_iff₀ (by norm_num)]
      linarith) (by linarith)
    rw [div_one] at this
    exact this.mono (by linarith)
  obtain ⟨k0, k1, k2, k3⟩ := h
  exact ⟨key k0 b0, key k1 b1, key k2 b2, key k3 b3⟩

/-- `arccos` of a number near `y`, `s` being the sine of the angle. -/
theorem near_arccos (hF : Spec.InvAcc F) {a : Fl F} {y s δ : ℝ} (hs : 0 < s) (h : y * y + s * s = 1) (ha : a.Near y δ) (hδ : 16 * δ ≤ s ^ 2) :
    (Elem.arccos a).Near (Real.arccos y) (17 / 10 * (δ / s) + F.u) := by
  obtain ⟨x, hx, h1⟩ := ha
  obtain ⟨h2, h3, h4⟩ := arccos_lip hs h h1 hδ
  refine ⟨F.arccosF x, ?_, ?_⟩
  · change XReal.onFin _ _ a.val = _
    rw [hx]
    simp only [XReal.onFin]
    rw [if_pos ⟨h2, h3⟩]
  · rw [show F.arccosF x - Real.arccos y = (F.arccosF x - Real.arccos x) + (Real.arccos x - Real.arccos y) by ring]
    have := hF.arccos x h2 h3
    exact (abs_add_le _ _).trans (by linarith)

/-- The tolerance of the code. -/
theorem near_1e6 (hη : F.η ≤ F.u * (1 / 1000000)) : (lit (1/1000000) : Fl F).Near (1 / 1000000) (1 / 100000000) := by
  have e6 : (((1/1000000 : ℚ)) : ℝ) = 1/1000000 := by norm_num
  have big := F.big_ge
  have u1 := F.u_le
  exact near_round (F := F) (w := ((1/1000000 : ℚ) : ℝ)) (x := 1 / 1000000) (d := 0) (e := 1 / 100000000) (by rw [e6]; simp) (by
    rw [abs_of_pos (by norm_num)]
    linarith) (by rw [abs_of_pos (by norm_num)]; linarith)

theorem arccos_ge {y s : ℝ} (hs : 0 < s) (h : y * y + s * s = 1) : s ≤ Real.arccos y := by
  have e : Real.sin (Real.arccos y) = s := by
    rw [Real.sin_arccos, show 1 - y ^ 2 = s * s by rw [pow_two]; linarith]
    exact Real.sqrt_mul_self hs.le
  rw [← e]
  exact Real.sin_le (Real.arccos_nonneg _)

theorem sin_arccos_eq {y s : ℝ} (hs : 0 < s) (h : y * y + s * s = 1) : Real.sin (Real.arccos y) = s := by
  rw [Real.sin_arccos, show 1 - y ^ 2 = s * s by rw [pow_two]; linarith]
  exact Real.sqrt_mul_self hs.le

/-- `q2rot` of a quaternion within `ε` of a unit one, `s` being the sine of half the angle. -/
theorem q2rot_near (hF : Spec.InvAcc F) {q : V4 ℝ} (hq : IsUnit4 q) {q' : V4 (Fl F)} (h : Spec.QNear q' q ε) (hu : F.u ≤ ε) {s : ℝ}
    (hs : q.w * q.w + s * s = 1) (hlo : 1 / 500000 ≤ s) (he : 1000 * ε ≤ s ^ 2) (hη : F.η ≤ F.u * (1 / 1000000)) :
    ∃ k' th', q2rot q' = (.array k', th') ∧ Spec.VNear k' (q.vec.sdiv s) (60 * (ε / s ^ 2)) ∧
      th'.Near (2 * Real.arccos q.w) (23 * (ε / s)) := by
  have u0 := F.u_nonneg
  have u1 := F.u_le
  have e0 : 0 ≤ ε := u0.trans hu
  have s0 : 0 < s := by linarith [hlo]
  have s1 : s ≤ 1 := by
    have := mul_self_nonneg q.w
    exact (abs_le.1 ((sq_le_one_iff_abs_le_one s).1 (by rw [pow_two]; linarith))).2
  have D0 : ε ≤ ε / s := by rw [le_div_iff₀ s0]; exact mul_le_of_le_one_right e0 s1
  have D1 : ε / s ≤ s / 1000 := by rw [div_le_iff₀ s0]; rw [pow_two] at he; linarith
  have E0 : ε / s ≤ ε / s ^ 2 := by
    rw [pow_two, ← div_div, le_div_iff₀ s0]; exact mul_le_of_le_one_right (e0.trans D0) s1
  have E1 : ε / s ^ 2 ≤ 1 / 1000 := by rw [div_le_iff₀ (by positivity)]; linarith
  have ED : ε / s ^ 2 * s = ε / s := by field_simp
  obtain ⟨h0, hx, hy, hz⟩ := h
  have hφ := near_arccos hF s0 hs h0 (by linarith)
  have φ0 := Real.arccos_nonneg q.w
  have φπ := Real.arccos_le_pi q.w
  have φs := arccos_ge s0 hs
  have sφ := sin_arccos_eq s0 hs
  have hpi := Real.pi_lt_d2
  set φ := Real.arccos q.w with hφd
  set D := ε / s with hD
  have hφ' : (Elem.arccos q'.w).Near φ (2.7 * D) := hφ.mono (by linarith)
  have huD : F.u ≤ D := hu.trans D0
  have l2 := near_lit (F := F) 2 (S := 2) huD (by linarith) (by norm_num) (by norm_num)
  have e2 : (((2 : ℚ)) : ℝ) = 2 := by norm_num
  rw [e2] at l2
  have φa : |φ| ≤ 3.2 := by rw [abs_of_nonneg φ0]; linarith
  have hth := l2.mulE 23 hφ' huD (by linarith) (M := 2) (N := 3.2) (by norm_num) φa (by norm_num) (by norm_num) (by norm_num) (by norm_num)
  have hhalf := hth.divE 22 l2 huD (by linarith) (Q := 3.2) (c := 1.9) (by rwa [mul_div_cancel_left₀ _ two_ne_zero]) (by norm_num) (by linarith)
    (by norm_num) (by norm_num) (by norm_num) (by norm_num)
  rw [mul_div_cancel_left₀ _ two_ne_zero] at hhalf
  have hsin := hhalf.sin.mono (show 22 * D + F.u ≤ 23 * D by linarith)
  rw [sφ] at hsin
  have nb : ¬ Elem.abs (lit 2 * Elem.arccos q'.w : Fl F) < lit (1/1000000) := by
    intro hlt
    have := hth.abs.lt_real (near_1e6 hη) hlt
    rw [abs_of_nonneg (by linarith : 0 ≤ 2 * φ)] at this
    linarith
  have xle : ∀ {x : ℝ}, x * x ≤ s * s → |x / s| ≤ 1 := by
    intro x hx
    rw [abs_div, abs_of_pos s0, div_le_one s0]
    exact abs_le_of_sq_le_sq (by rw [pow_two, pow_two]; exact hx) s0.le
  have key : ∀ {a : Fl F} {x : ℝ}, a.Near x ε → x * x ≤ s * s → (a / Elem.sin (lit 2 * Elem.arccos q'.w / lit 2)).Near (x / s) (30 * (ε / s ^ 2)) := by
    intro a x ha hx
    refine (near_quotG (ha.mono D0) hsin s0 (xle hx) (by linarith) (D := 27 * (ε / s ^ 2)) ?_ (by linarith)).mono (by linarith)
    rw [div_le_iff₀ (by positivity), show 27 * (ε / s ^ 2) * (9 / 10 * s) = 27 * (9 / 10) * (ε / s ^ 2 * s) by ring, ED]
    linarith
  unfold IsUnit4 at hq
  have p1 := mul_self_nonneg q.x
  have p2 := mul_self_nonneg q.y
  have p3 := mul_self_nonneg q.z
  refine ⟨_, _, if_neg nb, ?_, hth⟩
  exact VNear.mono (vNear_of_entries (v := q.vec.sdiv s) (d := 30 * (ε / s ^ 2)) (key (x := q.x) hx (by linarith)) (key (x := q.y) hy (by linarith))
    (key (x := q.z) hz (by linarith)))
    (by linarith)

/-- Inner product of two quaternions near unit ones. -/
theorem near_dot4 {p q : V4 ℝ} (hp : IsUnit4 p) (hq : IsUnit4 q) {p' q' : V4 (Fl F)} (hu : F.u ≤ ε) (hε : ε ≤ 1 / 1000)
    (h : Spec.QNear p' p (34 * ε)) (k : Spec.QNear q' q (34 * ε)) : (p'.dot q').Near (p.dot q) (302 * ε) := by
  obtain ⟨a0, a1, a2, a3⟩ := abs_le_of_unit hp
  obtain ⟨b0, b1, b2, b3⟩ := abs_le_of_unit hq
  have m : ∀ {a b : Fl F} {x y : ℝ}, a.Near x (34 * ε) → b.Near y (34 * ε) → |x| ≤ 1 → |y| ≤ 1 → (a * b).Near (x * y) (72 * ε) :=
    fun ha hb hx hy => ha.mulE 72 hb hu hε hx hy (by norm_num) (by norm_num) (by norm_num) (by norm_num)
  have c : ∀ {x y : ℝ}, |x| ≤ 1 → |y| ≤ 1 → |x * y| ≤ 1 := by
    intro x y hx hy
    rw [abs_mul]
    exact mul_le_one₀ hx (abs_nonneg _) hy
  obtain ⟨h0, h1, h2, h3⟩ := h
  obtain ⟨k0, k1, k2, k3⟩ := k
  have c0 := c a0 b0
  have c1 := c a1 b1
  have c2 := c a2 b2
  have c3 := c a3 b3
  have s1 : |p.w * q.w + p.x * q.x| ≤ 2 := (abs_add_le _ _).trans (by linarith)
  have s2 : |p.w * q.w + p.x * q.x + p.y * q.y| ≤ 3 := (abs_add_le _ _).trans (by linarith)
  have s3 : |p.w * q.w + p.x * q.x + p.y * q.y + p.z * q.z| ≤ 4 := (abs_add_le _ _).trans (by linarith)
  have t1 := (m h0 k0 a0 b0).addE 148 (m h1 k1 a1 b1) hu (by linarith) s1 (by norm_num) (by norm_num) (by norm_num)
  have t2 := t1.addE 224.5 (m h2 k2 a2 b2) hu (by linarith) s2 (by norm_num) (by norm_num) (by norm_num)
  exact (t2.addE 302 (m h3 k3 a3 b3) hu (by linarith) s3 (by norm_num) (by norm_num) (by norm_num))

/-- The part of `slerp` after the choice of the sign. -/
theorem slerp_comb_near (hF : Spec.InvAcc F) {p q : V4 ℝ} (hp : IsUnit4 p) (hq : IsUnit4 q) {p' q' : V4 (Fl F)} (hu : F.u ≤ ε)
    (h : Spec.QNear p' p (34 * ε)) (k : Spec.QNear q' q (34 * ε)) {s : ℝ} (hs : p.dot q * p.dot q + s * s = 1) (hlo : 1 / 500000 ≤ s)
    (he : 50000 * ε ≤ s ^ 2) (hη : F.η ≤ F.u * (1 / 1000000)) {t : ℝ} (t0 : 0 ≤ t) (t1 : t ≤ 1) :
    ¬ Elem.abs (Elem.arccos (p'.dot q')) < lit (1/1000000) ∧
    Spec.QNear (((V4.smul (Elem.sin ((1 - of t) * Elem.arccos (p'.dot q'))) p') + (V4.smul (Elem.sin (of t * Elem.arccos (p'.dot q'))) q')).sdiv
        (Elem.sin (Elem.arccos (p'.dot q')))) (slerpComb p q (Real.arccos (p.dot q)) t) (1885 * (ε / s ^ 2)) := by
  have u0 := F.u_nonneg
  have u1 := F.u_le
  have ηu := F.η_le
  have big := F.big_ge
  have e0 : 0 ≤ ε := u0.trans hu
  have s0 : 0 < s := by linarith [hlo]
  have s1 : s ≤ 1 := by
    have := mul_self_nonneg (p.dot q)
    exact (abs_le.1 ((sq_le_one_iff_abs_le_one s).1 (by rw [pow_two]; linarith))).2
  have s2 : s ^ 2 ≤ 1 := pow_le_one₀ s0.le s1
  have D0 : ε ≤ ε / s := by rw [le_div_iff₀ s0]; exact mul_le_of_le_one_right e0 s1
  have D1 : ε / s ≤ s / 50000 := by rw [div_le_iff₀ s0]; rw [pow_two] at he; linarith
  have E0 : ε / s ≤ ε / s ^ 2 := by
    rw [pow_two, ← div_div, le_div_iff₀ s0]; exact mul_le_of_le_one_right (e0.trans D0) s1
  have E1 : ε / s ^ 2 ≤ 1 / 50000 := by rw [div_le_iff₀ (by positivity)]; linarith
  have ED : ε / s ^ 2 * s = ε / s := by field_simp
  have hd := near_dot4 hp hq hu (by linarith) h k
  have hθ := near_arccos hF s0 hs hd (by linarith)
  have θ0 := Real.arccos_nonneg (p.dot q)
  have θπ := Real.arccos_le_pi (p.dot q)
  have θs := arccos_ge s0 hs
  have sθ := sin_arccos_eq s0 hs
  have cθ : p.dot q = Real.cos (Real.arccos (p.dot q)) := (Real.cos_arccos (hp.dot_le hq).1 (hp.dot_le hq).2).symm
  have hpi := Real.pi_lt_d2
  obtain ⟨pu, -, -⟩ := slerpComb_props hp hq cθ (by rw [sθ]; exact s0.ne') t
  obtain ⟨c0, c1, c2, c3⟩ := abs_le_of_unit pu
  obtain ⟨a0, a1, a2, a3⟩ := abs_le_of_unit hp
  obtain ⟨b0, b1, b2, b3⟩ := abs_le_of_unit hq
  generalize hψ : (Elem.arccos (p'.dot q') : Fl F) = ψ at *
  generalize hθd : Real.arccos (p.dot q) = θ at *
  generalize hD : ε / s = D at *
  have hψ' : ψ.Near θ (515 * D) := hθ.mono (by rw [mul_div_assoc, hD]; linarith)
  have huD : F.u ≤ D := hu.trans D0
  have θa : |θ| ≤ 3.2 := by rw [abs_of_nonneg θ0]; linarith
  have nt : (of t : Fl F).Near t (2 * D) := (near_of t).mono (by linarith)
  have n1t : (1 - of t : Fl F).Near (1 - t) (2 * D) := by
    have one : (1 : Fl F).Near 1 0 := ⟨1, rfl, by simp⟩
    have ht : |1 - t| ≤ 1 := abs_le.2 ⟨by linarith, by linarith⟩
    refine one.sub (near_of t) ?_ (by linarith)
    have : F.u * (|1 - t| + (0 + 0)) ≤ F.u * 1 := mul_le_mul_of_nonneg_left (by linarith) u0
    linarith
  have ar : ∀ {a : Fl F} {x : ℝ}, a.Near x (2 * D) → |x| ≤ 1 → (Elem.sin (a * ψ)).Near (Real.sin (x * θ)) (529 * D) := by
    intro a x ha hx
    exact (ha.mulE 528 hψ' huD (by linarith) hx θa (by norm_num) (by norm_num) (by norm_num) (by norm_num)).sin.mono (by linarith)
  have f0 := ar n1t (abs_le.2 ⟨by linarith, by linarith⟩)
  have f1 := ar nt (abs_le.2 ⟨by linarith, by linarith⟩)
  have hden := hψ'.sin.mono (show 515 * D + F.u ≤ 516 * D by linarith)
  rw [sθ] at hden
  refine ⟨fun hlt => ?_, ?_⟩
  · have := hψ'.abs.lt_real (near_1e6 hη) hlt
    rw [abs_of_nonneg θ0] at this
    linarith
  have comp : ∀ {a b : Fl F} {x y : ℝ}, a.Near x (34 * ε) → b.Near y (34 * ε) → |x| ≤ 1 → |y| ≤ 1 →
      |(Real.sin ((1 - t) * θ) * x + Real.sin (t * θ) * y) / s| ≤ 1 →
      ((Elem.sin ((1 - of t) * ψ) * a + Elem.sin (of t * ψ) * b) / Elem.sin ψ).Near
        ((Real.sin ((1 - t) * θ) * x + Real.sin (t * θ) * y) / s) (1885 * (ε / s ^ 2)) := by
    intro a b x y ha hb hx hy hc
    have h34 : 34 * ε ≤ 34 * D := by linarith
    have g0 := f0.mulE 584 (ha.mono h34) huD (by linarith) (Real.abs_sin_le_one _) hx (by norm_num) (by norm_num) (by norm_num) (by norm_num)
    have g1 := f1.mulE 584 (hb.mono h34) huD (by linarith) (Real.abs_sin_le_one _) hy (by norm_num) (by norm_num) (by norm_num) (by norm_num)
    have c : ∀ {x y : ℝ}, |x| ≤ 1 → |y| ≤ 1 → |x * y| ≤ 1 := by
      intro x y hx hy
      rw [abs_mul]
      exact mul_le_one₀ hx (abs_nonneg _) hy
    have g2 := g0.addE 1175 g1 huD (by linarith) (S := 2) ((abs_add_le _ _).trans (by
      have := c (Real.abs_sin_le_one ((1 - t) * θ)) hx
      have := c (Real.abs_sin_le_one (t * θ)) hy
      linarith)) (by norm_num) (by norm_num) (by norm_num)
    refine (near_quotG g2 hden s0 hc (by linarith) (D := 1882 * (ε / s ^ 2)) ?_ (by linarith)).mono (by linarith)
    rw [div_le_iff₀ (by positivity), show 1882 * (ε / s ^ 2) * (9 / 10 * s) = 1882 * (9 / 10) * (ε / s ^ 2 * s) by ring, ED]
    linarith
  obtain ⟨h0, h1, h2, h3⟩ := h
  obtain ⟨k0, k1, k2, k3⟩ := k
  unfold slerpComb at *
  rw [sθ] at *
  exact ⟨comp h0 k0 a0 b0 c0, comp h1 k1 a1 b1 c1, comp h2 k2 a2 b2 c2, comp h3 k3 a3 b3 c3⟩

/-- `slerp` of quaternions within `ε` of unit ones, `s` being the sine of the angle between them. -/
theorem slerp_near (hF : Spec.InvAcc F) {q0 q1 : V4 ℝ} (h0 : IsUnit4 q0) (h1 : IsUnit4 q1) {q0' q1' : V4 (Fl F)} (hu : F.u ≤ ε)
    (k0 : Spec.QNear q0' q0 ε) (k1 : Spec.QNear q1' q1 ε) {s : ℝ} (hs : q0.dot q1 * q0.dot q1 + s * s = 1) (hlo : 1 / 500000 ≤ s)
    (he : 50000 * ε ≤ s ^ 2) (hη : F.η ≤ F.u * (1 / 1000000)) {t : ℝ} (t0 : 0 ≤ t) (t1 : t ≤ 1) :
    ∃ q' u0, slerp q0' q1' (of t) = .ok q' ∧ (u0 = q0 ∨ u0 = -q0) ∧ -(302 * ε) ≤ u0.dot q1 ∧
      Spec.QNear q' (slerpComb u0 q1 (Real.arccos (u0.dot q1)) t) (6500 * (ε / s ^ 2)) := by
  have un := F.u_nonneg
  have e0 : 0 ≤ ε := un.trans hu
  have s0 : 0 < s := by linarith [hlo]
  have s1 : s ^ 2 ≤ 1 := by have := mul_self_nonneg (q0.dot q1); rw [pow_two]; linarith
  have E0 : ε ≤ ε / s ^ 2 := by rw [le_div_iff₀ (by positivity)]; exact mul_le_of_le_one_right e0 s1
  have E1 : ε / s ^ 2 ≤ 1 / 50000 := by rw [div_le_iff₀ (by positivity)]; linarith
  have nm : ∀ {q : V4 ℝ} {q' : V4 (Fl F)}, IsUnit4 q → Spec.QNear q' q ε → Spec.QNear (q'.sdiv q'.norm) q (34 * ε) := by
    intro q q' h k
    obtain ⟨n0, n1, n2, n3⟩ := near_normalize h k (by linarith)
    have : 34 / 10 * ε + 30 * F.u ≤ 34 * ε := by linarith
    exact ⟨n0.mono this, n1.mono this, n2.mono this, n3.mono this⟩
  have n0 := nm h0 k0
  have n1 := nm h1 k1
  have hd := near_dot4 h0 h1 hu (by linarith) n0 n1
  have ht : (0 : Fl F) ≤ of t ∧ (of t : Fl F) ≤ 1 := ⟨(XReal.fin_le ..).2 t0, (XReal.fin_le ..).2 t1⟩
  have fin : ∀ {p : V4 ℝ} {p' : V4 (Fl F)}, IsUnit4 p → Spec.QNear p' p (34 * ε) → p.dot q1 * p.dot q1 + s * s = 1 →
      p' = (if (q0'.sdiv q0'.norm).dot (q1'.sdiv q1'.norm) < 0 then -(q0'.sdiv q0'.norm) else q0'.sdiv q0'.norm) →
      ∃ q', slerp q0' q1' (of t) = .ok q' ∧ Spec.QNear q' (slerpComb p q1 (Real.arccos (p.dot q1)) t) (6500 * (ε / s ^ 2)) := by
    intro p p' hp hp' hps e
    obtain ⟨nb, hc⟩ := slerp_comb_near hF hp h1 hu hp' n1 hps hlo he hη t0 t1
    have cθ : p.dot q1 = Real.cos (Real.arccos (p.dot q1)) := (Real.cos_arccos (hp.dot_le h1).1 (hp.dot_le h1).2).symm
    obtain ⟨pu, -, -⟩ := slerpComb_props hp h1 cθ (by rw [sin_arccos_eq s0 hps]; exact s0.ne') t
    obtain ⟨m0, m1, m2, m3⟩ := near_normalize pu hc (by linarith)
    have hb : 34 / 10 * (1885 * (ε / s ^ 2)) + 30 * F.u ≤ 6500 * (ε / s ^ 2) := by linarith
    refine ⟨_, ?_, m0.mono hb, m1.mono hb, m2.mono hb, m3.mono hb⟩
    unfold slerp
    rw [if_pos ht]
    dsimp only
    rw [← e, if_neg nb]
  have zero : (0 : Fl F).Near 0 0 := ⟨0, rfl, by simp⟩
  by_cases hlt : (q0'.sdiv q0'.norm).dot (q1'.sdiv q1'.norm) < 0
  · have hneg : (-q0).dot q1 = -(q0.dot q1) := by simp [V4.dot]; ring
    obtain ⟨m0, m1, m2, m3⟩ := n0
    obtain ⟨q', h2, h3⟩ := fin h0.neg (p' := -(q0'.sdiv q0'.norm)) ⟨m0.neg, m1.neg, m2.neg, m3.neg⟩ (by rw [hneg]; linarith) (by rw [if_pos hlt])
    have := hd.lt_real zero hlt
    exact ⟨q', -q0, h2, Or.inr rfl, by rw [hneg]; linarith, h3⟩
  · obtain ⟨q', h2, h3⟩ := fin h0 n0 hs (by rw [if_neg hlt])
    have := hd.not_lt_real zero hlt
    exact ⟨q', q0, h2, Or.inl rfl, by linarith, h3⟩

end Fl
