import Verif.Lemmas.FlRot

/-! # Rounding error rules with errors counted in a unit `ε ≥ u` -/
set_option autoImplicit false

namespace Fl
variable {F : FSys} {ε : ℝ}

theorem round_lem {D X k S m : ℝ} (hu : F.u ≤ ε) (hD : D ≤ k * ε) (hX : X ≤ S) (h0 : 0 ≤ D)
    (hm : k * (1 + 1 / 1024) + S + 1 ≤ m) (hS : 0 ≤ S) : D + F.u * (X + D) + F.η ≤ m * ε := by
  have h1 := F.u_nonneg
  have h2 := F.u_le
  have h3 := F.η_le
  have hε : 0 ≤ ε := h1.trans hu
  have e1 : F.u * X ≤ S * ε := (mul_le_mul_of_nonneg_left hX h1).trans (by rw [mul_comm]; exact mul_le_mul_of_nonneg_left hu hS)
  have e2 : F.u * D ≤ 1 / 1024 * D := mul_le_mul_of_nonneg_right h2 h0
  have e3 := mul_le_mul_of_nonneg_right hm hε
  nlinarith

theorem big_lem {X S m : ℝ} (hε : ε ≤ 1) (h0 : 0 ≤ ε) (hX : X ≤ S) (hm : 0 ≤ m) (hb : S + m ≤ 1000000) : X + m * ε ≤ F.big := by
  have := F.big_ge
  have : m * ε ≤ m * 1 := mul_le_mul_of_nonneg_left hε hm
  linarith

theorem Near.addE {a b : Fl F} {x y k l S : ℝ} (m : ℝ) (ha : a.Near x (k * ε)) (hb : b.Near y (l * ε)) (hu : F.u ≤ ε) (hε : ε ≤ 1)
    (hS : |x + y| ≤ S) (hm : (k + l) * (1 + 1 / 1024) + S + 1 ≤ m) (hbig : S + m ≤ 1000000) (hm0 : 0 ≤ m) :
    (a + b).Near (x + y) (m * ε) :=
  ha.add hb (round_lem (k := k + l) hu (by linarith) hS (add_nonneg ha.nonneg hb.nonneg) hm ((abs_nonneg _).trans hS))
    (big_lem hε (F.u_nonneg.trans hu) hS hm0 hbig)

theorem Near.subE {a b : Fl F} {x y k l S : ℝ} (m : ℝ) (ha : a.Near x (k * ε)) (hb : b.Near y (l * ε)) (hu : F.u ≤ ε) (hε : ε ≤ 1)
    (hS : |x - y| ≤ S) (hm : (k + l) * (1 + 1 / 1024) + S + 1 ≤ m) (hbig : S + m ≤ 1000000) (hm0 : 0 ≤ m) :
    (a - b).Near (x - y) (m * ε) :=
  ha.sub hb (round_lem (k := k + l) hu (by linarith) hS (add_nonneg ha.nonneg hb.nonneg) hm ((abs_nonneg _).trans hS))
    (big_lem hε (F.u_nonneg.trans hu) hS hm0 hbig)

theorem Near.mulE {a b : Fl F} {x y k l M N : ℝ} (m : ℝ) (ha : a.Near x (k * ε)) (hb : b.Near y (l * ε)) (hu : F.u ≤ ε) (hε : ε ≤ 1 / 1000)
    (hM : |x| ≤ M) (hN : |y| ≤ N) (hk : 0 ≤ k) (hl : 0 ≤ l)
    (hm : (M * l + N * k + k * l / 1000) * (1 + 1 / 1024) + M * N + 1 ≤ m) (hbig : M * N + m ≤ 1000000) :
    (a * b).Near (x * y) (m * ε) := by
  have h0 : 0 ≤ ε := F.u_nonneg.trans hu
  have hM0 := (abs_nonneg x).trans hM
  have hN0 := (abs_nonneg y).trans hN
  have hxy : |x * y| ≤ M * N := by rw [abs_mul]; exact mul_le_mul hM hN (abs_nonneg _) hM0
  have hd : 0 ≤ |x| * (l * ε) + |y| * (k * ε) + (k * ε) * (l * ε) := by positivity
  refine ha.mul hb (round_lem (k := M * l + N * k + k * l / 1000) hu ?_ hxy hd hm (by positivity)) (big_lem (by linarith) h0 hxy ?_ hbig)
  · have e1 : |x| * (l * ε) ≤ M * (l * ε) := mul_le_mul_of_nonneg_right hM (by positivity)
    have e2 : |y| * (k * ε) ≤ N * (k * ε) := mul_le_mul_of_nonneg_right hN (by positivity)
    have e3 : (k * ε) * (l * ε) ≤ k * l / 1000 * ε := by
      have : (k * l * ε) * ε ≤ (k * l * ε) * (1 / 1000) := mul_le_mul_of_nonneg_left hε (by positivity)
      linarith
    linarith
  · refine le_trans ?_ hm
    positivity

/-- Division by a number at least `c` after its error. -/
theorem Near.divE {a b : Fl F} {x y k l Q c : ℝ} (m : ℝ) (ha : a.Near x (k * ε)) (hb : b.Near y (l * ε)) (hu : F.u ≤ ε) (hε : ε ≤ 1)
    (hQ : |x / y| ≤ Q) (hc : 0 < c) (hy : c + l * ε ≤ y) (hm : ((k + Q * l) / c) * (1 + 1 / 1024) + Q + 1 ≤ m) (hbig : Q + m ≤ 1000000)
    (hk : 0 ≤ k) (hl : 0 ≤ l) : (a / b).Near (x / y) (m * ε) := by
  obtain ⟨v, hv, h⟩ := ha
  obtain ⟨w, hw, h'⟩ := hb
  have h0 : 0 ≤ ε := F.u_nonneg.trans hu
  have hQ0 := (abs_nonneg _).trans hQ
  have hwc : c ≤ w := by have := (abs_le.1 h').1; linarith
  have hw0 : 0 < w := hc.trans_le hwc
  have hy0 : 0 < y := by nlinarith
  have hd : |v / w - x / y| ≤ (k + Q * l) / c * ε := by
    have : v / w - x / y = ((v - x) - x / y * (w - y)) / w := by field_simp; ring
    rw [this, abs_div, abs_of_pos hw0, div_le_iff₀ hw0]
    have t1 : |(v - x) - x / y * (w - y)| ≤ k * ε + Q * (l * ε) := by
      refine (abs_sub _ _).trans (add_le_add h ?_)
      rw [abs_mul]
      exact mul_le_mul hQ h' (abs_nonneg _) hQ0
    have t2 : (k + Q * l) / c * ε * c ≤ (k + Q * l) / c * ε * w := mul_le_mul_of_nonneg_left hwc (by positivity)
    have t3 : (k + Q * l) / c * ε * c = (k + Q * l) * ε := by field_simp
    linarith
  have hX : |x / y| ≤ Q := hQ
  have := near_round (F := F) (w := v / w) (x := x / y) (d := (k + Q * l) / c * ε) (e := m * ε) hd
    (round_lem (k := (k + Q * l) / c) hu le_rfl hX (by positivity) hm hQ0)
    (big_lem hε h0 hX (le_trans (by positivity) hm) hbig)
  change (⟨F.round (a.val / b.val)⟩ : Fl F).Near _ _
  rw [hv, hw, XReal.fin_div _ hw0.ne']
  exact this

/-- Square root of a number at least `c ^ 2`. -/
theorem Near.sqrtE {a : Fl F} {x k c S : ℝ} (m : ℝ) (ha : a.Near x (k * ε)) (hu : F.u ≤ ε) (hε : ε ≤ 1) (hc : 0 < c) (hx : c ^ 2 ≤ x)
    (hx' : k * ε ≤ x) (hS : x ≤ S ^ 2) (hS0 : 0 ≤ S) (hk : 0 ≤ k) (hm : (k / c) * (1 + 1 / 1024) + S + 1 ≤ m) (hbig : S + m ≤ 1000000) :
    (Elem.sqrt a).Near (Real.sqrt x) (m * ε) := by
  obtain ⟨v, hv, h⟩ := ha
  have h0 : 0 ≤ ε := F.u_nonneg.trans hu
  have hv0 : 0 ≤ v := by have := (abs_le.1 h).1; linarith
  have hx0 : 0 ≤ x := le_trans (by positivity) hx
  have hcx : c ≤ Real.sqrt x := Real.le_sqrt_of_sq_le hx
  have hd : |Real.sqrt v - Real.sqrt x| ≤ k / c * ε := by
    have e : (Real.sqrt v - Real.sqrt x) * (Real.sqrt v + Real.sqrt x) = v - x := by
      have := Real.mul_self_sqrt hv0
      have := Real.mul_self_sqrt hx0
      linarith
    have e2 : |Real.sqrt v - Real.sqrt x| * (Real.sqrt v + Real.sqrt x) = |v - x| := by
      rw [← e, abs_mul, abs_of_nonneg (add_nonneg (Real.sqrt_nonneg v) (Real.sqrt_nonneg x))]
    have e3 : |Real.sqrt v - Real.sqrt x| * c ≤ |Real.sqrt v - Real.sqrt x| * (Real.sqrt v + Real.sqrt x) :=
      mul_le_mul_of_nonneg_left (by have := Real.sqrt_nonneg v; linarith) (abs_nonneg _)
    rw [div_mul_eq_mul_div, le_div_iff₀ hc]
    linarith
  have hX : |Real.sqrt x| ≤ S := by
    rw [abs_of_nonneg (Real.sqrt_nonneg x)]
    exact Real.sqrt_le_iff.2 ⟨hS0, hS⟩
  have := near_round (F := F) (w := Real.sqrt v) (x := Real.sqrt x) (d := k / c * ε) (e := m * ε) hd
    (round_lem (k := k / c) hu le_rfl hX (by positivity) hm hS0) (big_lem hε h0 hX (le_trans (by positivity) hm) hbig)
  change (⟨F.round (Elem.sqrt a.val)⟩ : Fl F).Near _ _
  rw [hv, XReal.sqrt_fin hv0]
  exact this

theorem near_lit (q : ℚ) {S : ℝ} (hu : F.u ≤ ε) (hε : ε ≤ 1) (hS : |(q : ℝ)| ≤ S) (hbig : S + (S + 1) ≤ 1000000) :
    (lit q : Fl F).Near (q : ℝ) ((S + 1) * ε) := by
  have hS0 := (abs_nonneg _).trans hS
  exact near_round (F := F) (w := (q : ℝ)) (d := 0) (by simp) (round_lem (k := 0) hu (by simp) hS le_rfl (by linarith) hS0)
    (big_lem hε (F.u_nonneg.trans hu) hS (by linarith) hbig)

end Fl
