import Verif.Lemmas.FlRpy
import Verif.Lemmas.FlQuat
import Verif.Lemmas.R2rot
import Mathlib.Analysis.InnerProductSpace.PiL2

/-! # Rounding error of `R2rot` -/
set_option autoImplicit false

/-- Change of a root of a sum of squares. -/
theorem sqrt_sum_lip {n : ℕ} (f g : Fin n → ℝ) {e m : ℝ} (h : ∀ i, |f i - g i| ≤ e) (he : 0 ≤ e) (hm : 0 ≤ m) (hn : n ≤ m ^ 2) :
    |Real.sqrt (∑ i, f i * f i) - Real.sqrt (∑ i, g i * g i)| ≤ m * e := by
  have n' : ∀ f : Fin n → ℝ, Real.sqrt (∑ i, f i * f i) = ‖(WithLp.toLp 2 f : EuclideanSpace ℝ (Fin n))‖ := by
    intro f
    rw [EuclideanSpace.norm_eq]
    congr 1
    refine Finset.sum_congr rfl fun i _ => ?_
    rw [Real.norm_eq_abs, sq_abs, pow_two]
  rw [n', n']
  refine (abs_norm_sub_norm_le _ _).trans ?_
  rw [← WithLp.toLp_sub, ← n']
  refine Real.sqrt_le_iff.2 ⟨by positivity, ?_⟩
  calc ∑ i, (f - g) i * (f - g) i ≤ ∑ _i : Fin n, e * e := by
        refine Finset.sum_le_sum fun i _ => ?_
        rw [Pi.sub_apply, ← abs_mul_abs_self]
        exact mul_le_mul (h i) (h i) (abs_nonneg _) he
    _ = n * (e * e) := by simp
    _ ≤ m ^ 2 * (e * e) := mul_le_mul_of_nonneg_right hn (mul_self_nonneg e)
    _ = (m * e) ^ 2 := by ring

/-- Change of a root of a sum of nine squares. -/
theorem sqrt9_lip (f g : Fin 9 → ℝ) {e : ℝ} (h : ∀ i, |f i - g i| ≤ e) :
    |Real.sqrt (∑ i, f i * f i) - Real.sqrt (∑ i, g i * g i)| ≤ 3 * e :=
  sqrt_sum_lip f g h ((abs_nonneg _).trans (h 0)) (by norm_num) (by norm_num)

namespace Fl
variable {F : FSys} {ε : ℝ}

/-- A non-negative number with relative error `k u`, up to underflow. -/
def RN (k : ℝ) (a : Fl F) (x : ℝ) : Prop := 0 ≤ x ∧ a.Near x (k * (F.u * x + F.η))

theorem RN.sq {v : ℝ} (h : v * v ≤ 100) : RN 1 (of v * of v : Fl F) (v * v) := by
  have u1 := F.u_le
  have η1 := F.η_le
  have big := F.big_ge
  have xx := mul_self_nonneg v
  have : F.u * (v * v) ≤ 1 / 1024 * 100 := mul_le_mul u1 h xx (by norm_num)
  refine ⟨xx, (near_of v).mul (near_of v) ?_ ?_⟩
  · rw [abs_of_nonneg xx]; simp
  · rw [abs_of_nonneg xx]; linarith

theorem RN.add {k l m x y : ℝ} {a b : Fl F} (ha : RN k a x) (hb : RN l b y) (hk : 0 ≤ k) (hl : 0 ≤ l) (hxy : x + y ≤ 1000)
    (hm : (k + l) * (1 + 1 / 1024) + 1 ≤ m) (hm' : m ≤ 1000) : RN m (a + b) (x + y) := by
  obtain ⟨x0, ha⟩ := ha
  obtain ⟨y0, hb⟩ := hb
  have u0 := F.u_nonneg
  have u1 := F.u_le
  have η0 := F.η_nonneg
  have η1 := F.η_le
  have big := F.big_ge
  have ux : 0 ≤ F.u * x := mul_nonneg u0 x0
  have uy : 0 ≤ F.u * y := mul_nonneg u0 y0
  set E := F.u * (x + y) + F.η with hE
  have E0 : 0 ≤ E := by rw [hE]; positivity
  have kx : k * (F.u * x + F.η) ≤ k * E := mul_le_mul_of_nonneg_left (by rw [hE]; linarith) hk
  have ly : l * (F.u * y + F.η) ≤ l * E := mul_le_mul_of_nonneg_left (by rw [hE]; linarith) hl
  have klE : 0 ≤ (k + l) * E := by positivity
  have uk : F.u * (k * (F.u * x + F.η) + l * (F.u * y + F.η)) ≤ 1 / 1024 * ((k + l) * E) :=
    (mul_le_mul_of_nonneg_left (show _ ≤ (k + l) * E by linarith) u0).trans (mul_le_mul_of_nonneg_right u1 klE)
  have mE := mul_le_mul_of_nonneg_right hm E0
  have hs : |x + y| = x + y := abs_of_nonneg (by linarith)
  refine ⟨by linarith, ha.add hb ?_ ?_⟩
  · rw [hs, mul_add]; linarith
  · rw [hs]
    have h1 : F.u * (x + y) ≤ 1 / 1024 * 1000 := mul_le_mul u1 hxy (by linarith) (by norm_num)
    have h2 : E ≤ 2 := by rw [hE]; linarith
    have h3 : m * E ≤ 1000 * 2 := mul_le_mul hm' h2 E0 (by norm_num)
    linarith

/-- Square root of such a number. -/
theorem RN.sqrt {a : Fl F} {r : ℝ} (h : RN 18 a (r ^ 2)) (hr : 0 < r) (hr' : r ≤ 10) (hη : F.η ≤ F.u * r ^ 2) :
    (Elem.sqrt a).Near r (39 * (F.u * r)) := by
  obtain ⟨-, W, hW, hWe⟩ := h
  have u0 := F.u_nonneg
  have u1 := F.u_le
  have big := F.big_ge
  have ur2 : F.u * r ^ 2 ≤ 1 / 1024 * r ^ 2 := mul_le_mul_of_nonneg_right u1 (sq_nonneg r)
  have r2 := sq_nonneg r
  have tot : 18 * (F.u * r ^ 2 + F.η) ≤ 36 * (F.u * r ^ 2) := by linarith
  have W0 : 0 ≤ W := by have := (abs_le.1 hWe).1; linarith
  have ur : 0 ≤ F.u * r := mul_nonneg u0 hr.le
  have hs : |Real.sqrt W - r| ≤ 36 * (F.u * r) := by
    have e : |Real.sqrt W - r| * (Real.sqrt W + r) = |W - r ^ 2| := by
      have := Real.mul_self_sqrt W0
      rw [← abs_of_pos (show 0 < Real.sqrt W + r by have := Real.sqrt_nonneg W; linarith), ← abs_mul]
      congr 1
      linear_combination this
    have h3 : |Real.sqrt W - r| * r ≤ |Real.sqrt W - r| * (Real.sqrt W + r) :=
      mul_le_mul_of_nonneg_left (by have := Real.sqrt_nonneg W; linarith) (abs_nonneg _)
    have h4 : |Real.sqrt W - r| * r ≤ (36 * (F.u * r)) * r := by
      have : (36 * (F.u * r)) * r = 36 * (F.u * r ^ 2) := by ring
      linarith
    exact le_of_mul_le_mul_right h4 hr
  have uur : F.u * (36 * (F.u * r)) ≤ 1 / 1024 * (36 * (F.u * r)) := mul_le_mul_of_nonneg_right u1 (by positivity)
  have η' : F.η ≤ 5 / 2 * (F.u * r) ∨ 1 < r := by
    rcases le_or_gt r 1 with h | h
    · left
      have : (F.u * r) * r ≤ (F.u * r) * 1 := mul_le_mul_of_nonneg_left h ur
      have e : F.u * r ^ 2 = (F.u * r) * r := by ring
      linarith
    · exact Or.inr h
  have η'' : F.η ≤ F.u * r := by
    rcases le_or_gt r 1 with h | h
    · have : (F.u * r) * r ≤ (F.u * r) * 1 := mul_le_mul_of_nonneg_left h ur
      have e : F.u * r ^ 2 = (F.u * r) * r := by ring
      linarith
    · have : F.u * 1 ≤ F.u * r := mul_le_mul_of_nonneg_left h.le u0
      have := F.η_le
      linarith
  have hb : F.u * r ≤ 1 / 1024 * 10 := mul_le_mul u1 hr' hr.le (by norm_num)
  have hS := near_round (F := F) (w := Real.sqrt W) (x := r) (d := 36 * (F.u * r)) (e := 39 * (F.u * r)) hs (by
    rw [abs_of_pos hr, mul_add]; linarith) (by rw [abs_of_pos hr]; linarith)
  change (⟨F.round (Elem.sqrt a.val)⟩ : Fl F).Near _ _
  rw [hW, XReal.sqrt_fin W0]
  exact hS

/-- Sum of non-negative numbers. -/
theorem nonneg_add {a b : Fl F} {x y e f g : ℝ} (ha : a.Near x e) (hb : b.Near y f) (hab : (a + b).Near (x + y) g) (ha0 : 0 ≤ a) (hb0 : 0 ≤ b) :
    0 ≤ a + b := by
  obtain ⟨v, hv, -⟩ := ha
  obtain ⟨w, hw, -⟩ := hb
  obtain ⟨z, hz, -⟩ := hab
  have ha0 : XReal.fin 0 ≤ a.val := ha0
  have hb0 : XReal.fin 0 ≤ b.val := hb0
  rw [hv, XReal.fin_le] at ha0
  rw [hw, XReal.fin_le] at hb0
  change XReal.fin 0 ≤ (a + b).val
  rw [hz, XReal.fin_le]
  have e1 : F.round (a.val + b.val) = .fin z := hz
  rw [hv, hw, XReal.fin_add] at e1
  unfold FSys.round at e1
  dsimp only at e1
  split_ifs at e1
  injection e1 with e1
  rw [← e1]
  exact F.rnd_nonneg _ (add_nonneg ha0 hb0)

theorem nonneg_sq {v e : ℝ} (h : (of v * of v : Fl F).Near (v * v) e) : 0 ≤ (of v * of v : Fl F) := by
  obtain ⟨z, hz, -⟩ := h
  change XReal.fin 0 ≤ (of v * of v : Fl F).val
  rw [hz, XReal.fin_le]
  have e1 : F.round (XReal.fin v * XReal.fin v) = .fin z := hz
  rw [XReal.fin_mul] at e1
  unfold FSys.round at e1
  dsimp only at e1
  split_ifs at e1
  injection e1 with e1
  rw [← e1]
  exact F.rnd_nonneg _ (mul_self_nonneg v)

/-- Root of a small sum of squares. -/
theorem RN.sqrt_small {a : Fl F} {r : ℝ} (h : RN 18 a (r ^ 2)) (ha : 0 ≤ a) (hr : 0 ≤ r) (hr' : r ≤ 1) (hη : F.η ≤ 1 / 1000000000000000000000) :
    (Elem.sqrt a).Near 0 (11 / 10 * r + 1 / 1000000000) := by
  obtain ⟨-, W, hW, hWe⟩ := h
  have u0 := F.u_nonneg
  have u1 := F.u_le
  have big := F.big_ge
  have η0 := F.η_nonneg
  have W0 : 0 ≤ W := by
    have : XReal.fin 0 ≤ a.val := ha
    rwa [hW, XReal.fin_le] at this
  have ur2 : F.u * r ^ 2 ≤ 1 / 1024 * r ^ 2 := mul_le_mul_of_nonneg_right u1 (sq_nonneg r)
  have r2 := sq_nonneg r
  have hs : Real.sqrt W ≤ 1.01 * r + 1 / 5000000000 := by
    refine Real.sqrt_le_iff.2 ⟨by positivity, ?_⟩
    have h1 := (abs_le.1 hWe).2
    have h2 : (1.01 * r + 1 / 5000000000) ^ 2 = 1.0201 * r ^ 2 + 2 * 1.01 * (1 / 5000000000) * r + 1 / 25000000000000000000 := by ring
    rw [h2]
    linarith
  have hS := near_round (F := F) (w := Real.sqrt W) (x := 0) (d := 1.01 * r + 1 / 5000000000) (e := 11 / 10 * r + 1 / 1000000000)
    (by rw [sub_zero, abs_of_nonneg (Real.sqrt_nonneg _)]; exact hs) (by
    rw [abs_zero, zero_add]
    have := mul_le_mul_of_nonneg_right u1 (show 0 ≤ 1.01 * r + 1 / 5000000000 by positivity)
    linarith) (by rw [abs_zero]; linarith)
  change (⟨F.round (Elem.sqrt a.val)⟩ : Fl F).Near _ _
  rw [hW, XReal.sqrt_fin W0]
  exact hS

/-- The sum of squares in the Frobenius norm. -/
theorem frob_parts {A : M3 ℝ} {A' : M3 (Fl F)} {e : ℝ} (h00 : A'.a00.Near A.a00 e) (h01 : A'.a01.Near A.a01 e)
    (h02 : A'.a02.Near A.a02 e) (h10 : A'.a10.Near A.a10 e) (h11 : A'.a11.Near A.a11 e) (h12 : A'.a12.Near A.a12 e)
    (h20 : A'.a20.Near A.a20 e) (h21 : A'.a21.Near A.a21 e) (h22 : A'.a22.Near A.a22 e) (hA : A.frob ≤ 4) (he : 6 * e ≤ 4) :
    ∃ (a : Fl F) (r : ℝ), A'.frob = Elem.sqrt a ∧ 0 ≤ a ∧ 0 ≤ r ∧ |r - A.frob| ≤ 3 * e ∧ RN 18 a (r ^ 2) := by
  obtain ⟨⟨x00⟩, ⟨x01⟩, ⟨x02⟩, ⟨x10⟩, ⟨x11⟩, ⟨x12⟩, ⟨x20⟩, ⟨x21⟩, ⟨x22⟩⟩ := A'
  obtain ⟨v00, e00, h00⟩ := h00
  obtain ⟨v01, e01, h01⟩ := h01
  obtain ⟨v02, e02, h02⟩ := h02
  obtain ⟨v10, e10, h10⟩ := h10
  obtain ⟨v11, e11, h11⟩ := h11
  obtain ⟨v12, e12, h12⟩ := h12
  obtain ⟨v20, e20, h20⟩ := h20
  obtain ⟨v21, e21, h21⟩ := h21
  obtain ⟨v22, e22, h22⟩ := h22
  cases e00; cases e01; cases e02; cases e10; cases e11; cases e12; cases e20; cases e21; cases e22
  have u0 := F.u_nonneg
  have lip := sqrt9_lip ![v00, v01, v02, v10, v11, v12, v20, v21, v22] ![A.a00, A.a01, A.a02, A.a10, A.a11, A.a12, A.a20, A.a21, A.a22] (e := e)
    (by intro i; fin_cases i <;> assumption)
  have sA : Real.sqrt (∑ i, ![A.a00, A.a01, A.a02, A.a10, A.a11, A.a12, A.a20, A.a21, A.a22] i *
      ![A.a00, A.a01, A.a02, A.a10, A.a11, A.a12, A.a20, A.a21, A.a22] i) = A.frob := by
    simp [Fin.sum_univ_succ, M3.frob]
    congr 1; ring
  have sV : ∑ i, ![v00, v01, v02, v10, v11, v12, v20, v21, v22] i * ![v00, v01, v02, v10, v11, v12, v20, v21, v22] i =
      v00 * v00 + v01 * v01 + v02 * v02 + v10 * v10 + v11 * v11 + v12 * v12 + v20 * v20 + v21 * v21 + v22 * v22 := by
    simp [Fin.sum_univ_succ]; ring
  rw [sA, sV] at lip
  have q00 := mul_self_nonneg v00
  have q01 := mul_self_nonneg v01
  have q02 := mul_self_nonneg v02
  have q10 := mul_self_nonneg v10
  have q11 := mul_self_nonneg v11
  have q12 := mul_self_nonneg v12
  have q20 := mul_self_nonneg v20
  have q21 := mul_self_nonneg v21
  have q22 := mul_self_nonneg v22
  set r := Real.sqrt (v00 * v00 + v01 * v01 + v02 * v02 + v10 * v10 + v11 * v11 + v12 * v12 + v20 * v20 + v21 * v21 + v22 * v22) with hr
  have rsq : r ^ 2 = v00 * v00 + v01 * v01 + v02 * v02 + v10 * v10 + v11 * v11 + v12 * v12 + v20 * v20 + v21 * v21 + v22 * v22 :=
    Real.sq_sqrt (by linarith)
  have l := abs_le.1 lip
  have rhi : r ≤ 6 := by linarith
  have r36 : r ^ 2 ≤ 36 := by
    have := pow_le_pow_left₀ (Real.sqrt_nonneg _ : 0 ≤ r) rhi 2
    norm_num at this ⊢
    exact this
  have s00 : RN 1 (of v00 * of v00 : Fl F) _ := RN.sq (by linarith)
  have s01 : RN 1 (of v01 * of v01 : Fl F) _ := RN.sq (by linarith)
  have s02 : RN 1 (of v02 * of v02 : Fl F) _ := RN.sq (by linarith)
  have s10 : RN 1 (of v10 * of v10 : Fl F) _ := RN.sq (by linarith)
  have s11 : RN 1 (of v11 * of v11 : Fl F) _ := RN.sq (by linarith)
  have s12 : RN 1 (of v12 * of v12 : Fl F) _ := RN.sq (by linarith)
  have s20 : RN 1 (of v20 * of v20 : Fl F) _ := RN.sq (by linarith)
  have s21 : RN 1 (of v21 * of v21 : Fl F) _ := RN.sq (by linarith)
  have s22 : RN 1 (of v22 * of v22 : Fl F) _ := RN.sq (by linarith)
  have t1 := s00.add s01 (m := 3.1) (by norm_num) (by norm_num) (by linarith) (by norm_num) (by norm_num)
  have t2 := t1.add s02 (m := 5.2) (by norm_num) (by norm_num) (by linarith) (by norm_num) (by norm_num)
  have t3 := t2.add s10 (m := 7.3) (by norm_num) (by norm_num) (by linarith) (by norm_num) (by norm_num)
  have t4 := t3.add s11 (m := 9.4) (by norm_num) (by norm_num) (by linarith) (by norm_num) (by norm_num)
  have t5 := t4.add s12 (m := 11.5) (by norm_num) (by norm_num) (by linarith) (by norm_num) (by norm_num)
  have t6 := t5.add s20 (m := 13.6) (by norm_num) (by norm_num) (by linarith) (by norm_num) (by norm_num)
  have t7 := t6.add s21 (m := 15.7) (by norm_num) (by norm_num) (by linarith) (by norm_num) (by norm_num)
  have t8 := t7.add s22 (m := 18) (by norm_num) (by norm_num) (by linarith) (by norm_num) (by norm_num)
  have z1 := nonneg_add s00.2 s01.2 t1.2 (nonneg_sq s00.2) (nonneg_sq s01.2)
  have z2 := nonneg_add t1.2 s02.2 t2.2 z1 (nonneg_sq s02.2)
  have z3 := nonneg_add t2.2 s10.2 t3.2 z2 (nonneg_sq s10.2)
  have z4 := nonneg_add t3.2 s11.2 t4.2 z3 (nonneg_sq s11.2)
  have z5 := nonneg_add t4.2 s12.2 t5.2 z4 (nonneg_sq s12.2)
  have z6 := nonneg_add t5.2 s20.2 t6.2 z5 (nonneg_sq s20.2)
  have z7 := nonneg_add t6.2 s21.2 t7.2 z6 (nonneg_sq s21.2)
  have z8 := nonneg_add t7.2 s22.2 t8.2 z7 (nonneg_sq s22.2)
  rw [← rsq] at t8
  exact ⟨_, r, rfl, z8, Real.sqrt_nonneg _, lip, t8⟩

/-- Frobenius norm of a matrix with entries within `e` of those of `A`. -/
theorem near_frob {A : M3 ℝ} {A' : M3 (Fl F)} {e : ℝ} (h00 : A'.a00.Near A.a00 e) (h01 : A'.a01.Near A.a01 e)
    (h02 : A'.a02.Near A.a02 e) (h10 : A'.a10.Near A.a10 e) (h11 : A'.a11.Near A.a11 e) (h12 : A'.a12.Near A.a12 e)
    (h20 : A'.a20.Near A.a20 e) (h21 : A'.a21.Near A.a21 e) (h22 : A'.a22.Near A.a22 e) (hA : A.frob ≤ 4) (he : 6 * e ≤ A.frob)
    (hA0 : 0 < A.frob) (hη : 4 * F.η ≤ F.u * A.frob ^ 2) : A'.frob.Near A.frob (3 * e + 250 * F.u) := by
  have u0 := F.u_nonneg
  obtain ⟨a, r, hr, -, r0, lip, t8⟩ := frob_parts h00 h01 h02 h10 h11 h12 h20 h21 h22 hA (by linarith)
  rw [hr]
  have l := abs_le.1 lip
  have rlo : A.frob / 2 ≤ r := by linarith
  have rhi : r ≤ 6 := by linarith
  have r4 : A.frob ^ 2 / 4 ≤ r ^ 2 := by
    have := pow_le_pow_left₀ (by linarith : 0 ≤ A.frob / 2) rlo 2
    linarith
  have ur : F.u * (A.frob ^ 2 / 4) ≤ F.u * r ^ 2 := mul_le_mul_of_nonneg_left r4 u0
  obtain ⟨x, hx, hx'⟩ := t8.sqrt (by linarith) (by linarith) (by linarith)
  refine ⟨x, hx, ?_⟩
  rw [show x - A.frob = (x - r) + (r - A.frob) by ring]
  refine (abs_add_le _ _).trans ?_
  have : F.u * r ≤ F.u * 6 := mul_le_mul_of_nonneg_left rhi u0
  linarith


/-- Frobenius norm of a small matrix. -/
theorem frob_small {A : M3 ℝ} {A' : M3 (Fl F)} {e : ℝ} (h00 : A'.a00.Near A.a00 e) (h01 : A'.a01.Near A.a01 e)
    (h02 : A'.a02.Near A.a02 e) (h10 : A'.a10.Near A.a10 e) (h11 : A'.a11.Near A.a11 e) (h12 : A'.a12.Near A.a12 e)
    (h20 : A'.a20.Near A.a20 e) (h21 : A'.a21.Near A.a21 e) (h22 : A'.a22.Near A.a22 e) (hA : A.frob + 3 * e ≤ 1)
    (hη : F.η ≤ 1 / 1000000000000000000000) : A'.frob.Near 0 (11 / 10 * (A.frob + 3 * e) + 1 / 1000000000) := by
  have A0 : 0 ≤ A.frob := Real.sqrt_nonneg _
  have e0 := h00.nonneg
  obtain ⟨a, r, hr, ha, r0, lip, t8⟩ := frob_parts h00 h01 h02 h10 h11 h12 h20 h21 h22 (by linarith) (by linarith)
  rw [hr]
  have l := abs_le.1 lip
  exact (t8.sqrt_small ha r0 (by linarith) hη).mono (by linarith)

/-- Quotient of two numbers, the denominator being at least twice `s`. -/
theorem near_quot {a b : Fl F} {x y s : ℝ} (hu : F.u ≤ ε) (ha : a.Near x (16 * ε)) (hb : b.Near y (217 * ε)) (hs : 0 < s) (hs1 : s ≤ 1)
    (hy : y = 2 * s) (hq : |x / y| ≤ 1) (he : 2000 * ε ≤ s) : (a / b).Near (x / y) (130 * (ε / s)) := by
  obtain ⟨v, hv, h⟩ := ha
  obtain ⟨w, hw, h'⟩ := hb
  have u0 := F.u_nonneg
  have u1 := F.u_le
  have ηu := F.η_le
  have big := F.big_ge
  have e0 : 0 ≤ ε := u0.trans hu
  have wlo : 1.89 * s ≤ w := by have := (abs_le.1 h').1; linarith
  have w0 : 0 < w := by linarith
  have y0 : 0 < y := by linarith
  have q0 : ε ≤ ε / s := by rw [le_div_iff₀ hs]; exact mul_le_of_le_one_right e0 hs1
  have q1 : ε / s ≤ 1 / 2000 := by rw [div_le_div_iff₀ hs (by norm_num)]; linarith
  have hd : |v / w - x / y| ≤ 124 * (ε / s) := by
    have e : v / w - x / y = ((v - x) - (x / y) * (w - y)) / w := by field_simp; ring
    rw [e, abs_div, abs_of_pos w0, div_le_iff₀ w0]
    have h1 : |(v - x) - (x / y) * (w - y)| ≤ 233 * ε := by
      refine (abs_sub _ _).trans ?_
      rw [abs_mul]
      have := mul_le_mul hq h' (abs_nonneg _) zero_le_one
      linarith
    have h2 : 124 * (ε / s) * (1.89 * s) ≤ 124 * (ε / s) * w := mul_le_mul_of_nonneg_left wlo (by positivity)
    have h3 : 124 * (ε / s) * (1.89 * s) = 124 * 1.89 * ε := by field_simp
    rw [h3] at h2
    linarith
  have hS := near_round (F := F) (w := v / w) (x := x / y) (d := 124 * (ε / s)) (e := 130 * (ε / s)) hd (by
    have h1 : F.u * (|x / y| + 124 * (ε / s)) ≤ F.u * (1 + 1) := mul_le_mul_of_nonneg_left (by linarith) u0
    linarith) (by linarith)
  change (⟨F.round (a.val / b.val)⟩ : Fl F).Near _ _
  rw [hv, hw, XReal.fin_div _ w0.ne']
  exact hS

/-- `R2rot` of a matrix within `ε` of a rotation whose angle has sine `s`. -/
theorem R2rot_near (hF : Spec.InvAcc F) {R : M3 ℝ} (hR : IsRot R) {R' : M3 (Fl F)} (h : Spec.MNear R' R ε) (hu : F.u ≤ ε)
    (hlo : 1 / 4000000 ≤ R2rotL.s R) (he : 2000 * ε ≤ R2rotL.s R) (hη' : F.η ≤ F.u * (1 / 1000000000000000000000)) :
    (R2rotL.s R ≤ 101 / 100000000 + 105 * ε ∧ (16 * ε < R2rotL.c R → R2rot R' = (.list V3.ez, 0))) ∨
    99 / 100000000 ≤ R2rotL.s R + 105 * ε ∧ ∃ k' th', R2rot R' = (.array k', th') ∧
      Spec.VNear k' ((invhat (R - R.transpose)).sdiv (2 * R2rotL.s R)) (260 * (ε / R2rotL.s R)) ∧
      Spec.AngNear th' (Complex.arg ⟨R2rotL.c R, R2rotL.s R⟩) (420 * ε + F.u) := by
  have u0 := F.u_nonneg
  have u1 := F.u_le
  have ηu := F.η_le
  have e0 : 0 ≤ ε := u0.trans hu
  have hsc := R2rotL.s_sq_add_c_sq hR
  have hssq := R2rotL.s_sq R
  have s0 : 0 < R2rotL.s R := by linarith [hlo]
  have s1 : R2rotL.s R ≤ 1 := by
    have := mul_self_nonneg (R2rotL.c R)
    exact (abs_le.1 ((sq_le_one_iff_abs_le_one _).1 (by linarith))).2
  have c1 : |R2rotL.c R| ≤ 1 := by
    have := mul_self_nonneg (R2rotL.s R)
    exact (sq_le_one_iff_abs_le_one _).1 (by linarith)
  have ε1 : ε ≤ 1 / 2000 := by linarith
  have hη : F.η ≤ F.u * R2rotL.s R ^ 2 := hη'.trans (mul_le_mul_of_nonneg_left (by
    have := pow_le_pow_left₀ (by norm_num) hlo 2
    norm_num at this ⊢
    linarith) u0)
  have hfrob : (R - R.transpose).frob = R2rotL.s R * Real.sqrt 8 := by unfold R2rotL.s; field_simp
  have s8 : Real.sqrt 8 ^ 2 = 8 := Real.sq_sqrt (by norm_num)
  have s8lo : 2.8 ≤ Real.sqrt 8 := Real.le_sqrt_of_sq_le (by norm_num)
  have s8hi : Real.sqrt 8 ≤ 2.9 := Real.sqrt_le_iff.2 ⟨by norm_num, by norm_num⟩
  have fle : (R - R.transpose).frob ≤ 4 := by
    rw [hfrob]
    have := mul_le_mul s1 s8hi (by linarith) zero_le_one
    linarith
  have flo : 2 * R2rotL.s R ≤ (R - R.transpose).frob := by
    rw [hfrob]
    have := mul_le_mul_of_nonneg_left s8lo s0.le
    linarith
  have fsq : (R - R.transpose).frob ^ 2 = 8 * R2rotL.s R ^ 2 := by rw [hfrob, mul_pow, s8]; ring
  obtain ⟨C, rfl, hC⟩ := mNear_iff.1 h
  obtain ⟨⟨n00, n10, n20⟩, ⟨n01, n11, n21⟩, n02, n12, n22⟩ := hC.entries
  obtain ⟨⟨b00, b10, b20⟩, ⟨b01, b11, b21⟩, b02, b12, b22⟩ := hR.opLe.entries
  rw [← one_mul ε] at n00 n01 n02 n10 n11 n12 n20 n21 n22
  have k00 : (of C.a00 : Fl F).Near R.a00 (1 * ε) := ⟨_, rfl, n00⟩
  have k01 : (of C.a01 : Fl F).Near R.a01 (1 * ε) := ⟨_, rfl, n01⟩
  have k02 : (of C.a02 : Fl F).Near R.a02 (1 * ε) := ⟨_, rfl, n02⟩
  have k10 : (of C.a10 : Fl F).Near R.a10 (1 * ε) := ⟨_, rfl, n10⟩
  have k11 : (of C.a11 : Fl F).Near R.a11 (1 * ε) := ⟨_, rfl, n11⟩
  have k12 : (of C.a12 : Fl F).Near R.a12 (1 * ε) := ⟨_, rfl, n12⟩
  have k20 : (of C.a20 : Fl F).Near R.a20 (1 * ε) := ⟨_, rfl, n20⟩
  have k21 : (of C.a21 : Fl F).Near R.a21 (1 * ε) := ⟨_, rfl, n21⟩
  have k22 : (of C.a22 : Fl F).Near R.a22 (1 * ε) := ⟨_, rfl, n22⟩
  have sub : ∀ {a b : Fl F} {x y : ℝ}, a.Near x (1 * ε) → b.Near y (1 * ε) → |x| ≤ 1 → |y| ≤ 1 → (a - b).Near (x - y) (6 * ε) :=
    fun ha hb hx hy => ha.subE 6 hb hu (by linarith) (S := 2) ((abs_sub _ _).trans (by linarith)) (by norm_num) (by norm_num) (by norm_num)
  have hfr : ((C.map of - (C.map of).transpose : M3 (Fl F)).frob).Near (R - R.transpose).frob (268 * ε) := by
    refine (near_frob (A := R - R.transpose) (sub k00 k00 b00 b00) (sub k01 k10 b01 b10) (sub k02 k20 b02 b20) (sub k10 k01 b10 b01) (sub k11 k11 b11 b11)
      (sub k12 k21 b12 b21) (sub k20 k02 b20 b02) (sub k21 k12 b21 b12) (sub k22 k22 b22 b22) fle (by linarith) (by linarith) ?_).mono (by linarith)
    rw [fsq]
    have : 0 ≤ F.u * R2rotL.s R ^ 2 := by positivity
    linarith
  have l8 := near_lit (F := F) 8 (S := 8) hu (by linarith) (by norm_num) (by norm_num)
  have l2 := near_lit (F := F) 2 (S := 2) hu (by linarith) (by norm_num) (by norm_num)
  have e8 : (((8 : ℚ)) : ℝ) = 8 := by norm_num
  have e2 : (((2 : ℚ)) : ℝ) = 2 := by norm_num
  rw [e8] at l8
  rw [e2] at l2
  have q8 := l8.sqrtE 8 hu (by linarith) (c := 2.8) (S := 3) (by norm_num) (by norm_num) (by linarith) (by norm_num) (by norm_num) (by norm_num)
    (by norm_num) (by norm_num)
  have hs' := hfr.divE 105 q8 hu (by linarith) (Q := 1) (c := 2.7) (by
    change |R2rotL.s R| ≤ 1
    rw [abs_of_pos s0]; exact s1) (by norm_num) (by linarith) (by norm_num) (by norm_num) (by norm_num) (by norm_num)
  change Near _ (R2rotL.s R) _ at hs'
  have t1 := k00.addE 6 k11 hu (by linarith) (S := 2) ((abs_add_le _ _).trans (by linarith)) (by norm_num) (by norm_num) (by norm_num)
  have t2 := t1.addE 12 k22 hu (by linarith) (S := 3) (by
    have := abs_add_le (R.a00 + R.a11) R.a22
    have := abs_add_le R.a00 R.a11
    linarith) (by norm_num) (by norm_num) (by norm_num)
  have htr : R.a00 + R.a11 + R.a22 - 1 = 2 * R2rotL.c R := by unfold R2rotL.c M3.trace; ring
  have one : (1 : Fl F).Near 1 (0 * ε) := ⟨1, rfl, by simp⟩
  have t3 := t2.subE 16 one hu (by linarith) (S := 2) (by rw [htr, abs_mul, abs_two]; linarith) (by norm_num) (by norm_num) (by norm_num)
  have hc' := t3.divE 13 l2 hu (by linarith) (Q := 1) (c := 1.9) (by
    rw [htr, mul_div_cancel_left₀ _ two_ne_zero]; exact c1) (by norm_num) (by linarith) (by norm_num) (by norm_num) (by norm_num) (by norm_num)
  rw [htr, mul_div_cancel_left₀ _ two_ne_zero] at hc'
  have hth := near_arctan2 hF one_pos (by rw [hsc, one_pow]) hs' (hc'.mono (show 13 * ε ≤ 105 * ε by linarith)) (by linarith)
  have l6 : (lit (1/1000000) : Fl F).Near (1 / 1000000) (1 / 100000000) := by
    have e6 : (((1/1000000 : ℚ)) : ℝ) = 1/1000000 := by norm_num
    have big := F.big_ge
    exact near_round (F := F) (w := ((1/1000000 : ℚ) : ℝ)) (x := 1 / 1000000) (d := 0) (e := 1 / 100000000) (by rw [e6]; simp) (by
      rw [abs_of_pos (by norm_num)]
      linarith) (by rw [abs_of_pos (by norm_num)]; linarith)
  by_cases nb : ((C.map of - (C.map of).transpose : M3 (Fl F)).frob / Elem.sqrt (lit 8)) < lit (1/1000000)
  · refine Or.inl ⟨by have := hs'.lt_real l6 nb; linarith, fun hc => ?_⟩
    refine (if_pos nb).trans (if_pos ?_)
    obtain ⟨w, hw, hcw⟩ := hc'
    have := (abs_le.1 hcw).1
    change XReal.fin 0 < Fl.val _
    refine (show XReal.fin 0 < XReal.fin w from (XReal.fin_lt ..).2 ?_).trans_eq hw.symm
    linarith
  refine Or.inr ⟨by have := hs'.not_lt_real l6 nb; linarith, ?_⟩
  have v1 := (sub k12 k21 b12 b21).neg.addE 18 (sub k21 k12 b21 b12) hu (by linarith) (S := 4) (by
    rw [show -(R.a12 - R.a21) + (R.a21 - R.a12) = 2 * (R.a21 - R.a12) by ring, abs_mul, abs_two]
    have := abs_sub R.a21 R.a12
    linarith) (by norm_num) (by norm_num) (by norm_num)
  have v2 := (sub k02 k20 b02 b20).subE 18 (sub k20 k02 b20 b02) hu (by linarith) (S := 4) (by
    rw [show R.a02 - R.a20 - (R.a20 - R.a02) = 2 * (R.a02 - R.a20) by ring, abs_mul, abs_two]
    have := abs_sub R.a02 R.a20
    linarith) (by norm_num) (by norm_num) (by norm_num)
  have v3 := (sub k01 k10 b01 b10).neg.addE 18 (sub k10 k01 b10 b01) hu (by linarith) (S := 4) (by
    rw [show -(R.a01 - R.a10) + (R.a10 - R.a01) = 2 * (R.a10 - R.a01) by ring, abs_mul, abs_two]
    have := abs_sub R.a10 R.a01
    linarith) (by norm_num) (by norm_num) (by norm_num)
  have bd : ∀ {z w : ℝ}, z = 2 * w → |w| ≤ 2 → |z / 2| ≤ 2 := by
    intro z w e hw; rw [e, mul_div_cancel_left₀ _ two_ne_zero]; exact hw
  have hv1 := v1.divE 16 l2 hu (by linarith) (Q := 2) (c := 1.9) (bd (w := R.a21 - R.a12) (by ring) (by have := abs_sub R.a21 R.a12; linarith))
    (by norm_num) (by linarith) (by norm_num) (by norm_num) (by norm_num) (by norm_num)
  have hv2 := v2.divE 16 l2 hu (by linarith) (Q := 2) (c := 1.9) (bd (w := R.a02 - R.a20) (by ring) (by have := abs_sub R.a02 R.a20; linarith))
    (by norm_num) (by linarith) (by norm_num) (by norm_num) (by norm_num) (by norm_num)
  have hv3 := v3.divE 16 l2 hu (by linarith) (Q := 2) (c := 1.9) (bd (w := R.a10 - R.a01) (by ring) (by have := abs_sub R.a10 R.a01; linarith))
    (by norm_num) (by linarith) (by norm_num) (by norm_num) (by norm_num) (by norm_num)
  have hden := l2.mulE 217 hs' hu (by linarith) (M := 2) (N := 1) (by norm_num) (by rw [abs_of_pos s0]; exact s1) (by norm_num) (by norm_num)
    (by norm_num) (by norm_num)
  have qb : ∀ {z w : ℝ}, z = 2 * w → w * w ≤ 4 * (R2rotL.s R * R2rotL.s R) → |z / 2 / (2 * R2rotL.s R)| ≤ 1 := by
    intro z w e hw
    rw [e, mul_div_cancel_left₀ _ two_ne_zero, abs_div, abs_of_pos (show 0 < 2 * R2rotL.s R by linarith), div_le_one (by linarith)]
    exact abs_le_of_sq_le_sq (by rw [pow_two, pow_two]; linarith) (by linarith)
  have p1 := mul_self_nonneg (R.a21 - R.a12)
  have p2 := mul_self_nonneg (R.a02 - R.a20)
  have p3 := mul_self_nonneg (R.a10 - R.a01)
  have d1 := near_quot hu hv1 hden s0 s1 rfl (qb (w := R.a21 - R.a12) (by ring) (by linarith)) he
  have d2 := near_quot hu hv2 hden s0 s1 rfl (qb (w := R.a02 - R.a20) (by ring) (by linarith)) he
  have d3 := near_quot hu hv3 hden s0 s1 rfl (qb (w := R.a10 - R.a01) (by ring) (by linarith)) he
  refine ⟨_, _, if_neg nb, ?_, ?_⟩
  · refine VNear.mono (vNear_of_entries (v := (invhat (R - R.transpose)).sdiv (2 * R2rotL.s R)) (d := 130 * (ε / R2rotL.s R)) ?_ ?_ ?_)
      (by linarith)
    · convert d1 using 1 <;> simp [invhat, M3.map]
    · convert d2 using 1 <;> simp [invhat, M3.map]
    · convert d3 using 1 <;> simp [invhat, M3.map]
  · obtain ⟨n, hn⟩ := hth
    exact ⟨n, hn.mono (by linarith)⟩

/-- The trivial answer of `R2rot` for rotations with a small sine. -/
theorem R2rot_small {R : M3 ℝ} (hR : IsRot R) {R' : M3 (Fl F)} (h : Spec.MNear R' R ε) (hu : F.u ≤ ε) (hε : ε ≤ 1 / 1000000000)
    (hhi : R2rotL.s R ≤ 1 / 4000000) (hc : 16 * ε < R2rotL.c R) (hη : F.η ≤ 1 / 1000000000000000000000) :
    R2rot R' = (.list V3.ez, 0) := by
  have u0 := F.u_nonneg
  have u1 := F.u_le
  have e0 : 0 ≤ ε := u0.trans hu
  have hsc := R2rotL.s_sq_add_c_sq hR
  have s0 := R2rotL.s_nonneg R
  have c1 : |R2rotL.c R| ≤ 1 := by
    have := mul_self_nonneg (R2rotL.s R)
    exact (sq_le_one_iff_abs_le_one _).1 (by linarith)
  have hfrob : (R - R.transpose).frob = R2rotL.s R * Real.sqrt 8 := by unfold R2rotL.s; field_simp
  have s8lo : 2.8 ≤ Real.sqrt 8 := Real.le_sqrt_of_sq_le (by norm_num)
  have s8hi : Real.sqrt 8 ≤ 2.9 := Real.sqrt_le_iff.2 ⟨by norm_num, by norm_num⟩
  have fle : (R - R.transpose).frob ≤ 2.9 / 4000000 := by
    rw [hfrob]
    have := mul_le_mul hhi s8hi (by linarith) (by norm_num)
    linarith
  obtain ⟨C, rfl, hC⟩ := mNear_iff.1 h
  obtain ⟨⟨n00, n10, n20⟩, ⟨n01, n11, n21⟩, n02, n12, n22⟩ := hC.entries
  obtain ⟨⟨b00, b10, b20⟩, ⟨b01, b11, b21⟩, b02, b12, b22⟩ := hR.opLe.entries
  rw [← one_mul ε] at n00 n01 n02 n10 n11 n12 n20 n21 n22
  have k00 : (of C.a00 : Fl F).Near R.a00 (1 * ε) := ⟨_, rfl, n00⟩
  have k01 : (of C.a01 : Fl F).Near R.a01 (1 * ε) := ⟨_, rfl, n01⟩
  have k02 : (of C.a02 : Fl F).Near R.a02 (1 * ε) := ⟨_, rfl, n02⟩
  have k10 : (of C.a10 : Fl F).Near R.a10 (1 * ε) := ⟨_, rfl, n10⟩
  have k11 : (of C.a11 : Fl F).Near R.a11 (1 * ε) := ⟨_, rfl, n11⟩
  have k12 : (of C.a12 : Fl F).Near R.a12 (1 * ε) := ⟨_, rfl, n12⟩
  have k20 : (of C.a20 : Fl F).Near R.a20 (1 * ε) := ⟨_, rfl, n20⟩
  have k21 : (of C.a21 : Fl F).Near R.a21 (1 * ε) := ⟨_, rfl, n21⟩
  have k22 : (of C.a22 : Fl F).Near R.a22 (1 * ε) := ⟨_, rfl, n22⟩
  have sub : ∀ {a b : Fl F} {x y : ℝ}, a.Near x (1 * ε) → b.Near y (1 * ε) → |x| ≤ 1 → |y| ≤ 1 → (a - b).Near (x - y) (6 * ε) :=
    fun ha hb hx hy => ha.subE 6 hb hu (by linarith) (S := 2) ((abs_sub _ _).trans (by linarith)) (by norm_num) (by norm_num) (by norm_num)
  have hfr : ((C.map of - (C.map of).transpose : M3 (Fl F)).frob).Near 0 (9 / 10000000) :=
    (frob_small (A := R - R.transpose) (sub k00 k00 b00 b00) (sub k01 k10 b01 b10) (sub k02 k20 b02 b20) (sub k10 k01 b10 b01) (sub k11 k11 b11 b11)
      (sub k12 k21 b12 b21) (sub k20 k02 b20 b02) (sub k21 k12 b21 b12) (sub k22 k22 b22 b22) (by linarith) hη).mono (by linarith)
  have l8 := near_lit (F := F) 8 (S := 8) hu (by linarith) (by norm_num) (by norm_num)
  have l2 := near_lit (F := F) 2 (S := 2) hu (by linarith) (by norm_num) (by norm_num)
  have e8 : (((8 : ℚ)) : ℝ) = 8 := by norm_num
  have e2 : (((2 : ℚ)) : ℝ) = 2 := by norm_num
  rw [e8] at l8
  rw [e2] at l2
  have q8 := l8.sqrtE 8 hu (by linarith) (c := 2.8) (S := 3) (by norm_num) (by norm_num) (by linarith) (by norm_num) (by norm_num) (by norm_num)
    (by norm_num) (by norm_num)
  have hs' : ((C.map of - (C.map of).transpose : M3 (Fl F)).frob / Elem.sqrt (lit 8)).Near 0 (4 / 10000000) := by
    obtain ⟨v, hv, hv'⟩ := hfr
    obtain ⟨w, hw, hw'⟩ := q8
    have w2 : 2.7 ≤ w := by have := (abs_le.1 hw').1; linarith
    have big := F.big_ge
    rw [sub_zero] at hv'
    have hS := near_round (F := F) (w := v / w) (x := 0) (d := 1 / 3000000) (e := 4 / 10000000) (by
      rw [sub_zero, abs_div, abs_of_pos (show 0 < w by linarith), div_le_iff₀ (by linarith)]
      linarith) (by
      rw [abs_zero, zero_add]
      linarith) (by rw [abs_zero]; linarith)
    change (⟨F.round (Fl.val _ / Fl.val _)⟩ : Fl F).Near _ _
    rw [hv, hw, XReal.fin_div _ (show w ≠ 0 by linarith)]
    exact hS
  have t1 := k00.addE 6 k11 hu (by linarith) (S := 2) ((abs_add_le _ _).trans (by linarith)) (by norm_num) (by norm_num) (by norm_num)
  have t2 := t1.addE 12 k22 hu (by linarith) (S := 3) (by
    have := abs_add_le (R.a00 + R.a11) R.a22
    have := abs_add_le R.a00 R.a11
    linarith) (by norm_num) (by norm_num) (by norm_num)
  have htr : R.a00 + R.a11 + R.a22 - 1 = 2 * R2rotL.c R := by unfold R2rotL.c M3.trace; ring
  have one : (1 : Fl F).Near 1 (0 * ε) := ⟨1, rfl, by simp⟩
  have t3 := t2.subE 16 one hu (by linarith) (S := 2) (by rw [htr, abs_mul, abs_two]; linarith) (by norm_num) (by norm_num) (by norm_num)
  have hc' := t3.divE 13 l2 hu (by linarith) (Q := 1) (c := 1.9) (by
    rw [htr, mul_div_cancel_left₀ _ two_ne_zero]; exact c1) (by norm_num) (by linarith) (by norm_num) (by norm_num) (by norm_num) (by norm_num)
  rw [htr, mul_div_cancel_left₀ _ two_ne_zero] at hc'
  have nb : ((C.map of - (C.map of).transpose : M3 (Fl F)).frob / Elem.sqrt (lit 8)) < lit (1/1000000) := by
    have big := F.big_ge
    have e6 : (((1/1000000 : ℚ)) : ℝ) = 1/1000000 := by norm_num
    have l6 : (lit (1/1000000) : Fl F).Near (1 / 1000000) (1 / 100000000) :=
      near_round (F := F) (w := ((1/1000000 : ℚ) : ℝ)) (x := 1 / 1000000) (d := 0) (e := 1 / 100000000) (by rw [e6]; simp) (by
        rw [abs_of_pos (by norm_num)]
        linarith) (by rw [abs_of_pos (by norm_num)]; linarith)
    by_contra hcon
    have := hs'.not_lt_real l6 hcon
    linarith
  refine (if_pos nb).trans (if_pos ?_)
  obtain ⟨w, hw, hcw⟩ := hc'
  have := (abs_le.1 hcw).1
  change XReal.fin 0 < Fl.val _
  refine (show XReal.fin 0 < XReal.fin w from (XReal.fin_lt ..).2 ?_).trans_eq hw.symm
  linarith

end Fl

/-- Bound of a matrix by its Frobenius norm. -/
theorem OpLe.of_frob {A : M3 ℝ} {e : ℝ} (h : A.frob ≤ e) : OpLe A e := by
  intro v
  have h0 : 0 ≤ A.frob := Real.sqrt_nonneg _
  refine le_trans ?_ (mul_le_mul_of_nonneg_right h (V3.norm_nonneg v))
  have row : ∀ a b c : ℝ, (a * v.x + b * v.y + c * v.z) ^ 2 ≤ (a * a + b * b + c * c) * v.norm ^ 2 := by
    intro a b c
    rw [V3.norm_sq]
    simp only [V3.dot]
    nlinarith [sq_nonneg (a * v.y - b * v.x), sq_nonneg (a * v.z - c * v.x), sq_nonneg (b * v.z - c * v.y)]
  have hf : A.frob ^ 2 = A.a00 * A.a00 + A.a01 * A.a01 + A.a02 * A.a02 + A.a10 * A.a10 + A.a11 * A.a11 + A.a12 * A.a12 + A.a20 * A.a20 +
      A.a21 * A.a21 + A.a22 * A.a22 := Real.sq_sqrt (M3.sq_nonneg' A)
  refine (sq_le_sq₀ (V3.norm_nonneg _) (by have := V3.norm_nonneg v; positivity)).1 ?_
  rw [mul_pow, hf, V3.norm_sq]
  have r0 := row A.a00 A.a01 A.a02
  have r1 := row A.a10 A.a11 A.a12
  have r2 := row A.a20 A.a21 A.a22
  simp only [V3.dot, M3.mulVec] at *
  linarith

/-- A rotation with a small sine is near the identity. -/
theorem R2rotL.near_one {R : M3 ℝ} (h : IsRot R) (hc : 0 ≤ R2rotL.c R) : OpLe (1 - R) (2 * R2rotL.s R) := by
  refine OpLe.of_frob ?_
  have h1 := R2rotL.s_sq_add_c_sq h
  obtain ⟨k1, k2, k3, -, -, -⟩ := h.colEqs
  have hf : (1 - R).frob = Real.sqrt (4 * (1 - R2rotL.c R)) := by
    unfold M3.frob
    simp only [sqrt_real]
    congr 1
    unfold R2rotL.c; simp [M3.trace]; linarith
  have h2 := R2rotL.s_nonneg R
  rw [hf, Real.sqrt_le_left (by linarith)]
  have h3 : 1 - R2rotL.c R ≤ R2rotL.s R * R2rotL.s R := by nlinarith
  nlinarith
