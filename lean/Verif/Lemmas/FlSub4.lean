import Verif.Lemmas.FlSub
import Verif.Lemmas.IkParts

/-! # Rounding error of `subproblem4` -/
set_option autoImplicit false

/-- Two angles in the right half plane with close sines, `c` being the cosine of the first. -/
theorem arcsin_lip {x y δ c : ℝ} (hc : 0 < c) (h : y * y + c * c = 1) (hx : |x - y| ≤ δ) (hx1 : -1 ≤ x) (hx2 : x ≤ 1) :
    |Real.arcsin x - Real.arcsin y| ≤ Real.pi * (δ / c) := by
  have hy : |y| ≤ 1 := by
    rw [← sq_le_one_iff_abs_le_one]
    nlinarith
  obtain ⟨hy1, hy2⟩ := abs_le.1 hy
  have ca : Real.cos (Real.arcsin y) = c := by
    rw [Real.cos_arcsin, show 1 - y ^ 2 = c ^ 2 by linarith, Real.sqrt_sq hc.le]
  have cb : 0 ≤ Real.cos (Real.arcsin x) := Real.cos_arcsin_nonneg x
  have sa := Real.sin_arcsin hy1 hy2
  have sb := Real.sin_arcsin hx1 hx2
  have a1 := Real.neg_pi_div_two_le_arcsin x
  have a2 := Real.arcsin_le_pi_div_two x
  have a3 := Real.neg_pi_div_two_le_arcsin y
  have a4 := Real.arcsin_le_pi_div_two y
  set β := Real.arcsin x
  set α := Real.arcsin y
  have hs : x - y = 2 * Real.sin ((β - α) / 2) * Real.cos ((β + α) / 2) := by
    rw [← sa, ← sb, Real.sin_sub_sin]
  have hcc : Real.cos β + Real.cos α = 2 * Real.cos ((β + α) / 2) * Real.cos ((β - α) / 2) := Real.cos_add_cos β α
  have hm : 0 ≤ Real.cos ((β + α) / 2) := Real.cos_nonneg_of_neg_pi_div_two_le_of_le (by linarith) (by linarith)
  have h1 : c ≤ 2 * Real.cos ((β + α) / 2) := by
    have := mul_le_mul_of_nonneg_left (Real.cos_le_one ((β - α) / 2)) hm
    linarith
  have h2 : |Real.sin ((β - α) / 2)| * c ≤ δ := by
    refine le_trans ?_ hx
    rw [hs, abs_mul, abs_mul, abs_two, abs_of_nonneg hm]
    have := mul_le_mul_of_nonneg_left h1 (abs_nonneg (Real.sin ((β - α) / 2)))
    linarith
  have h3 : |Real.sin ((β - α) / 2)| ≤ δ / c := by rwa [le_div_iff₀ hc]
  have h4 := Real.mul_abs_le_abs_sin (x := (β - α) / 2) (abs_le.2 ⟨by linarith, by linarith⟩)
  rw [abs_div, abs_two, div_mul_eq_mul_div, div_le_iff₀ Real.pi_pos] at h4
  have := mul_le_mul_of_nonneg_left h3 Real.pi_pos.le
  linarith

namespace Fl
variable {F : FSys} {ε : ℝ}

/-- `arcsin` of a number near `y`, `c` being the cosine of the angle. -/
theorem near_arcsin (hF : Spec.InvAcc F) {a : Fl F} {y c δ : ℝ} (hc : 0 < c) (h : y * y + c * c = 1) (ha : a.Near y δ) (hδ : 2 * δ ≤ c ^ 2) :
    ¬ (1 < a) ∧ (Elem.arcsin a).Near (Real.arcsin y) (Real.pi * (δ / c) + F.u) := by
  obtain ⟨x, hx, h1⟩ := ha
  obtain ⟨h2, h3⟩ := abs_le.1 h1
  have x1 : x ≤ 1 := by nlinarith [sq_nonneg (y - 1), sq_nonneg (y + 1)]
  have x2 : -1 ≤ x := by nlinarith [sq_nonneg (y - 1), sq_nonneg (y + 1)]
  refine ⟨?_, F.arcsinF x, ?_, ?_⟩
  · change ¬ (XReal.fin 1 < a.val)
    rw [hx, XReal.fin_lt]
    exact not_lt.2 x1
  · change XReal.onFin _ _ a.val = _
    rw [hx]
    simp only [XReal.onFin]
    rw [if_pos ⟨x2, x1⟩]
  · rw [show F.arcsinF x - Real.arcsin y = (F.arcsinF x - Real.arcsin x) + (Real.arcsin x - Real.arcsin y) by ring]
    have := hF.arcsin x x2 x1
    have := arcsin_lip hc h h1 x2 x1
    exact (abs_add_le _ _).trans (by linarith)

/-- Norm of a vector in the plane that is long compared with the errors. -/
theorem near_norm2 {a b : Fl F} {x y r e N : ℝ} (ha : a.Near x e) (hb : b.Near y e) (hr : 0 < r) (hxy : x * x + y * y = r ^ 2) (hN : r ≤ N)
    (hN10 : N + 2 * e ≤ 10) (hlo : 4 * e ≤ r) (hu : 16 * F.u ≤ r) (hη : 16 * F.η ≤ F.u ^ 3) :
    (Elem.sqrt (a * a + b * b)).Near r (2 * e + (39 * (N + 2 * e) + 1) * F.u) := by
  obtain ⟨x0⟩ := a
  obtain ⟨x1⟩ := b
  obtain ⟨v0, e0, h0⟩ := ha
  obtain ⟨v1, e1, h1⟩ := hb
  cases e0; cases e1
  have u0 := F.u_nonneg
  have ep := (abs_nonneg _).trans h0
  have lip := sqrt_sum_lip ![v0, v1] ![x, y] (e := e) (m := 2)
    (by intro i; fin_cases i <;> assumption) ep (by norm_num) (by norm_num)
  have sA : Real.sqrt (∑ i, ![x, y] i * ![x, y] i) = r := by
    rw [Fin.sum_univ_two]
    change Real.sqrt (x * x + y * y) = r
    rw [hxy, Real.sqrt_sq hr.le]
  have sV : ∑ i, ![v0, v1] i * ![v0, v1] i = v0 * v0 + v1 * v1 := by
    simp [Fin.sum_univ_succ]
  rw [sA, sV] at lip
  have q0 := mul_self_nonneg v0
  have q1 := mul_self_nonneg v1
  set w := Real.sqrt (v0 * v0 + v1 * v1) with hw
  have w0 : 0 ≤ w := Real.sqrt_nonneg _
  have wsq : w ^ 2 = v0 * v0 + v1 * v1 := Real.sq_sqrt (by linarith)
  obtain ⟨l1, l2⟩ := abs_le.1 lip
  have w10 : w ≤ 10 := by linarith
  have w2 : w ^ 2 ≤ 100 := by
    have := pow_le_pow_left₀ w0 w10 2
    norm_num at this ⊢
    exact this
  have wlo : 8 * F.u ≤ w := by linarith
  have wpos : 0 < w := by linarith
  have hηw : F.η ≤ F.u * w ^ 2 := by
    have h1 : (8 * F.u) ^ 2 ≤ w ^ 2 := pow_le_pow_left₀ (by linarith) wlo 2
    have h2 := mul_le_mul_of_nonneg_left h1 u0
    have h3 : F.u * (8 * F.u) ^ 2 = 64 * F.u ^ 3 := by ring
    have h4 : 0 ≤ F.u ^ 3 := by positivity
    linarith
  have s0 : RN 1 (of v0 * of v0 : Fl F) _ := RN.sq (by linarith)
  have s1 : RN 1 (of v1 * of v1 : Fl F) _ := RN.sq (by linarith)
  have t1 := s0.add s1 (m := 18) (by norm_num) (by norm_num) (by linarith) (by norm_num) (by norm_num)
  rw [← wsq] at t1
  obtain ⟨z, hz, h⟩ := t1.sqrt wpos w10 hηw
  refine ⟨z, hz, ?_⟩
  rw [show z - r = (z - w) + (w - r) by ring]
  refine (abs_add_le _ _).trans ?_
  have : (39 * w + 1) * F.u ≤ (39 * (N + 2 * e) + 1) * F.u := mul_le_mul_of_nonneg_right (by linarith) u0
  linarith

/-- Inner products. -/
theorem near_dotE {a b : V3 (Fl F)} {x y : V3 ℝ} {k l M N τ : ℝ} (m1 m2 m : ℝ) (ha : C3 a x (k * ε)) (hb : C3 b y (l * ε)) (hu : F.u ≤ ε)
    (hε : ε ≤ τ) (hτ : τ ≤ 1) (hM : x.norm ≤ M) (hN : y.norm ≤ N) (hk : 0 ≤ k) (hl : 0 ≤ l)
    (h1 : (M * l + N * k + k * l * τ) * (1 + 1 / 1024) + M * N + 1 ≤ m1) (h2 : (m1 + m1) * (1 + 1 / 1024) + 2 * (M * N) + 1 ≤ m2)
    (h3 : (m2 + m1) * (1 + 1 / 1024) + M * N + 1 ≤ m) (hbig : 2 * (M * N) + m ≤ 1000000) : (a.dot b).Near (x.dot y) (m * ε) := by
  have u0 := F.u_nonneg
  have e0 := u0.trans hu
  have M0 := (V3.norm_nonneg x).trans hM
  have N0 := (V3.norm_nonneg y).trans hN
  have MN := mul_nonneg M0 N0
  have τ0 := e0.trans hε
  have m10 : 0 ≤ m1 := le_trans (by positivity) h1
  have m12 : m1 ≤ m2 := by linarith
  have m2m : m2 ≤ m := by linarith
  obtain ⟨a1, a2, a3⟩ := ha
  obtain ⟨b1, b2, b3⟩ := hb
  have x1 := (V3.abs_x_le x).trans hM
  have x2 := (V3.abs_y_le x).trans hM
  have x3 := (V3.abs_z_le x).trans hM
  have y1 := (V3.abs_x_le y).trans hN
  have y2 := (V3.abs_y_le y).trans hN
  have y3 := (V3.abs_z_le y).trans hN
  have p1 := a1.mulT m1 b1 hu hε hτ x1 y1 hk hl h1 (by linarith)
  have p2 := a2.mulT m1 b2 hu hε hτ x2 y2 hk hl h1 (by linarith)
  have p3 := a3.mulT m1 b3 hu hε hτ x3 y3 hk hl h1 (by linarith)
  have s := p1.addE m2 p2 hu (hε.trans hτ) (two_le x1 y1 x2 y2).2 h2 (by linarith) (by linarith)
  exact s.addE m p3 hu (hε.trans hτ) (S := M * N)
    ((V3.abs_dot_le x y).trans (mul_le_mul hM hN (V3.norm_nonneg y) M0)) h3 (by linarith) (by linarith)

/-- Rows of the cross product matrix. -/
theorem near_hat {k : V3 ℝ} {k' : V3 (Fl F)} {e : ℝ} (h : C3 k' k e) (e0 : 0 ≤ e) :
    C3 ⟨0, -k'.z, k'.y⟩ ⟨0, -k.z, k.y⟩ e ∧ C3 ⟨k'.z, 0, -k'.x⟩ ⟨k.z, 0, -k.x⟩ e ∧ C3 ⟨-k'.y, k'.x, 0⟩ ⟨-k.y, k.x, 0⟩ e ∧
    C3 ⟨0, k'.z, -k'.y⟩ ⟨0, k.z, -k.y⟩ e ∧ C3 ⟨-k'.z, 0, k'.x⟩ ⟨-k.z, 0, k.x⟩ e ∧ C3 ⟨k'.y, -k'.x, 0⟩ ⟨k.y, -k.x, 0⟩ e := by
  obtain ⟨k1, k2, k3⟩ := h
  have z : (0 : Fl F).Near 0 e := near_zero.mono e0
  exact ⟨⟨z, k3.neg, k2⟩, ⟨k3, z, k1.neg⟩, ⟨k2.neg, k1, z⟩, ⟨z, k3, k2.neg⟩, ⟨k3.neg, z, k1⟩, ⟨k2, k1.neg, z⟩⟩

/-- The cross product with a unit vector. -/
theorem near_hatE {k v : V3 ℝ} (hk : IsUnit3 k) {k' v' : V3 (Fl F)} {l N τ : ℝ} (m1 m2 m : ℝ) (hk' : C3 k' k ε) (hv' : C3 v' v (l * ε))
    (hu : F.u ≤ ε) (hε : ε ≤ τ) (hτ : τ ≤ 1) (hN : v.norm ≤ N) (hl : 0 ≤ l)
    (h1 : (l + N + l * τ) * (1 + 1 / 1024) + N + 1 ≤ m1) (h2 : (m1 + m1) * (1 + 1 / 1024) + 2 * N + 1 ≤ m2)
    (h3 : (m2 + m1) * (1 + 1 / 1024) + N + 1 ≤ m) (hbig : 2 * N + m ≤ 1000000) :
    C3 ((hat k').mulVec v') (k.cross v) (m * ε) ∧ C3 (M3.vecMul v' (hat k')) (v.cross k) (m * ε) := by
  obtain ⟨r1, r2, r3, c1, c2, c3⟩ := near_hat hk' (F.u_nonneg.trans hu)
  have hk1 : k.x * k.x + k.y * k.y + k.z * k.z = 1 := hk
  have key : ∀ {r : V3 ℝ} {r' : V3 (Fl F)}, C3 r' r ε → r.dot r ≤ 1 → (r'.dot v').Near (r.dot v) (m * ε) ∧ (v'.dot r').Near (v.dot r) (m * ε) := by
    intro r r' h hr
    have hr1 : r.norm ≤ 1 := by rw [V3.norm_eq]; exact Real.sqrt_le_one.2 hr
    replace h : C3 r' r (1 * ε) := by rwa [one_mul]
    exact ⟨near_dotE m1 m2 m h hv' hu hε hτ hr1 hN zero_le_one hl (by linarith) (by linarith) (by linarith) (by linarith),
      near_dotE m1 m2 m hv' h hu hε hτ hN hr1 hl zero_le_one (by linarith) (by linarith) (by linarith) (by linarith)⟩
  have x0 := mul_self_nonneg k.x
  have y0 := mul_self_nonneg k.y
  have z0 := mul_self_nonneg k.z
  have conv : ∀ {a : Fl F} {x y d : ℝ}, a.Near x d → x = y → a.Near y d := fun h e => e ▸ h
  refine ⟨⟨conv (key r1 ?_).1 ?_, conv (key r2 ?_).1 ?_, conv (key r3 ?_).1 ?_⟩,
    ⟨conv (key c1 ?_).2 ?_, conv (key c2 ?_).2 ?_, conv (key c3 ?_).2 ?_⟩⟩ <;>
  first
  | (simp [V3.dot]; done)
  | (simp [V3.dot]; linarith)
  | (simp [V3.dot]; ring)

/-- The coefficients computed by `subproblem4`. -/
theorem sp4_coeff {k p q : V3 ℝ} (hk : IsUnit3 k) (hp : p.norm ≤ 2) (hq : q.norm ≤ 2) {d : ℝ} (hd : |d| ≤ 4) {k' p' q' : V3 (Fl F)} {d' : Fl F}
    (hu : F.u ≤ ε) (hε : ε ≤ 1 / 1000) (hk' : C3 k' k ε) (hp' : C3 p' p ε) (hq' : C3 q' q ε) (hd' : d'.Near d ε) :
    ((M3.vecMul p' (hat k')).dot q').Near (p.dot (k.cross q)) (208 * ε) ∧
    (-(p'.dot ((hat k').mulVec ((hat k').mulVec q')))).Near (-(p.dot (k.cross (k.cross q)))) (712 * ε) ∧
    (d' - (p'.dot q' - -(p'.dot ((hat k').mulVec ((hat k').mulVec q'))))).Near (d - (p.dot q + p.dot (k.cross (k.cross q)))) (781 * ε) := by
  have hp1 : C3 p' p (1 * ε) := by rwa [one_mul]
  have hq1 : C3 q' q (1 * ε) := by rwa [one_mul]
  have hd1 : d'.Near d (1 * ε) := by rwa [one_mul]
  have k1 := V3.norm_eq_one hk
  have n1 : (k.cross q).norm ≤ 2 := by
    have := V3.norm_cross_le k q
    rw [k1, one_mul] at this
    exact this.trans hq
  have n2 : (k.cross (k.cross q)).norm ≤ 2 := by
    have := V3.norm_cross_le k (k.cross q)
    rw [k1, one_mul] at this
    exact this.trans n1
  have n3 : (p.cross k).norm ≤ 2 := by
    have := V3.norm_cross_le p k
    rw [k1, mul_one] at this
    exact this.trans hp
  have c1 := (near_hatE hk 6.1 18 28 hk' hq1 hu hε (by norm_num) hq (by norm_num) (by norm_num) (by norm_num) (by norm_num) (by norm_num)).1
  have c2 := (near_hatE hk 34 74 112 hk' c1 hu hε (by norm_num) n1 (by norm_num) (by norm_num) (by norm_num) (by norm_num) (by norm_num)).1
  have c3 := (near_hatE hk 6.1 18 28 hk' hp1 hu hε (by norm_num) hp (by norm_num) (by norm_num) (by norm_num) (by norm_num) (by norm_num)).2
  have a := near_dotE 64 138 208 c3 hq1 hu hε (by norm_num) n3 hq (by norm_num) (by norm_num) (by norm_num) (by norm_num) (by norm_num) (by norm_num)
  have b := near_dotE 232 474 712 hp1 c2 hu hε (by norm_num) hp n2 (by norm_num) (by norm_num) (by norm_num) (by norm_num) (by norm_num) (by norm_num)
  have pq := near_dotE 9.1 28 43 hp1 hq1 hu hε (by norm_num) hp hq (by norm_num) (by norm_num) (by norm_num) (by norm_num) (by norm_num) (by norm_num)
  have B : |p.dot (k.cross (k.cross q))| ≤ 4 := (V3.abs_dot_le _ _).trans
    ((mul_le_mul hp n2 (V3.norm_nonneg _) (by norm_num)).trans (by norm_num))
  have PQ : |p.dot q| ≤ 4 := (V3.abs_dot_le _ _).trans ((mul_le_mul hp hq (V3.norm_nonneg _) (by norm_num)).trans (by norm_num))
  have mid := pq.subE 766 b.neg hu (by linarith) (S := 8) (by
    rw [sub_neg_eq_add]; exact (abs_add_le _ _).trans (by linarith)) (by norm_num) (by norm_num) (by norm_num)
  rw [sub_neg_eq_add] at mid
  refine ⟨?_, b.neg, hd1.subE 781 mid hu (by linarith) (S := 12) ?_ (by norm_num) (by norm_num) (by norm_num)⟩
  · rwa [show p.dot (k.cross q) = (p.cross k).dot q by simp [V3.dot]; ring]
  · have := abs_add_le (p.dot q) (p.dot (k.cross (k.cross q)))
    exact (abs_sub _ _).trans (by linarith)

/-- Adding two finite numbers of moderate size. -/
theorem near_add_of {v w : ℝ} (h : |v + w| ≤ 10) : (of v + of w : Fl F).Near (v + w) (11 * F.u) :=
  Near.addE (ε := F.u) 11 (k := 0) (l := 0) (by rw [zero_mul]; exact near_of v) (by rw [zero_mul]; exact near_of w) le_rfl
    (by linarith [F.u_le]) h (by norm_num) (by norm_num) (by norm_num)

theorem near_sub_of {v w : ℝ} (h : |v - w| ≤ 10) : (of v - of w : Fl F).Near (v - w) (11 * F.u) :=
  Near.subE (ε := F.u) 11 (k := 0) (l := 0) (by rw [zero_mul]; exact near_of v) (by rw [zero_mul]; exact near_of w) le_rfl
    (by linarith [F.u_le]) h (by norm_num) (by norm_num) (by norm_num)

theorem near_pi' : (Elem.pi : Fl F).Near Real.pi (5 * F.u) := by
  have h := Real.pi_le_four
  have h0 := Real.pi_pos
  have big := F.big_ge
  have u0 := F.u_nonneg
  refine near_round (F := F) (d := 0) (by simp) ?_ ?_
  · rw [abs_of_pos h0]
    have := mul_le_mul_of_nonneg_left h u0
    linarith [F.η_le]
  · rw [abs_of_pos h0]
    linarith [F.u_le]

/-- `subproblem4` away from the extreme displacements: `x` is the displacement relative to its amplitude, `c` the cosine belonging to it. -/
theorem subproblem4_near (hF : Spec.InvAcc F) {k p q : V3 ℝ} (hk : IsUnit3 k) (hp : p.norm ≤ 2) (hq : q.norm ≤ 2) {d : ℝ} (hd : |d| ≤ 4)
    {k' p' q' : V3 (Fl F)} {d' : Fl F} {A x c : ℝ} (hA : 0 < A)
    (hA2 : p.dot (k.cross q) * p.dot (k.cross q) + -p.dot (k.cross (k.cross q)) * -p.dot (k.cross (k.cross q)) = A ^ 2)
    (hx : d - (p.dot q + p.dot (k.cross (k.cross q))) = A * x) (hc : 0 < c) (hxc : x * x + c * c = 1) (hu : F.u ≤ ε) (he : 110000 * ε ≤ (A * c) ^ 2)
    (hη : 16 * F.η ≤ F.u ^ 3) (hk' : C3 k' k ε) (hp' : C3 p' p ε) (hq' : C3 q' q ε) (hd' : d'.Near d ε) :
    ∃ t1 t2, subproblem4 p' q' k' d' = [t1, t2] ∧
      Spec.AngNear t1 (-Complex.arg ⟨p.dot (k.cross q), -p.dot (k.cross (k.cross q))⟩ + Real.arcsin x) (12000 * (ε / (A * c))) ∧
      Spec.AngNear t2 (-Complex.arg ⟨p.dot (k.cross q), -p.dot (k.cross (k.cross q))⟩ - Real.arcsin x + Real.pi) (12000 * (ε / (A * c))) := by
  rw [subproblem4]
  simp only
  have u0 := F.u_nonneg
  have e0 := u0.trans hu
  have k1 := V3.norm_eq_one hk
  have A6 : A ≤ 6 := by
    have n1 : (k.cross q).norm ≤ 2 := by
      have := V3.norm_cross_le k q
      rw [k1, one_mul] at this
      exact this.trans hq
    have n2 : (k.cross (k.cross q)).norm ≤ 2 := by
      have := V3.norm_cross_le k (k.cross q)
      rw [k1, one_mul] at this
      exact this.trans n1
    have b1 : |p.dot (k.cross q)| ≤ 4 := (V3.abs_dot_le _ _).trans
      ((mul_le_mul hp n1 (V3.norm_nonneg _) (by norm_num)).trans (by norm_num))
    have b2 : |-p.dot (k.cross (k.cross q))| ≤ 4 := by
      rw [abs_neg]
      exact (V3.abs_dot_le _ _).trans ((mul_le_mul hp n2 (V3.norm_nonneg _) (by norm_num)).trans (by norm_num))
    have := (two_le b1 b1 b2 b2).2
    rw [hA2] at this
    have h36 : A ^ 2 ≤ 6 ^ 2 := by
      have := (le_abs_self (A ^ 2)).trans this
      norm_num at this ⊢
      linarith
    exact (sq_le_sq₀ hA.le (by norm_num)).1 h36
  have c1 : c ≤ 1 := by
    have := mul_self_nonneg x
    exact (sq_le_sq₀ hc.le zero_le_one).1 (by rw [one_pow]; linarith)
  have x1 : |x| ≤ 1 := by
    rw [← sq_le_one_iff_abs_le_one]
    have := mul_self_nonneg c
    linarith
  set m := A * c with hm
  have m0 : 0 < m := mul_pos hA hc
  have mA : m ≤ A := mul_le_of_le_one_right hA.le c1
  have m2 : m ^ 2 ≤ 6 * m := by rw [pow_two]; exact mul_le_mul_of_nonneg_right (mA.trans A6) m0.le
  have m36 : m ^ 2 ≤ 36 := by linarith
  have em : 18333 * ε ≤ m := by linarith
  have hε : ε ≤ 1 / 1000 := by linarith
  obtain ⟨na, nb, nc⟩ := sp4_coeff hk hp hq hd hu hε hk' hp' hq' hd'
  rw [hx] at nc
  have hφ := near_arctan2 hF hA hA2 nb (na.mono (by linarith)) (by linarith)
  have φ4 : ∀ v, (Elem.arctan2 (-(p'.dot ((hat k').mulVec ((hat k').mulVec q')))) ((M3.vecMul p' (hat k')).dot q')).val = .fin v → |v| ≤ 4 :=
    fun v hv => arctan2_fin_le hF hv
  have hn : (Elem.sqrt ((M3.vecMul p' (hat k')).dot q' * (M3.vecMul p' (hat k')).dot q' +
      -(p'.dot ((hat k').mulVec ((hat k').mulVec q'))) * -(p'.dot ((hat k').mulVec ((hat k').mulVec q'))))).Near A (1680 * ε) := by
    refine (near_norm2 (na.mono (show (208 * ε : ℝ) ≤ 712 * ε by linarith)) nb hA hA2 A6 (by linarith) (by linarith) (by linarith) hη).mono ?_
    have : (39 * (6 + 2 * (712 * ε)) + 1) * F.u ≤ 254 * ε := mul_le_mul (by linarith) hu u0 (by norm_num)
    linarith
  generalize (M3.vecMul p' (hat k')).dot q' = a at *
  generalize -(p'.dot ((hat k').mulVec ((hat k').mulVec q'))) = b at *
  have G0 : 0 ≤ ε / A := by positivity
  have hG : ε ≤ 6 * (ε / A) := by
    rw [← mul_div_assoc, le_div_iff₀ hA, mul_comm]
    exact mul_le_mul_of_nonneg_right A6 e0
  have hG1 : ε / A ≤ 1 / 18333 := by rw [div_le_div_iff₀ hA (by norm_num)]; linarith
  have hquot := near_quotG nc hn hA (by rw [mul_div_cancel_left₀ x hA.ne']; exact x1) (by linarith) (D := 2735 * (ε / A)) (by
    rw [show (781 * ε + 1680 * ε) / (9 / 10 * A) = 24610 / 9 * (ε / A) by field_simp; ring]
    exact mul_le_mul_of_nonneg_right (by norm_num) G0) (by linarith)
  rw [mul_div_cancel_left₀ x hA.ne'] at hquot
  replace hquot := hquot.mono (show _ ≤ 2753 * (ε / A) by linarith)
  have hδ : 2 * (2753 * (ε / A)) ≤ c ^ 2 := by
    have h1 : (A * c) ^ 2 = A * (A * c ^ 2) := by ring
    have h2 : A * (A * c ^ 2) ≤ 6 * (A * c ^ 2) := mul_le_mul_of_nonneg_right A6 (by positivity)
    rw [← mul_div_assoc, ← mul_div_assoc, div_le_iff₀ hA]
    rw [hm, h1] at he
    linarith
  obtain ⟨hnot, hψ⟩ := near_arcsin hF hc hxc hquot hδ
  have hMm : 2753 * (ε / A) / c = 2753 * (ε / m) := by rw [hm]; field_simp
  have M0 : 0 ≤ ε / m := by positivity
  have hGM : ε / A ≤ ε / m := div_le_div_of_nonneg_left e0 m0 mA
  have hM : ε ≤ 6 * (ε / m) := hG.trans (by linarith)
  have hM1 : ε / m ≤ 1 / 18333 := by rw [div_le_div_iff₀ m0 (by norm_num)]; linarith
  rw [hMm] at hψ
  have hπ := Real.pi_lt_d4
  have hπ0 := Real.pi_pos
  replace hψ := hψ.mono (show _ ≤ 8655 * (ε / m) by
    have : Real.pi * (2753 * (ε / m)) ≤ 3.1416 * (2753 * (ε / m)) := mul_le_mul_of_nonneg_right hπ.le (by linarith)
    linarith)
  have hφ' : Spec.AngNear (Elem.arctan2 b a) (Complex.arg ⟨p.dot (k.cross q), -p.dot (k.cross (k.cross q))⟩) (2854 * (ε / m)) := by
    obtain ⟨n, hn⟩ := hφ
    refine ⟨n, hn.mono ?_⟩
    rw [show 4 * (712 * ε) / A = 2848 * (ε / A) by ring]
    linarith
  generalize Complex.arg ⟨p.dot (k.cross q), -p.dot (k.cross (k.cross q))⟩ = φ at *
  have ψ2 : |Real.arcsin x| ≤ 1.5708 := abs_le.2 ⟨by linarith [Real.neg_pi_div_two_le_arcsin x], by linarith [Real.arcsin_le_pi_div_two x]⟩
  generalize Real.arcsin x = ψ at *
  refine ⟨_, _, if_neg hnot, ?_, ?_⟩
  · obtain ⟨n, v, hv, h1⟩ := hφ'
    obtain ⟨w, hw, h2⟩ := hψ
    have v4 := φ4 v hv
    have w2 : |w| ≤ 2.05 := by
      rw [show w = (w - ψ) + ψ by ring]
      exact (abs_add_le _ _).trans (by norm_num at ψ2 ⊢; linarith)
    obtain ⟨z, hz, h3⟩ := near_add_of (F := F) (v := -v) (w := w) (by
      refine (abs_add_le _ _).trans ?_
      rw [abs_neg]; norm_num at w2 ⊢; linarith)
    have ea : -(Elem.arctan2 b a) = (of (-v) : Fl F) := by
      change (⟨-(Elem.arctan2 b a : Fl F).val⟩ : Fl F) = _
      rw [hv]; rfl
    refine ⟨-n, z, ?_, ?_⟩
    · rw [ea, show Elem.arcsin ((d' - (p'.dot q' - b)) / Elem.sqrt (a * a + b * b)) = (of w : Fl F) from congrArg Fl.mk hw]
      exact hz
    · push_cast
      rw [show z - (-φ + ψ + -n * (2 * Real.pi)) = (z - (-v + w)) + ((w - ψ) - (v - (φ + n * (2 * Real.pi)))) by ring]
      refine (abs_add_le _ _).trans ?_
      have := abs_sub (w - ψ) (v - (φ + n * (2 * Real.pi)))
      linarith
  · obtain ⟨n, v, hv, h1⟩ := hφ'
    obtain ⟨w, hw, h2⟩ := hψ
    have v4 := φ4 v hv
    have w2 : |w| ≤ 2.05 := by
      rw [show w = (w - ψ) + ψ by ring]
      exact (abs_add_le _ _).trans (by norm_num at ψ2 ⊢; linarith)
    have vw : |-v - w| ≤ 6.05 := by
      refine (abs_sub _ _).trans ?_
      rw [abs_neg]; norm_num at w2 ⊢; linarith
    obtain ⟨z, hz, h3⟩ := near_sub_of (F := F) (v := -v) (w := w) (vw.trans (by norm_num))
    obtain ⟨π', hπ', h4⟩ := near_pi' (F := F)
    have ea : -(Elem.arctan2 b a) = (of (-v) : Fl F) := by
      change (⟨-(Elem.arctan2 b a : Fl F).val⟩ : Fl F) = _
      rw [hv]; rfl
    have u1 := F.u_le
    obtain ⟨y, hy, h5⟩ := near_add_of (F := F) (v := z) (w := π') (by
      rw [show z + π' = ((z - (-v - w)) + (-v - w)) + ((π' - Real.pi) + Real.pi) by ring]
      have g1 := abs_add_le (z - (-v - w)) (-v - w)
      have g2 := abs_add_le (π' - Real.pi) Real.pi
      rw [abs_of_pos hπ0] at g2
      refine (abs_add_le _ _).trans ?_
      linarith)
    refine ⟨-n, y, ?_, ?_⟩
    · rw [ea, show Elem.arcsin ((d' - (p'.dot q' - b)) / Elem.sqrt (a * a + b * b)) = (of w : Fl F) from congrArg Fl.mk hw,
        show (of (-v) - of w : Fl F) = of z from congrArg Fl.mk hz, show (Elem.pi : Fl F) = of π' from congrArg Fl.mk hπ']
      exact hy
    · push_cast
      rw [show y - (-φ - ψ + Real.pi + -n * (2 * Real.pi)) = ((y - (z + π')) + (z - (-v - w))) + ((π' - Real.pi) - ((w - ψ) + (v - (φ + n * (2 * Real.pi))))) by ring]
      have g1 := abs_add_le (y - (z + π')) (z - (-v - w))
      have g2 := abs_sub (π' - Real.pi) ((w - ψ) + (v - (φ + n * (2 * Real.pi))))
      have g3 := abs_add_le (w - ψ) (v - (φ + n * (2 * Real.pi)))
      refine (abs_add_le _ _).trans ?_
      linarith

end Fl
