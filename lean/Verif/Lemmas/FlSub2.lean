import Verif.Lemmas.FlSub3

/-! # Rounding error of `subproblem2` for two perpendicular axes -/
set_option autoImplicit false

/-- The frame made of two perpendicular axes and their cross product. -/
theorem ofCols_rot {k1 k2 : V3 ℝ} (u1 : IsUnit3 k1) (u2 : IsUnit3 k2) (h : k1.dot k2 = 0) : IsRot (M3.ofCols k1 k2 (k1.cross k2)) := by
  simp only [IsUnit3, V3.dot] at u1 u2 h
  refine ⟨?_, ?_⟩
  · ext <;> simp [M3.ofCols] <;> first
      | linear_combination u1
      | linear_combination u2
      | linear_combination h
      | linear_combination (k2.x * k2.x + k2.y * k2.y + k2.z * k2.z) * u1 + u2 - (k1.x * k2.x + k1.y * k2.y + k1.z * k2.z) * h
      | ring
  · simp [M3.det, M3.ofCols]
    linear_combination (k2.x * k2.x + k2.y * k2.y + k2.z * k2.z) * u1 + u2 - (k1.x * k2.x + k1.y * k2.y + k1.z * k2.z) * h

/-- The intermediate point of `subproblem2` in the frame of the two axes. -/
theorem sp2_real {k1 k2 p q : V3 ℝ} (h1 : IsUnit3 k1) (h2 : IsUnit3 k2) (hp : IsUnit3 p) (h12 : k1.dot k2 = 0) {θ1 θ2 : ℝ}
    (hq : (rot k1 θ1 * rot k2 θ2).mulVec p = q) {c : V3 ℝ} (hc : c = (rot k2 θ2).mulVec p) {g : ℝ} (hg : g = (k1.cross k2).dot c) :
    c = (M3.ofCols k1 k2 (k1.cross k2)).mulVec ⟨q.dot k1, p.dot k2, g⟩ ∧ q.dot k1 * q.dot k1 + p.dot k2 * p.dot k2 + g * g = 1 ∧
    |g| ≤ (q.perp k1).norm ∧ |g| ≤ (p.perp k2).norm ∧ (rot k1 (-θ1)).mulVec q = c ∧ IsUnit3 q := by
  have R1 := rot_isRot k1 h1 θ1
  have R2 := rot_isRot k2 h2 θ2
  have hR := ofCols_rot h1 h2 h12
  have hcu : IsUnit3 c := by rw [hc]; exact (R2.dot_mulVec p p).trans hp
  have hq' : q = (rot k1 θ1).mulVec c := by rw [← hq, hc, M3.mulVec_mulVec]
  have hqu : IsUnit3 q := by rw [hq']; exact (R1.dot_mulVec c c).trans hcu
  have ax1 : q.dot k1 = k1.dot c := by
    rw [hq', rot_dot_axis h1, V3.dot_comm]
  have ax2 : p.dot k2 = k2.dot c := by
    rw [hc, V3.dot_comm k2, rot_dot_axis h2]
  have hT : (M3.ofCols k1 k2 (k1.cross k2)).transpose.mulVec c = ⟨q.dot k1, p.dot k2, g⟩ := by
    rw [ax1, ax2, hg]
    ext <;> simp [M3.ofCols, V3.dot]
  have e1 : c = (M3.ofCols k1 k2 (k1.cross k2)).mulVec ⟨q.dot k1, p.dot k2, g⟩ := by
    rw [← hT, hR.mulVec_transpose_mulVec]
  have e2 : q.dot k1 * q.dot k1 + p.dot k2 * p.dot k2 + g * g = 1 := by
    have := hR.transpose.dot_mulVec c c
    rw [hT] at this
    exact this.trans hcu
  have perp : ∀ {v k : V3 ℝ}, IsUnit3 v → IsUnit3 k → (v.perp k).norm ^ 2 = 1 - v.dot k * v.dot k := by
    intro v k hv hk
    rw [pow_two, V3.norm_mul_self]
    simp only [IsUnit3, V3.dot] at hv hk
    simp [V3.perp, V3.dot]
    linear_combination hv + (v.x * k.x + v.y * k.y + v.z * k.z) ^ 2 * hk
  refine ⟨e1, e2, ?_, ?_, ?_, hqu⟩
  · refine abs_le_of_sq_le_sq ?_ (V3.norm_nonneg _)
    rw [perp hqu h1]
    linarith [mul_self_nonneg (p.dot k2)]
  · refine abs_le_of_sq_le_sq ?_ (V3.norm_nonneg _)
    rw [perp hp h2]
    linarith [mul_self_nonneg (q.dot k1)]
  · rw [hq', rot_neg, R1.transpose_mulVec_mulVec]

namespace Fl
variable {F : FSys} {ε : ℝ}

/-- Division by a number near -1. -/
theorem near_div_neg {a b : Fl F} {x A B : ℝ} (ha : a.Near x A) (hb : b.Near (-1) B) (hx : |x| ≤ 11 / 10) (hA : A ≤ 1 / 2) (hB : 10 * B ≤ 1) :
    (a / b).Near (-x) (10 / 9 * (A + 11 / 10 * B) + 3 * F.u) := by
  obtain ⟨v, hv, h⟩ := ha
  obtain ⟨w, hw, h'⟩ := hb
  have u0 := F.u_nonneg
  have u1 := F.u_le
  have ηu := F.η_le
  have big := F.big_ge
  have A0 := (abs_nonneg _).trans h
  have B0 := (abs_nonneg _).trans h'
  have wlo : w ≤ -(9 / 10) := by have := (abs_le.1 h').2; linarith
  have w0 : w < 0 := by linarith
  have hd : |v / w - -x| ≤ 10 / 9 * (A + 11 / 10 * B) := by
    have e : v / w - -x = ((v - x) + x * (w - -1)) / w := by
      rw [eq_div_iff w0.ne]
      linear_combination div_mul_cancel₀ v w0.ne
    rw [e, abs_div, abs_of_neg w0, div_le_iff₀ (by linarith)]
    refine (abs_add_le _ _).trans ?_
    rw [abs_mul]
    have := mul_le_mul hx h' (abs_nonneg _) (by norm_num)
    have : 10 / 9 * (A + 11 / 10 * B) * (9 / 10) ≤ 10 / 9 * (A + 11 / 10 * B) * -w := mul_le_mul_of_nonneg_left (by linarith) (by linarith)
    linarith
  have hS := near_round (F := F) (w := v / w) (x := -x) (d := 10 / 9 * (A + 11 / 10 * B)) (e := 10 / 9 * (A + 11 / 10 * B) + 3 * F.u) hd (by
    have h1 : F.u * (|-x| + 10 / 9 * (A + 11 / 10 * B)) ≤ F.u * (11 / 10 + 7 / 10) := mul_le_mul_of_nonneg_left (by rw [abs_neg]; linarith) u0
    linarith) (by rw [abs_neg]; linarith)
  change (⟨F.round (a.val / b.val)⟩ : Fl F).Near _ _
  rw [hv, hw, XReal.fin_div _ w0.ne]
  exact hS

/-- Square root of a number near the square of a number between `c` and 1. -/
theorem near_sqrtG {a : Fl F} {g c B : ℝ} (ha : a.Near (g ^ 2) B) (hc : 0 < c) (hg : c ≤ g) (hg1 : g ≤ 1) (hB : B ≤ c ^ 2) :
    (Elem.sqrt a).Near g (B / c + 3 * F.u) := by
  obtain ⟨v, hv, h⟩ := ha
  have u0 := F.u_nonneg
  have u1 := F.u_le
  have ηu := F.η_le
  have big := F.big_ge
  have g0 : 0 < g := hc.trans_le hg
  have cg : c ^ 2 ≤ g ^ 2 := pow_le_pow_left₀ hc.le hg 2
  have v0 : 0 ≤ v := by have := (abs_le.1 h).1; linarith
  have B0 := (abs_nonneg _).trans h
  have Bc : B / c ≤ 1 := by
    rw [div_le_one hc]
    exact hB.trans (by rw [pow_two]; exact mul_le_of_le_one_left hc.le (hg.trans hg1))
  have hd : |Real.sqrt v - g| ≤ B / c := by
    have e : (Real.sqrt v - g) * (Real.sqrt v + g) = v - g ^ 2 := by
      have := Real.mul_self_sqrt v0
      linarith
    have e2 : |Real.sqrt v - g| * (Real.sqrt v + g) = |v - g ^ 2| := by
      rw [← e, abs_mul, abs_of_nonneg (add_nonneg (Real.sqrt_nonneg v) g0.le)]
    have e3 : |Real.sqrt v - g| * c ≤ |Real.sqrt v - g| * (Real.sqrt v + g) :=
      mul_le_mul_of_nonneg_left (by have := Real.sqrt_nonneg v; linarith) (abs_nonneg _)
    rw [le_div_iff₀ hc]
    linarith
  have hS := near_round (F := F) (w := Real.sqrt v) (x := g) (d := B / c) (e := B / c + 3 * F.u) hd (by
    have : F.u * (|g| + B / c) ≤ F.u * (1 + 1) := mul_le_mul_of_nonneg_left (by rw [abs_of_pos g0]; linarith) u0
    linarith) (by rw [abs_of_pos g0]; linarith)
  change (⟨F.round (Elem.sqrt a.val)⟩ : Fl F).Near _ _
  rw [hv, XReal.sqrt_fin v0]
  exact hS

theorem npEps_le (hu : F.u ≤ 1 / 100000) (hη : 16 * F.η ≤ F.u ^ 3) : (npEps : Fl F).Near 0 (1 / 1000000000000000) := by
  have u0 := F.u_nonneg
  have q1 : ((1 / 4503599627370496 : ℚ) : ℝ) = 1 / 4503599627370496 := by norm_num
  obtain ⟨w, hw, h1⟩ : (npEps : Fl F).Near (1 / 4503599627370496) (F.u * (1 / 4503599627370496) + F.η) := by
    have := near_lit_abs (F := F) (1 / 4503599627370496) (by rw [q1, abs_of_pos (by norm_num)]; norm_num)
    rwa [q1, abs_of_pos (by norm_num)] at this
  have u3 : F.u ^ 3 ≤ (1 / 100000) ^ 3 := pow_le_pow_left₀ u0 hu 3
  norm_num at u3
  refine ⟨w, hw, ?_⟩
  rw [sub_zero]
  obtain ⟨h2, h3⟩ := abs_le.1 h1
  have ue : F.u * (1 / 4503599627370496) ≤ 1 / 100000 * (1 / 4503599627370496) := mul_le_mul_of_nonneg_right hu (by norm_num)
  exact abs_le.2 ⟨by linarith, by linarith⟩

theorem not_lt_eps (hu : F.u ≤ 1 / 100000) (hη : 16 * F.η ≤ F.u ^ 3) {a : Fl F} {x e : ℝ} (ha : a.Near x e) (h : e + 1 / 1000000000000000 ≤ x) :
    ¬ a < npEps := by
  obtain ⟨w, hw, h1⟩ := npEps_le hu hη
  obtain ⟨v, hv, h2⟩ := ha
  change ¬ a.val < (npEps : Fl F).val
  rw [hv, hw, XReal.fin_lt]
  have := (abs_le.1 h1).2
  have := (abs_le.1 h2).1
  linarith

/-- Cross product of two unit vectors known up to a rounding error. -/
theorem near_cross {a b : V3 ℝ} (ha : IsUnit3 a) (hb : IsUnit3 b) {a' b' : V3 (Fl F)} (hu : F.u ≤ 1 / 1000) (ha' : C3 a' a F.u) (hb' : C3 b' b F.u) :
    C3 (a'.cross b') (a.cross b) (13 * F.u) := by
  obtain ⟨a1, a2, a3⟩ := ha'
  obtain ⟨b1, b2, b3⟩ := hb'
  obtain ⟨x1, x2, x3⟩ := abs_le_of_unit3 ha
  obtain ⟨y1, y2, y3⟩ := abs_le_of_unit3 hb
  have n : (a.cross b).norm ≤ 1 := by
    have := V3.norm_cross_le a b
    rwa [V3.norm_eq_one ha, V3.norm_eq_one hb, one_mul] at this
  rw [← one_mul F.u] at a1 a2 a3 b1 b2 b3
  have mul : ∀ {p q : Fl F} {x y : ℝ}, p.Near x (1 * F.u) → q.Near y (1 * F.u) → |x| ≤ 1 → |y| ≤ 1 → (p * q).Near (x * y) (5 * F.u) :=
    fun h h' hx hy => h.mulE 5 h' le_rfl hu hx hy (by norm_num) (by norm_num) (by norm_num) (by norm_num)
  have one : ∀ {p q r s : Fl F} {x y z w : ℝ}, p.Near x (1 * F.u) → q.Near y (1 * F.u) → r.Near z (1 * F.u) → s.Near w (1 * F.u) →
      |x| ≤ 1 → |y| ≤ 1 → |z| ≤ 1 → |w| ≤ 1 → |x * y - z * w| ≤ 1 → (p * q - r * s).Near (x * y - z * w) (13 * F.u) :=
    fun h1 h2 h3 h4 g1 g2 g3 g4 g => (mul h1 h2 g1 g2).subE 13 (mul h3 h4 g3 g4) le_rfl (by linarith) g (by norm_num) (by norm_num) (by norm_num)
  exact ⟨one a2 b3 a3 b2 x2 y3 x3 y2 ((V3.abs_x_le _).trans n), one a3 b1 a1 b3 x3 y1 x1 y3 ((V3.abs_y_le _).trans n),
    one a1 b2 a2 b1 x1 y2 x2 y1 ((V3.abs_z_le _).trans n)⟩

/-- A matrix from its columns. -/
theorem mNear_ofCols {a b c : V3 (Fl F)} {x y z : V3 ℝ} {d e f : ℝ} (ha : Spec.VNear a x d) (hb : Spec.VNear b y e) (hc : Spec.VNear c z f) :
    Spec.MNear (M3.ofCols a b c) (M3.ofCols x y z) (d + e + f) := by
  obtain ⟨a, rfl, ha⟩ := ha
  obtain ⟨b, rfl, hb⟩ := hb
  obtain ⟨c, rfl, hc⟩ := hc
  refine ⟨M3.ofCols a b c, rfl, fun v => ?_⟩
  have e1 : (M3.ofCols a b c).mulVec v - (M3.ofCols x y z).mulVec v = V3.smul v.x (a - x) + (V3.smul v.y (b - y) + V3.smul v.z (c - z)) := by
    ext <;> simp [M3.ofCols] <;> ring
  have sm : ∀ (t : ℝ) (w : V3 ℝ) {r : ℝ}, |t| ≤ v.norm → w.norm ≤ r → (V3.smul t w).norm ≤ r * v.norm := by
    intro t w r ht hw
    rw [show V3.smul t w = t • w from rfl, V3.norm_hsmul, mul_comm]
    exact mul_le_mul hw ht (abs_nonneg _) ((V3.norm_nonneg _).trans hw)
  rw [e1]
  have h1 := V3.norm_add_le (V3.smul v.x (a - x)) (V3.smul v.y (b - y) + V3.smul v.z (c - z))
  have h2 := V3.norm_add_le (V3.smul v.y (b - y)) (V3.smul v.z (c - z))
  have s1 := sm v.x (a - x) (V3.abs_x_le v) ha
  have s2 := sm v.y (b - y) (V3.abs_y_le v) hb
  have s3 := sm v.z (c - z) (V3.abs_z_le v) hc
  linarith

/-- The quantities computed by `subproblem2` up to the discriminant, from the stored points. -/
theorem sp2_coeff {k1 k2 p w : V3 ℝ} (h1 : IsUnit3 k1) (h2 : IsUnit3 k2) (hp : IsUnit3 p) (h12 : k1.dot k2 = 0) (hw : w.norm ≤ 11 / 10)
    {k1' k2' p' : V3 (Fl F)} (hu : F.u ≤ 1 / 100000) (h1' : C3 k1' k1 F.u) (h2' : C3 k2' k2 F.u) (hp' : C3 p' p F.u)
    {k12 pk qk den a0 a1 : Fl F} (e12 : k12 = k1'.dot k2') (epk : pk = p'.dot k2') (eqk : qk = (w.map of).dot k1') (eden : den = k12 * k12 - 1)
    (ea0 : a0 = (k12 * pk + lit (-1) * qk) / den) (ea1 : a1 = (lit (-1) * pk + k12 * qk) / den) :
    (Elem.abs (1 - k12 * k12)).Near 1 (5 * F.u) ∧ a0.Near (w.dot k1) (80 * F.u) ∧ a1.Near (p.dot k2) (80 * F.u) ∧
    (p'.dot p' - (a0 * a0 + a1 * a1) - lit 2 * a0 * a1 * k12).Near (1 - (w.dot k1 * w.dot k1 + p.dot k2 * p.dot k2)) (460 * F.u) := by
  have u0 := F.u_nonneg
  have n1 := V3.norm_eq_one h1
  have n2 := V3.norm_eq_one h2
  have np := V3.norm_eq_one hp
  have hw0 : C3 (w.map of : V3 (Fl F)) w (0 * F.u) := by rw [zero_mul]; exact C3.of_le w le_rfl
  rw [← one_mul F.u] at h1' h2' hp'
  have κ1 : |w.dot k1| ≤ 11 / 10 := by
    have := V3.abs_dot_le w k1
    rw [n1, mul_one] at this
    linarith
  have π1 : |p.dot k2| ≤ 1 := by
    have := V3.abs_dot_le p k2
    rwa [n2, np, mul_one] at this
  have hu' : F.u ≤ 1 / 1000 := by linarith
  have N12 : k12.Near 0 (22 * F.u) := by
    rw [e12, ← h12]
    exact near_dotE (τ := 1 / 1000) 5 14 22 h1' h2' le_rfl hu' (by norm_num) n1.le n2.le (by norm_num) (by norm_num) (by norm_num) (by norm_num) (by norm_num) (by norm_num)
  have Npk : pk.Near (p.dot k2) (22 * F.u) := by
    rw [epk]
    exact near_dotE (τ := 1 / 1000) 5 14 22 hp' h2' le_rfl hu' (by norm_num) np.le n2.le (by norm_num) (by norm_num) (by norm_num) (by norm_num) (by norm_num) (by norm_num)
  have Npp : (p'.dot p').Near 1 (22 * F.u) := by
    rw [← show p.dot p = 1 from hp]
    exact near_dotE (τ := 1 / 1000) 5 14 22 hp' hp' le_rfl hu' (by norm_num) np.le np.le (by norm_num) (by norm_num) (by norm_num) (by norm_num) (by norm_num) (by norm_num)
  have Nqk : qk.Near (w.dot k1) (22 * F.u) := by
    rw [eqk]
    exact near_dotE (τ := 1 / 1000) 4 12 20 hw0 h1' le_rfl hu' (by norm_num) hw n1.le (by norm_num) (by norm_num) (by norm_num) (by norm_num) (by norm_num) (by norm_num) |>.mono (by linarith)
  clear e12 epk eqk
  generalize w.dot k1 = κ at *
  generalize p.dot k2 = π at *
  have N0 : (k12 * k12).Near (0 * 0) (2 * F.u) :=
    N12.mulE 2 N12 le_rfl hu' (by rw [abs_zero] : |(0 : ℝ)| ≤ 0) (by rw [abs_zero] : |(0 : ℝ)| ≤ 0) (by norm_num) (by norm_num) (by norm_num) (by norm_num)
  rw [mul_zero] at N0
  have one0 : (1 : Fl F).Near 1 (0 * F.u) := by rw [zero_mul]; exact near_of 1
  have Nl : (lit (-1) : Fl F).Near (-1) (2 * F.u) := by
    have := near_lit (F := F) (ε := F.u) (-1) (S := 1) le_rfl (by linarith) (by norm_num) (by norm_num)
    norm_num at this
    exact this
  have N1 : (1 - k12 * k12).Near (1 - 0) (5 * F.u) :=
    one0.subE 5 N0 le_rfl (by linarith) (by norm_num : |(1 : ℝ) - 0| ≤ 1) (by norm_num) (by norm_num) (by norm_num)
  have Nd : den.Near (0 - 1) (5 * F.u) := by
    rw [eden]
    exact N0.subE 5 one0 le_rfl (by linarith) (by norm_num : |(0 : ℝ) - 1| ≤ 1) (by norm_num) (by norm_num) (by norm_num)
  rw [sub_zero] at N1
  rw [zero_sub] at Nd
  have z0 : |(0 : ℝ)| ≤ 0 := by rw [abs_zero]
  have m1 : |(-1 : ℝ)| ≤ 1 := by norm_num
  have A0 : a0.Near κ (80 * F.u) := by
    have t1 : (k12 * pk).Near (0 * π) (24 * F.u) := N12.mulE 24 Npk le_rfl hu' z0 π1 (by norm_num) (by norm_num) (by norm_num) (by norm_num)
    have t2 : (lit (-1) * qk).Near (-1 * κ) (28 * F.u) := Nl.mulE 28 Nqk le_rfl hu' m1 κ1 (by norm_num) (by norm_num) (by norm_num) (by norm_num)
    have t3 : (k12 * pk + lit (-1) * qk).Near (0 * π + -1 * κ) (60 * F.u) :=
      t1.addE 60 t2 le_rfl (by linarith) (S := 11 / 10) (by rw [zero_mul, zero_add, neg_one_mul, abs_neg]; exact κ1) (by norm_num) (by norm_num) (by norm_num)
    rw [zero_mul, zero_add, neg_one_mul] at t3
    have := near_div_neg t3 Nd (by rwa [abs_neg]) (by linarith) (by linarith)
    rw [ea0]
    rw [neg_neg] at this
    exact this.mono (by linarith)
  have A1 : a1.Near π (80 * F.u) := by
    have t1 : (k12 * qk).Near (0 * κ) (26 * F.u) := N12.mulE 26 Nqk le_rfl hu' z0 κ1 (by norm_num) (by norm_num) (by norm_num) (by norm_num)
    have t2 : (lit (-1) * pk).Near (-1 * π) (27 * F.u) := Nl.mulE 27 Npk le_rfl hu' m1 π1 (by norm_num) (by norm_num) (by norm_num) (by norm_num)
    have t3 : (lit (-1) * pk + k12 * qk).Near (-1 * π + 0 * κ) (60 * F.u) :=
      t2.addE 60 t1 le_rfl (by linarith) (S := 1) (by rw [zero_mul, add_zero, neg_one_mul, abs_neg]; exact π1) (by norm_num) (by norm_num) (by norm_num)
    rw [zero_mul, add_zero, neg_one_mul] at t3
    have := near_div_neg t3 Nd (by rw [abs_neg]; linarith) (by linarith) (by linarith)
    rw [ea1]
    rw [neg_neg] at this
    exact this.mono (by linarith)
  refine ⟨by simpa using N1.abs, A0, A1, ?_⟩
  have κ2 : |κ * κ| ≤ 121 / 100 := by
    rw [abs_mul]; exact (mul_le_mul κ1 κ1 (abs_nonneg _) (by norm_num)).trans (by norm_num)
  have π2 : |π * π| ≤ 1 := by
    rw [abs_mul]; exact (mul_le_mul π1 π1 (abs_nonneg _) (by norm_num)).trans (by norm_num)
  have κ3 := abs_le.1 κ2
  have π3 := abs_le.1 π2
  have κ4 := mul_self_nonneg κ
  have π4 := mul_self_nonneg π
  have s1 : (a0 * a0).Near (κ * κ) (185 * F.u) := A0.mulE 185 A0 le_rfl hu' κ1 κ1 (by norm_num) (by norm_num) (by norm_num) (by norm_num)
  have s2 : (a1 * a1).Near (π * π) (170 * F.u) := A1.mulE 170 A1 le_rfl hu' π1 π1 (by norm_num) (by norm_num) (by norm_num) (by norm_num)
  have s3 : (a0 * a0 + a1 * a1).Near (κ * κ + π * π) (360 * F.u) :=
    s1.addE 360 s2 le_rfl (by linarith) (S := 221 / 100) (abs_le.2 ⟨by linarith, by linarith⟩) (by norm_num) (by norm_num) (by norm_num)
  have s4 : (p'.dot p' - (a0 * a0 + a1 * a1)).Near (1 - (κ * κ + π * π)) (388 * F.u) :=
    Npp.subE 388 s3 le_rfl (by linarith) (S := 221 / 100) (abs_le.2 ⟨by linarith, by linarith⟩) (by norm_num) (by norm_num) (by norm_num)
  have l2 : (lit 2 : Fl F).Near 2 (3 * F.u) := by
    have := near_lit (F := F) (ε := F.u) 2 (S := 2) le_rfl (by linarith) (by norm_num) (by norm_num)
    norm_num at this
    exact this
  have s5 : (lit 2 * a0).Near (2 * κ) (168 * F.u) := l2.mulE 168 A0 le_rfl hu' (M := 2) (by norm_num) κ1 (by norm_num) (by norm_num) (by norm_num) (by norm_num)
  have s6 : (lit 2 * a0 * a1).Near (2 * κ * π) (363 * F.u) :=
    s5.mulE 363 A1 le_rfl hu' (M := 22 / 10) (by rw [abs_mul, abs_two]; linarith) π1 (by norm_num) (by norm_num) (by norm_num) (by norm_num)
  have s7 : (lit 2 * a0 * a1 * k12).Near (2 * κ * π * 0) (60 * F.u) :=
    s6.mulE 60 N12 le_rfl hu' (M := 22 / 10) (by
      rw [abs_mul, abs_mul, abs_two]
      have := mul_le_mul κ1 π1 (abs_nonneg _) (by norm_num)
      linarith) z0 (by norm_num) (by norm_num) (by norm_num) (by norm_num)
  rw [mul_zero] at s7
  have s8 := s4.subE 460 s7 le_rfl (by linarith) (S := 221 / 100) (abs_le.2 ⟨by linarith, by linarith⟩) (by norm_num) (by norm_num) (by norm_num)
  rwa [sub_zero] at s8

theorem vNear_sum {a b c : Fl F} {x y z d e f : ℝ} (ha : a.Near x d) (hb : b.Near y e) (hc : c.Near z f) :
    Spec.VNear (⟨a, b, c⟩ : V3 (Fl F)) ⟨x, y, z⟩ (d + e + f) := by
  obtain ⟨a⟩ := a
  obtain ⟨b⟩ := b
  obtain ⟨c⟩ := c
  obtain ⟨v0, e0, h0⟩ := ha
  obtain ⟨v1, e1, h1⟩ := hb
  obtain ⟨v2, e2, h2⟩ := hc
  cases e0; cases e1; cases e2
  refine ⟨⟨v0, v1, v2⟩, rfl, ?_⟩
  refine le_trans ?_ (add_le_add (add_le_add h0 h1) h2)
  rw [V3.norm_eq]
  refine Real.sqrt_le_iff.2 ⟨by positivity, ?_⟩
  change (v0 - x) * (v0 - x) + (v1 - y) * (v1 - y) + (v2 - z) * (v2 - z) ≤ _
  have p1 := mul_nonneg (abs_nonneg (v0 - x)) (abs_nonneg (v1 - y))
  have p2 := mul_nonneg (abs_nonneg (v0 - x)) (abs_nonneg (v2 - z))
  have p3 := mul_nonneg (abs_nonneg (v1 - y)) (abs_nonneg (v2 - z))
  have q1 := abs_mul_abs_self (v0 - x)
  have q2 := abs_mul_abs_self (v1 - y)
  have q3 := abs_mul_abs_self (v2 - z)
  nlinarith

/-- The checks and the two intermediate points computed by `subproblem2`. -/
theorem sp2_points {k1 k2 p q w : V3 ℝ} (h1 : IsUnit3 k1) (h2 : IsUnit3 k2) (hp : IsUnit3 p) (h12 : k1.dot k2 = 0) (hqu : IsUnit3 q) {e γ G : ℝ}
    (hw : (w - q).norm ≤ e) (hγ0 : 1 / 1000000 ≤ γ) (hγ : γ ≤ G) (hG : q.dot k1 * q.dot k1 + p.dot k2 * p.dot k2 + G * G = 1)
    {k1' k2' p' : V3 (Fl F)} (hu : F.u ≤ 1 / 100000000000) (hη : 16 * F.η ≤ F.u ^ 3) (he : 60 * e + 300000 * F.u ≤ γ ^ 2)
    (h1' : Spec.VNear k1' k1 F.u) (h2' : Spec.VNear k2' k2 F.u) (hp' : Spec.VNear p' p F.u)
    {k12 pk qk den a0 a1 bb gamma : Fl F} (e12 : k12 = k1'.dot k2') (epk : pk = p'.dot k2') (eqk : qk = (w.map of).dot k1') (eden : den = k12 * k12 - 1)
    (ea0 : a0 = (k12 * pk + lit (-1) * qk) / den) (ea1 : a1 = (lit (-1) * pk + k12 * qk) / den)
    (ebb : bb = p'.dot p' - (a0 * a0 + a1 * a1) - lit 2 * a0 * a1 * k12) (ega : gamma = Elem.sqrt bb / (k1'.cross k2').norm) :
    ¬ Elem.abs (1 - k12 * k12) < npEps ∧ ¬ Elem.abs bb < npEps ∧ ¬ bb < 0 ∧ ¬ Elem.abs gamma < npEps ∧
    Spec.VNear ((M3.ofCols k1' k2' (k1'.cross k2')).mulVec ⟨a0, a1, gamma⟩)
      ((M3.ofCols k1 k2 (k1.cross k2)).mulVec ⟨q.dot k1, p.dot k2, G⟩) ((34 / 10 * e + 900 * F.u) / γ) ∧
    Spec.VNear ((M3.ofCols k1' k2' (k1'.cross k2')).mulVec ⟨a0, a1, -gamma⟩)
      ((M3.ofCols k1 k2 (k1.cross k2)).mulVec ⟨q.dot k1, p.dot k2, -G⟩) ((34 / 10 * e + 900 * F.u) / γ) := by
  have u0 := F.u_nonneg
  have n1 := V3.norm_eq_one h1
  have nq := V3.norm_eq_one hqu
  have e0 : 0 ≤ e := (V3.norm_nonneg _).trans hw
  have γ0 : 0 < γ := by linarith
  have G0 : 0 < G := by linarith
  have GG : γ * γ ≤ G * G := mul_le_mul hγ hγ γ0.le G0.le
  have G1 : G ≤ 1 := by
    by_contra h
    have := mul_lt_mul'' (not_le.1 h) (not_le.1 h) zero_le_one zero_le_one
    linarith [mul_self_nonneg (q.dot k1), mul_self_nonneg (p.dot k2)]
  have γ1 : γ ≤ 1 := hγ.trans G1
  have γ2 : γ ^ 2 ≤ γ := by rw [pow_two]; exact mul_le_of_le_one_left γ0.le γ1
  have eγ : 60 * e + 300000 * F.u ≤ γ := he.trans γ2
  have γlo : 1 / 1000000000000 ≤ γ ^ 2 := by
    have := pow_le_pow_left₀ (by norm_num) hγ0 2
    norm_num at this ⊢
    exact this
  have hw11 : w.norm ≤ 11 / 10 := by
    have := V3.norm_add_le (w - q) q
    rw [show w - q + q = w by ext <;> simp] at this
    linarith
  have κe : |w.dot k1 - q.dot k1| ≤ e := by
    have := V3.abs_dot_le (w - q) k1
    rw [n1, mul_one, show (w - q).dot k1 = w.dot k1 - q.dot k1 by simp [V3.dot]; ring] at this
    linarith
  have κ1 : |w.dot k1| ≤ 11 / 10 := by
    have := V3.abs_dot_le w k1
    rw [n1, mul_one] at this
    linarith
  have q1 : |q.dot k1| ≤ 1 := by
    have := V3.abs_dot_le q k1
    rwa [n1, nq, mul_one] at this
  obtain ⟨N1, A0, A1, BB⟩ := sp2_coeff h1 h2 hp h12 hw11 (by linarith) (VNear.entries h1') (VNear.entries h2') (VNear.entries hp') e12 epk eqk eden ea0 ea1
  rw [← ebb] at BB
  have A0' := A0.shift κe
  have BB' := (BB.shift (y := G ^ 2) (e := 21 / 10 * e) (by
    rw [show 1 - (w.dot k1 * w.dot k1 + p.dot k2 * p.dot k2) - G ^ 2 = -(w.dot k1 * w.dot k1 - q.dot k1 * q.dot k1) by linear_combination -hG, abs_neg]
    exact sq_sub_le κe (by linarith)))
  set B := 460 * F.u + 21 / 10 * e with hB
  have Bγ : 28 * B ≤ γ ^ 2 := by linarith
  have GG' : γ ^ 2 ≤ G ^ 2 := by rw [pow_two, pow_two]; exact GG
  have CX := near_cross h1 h2 (by linarith) (VNear.entries h1') (VNear.entries h2')
  have ncx : (k1.cross k2).norm = 1 := by
    refine V3.norm_eq_one ?_
    simp only [IsUnit3, V3.dot] at h1 h2 h12 ⊢
    simp [V3.cross]
    linear_combination (k2.x * k2.x + k2.y * k2.y + k2.z * k2.z) * h1 + h2 - (k1.x * k2.x + k1.y * k2.y + k1.z * k2.z) * h12
  have NX : (k1'.cross k2').norm.Near 1 (70 * F.u) := by
    have := near_norm3 CX ncx.le (by linarith) hη
    rw [ncx] at this
    refine this.mono ?_
    have : F.u * (26 * F.u * 39) ≤ F.u * 1 := mul_le_mul_of_nonneg_left (by linarith) u0
    linarith
  have SQ := near_sqrtG BB' γ0 hγ G1 (by linarith)
  have Bg : B / γ ≤ 1 / 28 := by rw [div_le_iff₀ γ0]; linarith
  have Bg0 : 0 ≤ B / γ := by positivity
  have GA : gamma.Near G (10 / 9 * (B / γ + 73 * F.u) + 3 * F.u) := by
    rw [ega]
    have := near_quotG SQ NX one_pos (by rw [div_one, abs_of_pos G0]; exact G1) (by linarith) (D := 10 / 9 * (B / γ + 73 * F.u)) (le_of_eq (by ring)) (by linarith)
    rwa [div_one] at this
  have hR := ofCols_rot h1 h2 h12
  have MN := mNear_ofCols h1' h2' (vNear_of_entries CX.1 CX.2.1 CX.2.2)
  have DE : (F.u + F.u + 2 * (13 * F.u)) * 1 + (1 + (F.u + F.u + 2 * (13 * F.u))) * ((80 * F.u + e) + 80 * F.u + (10 / 9 * (B / γ + 73 * F.u) + 3 * F.u)) + 30 * (F.u * 1) ≤
      (34 / 10 * e + 900 * F.u) / γ := by
    have g1 : F.u ≤ F.u / γ := by rw [le_div_iff₀ γ0]; exact mul_le_of_le_one_right u0 γ1
    have g2 : e ≤ e / γ := by rw [le_div_iff₀ γ0]; exact mul_le_of_le_one_right e0 γ1
    have g3 : B / γ = 460 * (F.u / γ) + 21 / 10 * (e / γ) := by rw [hB]; ring
    rw [show (34 / 10 * e + 900 * F.u) / γ = 34 / 10 * (e / γ) + 900 * (F.u / γ) by ring]
    have g4 : F.u * ((80 * F.u + e) + 80 * F.u + (10 / 9 * (B / γ + 73 * F.u) + 3 * F.u)) ≤ F.u * 1 := mul_le_mul_of_nonneg_left (by linarith) u0
    linarith
  have pt : ∀ {t : Fl F} {T : ℝ}, T * T = G * G → t.Near T (10 / 9 * (B / γ + 73 * F.u) + 3 * F.u) →
      Spec.VNear ((M3.ofCols k1' k2' (k1'.cross k2')).mulVec ⟨a0, a1, t⟩)
      ((M3.ofCols k1 k2 (k1.cross k2)).mulVec ⟨q.dot k1, p.dot k2, T⟩) ((34 / 10 * e + 900 * F.u) / γ) := by
    intro t T hT ht
    have vn : (⟨q.dot k1, p.dot k2, T⟩ : V3 ℝ).norm = 1 := by
      refine V3.norm_eq_one ?_
      change q.dot k1 * q.dot k1 + p.dot k2 * p.dot k2 + T * T = 1
      rw [hT]; exact hG
    have := MNear.mulVec MN (vNear_sum A0' A1 ht) hR (s := 1) (by linarith) vn.le (by linarith) one_pos (by linarith [F.η_le]) (by linarith [F.big_ge])
    rw [vn] at this
    exact VNear.mono this DE
  refine ⟨not_lt_eps (by linarith) hη N1 (by linarith), not_lt_eps (by linarith) hη BB'.abs (by rw [abs_of_nonneg (sq_nonneg G)]; linarith), ?_,
    not_lt_eps (by linarith) hη GA.abs ?_, pt rfl GA, pt (by ring) GA.neg⟩
  · obtain ⟨x, hx, hxe⟩ := BB'
    change ¬ bb.val < XReal.fin 0
    rw [hx, XReal.fin_lt]
    have := (abs_le.1 hxe).1
    linarith
  · rw [abs_of_pos G0]
    have : B / γ ≤ γ / 16 := by rw [div_le_iff₀ γ0]; linarith
    linarith

/-- The four angles returned by `subproblem2` when its checks pass. -/
theorem sp2_run {p' q' k1' k2' : V3 (Fl F)} {k12 pk qk den a0 a1 bb gamma : Fl F} (e12 : k12 = k1'.dot k2') (epk : pk = p'.dot k2')
    (eqk : qk = q'.dot k1') (eden : den = k12 * k12 - 1)
    (ea0 : a0 = (k12 * pk + lit (-1) * qk) / den) (ea1 : a1 = (lit (-1) * pk + k12 * qk) / den)
    (ebb : bb = p'.dot p' - (a0 * a0 + a1 * a1) - lit 2 * a0 * a1 * k12) (ega : gamma = Elem.sqrt bb / (k1'.cross k2').norm)
    (c1 : ¬ Elem.abs (1 - k12 * k12) < npEps) (c2 : ¬ Elem.abs bb < npEps) (c3 : ¬ bb < 0) (c4 : ¬ Elem.abs gamma < npEps) {x y : V3 (Fl F)}
    (ex : x = (M3.ofCols k1' k2' (k1'.cross k2')).mulVec ⟨a0, a1, gamma⟩) (ey : y = (M3.ofCols k1' k2' (k1'.cross k2')).mulVec ⟨a0, a1, -gamma⟩) :
    (subproblem2 p' q' k1' k2' = .error .assertion ∧ (subproblem1 q' x k1' = .error .assertion ∨ subproblem1 q' y k1' = .error .assertion ∨
      subproblem1 p' x k2' = .error .assertion ∨ subproblem1 p' y k2' = .error .assertion)) ∨
    ∃ t1 t2 t3 t4, subproblem1 q' x k1' = .ok t1 ∧ subproblem1 q' y k1' = .ok t2 ∧
      subproblem1 p' x k2' = .ok t3 ∧ subproblem1 p' y k2' = .ok t4 ∧ subproblem2 p' q' k1' k2' = .ok [(-t1, t3), (-t2, t4)] := by
  have e : subproblem2 p' q' k1' k2' = (do
      let t11 ← subproblem1 q' x k1'
      let t12 ← subproblem1 q' y k1'
      let t21 ← subproblem1 p' x k2'
      let t22 ← subproblem1 p' y k2'
      return [(-t11, t21), (-t12, t22)]) := by
    subst ex ey ega ebb ea0 ea1 eden e12 epk eqk
    simp only [subproblem2]
    rw [if_neg c1, if_neg c2, if_neg c3, if_neg c4]
  rw [e]
  have two : ∀ a b c : V3 (Fl F), subproblem1 a b c = .error .assertion ∨ ∃ t, subproblem1 a b c = .ok t := by
    intro a b c
    rcases subproblem1_cases a b c with h | h | ⟨y, x, h | h⟩
    · exact .inl h
    · exact .inr ⟨_, h⟩
    · exact .inr ⟨_, h⟩
    · exact .inr ⟨_, h⟩
  rcases two q' x k1' with h1 | ⟨t1, h1⟩
  · exact .inl ⟨by rw [h1]; rfl, .inl h1⟩
  rcases two q' y k1' with h2 | ⟨t2, h2⟩
  · exact .inl ⟨by rw [h1, h2]; rfl, .inr (.inl h2)⟩
  rcases two p' x k2' with h3 | ⟨t3, h3⟩
  · exact .inl ⟨by rw [h1, h2, h3]; rfl, .inr (.inr (.inl h3))⟩
  rcases two p' y k2' with h4 | ⟨t4, h4⟩
  · exact .inl ⟨by rw [h1, h2, h3, h4]; rfl, .inr (.inr (.inr h4))⟩
  exact .inr ⟨t1, t2, t3, t4, h1, h2, h3, h4, by rw [h1, h2, h3, h4]; rfl⟩

theorem AngNear.neg' {a : Fl F} {θ e : ℝ} (h : Spec.AngNear a (-θ) e) : Spec.AngNear (-a) θ e := by
  obtain ⟨n, v, hv, h⟩ := h
  refine ⟨-n, -v, show -a.val = _ by rw [hv]; rfl, ?_⟩
  rw [← abs_neg] at h
  push_cast
  rwa [show -v - (θ + -n * (2 * Real.pi)) = -(v - (-θ + n * (2 * Real.pi))) by ring]

theorem AngNear.mono' {a : Fl F} {θ d e : ℝ} (h : Spec.AngNear a θ d) (hde : d ≤ e) : Spec.AngNear a θ e := by
  obtain ⟨n, v, hv, h⟩ := h
  exact ⟨n, v, hv, h.trans hde⟩

/-- `subproblem2` for perpendicular axes with a point known up to `e`, unless one of the inner checks fails. -/
theorem subproblem2_nearE (hF : Spec.InvAcc F) {k1 k2 p q : V3 ℝ} (h1 : IsUnit3 k1) (h2 : IsUnit3 k2) (hp : IsUnit3 p) (h12 : k1.dot k2 = 0)
    {θ1 θ2 γ e β : ℝ} (hq : (rot k1 θ1 * rot k2 θ2).mulVec p = q) (hγ0 : 1 / 1000000 ≤ γ) (hγ : γ ≤ |(k1.cross k2).dot ((rot k2 θ2).mulVec p)|)
    {k1' k2' p' q' : V3 (Fl F)} (hu : F.u ≤ 1 / 100000000000) (hη : 16 * F.η ≤ F.u ^ 3) (he : 60 * e + 300000 * F.u ≤ γ ^ 2)
    (hβ1 : Band β (e + (34 / 10 * e + 900 * F.u) / γ) q ((rot k2 θ2).mulVec p))
    (hβ2 : Band β (F.u + (34 / 10 * e + 900 * F.u) / γ) p ((rot k2 θ2).mulVec p))
    (h1' : Spec.VNear k1' k1 F.u) (h2' : Spec.VNear k2' k2 F.u) (hp' : Spec.VNear p' p F.u) (hq' : Spec.VNear q' q e) :
    subproblem2 p' q' k1' k2' = .error .assertion ∨
    ∃ x y, subproblem2 p' q' k1' k2' = .ok [x, y] ∧
      (Spec.AngNear x.1 θ1 ((β + (14 * e + 710000 * F.u) / γ) / γ) ∧ Spec.AngNear x.2 θ2 ((β + (14 * e + 710000 * F.u) / γ) / γ) ∨
       Spec.AngNear y.1 θ1 ((β + (14 * e + 710000 * F.u) / γ) / γ) ∧ Spec.AngNear y.2 θ2 ((β + (14 * e + 710000 * F.u) / γ) / γ)) := by
  have u0 := F.u_nonneg
  have γ0 : 0 < γ := by linarith
  set c := (rot k2 θ2).mulVec p with hc
  set g := (k1.cross k2).dot c with hg
  obtain ⟨r1, r2, r3, r4, r5, r6⟩ := sp2_real h1 h2 hp h12 hq hc hg
  obtain ⟨w, rfl, hw⟩ := hq'
  have e0 : 0 ≤ e := (V3.norm_nonneg _).trans hw
  have g1 : |g| ≤ 1 := r3.trans ((V3.perp_norm_le h1 q).trans (V3.norm_eq_one r6).le)
  have γ1 : γ ≤ 1 := hγ.trans g1
  have γ2 : γ ^ 2 ≤ γ := by rw [pow_two]; exact mul_le_of_le_one_left γ0.le γ1
  obtain ⟨c1, c2, c3, c4, v1, v2⟩ := sp2_points h1 h2 hp h12 r6 hw hγ0 hγ (by rw [abs_mul_abs_self]; exact r2) hu hη he h1' h2' hp' rfl rfl rfl rfl rfl rfl rfl rfl
  have D0 : 0 ≤ (34 / 10 * e + 900 * F.u) / γ := by positivity
  have Dγ : 2 * ((34 / 10 * e + 900 * F.u) / γ) ≤ γ := by
    rw [← mul_div_assoc, div_le_iff₀ γ0, ← pow_two]
    linarith
  have fin : ∀ {f : ℝ}, f ≤ e + F.u → (β + 315 / 100 * (f + (34 / 10 * e + 900 * F.u) / γ) + 700000 * F.u) / γ ≤ (β + (14 * e + 710000 * F.u) / γ) / γ := by
    intro f hf
    refine div_le_div_of_nonneg_right ?_ γ0.le
    have g1 : F.u ≤ F.u / γ := by rw [le_div_iff₀ γ0]; exact mul_le_of_le_one_right u0 γ1
    have g2 : e ≤ e / γ := by rw [le_div_iff₀ γ0]; exact mul_le_of_le_one_right e0 γ1
    rw [show (34 / 10 * e + 900 * F.u) / γ = 34 / 10 * (e / γ) + 900 * (F.u / γ) by ring,
      show (14 * e + 710000 * F.u) / γ = 14 * (e / γ) + 710000 * (F.u / γ) by ring]
    linarith
  have near : ∀ {x : V3 (Fl F)} {t1 t2 : Fl F}, Spec.VNear x c ((34 / 10 * e + 900 * F.u) / γ) → subproblem1 (w.map of) x k1' = .ok t1 →
      subproblem1 p' x k2' = .ok t2 →
      Spec.AngNear (-t1) θ1 ((β + (14 * e + 710000 * F.u) / γ) / γ) ∧ Spec.AngNear t2 θ2 ((β + (14 * e + 710000 * F.u) / γ) / γ) := by
    intro x t1 t2 hx e1 e2
    constructor
    · rcases subproblem1_nearE hF h1 (by rw [V3.norm_eq_one r6]; norm_num) r5 γ0 γ1 (hγ.trans r3) (by linarith) Dγ (by linarith) hu hη hβ1 h1' ⟨w, rfl, hw⟩ hx with ⟨h, -⟩ | ⟨th, h, ha⟩
      · rw [e1] at h; cases h
      · rw [e1] at h
        cases h
        exact AngNear.neg' (AngNear.mono' ha (fin (by linarith)))
    · rcases subproblem1_nearE hF h2 (by rw [V3.norm_eq_one hp]; norm_num) hc.symm γ0 γ1 (hγ.trans r4) (by linarith) Dγ (by linarith) hu hη hβ2 h2' hp' hx with ⟨h, -⟩ | ⟨th, h, ha⟩
      · rw [e2] at h; cases h
      · rw [e2] at h
        cases h
        exact AngNear.mono' ha (fin (by linarith))
  rcases sp2_run (q' := w.map of) rfl rfl rfl rfl rfl rfl rfl rfl c1 c2 c3 c4 rfl rfl with ⟨h, -⟩ | ⟨t1, t2, t3, t4, a1, a2, a3, a4, h⟩
  · exact .inl h
  · refine .inr ⟨_, _, h, ?_⟩
    rcases le_total 0 g with hs | hs
    · rw [abs_of_nonneg hs, ← r1] at v1
      exact .inl (near v1 a1 a3)
    · rw [abs_of_nonpos hs, neg_neg, ← r1] at v2
      exact .inr (near v2 a2 a4)

end Fl
