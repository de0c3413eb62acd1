import Verif.Lemmas.FlSub4
import Verif.Lemmas.Lip

/-! # The subproblems with rounding, data errors and rounding errors kept apart -/
set_option autoImplicit false

/-! ## Exact angles between perturbed points -/

theorem V3.perp_sub_norm {k : V3 ℝ} (hk : IsUnit3 k) (v p : V3 ℝ) : (v.perp k - p.perp k).norm ≤ (v - p).norm := by
  have e : v.perp k - p.perp k = (v - p).perp k := by
    ext <;> simp [V3.perp, V3.dot] <;> ring
  rw [e, V3.norm_eq, V3.norm_eq]
  refine Real.sqrt_le_sqrt ?_
  rw [V3.perp_dot_self hk]
  linarith [sq_nonneg ((v - p).dot k)]

theorem V3.norm_sub_rev (a b : V3 ℝ) : |a.norm - b.norm| ≤ (a - b).norm := by
  refine abs_le.2 ⟨?_, ?_⟩
  · have := V3.norm_add_le (b - a) a
    rw [show b - a + a = b by ext <;> simp, V3.norm_sub_comm b a] at this
    linarith
  · have := V3.norm_add_le (a - b) b
    rw [show a - b + b = a by ext <;> simp] at this
    linarith

/-- Directions of nearby vectors. -/
theorem V3.unit_sub_le {a b : V3 ℝ} (ha : a ≠ 0) (hb : b ≠ 0) : (a.sdiv a.norm - b.sdiv b.norm).norm ≤ 2 * ((a - b).norm / b.norm) := by
  have na := V3.norm_pos ha
  have nb := V3.norm_pos hb
  have e : a.sdiv a.norm - b.sdiv b.norm = b.norm⁻¹ • (a - b) + (a.norm⁻¹ - b.norm⁻¹) • a := by
    rw [V3.sdiv_eq, V3.sdiv_eq]
    ext <;> simp <;> ring
  rw [e]
  refine (V3.norm_add_le _ _).trans ?_
  rw [V3.norm_hsmul, V3.norm_hsmul, abs_of_pos (inv_pos.2 nb)]
  have h1 : |a.norm⁻¹ - b.norm⁻¹| * a.norm = |a.norm - b.norm| / b.norm := by
    rw [show a.norm⁻¹ - b.norm⁻¹ = -(a.norm - b.norm) / (a.norm * b.norm) by field_simp; ring, abs_div, abs_neg, abs_of_pos (mul_pos na nb)]
    field_simp
  rw [h1, inv_mul_eq_div]
  have := div_le_div_of_nonneg_right (V3.norm_sub_rev a b) nb.le
  linarith

/-- Between unit vectors perpendicular to the axis there is a rotation, by an angle proportional to their distance. -/
theorem exists_rot_dir {k a b : V3 ℝ} (hk : IsUnit3 k) (ha : IsUnit3 a) (hb : IsUnit3 b) (ka : k.dot a = 0) (kb : k.dot b = 0) :
    ∃ α : ℝ, (rot k α).mulVec a = b ∧ |α| ≤ Real.pi / 2 * (a - b).norm := by
  obtain ⟨φ, h⟩ : ∃ φ : ℝ, (rot k φ).mulVec a = b := by
    have g := gram_unit ha hb hk ka kb
    have h0 : Complex.mk (a.dot b) (k.dot (a.cross b)) ≠ 0 := by
      intro h
      have h1 := congrArg Complex.re h
      have h2 := congrArg Complex.im h
      simp only [Complex.zero_re, Complex.zero_im] at h1 h2
      rw [h1, h2] at g
      norm_num at g
    have hn : ‖Complex.mk (a.dot b) (k.dot (a.cross b))‖ = 1 := by
      rw [Complex.norm_def, Complex.normSq_mk, show a.dot b * a.dot b + k.dot (a.cross b) * k.dot (a.cross b) = 1 by nlinarith, Real.sqrt_one]
    refine ⟨Complex.arg ⟨a.dot b, k.dot (a.cross b)⟩, rot_eq_of_angle ha hb hk ka kb ?_ ?_⟩
    · rw [Complex.cos_arg h0, hn, div_one]
    · rw [Complex.sin_arg, hn, div_one]
  obtain ⟨n, hn⟩ := Fl.small_angle φ
  refine ⟨φ + n * (2 * Real.pi), by rw [rot_periodic, h], ?_⟩
  have := Fl.rot_chord (p := a) hk φ
  have e : a.perp k = a := by
    ext <;> simp [V3.perp, V3.dot_comm a k, ka]
  rw [h, e, V3.norm_eq_one ha, mul_one] at this
  rwa [this]

theorem unit_perp {k p : V3 ℝ} (hk : IsUnit3 k) (hp : p.perp k ≠ 0) :
    IsUnit3 ((p.perp k).sdiv (p.perp k).norm) ∧ k.dot ((p.perp k).sdiv (p.perp k).norm) = 0 :=
  ⟨V3.unit_sdiv hp, by rw [V3.sdiv_eq, V3.dot_hsmul, V3.dot_perp p k hk, mul_zero]⟩

/-- Moving a point a little turns its direction, seen along the axis, a little. -/
theorem dir_turn {k p v : V3 ℝ} (hk : IsUnit3 k) {s e : ℝ} (hs : 0 < s) (hps : s ≤ (p.perp k).norm) (hv : (v - p).norm ≤ e) (he : 2 * e ≤ s) :
    s / 2 ≤ (v.perp k).norm ∧ ∃ α : ℝ, (rot k α).mulVec ((p.perp k).sdiv (p.perp k).norm) = (v.perp k).sdiv (v.perp k).norm ∧
      |α| ≤ Real.pi * (e / s) := by
  have hpp : 0 < (p.perp k).norm := by linarith
  have hd := (V3.perp_sub_norm hk v p).trans hv
  have e0 : 0 ≤ e := (V3.norm_nonneg _).trans hv
  have hvv : s / 2 ≤ (v.perp k).norm := by
    have := (abs_le.1 ((V3.norm_sub_rev (v.perp k) (p.perp k)).trans hd)).1
    linarith
  have ne : ∀ {a : V3 ℝ}, 0 < a.norm → a ≠ 0 := by
    intro a h h0; rw [h0, V3.norm_zero] at h; exact lt_irrefl _ h
  have p0 := ne hpp
  have v0 := ne (lt_of_lt_of_le (by linarith) hvv)
  obtain ⟨u1, k1⟩ := unit_perp hk p0
  obtain ⟨u2, k2⟩ := unit_perp hk v0
  obtain ⟨α, h1, h2⟩ := exists_rot_dir hk u1 u2 k1 k2
  refine ⟨hvv, α, h1, h2.trans ?_⟩
  rw [V3.norm_sub_comm]
  have h3 := V3.unit_sub_le v0 p0
  have h4 : (v.perp k - p.perp k).norm / (p.perp k).norm ≤ e / s := div_le_div₀ e0 hd hs hps
  have h5 := mul_le_mul_of_nonneg_left (h3.trans (mul_le_mul_of_nonneg_left h4 two_pos.le)) (by linarith [Real.pi_pos] : (0 : ℝ) ≤ Real.pi / 2)
  linarith

/-- The angle between two perturbed points. -/
theorem angle_pert {k p q v w : V3 ℝ} (hk : IsUnit3 k) {θ s e f : ℝ} (hq : (rot k θ).mulVec p = q) (hs : 0 < s) (hps : s ≤ (p.perp k).norm)
    (hv : (v - p).norm ≤ e) (hw : (w - q).norm ≤ f) (he : 2 * e ≤ s) (hf : 2 * f ≤ s) :
    s / 2 ≤ (v.perp k).norm ∧ s / 2 ≤ (w.perp k).norm ∧
    ∃ φ : ℝ, (rot k φ).mulVec ((v.perp k).sdiv (v.perp k).norm) = (w.perp k).sdiv (w.perp k).norm ∧ |φ - θ| ≤ Real.pi * ((e + f) / s) := by
  have hqp : q.perp k = (rot k θ).mulVec (p.perp k) := by rw [← hq, rot_perp_eq hk]
  have hqn : (q.perp k).norm = (p.perp k).norm := by rw [hqp, (rot_isRot k hk θ).norm_mulVec]
  obtain ⟨h1, α, h2, h3⟩ := dir_turn hk hs hps hv he
  obtain ⟨g1, β, g2, g3⟩ := dir_turn hk hs (by rw [hqn]; exact hps) hw hf
  refine ⟨h1, g1, θ + β - α, ?_, ?_⟩
  · rw [← h2, M3.mulVec_mulVec, rot_mul k hk, sub_add_cancel, ← g2, hqn, hqp, add_comm, ← rot_mul k hk, ← M3.mulVec_mulVec]
    congr 1
    rw [V3.sdiv_eq, V3.sdiv_eq, M3.mulVec_hsmul]
  · rw [show θ + β - α - θ = β - α by ring]
    refine (abs_sub _ _).trans ?_
    rw [add_div, mul_add]
    linarith

namespace Fl
variable {F : FSys} {ε : ℝ}

theorem VNear.of (v : V3 ℝ) : C3 (v.map of : V3 (Fl F)) v F.u :=
  ⟨(near_of v.x).mono F.u_nonneg, (near_of v.y).mono F.u_nonneg, (near_of v.z).mono F.u_nonneg⟩

theorem vNear_self (v : V3 ℝ) {e : ℝ} (he : 0 ≤ e) : Spec.VNear (F := F) (v.map of) v e :=
  ⟨v, rfl, by rw [show v - v = 0 by ext <;> simp, V3.norm_zero]; exact he⟩

/-- What the early return of `subproblem1` may add to the error: nothing if the point does not move, or clearly moves. -/
def Band (β e : ℝ) (p q : V3 ℝ) : Prop := 1 / 33554432 ≤ β ∨ 0 ≤ β ∧ (p = q ∨ 1 / 50000000 + e ≤ (p - q).norm)

theorem Band.nonneg {β e : ℝ} {p q : V3 ℝ} (h : Band β e p q) : 0 ≤ β := by
  rcases h with h | h
  · exact le_trans (by norm_num) h
  · exact h.1

/-- `subproblem1` for points known up to `e` and `f`, unless the check of `subproblem0` fails. -/
theorem subproblem1_nearE (hF : Spec.InvAcc F) {k p q : V3 ℝ} (hk : IsUnit3 k) (hp : p.norm ≤ 3) {θ s e f β : ℝ} (hq : (rot k θ).mulVec p = q)
    (hs : 0 < s) (hs1 : s ≤ 1) (hps : s ≤ (p.perp k).norm) {k' p' q' : V3 (Fl F)} (he : 2 * e ≤ s) (hf : 2 * f ≤ s) (hu : 280000 * F.u ≤ s)
    (hu' : F.u ≤ 1 / 100000000000) (hη : 16 * F.η ≤ F.u ^ 3) (hβ : Band β (e + f) p q)
    (hk' : Spec.VNear k' k F.u) (hp' : Spec.VNear p' p e) (hq' : Spec.VNear q' q f) :
    (subproblem1 p' q' k' = .error .assertion ∧
        ¬ ((k'.sdiv k'.norm).dot (dir p' k') < npEps ∧ (k'.sdiv k'.norm).dot (dir q' k') < npEps)) ∨
      ∃ th, subproblem1 p' q' k' = .ok th ∧ Spec.AngNear th θ ((β + 315 / 100 * (e + f) + 700000 * F.u) / s) := by
  have u0 := F.u_nonneg
  have β0 := hβ.nonneg
  have hR := rot_isRot k hk θ
  have hqn : q.norm = p.norm := by rw [← hq, hR.norm_mulVec]
  obtain ⟨v, rfl, hv⟩ := hp'
  obtain ⟨w, rfl, hw⟩ := hq'
  have hk3 := VNear.entries hk'
  have e0 : 0 ≤ e := (V3.norm_nonneg _).trans hv
  have f0 : 0 ≤ f := (V3.norm_nonneg _).trans hw
  obtain ⟨hv2, hw2, φ, hφ, hφθ⟩ := angle_pert hk hq hs hps hv hw he hf
  have hv4 : v.norm ≤ 4 := by
    have := V3.norm_add_le (v - p) p
    rw [show v - p + p = v by ext <;> simp] at this
    linarith
  have hw4 : w.norm ≤ 4 := by
    have := V3.norm_add_le (w - q) q
    rw [show w - q + q = w by ext <;> simp] at this
    linarith
  by_cases hc : ((v.map of : V3 (Fl F)) - w.map of).norm < (Elem.sqrt npEps : Fl F)
  · refine Or.inr ⟨0, by simp [subproblem1, hc], ?_⟩
    have n8 : (v - w).norm ≤ 8 := by have := V3.norm_sub_le v w; linarith
    have hsub : C3 ((v.map of : V3 (Fl F)) - w.map of) (v - w) (12 * F.u) := by
      obtain ⟨x1, x2, x3⟩ := VNear.of (F := F) v
      obtain ⟨y1, y2, y3⟩ := VNear.of (F := F) w
      have sub : ∀ {a b : Fl F} {x y : ℝ}, a.Near x F.u → b.Near y F.u → |x - y| ≤ 8 → (a - b).Near (x - y) (12 * F.u) := fun ha hb h =>
        Near.subE 12 (k := 1) (l := 1) (by rwa [one_mul]) (by rwa [one_mul]) le_rfl (by linarith) h (by norm_num) (by norm_num) (by norm_num)
      exact ⟨sub x1 y1 ((V3.abs_x_le (v - w)).trans n8), sub x2 y2 ((V3.abs_y_le (v - w)).trans n8), sub x3 y3 ((V3.abs_z_le (v - w)).trans n8)⟩
    obtain ⟨n', hn', hn⟩ := (near_norm3 hsub n8 (by linarith) hη).mono (show _ ≤ 376 * F.u by
      have : (39 * (8 + 2 * (12 * F.u)) + 1) * F.u ≤ 352 * F.u := mul_le_mul_of_nonneg_right (by linarith) u0
      linarith)
    obtain ⟨t, ht, hte⟩ := sqrt_eps_le (F := F) (by linarith) hη
    change ((v.map of : V3 (Fl F)) - w.map of).norm.val < (Elem.sqrt npEps : Fl F).val at hc
    rw [hn', ht, XReal.fin_lt] at hc
    have h1 := (abs_le.1 hn).1
    have h2 := (abs_le.1 hte).2
    have h3 : (p - q).norm < 161 / 10000000000 + 376 * F.u + (e + f) := by
      have g1 := V3.norm_add_le (p - v) (v - w + (w - q))
      have g2 := V3.norm_add_le (v - w) (w - q)
      rw [show p - v + (v - w + (w - q)) = p - q by ext <;> simp, V3.norm_sub_comm p v] at g1
      linarith
    have h4 : Real.sqrt (2 - 2 * Real.cos θ) * s ≤ (p - q).norm := by
      rw [← hq, rot_chord hk]
      exact mul_le_mul_of_nonneg_left hps (Real.sqrt_nonneg _)
    obtain ⟨n, hnθ⟩ := small_angle θ
    refine ⟨n, 0, rfl, ?_⟩
    rw [zero_sub, abs_neg]
    refine hnθ.trans ?_
    rw [le_div_iff₀ hs]
    have h5 := Real.pi_lt_d2
    have h6 : Real.pi / 2 * Real.sqrt (2 - 2 * Real.cos θ) * s ≤ 1.6 * (p - q).norm := by
      rw [mul_assoc]
      exact mul_le_mul (by linarith) h4 (mul_nonneg (Real.sqrt_nonneg _) hs.le) (by norm_num)
    refine h6.trans ?_
    rcases hβ with hb | ⟨-, rfl | hb⟩
    · linarith
    · rw [show p - p = 0 by ext <;> simp, V3.norm_zero]
      linarith
    · linarith
  · have hs2 : 0 < s / 2 := by linarith
    have hkn : C3 (k'.sdiv k'.norm) k (59 * F.u) := (near_normalize3 hk hk3 (by linarith) hη).mono (by linarith)
    have hG : F.u ≤ F.u / (s / 2) := by
      rw [le_div_iff₀ hs2]
      exact mul_le_of_le_one_right u0 (by linarith)
    have hG1 : F.u / (s / 2) ≤ 1 / 140000 := by rw [div_le_div_iff₀ hs2 (by norm_num)]; linarith
    have hpp := (near_dir hk hv4 hs2 (by linarith) hv2 le_rfl (by linarith) hη hk3 (VNear.of (F := F) v)).1
    have hqq := (near_dir hk hw4 hs2 (by linarith) hw2 le_rfl (by linarith) hη hk3 (VNear.of (F := F) w)).1
    have hne : v.perp k ≠ 0 := by intro h; rw [h, V3.norm_zero] at hv2; linarith
    obtain ⟨hun, hperp⟩ := unit_perp hk hne
    have hsub1 : subproblem1 (v.map of) (w.map of) k' = subproblem0 (dir (v.map of) k') (dir (w.map of) k') (k'.sdiv k'.norm) := by
      simp [subproblem1, hc, dir]
    rcases subproblem0_near hF hk hun hperp hφ hG hG1 hη (hkn.mono (by linarith)) hpp hqq with h | ⟨th, h1, n, x, hx, h2⟩
    · exact Or.inl ⟨hsub1.trans h.1, h.2⟩
    · refine Or.inr ⟨th, hsub1.trans h1, n, x, hx, ?_⟩
      rw [show x - (θ + n * (2 * Real.pi)) = (x - (φ + n * (2 * Real.pi))) + (φ - θ) by ring]
      refine (abs_add_le _ _).trans ((add_le_add h2 hφθ).trans ?_)
      have hπ := Real.pi_lt_d2
      have h3 : Real.pi * ((e + f) / s) ≤ 315 / 100 * ((e + f) / s) := mul_le_mul_of_nonneg_right (by linarith) (by positivity)
      have h4 : 0 ≤ β / s := by positivity
      rw [show (β + 315 / 100 * (e + f) + 700000 * F.u) / s = β / s + 315 / 100 * ((e + f) / s) + 350000 * (F.u / (s / 2)) by field_simp; ring]
      linarith

/-- The last lines of `subproblem4` from coefficients known up to `E`. -/
theorem sp4_angles (hF : Spec.InvAcc F) {a b x c A E : ℝ} (hA : 0 < A) (A6 : A ≤ 6) (hA2 : a * a + b * b = A ^ 2) (hc : 0 < c)
    (hxc : x * x + c * c = 1) {a' b' c' : Fl F} (na : a'.Near a E) (nb : b'.Near b E) (nc : c'.Near (A * x) E) (hu : 700 * F.u ≤ E)
    (he : 150 * E ≤ (A * c) ^ 2) (hη : 16 * F.η ≤ F.u ^ 3) :
    ¬ (1 < c' / Elem.sqrt (a' * a' + b' * b')) ∧
    Spec.AngNear (-(Elem.arctan2 b' a') + Elem.arcsin (c' / Elem.sqrt (a' * a' + b' * b'))) (-Complex.arg ⟨a, b⟩ + Real.arcsin x) (17 * (E / (A * c))) ∧
    Spec.AngNear (-(Elem.arctan2 b' a') - Elem.arcsin (c' / Elem.sqrt (a' * a' + b' * b')) + Elem.pi) (-Complex.arg ⟨a, b⟩ - Real.arcsin x + Real.pi)
      (17 * (E / (A * c))) := by
  have u0 := F.u_nonneg
  have e0 : 0 ≤ E := by linarith
  have c1 : c ≤ 1 := by
    have := mul_self_nonneg x
    exact (sq_le_sq₀ hc.le zero_le_one).1 (by rw [one_pow]; linarith)
  have x1 : |x| ≤ 1 := by
    rw [← sq_le_one_iff_abs_le_one]
    have := mul_self_nonneg c
    linarith
  set m := A * c with hm
  have m0 : 0 < m := mul_pos hA hc
  have mA : m ≤ A := mul_le_of_le_one_right hA.le c1
  have m2 : m ^ 2 ≤ 6 * m := by rw [pow_two]; exact mul_le_mul_of_nonneg_right (mA.trans A6) m0.le
  have em : 25 * E ≤ m := by linarith
  have hφ := near_arctan2 hF hA hA2 nb na (by linarith)
  have φ4 : ∀ v, (Elem.arctan2 b' a').val = .fin v → |v| ≤ 4 := fun v hv => arctan2_fin_le hF hv
  have hn : (Elem.sqrt (a' * a' + b' * b')).Near A (238 / 100 * E) := by
    refine (near_norm2 na nb hA hA2 A6 (by linarith) (by linarith) (by linarith) hη).mono ?_
    have : (39 * (6 + 2 * E) + 1) * F.u ≤ 266 * F.u := mul_le_mul_of_nonneg_right (by linarith) u0
    linarith
  have G0 : 0 ≤ E / A := by positivity
  have hG : E ≤ 6 * (E / A) := by
    rw [← mul_div_assoc, le_div_iff₀ hA, mul_comm]
    exact mul_le_mul_of_nonneg_right A6 e0
  have hG1 : E / A ≤ 1 / 25 := by rw [div_le_div_iff₀ hA (by norm_num)]; linarith
  have hquot := near_quotG nc hn hA (by rw [mul_div_cancel_left₀ x hA.ne']; exact x1) (by linarith) (D := 376 / 100 * (E / A)) (by
    rw [show (E + 238 / 100 * E) / (9 / 10 * A) = 338 / 90 * (E / A) by field_simp; ring]
    exact mul_le_mul_of_nonneg_right (by norm_num) G0) (by linarith)
  rw [mul_div_cancel_left₀ x hA.ne'] at hquot
  replace hquot := hquot.mono (show _ ≤ 379 / 100 * (E / A) by linarith)
  have hδ : 2 * (379 / 100 * (E / A)) ≤ c ^ 2 := by
    have h1 : (A * c) ^ 2 = A * (A * c ^ 2) := by ring
    have h2 : A * (A * c ^ 2) ≤ 6 * (A * c ^ 2) := mul_le_mul_of_nonneg_right A6 (by positivity)
    rw [← mul_div_assoc, ← mul_div_assoc, div_le_iff₀ hA]
    rw [hm, h1] at he
    linarith
  obtain ⟨hnot, hψ⟩ := near_arcsin hF hc hxc hquot hδ
  have hMm : 379 / 100 * (E / A) / c = 379 / 100 * (E / m) := by rw [hm]; field_simp
  have M0 : 0 ≤ E / m := by positivity
  have hGM : E / A ≤ E / m := div_le_div_of_nonneg_left e0 m0 mA
  have hM : E ≤ 6 * (E / m) := hG.trans (by linarith)
  have hM1 : E / m ≤ 1 / 25 := by rw [div_le_div_iff₀ m0 (by norm_num)]; linarith
  rw [hMm] at hψ
  have hπ := Real.pi_lt_d4
  have hπ0 := Real.pi_pos
  replace hψ := hψ.mono (show _ ≤ 1192 / 100 * (E / m) by
    have : Real.pi * (379 / 100 * (E / m)) ≤ 3.1416 * (379 / 100 * (E / m)) := mul_le_mul_of_nonneg_right hπ.le (by linarith)
    linarith)
  have hφ' : Spec.AngNear (Elem.arctan2 b' a') (Complex.arg ⟨a, b⟩) (401 / 100 * (E / m)) := by
    obtain ⟨n, hn⟩ := hφ
    refine ⟨n, hn.mono ?_⟩
    rw [mul_div_assoc]
    linarith
  generalize Complex.arg ⟨a, b⟩ = φ at *
  have ψ2 : |Real.arcsin x| ≤ 1.5708 := abs_le.2 ⟨by linarith [Real.neg_pi_div_two_le_arcsin x], by linarith [Real.arcsin_le_pi_div_two x]⟩
  generalize Real.arcsin x = ψ at *
  generalize Elem.arcsin (c' / Elem.sqrt (a' * a' + b' * b')) = Ψ at *
  generalize Elem.arctan2 b' a' = Φ at *
  obtain ⟨n, v, hv, h1⟩ := hφ'
  obtain ⟨w, hw, h2⟩ := hψ
  have v4 := φ4 v hv
  have w2 : |w| ≤ 2.05 := by
    rw [show w = (w - ψ) + ψ by ring]
    exact (abs_add_le _ _).trans (by norm_num at ψ2 ⊢; linarith)
  have ea : -Φ = (of (-v) : Fl F) := by
    change (⟨-(Φ : Fl F).val⟩ : Fl F) = _
    rw [hv]; rfl
  have eb : Ψ = (of w : Fl F) := congrArg Fl.mk hw
  refine ⟨hnot, ?_, ?_⟩
  · obtain ⟨z, hz, h3⟩ := near_add_of (F := F) (v := -v) (w := w) (by
      refine (abs_add_le _ _).trans ?_
      rw [abs_neg]; norm_num at w2 ⊢; linarith)
    refine ⟨-n, z, ?_, ?_⟩
    · rw [ea, eb]
      exact hz
    · push_cast
      rw [show z - (-φ + ψ + -n * (2 * Real.pi)) = (z - (-v + w)) + ((w - ψ) - (v - (φ + n * (2 * Real.pi)))) by ring]
      refine (abs_add_le _ _).trans ?_
      have := abs_sub (w - ψ) (v - (φ + n * (2 * Real.pi)))
      linarith
  · have vw : |-v - w| ≤ 6.05 := by
      refine (abs_sub _ _).trans ?_
      rw [abs_neg]; norm_num at w2 ⊢; linarith
    obtain ⟨z, hz, h3⟩ := near_sub_of (F := F) (v := -v) (w := w) (vw.trans (by norm_num))
    obtain ⟨π', hπ', h4⟩ := near_pi' (F := F)
    have u1 := F.u_le
    obtain ⟨y, hy, h5⟩ := near_add_of (F := F) (v := z) (w := π') (by
      rw [show z + π' = ((z - (-v - w)) + (-v - w)) + ((π' - Real.pi) + Real.pi) by ring]
      have g1 := abs_add_le (z - (-v - w)) (-v - w)
      have g2 := abs_add_le (π' - Real.pi) Real.pi
      rw [abs_of_pos hπ0] at g2
      refine (abs_add_le _ _).trans ?_
      linarith)
    refine ⟨-n, y, ?_, ?_⟩
    · rw [ea, eb, show (of (-v) - of w : Fl F) = of z from congrArg Fl.mk hz, show (Elem.pi : Fl F) = of π' from congrArg Fl.mk hπ']
      exact hy
    · push_cast
      rw [show y - (-φ - ψ + Real.pi + -n * (2 * Real.pi)) = ((y - (z + π')) + (z - (-v - w))) + ((π' - Real.pi) - ((w - ψ) + (v - (φ + n * (2 * Real.pi))))) by ring]
      have g1 := abs_add_le (y - (z + π')) (z - (-v - w))
      have g2 := abs_sub (π' - Real.pi) ((w - ψ) + (v - (φ + n * (2 * Real.pi))))
      have g3 := abs_add_le (w - ψ) (v - (φ + n * (2 * Real.pi)))
      refine (abs_add_le _ _).trans ?_
      linarith

theorem Near.shift {a : Fl F} {x y d e : ℝ} (h : a.Near x d) (hxy : |x - y| ≤ e) : a.Near y (d + e) := by
  obtain ⟨v, hv, h1⟩ := h
  refine ⟨v, hv, ?_⟩
  rw [show v - y = (v - x) + (x - y) by ring]
  exact (abs_add_le _ _).trans (add_le_add h1 hxy)

/-- `subproblem4` for a point known up to `e` and a displacement known up to `f`, the axes being known up to rounding. -/
theorem subproblem4_nearE (hF : Spec.InvAcc F) {k p q : V3 ℝ} (hk : IsUnit3 k) (hp : IsUnit3 p) (hq : q.norm ≤ 19 / 10) {d : ℝ} (hd : |d| ≤ 39 / 10)
    {k' p' q' : V3 (Fl F)} {d' : Fl F} {A x c e f : ℝ} (hA : 0 < A)
    (hA2 : p.dot (k.cross q) * p.dot (k.cross q) + -p.dot (k.cross (k.cross q)) * -p.dot (k.cross (k.cross q)) = A ^ 2)
    (hx : d - (p.dot q + p.dot (k.cross (k.cross q))) = A * x) (hc : 0 < c) (hxc : x * x + c * c = 1)
    (he1 : e ≤ 1 / 10) (hf1 : f ≤ 1 / 10) (he : 150 * (e + f + 800 * F.u) ≤ (A * c) ^ 2)
    (hu : F.u ≤ 1 / 1000) (hη : 16 * F.η ≤ F.u ^ 3) (hk' : Spec.VNear k' k F.u) (hp' : Spec.VNear p' p F.u) (hq' : Spec.VNear q' q e) (hd' : d'.Near d f) :
    ∃ t1 t2, subproblem4 p' q' k' d' = [t1, t2] ∧
      Spec.AngNear t1 (-Complex.arg ⟨p.dot (k.cross q), -p.dot (k.cross (k.cross q))⟩ + Real.arcsin x) (17 * ((e + f + 800 * F.u) / (A * c))) ∧
      Spec.AngNear t2 (-Complex.arg ⟨p.dot (k.cross q), -p.dot (k.cross (k.cross q))⟩ - Real.arcsin x + Real.pi)
        (17 * ((e + f + 800 * F.u) / (A * c))) := by
  have u0 := F.u_nonneg
  have k1 := V3.norm_eq_one hk
  have p1 := V3.norm_eq_one hp
  obtain ⟨w, rfl, hw⟩ := hq'
  obtain ⟨δ, hδ, hδd⟩ := hd'
  have e0 : 0 ≤ e := (V3.norm_nonneg _).trans hw
  have f0 : 0 ≤ f := (abs_nonneg _).trans hδd
  have hd'' : d' = of δ := congrArg Fl.mk hδ
  subst hd''
  have hw2 : w.norm ≤ 2 := by
    have := V3.norm_add_le (w - q) q
    rw [show w - q + q = w by ext <;> simp] at this
    linarith
  have hδ4 : |δ| ≤ 4 := by
    have := abs_add_le (δ - d) d
    rw [sub_add_cancel] at this
    linarith
  obtain ⟨na, nb, nc⟩ := sp4_coeff (ε := F.u) hk (by rw [p1]; norm_num) hw2 hδ4 le_rfl hu (VNear.entries hk') (VNear.entries hp') (VNear.of (F := F) w)
    ((near_of δ).mono u0)
  have cr : ∀ a : V3 ℝ, (k.cross a).norm ≤ a.norm := by
    intro a
    have := V3.norm_cross_le k a
    rwa [k1, one_mul] at this
  have dp : ∀ a : V3 ℝ, |p.dot a| ≤ a.norm := by
    intro a
    have := V3.abs_dot_le p a
    rwa [p1, one_mul] at this
  have ca : ∀ a b : V3 ℝ, k.cross a - k.cross b = k.cross (a - b) := by intro a b; ext <;> simp <;> ring
  have d1 : |p.dot (k.cross w) - p.dot (k.cross q)| ≤ e := by
    rw [← V3.dot_sub, ca]
    exact (dp _).trans ((cr _).trans hw)
  have d2 : |-p.dot (k.cross (k.cross w)) - -p.dot (k.cross (k.cross q))| ≤ e := by
    rw [neg_sub_neg, ← V3.dot_sub, ca, ca]
    refine (dp _).trans ((cr _).trans ((cr _).trans ?_))
    rw [V3.norm_sub_comm]; exact hw
  have par : ∀ a : V3 ℝ, p.dot a + p.dot (k.cross (k.cross a)) = p.dot k * k.dot a := by
    intro a
    have : k.dot k = 1 := hk
    rw [show p.dot a + p.dot (k.cross (k.cross a)) = p.dot k * k.dot a + (1 - k.dot k) * p.dot a by simp [V3.dot]; ring, this]
    ring
  have d3 : |(δ - (p.dot w + p.dot (k.cross (k.cross w)))) - A * x| ≤ e + f := by
    rw [← hx, par, par, show δ - p.dot k * k.dot w - (d - p.dot k * k.dot q) = (δ - d) - p.dot k * k.dot (w - q) by rw [V3.dot_sub]; ring]
    refine (abs_sub _ _).trans ?_
    rw [abs_mul]
    have h1 := dp k
    have h2 := V3.abs_dot_le k (w - q)
    rw [k1] at h1
    rw [k1, one_mul] at h2
    have := mul_le_mul h1 (h2.trans hw) (abs_nonneg _) zero_le_one
    linarith
  have A6 : A ≤ 6 := by
    have b1 := (dp _).trans ((cr q).trans hq)
    have b2 : |-p.dot (k.cross (k.cross q))| ≤ 19 / 10 := by
      rw [abs_neg]
      exact (dp _).trans ((cr _).trans ((cr q).trans hq))
    have := (two_le b1 b1 b2 b2).2
    rw [hA2] at this
    have h36 : A ^ 2 ≤ 6 ^ 2 := by
      have := (le_abs_self (A ^ 2)).trans this
      norm_num at this ⊢
      linarith
    exact (sq_le_sq₀ hA.le (by norm_num)).1 h36
  obtain ⟨g1, g2, g3⟩ := sp4_angles (E := e + f + 800 * F.u) hF hA A6 hA2 hc hxc ((na.shift d1).mono (by linarith)) ((nb.shift d2).mono (by linarith))
    ((nc.shift d3).mono (by linarith)) (by linarith) he hη
  exact ⟨_, _, by rw [subproblem4]; exact if_neg g1, g2, g3⟩

end Fl
