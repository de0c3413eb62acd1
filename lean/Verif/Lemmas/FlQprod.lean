import Verif.Lemmas.FlQuat
import Verif.Lemmas.FlJac

/-! # Rounding errors of the quaternion operations `quatproduct`, `quatcomplement`, `rot2q` and `quatjacobian` -/
set_option autoImplicit false

namespace Spec
/-- The product `q₁ q₂ … qₙ` of quaternions, computed from the left with the library's product matrix. -/
def quatChain {α : Type} [Add α] [Mul α] [Neg α] [Zero α] [One α] (qs : List (V4 α)) : V4 α :=
  qs.foldl (fun a q => (quatproduct a).mulVec q) ⟨1, 0, 0, 0⟩
end Spec

namespace V4
theorem norm_toH_sq (q : V4 ℝ) : ‖q.toH‖ ^ 2 = q.w ^ 2 + q.x ^ 2 + q.y ^ 2 + q.z ^ 2 := by
  rw [pow_two, ← Quaternion.normSq_eq_norm_mul_self, Quaternion.normSq_def']
  rfl

theorem abs_le_toH (q : V4 ℝ) : |q.w| ≤ ‖q.toH‖ ∧ |q.x| ≤ ‖q.toH‖ ∧ |q.y| ≤ ‖q.toH‖ ∧ |q.z| ≤ ‖q.toH‖ := by
  have h := q.norm_toH_sq
  have := sq_nonneg q.w
  have := sq_nonneg q.x
  have := sq_nonneg q.y
  have := sq_nonneg q.z
  refine ⟨?_, ?_, ?_, ?_⟩ <;> exact abs_le_of_sq_le_sq (by linarith) (norm_nonneg _)

theorem toH_le (q : V4 ℝ) {d : ℝ} (hw : |q.w| ≤ d) (hx : |q.x| ≤ d) (hy : |q.y| ≤ d) (hz : |q.z| ≤ d) : ‖q.toH‖ ≤ 2 * d := by
  have d0 := (abs_nonneg _).trans hw
  refine abs_le_of_sq_le_sq' ?_ (by linarith) |>.2
  rw [q.norm_toH_sq]
  have := sq_le_sq' (abs_le.1 hw).1 (abs_le.1 hw).2
  have := sq_le_sq' (abs_le.1 hx).1 (abs_le.1 hx).2
  have := sq_le_sq' (abs_le.1 hy).1 (abs_le.1 hy).2
  have := sq_le_sq' (abs_le.1 hz).1 (abs_le.1 hz).2
  linarith

theorem toH_unit {q : V4 ℝ} (h : IsUnit4 q) : ‖q.toH‖ = 1 := by
  have h1 := q.norm_toH_sq
  unfold IsUnit4 at h
  have h2 : ‖q.toH‖ ^ 2 = 1 := by rw [h1]; linarith
  have h3 := norm_nonneg q.toH
  nlinarith

theorem toH_sub (p q : V4 ℝ) : (⟨p.w - q.w, p.x - q.x, p.y - q.y, p.z - q.z⟩ : V4 ℝ).toH = p.toH - q.toH := by
  ext <;> simp
end V4

namespace Fl
variable {F : FSys} {ε : ℝ}

theorem QNear.toH {q' : V4 (Fl F)} {q : V4 ℝ} {e : ℝ} (h : Spec.QNear q' q e) : ∃ c : V4 ℝ, q' = c.map of ∧ ‖c.toH - q.toH‖ ≤ 2 * e := by
  obtain ⟨⟨w⟩, ⟨x⟩, ⟨y⟩, ⟨z⟩⟩ := q'
  obtain ⟨⟨a, ea, ha⟩, ⟨b, eb, hb⟩, ⟨c, ec, hc⟩, ⟨d, ed, hd⟩⟩ := h
  cases ea; cases eb; cases ec; cases ed
  refine ⟨⟨a, b, c, d⟩, rfl, ?_⟩
  rw [← V4.toH_sub]
  exact V4.toH_le _ ha hb hc hd

theorem qNear_of_toH {c q : V4 ℝ} {e : ℝ} (h : ‖c.toH - q.toH‖ ≤ e) : Spec.QNear (c.map of : V4 (Fl F)) q e := by
  rw [← V4.toH_sub] at h
  obtain ⟨h1, h2, h3, h4⟩ := V4.abs_le_toH ⟨c.w - q.w, c.x - q.x, c.y - q.y, c.z - q.z⟩
  exact ⟨⟨_, rfl, h1.trans h⟩, ⟨_, rfl, h2.trans h⟩, ⟨_, rfl, h3.trans h⟩, ⟨_, rfl, h4.trans h⟩⟩

/-- One component of the product of two stored quaternions. -/
theorem near_qprod_entry {p₁ p₂ p₃ p₄ q₁ q₂ q₃ q₄ : Fl F} {a₁ a₂ a₃ a₄ b₁ b₂ b₃ b₄ : ℝ}
    (h₁ : p₁.Near a₁ (5 * F.u)) (h₂ : p₂.Near a₂ (5 * F.u)) (h₃ : p₃.Near a₃ (5 * F.u)) (h₄ : p₄.Near a₄ (5 * F.u))
    (k₁ : q₁.Near b₁ (5 * F.u)) (k₂ : q₂.Near b₂ (0 * F.u)) (k₃ : q₃.Near b₃ (0 * F.u)) (k₄ : q₄.Near b₄ (0 * F.u))
    (u₁ : |a₁| ≤ 11/10) (u₂ : |a₂| ≤ 11/10) (u₃ : |a₃| ≤ 11/10) (u₄ : |a₄| ≤ 11/10)
    (v₁ : |b₁| ≤ 11/10) (v₂ : |b₂| ≤ 11/10) (v₃ : |b₃| ≤ 11/10) (v₄ : |b₄| ≤ 11/10) (hu : F.u ≤ 1/1000) :
    (p₁ * q₁ + (p₂ * q₂ + p₃ * q₃ + p₄ * q₄)).Near (a₁ * b₁ + (a₂ * b₂ + a₃ * b₃ + a₄ * b₄)) (55 * F.u) := by
  have mul : ∀ {a b : ℝ}, |a| ≤ 11/10 → |b| ≤ 11/10 → |a * b| ≤ 121/100 := by
    intro a b ha hb
    rw [abs_mul]
    exact (mul_le_mul ha hb (abs_nonneg _) (by norm_num)).trans (by norm_num)
  have m1 := h₁.mulE (M := 11/10) (N := 11/10) 14 k₁ le_rfl hu u₁ v₁ (by norm_num) (by norm_num) (by norm_num) (by norm_num)
  have m2 := h₂.mulE (M := 11/10) (N := 11/10) 8 k₂ le_rfl hu u₂ v₂ (by norm_num) (by norm_num) (by norm_num) (by norm_num)
  have m3 := h₃.mulE (M := 11/10) (N := 11/10) 8 k₃ le_rfl hu u₃ v₃ (by norm_num) (by norm_num) (by norm_num) (by norm_num)
  have m4 := h₄.mulE (M := 11/10) (N := 11/10) 8 k₄ le_rfl hu u₄ v₄ (by norm_num) (by norm_num) (by norm_num) (by norm_num)
  have b1 := mul u₁ v₁
  have b2 := mul u₂ v₂
  have b3 := mul u₃ v₃
  have b4 := mul u₄ v₄
  have s1 : |a₂ * b₂ + a₃ * b₃| ≤ 242/100 := (abs_add_le _ _).trans (by linarith)
  have s2 : |a₂ * b₂ + a₃ * b₃ + a₄ * b₄| ≤ 363/100 := (abs_add_le _ _).trans (by linarith)
  have hu1 : F.u ≤ 1 := by linarith
  have t1 := m2.addE 20 m3 le_rfl hu1 s1 (by norm_num) (by norm_num) (by norm_num)
  have t2 := t1.addE 33 m4 le_rfl hu1 s2 (by norm_num) (by norm_num) (by norm_num)
  exact m1.addE 55 t2 le_rfl hu1 (S := 484/100) ((abs_add_le _ _).trans (by linarith)) (by norm_num) (by norm_num) (by norm_num)

/-- The product of two stored quaternions of norm at most 1.1 is off by at most `110 u`. -/
theorem qprod_round (a q : V4 ℝ) (ha : ‖a.toH‖ ≤ 11/10) (hq : ‖q.toH‖ ≤ 11/10) (hu : F.u ≤ 1/1000) :
    Spec.QNear ((quatproduct (a.map of : V4 (Fl F))).mulVec (q.map of)) ((quatproduct a).mulVec q) (55 * F.u) := by
  have u0 := F.u_nonneg
  have hu1 : F.u ≤ 1 := by linarith
  obtain ⟨aw, ax, ay, az⟩ := a.abs_le_toH
  obtain ⟨qw, qx, qy, qz⟩ := q.abs_le_toH
  replace aw := aw.trans ha
  replace ax := ax.trans ha
  replace ay := ay.trans ha
  replace az := az.trans ha
  replace qw := qw.trans hq
  replace qx := qx.trans hq
  replace qy := qy.trans hq
  replace qz := qz.trans hq
  have s5 : ∀ x : ℝ, (of x : Fl F).Near x (5 * F.u) := fun x => (near_of x).mono (by linarith)
  have s0 : ∀ x : ℝ, (of x : Fl F).Near x (0 * F.u) := fun x => (near_of x).mono (by linarith)
  have n5 : ∀ x : ℝ, (-(of x : Fl F)).Near (-x) (5 * F.u) := fun x => (s5 x).neg
  have one : (1 : Fl F).Near 1 (0 * F.u) := near_one.mono (by linarith)
  have zero : (0 : Fl F).Near 0 (0 * F.u) := near_zero.mono (by linarith)
  have w1 := (s0 a.w).mulE (M := 11/10) (N := 1) (21/10) one le_rfl hu aw (by norm_num) (by norm_num) (by norm_num) (by norm_num) (by norm_num)
  have w0 := (s0 a.w).mulE (M := 11/10) (N := 0) 1 zero le_rfl hu aw (by norm_num) (by norm_num) (by norm_num) (by norm_num) (by norm_num)
  have dg := w1.addE (S := 11/10) 5 zero le_rfl hu1 (by simpa using aw) (by norm_num) (by norm_num) (by norm_num)
  have off : ∀ {x' : Fl F} {x : ℝ}, x'.Near x (0 * F.u) → |x| ≤ 11/10 → (of a.w * 0 + x').Near (a.w * 0 + x) (5 * F.u) := by
    intro x' x h hx
    exact w0.addE (S := 11/10) 5 h le_rfl hu1 (by simpa using hx) (by norm_num) (by norm_num) (by norm_num)
  have dgb : |a.w * 1 + 0| ≤ 11/10 := by simpa using aw
  have offb : ∀ {x : ℝ}, |x| ≤ 11/10 → |a.w * 0 + x| ≤ 11/10 := fun hx => by simpa using hx
  have nb : ∀ {x : ℝ}, |x| ≤ 11/10 → |-x| ≤ 11/10 := fun hx => by rwa [abs_neg]
  have z0 : ∀ x : ℝ, (-(of x : Fl F)).Near (-x) (0 * F.u) := fun x => (s0 x).neg
  refine ⟨?_, ?_, ?_, ?_⟩
  · exact near_qprod_entry (s5 _) (n5 _) (n5 _) (n5 _) (s5 _) (s0 _) (s0 _) (s0 _) aw (nb ax) (nb ay) (nb az) qw qx qy qz hu
  · exact near_qprod_entry (s5 _) dg (off (z0 _) (nb az)) (off (s0 _) ay) (s5 _) (s0 _) (s0 _) (s0 _) qw dgb (offb (nb az)) (offb ay)
      ax qx qy qz hu
  · exact near_qprod_entry (s5 _) (off (s0 _) az) dg (off (z0 _) (nb ax)) (s5 _) (s0 _) (s0 _) (s0 _) qw (offb az) dgb (offb (nb ax))
      ay qx qy qz hu
  · exact near_qprod_entry (s5 _) (off (z0 _) (nb ay)) (off (s0 _) ax) dg (s5 _) (s0 _) (s0 _) (s0 _) qw (offb (nb ay)) (offb ax) dgb
      az qx qy qz hu

/-- One product: the error of the left factor is kept and at most `115 u` is added. -/
theorem qprod_step {a q c : V4 ℝ} {q' : V4 (Fl F)} {d : ℝ} (ha : ‖a.toH‖ = 1) (hq : IsUnit4 q) (hc : ‖c.toH - a.toH‖ ≤ d)
    (h : Spec.QNear q' q F.u) (hd : d ≤ 1/20) (hu : F.u ≤ 1/1000) :
    ∃ c' : V4 ℝ, (quatproduct (c.map of : V4 (Fl F))).mulVec q' = c'.map of ∧
      ‖c'.toH - ((quatproduct a).mulVec q).toH‖ ≤ d + 115 * F.u := by
  obtain ⟨r, rfl, hr⟩ := QNear.toH h
  have hq1 := V4.toH_unit hq
  have hcn : ‖c.toH‖ ≤ 1 + d := by
    have := norm_le_norm_add_norm_sub' c.toH a.toH
    linarith
  have hrn : ‖r.toH‖ ≤ 1 + 2 * F.u := by
    have := norm_le_norm_add_norm_sub' r.toH q.toH
    linarith
  obtain ⟨c', e, h'⟩ := QNear.toH (qprod_round (F := F) c r (by linarith) (by linarith) hu)
  refine ⟨c', e, ?_⟩
  have t : c'.toH - ((quatproduct a).mulVec q).toH =
      (c'.toH - ((quatproduct c).mulVec r).toH) + (c.toH * (r.toH - q.toH) + (c.toH - a.toH) * q.toH) := by
    rw [C08_quatproduct_hamilton c r, C08_quatproduct_hamilton a q, mul_sub, sub_mul]
    abel
  rw [t]
  have n1 : ‖c.toH * (r.toH - q.toH)‖ ≤ 21/20 * (2 * F.u) := by
    rw [norm_mul]
    exact mul_le_mul (by linarith) hr (norm_nonneg _) (by norm_num)
  have n2 : ‖(c.toH - a.toH) * q.toH‖ ≤ d := by rwa [norm_mul, hq1, mul_one]
  have n3 := norm_add_le (c'.toH - ((quatproduct c).mulVec r).toH) (c.toH * (r.toH - q.toH) + (c.toH - a.toH) * q.toH)
  have n4 := norm_add_le (c.toH * (r.toH - q.toH)) ((c.toH - a.toH) * q.toH)
  have := F.u_nonneg
  linarith

theorem quatChain_aux (hu : F.u ≤ 1/1000) : ∀ (qs : List (V4 ℝ)) (qs' : List (V4 (Fl F))),
    List.Forall₂ (fun q' q => IsUnit4 q ∧ Spec.QNear q' q F.u) qs' qs → ∀ (a c : V4 ℝ) (n : ℕ), ‖a.toH‖ = 1 →
    ‖c.toH - a.toH‖ ≤ 115 * n * F.u → 115 * (n + qs.length) * F.u ≤ 1/20 →
    ∃ c' : V4 ℝ, qs'.foldl (fun a q => (quatproduct a).mulVec q) (c.map of) = c'.map of ∧
      ‖c'.toH - (qs.foldl (fun a q => (quatproduct a).mulVec q) a).toH‖ ≤ 115 * (n + qs.length) * F.u ∧
      (qs.foldl (fun a q => (quatproduct a).mulVec q) a).toH = a.toH * (qs.map V4.toH).prod := by
  intro qs
  induction qs with
  | nil =>
    intro qs' h a c n ha hc hn
    cases h
    exact ⟨c, rfl, by simpa using hc, by simp⟩
  | cons q qs ih =>
    intro qs' h a c n ha hc hn
    rcases qs' with _ | ⟨q', qs'⟩
    · cases h
    rw [List.forall₂_cons] at h
    have u0 := F.u_nonneg
    simp only [List.length_cons, Nat.cast_add, Nat.cast_one] at hn ⊢
    have l0 : (0 : ℝ) ≤ qs.length := Nat.cast_nonneg _
    have lu : 0 ≤ qs.length * F.u := mul_nonneg l0 u0
    obtain ⟨c1, e1, h1⟩ := qprod_step ha h.1.1 hc h.1.2 (by linarith) hu
    have ha' : ‖((quatproduct a).mulVec q).toH‖ = 1 := by
      rw [C08_quatproduct_hamilton, norm_mul, ha, V4.toH_unit h.1.1, one_mul]
    obtain ⟨c2, e2, h2, p2⟩ := ih qs' h.2 _ c1 (n + 1) ha' (by push_cast; linarith) (by push_cast; linarith)
    refine ⟨c2, ?_, ?_, ?_⟩
    · rw [List.foldl_cons, e1]; exact e2
    · refine h2.trans (by push_cast; linarith)
    · rw [List.foldl_cons, p2, C08_quatproduct_hamilton, List.map_cons, List.prod_cons, mul_assoc]

/-- `rot2q` on a stored axis and angle. -/
theorem rot2qA_near {k : V3 ℝ} (hk : IsUnit3 k) {k' : V3 (Fl F)} {θ T : ℝ} {θ' : Fl F} (hu : F.u ≤ ε) (hε : ε ≤ 1/1000)
    (hkx : k'.x.Near k.x (1 * ε)) (hky : k'.y.Near k.y (1 * ε)) (hkz : k'.z.Near k.z (1 * ε)) (hθ : θ'.Near θ (1 * ε))
    (hT : |θ| ≤ T) (hT' : T ≤ 100000) : Spec.QNear (rot2qA k' θ') (rot2qA k θ) ((2 * T + 7) * ε) := by
  have T0 := (abs_nonneg _).trans hT
  have h0 : 0 ≤ ε := F.u_nonneg.trans hu
  have l2 : (lit 2 : Fl F).Near 2 (3 * ε) := by
    have := near_lit (F := F) (ε := ε) 2 (S := 2) hu (by linarith) (by norm_num) (by norm_num)
    norm_num at this ⊢
    exact this
  have e2 : (lit 2 : ℝ) = 2 := by simp
  have hq : |θ / 2| ≤ T / 2 := by rw [abs_div, abs_two]; linarith
  have hd := hθ.divE (Q := T / 2) (c := 19/10) (13/10 * T + 2) l2 hu (by linarith) hq (by norm_num) (by linarith) (by linarith)
    (by linarith) (by norm_num) (by norm_num)
  have hs : (Elem.sin (θ' / lit 2)).Near (Real.sin (θ / 2)) ((13/10 * T + 3) * ε) := hd.sin.mono (by linarith)
  have hc : (Elem.cos (θ' / lit 2)).Near (Real.cos (θ / 2)) ((13/10 * T + 3) * ε) := hd.cos.mono (by linarith)
  have hn := V3.norm_eq_one hk
  have b : ∀ {x' : Fl F} {x : ℝ}, x'.Near x (1 * ε) → |x| ≤ 1 → (x' * Elem.sin (θ' / lit 2)).Near (x * Real.sin (θ / 2)) ((2 * T + 7) * ε) :=
    fun h hx => h.mulE (M := 1) (N := 1) (2 * T + 7) hs hu hε hx (Real.abs_sin_le_one _) (by norm_num) (by linarith) (by linarith)
      (by linarith)
  have kx := V3.abs_x_le k
  have ky := V3.abs_y_le k
  have kz := V3.abs_z_le k
  rw [hn] at kx ky kz
  have cT : (13/10 * T + 3) * ε ≤ (2 * T + 7) * ε := mul_le_mul_of_nonneg_right (by linarith) h0
  have fin : rot2qA k θ = ⟨Real.cos (θ / 2), k.x * Real.sin (θ / 2), k.y * Real.sin (θ / 2), k.z * Real.sin (θ / 2)⟩ := by
    simp [rot2qA]
  rw [fin]
  exact ⟨hc.mono cT, b hkx kx, b hky ky, b hkz kz⟩

/-- `quatcomplement` of a stored quaternion. -/
theorem quatcomplement_near {q : V4 ℝ} (hq : IsUnit4 q) {q' : V4 (Fl F)} (hu : F.u ≤ ε) (hε : ε ≤ 1/1000) (h : Spec.QNear q' q ε) :
    Spec.QNear (quatcomplement q') (quatcomplement q) (6 * ε) := by
  have h0 : 0 ≤ ε := F.u_nonneg.trans hu
  obtain ⟨hw, hx, hy, hz⟩ := h
  rw [← one_mul ε] at hw hx hy hz
  obtain ⟨bw, bx, by', bz⟩ := unit4_abs hq
  have l1 : (lit (-1) : Fl F).Near (-1) (2 * ε) := by
    have := near_lit (F := F) (ε := ε) (-1) (S := 1) hu (by linarith) (by norm_num) (by norm_num)
    norm_num at this ⊢
    exact this
  have e1 : (lit (-1) : ℝ) = -1 := by simp
  have m : ∀ {x' : Fl F} {x : ℝ}, x'.Near x (1 * ε) → |x| ≤ 1 → (lit (-1) * x').Near (lit (-1) * x) (6 * ε) := fun h hx => by
    rw [e1]
    exact l1.mulE (M := 1) (N := 1) 6 h hu hε (by norm_num) hx (by norm_num) (by norm_num) (by norm_num) (by norm_num)
  exact ⟨hw.mono (by linarith), m hx bx, m hy by', m hz bz⟩

/-- `quatjacobian` of a stored quaternion. -/
theorem quatjacobian_near {q : V4 ℝ} (hq : IsUnit4 q) {q' : V4 (Fl F)} (hu : F.u ≤ ε) (hε : ε ≤ 1/1000) (h : Spec.QNear q' q ε) :
    Spec.VNear (quatjacobian q').row (quatjacobian q).row (14 * ε) ∧ Spec.MNear (quatjacobian q').blk (quatjacobian q).blk (21 * ε) := by
  have h0 : 0 ≤ ε := F.u_nonneg.trans hu
  have hε1 : ε ≤ 1 := by linarith
  obtain ⟨hw, hx, hy, hz⟩ := h
  rw [← one_mul ε] at hw hx hy hz
  obtain ⟨bw, bx, by', bz⟩ := unit4_abs hq
  have l1 : (lit (1/2) : Fl F).Near (1/2) (3/2 * ε) := by
    have := near_lit (F := F) (ε := ε) (1/2) (S := 1/2) hu (by linarith) (by norm_num [abs_le]) (by norm_num)
    norm_num at this ⊢
    exact this
  have e1 : (lit (1/2) : ℝ) = 1/2 := by simp
  have half : ∀ {x' : Fl F} {x : ℝ}, x'.Near x (7 * ε) → |x| ≤ 1 → (lit (1/2) * x').Near (lit (1/2) * x) (7 * ε) := fun h hx => by
    rw [e1]
    exact l1.mulE (M := 1/2) (N := 1) 7 h hu hε (by norm_num [abs_le]) hx (by norm_num) (by norm_num) (by norm_num) (by norm_num)
  have one : (1 : Fl F).Near 1 (0 * ε) := near_one.mono (by linarith)
  have zero : (0 : Fl F).Near 0 (0 * ε) := near_zero.mono (by linarith)
  have w1 := hw.mulE (M := 1) (N := 1) 4 one hu hε bw (by norm_num) (by norm_num) (by norm_num) (by norm_num) (by norm_num)
  have w0 := hw.mulE (M := 1) (N := 0) 1 zero hu hε bw (by norm_num) (by norm_num) (by norm_num) (by norm_num) (by norm_num)
  have dg := w1.subE (S := 1) 7 zero hu hε1 (by simpa using bw) (by norm_num) (by norm_num) (by norm_num)
  have dgb : |q.w * 1 - 0| ≤ 1 := by simpa using bw
  have off : ∀ {x' : Fl F} {x : ℝ}, x'.Near x (1 * ε) → |x| ≤ 1 → (q'.w * 0 - x').Near (q.w * 0 - x) (7 * ε) := fun h hx =>
    w0.subE (S := 1) 7 h hu hε1 (by simpa using hx) (by norm_num) (by norm_num) (by norm_num)
  have offb : ∀ {x : ℝ}, |x| ≤ 1 → |q.w * 0 - x| ≤ 1 := fun hx => by simpa using hx
  have nb : ∀ {x : ℝ}, |x| ≤ 1 → |-x| ≤ 1 := fun hx => by rwa [abs_neg]
  have up : ∀ {x' : Fl F} {x : ℝ}, x'.Near x (1 * ε) → x'.Near x (7 * ε) := fun h => h.mono (by linarith)
  constructor
  · exact VNear.mono (vNear_of_entries (d := 7 * ε) (half (up hx.neg) (nb bx)) (half (up hy.neg) (nb by')) (half (up hz.neg) (nb bz)))
      (by linarith)
  · exact MNear.mono (mNear_of_entries (d := 7 * ε)
      (half dg dgb) (half (off hz.neg (nb bz)) (offb (nb bz))) (half (off hy by') (offb by'))
      (half (off hz bz) (offb bz)) (half dg dgb) (half (off hx.neg (nb bx)) (offb (nb bx)))
      (half (off hy.neg (nb by')) (offb (nb by'))) (half (off hx bx) (offb bx)) (half dg dgb)) (by linarith)

end Fl
