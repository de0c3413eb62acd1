import Verif.Lemmas.FlSlerp
import Verif.Lemmas.Sub
import Verif.Lemmas.B64Sub

/-! # Rounding error of `subproblem0` and `subproblem1` -/
set_option autoImplicit false

/-- An angle in the upper half plane whose sine is small is close to 0 or to `π`. -/
theorem flip_angle {A δ : ℝ} (h0 : 0 ≤ A) (h1 : A ≤ Real.pi) (hs : Real.sin A ≤ δ) : ∃ m : ℤ, |2 * A - m * (2 * Real.pi)| ≤ Real.pi * δ := by
  have hp := Real.pi_pos
  have key : ∀ B : ℝ, 0 ≤ B → B ≤ Real.pi / 2 → Real.sin B ≤ δ → 2 * B ≤ Real.pi * δ := by
    intro B b0 b1 b2
    have := Real.mul_le_sin b0 b1
    rw [div_mul_eq_mul_div, div_le_iff₀ hp] at this
    have := mul_le_mul_of_nonneg_right b2 hp.le
    linarith
  rcases le_total A (Real.pi / 2) with h | h
  · refine ⟨0, ?_⟩
    rw [Int.cast_zero, zero_mul, sub_zero, abs_of_nonneg (by linarith)]
    exact key A h0 h hs
  · refine ⟨1, ?_⟩
    rw [Int.cast_one, one_mul, abs_of_nonpos (by linarith)]
    have := key (Real.pi - A) (by linarith) (by linarith) (by rwa [Real.sin_pi_sub])
    linarith

/-- Distance from the axis. -/
theorem V3.perp_norm {k p : V3 ℝ} (hk : IsUnit3 k) : (p.perp k).norm = (k.cross p).norm := by
  rw [V3.norm_eq, V3.norm_eq, V3.perp_dot_self hk]
  congr 1
  have : (k.cross p).dot (k.cross p) = k.dot k * p.dot p - p.dot k ^ 2 := by simp [V3.dot]; ring
  rw [this, hk.dot, one_mul]

namespace Fl
variable {F : FSys} {ε : ℝ}

/-- Components within `e`. -/
def C3 (v' : V3 (Fl F)) (v : V3 ℝ) (e : ℝ) : Prop := v'.x.Near v.x e ∧ v'.y.Near v.y e ∧ v'.z.Near v.z e

theorem C3.mono {v' : V3 (Fl F)} {v : V3 ℝ} {d e : ℝ} (h : C3 v' v d) (hde : d ≤ e) : C3 v' v e :=
  ⟨h.1.mono hde, h.2.1.mono hde, h.2.2.mono hde⟩

/-- Norm of a vector, however short. -/
theorem near_norm3 {v : V3 ℝ} {v' : V3 (Fl F)} {e N : ℝ} (h : C3 v' v e) (hN : v.norm ≤ N) (hb : N + 2 * e ≤ 10) (hη : 16 * F.η ≤ F.u ^ 3) :
    v'.norm.Near v.norm (2 * e + (39 * (N + 2 * e) + 1) * F.u) := by
  obtain ⟨⟨x0⟩, ⟨x1⟩, ⟨x2⟩⟩ := v'
  obtain ⟨⟨v0, e0, h0⟩, ⟨v1, e1, h1⟩, ⟨v2, e2, h2⟩⟩ := h
  cases e0; cases e1; cases e2
  have u0 := F.u_nonneg
  have u1 := F.u_le
  have η0 := F.η_nonneg
  have big := F.big_ge
  have ep := (abs_nonneg _).trans h0
  have lip := sqrt_sum_lip ![v0, v1, v2] ![v.x, v.y, v.z] (e := e) (m := 2)
    (by intro i; fin_cases i <;> assumption) ep (by norm_num) (by norm_num)
  have sA : Real.sqrt (∑ i, ![v.x, v.y, v.z] i * ![v.x, v.y, v.z] i) = v.norm := by
    rw [V3.norm_eq]
    simp [Fin.sum_univ_succ, V3.dot]; ring_nf
  have sV : ∑ i, ![v0, v1, v2] i * ![v0, v1, v2] i = v0 * v0 + v1 * v1 + v2 * v2 := by
    simp [Fin.sum_univ_succ]; ring
  rw [sA, sV] at lip
  have q0 := mul_self_nonneg v0
  have q1 := mul_self_nonneg v1
  have q2 := mul_self_nonneg v2
  set r := Real.sqrt (v0 * v0 + v1 * v1 + v2 * v2) with hr
  have r0 : 0 ≤ r := Real.sqrt_nonneg _
  have rsq : r ^ 2 = v0 * v0 + v1 * v1 + v2 * v2 := Real.sq_sqrt (by linarith)
  obtain ⟨l1, l2⟩ := abs_le.1 lip
  have rhi : r ≤ N + 2 * e := by linarith
  have r10 : r ≤ 10 := by linarith
  have r2 : r ^ 2 ≤ 100 := by
    have := pow_le_pow_left₀ r0 r10 2
    norm_num at this ⊢
    exact this
  have s0 : RN 1 (of v0 * of v0 : Fl F) _ := RN.sq (by linarith)
  have s1 : RN 1 (of v1 * of v1 : Fl F) _ := RN.sq (by linarith)
  have s2 : RN 1 (of v2 * of v2 : Fl F) _ := RN.sq (by linarith)
  have t1 := s0.add s1 (m := 3.1) (by norm_num) (by norm_num) (by linarith) (by norm_num) (by norm_num)
  have t2 := t1.add s2 (m := 18) (by norm_num) (by norm_num) (by linarith) (by norm_num) (by norm_num)
  have p1 := nonneg_add s0.2 s1.2 t1.2 (nonneg_sq s0.2) (nonneg_sq s1.2)
  have p2 := nonneg_add t1.2 s2.2 t2.2 p1 (nonneg_sq s2.2)
  rw [← rsq] at t2
  change (Elem.sqrt (of v0 * of v0 + of v1 * of v1 + of v2 * of v2 : Fl F)).Near _ _
  generalize (of v0 * of v0 + of v1 * of v1 + of v2 * of v2 : Fl F) = a at t2 p2 ⊢
  have main : (Elem.sqrt a).Near r ((39 * r + 1) * F.u) := by
    by_cases hc : F.η ≤ F.u * r ^ 2 ∧ 0 < r
    · exact (t2.sqrt hc.2 r10 hc.1).mono (by linarith)
    · have ur2 : F.u * r ^ 2 ≤ F.η := by
        rcases r0.eq_or_lt with h | h
        · rw [← h]; simpa using η0
        · exact le_of_not_ge fun h' => hc ⟨h', h⟩
      have rs : r ≤ F.u / 4 ∨ F.u = 0 := by
        rcases u0.eq_or_lt with h | h
        · exact Or.inr h.symm
        · left
          have : r ^ 2 ≤ (F.u / 4) ^ 2 := by
            have : F.u * r ^ 2 ≤ F.u * (F.u / 4) ^ 2 := by
              have : F.u * (F.u / 4) ^ 2 = F.u ^ 3 / 16 := by ring
              linarith
            exact le_of_mul_le_mul_left this h
          exact (sq_le_sq₀ r0 (by linarith)).1 this
      rcases rs with rs | rs
      · obtain ⟨-, W, hW, hWe⟩ := t2
        have W0 : 0 ≤ W := by
          have : XReal.fin 0 ≤ a.val := p2
          rwa [hW, XReal.fin_le] at this
        have rr : r ^ 2 ≤ F.u ^ 2 / 16 := by
          have := pow_le_pow_left₀ r0 rs 2
          rw [div_pow] at this
          norm_num at this ⊢
          exact this
        have u3 : F.u ^ 3 ≤ 1 / 1024 * F.u ^ 2 := by
          rw [show F.u ^ 3 = F.u * F.u ^ 2 by ring]
          exact mul_le_mul_of_nonneg_right u1 (sq_nonneg _)
        have sW : Real.sqrt W ≤ 3 / 10 * F.u := by
          refine Real.sqrt_le_iff.2 ⟨by linarith, ?_⟩
          have h1 := (abs_le.1 hWe).2
          rw [mul_pow]
          have := sq_nonneg F.u
          norm_num
          linarith
        have sW0 := Real.sqrt_nonneg W
        have hs : |Real.sqrt W - r| ≤ 3 / 10 * F.u := abs_le.2 ⟨by linarith, by linarith⟩
        have uu : F.u ^ 2 ≤ 1 / 1024 * F.u := by rw [pow_two]; exact mul_le_mul_of_nonneg_right u1 u0
        have ur : F.u * (r + 3 / 10 * F.u) ≤ F.u * (1 / 1024) := mul_le_mul_of_nonneg_left (by linarith) u0
        have rp := mul_nonneg r0 u0
        have ru : r * F.u ≤ 10 * (1 / 1024) := mul_le_mul r10 u1 u0 (by norm_num)
        have hS := near_round (F := F) (w := Real.sqrt W) (x := r) (d := 3 / 10 * F.u) (e := (39 * r + 1) * F.u) hs (by
          rw [abs_of_nonneg r0]; linarith) (by rw [abs_of_nonneg r0]; linarith)
        change (⟨F.round (Elem.sqrt a.val)⟩ : Fl F).Near _ _
        rw [hW, XReal.sqrt_fin W0]
        exact hS
      · have ηz : F.η = 0 := by rw [rs] at hη; norm_num at hη; linarith
        have r00 : ¬ 0 < r := fun h => hc ⟨by rw [ηz, rs, zero_mul], h⟩
        have rz : r = 0 := le_antisymm (not_lt.1 r00) r0
        obtain ⟨-, W, hW, hWe⟩ := t2
        rw [rs, ηz, rz] at hWe
        norm_num at hWe
        have hS := near_round (F := F) (w := Real.sqrt W) (x := r) (d := 0) (e := (39 * r + 1) * F.u) (by rw [hWe, rz]; simp) (by
          rw [rs, ηz]; simp) (by rw [abs_of_nonneg r0, rs]; linarith)
        change (⟨F.round (Elem.sqrt a.val)⟩ : Fl F).Near _ _
        rw [hW, XReal.sqrt_fin hWe.ge]
        exact hS
  obtain ⟨w, hw, h⟩ := main
  refine ⟨w, hw, ?_⟩
  rw [show w - v.norm = (w - r) + (r - v.norm) by ring]
  refine (abs_add_le _ _).trans ?_
  have : (39 * r + 1) * F.u ≤ (39 * (N + 2 * e) + 1) * F.u := mul_le_mul_of_nonneg_right (by linarith) u0
  linarith

theorem abs_le_of_unit3 {k : V3 ℝ} (h : IsUnit3 k) : |k.x| ≤ 1 ∧ |k.y| ≤ 1 ∧ |k.z| ≤ 1 := by
  have := V3.norm_eq_one h
  exact ⟨this ▸ V3.abs_x_le k, this ▸ V3.abs_y_le k, this ▸ V3.abs_z_le k⟩

/-- Normalisation of a vector near a unit one. -/
theorem near_normalize3 {k : V3 ℝ} (hk : IsUnit3 k) {k' : V3 (Fl F)} {e : ℝ} (h : C3 k' k e) (he : 20 * e + 450 * F.u ≤ 1)
    (hη : 16 * F.η ≤ F.u ^ 3) : C3 (k'.sdiv k'.norm) k (34 / 10 * e + 55 * F.u) := by
  have u0 := F.u_nonneg
  have u1 := F.u_le
  have e0 := h.1.nonneg
  have hn := near_norm3 h (V3.norm_eq_one hk).le (by linarith) hη
  rw [V3.norm_eq_one hk] at hn
  replace hn : k'.norm.Near 1 (2 * e + 45 * F.u) := hn.mono (by
    have : e * F.u ≤ 1 / 20 * F.u := mul_le_mul_of_nonneg_right (by linarith) u0
    linarith)
  obtain ⟨b1, b2, b3⟩ := abs_le_of_unit3 hk
  have key : ∀ {a : Fl F} {x : ℝ}, a.Near x e → |x| ≤ 1 → (a / k'.norm).Near x (34 / 10 * e + 55 * F.u) := by
    intro a x ha hx
    have := near_quotG ha hn one_pos (by rwa [div_one]) (by linarith) (D := 34 / 10 * e + 52 * F.u) (by
      rw [div_le_iff₀ (by norm_num)]
      linarith) (by linarith)
    rw [div_one] at this
    exact this.mono (by linarith)
  obtain ⟨k1, k2, k3⟩ := h
  exact ⟨key k1 b1, key k2 b2, key k3 b3⟩

/-- Products of small errors. -/
theorem Near.mulT {a b : Fl F} {x y k l M N τ : ℝ} (m : ℝ) (ha : a.Near x (k * ε)) (hb : b.Near y (l * ε)) (hu : F.u ≤ ε) (hε : ε ≤ τ)
    (hτ : τ ≤ 1) (hM : |x| ≤ M) (hN : |y| ≤ N) (hk : 0 ≤ k) (hl : 0 ≤ l)
    (hm : (M * l + N * k + k * l * τ) * (1 + 1 / 1024) + M * N + 1 ≤ m) (hbig : M * N + m ≤ 1000000) :
    (a * b).Near (x * y) (m * ε) := by
  have h0 : 0 ≤ ε := F.u_nonneg.trans hu
  have hM0 := (abs_nonneg x).trans hM
  have hN0 := (abs_nonneg y).trans hN
  have τ0 := h0.trans hε
  have hxy : |x * y| ≤ M * N := by rw [abs_mul]; exact mul_le_mul hM hN (abs_nonneg _) hM0
  have hd : 0 ≤ |x| * (l * ε) + |y| * (k * ε) + (k * ε) * (l * ε) := by positivity
  refine ha.mul hb (round_lem (k := M * l + N * k + k * l * τ) hu ?_ hxy hd hm (by positivity)) (big_lem (by linarith) h0 hxy ?_ hbig)
  · have e1 : |x| * (l * ε) ≤ M * (l * ε) := mul_le_mul_of_nonneg_right hM (by positivity)
    have e2 : |y| * (k * ε) ≤ N * (k * ε) := mul_le_mul_of_nonneg_right hN (by positivity)
    have e3 : (k * ε) * (l * ε) ≤ k * l * τ * ε := by
      have : (k * l * ε) * ε ≤ (k * l * ε) * τ := mul_le_mul_of_nonneg_left hε (by positivity)
      linarith
    linarith
  · refine le_trans ?_ hm
    positivity

theorem two_le {a b c d M N : ℝ} (h1 : |a| ≤ M) (h2 : |b| ≤ N) (h3 : |c| ≤ M) (h4 : |d| ≤ N) : |a * b - c * d| ≤ 2 * (M * N) ∧ |a * b + c * d| ≤ 2 * (M * N) := by
  have k1 : |a * b| ≤ M * N := by rw [abs_mul]; exact mul_le_mul h1 h2 (abs_nonneg _) ((abs_nonneg _).trans h1)
  have k2 : |c * d| ≤ M * N := by rw [abs_mul]; exact mul_le_mul h3 h4 (abs_nonneg _) ((abs_nonneg _).trans h3)
  exact ⟨(abs_sub _ _).trans (by linarith), (abs_add_le _ _).trans (by linarith)⟩

/-- The perpendicular part of a point. -/
theorem near_perp {k p : V3 ℝ} (hk : IsUnit3 k) (hp : p.norm ≤ 4) {k' p' : V3 (Fl F)} (hu : F.u ≤ ε) (hε : ε ≤ 1 / 100000)
    (hk' : C3 k' k (59 * ε)) (hp' : C3 p' p ε) : C3 (p' - V3.smul (p'.dot k') k') (p.perp k) (1048 * ε) := by
  have u0 := F.u_nonneg
  obtain ⟨k1, k2, k3⟩ := hk'
  obtain ⟨p1, p2, p3⟩ := hp'
  obtain ⟨b1, b2, b3⟩ := abs_le_of_unit3 hk
  have a1 := (V3.abs_x_le p).trans hp
  have a2 := (V3.abs_y_le p).trans hp
  have a3 := (V3.abs_z_le p).trans hp
  have one : ∀ {a : Fl F} {x : ℝ}, a.Near x ε → a.Near x (1 * ε) := fun h => by rwa [one_mul]
  have m : ∀ {a b : Fl F} {x y : ℝ}, a.Near x ε → b.Near y (59 * ε) → |x| ≤ 4 → |y| ≤ 1 → (a * b).Near (x * y) (243 * ε) :=
    fun ha hb hx hy => (one ha).mulT 243 hb hu hε (by norm_num) hx hy (by norm_num) (by norm_num) (by norm_num) (by norm_num)
  have hd : |p.dot k| ≤ 4 := by
    have := V3.abs_dot_le p k
    rw [V3.norm_eq_one hk, mul_one] at this
    exact this.trans hp
  have s1 := (m p1 k1 a1 b1).addE 496 (m p2 k2 a2 b2) hu (by linarith) (S := 8) ((two_le a1 b1 a2 b2).2.trans (by norm_num)) (by norm_num)
    (by norm_num) (by norm_num)
  have s2 := s1.addE 753 (m p3 k3 a3 b3) hu (by linarith) (S := 12) (hd.trans (by norm_num)) (by norm_num) (by norm_num) (by norm_num)
  have nn : (p.perp k).norm ≤ 4 := by
    refine le_trans ?_ hp
    rw [V3.norm_eq, V3.norm_eq]
    refine Real.sqrt_le_sqrt ?_
    rw [V3.perp_dot_self hk]
    linarith [sq_nonneg (p.dot k)]
  have c : ∀ {a b : Fl F} {x y : ℝ}, a.Near x ε → b.Near y (59 * ε) → |y| ≤ 1 → |x - p.dot k * y| ≤ 4 →
      (a - p'.dot k' * b).Near (x - p.dot k * y) (1048 * ε) := by
    intro a b x y ha hb hy hxy
    have := s2.mulT 1040 hb hu hε (by norm_num) hd hy (by norm_num) (by norm_num) (by norm_num) (by norm_num)
    exact (one ha).subE 1048 this hu (by linarith) hxy (by norm_num) (by norm_num) (by norm_num)
  exact ⟨c p1 k1 b1 ((V3.abs_x_le _).trans nn), c p2 k2 b2 ((V3.abs_y_le _).trans nn), c p3 k3 b3 ((V3.abs_z_le _).trans nn)⟩

/-- The direction of a vector at least `s` long. -/
theorem near_direction {v : V3 ℝ} {v' : V3 (Fl F)} {s : ℝ} (hs : 0 < s) (hs1 : s ≤ 1) (hv : s ≤ v.norm) (hv4 : v.norm ≤ 4) (hu : F.u ≤ ε)
    (he : 140000 * ε ≤ s) (hη : 16 * F.η ≤ F.u ^ 3) (h : C3 v' v (1048 * ε)) : C3 (v'.sdiv v'.norm) (v.sdiv v.norm) (3715 * (ε / s)) := by
  have u0 := F.u_nonneg
  have e0 := u0.trans hu
  have n0 : 0 < v.norm := by linarith
  have hn : v'.norm.Near v.norm (2292 * ε) := (near_norm3 h hv4 (by linarith) hη).mono (by
    have : (39 * (4 + 2 * (1048 * ε)) + 1) * F.u ≤ 196 * ε := mul_le_mul (by linarith) hu u0 (by norm_num)
    linarith)
  have hG : ε ≤ ε / s := by
    rw [le_div_iff₀ hs]
    exact mul_le_of_le_one_right e0 hs1
  have hG1 : ε / s ≤ 1 / 140000 := by rw [div_le_div_iff₀ hs (by norm_num)]; linarith
  have key : ∀ {a : Fl F} {x : ℝ}, a.Near x (1048 * ε) → |x| ≤ v.norm → (a / v'.norm).Near (x / v.norm) (3715 * (ε / s)) := by
    intro a x ha hx
    refine (near_quotG ha hn n0 (by rw [abs_div, abs_of_pos n0]; exact div_le_one_of_le₀ hx n0.le) (by linarith) (D := 3712 * (ε / s)) ?_
      (by linarith)).mono (by linarith)
    have h1 : (1048 * ε + 2292 * ε) / (9 / 10 * v.norm) ≤ (1048 * ε + 2292 * ε) / (9 / 10 * s) :=
      div_le_div_of_nonneg_left (by linarith) (by linarith) (by linarith)
    refine h1.trans ?_
    rw [show (1048 * ε + 2292 * ε) / (9 / 10 * s) = 33400 / 9 * (ε / s) by field_simp; ring]
    exact mul_le_mul_of_nonneg_right (by norm_num) (by positivity)
  obtain ⟨k1, k2, k3⟩ := h
  exact ⟨key k1 (V3.abs_x_le v), key k2 (V3.abs_y_le v), key k3 (V3.abs_z_le v)⟩

theorem arctan2_fin_le (hF : Spec.InvAcc F) {a b : Fl F} {v : ℝ} (h : (Elem.arctan2 b a : Fl F).val = .fin v) : |v| ≤ 4 := by
  change (match b.val, a.val with
      | .fin y, .fin x => XReal.fin (F.arctan2F y x)
      | _, _ => .nan) = _ at h
  split at h
  · cases h; exact (hF.arctan2_le _ _).trans (by norm_num)
  · cases h

/-- Doubling an angle. -/
theorem near_double {a : Fl F} {θ e : ℝ} (h : Spec.AngNear a θ e) (ha : ∀ v, a.val = .fin v → |v| ≤ 4) :
    Spec.AngNear (lit 2 * a) (2 * θ) (2 * e + 22 * F.u) := by
  have u0 := F.u_nonneg
  have u1 := F.u_le
  obtain ⟨n, v, hv, h1⟩ := h
  have h4 := ha v hv
  have ha : a = of v := by cases a; cases hv; rfl
  have q2 : ((2 : ℚ) : ℝ) = 2 := by norm_num
  have l2 : (lit 2 : Fl F).Near 2 (3 * F.u) := by
    have := near_lit (F := F) (ε := F.u) 2 (S := 2) le_rfl (by linarith) (by rw [q2]; norm_num) (by norm_num)
    rw [q2] at this
    exact this.mono (by linarith)
  have hm : (lit 2 * of v : Fl F).Near (2 * v) (22 * F.u) :=
    l2.mulE (ε := F.u) 22 (l := 0) (by rw [zero_mul]; exact near_of v) le_rfl (by linarith) (M := 2) (by norm_num) h4 (by norm_num) le_rfl
      (by norm_num) (by norm_num)
  obtain ⟨w, hw, h5⟩ := hm
  refine ⟨2 * n, w, by rw [ha]; exact hw, ?_⟩
  push_cast
  rw [show w - (2 * θ + 2 * n * (2 * Real.pi)) = (w - 2 * v) + 2 * (v - (θ + n * (2 * Real.pi))) by ring]
  refine (abs_add_le _ _).trans ?_
  rw [abs_mul, abs_two]
  linarith

/-- `subproblem0` for unit vectors perpendicular to the axis, unless its check fails. -/
theorem subproblem0_near (hF : Spec.InvAcc F) {k p q : V3 ℝ} (hk : IsUnit3 k) (hp : IsUnit3 p) (kp : k.dot p = 0) {θ : ℝ}
    (hq : (rot k θ).mulVec p = q) {k' p' q' : V3 (Fl F)} (hu : F.u ≤ ε) (hε : ε ≤ 1 / 140000) (hη : 16 * F.η ≤ F.u ^ 3)
    (hk' : C3 k' k (59 * ε)) (hp' : C3 p' p (3715 * ε)) (hq' : C3 q' q (3715 * ε)) :
    (subproblem0 p' q' k' = .error .assertion ∧ ¬ (k'.dot p' < npEps ∧ k'.dot q' < npEps)) ∨
      ∃ th, subproblem0 p' q' k' = .ok th ∧ Spec.AngNear th θ (350000 * ε) := by
  have u0 := F.u_nonneg
  have e0 := u0.trans hu
  have hqu : IsUnit3 q := by
    have := (rot_invariants hk hq).1
    exact this.symm.trans hp
  by_cases hc : k'.dot p' < npEps ∧ k'.dot q' < npEps
  swap
  · refine Or.inl ⟨?_, hc⟩
    simp [subproblem0, pyAssert, hc]
  right
  obtain ⟨k1, k2, k3⟩ := hk'
  obtain ⟨a1, a2, a3⟩ := abs_le_of_unit3 hk
  obtain ⟨b1, b2, b3⟩ := abs_le_of_unit3 hp
  obtain ⟨c1, c2, c3⟩ := abs_le_of_unit3 hqu
  -- the directions
  have hep : C3 (p'.sdiv p'.norm) p (12686 * ε) := (near_normalize3 hp hp' (by linarith) hη).mono (by linarith)
  have heq : C3 (q'.sdiv q'.norm) q (12686 * ε) := (near_normalize3 hqu hq' (by linarith) hη).mono (by linarith)
  have hnp := V3.norm_eq_one hp
  have hnq := V3.norm_eq_one hqu
  have n1 : (p - q).norm ≤ 2 := by have := V3.norm_sub_le p q; linarith
  have n2 : (p + q).norm ≤ 2 := by have := V3.norm_add_le p q; linarith
  have hsub : C3 (p'.sdiv p'.norm - q'.sdiv q'.norm) (p - q) (25410 * ε) := by
    obtain ⟨x1, x2, x3⟩ := hep
    obtain ⟨y1, y2, y3⟩ := heq
    have sub : ∀ {a b : Fl F} {x y : ℝ}, a.Near x (12686 * ε) → b.Near y (12686 * ε) → |x - y| ≤ 2 → (a - b).Near (x - y) (25410 * ε) :=
      fun ha hb h => ha.subE 25410 hb hu (by linarith) h (by norm_num) (by norm_num) (by norm_num)
    exact ⟨sub x1 y1 ((V3.abs_x_le (p - q)).trans n1), sub x2 y2 ((V3.abs_y_le (p - q)).trans n1), sub x3 y3 ((V3.abs_z_le (p - q)).trans n1)⟩
  have hadd : C3 (p'.sdiv p'.norm + q'.sdiv q'.norm) (p + q) (25410 * ε) := by
    obtain ⟨x1, x2, x3⟩ := hep
    obtain ⟨y1, y2, y3⟩ := heq
    have add : ∀ {a b : Fl F} {x y : ℝ}, a.Near x (12686 * ε) → b.Near y (12686 * ε) → |x + y| ≤ 2 → (a + b).Near (x + y) (25410 * ε) :=
      fun ha hb h => ha.addE 25410 hb hu (by linarith) h (by norm_num) (by norm_num) (by norm_num)
    exact ⟨add x1 y1 ((V3.abs_x_le (p + q)).trans n2), add x2 y2 ((V3.abs_y_le (p + q)).trans n2), add x3 y3 ((V3.abs_z_le (p + q)).trans n2)⟩
  have hb : (39 * (2 + 2 * (25410 * ε)) + 1) * F.u ≤ 118 * ε := mul_le_mul (by linarith) hu u0 (by norm_num)
  have hN1 := (near_norm3 hsub n1 (by linarith) hη).mono (show _ ≤ 50938 * ε by linarith)
  have hN2 := (near_norm3 hadd n2 (by linarith) hη).mono (show _ ≤ 50938 * ε by linarith)
  -- the angle between them
  have hcos : p.dot q = Real.cos θ := by
    have := rot_dot_rot hk hp kp 0 θ
    rw [rot_zero, M3.one_mulVec, hq, sub_zero] at this
    exact this
  have hsin : k.dot (p.cross q) = Real.sin θ := by
    rw [← hq, rot_mulVec k hk, kp]
    simp only [IsUnit3, V3.dot] at hk hp kp
    simp [V3.dot]
    linear_combination Real.sin θ * (hk * (p.x * p.x + p.y * p.y + p.z * p.z) + hp) - Real.sin θ * kp * (k.x * p.x + k.y * p.y + k.z * p.z)
  have d1 : (p - q).norm * (p - q).norm = 2 - 2 * Real.cos θ := by
    rw [← pow_two, V3.norm_sq, V3.dot_sub, V3.sub_dot, V3.sub_dot, hp.dot, hqu.dot, V3.dot_comm q p, hcos]; ring
  have d2 : (p + q).norm * (p + q).norm = 2 + 2 * Real.cos θ := by
    rw [← pow_two, V3.norm_sq, V3.dot_add, V3.add_dot, V3.add_dot, hp.dot, hqu.dot, V3.dot_comm q p, hcos]; ring
  obtain ⟨A0, Aπ, Ac, As⟩ := half_angle (V3.norm_nonneg (p - q)) (V3.norm_nonneg (p + q)) d1 d2
  have hat := near_arctan2 hF (r := 2) two_pos (by rw [d1, d2]; ring) hN1 hN2 (by linarith)
  have hdb := near_double hat (fun v hv => arctan2_fin_le hF hv)
  set A := 2 * Complex.arg ⟨(p + q).norm, (p - q).norm⟩ with hA
  have sA0 : 0 ≤ Real.sin A := Real.sin_nonneg_of_nonneg_of_le_pi A0 Aπ
  have sq : Real.sin A ^ 2 = Real.sin θ ^ 2 := by
    have h1 := Real.sin_sq_add_cos_sq A
    have h2 := Real.sin_sq_add_cos_sq θ
    rw [Ac] at h1
    linarith
  -- the side
  have mul : ∀ {a b : Fl F} {x y : ℝ}, a.Near x (3715 * ε) → b.Near y (3715 * ε) → |x| ≤ 1 → |y| ≤ 1 → (a * b).Near (x * y) (7540 * ε) :=
    fun ha hb hx hy => ha.mulT 7540 hb hu hε (by norm_num) hx hy (by norm_num) (by norm_num) (by norm_num) (by norm_num)
  have crs : ∀ {a b c d : Fl F} {x y z w : ℝ}, a.Near x (3715 * ε) → b.Near y (3715 * ε) → c.Near z (3715 * ε) → d.Near w (3715 * ε) →
      |x| ≤ 1 → |y| ≤ 1 → |z| ≤ 1 → |w| ≤ 1 → (a * b - c * d).Near (x * y - z * w) (15100 * ε) := fun ha hb hc hd hx hy hz hw =>
    (mul ha hb hx hy).subE 15100 (mul hc hd hz hw) hu (by linarith) (S := 2) ((two_le hx hy hz hw).1.trans (by norm_num)) (by norm_num)
      (by norm_num) (by norm_num)
  obtain ⟨p1, p2, p3⟩ := hp'
  obtain ⟨q1, q2, q3⟩ := hq'
  have x1 := crs p2 q3 p3 q2 b2 c3 b3 c2
  have x2 := crs p3 q1 p1 q3 b3 c1 b1 c3
  have x3 := crs p1 q2 p2 q1 b1 c2 b2 c1
  have dm : ∀ {a b : Fl F} {x y : ℝ}, a.Near x (59 * ε) → b.Near y (15100 * ε) → |x| ≤ 1 → |y| ≤ 2 → (a * b).Near (x * y) (15250 * ε) :=
    fun ha hb hx hy => ha.mulT 15250 hb hu hε (by norm_num) hx hy (by norm_num) (by norm_num) (by norm_num) (by norm_num)
  have y1 : |p.y * q.z - p.z * q.y| ≤ 2 := (two_le b2 c3 b3 c2).1.trans (by norm_num)
  have y2 : |p.z * q.x - p.x * q.z| ≤ 2 := (two_le b3 c1 b1 c3).1.trans (by norm_num)
  have y3 : |p.x * q.y - p.y * q.x| ≤ 2 := (two_le b1 c2 b2 c1).1.trans (by norm_num)
  have t1 := (dm k1 x1 a1 y1).addE 30540 (dm k2 x2 a2 y2) hu (by linarith) (S := 4) ((two_le a1 y1 a2 y2).2.trans (by norm_num)) (by norm_num)
    (by norm_num) (by norm_num)
  have hD : (k'.dot (p'.cross q')).Near (Real.sin θ) (45840 * ε) := by
    have := t1.addE 45840 (dm k3 x3 a3 y3) hu (by linarith) (S := 1) (by
      change |k.dot (p.cross q)| ≤ 1
      rw [hsin]; exact Real.abs_sin_le_one θ) (by norm_num) (by norm_num) (by norm_num)
    change (k'.dot (p'.cross q')).Near (k.dot (p.cross q)) _ at this
    rwa [hsin] at this
  have hπ := Real.pi_lt_d2
  have πδ : Real.pi * (45840 * ε) ≤ 3.15 * (45840 * ε) := mul_le_mul_of_nonneg_right hπ.le (by linarith)
  have wide : ∀ {th : Fl F} {α : ℝ}, Spec.AngNear th α (2 * (4 * (50938 * ε) / 2 + F.u) + 22 * F.u) →
      (∃ m : ℤ, |α - θ - m * (2 * Real.pi)| ≤ Real.pi * (45840 * ε)) → Spec.AngNear th θ (350000 * ε) := by
    rintro th α ⟨n, v, hv, h⟩ ⟨m, hm⟩
    refine ⟨n + m, v, hv, ?_⟩
    push_cast
    rw [show v - (θ + (n + m) * (2 * Real.pi)) = (v - (α + n * (2 * Real.pi))) + (α - θ - m * (2 * Real.pi)) by ring]
    refine (abs_add_le _ _).trans ?_
    linarith
  obtain ⟨D, hDv, hDe⟩ := hD
  have hpos : 0 ≤ Real.pi * (45840 * ε) := mul_nonneg Real.pi_pos.le (by linarith)
  obtain ⟨D1, D2⟩ := abs_le.1 hDe
  by_cases hneg : k'.dot (p'.cross q') < 0
  · have D0 : D < 0 := by
      change (k'.dot (p'.cross q')).val < XReal.fin 0 at hneg
      rwa [hDv, XReal.fin_lt] at hneg
    refine ⟨-(lit 2 * Elem.arctan2 (p'.sdiv p'.norm - q'.sdiv q'.norm).norm (p'.sdiv p'.norm + q'.sdiv q'.norm).norm), ?_, ?_⟩
    · simp [subproblem0, pyAssert, hc, hneg]
    · have hneg' : Spec.AngNear (-(lit 2 * Elem.arctan2 (p'.sdiv p'.norm - q'.sdiv q'.norm).norm (p'.sdiv p'.norm + q'.sdiv q'.norm).norm)) (-A)
          (2 * (4 * (50938 * ε) / 2 + F.u) + 22 * F.u) := by
        obtain ⟨n, hn⟩ := hdb
        refine ⟨-n, ?_⟩
        have := hn.neg
        rwa [show -(A + n * (2 * Real.pi)) = -A + (-n : ℤ) * (2 * Real.pi) by push_cast; ring] at this
      refine wide hneg' ?_
      rcases le_total (Real.sin θ) 0 with h | h
      · have hs : Real.sin A = - Real.sin θ := by
          have := (sq_eq_sq₀ sA0 (show 0 ≤ -Real.sin θ by linarith)).1 (by rw [neg_sq]; exact sq)
          exact this
        obtain ⟨m, hm⟩ := angle_eq_of_sin_cos (a := -A) (b := θ) (by rw [Real.sin_neg, hs, neg_neg]) (by rw [Real.cos_neg, Ac])
        refine ⟨m, ?_⟩
        rw [hm, add_sub_cancel_left, sub_self, abs_zero]
        exact hpos
      · have hs : Real.sin A = Real.sin θ := (sq_eq_sq₀ sA0 h).1 sq
        obtain ⟨m, hm⟩ := angle_eq_of_sin_cos (a := A) (b := θ) hs Ac
        obtain ⟨n, hn⟩ := flip_angle (δ := 45840 * ε) A0 Aπ (by rw [hs]; linarith)
        refine ⟨m - n, ?_⟩
        rw [← abs_neg]
        push_cast
        rw [show -(-A - θ - (m - n) * (2 * Real.pi)) = (2 * A - n * (2 * Real.pi)) - (A - (θ + m * (2 * Real.pi))) by ring, ← hm, sub_self, sub_zero]
        exact hn
  · have D0 : 0 ≤ D := by
      change ¬ (k'.dot (p'.cross q')).val < XReal.fin 0 at hneg
      rw [hDv, XReal.fin_lt] at hneg
      exact not_lt.1 hneg
    refine ⟨lit 2 * Elem.arctan2 (p'.sdiv p'.norm - q'.sdiv q'.norm).norm (p'.sdiv p'.norm + q'.sdiv q'.norm).norm, ?_, ?_⟩
    · simp [subproblem0, pyAssert, hc, hneg]
    · refine wide hdb ?_
      rcases le_total 0 (Real.sin θ) with h | h
      · have hs : Real.sin A = Real.sin θ := (sq_eq_sq₀ sA0 h).1 sq
        obtain ⟨m, hm⟩ := angle_eq_of_sin_cos (a := A) (b := θ) hs Ac
        refine ⟨m, ?_⟩
        rw [hm, add_sub_cancel_left, sub_self, abs_zero]
        exact hpos
      · have hs : Real.sin A = - Real.sin θ := by
          have := (sq_eq_sq₀ sA0 (show 0 ≤ -Real.sin θ by linarith)).1 (by rw [neg_sq]; exact sq)
          exact this
        obtain ⟨m, hm⟩ := angle_eq_of_sin_cos (a := -A) (b := θ) (by rw [Real.sin_neg, hs, neg_neg]) (by rw [Real.cos_neg, Ac])
        obtain ⟨n, hn⟩ := flip_angle (δ := 45840 * ε) A0 Aπ (by rw [hs]; linarith)
        refine ⟨m + n, ?_⟩
        push_cast
        rw [show A - θ - (m + n) * (2 * Real.pi) = (2 * A - n * (2 * Real.pi)) + (-A - (θ + m * (2 * Real.pi))) by ring, ← hm, sub_self, add_zero]
        exact hn

theorem small_angle (θ : ℝ) : ∃ n : ℤ, |θ + n * (2 * Real.pi)| ≤ Real.pi / 2 * Real.sqrt (2 - 2 * Real.cos θ) := by
  have hp := Real.pi_pos
  refine ⟨-round (θ / (2 * Real.pi)), ?_⟩
  push_cast
  set n := round (θ / (2 * Real.pi)) with hn
  have h1 : |θ + -(n : ℝ) * (2 * Real.pi)| ≤ Real.pi := by
    have := abs_sub_round (θ / (2 * Real.pi))
    rw [← hn] at this
    have e : θ + -(n : ℝ) * (2 * Real.pi) = (θ / (2 * Real.pi) - n) * (2 * Real.pi) := by field_simp; ring
    rw [e, abs_mul, abs_of_pos (by linarith : (0 : ℝ) < 2 * Real.pi)]
    have := mul_le_mul_of_nonneg_right this (by linarith : (0 : ℝ) ≤ 2 * Real.pi)
    linarith
  have h2 : Real.cos θ = Real.cos (θ + -(n : ℝ) * (2 * Real.pi)) := by
    have := Real.cos_add_int_mul_two_pi θ (-n)
    push_cast at this
    exact this.symm
  rw [h2]
  set φ := θ + -(n : ℝ) * (2 * Real.pi)
  have h3 : 2 - 2 * Real.cos φ = (2 * |Real.sin (φ / 2)|) ^ 2 := by
    rw [mul_pow, sq_abs]
    have h4 : Real.cos φ = 2 * Real.cos (φ / 2) ^ 2 - 1 := by rw [← Real.cos_two_mul]; congr 1; ring
    have h5 := Real.sin_sq_add_cos_sq (φ / 2)
    linarith
  rw [h3, Real.sqrt_sq (by positivity)]
  have h6 := Real.mul_abs_le_abs_sin (x := φ / 2) (by rw [abs_div, abs_two]; linarith)
  rw [abs_div, abs_two, div_mul_eq_mul_div, div_le_iff₀ hp] at h6
  linarith

theorem rot_chord {k p : V3 ℝ} (hk : IsUnit3 k) (θ : ℝ) :
    (p - (rot k θ).mulVec p).norm = Real.sqrt (2 - 2 * Real.cos θ) * (p.perp k).norm := by
  rw [V3.norm_eq, V3.norm_eq, ← Real.sqrt_mul (by linarith [Real.cos_le_one θ]), V3.perp_dot_self hk]
  congr 1
  rw [V3.dot_sub, V3.sub_dot, V3.sub_dot, (rot_isRot k hk θ).dot_mulVec, V3.dot_comm ((rot k θ).mulVec p) p]
  have : p.dot ((rot k θ).mulVec p) = Real.cos θ * (p.dot p - p.dot k ^ 2) + p.dot k ^ 2 := by
    rw [rot_mulVec k hk]
    simp [V3.dot]
    ring
  rw [this]
  ring

/-- The threshold of `subproblem1`. -/
theorem sqrt_eps_le (hu : F.u ≤ 1 / 140000) (hη : 16 * F.η ≤ F.u ^ 3) : (Elem.sqrt npEps : Fl F).Near 0 (161 / 10000000000) := by
  have u0 := F.u_nonneg
  have η0 := F.η_nonneg
  have big := F.big_ge
  have q1 : ((1 / 4503599627370496 : ℚ) : ℝ) = 1 / 4503599627370496 := by norm_num
  obtain ⟨w, hw, h1⟩ : (npEps : Fl F).Near (1 / 4503599627370496) (F.u * (1 / 4503599627370496) + F.η) := by
    have := near_lit_abs (F := F) (1 / 4503599627370496) (by rw [q1, abs_of_pos (by norm_num)]; norm_num)
    rwa [q1, abs_of_pos (by norm_num)] at this
  have u3 : F.u ^ 3 ≤ (1 / 140000) ^ 3 := pow_le_pow_left₀ u0 hu 3
  norm_num at u3
  obtain ⟨h2, h3⟩ := abs_le.1 h1
  have ue : F.u * (1 / 4503599627370496) ≤ 1 / 140000 * (1 / 4503599627370496) := mul_le_mul_of_nonneg_right hu (by norm_num)
  have w0 : 0 ≤ w := by linarith
  have hs : Real.sqrt w ≤ 16 / 1000000000 := Real.sqrt_le_iff.2 ⟨by norm_num, by norm_num; linarith⟩
  have hS := near_round (F := F) (w := Real.sqrt w) (x := 0) (d := 16 / 1000000000) (e := 161 / 10000000000)
    (by rw [sub_zero, abs_of_nonneg (Real.sqrt_nonneg _)]; exact hs) (by
      rw [abs_zero, zero_add]
      linarith) (by rw [abs_zero]; linarith)
  change (⟨F.round (Elem.sqrt (npEps : Fl F).val)⟩ : Fl F).Near _ _
  rw [hw, XReal.sqrt_fin w0]
  exact hS

/-- The direction of the rounded perpendicular part. -/
noncomputable def dir (p k : V3 (Fl F)) : V3 (Fl F) :=
  (p - V3.smul (p.dot (k.sdiv k.norm)) (k.sdiv k.norm)).sdiv (p - V3.smul (p.dot (k.sdiv k.norm)) (k.sdiv k.norm)).norm

theorem near_dir {k p : V3 ℝ} (hk : IsUnit3 k) (hp : p.norm ≤ 4) {s : ℝ} (hs : 0 < s) (hs1 : s ≤ 1) (hps : s ≤ (p.perp k).norm) {k' p' : V3 (Fl F)}
    (hu : F.u ≤ ε) (he : 140000 * ε ≤ s) (hη : 16 * F.η ≤ F.u ^ 3) (hk' : C3 k' k ε) (hp' : C3 p' p ε) :
    C3 (dir p' k') ((p.perp k).sdiv (p.perp k).norm) (3715 * (ε / s)) ∧
    (p' - V3.smul (p'.dot (k'.sdiv k'.norm)) (k'.sdiv k'.norm)).norm.Near (p.perp k).norm (2292 * ε) := by
  have u0 := F.u_nonneg
  have hkn : C3 (k'.sdiv k'.norm) k (59 * ε) := (near_normalize3 hk hk' (by linarith) hη).mono (by linarith)
  have four : (p.perp k).norm ≤ 4 := by
    refine le_trans ?_ hp
    rw [V3.norm_eq, V3.norm_eq]
    refine Real.sqrt_le_sqrt ?_
    rw [V3.perp_dot_self hk]
    linarith [sq_nonneg (p.dot k)]
  have h := near_perp hk hp hu (by linarith) hkn hp'
  refine ⟨near_direction hs hs1 hps four hu he hη h, (near_norm3 h four (by linarith) hη).mono ?_⟩
  have : (39 * (4 + 2 * (1048 * ε)) + 1) * F.u ≤ 196 * ε := mul_le_mul (by linarith) hu u0 (by norm_num)
  linarith

/-- `subproblem1`, unless the check of `subproblem0` fails. -/
theorem subproblem1_near (hF : Spec.InvAcc F) {k p q : V3 ℝ} (hk : IsUnit3 k) (hp : p.norm ≤ 4) {θ s : ℝ} (hq : (rot k θ).mulVec p = q)
    (hs : 0 < s) (hs1 : s ≤ 1) (hps : s ≤ (p.perp k).norm) {k' p' q' : V3 (Fl F)} (hu : F.u ≤ ε) (he : 140000 * ε ≤ s)
    (hη : 16 * F.η ≤ F.u ^ 3) (hk' : C3 k' k ε) (hp' : C3 p' p ε) (hq' : C3 q' q ε) :
    (subproblem1 p' q' k' = .error .assertion ∧
        ¬ ((k'.sdiv k'.norm).dot (dir p' k') < npEps ∧ (k'.sdiv k'.norm).dot (dir q' k') < npEps)) ∨
      ∃ th, subproblem1 p' q' k' = .ok th ∧ Spec.AngNear th θ ((1 / 33554432 + 350000 * ε) / s) := by
  have u0 := F.u_nonneg
  have e0 := u0.trans hu
  have hR := rot_isRot k hk θ
  have hqn : q.norm = p.norm := by rw [← hq, hR.norm_mulVec]
  have hqp : q.perp k = (rot k θ).mulVec (p.perp k) := by rw [← hq, rot_perp_eq hk]
  have hqpn : (q.perp k).norm = (p.perp k).norm := by rw [hqp, hR.norm_mulVec]
  have hpos : 0 < (p.perp k).norm := by linarith
  by_cases hc : (p' - q').norm < (Elem.sqrt npEps : Fl F)
  · refine Or.inr ⟨0, by simp [subproblem1, hc], ?_⟩
    have n8 : (p - q).norm ≤ 8 := by have := V3.norm_sub_le p q; linarith
    have hsub : C3 (p' - q') (p - q) (12 * ε) := by
      obtain ⟨x1, x2, x3⟩ := hp'
      obtain ⟨y1, y2, y3⟩ := hq'
      have sub : ∀ {a b : Fl F} {x y : ℝ}, a.Near x ε → b.Near y ε → |x - y| ≤ 8 → (a - b).Near (x - y) (12 * ε) := fun ha hb h =>
        Near.subE 12 (k := 1) (l := 1) (by rwa [one_mul]) (by rwa [one_mul]) hu (by linarith) h (by norm_num) (by norm_num) (by norm_num)
      exact ⟨sub x1 y1 ((V3.abs_x_le (p - q)).trans n8), sub x2 y2 ((V3.abs_y_le (p - q)).trans n8), sub x3 y3 ((V3.abs_z_le (p - q)).trans n8)⟩
    obtain ⟨n', hn', hn⟩ := (near_norm3 hsub n8 (by linarith) hη).mono (show _ ≤ 376 * ε by
      have : (39 * (8 + 2 * (12 * ε)) + 1) * F.u ≤ 352 * ε := mul_le_mul (by linarith) hu u0 (by norm_num)
      linarith)
    obtain ⟨t, ht, hte⟩ := sqrt_eps_le (F := F) (by linarith) hη
    change (p' - q').norm.val < (Elem.sqrt npEps : Fl F).val at hc
    rw [hn', ht, XReal.fin_lt] at hc
    have h1 := (abs_le.1 hn).1
    have h2 := (abs_le.1 hte).2
    have h3 : (p - q).norm ≤ 161 / 10000000000 + 376 * ε := by linarith
    rw [← hq, rot_chord hk] at h3
    obtain ⟨n, hnθ⟩ := small_angle θ
    refine ⟨n, 0, rfl, ?_⟩
    rw [zero_sub, abs_neg]
    refine hnθ.trans ?_
    rw [le_div_iff₀ hs]
    have h4 : Real.sqrt (2 - 2 * Real.cos θ) * s ≤ 161 / 10000000000 + 376 * ε :=
      (mul_le_mul_of_nonneg_left hps (Real.sqrt_nonneg _)).trans h3
    have h5 := Real.pi_lt_d2
    calc Real.pi / 2 * Real.sqrt (2 - 2 * Real.cos θ) * s = Real.pi / 2 * (Real.sqrt (2 - 2 * Real.cos θ) * s) := by ring
      _ ≤ Real.pi / 2 * (161 / 10000000000 + 376 * ε) := mul_le_mul_of_nonneg_left h4 (by linarith [Real.pi_pos])
      _ ≤ 1.6 * (161 / 10000000000 + 376 * ε) := mul_le_mul_of_nonneg_right (by linarith) (by linarith)
      _ ≤ _ := by linarith
  · have hkn : C3 (k'.sdiv k'.norm) k (59 * ε) := (near_normalize3 hk hk' (by linarith) hη).mono (by linarith)
    have hG : ε ≤ ε / s := by
      rw [le_div_iff₀ hs]
      exact mul_le_of_le_one_right e0 hs1
    have hG1 : ε / s ≤ 1 / 140000 := by rw [div_le_div_iff₀ hs (by norm_num)]; linarith
    have hpp := (near_dir hk hp hs hs1 hps hu he hη hk' hp').1
    have hqq := (near_dir hk (by rw [hqn]; exact hp) hs hs1 (by rw [hqpn]; exact hps) hu he hη hk' hq').1
    have hne : p.perp k ≠ 0 := by intro h; rw [h, V3.norm_zero] at hpos; exact lt_irrefl _ hpos
    have hrot : (rot k θ).mulVec ((p.perp k).sdiv (p.perp k).norm) = (q.perp k).sdiv (q.perp k).norm := by
      rw [hqpn, hqp, V3.sdiv_eq, V3.sdiv_eq, M3.mulVec_hsmul]
    have hperp : k.dot ((p.perp k).sdiv (p.perp k).norm) = 0 := by
      rw [V3.sdiv_eq, V3.dot_hsmul, V3.dot_perp p k hk, mul_zero]
    have e : subproblem1 p' q' k' = subproblem0 (dir p' k') (dir q' k') (k'.sdiv k'.norm) := by
      simp [subproblem1, hc, dir]
    rcases subproblem0_near hF hk (V3.unit_sdiv hne) hperp hrot (hu.trans hG) hG1 hη (hkn.mono (by linarith)) hpp hqq with h | ⟨th, h1, h2⟩
    · exact Or.inl ⟨e.trans h.1, h.2⟩
    · refine Or.inr ⟨th, e.trans h1, ?_⟩
      obtain ⟨n, hn⟩ := h2
      refine ⟨n, hn.mono ?_⟩
      rw [← mul_div_assoc]
      exact div_le_div_of_nonneg_right (by linarith) hs.le

/-- `x` is a floating-point number. -/
def Rep (F : FSys) (x : ℝ) : Prop := F.rnd x = x ∧ |x| ≤ F.big

theorem Rep.zero : Rep F 0 := ⟨F.rnd_zero, by rw [abs_zero]; linarith [F.big_ge]⟩
theorem Rep.one : Rep F 1 := ⟨F.rnd_one, by rw [abs_one]; linarith [F.big_ge]⟩

theorem zero_eq : (0 : Fl F) = of 0 := rfl
theorem one_eq : (1 : Fl F) = of 1 := rfl
theorem mul_zero_of (x : ℝ) : (of x * of 0 : Fl F) = of 0 := mul_of (by rw [mul_zero]; exact F.rnd_zero) Rep.zero.2
theorem zero_mul_of (x : ℝ) : (of 0 * of x : Fl F) = of 0 := mul_of (by rw [zero_mul]; exact F.rnd_zero) Rep.zero.2
theorem mul_one_of {x : ℝ} (h : Rep F x) : (of x * of 1 : Fl F) = of x := mul_of (by rw [mul_one]; exact h.1) h.2
theorem add_zero_of {x : ℝ} (h : Rep F x) : (of x + of 0 : Fl F) = of x := add_of (by rw [add_zero]; exact h.1) h.2
theorem zero_add_of {x : ℝ} (h : Rep F x) : (of 0 + of x : Fl F) = of x := add_of (by rw [zero_add]; exact h.1) h.2
theorem sub_self_of (x : ℝ) : (of x - of x : Fl F) = of 0 := sub_of (by rw [sub_self]; exact F.rnd_zero) Rep.zero.2
theorem zero_div_of {x : ℝ} (h : x ≠ 0) : (of 0 / of x : Fl F) = of 0 := div_of h (by rw [zero_div]; exact F.rnd_zero) Rep.zero.2
theorem one_div_one_of : (of 1 / of 1 : Fl F) = of 1 := div_of one_ne_zero (by rw [div_one]; exact F.rnd_one) Rep.one.2
theorem sqrt_one_of : (Elem.sqrt (of 1) : Fl F) = of 1 := sqrt_of zero_le_one (by rw [Real.sqrt_one]; exact F.rnd_one) Rep.one.2

theorem npEps_pos' (hη : F.η ≤ 1 / 10000000000000000) : (of 0 : Fl F) < npEps := by
  have u0 := F.u_nonneg
  have u1 := F.u_le
  have q1 : ((1 / 4503599627370496 : ℚ) : ℝ) = 1 / 4503599627370496 := by norm_num
  obtain ⟨w, hw, h1⟩ : (npEps : Fl F).Near (1 / 4503599627370496) (F.u * (1 / 4503599627370496) + F.η) := by
    have := near_lit_abs (F := F) (1 / 4503599627370496) (by rw [q1, abs_of_pos (by norm_num)]; linarith [F.big_ge, F.η_le])
    rwa [q1, abs_of_pos (by norm_num)] at this
  change XReal.fin 0 < (npEps : Fl F).val
  rw [hw, XReal.fin_lt]
  have := (abs_le.1 h1).1
  linarith

/-- For the coordinate axes the rounded perpendicular part has no component along the axis. -/
theorem axis_dot {k : V3 (Fl F)} (hk : k = V3.ex ∨ k = V3.ey ∨ k = V3.ez) {v : V3 ℝ} (hv : Rep F v.x ∧ Rep F v.y ∧ Rep F v.z)
    {e : V3 ℝ} {d : ℝ} (hfin : C3 (dir (v.map of) k) e d) {w : ℝ} (hw0 : w ≠ 0)
    (hw : (v.map of - V3.smul ((v.map of).dot (k.sdiv k.norm)) (k.sdiv k.norm)).norm = of w) :
    (k.sdiv k.norm).dot (dir (v.map of) k) = of 0 := by
  obtain ⟨r1, r2, r3⟩ := hv
  have kk : k.sdiv k.norm = k := by
    rcases hk with rfl | rfl | rfl <;>
    simp only [V3.norm, V3.ex, V3.ey, V3.ez, V3.sdiv, zero_eq, one_eq, mul_zero_of, mul_one_of Rep.one, add_zero_of Rep.zero, add_zero_of Rep.one,
      zero_add_of Rep.one, sqrt_one_of, one_div_one_of, zero_div_of one_ne_zero]
  rw [kk] at hw ⊢
  have hdir : dir (v.map of) k = (v.map of - V3.smul ((v.map of).dot k) k).sdiv (of w) := by
    rw [dir, kk, hw]
  rw [hdir] at hfin ⊢
  obtain ⟨⟨x, hx, -⟩, ⟨y, hy, -⟩, ⟨z, hz, -⟩⟩ := hfin
  have ox : ∀ {a : Fl F} {t : ℝ}, a.val = .fin t → a = of t := fun {a t} h => by cases a; cases h; rfl
  replace hx := ox hx
  replace hy := ox hy
  replace hz := ox hz
  generalize he : (v.map of - V3.smul ((v.map of).dot k) k).sdiv (of w) = E at hx hy hz ⊢
  rcases hk with rfl | rfl | rfl
  · have h0 : E.x = of 0 := by
      rw [← he]
      change (of v.x - (of v.x * of 1 + of v.y * of 0 + of v.z * of 0) * of 1 : Fl F) / of w = of 0
      rw [mul_one_of r1, mul_zero_of, mul_zero_of, add_zero_of r1, add_zero_of r1, mul_one_of r1, sub_self_of, zero_div_of hw0]
    change (of 1 * E.x + of 0 * E.y + of 0 * E.z : Fl F) = of 0
    rw [h0, hy, hz, mul_zero_of, zero_mul_of, zero_mul_of, add_zero_of Rep.zero, add_zero_of Rep.zero]
  · have h0 : E.y = of 0 := by
      rw [← he]
      change (of v.y - (of v.x * of 0 + of v.y * of 1 + of v.z * of 0) * of 1 : Fl F) / of w = of 0
      rw [mul_one_of r2, mul_zero_of, mul_zero_of, zero_add_of r2, add_zero_of r2, mul_one_of r2, sub_self_of, zero_div_of hw0]
    change (of 0 * E.x + of 1 * E.y + of 0 * E.z : Fl F) = of 0
    rw [h0, hx, hz, mul_zero_of, zero_mul_of, zero_mul_of, add_zero_of Rep.zero, add_zero_of Rep.zero]
  · have h0 : E.z = of 0 := by
      rw [← he]
      change (of v.z - (of v.x * of 0 + of v.y * of 0 + of v.z * of 1) * of 1 : Fl F) / of w = of 0
      rw [mul_one_of r3, mul_zero_of, mul_zero_of, add_zero_of Rep.zero, zero_add_of r3, mul_one_of r3, sub_self_of, zero_div_of hw0]
    change (of 0 * E.x + of 0 * E.y + of 1 * E.z : Fl F) = of 0
    rw [h0, hx, hy, mul_zero_of, zero_mul_of, zero_mul_of, add_zero_of Rep.zero, add_zero_of Rep.zero]

end Fl
