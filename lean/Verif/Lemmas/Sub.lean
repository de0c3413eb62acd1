import Verif.Model.Subproblems
import Verif.Lemmas.Norm
import Verif.Lemmas.Up
import Verif.Lemmas.Trig

/-! # Evaluation of the subproblems on finite inputs -/
set_option autoImplicit false

/-- part of `p` perpendicular to the unit vector `k` -/
noncomputable def V3.perp (p k : V3 ℝ) : V3 ℝ := p - V3.smul (p.dot k) k

theorem V3.dot_perp (p k : V3 ℝ) (hk : IsUnit3 k) : k.dot (p.perp k) = 0 := by
  have : k.dot k = 1 := hk
  rw [V3.perp, V3.dot_sub, V3.dot_smul, this, V3.dot_comm]; ring

theorem V3.perp_add (p k : V3 ℝ) : p = p.perp k + (p.dot k) • k := by
  rw [V3.perp]; ext <;> simp

theorem IsUnit3.dot {k : V3 ℝ} (hk : IsUnit3 k) : k.dot k = 1 := hk

theorem IsUnit3.sdiv_norm {k : V3 ℝ} (hk : IsUnit3 k) : k.sdiv k.norm = k := by
  rw [V3.norm_eq_one hk]; ext <;> simp

theorem IsUnit3.ne_zero {k : V3 ℝ} (hk : IsUnit3 k) : k ≠ 0 := by
  rintro rfl; simp [IsUnit3] at hk

/-- half-angle formula behind `subproblem0` -/
theorem half_angle {c n1 n2 : ℝ} (h1 : 0 ≤ n1) (h2 : 0 ≤ n2) (e1 : n1 * n1 = 2 - 2 * c) (e2 : n2 * n2 = 2 + 2 * c) :
    0 ≤ 2 * Complex.arg ⟨n2, n1⟩ ∧ 2 * Complex.arg ⟨n2, n1⟩ ≤ Real.pi ∧
    Real.cos (2 * Complex.arg ⟨n2, n1⟩) = c ∧ Real.sin (2 * Complex.arg ⟨n2, n1⟩) = n1 * n2 / 2 := by
  have hz := polar_arg n2 n1
  have hn : Real.sqrt (n2 * n2 + n1 * n1) = 2 := by
    rw [show n2 * n2 + n1 * n1 = 2 * 2 by linarith, Real.sqrt_mul_self (by norm_num)]
  rw [hn] at hz
  have h3 : 0 ≤ Complex.arg ⟨n2, n1⟩ := Complex.arg_nonneg_iff.2 h1
  have h4 : |Complex.arg ⟨n2, n1⟩| ≤ Real.pi / 2 := Complex.abs_arg_le_pi_div_two_iff.2 h2
  rw [abs_of_nonneg h3] at h4
  refine ⟨by linarith, by linarith, ?_, ?_⟩
  · rw [Real.cos_two_mul]; nlinarith
  · rw [Real.sin_two_mul]; nlinarith

/-- `rot k θ p = q` for unit vectors perpendicular to `k` with the angle of `subproblem0` -/
theorem rot_eq_of_angle {p q k : V3 ℝ} (hp : IsUnit3 p) (hq : IsUnit3 q) (hk : IsUnit3 k) (kp : k.dot p = 0)
    (kq : k.dot q = 0) {θ : ℝ} (hc : Real.cos θ = p.dot q) (hs : Real.sin θ = k.dot (p.cross q)) :
    (rot k θ).mulVec p = q := by
  rw [rot_mulVec k hk, kp, hc, hs]
  simp only [IsUnit3, V3.dot] at *
  ext <;> simp <;> grind

theorem gram_unit {p q k : V3 ℝ} (hp : IsUnit3 p) (hq : IsUnit3 q) (hk : IsUnit3 k) (kp : k.dot p = 0)
    (kq : k.dot q = 0) : k.dot (p.cross q) ^ 2 = 1 - p.dot q ^ 2 := by
  have e : k.dot (p.cross q) ^ 2 = k.dot k * (p.dot p * q.dot q - p.dot q ^ 2) - k.dot p * (k.dot p * q.dot q - p.dot q * k.dot q)
      + k.dot q * (k.dot p * p.dot q - p.dot p * k.dot q) := by
    simp [V3.dot]; ring
  rw [e, kp, kq, hp.dot, hq.dot, hk.dot]; ring

/-- `subproblem0` on nonzero vectors perpendicular to the unit axis -/
theorem subproblem0_eval {p q k : V3 ℝ} (hp : p ≠ 0) (hq : q ≠ 0) (hk : IsUnit3 k) (kp : k.dot p = 0)
    (kq : k.dot q = 0) : ∃ θ : ℝ, subproblem0 p.up q.up k.up = .ok (.fin θ) ∧ -Real.pi < θ ∧ θ ≤ Real.pi ∧
      Real.cos θ = (p.sdiv p.norm).dot (q.sdiv q.norm) ∧ Real.sin θ = k.dot ((p.sdiv p.norm).cross (q.sdiv q.norm)) ∧
      (rot k θ).mulVec (p.sdiv p.norm) = q.sdiv q.norm := by
  have np := V3.norm_pos hp
  have nq := V3.norm_pos hq
  have up := V3.unit_sdiv hp
  have uq := V3.unit_sdiv hq
  have ekp : k.dot (p.sdiv p.norm) = 0 := by rw [V3.sdiv_eq, V3.dot_hsmul, kp, mul_zero]
  have ekq : k.dot (q.sdiv q.norm) = 0 := by rw [V3.sdiv_eq, V3.dot_hsmul, kq, mul_zero]
  have em : k.dot ((p.sdiv p.norm).cross (q.sdiv q.norm)) = k.dot (p.cross q) / (p.norm * q.norm) := by
    simp [V3.dot]; field_simp
  have hsgn : k.dot (p.cross q) < 0 ↔ k.dot ((p.sdiv p.norm).cross (q.sdiv q.norm)) < 0 := by
    rw [em, div_lt_iff₀ (by positivity), zero_mul]
  have hev : subproblem0 p.up q.up k.up = .ok (if k.dot (p.cross q) < 0 then
        .fin (-(2 * Complex.arg ⟨(p.sdiv p.norm + q.sdiv q.norm).norm, (p.sdiv p.norm - q.sdiv q.norm).norm⟩))
      else .fin (2 * Complex.arg ⟨(p.sdiv p.norm + q.sdiv q.norm).norm, (p.sdiv p.norm - q.sdiv q.norm).norm⟩)) := by
    have e : ((2 : ℚ) : ℝ) = 2 := by norm_num
    have h0 := npEps_pos
    simp only [subproblem0, V3.up_dot, V3.up_norm, V3.up_sdiv _ np.ne', V3.up_sdiv _ nq.ne', V3.up_sub, V3.up_add,
      V3.up_cross, XReal.npEps_fin, XReal.fin_lt, kp, kq, XReal.arctan2_fin, XReal.lit_fin, XReal.fin_mul, XReal.zero_def, e]
    simp only [pyAssert, h0, and_self, decide_true, if_true, bind, Except.bind, pure, Except.pure, XReal.fin_neg]
    split_ifs <;> rfl
  generalize p.sdiv p.norm = u at *
  generalize q.sdiv q.norm = v at *
  have e1 : (u - v).norm * (u - v).norm = 2 - 2 * u.dot v := by
    rw [V3.norm_mul_self, V3.dot_sub, V3.sub_dot, V3.sub_dot, up.dot, uq.dot, V3.dot_comm v u]; ring
  have e2 : (u + v).norm * (u + v).norm = 2 + 2 * u.dot v := by
    rw [V3.norm_mul_self, V3.dot_add, V3.add_dot, V3.add_dot, up.dot, uq.dot, V3.dot_comm v u]; ring
  obtain ⟨r1, r2, r3, r4⟩ := half_angle (V3.norm_nonneg (u - v)) (V3.norm_nonneg (u + v)) e1 e2
  have hg := gram_unit up uq hk ekp ekq
  have habs : (u - v).norm * (u + v).norm / 2 = |k.dot (u.cross v)| := by
    rw [← Real.sqrt_sq_eq_abs, hg]
    symm
    have hnn : 0 ≤ (u - v).norm * (u + v).norm / 2 := by
      have := V3.norm_nonneg (u - v)
      have := V3.norm_nonneg (u + v)
      positivity
    rw [Real.sqrt_eq_iff_mul_self_eq (by rw [← hg]; positivity) hnn]
    linear_combination -(1 / 4) * (u + v).norm ^ 2 * e1 - (1 / 4) * (2 - 2 * u.dot v) * e2
  rw [habs] at r4
  generalize 2 * Complex.arg ⟨(u + v).norm, (u - v).norm⟩ = β at *
  by_cases hm : k.dot (p.cross q) < 0
  · rw [if_pos hm] at hev
    have hm' := hsgn.1 hm
    have hs : Real.sin (-β) = k.dot (u.cross v) := by rw [Real.sin_neg, r4, abs_of_neg hm', neg_neg]
    have hc : Real.cos (-β) = u.dot v := by rw [Real.cos_neg, r3]
    refine ⟨-β, hev, ?_, by linarith [Real.pi_pos], hc, hs, rot_eq_of_angle up uq hk ekp ekq hc hs⟩
    have : β ≠ Real.pi := by
      rintro rfl
      rw [Real.sin_neg, Real.sin_pi] at hs
      linarith
    have := lt_of_le_of_ne r2 this
    linarith
  · rw [if_neg hm] at hev
    have hm' : ¬ k.dot (u.cross v) < 0 := fun h => hm (hsgn.2 h)
    have hs : Real.sin β = k.dot (u.cross v) := by rw [r4, abs_of_nonneg (not_lt.1 hm')]
    exact ⟨β, hev, by linarith [Real.pi_pos], r2, r3, hs, rot_eq_of_angle up uq hk ekp ekq r3 hs⟩

/-- the coincidence tolerance `sqrt(eps)` of `subproblem1` -/
noncomputable def snap : ℝ := Real.sqrt npEps

theorem snap_def : snap = Real.sqrt npEps := rfl

theorem snap_eq : snap = 1 / 67108864 := by
  rw [snap, npEps_real, show (1 : ℝ) / 4503599627370496 = (1 / 67108864) * (1 / 67108864) by norm_num,
    Real.sqrt_mul_self (by norm_num)]

theorem snap_pos : 0 < snap := by rw [snap_eq]; norm_num

/-- NaN in the first or second argument makes `subproblem0` raise. -/
theorem subproblem0_nan (p q k : V3 XReal) (h : k.dot p = .nan ∨ k.dot q = .nan) :
    subproblem0 p q k = .error .assertion := by
  have : ¬ (k.dot p < npEps ∧ k.dot q < npEps) := by
    rintro ⟨h1, h2⟩
    rcases h with h | h
    · rw [h] at h1; exact XReal.nan_lt _ h1
    · rw [h] at h2; exact XReal.nan_lt _ h2
  simp only [subproblem0, this, decide_false, pyAssert]
  rfl

theorem sdiv_zero_norm {p : V3 ℝ} (h : p = 0) : p.up.sdiv (.fin p.norm) = ⟨.nan, .nan, .nan⟩ := by
  subst h
  have : (0 : V3 ℝ).norm = 0 := V3.norm_eq_zero.2 rfl
  ext <;> simp [this, XReal.fin_div', XReal.signInf]

theorem dot_nan (k : V3 XReal) : k.dot ⟨.nan, .nan, .nan⟩ = .nan := by simp [V3.dot]

/-- `subproblem1` raises when one of the vectors is all NaN. -/
theorem subproblem1_nan (a b k : V3 XReal) (h : a = ⟨.nan, .nan, .nan⟩ ∨ b = ⟨.nan, .nan, .nan⟩) :
    subproblem1 a b k = .error .assertion := by
  have hn : ¬ (a - b).norm < Elem.sqrt npEps := by
    have : (a - b).norm = .nan := by rcases h with rfl | rfl <;> simp [V3.norm]
    rw [this]; exact XReal.nan_lt _
  simp only [subproblem1]
  rw [if_neg hn]
  apply subproblem0_nan
  rcases h with rfl | rfl
  · left; simp [V3.dot]
  · right; simp [V3.dot]

theorem subproblem1_snap {p q : V3 ℝ} (k : V3 XReal) (h : (p - q).norm < snap) :
    subproblem1 p.up q.up k = .ok (.fin 0) := by
  simp only [subproblem1, V3.up_sub, V3.up_norm, XReal.npEps_fin, XReal.sqrt_fin npEps_pos.le, XReal.fin_lt, ← snap_def]
  rw [if_pos h]; rfl

private theorem subproblem1_unfold {p q k : V3 ℝ} (hk : IsUnit3 k) (h : ¬ (p - q).norm < snap) :
    subproblem1 p.up q.up k.up = subproblem0 ((p.perp k).up.sdiv (.fin (p.perp k).norm))
      ((q.perp k).up.sdiv (.fin (q.perp k).norm)) k.up := by
  simp only [subproblem1, V3.up_sub, V3.up_norm, XReal.npEps_fin, XReal.sqrt_fin npEps_pos.le, XReal.fin_lt, ← snap_def]
  rw [if_neg h]
  have hn : k.norm ≠ 0 := by rw [V3.norm_eq_one hk]; norm_num
  simp only [V3.up_sdiv k hn, hk.sdiv_norm, V3.up_dot, V3.up_smul, V3.up_sub, V3.up_norm]
  rfl

theorem subproblem1_on_axis {p q k : V3 ℝ} (hk : IsUnit3 k) (h : ¬ (p - q).norm < snap)
    (h0 : p.perp k = 0 ∨ q.perp k = 0) : subproblem1 p.up q.up k.up = .error .assertion := by
  rw [subproblem1_unfold hk h]
  apply subproblem0_nan
  rcases h0 with h0 | h0
  · left; rw [sdiv_zero_norm h0, dot_nan]
  · right; rw [sdiv_zero_norm h0, dot_nan]

theorem sdiv_unit_norm {p : V3 ℝ} (hp : p ≠ 0) : (p.sdiv p.norm).sdiv (p.sdiv p.norm).norm = p.sdiv p.norm :=
  (V3.unit_sdiv hp).sdiv_norm

theorem subproblem1_eval {p q k : V3 ℝ} (hk : IsUnit3 k) (h : ¬ (p - q).norm < snap)
    (hp : p.perp k ≠ 0) (hq : q.perp k ≠ 0) :
    ∃ θ : ℝ, subproblem1 p.up q.up k.up = .ok (.fin θ) ∧ -Real.pi < θ ∧ θ ≤ Real.pi ∧
      Real.cos θ = ((p.perp k).sdiv (p.perp k).norm).dot ((q.perp k).sdiv (q.perp k).norm) ∧
      Real.sin θ = k.dot (((p.perp k).sdiv (p.perp k).norm).cross ((q.perp k).sdiv (q.perp k).norm)) ∧
      (rot k θ).mulVec ((p.perp k).sdiv (p.perp k).norm) = (q.perp k).sdiv (q.perp k).norm := by
  rw [subproblem1_unfold hk h]
  rw [V3.up_sdiv _ (V3.norm_pos hp).ne', V3.up_sdiv _ (V3.norm_pos hq).ne']
  have h1 := V3.unit_sdiv hp
  have h2 := V3.unit_sdiv hq
  have := subproblem0_eval h1.ne_zero h2.ne_zero hk
    (by rw [V3.sdiv_eq, V3.dot_hsmul, V3.dot_perp _ _ hk, mul_zero])
    (by rw [V3.sdiv_eq, V3.dot_hsmul, V3.dot_perp _ _ hk, mul_zero])
  rwa [h1.sdiv_norm, h2.sdiv_norm] at this

/-! ### Soundness of `subproblem1` -/

theorem V3.perp_dot_self {p k : V3 ℝ} (hk : IsUnit3 k) : (p.perp k).dot (p.perp k) = p.dot p - p.dot k ^ 2 := by
  rw [V3.perp, V3.dot_sub, V3.sub_dot, V3.sub_dot, V3.dot_smul, V3.smul_dot, V3.smul_dot, V3.dot_smul, hk.dot,
    V3.dot_comm k p]
  ring

theorem rot_perp {p q k : V3 ℝ} (hk : IsUnit3 k) (h1 : p.dot p = q.dot q) (h2 : p.dot k = q.dot k) {θ : ℝ}
    (hq : q.perp k ≠ 0)
    (h : (rot k θ).mulVec ((p.perp k).sdiv (p.perp k).norm) = (q.perp k).sdiv (q.perp k).norm) :
    (rot k θ).mulVec p = q := by
  have hn : (p.perp k).norm = (q.perp k).norm := by
    rw [V3.norm_eq, V3.norm_eq, V3.perp_dot_self hk, V3.perp_dot_self hk, h1, h2]
  have hpos := V3.norm_pos hq
  rw [hn, V3.sdiv_eq, V3.sdiv_eq, M3.mulVec_hsmul] at h
  have h' : (rot k θ).mulVec (p.perp k) = q.perp k := by
    have e : ∀ v : V3 ℝ, v = (q.perp k).norm • ((q.perp k).norm⁻¹ • v) := by
      intro v; ext <;> simp <;> field_simp
    rw [e ((rot k θ).mulVec (p.perp k)), h, ← e]
  rw [V3.perp_add p k, M3.mulVec_add, h', M3.mulVec_hsmul, rot_axis, h2, ← V3.perp_add]

/-- Whatever `subproblem1` returns on vectors of equal length and equal height along the axis is right up to `snap`. -/
theorem subproblem1_sound {p q k : V3 ℝ} (hk : IsUnit3 k) (h1 : p.dot p = q.dot q) (h2 : p.dot k = q.dot k)
    {r : XReal} (h : subproblem1 p.up q.up k.up = .ok r) :
    ∃ θ : ℝ, r = .fin θ ∧ -Real.pi < θ ∧ θ ≤ Real.pi ∧ ((rot k θ).mulVec p - q).norm < snap ∧
      (snap ≤ (p - q).norm → (rot k θ).mulVec p = q) ∧ ((p - q).norm < snap → θ = 0) := by
  by_cases hs : (p - q).norm < snap
  · rw [subproblem1_snap _ hs] at h
    refine ⟨0, (by simpa using h.symm), by linarith [Real.pi_pos], Real.pi_pos.le, ?_, fun h' => absurd h' (not_le.2 hs), fun _ => rfl⟩
    rw [rot_zero, M3.one_mulVec]; exact hs
  by_cases hp : p.perp k = 0
  · rw [subproblem1_on_axis hk hs (Or.inl hp)] at h; exact absurd h (by simp)
  by_cases hq : q.perp k = 0
  · rw [subproblem1_on_axis hk hs (Or.inr hq)] at h; exact absurd h (by simp)
  obtain ⟨θ, e, r1, r2, -, -, r5⟩ := subproblem1_eval hk hs hp hq
  rw [e] at h
  have := rot_perp hk h1 h2 hq r5
  refine ⟨θ, (by simpa using h.symm), r1, r2, ?_, fun _ => this, fun h => absurd h hs⟩
  rw [this, show q - q = 0 by ext <;> simp, V3.norm_eq_zero.2 rfl]; exact snap_pos

/-- `subproblem1` succeeds off the axis. -/
theorem subproblem1_ok {p q k : V3 ℝ} (hk : IsUnit3 k) (hp : p.perp k ≠ 0) (hq : q.perp k ≠ 0) :
    ∃ r, subproblem1 p.up q.up k.up = .ok r := by
  by_cases hs : (p - q).norm < snap
  · exact ⟨_, subproblem1_snap _ hs⟩
  · obtain ⟨θ, e, -⟩ := subproblem1_eval hk hs hp hq
    exact ⟨_, e⟩

/-- A rotation about `k` preserves length and height. -/
theorem rot_invariants {p q k : V3 ℝ} (hk : IsUnit3 k) {φ : ℝ} (h : (rot k φ).mulVec p = q) :
    p.dot p = q.dot q ∧ p.dot k = q.dot k := by
  have hR := rot_isRot k hk φ
  constructor
  · rw [← h, hR.dot_mulVec]
  · rw [← h]; nth_rw 3 [← rot_axis k φ]; rw [hR.dot_mulVec]

theorem rot_perp_eq {p k : V3 ℝ} (hk : IsUnit3 k) (φ : ℝ) : ((rot k φ).mulVec p).perp k = (rot k φ).mulVec (p.perp k) := by
  have := (rot_invariants (p := p) hk (φ := φ) rfl).2
  rw [V3.perp, ← this, V3.perp, M3.mulVec_sub, rot_smul_axis]

/-- two rotations about `k` that agree on a vector off the axis are equal -/
theorem rot_inj {p k : V3 ℝ} (hk : IsUnit3 k) (hp : p.perp k ≠ 0) {a b : ℝ}
    (h : (rot k a).mulVec p = (rot k b).mulVec p) : Real.sin a = Real.sin b ∧ Real.cos a = Real.cos b := by
  have h' : (rot k a).mulVec (p.perp k) = (rot k b).mulVec (p.perp k) := by
    rw [← rot_perp_eq hk, ← rot_perp_eq hk, h]
  have hd := V3.dot_perp p k hk
  generalize p.perp k = u at *
  have hu : 0 < u.dot u := lt_of_le_of_ne (V3.dot_self_nonneg u) fun e => hp (V3.eq_zero_of_dot_self e.symm)
  rw [rot_mulVec k hk, rot_mulVec k hk, hd] at h'
  have c1 := congrArg (fun v => u.dot v) h'
  have c2 := congrArg (fun v => (k.cross u).dot v) h'
  simp only [V3.dot_add, V3.dot_hsmul, mul_zero, zero_mul, add_zero] at c1 c2
  have x1 : u.dot (k.cross u) = 0 := by simp [V3.dot]; ring
  have x2 : (k.cross u).dot (k.cross u) = u.dot u := by
    have : (k.cross u).dot (k.cross u) = k.dot k * u.dot u - k.dot u ^ 2 := by simp [V3.dot]; ring
    rw [this, hk.dot, hd]; ring
  rw [V3.dot_comm (k.cross u) u, x1, x2] at c2
  rw [x1] at c1
  constructor
  · have := mul_right_cancel₀ hu.ne' (by linarith : Real.sin a * u.dot u = Real.sin b * u.dot u); exact this
  · have := mul_right_cancel₀ hu.ne' (by linarith : Real.cos a * u.dot u = Real.cos b * u.dot u); exact this

theorem rot_congr {k : V3 ℝ} {a b : ℝ} (hs : Real.sin a = Real.sin b) (hc : Real.cos a = Real.cos b) : rot k a = rot k b := by
  simp only [rot, sin_real, cos_real, hs, hc]

/-- dot product of two rotated copies of a unit vector perpendicular to the axis -/
theorem rot_dot_rot {u k : V3 ℝ} (hk : IsUnit3 k) (hu : IsUnit3 u) (hd : k.dot u = 0) (a b : ℝ) :
    ((rot k a).mulVec u).dot ((rot k b).mulVec u) = Real.cos (b - a) := by
  rw [rot_mulVec k hk, rot_mulVec k hk, hd, Real.cos_sub]
  have x1 : u.dot (k.cross u) = 0 := by simp [V3.dot]; ring
  have x2 : (k.cross u).dot (k.cross u) = 1 := by
    have : (k.cross u).dot (k.cross u) = k.dot k * u.dot u - k.dot u ^ 2 := by simp [V3.dot]; ring
    rw [this, hk.dot, hd, hu.dot]; ring
  simp only [mul_zero, V3.dot_add, V3.add_dot, V3.dot_hsmul, V3.hsmul_dot, x1, V3.dot_comm (k.cross u) u, x2, hu.dot]
  ring
