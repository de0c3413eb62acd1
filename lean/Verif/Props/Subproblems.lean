import Verif.Lemmas.Sub

/-!
# Properties C23-C26: the canonical geometric subproblems

`snap` is the coincidence tolerance `sqrt(eps)` = 2⁻²⁶ of `subproblem1`: vectors closer than this give the angle `0.0`.
-/
set_option autoImplicit false

/-! ## C23 -/

/-- C23: if some rotation about the unit axis takes `p` to `q`, `subproblem1` returns an angle in `(-π, π]` whose rotation
takes `p` to `q`: exactly when the two vectors are at least `snap` apart, and within `snap` otherwise. -/
theorem C23_subproblem1 (p q k : V3 ℝ) (hk : IsUnit3 k) (φ : ℝ) (h : (rot k φ).mulVec p = q) :
    ∃ θ : ℝ, subproblem1 p.up q.up k.up = .ok (.fin θ) ∧ -Real.pi < θ ∧ θ ≤ Real.pi ∧
      ((rot k θ).mulVec p - q).norm < snap ∧ (snap ≤ (p - q).norm → (rot k θ).mulVec p = q) := by
  obtain ⟨h1, h2⟩ := rot_invariants hk h
  have hok : ∃ r, subproblem1 p.up q.up k.up = .ok r := by
    by_cases hp : p.perp k = 0
    · have : p = q := by
        rw [← h]; conv_lhs => rw [V3.perp_add p k]
        conv_rhs => rw [V3.perp_add p k]
        rw [hp, M3.mulVec_add, M3.mulVec_zero, M3.mulVec_hsmul, rot_axis]
      refine ⟨_, subproblem1_snap _ ?_⟩
      rw [this, show q - q = 0 by ext <;> simp, V3.norm_eq_zero.2 rfl]; exact snap_pos
    · refine subproblem1_ok hk hp ?_
      rw [← h, rot_perp_eq hk]
      intro e
      apply hp
      rw [← V3.norm_eq_zero, ← (rot_isRot k hk φ).norm_mulVec, e, V3.norm_eq_zero.2 rfl]
  obtain ⟨r, hr⟩ := hok
  obtain ⟨θ, e, r1, r2, r3, r4, -⟩ := subproblem1_sound hk h1 h2 hr
  exact ⟨θ, by rw [hr, e], r1, r2, r3, r4⟩

/-- C23, uniqueness: off the axis and beyond the tolerance the returned angle is the only one in `(-π, π]`. -/
theorem C23_subproblem1_unique (p q k : V3 ℝ) (hk : IsUnit3 k) (hoff : k.cross p ≠ 0) (hfar : snap ≤ (p - q).norm)
    (θ : ℝ) (hθ : subproblem1 p.up q.up k.up = .ok (.fin θ)) (φ : ℝ) (hφ : -Real.pi < φ ∧ φ ≤ Real.pi)
    (h : (rot k φ).mulVec p = q) : φ = θ := by
  obtain ⟨θ', e, r1, r2, -, r4⟩ := C23_subproblem1 p q k hk φ h
  rw [hθ] at e
  obtain rfl : θ = θ' := by simpa using e
  have hp : p.perp k ≠ 0 := by
    intro hp
    apply hoff
    rw [V3.perp_add p k, hp]
    ext <;> simp <;> ring
  obtain ⟨s, c⟩ := rot_inj hk hp (h.trans (r4 hfar).symm)
  exact angle_eq_of_sin_cos' s c hφ ⟨r1, r2⟩

/-- C23, least squares: for arbitrary `p`, `q` off the axis and apart, the returned angle minimises the distance. -/
theorem C23_subproblem1_least_squares (p q k : V3 ℝ) (hk : IsUnit3 k) (hp : k.cross p ≠ 0) (hq : k.cross q ≠ 0)
    (hfar : snap ≤ (p - q).norm) :
    ∃ θ : ℝ, subproblem1 p.up q.up k.up = .ok (.fin θ) ∧ -Real.pi < θ ∧ θ ≤ Real.pi ∧
      ∀ φ : ℝ, ((rot k θ).mulVec p - q).norm ≤ ((rot k φ).mulVec p - q).norm := by
  have off : ∀ v : V3 ℝ, k.cross v ≠ 0 → v.perp k ≠ 0 := by
    intro v hv h0
    apply hv
    rw [V3.perp_add v k, h0]
    ext <;> simp <;> ring
  have hp' := off p hp
  have hq' := off q hq
  obtain ⟨θ, e, r1, r2, -, -, r5⟩ := subproblem1_eval hk (not_lt.2 hfar) hp' hq'
  refine ⟨θ, e, r1, r2, fun φ => ?_⟩
  have expand : ∀ ψ : ℝ, ((rot k ψ).mulVec p - q).dot ((rot k ψ).mulVec p - q) =
      p.dot p + q.dot q - 2 * (p.dot k * q.dot k) - 2 * ((p.perp k).norm * (q.perp k).norm * Real.cos (ψ - θ)) := by
    intro ψ
    obtain ⟨i1, i2⟩ := rot_invariants (p := p) hk (φ := ψ) rfl
    have d1 : ((rot k ψ).mulVec p).dot q = (p.perp k).norm * (q.perp k).norm * Real.cos (ψ - θ) + p.dot k * q.dot k := by
      have eu : ∀ v : V3 ℝ, v.perp k ≠ 0 → v.perp k = (v.perp k).norm • (v.perp k).sdiv (v.perp k).norm := by
        intro v hv
        have := V3.norm_pos hv
        ext <;> simp <;> field_simp
      have hu := V3.unit_sdiv hp'
      have hd : k.dot ((p.perp k).sdiv (p.perp k).norm) = 0 := by
        rw [V3.sdiv_eq, V3.dot_hsmul, V3.dot_perp _ _ hk, mul_zero]
      have dk : ∀ v : V3 ℝ, (v.perp k).dot k = 0 := fun v => by rw [V3.dot_comm, V3.dot_perp _ _ hk]
      have dk' : ((rot k ψ).mulVec (p.perp k)).dot k = 0 := by rw [← rot_perp_eq hk, dk]
      conv_lhs => rw [V3.perp_add p k, V3.perp_add q k]
      rw [M3.mulVec_add, M3.mulVec_hsmul, rot_axis, V3.dot_add, V3.add_dot, V3.add_dot, V3.dot_hsmul, V3.dot_hsmul,
        V3.hsmul_dot, V3.hsmul_dot, dk', hk.dot, V3.dot_comm k, dk]
      rw [eu p hp', eu q hq', ← r5, M3.mulVec_hsmul, V3.hsmul_dot, V3.dot_hsmul, V3.dot_comm, rot_dot_rot hk hu hd,
        ← eu p hp', r5, ← eu q hq']
      ring
    rw [V3.dot_sub, V3.sub_dot, V3.sub_dot, ← i1, V3.dot_comm q, d1]
    ring
  rw [V3.norm_eq, V3.norm_eq]
  apply Real.sqrt_le_sqrt
  rw [expand, expand, sub_self, Real.cos_zero]
  have := Real.cos_le_one (φ - θ)
  have h1 : 0 ≤ (p.perp k).norm * (q.perp k).norm := mul_nonneg (V3.norm_nonneg _) (V3.norm_nonneg _)
  nlinarith [mul_le_mul_of_nonneg_left this h1]

/-- C23: a vector on the axis (and not coincident with the other one) is rejected with an AssertionError. -/
theorem C23_subproblem1_axis_raises (p q k : V3 ℝ) (hk : IsUnit3 k) (hfar : snap ≤ (p - q).norm)
    (h : k.cross p = 0 ∨ k.cross q = 0) : subproblem1 p.up q.up k.up = .error .assertion := by
  have on : ∀ v : V3 ℝ, k.cross v = 0 → v.perp k = 0 := by
    intro v hv
    apply V3.eq_zero_of_dot_self
    rw [V3.perp_dot_self hk]
    have : (k.cross v).dot (k.cross v) = k.dot k * v.dot v - v.dot k ^ 2 := by simp [V3.dot]; ring
    rw [hv, hk.dot, V3.dot_zero] at this
    linarith
  exact subproblem1_on_axis hk (not_lt.2 hfar) (h.imp (on p) (on q))

/-- C23: only the direction of the axis matters to `subproblem1` (it normalises `k`). -/
theorem C23_subproblem1_axis_scale (p q k : V3 ℝ) (hk : IsUnit3 k) (c : ℝ) (hc : 0 < c) :
    subproblem1 p.up q.up (c • k).up = subproblem1 p.up q.up k.up := by
  have hn : (c • k).norm = c := by rw [V3.norm_hsmul, V3.norm_eq_one hk, abs_of_pos hc, mul_one]
  have h1 : (c • k).up.sdiv (c • k).up.norm = k.up := by
    rw [V3.up_norm, V3.up_sdiv _ (by rw [hn]; exact hc.ne'), hn]
    congr 1; ext <;> simp <;> field_simp
  have h2 : k.up.sdiv k.up.norm = k.up := by
    rw [V3.up_norm, V3.up_sdiv _ (by rw [V3.norm_eq_one hk]; norm_num), hk.sdiv_norm]
  simp only [subproblem1, h1, h2]

/-- C23: `subproblem0` for vectors perpendicular to the unit axis, of any nonzero lengths. -/
theorem C23_subproblem0 (p q k : V3 ℝ) (hk : IsUnit3 k) (hp : p ≠ 0) (hq : q ≠ 0) (kp : k.dot p = 0) (kq : k.dot q = 0) :
    ∃ θ : ℝ, subproblem0 p.up q.up k.up = .ok (.fin θ) ∧ -Real.pi < θ ∧ θ ≤ Real.pi ∧
      (rot k θ).mulVec ((1 / p.norm) • p) = (1 / q.norm) • q := by
  obtain ⟨θ, e, r1, r2, -, -, r5⟩ := subproblem0_eval hp hq hk kp kq
  refine ⟨θ, e, r1, r2, ?_⟩
  rw [V3.sdiv_eq, V3.sdiv_eq] at r5
  simpa [one_div] using r5

/-- The perpendicularity check of `subproblem0` has no absolute value: a vector with a component *against* the axis is
accepted, and the angle returned (60 degrees) is not the rotation angle (90 degrees). -/
theorem C23_subproblem0_check_one_sided :
    let p : V3 ℝ := ⟨1, 0, -1⟩
    let q : V3 ℝ := ⟨0, 1, -1⟩
    (rot V3.ez (Real.pi / 2)).mulVec p = q ∧
    ∃ θ : ℝ, subproblem0 p.up q.up (V3.ez : V3 ℝ).up = .ok (.fin θ) ∧ (rot V3.ez θ).mulVec p ≠ q := by
  intro p q
  constructor
  · ext <;> simp [rot, p, q]
  have hpn : p.norm = Real.sqrt 2 := by simp only [p, V3.norm_eq, V3.dot]; norm_num
  have hqn : q.norm = Real.sqrt 2 := by simp only [q, V3.norm_eq, V3.dot]; norm_num
  have h2 : 0 < Real.sqrt 2 := by positivity
  have hs2 : Real.sqrt 2 * Real.sqrt 2 = 2 := Real.mul_self_sqrt (by norm_num)
  have np : p.norm ≠ 0 := by rw [hpn]; exact h2.ne'
  have nq : q.norm ≠ 0 := by rw [hqn]; exact h2.ne'
  have d1 : ((p.sdiv p.norm) - (q.sdiv q.norm)).norm * ((p.sdiv p.norm) - (q.sdiv q.norm)).norm = 2 - 2 * (1 / 2) := by
    rw [V3.norm_mul_self, hpn, hqn]; simp only [p, q, V3.dot, V3.sub_x, V3.sub_y, V3.sub_z, V3.sdiv_x, V3.sdiv_y, V3.sdiv_z]
    field_simp; nlinarith
  have d2 : ((p.sdiv p.norm) + (q.sdiv q.norm)).norm * ((p.sdiv p.norm) + (q.sdiv q.norm)).norm = 2 + 2 * (1 / 2) := by
    rw [V3.norm_mul_self, hpn, hqn]; simp only [p, q, V3.dot, V3.add_x, V3.add_y, V3.add_z, V3.sdiv_x, V3.sdiv_y, V3.sdiv_z]
    field_simp; nlinarith
  obtain ⟨-, -, hc, -⟩ := half_angle (V3.norm_nonneg _) (V3.norm_nonneg _) d1 d2
  refine ⟨2 * Complex.arg ⟨((p.sdiv p.norm) + (q.sdiv q.norm)).norm, ((p.sdiv p.norm) - (q.sdiv q.norm)).norm⟩, ?_, ?_⟩
  · have e : ((2 : ℚ) : ℝ) = 2 := by norm_num
    have h0 := npEps_pos
    have k1 : (V3.ez : V3 ℝ).dot p = -1 := by simp [V3.dot, p]
    have k2 : (V3.ez : V3 ℝ).dot q = -1 := by simp [V3.dot, q]
    have k3 : (V3.ez : V3 ℝ).dot (p.cross q) = 1 := by simp [V3.dot, p, q]
    have h1 : (-1 : ℝ) < npEps := by linarith
    simp only [subproblem0, V3.up_dot, V3.up_norm, V3.up_sdiv _ np, V3.up_sdiv _ nq, V3.up_sub, V3.up_add,
      V3.up_cross, XReal.npEps_fin, XReal.fin_lt, k1, k2, k3, XReal.arctan2_fin, XReal.lit_fin, XReal.fin_mul, XReal.zero_def, e]
    simp only [pyAssert, h1, and_self, decide_true, if_true, bind, Except.bind, pure, Except.pure]
    rw [if_neg (by norm_num)]
  · generalize 2 * Complex.arg ⟨((p.sdiv p.norm) + (q.sdiv q.norm)).norm, ((p.sdiv p.norm) - (q.sdiv q.norm)).norm⟩ = β at hc
    intro h
    have hx := congrArg V3.x h
    simp only [rot, p, q, M3.mulVec_x, M3.add_00, M3.add_01, M3.add_02, M3.smul_00, M3.smul_01, M3.smul_02] at hx
    simp only [M3.mul_00, M3.mul_01, M3.mul_02, hat_00, hat_01, hat_02, hat_10, hat_11, hat_12, hat_20, hat_21, hat_22, V3.ez_x, V3.ez_y, V3.ez_z,
      M3.one_00, M3.one_01, M3.one_02, cos_real, hc] at hx
    norm_num at hx

-- non-vacuity: a quarter turn about z
example : ∃ p q : V3 ℝ, (rot V3.ez (Real.pi / 2)).mulVec p = q ∧ snap ≤ (p - q).norm ∧ (V3.ez : V3 ℝ).cross p ≠ 0 := by
  refine ⟨⟨1, 0, 5⟩, ⟨0, 1, 5⟩, by ext <;> simp [rot], ?_, ?_⟩
  · have : ((⟨1, 0, 5⟩ : V3 ℝ) - ⟨0, 1, 5⟩).norm = Real.sqrt 2 := by simp [V3.norm_eq, V3.dot]; norm_num
    rw [this, snap_eq, Real.le_sqrt' (by norm_num)]; norm_num
  · intro h; have := congrArg V3.y h; simp at this

/-! ## C26 -/

/-- what `subproblem4` solves, as amplitude and offset of a sinusoid -/
theorem dot_rot_eq (p q k : V3 ℝ) (θ : ℝ) : p.dot ((rot k θ).mulVec q) =
    (p.dot q + p.dot (k.cross (k.cross q))) + p.dot (k.cross q) * Real.sin θ - p.dot (k.cross (k.cross q)) * Real.cos θ := by
  simp [rot, V3.dot]; ring

/-- the largest and smallest value of `p · rot(k,θ) q` differ from `Spec.sp4mid` by `Spec.sp4amp` -/
noncomputable def Spec.sp4mid (p q k : V3 ℝ) : ℝ := p.dot q + p.dot (k.cross (k.cross q))
/-- amplitude of `p · rot(k,θ) q` as a function of `θ` -/
noncomputable def Spec.sp4amp (p q k : V3 ℝ) : ℝ :=
  Real.sqrt (p.dot (k.cross q) * p.dot (k.cross q) + p.dot (k.cross (k.cross q)) * p.dot (k.cross (k.cross q)))

theorem sp4_sin (p q k : V3 ℝ) (θ : ℝ) : p.dot ((rot k θ).mulVec q) = Spec.sp4mid p q k +
    Spec.sp4amp p q k * Real.sin (θ + Complex.arg ⟨p.dot (k.cross q), -p.dot (k.cross (k.cross q))⟩) := by
  obtain ⟨h1, h2⟩ := polar_arg (p.dot (k.cross q)) (-p.dot (k.cross (k.cross q)))
  rw [neg_mul_neg] at h1 h2
  rw [dot_rot_eq, Spec.sp4mid, Spec.sp4amp, Real.sin_add]
  linear_combination (-Real.sin θ) * h1 - (Real.cos θ) * h2

theorem subproblem4_up (p q k : V3 ℝ) (d : ℝ) : subproblem4 p.up q.up k.up (.fin d) =
    (let φ := Complex.arg ⟨p.dot (k.cross q), -p.dot (k.cross (k.cross q))⟩
     let x := XReal.fin (d - Spec.sp4mid p q k) / .fin (Spec.sp4amp p q k)
     if .fin 1 < x then [] else [.fin (-φ) + Elem.arcsin x, .fin (-φ) - Elem.arcsin x + .fin Real.pi]) := by
  have h1 : (M3.vecMul p.up (hat k.up)).dot q.up = .fin (p.dot (k.cross q)) := by
    simp [M3.vecMul, V3.dot]; ring
  have h2 : p.up.dot ((hat k.up).mulVec ((hat k.up).mulVec q.up)) = .fin (p.dot (k.cross (k.cross q))) := by
    rw [hat_up, M3.up_mulVec, M3.up_mulVec, V3.up_dot, hat_mulVec, hat_mulVec]
  simp only [subproblem4, h1, h2, V3.up_dot, XReal.fin_neg, XReal.fin_sub, XReal.fin_mul, XReal.fin_add, XReal.arctan2_fin,
    XReal.pi_fin, XReal.one_def]
  rw [XReal.sqrt_fin (add_nonneg (mul_self_nonneg _) (mul_self_nonneg _))]
  simp only [Spec.sp4mid, Spec.sp4amp, neg_mul_neg, sub_neg_eq_add]
  rfl

/-- C26, reachable displacements: two angles are returned, both are solutions, and every solution is one of them up to a
multiple of `2π`.  The axis need not be a unit vector. -/
theorem C26_subproblem4_partial (p q k : V3 ℝ) (d : ℝ) (ha : 0 < Spec.sp4amp p q k) (hr : |d - Spec.sp4mid p q k| ≤ Spec.sp4amp p q k) :
    ∃ t1 t2 : ℝ, subproblem4 p.up q.up k.up (.fin d) = [.fin t1, .fin t2] ∧
      p.dot ((rot k t1).mulVec q) = d ∧ p.dot ((rot k t2).mulVec q) = d ∧
      ∀ θ : ℝ, p.dot ((rot k θ).mulVec q) = d → ∃ n : ℤ, θ = t1 + n * (2 * Real.pi) ∨ θ = t2 + n * (2 * Real.pi) := by
  obtain ⟨b1, b2⟩ := abs_le.1 hr
  set x := (d - Spec.sp4mid p q k) / Spec.sp4amp p q k with hx
  have x1 : x ≤ 1 := by rw [hx, div_le_one ha]; exact b2
  have x2 : -1 ≤ x := by rw [hx, le_div_iff₀ ha]; linarith
  have hd : Spec.sp4mid p q k + Spec.sp4amp p q k * x = d := by rw [hx]; field_simp; ring
  set φ := Complex.arg ⟨p.dot (k.cross q), -p.dot (k.cross (k.cross q))⟩ with hφ
  refine ⟨-φ + Real.arcsin x, -φ - Real.arcsin x + Real.pi, ?_, ?_, ?_, ?_⟩
  · rw [subproblem4_up]
    simp only [XReal.fin_div _ ha.ne', ← hx, ← hφ]
    rw [if_neg (by simpa using x1), XReal.arcsin_fin x2 x1]
    simp
  · rw [sp4_sin, ← hφ, show -φ + Real.arcsin x + φ = Real.arcsin x by ring, Real.sin_arcsin x2 x1, hd]
  · rw [sp4_sin, ← hφ, show -φ - Real.arcsin x + Real.pi + φ = Real.pi - Real.arcsin x by ring, Real.sin_pi_sub,
      Real.sin_arcsin x2 x1, hd]
  · intro θ hθ
    rw [sp4_sin, ← hφ, ← hd] at hθ
    have hs : Real.sin (θ + φ) = x := mul_left_cancel₀ ha.ne' (by linarith)
    have hs' : Real.sin (Real.arcsin x) = x := Real.sin_arcsin x2 x1
    have hc : Real.cos (θ + φ) = Real.cos (Real.arcsin x) ∨ Real.cos (θ + φ) = -Real.cos (Real.arcsin x) := by
      have e1 := Real.sin_sq_add_cos_sq (θ + φ)
      have e2 := Real.sin_sq_add_cos_sq (Real.arcsin x)
      rw [hs] at e1; rw [hs'] at e2
      exact sq_eq_sq_iff_eq_or_eq_neg.1 (by linarith)
    rcases hc with hc | hc
    · obtain ⟨n, hn⟩ := angle_eq_of_sin_cos (hs.trans hs'.symm) hc
      exact ⟨n, Or.inl (by linarith)⟩
    · obtain ⟨n, hn⟩ := angle_eq_of_sin_cos (a := θ + φ) (b := Real.pi - Real.arcsin x)
        (by rw [Real.sin_pi_sub, hs, hs']) (by rw [Real.cos_pi_sub, hc])
      exact ⟨n, Or.inr (by linarith)⟩

/-- C26, too large a displacement: the result is empty, and rightly so. -/
theorem C26_subproblem4_above (p q k : V3 ℝ) (d : ℝ) (hr : Spec.sp4amp p q k < d - Spec.sp4mid p q k) :
    subproblem4 p.up q.up k.up (.fin d) = [] ∧ ∀ θ : ℝ, p.dot ((rot k θ).mulVec q) ≠ d := by
  have hnn : 0 ≤ Spec.sp4amp p q k := Real.sqrt_nonneg _
  constructor
  · rw [subproblem4_up]
    simp only
    rw [if_pos]
    rcases hnn.eq_or_lt with h | h
    · rw [← h, XReal.fin_div', if_pos rfl, XReal.signInf, if_neg (by linarith), if_pos (by linarith)]
      exact trivial
    · rw [XReal.fin_div _ h.ne', XReal.fin_lt, lt_div_iff₀ h]; linarith
  · intro θ hθ
    rw [sp4_sin] at hθ
    have := mul_le_mul_of_nonneg_left (Real.sin_le_one (θ + Complex.arg ⟨p.dot (k.cross q), -p.dot (k.cross (k.cross q))⟩)) hnn
    linarith

/-- C26 is false below the range: the result is two NaNs rather than the empty list, for every unreachable displacement on
that side. -/
theorem C26_subproblem4_below_nan (p q k : V3 ℝ) (d : ℝ) (hr : d - Spec.sp4mid p q k < -Spec.sp4amp p q k) :
    subproblem4 p.up q.up k.up (.fin d) = [.nan, .nan] ∧ ∀ θ : ℝ, p.dot ((rot k θ).mulVec q) ≠ d := by
  have hnn : 0 ≤ Spec.sp4amp p q k := Real.sqrt_nonneg _
  constructor
  · rw [subproblem4_up]
    simp only
    rcases hnn.eq_or_lt with h | h
    · have hv : XReal.fin (d - Spec.sp4mid p q k) / .fin (Spec.sp4amp p q k) = .ninf := by
        rw [← h, XReal.fin_div', if_pos rfl, XReal.signInf, if_neg (by linarith), if_neg (by linarith)]
      have : Elem.arcsin XReal.ninf = XReal.nan := rfl
      rw [hv, if_neg (show ¬ (XReal.fin 1 < XReal.ninf) from fun h => h), this]; simp
    · rw [XReal.fin_div _ h.ne', if_neg, XReal.arcsin_fin', if_neg]
      · simp
      · rw [le_div_iff₀ h]; intro hh; linarith [hh.1]
      · rw [XReal.fin_lt, not_lt, div_le_one h]; linarith
  · intro θ hθ
    rw [sp4_sin] at hθ
    have := mul_le_mul_of_nonneg_left (Real.neg_one_le_sin (θ + Complex.arg ⟨p.dot (k.cross q), -p.dot (k.cross (k.cross q))⟩)) hnn
    linarith

/-- C26 is false when `p` or `q` is on the axis: every angle is a solution and the result is two NaNs. -/
theorem C26_subproblem4_degenerate_nan (p q k : V3 ℝ) (d : ℝ) (ha : Spec.sp4amp p q k = 0) (hd : d = Spec.sp4mid p q k) :
    subproblem4 p.up q.up k.up (.fin d) = [.nan, .nan] ∧ ∀ θ : ℝ, p.dot ((rot k θ).mulVec q) = d := by
  constructor
  · rw [subproblem4_up]
    simp only
    rw [ha, hd, sub_self, XReal.zero_div_zero, if_neg (XReal.lt_nan _)]
    simp
  · intro θ; rw [sp4_sin, ha, hd]; ring

-- non-vacuity of the four cases
example : 0 < Spec.sp4amp V3.ex V3.ey V3.ez ∧ |(1 / 2 : ℝ) - Spec.sp4mid V3.ex V3.ey V3.ez| ≤ Spec.sp4amp V3.ex V3.ey V3.ez := by
  have h1 : Spec.sp4mid V3.ex V3.ey V3.ez = 0 := by simp [Spec.sp4mid, V3.dot]
  have h2 : Spec.sp4amp V3.ex V3.ey V3.ez = 1 := by simp [Spec.sp4amp, V3.dot]
  rw [h1, h2]; norm_num
example : (-2 : ℝ) - Spec.sp4mid V3.ex V3.ey V3.ez < -Spec.sp4amp V3.ex V3.ey V3.ez := by
  have h1 : Spec.sp4mid V3.ex V3.ey V3.ez = 0 := by simp [Spec.sp4mid, V3.dot]
  have h2 : Spec.sp4amp V3.ex V3.ey V3.ez = 1 := by simp [Spec.sp4amp, V3.dot]
  rw [h1, h2]; norm_num
example : Spec.sp4amp V3.ex V3.ez V3.ez < (2 : ℝ) - Spec.sp4mid V3.ex V3.ez V3.ez := by
  simp [Spec.sp4mid, Spec.sp4amp, V3.dot]
example : Spec.sp4amp V3.ex V3.ez V3.ez = 0 ∧ (0 : ℝ) = Spec.sp4mid V3.ex V3.ez V3.ez := by
  simp [Spec.sp4mid, Spec.sp4amp, V3.dot]

/-! ## C25 -/

theorem perp_ne {p k : V3 ℝ} (h : k.cross p ≠ 0) : p.perp k ≠ 0 := by
  intro h0
  apply h
  rw [V3.perp_add p k, h0]
  ext <;> simp <;> ring

theorem perp_norm_le {p k : V3 ℝ} (hk : IsUnit3 k) : (p.perp k).norm ≤ p.norm := by
  rw [V3.norm_eq, V3.norm_eq]
  apply Real.sqrt_le_sqrt
  rw [V3.perp_dot_self hk]
  nlinarith [sq_nonneg (p.dot k)]

/-- the direction of the part of `p` perpendicular to the axis -/
noncomputable def Spec.dir (p k : V3 ℝ) : V3 ℝ := (p.perp k).sdiv (p.perp k).norm

theorem dir_unit {p k : V3 ℝ} (h : p.perp k ≠ 0) : IsUnit3 (Spec.dir p k) := V3.unit_sdiv h
theorem dir_perp {p k : V3 ℝ} (hk : IsUnit3 k) : k.dot (Spec.dir p k) = 0 := by
  rw [Spec.dir, V3.sdiv_eq, V3.dot_hsmul, V3.dot_perp _ _ hk, mul_zero]
theorem perp_eq_dir {p k : V3 ℝ} (h : p.perp k ≠ 0) : p.perp k = (p.perp k).norm • Spec.dir p k := by
  have := V3.norm_pos h
  ext <;> simp [Spec.dir] <;> field_simp
theorem dir_perp_self {p k : V3 ℝ} (hk : IsUnit3 k) : (Spec.dir p k).perp k = Spec.dir p k := by
  have : (Spec.dir p k).dot k = 0 := by rw [V3.dot_comm, dir_perp hk]
  rw [V3.perp, this]; ext <;> simp

/-- squared length of `q + rot(k,φ) p` when `rot(k,θ0)` takes the direction of `p` to that of `q` -/
theorem sp3_expand {p q k : V3 ℝ} (hk : IsUnit3 k) (hp : p.perp k ≠ 0) (hq : q.perp k ≠ 0) {θ0 : ℝ}
    (h0 : (rot k θ0).mulVec (Spec.dir p k) = Spec.dir q k) (φ : ℝ) :
    (q + (rot k φ).mulVec p).dot (q + (rot k φ).mulVec p) = k.dot (p + q) * k.dot (p + q) +
      ((p.perp k).dot (p.perp k) + (q.perp k).dot (q.perp k)) + 2 * (p.perp k).norm * (q.perp k).norm * Real.cos (φ - θ0) := by
  obtain ⟨i1, i2⟩ := rot_invariants (p := p) hk (φ := φ) rfl
  have dk : ∀ v : V3 ℝ, (v.perp k).dot k = 0 := fun v => by rw [V3.dot_comm, V3.dot_perp _ _ hk]
  have d1 : q.dot ((rot k φ).mulVec p) = (p.perp k).norm * (q.perp k).norm * Real.cos (φ - θ0) + p.dot k * q.dot k := by
    have dk' : ((rot k φ).mulVec (p.perp k)).dot k = 0 := by rw [← rot_perp_eq hk, dk]
    have dd : (q.perp k).dot ((rot k φ).mulVec (p.perp k)) = (p.perp k).norm * (q.perp k).norm * Real.cos (φ - θ0) := by
      rw [perp_eq_dir hp, perp_eq_dir hq, ← h0, M3.mulVec_hsmul, V3.hsmul_dot, V3.dot_hsmul, rot_dot_rot hk (dir_unit hp)
        (dir_perp hk), ← perp_eq_dir hp, h0, ← perp_eq_dir hq]
      ring
    conv_lhs => rw [V3.perp_add p k, V3.perp_add q k]
    rw [M3.mulVec_add, M3.mulVec_hsmul, rot_axis, V3.dot_add, V3.add_dot, V3.add_dot, V3.dot_hsmul, V3.dot_hsmul,
      V3.hsmul_dot, V3.hsmul_dot, hk.dot, V3.dot_comm k, dk', dk, dd]
    ring
  rw [V3.dot_add, V3.add_dot, V3.add_dot, ← i1, V3.dot_comm ((rot k φ).mulVec p) q, d1, V3.perp_dot_self hk, V3.perp_dot_self hk, V3.dot_add,
    V3.dot_comm k p, V3.dot_comm k q]
  ring

theorem exists_dir_angle {p q k : V3 ℝ} (hk : IsUnit3 k) (hp : p.perp k ≠ 0) (hq : q.perp k ≠ 0) :
    ∃ θ0 : ℝ, -Real.pi < θ0 ∧ θ0 ≤ Real.pi ∧ (rot k θ0).mulVec (Spec.dir p k) = Spec.dir q k := by
  obtain ⟨θ, -, r1, r2, -, -, r5⟩ := subproblem0_eval hp hq hk (V3.dot_perp _ _ hk) (V3.dot_perp _ _ hk)
  exact ⟨θ, r1, r2, r5⟩

/-- the inner call of `subproblem3`: the exact angle, or zero within the tolerance -/
theorem sp3_inner {p q k : V3 ℝ} (hk : IsUnit3 k) (hp : p.perp k ≠ 0) (hq : q.perp k ≠ 0) :
    ∃ θ θ0 : ℝ, subproblem1 (Spec.dir p k).up (Spec.dir q k).up k.up = .ok (.fin θ) ∧
      (rot k θ0).mulVec (Spec.dir p k) = Spec.dir q k ∧
      ((Spec.dir p k = Spec.dir q k ∨ snap ≤ (Spec.dir p k - Spec.dir q k).norm) → θ = θ0) ∧
      ((rot k θ).mulVec (Spec.dir p k) - Spec.dir q k).norm < snap := by
  have a1 : (Spec.dir p k).dot (Spec.dir p k) = (Spec.dir q k).dot (Spec.dir q k) := by
    rw [(dir_unit hp).dot, (dir_unit hq).dot]
  have a2 : (Spec.dir p k).dot k = (Spec.dir q k).dot k := by rw [V3.dot_comm, dir_perp hk, V3.dot_comm, dir_perp hk]
  obtain ⟨r, hr⟩ := subproblem1_ok (p := Spec.dir p k) (q := Spec.dir q k) hk
    (by rw [dir_perp_self hk]; exact (dir_unit hp).ne_zero) (by rw [dir_perp_self hk]; exact (dir_unit hq).ne_zero)
  obtain ⟨θ, rfl, -, -, r3, r4, r5⟩ := subproblem1_sound hk a1 a2 hr
  by_cases hs : snap ≤ (Spec.dir p k - Spec.dir q k).norm
  · exact ⟨θ, θ, hr, r4 hs, fun _ => rfl, r3⟩
  · have h0 := r5 (not_le.1 hs)
    by_cases he : Spec.dir p k = Spec.dir q k
    · exact ⟨θ, θ, hr, by rw [h0, rot_zero, M3.one_mulVec, he], fun _ => rfl, r3⟩
    · obtain ⟨θ0, -, -, e⟩ := exists_dir_angle hk hp hq
      exact ⟨θ, θ0, hr, e, fun h => absurd h (by tauto), r3⟩

theorem subproblem3_up {p q k : V3 ℝ} (hp : p.perp k ≠ 0) (hq : q.perp k ≠ 0) (d : ℝ) :
    subproblem3 p.up q.up k.up (.fin d) =
      (let dpsq := d * d - k.dot (p + q) * k.dot (p + q)
       let bb := -((p.perp k).dot (p.perp k) + (q.perp k).dot (q.perp k) - dpsq) / (2 * (p.perp k).norm * (q.perp k).norm)
       if dpsq < 0 ∨ 1 < |bb| then .ok [] else
       (subproblem1 (Spec.dir p k).up (Spec.dir q k).up k.up).bind fun θ =>
         if 0 < Real.arccos bb then .ok [θ + .fin (Real.arccos bb), θ - .fin (Real.arccos bb)] else .ok [θ]) := by
  have np := V3.norm_pos hp
  have nq := V3.norm_pos hq
  have e : ((2 : ℚ) : ℝ) = 2 := by norm_num
  have hne : 2 * (p.perp k).norm * (q.perp k).norm ≠ 0 := by positivity
  simp only [subproblem3, V3.up_dot, V3.up_smul, V3.up_sub, V3.up_add, V3.up_norm, XReal.fin_mul, XReal.fin_sub, XReal.fin_add,
    XReal.fin_neg, XReal.lit_fin, e, XReal.zero_def, XReal.one_def]
  simp only [← V3.perp.eq_1]
  simp only [XReal.fin_div _ hne, XReal.fin_lt, XReal.abs_fin, V3.up_sdiv _ np.ne', V3.up_sdiv _ nq.ne']
  by_cases h : d * d - k.dot (p + q) * k.dot (p + q) < 0 ∨ 1 < |-((p.perp k).dot (p.perp k) + (q.perp k).dot (q.perp k) -
      (d * d - k.dot (p + q) * k.dot (p + q))) / (2 * (p.perp k).norm * (q.perp k).norm)|
  · rw [if_pos h, if_pos h]; rfl
  · rw [if_neg h, if_neg h]
    push Not at h
    obtain ⟨b1, b2⟩ := abs_le.1 h.2
    simp only [XReal.arccos_fin b1 b2, XReal.abs_fin, XReal.fin_lt, abs_of_nonneg (Real.arccos_nonneg _)]
    rfl

/-- C25: for vectors off the unit axis, `subproblem3` returns a list that is empty exactly when no rotation achieves the
distance; every returned angle achieves it up to `|p|·snap` (indeed it moves `p` to within `|p|·snap` of where an exact solution moves it), and
every solution is in the list up to that tolerance.  Unless the
directions of `p` and `q` about the axis nearly coincide (without being equal), both hold exactly. -/
theorem C25_subproblem3_partial (p q k : V3 ℝ) (d : ℝ) (hk : IsUnit3 k) (hp : k.cross p ≠ 0) (hq : k.cross q ≠ 0) (hd : 0 ≤ d) :
    ∃ ts : List ℝ, subproblem3 p.up q.up k.up (.fin d) = .ok (ts.map .fin) ∧
      (ts = [] ↔ ∀ φ, (q + (rot k φ).mulVec p).norm ≠ d) ∧
      (∀ t ∈ ts, |(q + (rot k t).mulVec p).norm - d| ≤ p.norm * snap ∧
        ∃ φ, (q + (rot k φ).mulVec p).norm = d ∧ ((rot k t).mulVec p - (rot k φ).mulVec p).norm ≤ p.norm * snap) ∧
      (∀ φ, (q + (rot k φ).mulVec p).norm = d → ∃ t ∈ ts, ((rot k t).mulVec p - (rot k φ).mulVec p).norm ≤ p.norm * snap) ∧
      (Spec.dir p k = Spec.dir q k ∨ snap ≤ (Spec.dir p k - Spec.dir q k).norm →
        (∀ t ∈ ts, (q + (rot k t).mulVec p).norm = d) ∧
        ∀ φ, (q + (rot k φ).mulVec p).norm = d → ∃ t ∈ ts, ∃ n : ℤ, φ = t + n * (2 * Real.pi)) := by
  have hp' := perp_ne hp
  have hq' := perp_ne hq
  have np := V3.norm_pos hp'
  have nq := V3.norm_pos hq'
  obtain ⟨θ, θ0, e1, e2, e3, e4⟩ := sp3_inner hk hp' hq'
  set dpsq := d * d - k.dot (p + q) * k.dot (p + q) with hdpsq
  set bb := -((p.perp k).dot (p.perp k) + (q.perp k).dot (q.perp k) - dpsq) / (2 * (p.perp k).norm * (q.perp k).norm) with hbb
  have hsol : ∀ φ, (q + (rot k φ).mulVec p).norm = d ↔ Real.cos (φ - θ0) = bb := by
    intro φ
    have h1 : (q + (rot k φ).mulVec p).norm = d ↔ (q + (rot k φ).mulVec p).dot (q + (rot k φ).mulVec p) = d * d := by
      rw [V3.norm_eq, Real.sqrt_eq_iff_mul_self_eq (V3.dot_self_nonneg _) hd]
    rw [h1, sp3_expand hk hp' hq' e2, hbb, eq_div_iff (by positivity), hdpsq]
    constructor <;> intro h <;> linarith
  have hdist : ∀ x, ((rot k (θ + x)).mulVec p - (rot k (θ0 + x)).mulVec p).norm ≤ p.norm * snap := by
    intro x
    have : (rot k (θ + x)).mulVec p - (rot k (θ0 + x)).mulVec p =
        (rot k x).mulVec ((p.perp k).norm • ((rot k θ).mulVec (Spec.dir p k) - Spec.dir q k)) := by
      rw [← e2]
      have r : ∀ y, (rot k (y + x)).mulVec p = (rot k x).mulVec ((p.perp k).norm • (rot k y).mulVec (Spec.dir p k)) + (p.dot k) • k := by
        intro y
        rw [add_comm y x, ← rot_mul k hk, ← M3.mulVec_mulVec]
        conv_lhs => rw [V3.perp_add p k]
        rw [M3.mulVec_add, M3.mulVec_hsmul, rot_axis, M3.mulVec_add, M3.mulVec_hsmul (rot k x), rot_axis]
        conv_lhs => rw [perp_eq_dir hp', M3.mulVec_hsmul]
      rw [r, r]
      simp only [M3.mulVec_hsmul, M3.mulVec_sub]
      ext <;> simp <;> ring
    rw [this, (rot_isRot k hk x).norm_mulVec, V3.norm_hsmul, abs_of_pos np]
    exact mul_le_mul (perp_norm_le hk) e4.le (V3.norm_nonneg _) (V3.norm_nonneg _)
  rw [subproblem3_up hp' hq']
  simp only [← hdpsq, ← hbb]
  by_cases hno : dpsq < 0 ∨ 1 < |bb|
  · rw [if_pos hno]
    have hnone : ∀ φ, (q + (rot k φ).mulVec p).norm ≠ d := by
      intro φ h
      have hc := (hsol φ).1 h
      rcases hno with hno | hno
      · have := V3.norm_mul_self (q + (rot k φ).mulVec p)
        rw [h, sp3_expand hk hp' hq' e2] at this
        have ca := Real.neg_one_le_cos (φ - θ0)
        rw [← V3.norm_mul_self (p.perp k), ← V3.norm_mul_self (q.perp k)] at this
        nlinarith [sq_nonneg ((p.perp k).norm - (q.perp k).norm), mul_pos np nq]
      · rw [← hc] at hno
        exact absurd (Real.abs_cos_le_one _) (not_le.2 hno)
    exact ⟨[], rfl, by simpa using hnone, by simp, fun φ h => absurd h (hnone φ), fun _ => ⟨by simp, fun φ h => absurd h (hnone φ)⟩⟩
  rw [if_neg hno, e1]
  push Not at hno
  obtain ⟨b1, b2⟩ := abs_le.1 hno.2
  have hcb := Real.cos_arccos b1 b2
  set β := Real.arccos bb with hβ
  have key : ∀ ts : List ℝ, ts ≠ [] → (∀ t ∈ ts, t = θ + β ∨ t = θ - β) → (θ + β ∈ ts) → (θ - β ∈ ts) →
      (ts = [] ↔ ∀ φ, (q + (rot k φ).mulVec p).norm ≠ d) ∧
      (∀ t ∈ ts, |(q + (rot k t).mulVec p).norm - d| ≤ p.norm * snap ∧
        ∃ φ, (q + (rot k φ).mulVec p).norm = d ∧ ((rot k t).mulVec p - (rot k φ).mulVec p).norm ≤ p.norm * snap) ∧
      (∀ φ, (q + (rot k φ).mulVec p).norm = d → ∃ t ∈ ts, ((rot k t).mulVec p - (rot k φ).mulVec p).norm ≤ p.norm * snap) ∧
      (Spec.dir p k = Spec.dir q k ∨ snap ≤ (Spec.dir p k - Spec.dir q k).norm →
        (∀ t ∈ ts, (q + (rot k t).mulVec p).norm = d) ∧
        ∀ φ, (q + (rot k φ).mulVec p).norm = d → ∃ t ∈ ts, ∃ n : ℤ, φ = t + n * (2 * Real.pi)) := by
    intro ts hne hts hm1 hm2
    have hs1 : (q + (rot k (θ0 + β)).mulVec p).norm = d := by rw [hsol, add_sub_cancel_left, hcb]
    have hs2 : (q + (rot k (θ0 - β)).mulVec p).norm = d := by
      rw [hsol, show θ0 - β - θ0 = -β by ring, Real.cos_neg, hcb]
    have hall : ∀ φ, (q + (rot k φ).mulVec p).norm = d → ∃ n : ℤ, φ = θ0 + β + n * (2 * Real.pi) ∨ φ = θ0 - β + n * (2 * Real.pi) := by
      intro φ h
      rw [hsol, ← hcb] at h
      have hs : Real.sin (φ - θ0) = Real.sin β ∨ Real.sin (φ - θ0) = -Real.sin β := by
        have x1 := Real.sin_sq_add_cos_sq (φ - θ0)
        have x2 := Real.sin_sq_add_cos_sq β
        rw [h] at x1
        exact sq_eq_sq_iff_eq_or_eq_neg.1 (by linarith)
      rcases hs with hs | hs
      · obtain ⟨n, hn⟩ := angle_eq_of_sin_cos hs h
        exact ⟨n, Or.inl (by linarith)⟩
      · obtain ⟨n, hn⟩ := angle_eq_of_sin_cos (a := φ - θ0) (b := -β) (by rw [hs, Real.sin_neg]) (by rw [h, Real.cos_neg])
        exact ⟨n, Or.inr (by linarith)⟩
    refine ⟨⟨fun h => absurd h hne, fun h => absurd hs1 (h _)⟩, fun t ht => ?_, fun φ hφ => ?_, fun hexact => ⟨fun t ht => ?_, fun φ hφ => ?_⟩⟩
    · have bound : ∀ x, (q + (rot k (θ0 + x)).mulVec p).norm = d → |(q + (rot k (θ + x)).mulVec p).norm - d| ≤ p.norm * snap := by
        intro x hx
        have hd' := hdist x
        have t1 := V3.norm_add_le (q + (rot k (θ0 + x)).mulVec p) ((rot k (θ + x)).mulVec p - (rot k (θ0 + x)).mulVec p)
        have t2 := V3.norm_sub_le (q + (rot k (θ + x)).mulVec p) ((rot k (θ + x)).mulVec p - (rot k (θ0 + x)).mulVec p)
        have g1 : q + (rot k (θ0 + x)).mulVec p + ((rot k (θ + x)).mulVec p - (rot k (θ0 + x)).mulVec p) = q + (rot k (θ + x)).mulVec p := by
          ext <;> simp only [V3.add_x, V3.add_y, V3.add_z, V3.sub_x, V3.sub_y, V3.sub_z] <;> ring
        have g2 : q + (rot k (θ + x)).mulVec p - ((rot k (θ + x)).mulVec p - (rot k (θ0 + x)).mulVec p) = q + (rot k (θ0 + x)).mulVec p := by
          ext <;> simp only [V3.add_x, V3.add_y, V3.add_z, V3.sub_x, V3.sub_y, V3.sub_z] <;> ring
        rw [g1] at t1; rw [g2] at t2
        rw [abs_le]; constructor <;> linarith
      rcases hts t ht with rfl | rfl
      · exact ⟨bound β hs1, _, hs1, hdist β⟩
      · exact ⟨bound (-β) hs2, _, hs2, hdist (-β)⟩
    · obtain ⟨n, h | h⟩ := hall φ hφ
      · refine ⟨_, hm1, ?_⟩
        rw [h, rot_periodic]; exact hdist β
      · refine ⟨_, hm2, ?_⟩
        rw [h, rot_periodic]; exact hdist (-β)
    · have hθ := e3 hexact
      rcases hts t ht with rfl | rfl <;> rw [hθ] <;> assumption
    · have hθ := e3 hexact
      obtain ⟨n, h | h⟩ := hall φ hφ
      · exact ⟨_, hm1, n, by rw [hθ]; exact h⟩
      · exact ⟨_, hm2, n, by rw [hθ]; exact h⟩
  simp only [Except.bind]
  by_cases hpos : 0 < β
  · rw [if_pos hpos]
    exact ⟨[θ + β, θ - β], by simp, key _ (by simp) (by simp) (by simp) (by simp)⟩
  · rw [if_neg hpos]
    have hz : β = 0 := le_antisymm (not_lt.1 hpos) (Real.arccos_nonneg _)
    exact ⟨[θ], by simp, key _ (by simp) (by simp [hz]) (by simp [hz]) (by simp [hz])⟩

/-- C25, degenerate vectors: with `p` or `q` on the axis the distance does not depend on the angle.  If it differs from `d` the
result is (rightly) empty; if it equals `d`, every angle is a solution but the call raises an AssertionError. -/
theorem C25_subproblem3_on_axis (p q k : V3 ℝ) (d : ℝ) (hk : IsUnit3 k) (h : k.cross p = 0 ∨ k.cross q = 0) (hd : 0 ≤ d) :
    (∀ φ, (q + (rot k φ).mulVec p).norm = (q + p).norm) ∧
    ((q + p).norm ≠ d → subproblem3 p.up q.up k.up (.fin d) = .ok []) ∧
    ((q + p).norm = d → subproblem3 p.up q.up k.up (.fin d) = .error .assertion) := by
  have on : ∀ v : V3 ℝ, k.cross v = 0 → v.perp k = 0 := by
    intro v hv
    apply V3.eq_zero_of_dot_self
    rw [V3.perp_dot_self hk]
    have : (k.cross v).dot (k.cross v) = k.dot k * v.dot v - v.dot k ^ 2 := by simp [V3.dot]; ring
    rw [hv, hk.dot, V3.dot_zero] at this
    linarith
  have h' : p.perp k = 0 ∨ q.perp k = 0 := h.imp (on p) (on q)
  have dk : ∀ v : V3 ℝ, (v.perp k).dot k = 0 := fun v => by rw [V3.dot_comm, V3.dot_perp _ _ hk]
  have hconst : ∀ φ, (q + (rot k φ).mulVec p).dot (q + (rot k φ).mulVec p) =
      k.dot (p + q) * k.dot (p + q) + ((p.perp k).dot (p.perp k) + (q.perp k).dot (q.perp k)) := by
    intro φ
    obtain ⟨i1, i2⟩ := rot_invariants (p := p) hk (φ := φ) rfl
    have d1 : q.dot ((rot k φ).mulVec p) = p.dot k * q.dot k := by
      have dk' : ((rot k φ).mulVec (p.perp k)).dot k = 0 := by rw [← rot_perp_eq hk, dk]
      have dd : (q.perp k).dot ((rot k φ).mulVec (p.perp k)) = 0 := by
        rcases h' with h' | h' <;> rw [h'] <;> simp
      conv_lhs => rw [V3.perp_add p k, V3.perp_add q k]
      rw [M3.mulVec_add, M3.mulVec_hsmul, rot_axis, V3.dot_add, V3.add_dot, V3.add_dot, V3.dot_hsmul, V3.dot_hsmul,
        V3.hsmul_dot, V3.hsmul_dot, hk.dot, V3.dot_comm k, dk', dk, dd]
      ring
    rw [V3.dot_add, V3.add_dot, V3.add_dot, ← i1, V3.dot_comm ((rot k φ).mulVec p) q, d1, V3.perp_dot_self hk, V3.perp_dot_self hk, V3.dot_add,
      V3.dot_comm k p, V3.dot_comm k q]
    ring
  have hc0 := hconst 0
  rw [rot_zero, M3.one_mulVec] at hc0
  have hn : (p.perp k).norm * (q.perp k).norm = 0 := by
    rcases h' with h' | h' <;> rw [h', V3.norm_eq_zero.2 rfl] <;> simp
  have hn2 : 2 * (p.perp k).norm * (q.perp k).norm = 0 := by rw [mul_assoc, hn, mul_zero]
  have e : ((2 : ℚ) : ℝ) = 2 := by norm_num
  have hup : subproblem3 p.up q.up k.up (.fin d) =
      (let bb := XReal.fin (d * d - (q + p).dot (q + p)) / .fin 0
       if d * d - k.dot (p + q) * k.dot (p + q) < 0 ∨ .fin 1 < Elem.abs bb then .ok [] else
       (subproblem1 ((p.perp k).up.sdiv (.fin (p.perp k).norm)) ((q.perp k).up.sdiv (.fin (q.perp k).norm)) k.up).bind fun θ =>
         if .fin 0 < Elem.abs (Elem.arccos bb) then .ok [θ + Elem.arccos bb, θ - Elem.arccos bb] else .ok [θ]) := by
    have hx : -((p.perp k).dot (p.perp k) + (q.perp k).dot (q.perp k) - (d * d - k.dot (p + q) * k.dot (p + q))) =
        d * d - (q + p).dot (q + p) := by rw [hc0]; ring
    simp only [subproblem3, V3.up_dot, V3.up_smul, V3.up_sub, V3.up_add, V3.up_norm, XReal.fin_mul, XReal.fin_sub, XReal.fin_add,
      XReal.fin_neg, XReal.lit_fin, e, XReal.zero_def, XReal.one_def]
    simp only [← V3.perp.eq_1, hn2, hx, XReal.fin_lt]
    split_ifs <;> rfl
  have hnn := V3.norm_mul_self (q + p)
  refine ⟨fun φ => by rw [V3.norm_eq, V3.norm_eq, hconst, hc0], fun hne => ?_, fun heq => ?_⟩
  · rw [hup]
    simp only
    rw [if_pos]
    right
    have hne2 : d * d - (q + p).dot (q + p) ≠ 0 := by
      rw [← hnn]
      intro h0
      apply hne
      have := V3.norm_nonneg (q + p)
      nlinarith
    rw [XReal.fin_div', if_pos rfl, XReal.signInf, if_neg hne2]
    split_ifs <;> exact trivial
  · rw [hup]
    have hz : d * d - (q + p).dot (q + p) = 0 := by rw [← hnn, heq]; ring
    have hg : ¬ (d * d - k.dot (p + q) * k.dot (p + q) < 0) := by
      rw [not_lt, ← heq, hnn, hc0]
      have := V3.dot_self_nonneg (p.perp k)
      have := V3.dot_self_nonneg (q.perp k)
      linarith
    simp only
    rw [if_neg]
    · rw [subproblem1_nan]
      · rfl
      · exact h'.imp sdiv_zero_norm sdiv_zero_norm
    · rintro (hh | hh)
      · exact hg hh
      · rw [hz, XReal.zero_div_zero] at hh; exact XReal.lt_nan _ hh

-- non-vacuity: an elbow whose two links start at right angles, distance sqrt 2
example : ∃ p q : V3 ℝ, (V3.ez : V3 ℝ).cross p ≠ 0 ∧ (V3.ez : V3 ℝ).cross q ≠ 0 ∧ (q + p).norm = 5 ∧
    snap ≤ (Spec.dir p V3.ez - Spec.dir q V3.ez).norm := by
  refine ⟨⟨3, 0, 0⟩, ⟨0, 4, 0⟩, ?_, ?_, ?_, ?_⟩
  · intro h; have := congrArg V3.y h; simp at this
  · intro h; have := congrArg V3.x h; simp at this
  · rw [V3.norm_eq, Real.sqrt_eq_iff_mul_self_eq (V3.dot_self_nonneg _) (by norm_num)]; simp [V3.dot]; norm_num
  · have h3 : (V3.perp ⟨3, 0, 0⟩ V3.ez : V3 ℝ) = ⟨3, 0, 0⟩ := by ext <;> simp [V3.perp, V3.dot]
    have h4 : (V3.perp ⟨0, 4, 0⟩ V3.ez : V3 ℝ) = ⟨0, 4, 0⟩ := by ext <;> simp [V3.perp, V3.dot]
    have n3 : (⟨3, 0, 0⟩ : V3 ℝ).norm = 3 := by
      rw [V3.norm_eq, Real.sqrt_eq_iff_mul_self_eq (V3.dot_self_nonneg _) (by norm_num)]; simp [V3.dot]
    have n4 : (⟨0, 4, 0⟩ : V3 ℝ).norm = 4 := by
      rw [V3.norm_eq, Real.sqrt_eq_iff_mul_self_eq (V3.dot_self_nonneg _) (by norm_num)]; simp [V3.dot]
    rw [Spec.dir, Spec.dir, h3, h4, n3, n4, snap_eq, V3.norm_eq, Real.le_sqrt' (by norm_num)]
    simp [V3.dot]; norm_num

/-! ## C24 -/

/-- Squared height, above the plane of the two axes, of a point that has the length of `p`, the height of `p` along `k2` and the
height of `q` along `k1` (negative when there is no such point). -/
noncomputable def Spec.disc (p q k1 k2 : V3 ℝ) : ℝ :=
  p.dot p - (p.dot k2 ^ 2 + q.dot k1 ^ 2 - 2 * p.dot k2 * q.dot k1 * k1.dot k2) / (1 - k1.dot k2 ^ 2)

namespace Sp2
variable (p q k1 k2 : V3 ℝ)
noncomputable def a0 : ℝ := (k1.dot k2 * p.dot k2 + -1 * q.dot k1) / (k1.dot k2 * k1.dot k2 - 1)
noncomputable def a1 : ℝ := (-1 * p.dot k2 + k1.dot k2 * q.dot k1) / (k1.dot k2 * k1.dot k2 - 1)
noncomputable def γ : ℝ := Real.sqrt (Spec.disc p q k1 k2) / (k1.cross k2).norm
noncomputable def c (g : ℝ) : V3 ℝ := (M3.ofCols k1 k2 (k1.cross k2)).mulVec ⟨a0 p q k1 k2, a1 p q k1 k2, g⟩

theorem c_eq (g : ℝ) : c p q k1 k2 g = a0 p q k1 k2 • k1 + a1 p q k1 k2 • k2 + g • k1.cross k2 := by
  ext <;> simp [c, M3.ofCols] <;> ring

variable {p q k1 k2}

theorem cross_sq (u1 : IsUnit3 k1) (u2 : IsUnit3 k2) : (k1.cross k2).dot (k1.cross k2) = 1 - k1.dot k2 ^ 2 := by
  have : (k1.cross k2).dot (k1.cross k2) = k1.dot k1 * k2.dot k2 - k1.dot k2 ^ 2 := by simp [V3.dot]; ring
  rw [this, u1.dot, u2.dot]; ring

theorem bb_eq (h : k1.dot k2 ^ 2 ≠ 1) : p.dot p - (a0 p q k1 k2 * a0 p q k1 k2 + a1 p q k1 k2 * a1 p q k1 k2) -
    2 * a0 p q k1 k2 * a1 p q k1 k2 * k1.dot k2 = Spec.disc p q k1 k2 := by
  simp only [a0, a1, Spec.disc]
  generalize k1.dot k2 = x at *
  have h1 : x * x - 1 ≠ 0 := by intro e; apply h; linarith
  have h2 : 1 - x ^ 2 ≠ 0 := by intro e; apply h; linarith
  field_simp
  ring

theorem k1_cross : k1.dot (k1.cross k2) = 0 := by simp [V3.dot]; ring
theorem k2_cross : k2.dot (k1.cross k2) = 0 := by simp [V3.dot]; ring

theorem c_dot_k1 (u1 : IsUnit3 k1) (h : k1.dot k2 ^ 2 ≠ 1) (g : ℝ) : (c p q k1 k2 g).dot k1 = q.dot k1 := by
  rw [c_eq, V3.add_dot, V3.add_dot, V3.hsmul_dot, V3.hsmul_dot, V3.hsmul_dot, u1.dot, V3.dot_comm (k1.cross k2), k1_cross,
    V3.dot_comm k2 k1]
  simp only [a0, a1]
  generalize k1.dot k2 = x at *
  have h1 : x * x - 1 ≠ 0 := by intro e; apply h; linarith
  field_simp
  ring

theorem c_dot_k2 (u2 : IsUnit3 k2) (h : k1.dot k2 ^ 2 ≠ 1) (g : ℝ) : (c p q k1 k2 g).dot k2 = p.dot k2 := by
  rw [c_eq, V3.add_dot, V3.add_dot, V3.hsmul_dot, V3.hsmul_dot, V3.hsmul_dot, u2.dot, V3.dot_comm (k1.cross k2), k2_cross]
  simp only [a0, a1]
  generalize k1.dot k2 = x at *
  have h1 : x * x - 1 ≠ 0 := by intro e; apply h; linarith
  field_simp
  ring

theorem c_dot_c (u1 : IsUnit3 k1) (u2 : IsUnit3 k2) (h : k1.dot k2 ^ 2 ≠ 1) (g : ℝ) :
    (c p q k1 k2 g).dot (c p q k1 k2 g) = p.dot p - Spec.disc p q k1 k2 + g ^ 2 * (1 - k1.dot k2 ^ 2) := by
  rw [← bb_eq h, ← cross_sq u1 u2]
  conv_lhs => rw [c_eq]
  simp only [V3.add_dot, V3.dot_add, V3.hsmul_dot, V3.dot_hsmul, u1.dot, u2.dot, V3.dot_comm (k1.cross k2) k1,
    V3.dot_comm (k1.cross k2) k2, k1_cross, k2_cross, V3.dot_comm k2 k1]
  ring

theorem γ_sq (u1 : IsUnit3 k1) (u2 : IsUnit3 k2) (h : k1.dot k2 ^ 2 ≠ 1) (hd : 0 ≤ Spec.disc p q k1 k2) :
    γ p q k1 k2 ^ 2 * (1 - k1.dot k2 ^ 2) = Spec.disc p q k1 k2 := by
  have h1 : 1 - k1.dot k2 ^ 2 ≠ 0 := by intro e; apply h; linarith
  rw [γ, div_pow, Real.sq_sqrt hd, V3.norm_sq, cross_sq u1 u2]
  field_simp

/-- a point with the right heights and length is one of the two candidates -/
theorem eq_c (u1 : IsUnit3 k1) (u2 : IsUnit3 k2) (h : k1.dot k2 ^ 2 ≠ 1) {v : V3 ℝ} (h1 : v.dot k1 = q.dot k1)
    (h2 : v.dot k2 = p.dot k2) : v = c p q k1 k2 (v.dot (k1.cross k2) / (1 - k1.dot k2 ^ 2)) := by
  have hs : 1 - k1.dot k2 ^ 2 ≠ 0 := by intro e; apply h; linarith
  set g := v.dot (k1.cross k2) / (1 - k1.dot k2 ^ 2) with hg
  have w1 : (v - c p q k1 k2 g).dot k1 = 0 := by rw [V3.sub_dot, h1, c_dot_k1 u1 h, sub_self]
  have w2 : (v - c p q k1 k2 g).dot k2 = 0 := by rw [V3.sub_dot, h2, c_dot_k2 u2 h, sub_self]
  have w3 : (v - c p q k1 k2 g).dot (k1.cross k2) = 0 := by
    rw [V3.sub_dot, c_eq, V3.add_dot, V3.add_dot, V3.hsmul_dot, V3.hsmul_dot, V3.hsmul_dot, k1_cross, k2_cross, cross_sq u1 u2, hg]
    field_simp; ring
  have hw : v - c p q k1 k2 g = 0 := by
    generalize v - c p q k1 k2 g = w at w1 w2 w3
    have e1 : w.dot w * (k1.cross k2).dot (k1.cross k2) = w.dot (k1.cross k2) ^ 2 +
        (w.dot k2 • k1 - w.dot k1 • k2).dot (w.dot k2 • k1 - w.dot k1 • k2) := by
      simp [V3.dot]; ring
    rw [cross_sq u1 u2, w1, w2, w3] at e1
    have z : (0 : ℝ) • k1 - (0 : ℝ) • k2 = 0 := by ext <;> simp
    rw [z, V3.dot_zero] at e1
    exact V3.eq_zero_of_dot_self (mul_right_cancel₀ hs (by linarith))
  have : ∀ a b : V3 ℝ, a - b = 0 → a = b := by
    intro a b hab
    simp only [V3.ext_iff, V3.sub_x, V3.sub_y, V3.sub_z, V3.zero_x, V3.zero_y, V3.zero_z] at hab
    ext <;> linarith
  exact this _ _ hw

theorem perp_of_γ (u1 : IsUnit3 k1) (u2 : IsUnit3 k2) (h : k1.dot k2 ^ 2 ≠ 1) {g : ℝ} (hg : g ≠ 0) :
    (c p q k1 k2 g).perp k1 ≠ 0 ∧ (c p q k1 k2 g).perp k2 ≠ 0 := by
  have hs : 1 - k1.dot k2 ^ 2 ≠ 0 := by intro e; apply h; linarith
  have hn : (c p q k1 k2 g).dot (k1.cross k2) ≠ 0 := by
    rw [c_eq, V3.add_dot, V3.add_dot, V3.hsmul_dot, V3.hsmul_dot, V3.hsmul_dot, k1_cross, k2_cross, cross_sq u1 u2]
    simpa using ⟨hg, hs⟩
  generalize c p q k1 k2 g = v at *
  constructor
  · intro e
    apply hn
    rw [V3.perp_add v k1, e, V3.add_dot, V3.hsmul_dot, k1_cross]; simp
  · intro e
    apply hn
    rw [V3.perp_add v k2, e, V3.add_dot, V3.hsmul_dot, k2_cross]; simp

theorem up_ofCols (a b c : V3 ℝ) : M3.ofCols a.up b.up c.up = (M3.ofCols a b c).up := rfl

theorem eval_parallel (p q k1 k2 : V3 ℝ) (h : |1 - k1.dot k2 ^ 2| < npEps) : subproblem2 p.up q.up k1.up k2.up = .ok [] := by
  rw [sq] at h
  simp only [subproblem2, V3.up_dot, XReal.fin_mul, XReal.one_def, XReal.fin_sub, XReal.abs_fin, XReal.npEps_fin, XReal.fin_lt]
  rw [if_pos h]; rfl

theorem eval (u1 : IsUnit3 k1) (u2 : IsUnit3 k2) (p q : V3 ℝ) (h : npEps ≤ 1 - k1.dot k2 ^ 2) : subproblem2 p.up q.up k1.up k2.up =
    (let bb := if |Spec.disc p q k1 k2| < npEps then (0 : ℝ) else Spec.disc p q k1 k2
     if bb < 0 then .ok [] else
     let gamma := Real.sqrt bb / (k1.cross k2).norm
     if |gamma| < npEps then do
        let theta2 ← subproblem1 k2.up p.up (c p q k1 k2 gamma).up
        let theta1 ← subproblem1 k1.up q.up (c p q k1 k2 gamma).up
        return [(-theta1, theta2)]
     else do
        let t11 ← subproblem1 q.up (c p q k1 k2 gamma).up k1.up
        let t12 ← subproblem1 q.up (c p q k1 k2 (-gamma)).up k1.up
        let t21 ← subproblem1 p.up (c p q k1 k2 gamma).up k2.up
        let t22 ← subproblem1 p.up (c p q k1 k2 (-gamma)).up k2.up
        return [(-t11, t21), (-t12, t22)]) := by
  have he := npEps_pos
  have hne : k1.dot k2 ^ 2 ≠ 1 := by intro e; rw [e] at h; linarith
  have hden : k1.dot k2 * k1.dot k2 - 1 ≠ 0 := by intro e; apply hne; linarith
  have hcn : (k1.cross k2).norm ≠ 0 := by
    intro e
    have := V3.norm_sq (k1.cross k2)
    rw [e, cross_sq u1 u2] at this
    linarith
  have e2 : ((2 : ℚ) : ℝ) = 2 := by norm_num
  have e1 : ((-1 : ℚ) : ℝ) = -1 := by norm_num
  have hpar : ¬ |1 - k1.dot k2 * k1.dot k2| < npEps := by rw [← sq, abs_of_nonneg (by linarith)]; linarith
  have bbe := bb_eq (p := p) (q := q) hne
  simp only [a0, a1] at bbe
  simp only [subproblem2, V3.up_dot, XReal.fin_mul, XReal.one_def, XReal.fin_sub, XReal.abs_fin, XReal.npEps_fin, XReal.fin_lt,
    XReal.lit_fin, e1, e2, XReal.fin_add, XReal.fin_div _ hden, V3.up_cross, V3.up_norm, XReal.zero_def, bbe]
  rw [if_neg hpar]
  have hite : ∀ (P : Prop) [Decidable P] (a b : ℝ), (if P then XReal.fin a else XReal.fin b) = XReal.fin (if P then a else b) := by
    intro P _ a b; split_ifs <;> rfl
  simp only [hite, XReal.fin_lt]
  generalize (if |Spec.disc p q k1 k2| < npEps then (0 : ℝ) else Spec.disc p q k1 k2) = bb
  by_cases hb : bb < 0
  · rw [if_pos hb, if_pos hb]; rfl
  · rw [if_neg hb, if_neg hb]
    simp only [XReal.sqrt_fin (not_lt.1 hb), XReal.fin_div _ hcn, XReal.abs_fin, XReal.fin_lt, XReal.fin_neg, V3.up_mk, up_ofCols,
      M3.up_mulVec]
    rfl

end Sp2

theorem disc_nonneg_of_solution {p q k1 k2 : V3 ℝ} (u1 : IsUnit3 k1) (u2 : IsUnit3 k2) (h : k1.dot k2 ^ 2 < 1) {v : V3 ℝ}
    (h1 : v.dot k1 = q.dot k1) (h2 : v.dot k2 = p.dot k2) (h3 : v.dot v = p.dot p) :
    v = Sp2.c p q k1 k2 (v.dot (k1.cross k2) / (1 - k1.dot k2 ^ 2)) ∧
    (v.dot (k1.cross k2) / (1 - k1.dot k2 ^ 2)) ^ 2 * (1 - k1.dot k2 ^ 2) = Spec.disc p q k1 k2 := by
  have e := Sp2.eq_c (p := p) (q := q) u1 u2 h.ne h1 h2
  refine ⟨e, ?_⟩
  have := Sp2.c_dot_c (p := p) (q := q) u1 u2 h.ne (v.dot (k1.cross k2) / (1 - k1.dot k2 ^ 2))
  rw [← e, h3] at this
  linarith

/-- the middle point of a solution -/
theorem mid_of_solution {p q k1 k2 : V3 ℝ} (u1 : IsUnit3 k1) (u2 : IsUnit3 k2) {φ1 φ2 : ℝ}
    (h : (rot k1 φ1).mulVec ((rot k2 φ2).mulVec p) = q) :
    ((rot k2 φ2).mulVec p).dot k1 = q.dot k1 ∧ ((rot k2 φ2).mulVec p).dot k2 = p.dot k2 ∧
    ((rot k2 φ2).mulVec p).dot ((rot k2 φ2).mulVec p) = p.dot p ∧ (rot k1 (-φ1)).mulVec q = (rot k2 φ2).mulVec p := by
  obtain ⟨i1, i2⟩ := rot_invariants (p := p) u2 (φ := φ2) rfl
  obtain ⟨i3, i4⟩ := rot_invariants u1 h
  refine ⟨i4, i2.symm, i1.symm, ?_⟩
  rw [← h, rot_neg, (rot_isRot k1 u1 φ1).transpose_mulVec_mulVec]

/-- C24, no intersection: with a clearly negative discriminant the result is empty and there is no solution. -/
theorem C24_subproblem2_none (p q k1 k2 : V3 ℝ) (u1 : IsUnit3 k1) (u2 : IsUnit3 k2) (hax : npEps ≤ 1 - k1.dot k2 ^ 2)
    (hdisc : Spec.disc p q k1 k2 ≤ -npEps) : subproblem2 p.up q.up k1.up k2.up = .ok [] ∧
      ∀ φ1 φ2 : ℝ, (rot k1 φ1).mulVec ((rot k2 φ2).mulVec p) ≠ q := by
  have he := npEps_pos
  constructor
  · rw [Sp2.eval u1 u2 p q hax]
    have h1 : ¬ |Spec.disc p q k1 k2| < npEps := by rw [abs_of_neg (by linarith)]; linarith
    simp only [if_neg h1]
    rw [if_pos (by linarith)]
  · intro φ1 φ2 h
    obtain ⟨m1, m2, m3, -⟩ := mid_of_solution u1 u2 h
    obtain ⟨-, e⟩ := disc_nonneg_of_solution u1 u2 (by linarith) m1 m2 m3
    have : 0 ≤ (((rot k2 φ2).mulVec p).dot (k1.cross k2) / (1 - k1.dot k2 ^ 2)) ^ 2 * (1 - k1.dot k2 ^ 2) :=
      mul_nonneg (sq_nonneg _) (by linarith)
    linarith

/-- C24 away from the tangent case (`_partial`: the full claim has no lower bound on `Spec.disc`, see
`C24_subproblem2_tangent_false`).  Two pairs are returned.  Each is a solution up to `2·snap`, and exactly unless one of its
angles was snapped to zero.  Every solution is one of the two, exactly unless one of its two moves is shorter than `snap`; the angle of a
shorter move is returned as zero. -/
theorem C24_subproblem2_partial (p q k1 k2 : V3 ℝ) (u1 : IsUnit3 k1) (u2 : IsUnit3 k2) (hpq : p.dot p = q.dot q)
    (hax : npEps ≤ 1 - k1.dot k2 ^ 2) (hdisc : npEps ≤ Spec.disc p q k1 k2) :
    ∃ l : List (ℝ × ℝ), subproblem2 p.up q.up k1.up k2.up = .ok (l.map fun x => (.fin x.1, .fin x.2)) ∧ l.length = 2 ∧
      (∀ x ∈ l, ((rot k1 x.1).mulVec ((rot k2 x.2).mulVec p) - q).norm < 2 * snap ∧
        (x.1 ≠ 0 → x.2 ≠ 0 → (rot k1 x.1).mulVec ((rot k2 x.2).mulVec p) = q) ∧
        -Real.pi ≤ x.1 ∧ x.1 < Real.pi ∧ -Real.pi < x.2 ∧ x.2 ≤ Real.pi) ∧
      ∀ φ1 φ2 : ℝ, (rot k1 φ1).mulVec ((rot k2 φ2).mulVec p) = q → ∃ x ∈ l,
        ((rot k2 x.2).mulVec p - (rot k2 φ2).mulVec p).norm < snap ∧
        ((rot k1 (-x.1)).mulVec q - (rot k1 (-φ1)).mulVec q).norm < snap ∧
        (snap ≤ (p - (rot k2 φ2).mulVec p).norm → ∃ n : ℤ, φ2 = x.2 + n * (2 * Real.pi)) ∧
        (snap ≤ (q - (rot k1 (-φ1)).mulVec q).norm → ∃ n : ℤ, φ1 = x.1 + n * (2 * Real.pi)) ∧
        ((p - (rot k2 φ2).mulVec p).norm < snap → x.2 = 0) ∧ ((q - (rot k1 (-φ1)).mulVec q).norm < snap → x.1 = 0) := by
  have he := npEps_pos
  have hlt : k1.dot k2 ^ 2 < 1 := by linarith
  have hdn : 0 ≤ Spec.disc p q k1 k2 := by linarith
  have hg2 := Sp2.γ_sq (p := p) (q := q) u1 u2 hlt.ne hdn
  set g := Sp2.γ p q k1 k2 with hg
  have hcn : 0 < (k1.cross k2).norm := by
    rw [V3.norm_eq, Sp2.cross_sq u1 u2]; exact Real.sqrt_pos.2 (by linarith)
  have hgpos : 0 < g := by rw [hg, Sp2.γ]; exact div_pos (Real.sqrt_pos.2 (by linarith)) hcn
  have hgeps : npEps ≤ g := by
    have h1 : npEps ≤ g ^ 2 := by
      nlinarith [sq_nonneg (k1.dot k2), sq_nonneg g]
    have h2 : (npEps : ℝ) ≤ 1 := by rw [npEps_real]; norm_num
    by_contra hc
    push Not at hc
    nlinarith
  -- what `subproblem1` does for one candidate point
  have cand : ∀ x : ℝ, x ^ 2 = g ^ 2 → ∃ s t : ℝ, subproblem1 q.up (Sp2.c p q k1 k2 x).up k1.up = .ok (.fin (-s)) ∧
      subproblem1 p.up (Sp2.c p q k1 k2 x).up k2.up = .ok (.fin t) ∧
      ((rot k1 s).mulVec ((rot k2 t).mulVec p) - q).norm < 2 * snap ∧
      (s ≠ 0 → t ≠ 0 → (rot k1 s).mulVec ((rot k2 t).mulVec p) = q) ∧
      (-Real.pi ≤ s ∧ s < Real.pi ∧ -Real.pi < t ∧ t ≤ Real.pi) ∧
      ∀ φ1 φ2 : ℝ, (rot k1 φ1).mulVec ((rot k2 φ2).mulVec p) = q → (rot k2 φ2).mulVec p = Sp2.c p q k1 k2 x →
        ((rot k2 t).mulVec p - (rot k2 φ2).mulVec p).norm < snap ∧
        ((rot k1 (-s)).mulVec q - (rot k1 (-φ1)).mulVec q).norm < snap ∧
        (snap ≤ (p - (rot k2 φ2).mulVec p).norm → ∃ n : ℤ, φ2 = t + n * (2 * Real.pi)) ∧
        (snap ≤ (q - (rot k1 (-φ1)).mulVec q).norm → ∃ n : ℤ, φ1 = s + n * (2 * Real.pi)) ∧
        ((p - (rot k2 φ2).mulVec p).norm < snap → t = 0) ∧ ((q - (rot k1 (-φ1)).mulVec q).norm < snap → s = 0) := by
    intro x hx
    have hx0 : x ≠ 0 := by rintro rfl; nlinarith
    obtain ⟨n1, n2⟩ := Sp2.perp_of_γ (p := p) (q := q) u1 u2 hlt.ne hx0
    have cc := Sp2.c_dot_c (p := p) (q := q) u1 u2 hlt.ne x
    rw [hx, hg2, sub_add_cancel] at cc
    have ck1 := Sp2.c_dot_k1 (p := p) (q := q) u1 hlt.ne x
    have ck2 := Sp2.c_dot_k2 (p := p) (q := q) u2 hlt.ne x
    generalize Sp2.c p q k1 k2 x = c at *
    have np2 : p.perp k2 ≠ 0 := by
      intro e
      apply n2
      apply V3.eq_zero_of_dot_self
      rw [V3.perp_dot_self u2, cc, ck2, ← V3.perp_dot_self u2, e, V3.dot_zero]
    have nq1 : q.perp k1 ≠ 0 := by
      intro e
      apply n1
      apply V3.eq_zero_of_dot_self
      rw [V3.perp_dot_self u1, cc, ck1, hpq, ← V3.perp_dot_self u1, e, V3.dot_zero]
    obtain ⟨r, hr⟩ := subproblem1_ok u1 nq1 n1
    obtain ⟨r', hr'⟩ := subproblem1_ok u2 np2 n2
    obtain ⟨s, rfl, a1, a2, a3, a4, a5⟩ := subproblem1_sound u1 (by rw [cc, hpq]) ck1.symm hr
    obtain ⟨t, rfl, b1, b2, b3, b4, b5⟩ := subproblem1_sound u2 cc.symm ck2.symm hr'
    have back : ∀ v, (rot k1 (-s)).mulVec ((rot k1 s).mulVec v) = v := by
      intro v; rw [rot_neg, (rot_isRot k1 u1 s).transpose_mulVec_mulVec]
    have back' : ∀ v, (rot k1 s).mulVec ((rot k1 (-s)).mulVec v) = v := by
      intro v; rw [rot_neg, (rot_isRot k1 u1 s).mulVec_transpose_mulVec]
    refine ⟨-s, t, by rw [hr, neg_neg], hr', ?_, ?_, ⟨by linarith, by linarith, b1, b2⟩, ?_⟩
    · -- soundness
      have e : (rot k1 (-s)).mulVec ((rot k2 t).mulVec p) - q =
          (rot k1 (-s)).mulVec ((rot k2 t).mulVec p - c) - (rot k1 (-s)).mulVec ((rot k1 s).mulVec q - c) := by
        rw [M3.mulVec_sub, M3.mulVec_sub, back]; ext <;> simp
      rw [e]
      have := V3.norm_sub_le ((rot k1 (-s)).mulVec ((rot k2 t).mulVec p - c)) ((rot k1 (-s)).mulVec ((rot k1 s).mulVec q - c))
      rw [(rot_isRot k1 u1 _).norm_mulVec, (rot_isRot k1 u1 _).norm_mulVec] at this
      linarith
    · intro hs ht
      have x1 := b4 (not_lt.1 fun hh => ht (b5 hh))
      have x2 := a4 (not_lt.1 fun hh => hs (by rw [a5 hh, neg_zero]))
      rw [x1, ← x2, back]
    · intro φ1 φ2 hsol hmid
      obtain ⟨-, -, -, m4⟩ := mid_of_solution u1 u2 hsol
      rw [m4, hmid, neg_neg]
      refine ⟨b3, a3, fun hfar => ?_, fun hfar => ?_, fun hn => b5 (hmid ▸ hn), fun hn => by rw [a5 hn, neg_zero]⟩
      · have := b4 hfar
        obtain ⟨x1, x2⟩ := rot_inj u2 np2 (hmid.trans this.symm)
        exact angle_eq_of_sin_cos x1 x2
      · have x0 := a4 hfar
        obtain ⟨x1, x2⟩ := rot_inj u1 nq1 (((m4.trans hmid)).trans x0.symm)
        obtain ⟨n, hn⟩ := angle_eq_of_sin_cos x1 x2
        exact ⟨-n, by push_cast; linarith⟩
  obtain ⟨s1, t1, p1, p2, p3, p4, p5, p6⟩ := cand g rfl
  obtain ⟨s2, t2, q1, q2, q3, q4, q5, q6⟩ := cand (-g) (by ring)
  refine ⟨[(s1, t1), (s2, t2)], ?_, rfl, ?_, ?_⟩
  · rw [Sp2.eval u1 u2 p q hax]
    have h1 : ¬ |Spec.disc p q k1 k2| < npEps := by rw [abs_of_nonneg hdn]; linarith
    simp only [if_neg h1]
    rw [if_neg (by linarith)]
    have : Real.sqrt (Spec.disc p q k1 k2) / (k1.cross k2).norm = g := rfl
    rw [this, if_neg (by rw [abs_of_pos hgpos]; linarith), p1, p2, q1, q2]
    simp [bind, Except.bind, pure, Except.pure]
  · simp only [List.mem_cons, List.not_mem_nil, or_false, forall_eq_or_imp, forall_eq]
    exact ⟨⟨p3, p4, p5⟩, ⟨q3, q4, q5⟩⟩
  · intro φ1 φ2 hsol
    obtain ⟨m1, m2, m3, -⟩ := mid_of_solution u1 u2 hsol
    obtain ⟨e1, e2⟩ := disc_nonneg_of_solution u1 u2 hlt m1 m2 m3
    rw [← hg2] at e2
    have e3 := mul_right_cancel₀ (by linarith : (1 - k1.dot k2 ^ 2) ≠ 0) e2
    rcases sq_eq_sq_iff_eq_or_eq_neg.1 e3 with e4 | e4
    · rw [e4] at e1
      exact ⟨(s1, t1), by simp, p6 φ1 φ2 hsol e1⟩
    · rw [e4] at e1
      exact ⟨(s2, t2), by simp, q6 φ1 φ2 hsol e1⟩

/-- C24 is false in the tangent case: lines 765-766 pass the arguments of `subproblem1` in the wrong order.  Here `p = q` and the
axes are perpendicular, so `(0, 0)` is a solution, but the call raises. -/
theorem C24_subproblem2_tangent_false :
    (rot (V3.ex : V3 ℝ) 0).mulVec ((rot V3.ey 0).mulVec V3.ex) = V3.ex ∧
    subproblem2 (V3.ex : V3 ℝ).up (V3.ex : V3 ℝ).up (V3.ex : V3 ℝ).up (V3.ey : V3 ℝ).up = .error .assertion := by
  have u1 : IsUnit3 (V3.ex : V3 ℝ) := by simp [IsUnit3]
  have u2 : IsUnit3 (V3.ey : V3 ℝ) := by simp [IsUnit3]
  refine ⟨by simp, ?_⟩
  have hk : (V3.ex : V3 ℝ).dot V3.ey = 0 := by simp [V3.dot]
  have hpk : (V3.ex : V3 ℝ).dot V3.ex = 1 := by simp [V3.dot]
  have he := npEps_pos
  have hd : Spec.disc (V3.ex : V3 ℝ) V3.ex V3.ex V3.ey = 0 := by simp [Spec.disc, hk, hpk]
  have hc : Sp2.c (V3.ex : V3 ℝ) V3.ex V3.ex V3.ey 0 = V3.ex := by
    rw [Sp2.c_eq, Sp2.a0, Sp2.a1, hk, hpk]; ext <;> simp
  rw [Sp2.eval u1 u2 _ _ (by rw [hk, npEps_real]; norm_num)]
  simp only [hd, abs_zero, if_pos he, lt_irrefl, if_false, Real.sqrt_zero, zero_div, hc]
  rw [subproblem1_on_axis u1]
  · rfl
  · have : ((V3.ey : V3 ℝ) - V3.ex).norm = Real.sqrt 2 := by simp [V3.norm_eq, V3.dot]; norm_num
    rw [this, snap_eq, not_lt, Real.le_sqrt' (by norm_num)]; norm_num
  · right; rw [V3.perp, hpk]; ext <;> simp

/-- C24: (nearly) parallel axes give the empty list whatever `p` and `q` are. -/
theorem C24_subproblem2_parallel (p q k1 k2 : V3 ℝ) (h : |1 - k1.dot k2 ^ 2| < npEps) :
    subproblem2 p.up q.up k1.up k2.up = .ok [] := Sp2.eval_parallel p q k1 k2 h

-- non-vacuity: a general position with discriminant 1
example : npEps ≤ 1 - (V3.ex : V3 ℝ).dot V3.ey ^ 2 ∧ npEps ≤ Spec.disc (V3.ez : V3 ℝ) V3.ez V3.ex V3.ey ∧
    Spec.disc (V3.ey : V3 ℝ) V3.ex V3.ex V3.ey ≤ -npEps := by
  rw [npEps_real]; simp [Spec.disc, V3.dot]; norm_num
