import Verif.Props.Subproblems
import Verif.Lemmas.Kin
import Verif.Lemmas.ListM

/-! # Building blocks of the inverse kinematics: error bounds for the elbow and for the wrist -/
set_option autoImplicit false

/-- Anything `subproblem1` returns: either the two vectors are closer than `snap` and the angle is zero, or the component of `p`
off the axis is turned into the direction of that of `q`. -/
theorem subproblem1_close {p q k : V3 ℝ} (hk : IsUnit3 k) {r : XReal} (h : subproblem1 p.up q.up k.up = .ok r) :
    ∃ θ : ℝ, r = .fin θ ∧ (((p - q).norm < snap ∧ θ = 0) ∨ (snap ≤ (p - q).norm ∧ q.perp k ≠ 0 ∧
      (rot k θ).mulVec p - q = ((p.perp k).norm - (q.perp k).norm) • Spec.dir q k + (p.dot k - q.dot k) • k)) := by
  by_cases hs : (p - q).norm < snap
  · rw [subproblem1_snap _ hs] at h
    exact ⟨0, (by simpa using h.symm), .inl ⟨hs, rfl⟩⟩
  by_cases hp : p.perp k = 0
  · rw [subproblem1_on_axis hk hs (Or.inl hp)] at h; exact absurd h (by simp)
  by_cases hq : q.perp k = 0
  · rw [subproblem1_on_axis hk hs (Or.inr hq)] at h; exact absurd h (by simp)
  obtain ⟨θ, e, -, -, -, -, r5⟩ := subproblem1_eval hk hs hp hq
  rw [e] at h
  refine ⟨θ, (by simpa using h.symm), .inr ⟨not_lt.1 hs, hq, ?_⟩⟩
  have hpd : (rot k θ).mulVec (p.perp k) = (p.perp k).norm • Spec.dir q k := by
    conv_lhs => rw [perp_eq_dir hp]
    rw [M3.mulVec_hsmul]
    exact congrArg _ r5
  have e1 : (rot k θ).mulVec p = (p.perp k).norm • Spec.dir q k + (p.dot k) • k := by
    conv_lhs => rw [V3.perp_add p k]
    rw [M3.mulVec_add, hpd, M3.mulVec_hsmul, rot_axis]
  have e2 : q = (q.perp k).norm • Spec.dir q k + (q.dot k) • k := by
    rw [← perp_eq_dir hq]; exact V3.perp_add q k
  rw [e1]
  generalize (q.perp k).norm = a at *
  generalize Spec.dir q k = d at *
  generalize q.dot k = b at *
  rw [e2]
  ext <;> simp <;> ring

/-- equal heights along the axis: the error is the difference of the distances from the axis -/
theorem subproblem1_close_axial {p q k : V3 ℝ} (hk : IsUnit3 k) (ha : p.dot k = q.dot k) {r : XReal}
    (h : subproblem1 p.up q.up k.up = .ok r) :
    ∃ θ : ℝ, r = .fin θ ∧ (((rot k θ).mulVec p - q).norm < snap ∨
      ((rot k θ).mulVec p - q).norm ≤ |(p.perp k).norm - (q.perp k).norm|) := by
  obtain ⟨θ, e, ⟨h1, rfl⟩ | ⟨-, hq, h2⟩⟩ := subproblem1_close hk h
  · refine ⟨0, e, .inl ?_⟩
    rwa [rot_zero, M3.one_mulVec]
  · refine ⟨θ, e, .inr ?_⟩
    rw [h2, ha, sub_self]
    have : ∀ v : V3 ℝ, v + (0 : ℝ) • k = v := by intro v; ext <;> simp
    rw [this, V3.norm_hsmul, V3.norm_eq_one (dir_unit hq), mul_one]

theorem V3.abs_norm_sub_le (a b : V3 ℝ) : |a.norm - b.norm| ≤ (a - b).norm := by
  have t1 := V3.norm_add_le b (a - b)
  have t2 := V3.norm_sub_le a (a - b)
  have g1 : b + (a - b) = a := by ext <;> simp
  have g2 : a - (a - b) = b := by ext <;> simp
  rw [g1] at t1; rw [g2] at t2
  rw [abs_le]; constructor <;> linarith

theorem V3.perp_sub (a b k : V3 ℝ) : (a - b).perp k = a.perp k - b.perp k := by
  simp only [V3.perp, V3.sub_dot]
  ext <;> simp <;> ring

theorem rot_dot_axis {k : V3 ℝ} (hk : IsUnit3 k) (φ : ℝ) (v : V3 ℝ) : ((rot k φ).mulVec v).dot k = v.dot k :=
  (rot_invariants hk (p := v) rfl).2.symm

/-- The elbow: the angle of joint 3 from `subproblem3`, whatever whole turns are added, followed by the angle of joint 2 from
`subproblem1`, brings the elbow vector to the target up to the coincidence tolerance, provided the target is at the right height
along the common axis. -/
theorem elbow_close {k k' P2 P3 v : V3 ℝ} (hk : IsUnit3 k) (hk' : k' = k ∨ k' = -k) (hv : (P2 + P3).dot k = v.dot k)
    {Q3 : List XReal} (h3 : subproblem3 P3.up P2.up k.up (.fin v.norm) = .ok Q3) {t3 : XReal} (ht : t3 ∈ Q3) :
    ∃ t : ℝ, t3 = .fin t ∧ ∀ (n : ℤ) (r : XReal),
      subproblem1 (P2 + (rot k (t + n * (2 * Real.pi))).mulVec P3).up v.up k'.up = .ok r →
      ∃ θ : ℝ, r = .fin θ ∧ ((rot k' θ).mulVec (P2 + (rot k (t + n * (2 * Real.pi))).mulVec P3) - v).norm ≤ (1 + P3.norm) * snap := by
  by_cases hon : k.cross P3 = 0 ∨ k.cross P2 = 0
  · obtain ⟨-, h1, h2⟩ := C25_subproblem3_on_axis P3 P2 k v.norm hk hon (V3.norm_nonneg _)
    by_cases hc : (P2 + P3).norm = v.norm
    · rw [h2 hc] at h3; cases h3
    · rw [h1 hc] at h3; cases h3; cases ht
  push Not at hon
  obtain ⟨ts, e, -, hs, -⟩ := C25_subproblem3_partial P3 P2 k v.norm hk hon.1 hon.2 (V3.norm_nonneg _)
  rw [e] at h3; cases h3
  rw [List.mem_map] at ht
  obtain ⟨t, ht, rfl⟩ := ht
  refine ⟨t, rfl, fun n r hr => ?_⟩
  obtain ⟨-, φ, hφ, hd⟩ := hs t ht
  have hku : IsUnit3 k' := by
    rcases hk' with rfl | rfl
    · exact hk
    · simpa [IsUnit3] using hk
  have hax : ∀ w : V3 ℝ, w.dot k' = w.dot k ∨ w.dot k' = -w.dot k := by
    intro w; rcases hk' with rfl | rfl
    · exact .inl rfl
    · exact .inr (V3.dot_neg _ _)
  have hperp : ∀ w : V3 ℝ, w.perp k' = w.perp k := by
    intro w; rcases hk' with rfl | rfl
    · rfl
    · simp only [V3.perp, V3.dot_neg]; ext <;> simp
  rw [rot_periodic] at hr ⊢
  have h0 : ∀ ψ : ℝ, (P2 + (rot k ψ).mulVec P3).dot k = v.dot k := by
    intro ψ; rw [V3.add_dot, rot_dot_axis hk, ← V3.add_dot, hv]
  obtain ⟨θ, e', hc⟩ := subproblem1_close_axial hku (p := P2 + (rot k t).mulVec P3) (q := v) (by
    rcases hk' with rfl | rfl
    · exact h0 t
    · rw [V3.dot_neg, V3.dot_neg, h0 t]) hr
  refine ⟨θ, e', ?_⟩
  have hsn := snap_pos
  have hP := mul_nonneg (V3.norm_nonneg P3) hsn.le
  rcases hc with hc | hc
  · nlinarith
  · rw [hperp, hperp] at hc
    have ev : (v.perp k).norm = ((P2 + (rot k φ).mulVec P3).perp k).norm := by
      rw [V3.norm_eq, V3.norm_eq, V3.perp_dot_self hk, V3.perp_dot_self hk, h0, ← V3.norm_sq, ← V3.norm_sq, hφ]
    rw [ev] at hc
    have g : (P2 + (rot k t).mulVec P3) - (P2 + (rot k φ).mulVec P3) = (rot k t).mulVec P3 - (rot k φ).mulVec P3 := by
      ext <;> simp
    have := V3.abs_norm_sub_le ((P2 + (rot k t).mulVec P3).perp k) ((P2 + (rot k φ).mulVec P3).perp k)
    rw [← V3.perp_sub, g] at this
    have h5 := perp_norm_le (p := (rot k t).mulVec P3 - (rot k φ).mulVec P3) hk
    nlinarith

/-! ## The wrist -/

theorem V3.norm_cross_le (a b : V3 ℝ) : (a.cross b).norm ≤ a.norm * b.norm := by
  apply le_of_sq_le_sq _ (mul_nonneg (V3.norm_nonneg _) (V3.norm_nonneg _))
  rw [mul_pow, V3.norm_sq, V3.norm_sq, V3.norm_sq]
  have : (a.cross b).dot (a.cross b) = a.dot a * b.dot b - a.dot b ^ 2 := by simp [V3.dot]; ring
  rw [this]; nlinarith [sq_nonneg (a.dot b)]

/-- decomposition along two orthogonal unit vectors and their cross product -/
theorem V3.frame_decomp {a b : V3 ℝ} (ha : IsUnit3 a) (hb : IsUnit3 b) (hab : a.dot b = 0) (v : V3 ℝ) :
    v = v.dot a • a + v.dot b • b + v.dot (a.cross b) • a.cross b := by
  have h1 := ha; have h2 := hb
  simp only [IsUnit3, V3.dot] at h1 h2 hab
  ext <;> simp [V3.dot] <;> grind

/-- two rotations that nearly agree on two orthogonal unit vectors nearly agree everywhere -/
theorem rot_close_of_two {C D : M3 ℝ} (hC : IsRot C) (hD : IsRot D) {a b : V3 ℝ} (ha : IsUnit3 a) (hb : IsUnit3 b)
    (hab : a.dot b = 0) {x y : ℝ} (hx : (C.mulVec a - D.mulVec a).norm ≤ x) (hy : (C.mulVec b - D.mulVec b).norm ≤ y) (v : V3 ℝ) :
    (C.mulVec v - D.mulVec v).norm ≤ 2 * (x + y) * v.norm := by
  have hc : (C.mulVec (a.cross b) - D.mulVec (a.cross b)).norm ≤ x + y := by
    rw [hC.mulVec_cross, hD.mulVec_cross]
    have g : (C.mulVec a).cross (C.mulVec b) - (D.mulVec a).cross (D.mulVec b) =
        (C.mulVec a - D.mulVec a).cross (C.mulVec b) + (D.mulVec a).cross (C.mulVec b - D.mulVec b) := by
      ext <;> simp <;> ring
    rw [g]
    have t := V3.norm_add_le ((C.mulVec a - D.mulVec a).cross (C.mulVec b)) ((D.mulVec a).cross (C.mulVec b - D.mulVec b))
    have t1 := V3.norm_cross_le (C.mulVec a - D.mulVec a) (C.mulVec b)
    have t2 := V3.norm_cross_le (D.mulVec a) (C.mulVec b - D.mulVec b)
    rw [hC.norm_mulVec, V3.norm_eq_one hb, mul_one] at t1
    rw [hD.norm_mulVec, V3.norm_eq_one ha, one_mul] at t2
    linarith
  have hcu : (a.cross b).norm = 1 := by
    apply V3.norm_eq_one
    have h1 := ha; have h2 := hb
    simp only [IsUnit3, V3.dot] at h1 h2 hab
    simp [IsUnit3]; grind
  have e : C.mulVec v - D.mulVec v = v.dot a • (C.mulVec a - D.mulVec a) + v.dot b • (C.mulVec b - D.mulVec b) +
      v.dot (a.cross b) • (C.mulVec (a.cross b) - D.mulVec (a.cross b)) := by
    have hv := V3.frame_decomp ha hb hab v
    generalize v.dot a = c1 at *
    generalize v.dot b = c2 at *
    generalize v.dot (a.cross b) = c3 at *
    rw [hv]
    simp only [M3.mulVec_add, M3.mulVec_hsmul]
    generalize C.mulVec a = ca
    generalize D.mulVec a = da
    generalize C.mulVec b = cb
    generalize D.mulVec b = db
    generalize C.mulVec (a.cross b) = cc
    generalize D.mulVec (a.cross b) = dc
    ext <;> simp <;> ring
  have b1 := V3.abs_dot_le v a
  have b2 := V3.abs_dot_le v b
  have b3 := V3.abs_dot_le v (a.cross b)
  rw [V3.norm_eq_one ha, mul_one] at b1
  rw [V3.norm_eq_one hb, mul_one] at b2
  rw [hcu, mul_one] at b3
  rw [e]
  have t1 := V3.norm_add_le (v.dot a • (C.mulVec a - D.mulVec a) + v.dot b • (C.mulVec b - D.mulVec b))
    (v.dot (a.cross b) • (C.mulVec (a.cross b) - D.mulVec (a.cross b)))
  have t2 := V3.norm_add_le (v.dot a • (C.mulVec a - D.mulVec a)) (v.dot b • (C.mulVec b - D.mulVec b))
  rw [V3.norm_hsmul, V3.norm_hsmul] at t2
  rw [V3.norm_hsmul] at t1
  have m1 := mul_le_mul b1 hx (V3.norm_nonneg _) (V3.norm_nonneg v)
  have m2 := mul_le_mul b2 hy (V3.norm_nonneg _) (V3.norm_nonneg v)
  have m3 := mul_le_mul b3 hc (V3.norm_nonneg _) (V3.norm_nonneg v)
  nlinarith

/-- the last wrist joint: a rotation `B` that nearly fixes `h5` is nearly the rotation about `h5` found from `h4` -/
theorem last_joint_close {h4 h5 : V3 ℝ} (u4 : IsUnit3 h4) (u5 : IsUnit3 h5) (h45 : h4.dot h5 = 0) {B : M3 ℝ} (hB : IsRot B)
    (hfix : (B.mulVec h5 - h5).norm ≤ 2 * snap) {r : XReal} (hr : subproblem1 h4.up (B.mulVec h4).up h5.up = .ok r) :
    ∃ θ : ℝ, r = .fin θ ∧ ∀ v, ((rot h5 θ).mulVec v - B.mulVec v).norm ≤ 10 * snap * v.norm := by
  have hsn := snap_pos
  obtain ⟨θ, e, hc⟩ := subproblem1_close u5 hr
  refine ⟨θ, e, fun v => ?_⟩
  have h4c : ((rot h5 θ).mulVec h4 - B.mulVec h4).norm ≤ 3 * snap := by
    rcases hc with ⟨hc, rfl⟩ | ⟨-, hq, hc⟩
    · rw [rot_zero, M3.one_mulVec]; linarith
    · -- height of `B h4` along `h5`
      set δ := (B.mulVec h4).dot h5 with hδ
      have hδb : |δ| ≤ 2 * snap := by
        have : δ = -(B.mulVec h4).dot (B.mulVec h5 - h5) := by
          rw [V3.dot_sub, hB.dot_mulVec, h45, hδ]; ring
        rw [this, abs_neg]
        have := V3.abs_dot_le (B.mulVec h4) (B.mulVec h5 - h5)
        rw [hB.norm_mulVec, V3.norm_eq_one u4, one_mul] at this
        linarith
      have hn4 : (h4.perp h5).norm = 1 := by
        rw [V3.norm_eq, V3.perp_dot_self u5, h45, u4.dot]; norm_num
      have hsq : ((B.mulVec h4).perp h5).norm ^ 2 = 1 - δ ^ 2 := by
        rw [V3.norm_sq, V3.perp_dot_self u5, hB.dot_mulVec, u4.dot]
      have hn0 := V3.norm_nonneg ((B.mulVec h4).perp h5)
      set m := ((B.mulVec h4).perp h5).norm with hm
      have hm1 : m ≤ 1 := by nlinarith [sq_nonneg δ]
      rw [hn4, h45, zero_sub] at hc
      apply le_of_sq_le_sq _ (by linarith)
      rw [V3.norm_sq, hc]
      have hdu := dir_unit hq
      have hdp := dir_perp (p := B.mulVec h4) u5
      have : ((1 - m) • Spec.dir (B.mulVec h4) h5 + (-δ) • h5).dot ((1 - m) • Spec.dir (B.mulVec h4) h5 + (-δ) • h5) =
          (1 - m) ^ 2 + δ ^ 2 := by
        rw [V3.dot_add, V3.add_dot, V3.add_dot, V3.hsmul_dot, V3.hsmul_dot, V3.hsmul_dot, V3.hsmul_dot, V3.dot_hsmul, V3.dot_hsmul,
          V3.dot_hsmul, V3.dot_hsmul, hdu.dot, u5.dot, hdp, V3.dot_comm, hdp]
        ring
      rw [this]
      have hδ2 : δ ^ 2 ≤ (2 * snap) ^ 2 := sq_le_sq' (by linarith [abs_le.1 hδb]) (by linarith [abs_le.1 hδb])
      -- (1-m)² ≤ 1-m² = δ² as 0 ≤ m ≤ 1
      nlinarith
  have h5c : ((rot h5 θ).mulVec h5 - B.mulVec h5).norm ≤ 2 * snap := by
    rw [rot_axis, V3.norm_sub_comm]; exact hfix
  have := rot_close_of_two (rot_isRot h5 u5 θ) hB u4 u5 h45 h4c h5c v
  calc _ ≤ _ := this
    _ = _ := by ring

theorem subproblem1_fin {p q k : V3 ℝ} (hk : k ≠ 0) {r : XReal} (h : subproblem1 p.up q.up k.up = .ok r) : ∃ θ : ℝ, r = .fin θ := by
  have hp := V3.norm_pos hk
  have e : k = k.norm • k.sdiv k.norm := by
    rw [V3.sdiv_eq]; ext <;> simp <;> field_simp
  rw [e, C23_subproblem1_axis_scale _ _ _ (V3.unit_sdiv hk) _ hp] at h
  obtain ⟨θ, e, -⟩ := subproblem1_close (V3.unit_sdiv hk) h
  exact ⟨θ, e⟩

theorem disc_wrist {h3 h4 h5 q : V3 ℝ} (u5 : IsUnit3 h5) (h34 : h3.dot h4 = 0) (h45 : h4.dot h5 = 0) :
    Spec.disc h5 q h3 h4 = 1 - q.dot h3 ^ 2 := by
  rw [Spec.disc, h34, V3.dot_comm h5 h4, h45, u5.dot]; ring

/-- the first two wrist joints: whatever is returned is finite, and away from the wrist singularity it points the last axis the right
way up to `2·snap` -/
theorem wrist_pair {h3 h4 h5 : V3 ℝ} (u3 : IsUnit3 h3) (u4 : IsUnit3 h4) (u5 : IsUnit3 h5) (h34 : h3.dot h4 = 0)
    (h45 : h4.dot h5 = 0) {A : M3 ℝ} (hA : IsRot A) {Q : List (XReal × XReal)}
    (h : subproblem2 h5.up (A.mulVec h5).up h3.up h4.up = .ok Q) {x : XReal × XReal} (hx : x ∈ Q) :
    ∃ a b : ℝ, x = (.fin a, .fin b) ∧ (npEps ≤ 1 - (A.mulVec h5).dot h3 ^ 2 →
      ((rot h3 a * rot h4 b).mulVec h5 - A.mulVec h5).norm ≤ 2 * snap) := by
  have he := npEps_pos
  have heps : npEps ≤ 1 - h3.dot h4 ^ 2 := by rw [h34]; rw [npEps]; norm_num
  have hd := disc_wrist (q := A.mulVec h5) u5 h34 h45
  have hdot : h5.dot h5 = (A.mulVec h5).dot (A.mulVec h5) := by rw [hA.dot_mulVec]
  by_cases hs : npEps ≤ 1 - (A.mulVec h5).dot h3 ^ 2
  · obtain ⟨l, e, -, hl, -⟩ := C24_subproblem2_partial h5 (A.mulVec h5) h3 h4 u3 u4 hdot heps (by rw [hd]; exact hs)
    rw [e] at h; cases h
    rw [List.mem_map] at hx
    obtain ⟨y, hy, rfl⟩ := hx
    refine ⟨y.1, y.2, rfl, fun _ => ?_⟩
    rw [← M3.mulVec_mulVec]
    exact (hl y hy).1.le
  · -- tangent branch: finite, but not a solution in general
    push Not at hs
    rw [Sp2.eval u3 u4 _ _ heps, hd] at h
    have hle : -npEps < 1 - (A.mulVec h5).dot h3 ^ 2 := by
      have := V3.abs_dot_le (A.mulVec h5) h3
      rw [hA.norm_mulVec, V3.norm_eq_one u5, V3.norm_eq_one u3, mul_one] at this
      have := (sq_le_one_iff_abs_le_one _).2 this
      linarith
    rw [if_pos (abs_lt.2 ⟨hle, hs⟩)] at h
    simp only [lt_irrefl, if_false, Real.sqrt_zero, zero_div, abs_zero, he, if_true] at h
    have hc : Sp2.c h5 (A.mulVec h5) h3 h4 0 ≠ 0 := by
      intro hc
      have h1 := Sp2.c_dot_k1 (p := h5) (q := A.mulVec h5) (k1 := h3) (k2 := h4) u3 (by rw [h34]; norm_num) 0
      rw [hc] at h1
      have : (0 : V3 ℝ).dot h3 = 0 := by simp [V3.dot]
      rw [this] at h1
      rw [← h1] at hs
      have : (npEps : ℝ) < 1 := by rw [npEps]; norm_num
      linarith
    obtain ⟨t2, e2, h⟩ := Except.bind_eq_ok h
    obtain ⟨t1, e1, h⟩ := Except.bind_eq_ok h
    cases h
    rw [List.mem_singleton] at hx
    obtain ⟨b, rfl⟩ := subproblem1_fin hc e2
    obtain ⟨a, rfl⟩ := subproblem1_fin hc e1
    exact ⟨-a, b, by rw [hx]; rfl, fun h => absurd h (not_le.2 hs)⟩
