import Verif.Lemmas.Track

/-! # How far apart the solutions of the inverse kinematics are -/
set_option autoImplicit false

/-- the equation of all three branches: besides whole turns there is one other solution, at a distance -/
theorem two_roots {A B x : ℝ} (h : A * Real.cos x + B * Real.sin x = A) :
    (∃ n : ℤ, x = n * (2 * Real.pi)) ∨ B ^ 2 ≤ (A ^ 2 + B ^ 2) * (x / 2) ^ 2 := by
  obtain ⟨y, rfl⟩ : ∃ y, x = 2 * y := ⟨x / 2, by ring⟩
  have hy := Real.sin_sq_add_cos_sq y
  rw [Real.cos_two_mul, Real.sin_two_mul] at h
  have h0 : Real.sin y * (B * Real.cos y - A * Real.sin y) = 0 := by linear_combination h / 2 - A * hy
  rcases mul_eq_zero.1 h0 with h0 | h0
  · obtain ⟨n, hn⟩ := Real.sin_eq_zero_iff.1 h0
    exact .inl ⟨n, by rw [← hn]; ring⟩
  · right
    have e : B ^ 2 = (A ^ 2 + B ^ 2) * Real.sin y ^ 2 := by
      have : B * Real.cos y = A * Real.sin y := by linarith
      calc B ^ 2 = (B * Real.cos y) ^ 2 + B ^ 2 * Real.sin y ^ 2 := by rw [mul_pow]; linear_combination (-B ^ 2) * hy
        _ = _ := by rw [this]; ring
    have hs : Real.sin y ^ 2 ≤ (2 * y / 2) ^ 2 := by
      rw [mul_div_cancel_left₀ _ two_ne_zero]
      exact sq_le_sq.2 (Real.abs_sin_le_abs)
    exact e.le.trans (mul_le_mul_of_nonneg_left hs (by positivity))

/-- sine of the angle between the plane of the arm and the point `w` that the first joint has to bring into it, seen along the axis `h` -/
noncomputable def Spec.shoulderSin (h w : V3 ℝ) : ℝ := |V3.ey.dot (h.cross w)| / (h.cross w).norm

/-- sine of the angle at the elbow, seen along the axis `h`, between the upper arm `p` and the forearm `f` -/
noncomputable def Spec.elbowSin (h p f : V3 ℝ) : ℝ := |p.dot (h.cross f)| / ((h.cross p).norm * (h.cross f).norm)

/-- sine of the angle between the first and the last axis of the wrist -/
noncomputable def Spec.wristSin (a b : V3 ℝ) : ℝ := Real.sqrt (1 - a.dot b ^ 2)

theorem abs_gap {b n x : ℝ} (hn : 0 < n) (h : b ^ 2 ≤ n ^ 2 * (x / 2) ^ 2) : 2 * (|b| / n) ≤ |x| := by
  have h1 : |b| ≤ |n * (x / 2)| := by rw [← sq_le_sq, mul_pow]; exact h
  rw [abs_mul, abs_of_pos hn, abs_div, abs_two] at h1
  have : |b| / n ≤ |x| / 2 := by rw [div_le_iff₀ hn]; linarith
  linarith

/-- two shoulder angles -/
theorem shoulder_gap {h w : V3 ℝ} {q a : ℝ} (u : IsUnit3 h) (hey : V3.ey.dot h = 0) (hoff : h.cross w ≠ 0)
    (e : V3.ey.dot ((rot h a).transpose.mulVec ((rot h q).mulVec w)) = V3.ey.dot w) :
    (∃ n : ℤ, a = q + n * (2 * Real.pi)) ∨ 2 * Spec.shoulderSin h w ≤ |a - q| := by
  rw [← rot_neg, M3.mulVec_mulVec, rot_mul h u, rot_mulVec h u, V3.dot_add, V3.dot_add, V3.dot_hsmul, V3.dot_hsmul, V3.dot_hsmul, hey] at e
  have e' : V3.ey.dot w * Real.cos (q - a) + V3.ey.dot (h.cross w) * Real.sin (q - a) = V3.ey.dot w := by
    rw [show -a + q = q - a by ring] at e; linarith
  have key : V3.ey.dot w ^ 2 + V3.ey.dot (h.cross w) ^ 2 = (h.cross w).norm ^ 2 := by
    rw [V3.norm_eq, Real.sq_sqrt (V3.dot_self_nonneg _)]
    simp only [IsUnit3] at u
    simp [V3.dot] at hey ⊢
    rw [hey]; rw [hey] at u
    grind
  rcases two_roots e' with ⟨n, hn⟩ | h2
  · exact .inl ⟨-n, by push_cast; linarith⟩
  · right
    rw [key] at h2
    rw [abs_sub_comm]
    exact abs_gap (V3.norm_pos hoff) h2

/-- two elbow angles -/
theorem elbow_gap {h p f : V3 ℝ} {q a : ℝ} (u : IsUnit3 h) (hp : h.cross p ≠ 0) (hf : h.cross f ≠ 0)
    (e : (p + (rot h a).mulVec f).norm = (p + (rot h q).mulVec f).norm) :
    (∃ n : ℤ, a = q + n * (2 * Real.pi)) ∨ 2 * Spec.elbowSin h p ((rot h q).mulVec f) ≤ |a - q| := by
  have hR := rot_isRot h u q
  set g := (rot h q).mulVec f with hg
  have eg : (rot h a).mulVec f = (rot h (a - q)).mulVec g := by
    rw [hg, M3.mulVec_mulVec, rot_mul h u, sub_add_cancel]
  have hcg : h.cross g ≠ 0 := by
    intro h0
    apply hf
    have : h.cross g = (rot h q).mulVec (h.cross f) := by
      rw [hg]; nth_rw 1 [← rot_axis h q]; exact (hR.mulVec_cross _ _).symm
    rw [this] at h0
    rw [← hR.transpose_mulVec_mulVec (h.cross f), h0]
    ext <;> simp
  rw [eg] at e
  have e2 : p.dot ((rot h (a - q)).mulVec g) = p.dot g := by
    have e1 : (p + (rot h (a - q)).mulVec g).dot (p + (rot h (a - q)).mulVec g) = (p + g).dot (p + g) := by
      have := congrArg (· ^ 2) e
      simpa only [V3.norm_eq, Real.sq_sqrt (V3.dot_self_nonneg _)] using this
    have e3 := (rot_isRot h u (a - q)).dot_mulVec g g
    simp only [V3.dot_add, V3.add_dot, e3] at e1
    rw [V3.dot_comm g p, V3.dot_comm ((rot h (a - q)).mulVec g) p] at e1
    linarith
  rw [rot_mulVec h u, V3.dot_add, V3.dot_add, V3.dot_hsmul, V3.dot_hsmul, V3.dot_hsmul] at e2
  have e' : (p.dot g - h.dot p * h.dot g) * Real.cos (a - q) + p.dot (h.cross g) * Real.sin (a - q) = p.dot g - h.dot p * h.dot g := by
    rw [V3.dot_comm p h] at e2; linarith
  have key : (p.dot g - h.dot p * h.dot g) ^ 2 + p.dot (h.cross g) ^ 2 = ((h.cross p).norm * (h.cross g).norm) ^ 2 := by
    rw [mul_pow, V3.norm_eq, V3.norm_eq, Real.sq_sqrt (V3.dot_self_nonneg _), Real.sq_sqrt (V3.dot_self_nonneg _)]
    simp only [IsUnit3] at u
    simp [V3.dot]
    grind
  rcases two_roots e' with ⟨n, hn⟩ | h2
  · exact .inl ⟨n, by linarith⟩
  · right
    rw [key] at h2
    exact abs_gap (mul_pos (V3.norm_pos hp) (V3.norm_pos hcg)) h2

/-- angle with given cosine and sine -/
theorem exists_angle {c s : ℝ} (h : c ^ 2 + s ^ 2 = 1) : ∃ x : ℝ, Real.cos x = c ∧ Real.sin x = s := by
  obtain ⟨h1, h2⟩ := polar_arg c s
  rw [show c * c + s * s = 1 by linarith, Real.sqrt_one, one_mul] at h1 h2
  exact ⟨_, h1, h2⟩

/-- a rotation moves a unit vector perpendicular to the axis by at most the angle -/
theorem rot_chord {k p : V3 ℝ} (hk : IsUnit3 k) (hp : IsUnit3 p) (hkp : k.dot p = 0) (a b : ℝ) :
    ((rot k a).mulVec p - (rot k b).mulVec p).norm ≤ |a - b| := by
  have ea := (rot_isRot k hk a).dot_mulVec p p
  have eb := (rot_isRot k hk b).dot_mulVec p p
  have hR := rot_isRot k hk b
  have eab : ((rot k a).mulVec p).dot ((rot k b).mulVec p) = Real.cos (a - b) := by
    have : (rot k a).mulVec p = (rot k b).mulVec ((rot k (a - b)).mulVec p) := by
      rw [M3.mulVec_mulVec, rot_mul k hk]; congr 2; ring
    rw [this, hR.dot_mulVec, rot_mulVec k hk, hkp]
    have h1 : (k.cross p).dot p = 0 := by simp [V3.dot]; ring
    rw [V3.add_dot, V3.add_dot, V3.hsmul_dot, V3.hsmul_dot, V3.hsmul_dot, h1, hkp, hp.dot]; ring
  rw [V3.norm_eq]
  refine Real.sqrt_le_iff.2 ⟨abs_nonneg _, ?_⟩
  rw [V3.dot_sub, V3.sub_dot, V3.sub_dot, ea, eb, V3.dot_comm ((rot k b).mulVec p), eab, hp.dot, sq_abs]
  have := Real.one_sub_sq_div_two_le_cos (x := a - b)
  linarith

/-- The two solutions for the wrist pair: the one asked for, or one with a fifth joint value at a distance. -/
theorem wrist_gap {h3 h4 h5 : V3 ℝ} {q4 q5 : ℝ} (u3 : IsUnit3 h3) (u4 : IsUnit3 h4) (u5 : IsUnit3 h5) (h34 : h3.dot h4 = 0)
    (h45 : h4.dot h5 = 0) (hw : npEps ≤ 1 - h3.dot ((rot h4 q5).mulVec h5) ^ 2)
    (c4 : Spec.clear h3 ((rot h4 q5).mulVec h5) q4) (c5 : Spec.clear h4 h5 q5) {Q : List (XReal × XReal)}
    (h : subproblem2 h5.up ((rot h3 q4 * rot h4 q5).mulVec h5).up h3.up h4.up = .ok Q) {y : XReal × XReal} (hy : y ∈ Q) :
    ∃ t4 t5 : ℝ, y = (.fin t4, .fin t5) ∧ (((∃ n : ℤ, t4 = q4 + n * (2 * Real.pi)) ∧ ∃ n : ℤ, t5 = q5 + n * (2 * Real.pi)) ∨
      ∀ n : ℤ, 2 * Spec.wristSin h3 ((rot h4 q5).mulVec h5) - snap ≤ |t5 + n * (2 * Real.pi) - q5|) := by
  have hsn := snap_pos
  have hR4 := rot_isRot h4 u4 q5
  set w := (rot h4 q5).mulVec h5 with hw'
  have uw : IsUnit3 w := by
    have := hR4.dot_mulVec h5 h5
    rw [u5.dot, ← hw'] at this
    simpa only [IsUnit3, V3.dot] using this
  have h4w : h4.dot w = 0 := by
    have := hR4.dot_mulVec h4 h5
    rwa [rot_axis, h45] at this
  have e0 : (rot h3 q4 * rot h4 q5).mulVec h5 = (rot h3 q4).mulVec w := by rw [hw', M3.mulVec_mulVec]
  have r3 := rot_isRot h3 u3 q4
  have heps : npEps ≤ 1 - h3.dot h4 ^ 2 := by rw [h34]; rw [npEps]; norm_num
  have hd := disc_wrist (q := (rot h3 q4).mulVec w) u5 h34 h45
  have hdot : h5.dot h5 = ((rot h3 q4).mulVec w).dot ((rot h3 q4).mulVec w) := by
    rw [r3.dot_mulVec, hw', hR4.dot_mulVec]
  have hheight : ((rot h3 q4).mulVec w).dot h3 = h3.dot w := by
    rw [← (rot_invariants (p := w) u3 (φ := q4) rfl).2, V3.dot_comm]
  obtain ⟨l, e, hlen, hl, hc⟩ := C24_subproblem2_partial h5 ((rot h3 q4).mulVec w) h3 h4 u3 u4 hdot heps (by rw [hd, hheight]; exact hw)
  rw [e0, e] at h; cases h
  obtain ⟨z, hz, rfl⟩ := List.mem_map.1 hy
  refine ⟨z.1, z.2, rfl, ?_⟩
  -- the solution asked for
  obtain ⟨x, hx, -, -, a1, a2, a3, a4⟩ := hc q4 q5 rfl
  have back : (rot h3 (-q4)).mulVec ((rot h3 q4).mulVec w) = w := by rw [rot_neg, r3.transpose_mulVec_mulVec]
  rw [back] at a2 a4
  have x4 : ∃ n : ℤ, x.1 = q4 + n * (2 * Real.pi) := by
    rcases c4 with ⟨n, rfl⟩ | c4
    · refine ⟨-n, ?_⟩
      rw [a4 (by rw [rot_turns, M3.one_mulVec, V3.norm_sub_self]; exact hsn)]
      push_cast; ring
    · rw [V3.norm_sub_comm] at c4
      obtain ⟨n, hn⟩ := a2 c4
      exact ⟨-n, by rw [hn]; push_cast; ring⟩
  have x5 : ∃ n : ℤ, x.2 = q5 + n * (2 * Real.pi) := by
    rcases c5 with ⟨n, rfl⟩ | c5
    · refine ⟨-n, ?_⟩
      rw [a3 (by rw [rot_turns, M3.one_mulVec, V3.norm_sub_self]; exact hsn)]
      push_cast; ring
    · obtain ⟨n, hn⟩ := a1 c5
      exact ⟨-n, by rw [hn]; push_cast; ring⟩
  -- the other solution: the fourth joint half a turn further, the sixth axis on the other side of the fourth
  set c := h3.dot w with hcdef
  have hsq : c ^ 2 + (h3.dot (h4.cross w)) ^ 2 = 1 := by
    have key : (h3.dot w) ^ 2 + (h3.dot (h4.cross w)) ^ 2 = (h3.dot h3 - h3.dot h4 ^ 2) * (w.dot w) + (h4.dot w) ^ 2 * 0 +
        ((h4.dot h4 - 1) * (h3.dot h3 * w.dot w - h3.dot w ^ 2) - h4.dot w * (h4.dot w * h3.dot h3 - 2 * h3.dot h4 * h3.dot w)) +
        h3.dot h4 ^ 2 * 0 := by
      simp [V3.dot]; ring
    rw [hcdef, key, h34, h4w, u3.dot, u4.dot, uw.dot]; ring
  set s := h3.dot (h4.cross w) with hsdef
  obtain ⟨β, hβ1, hβ2⟩ := exists_angle (c := 2 * c ^ 2 - 1) (s := 2 * c * s) (by nlinarith)
  have hperp : h3 = c • w + s • h4.cross w := by
    simp only [IsUnit3] at u3 u4 uw
    simp only [V3.dot] at h34 h4w
    rw [hcdef, hsdef]
    ext <;> simp [V3.dot] <;> grind
  have hv : (rot h4 (q5 + β)).mulVec h5 = (2 * c) • h3 - w := by
    have e1 : (rot h4 (q5 + β)).mulVec h5 = (rot h4 β).mulVec w := by
      rw [hw', M3.mulVec_mulVec, rot_mul h4 u4, add_comm]
    rw [e1, rot_mulVec h4 u4, hβ1, hβ2, h4w]
    conv_rhs => rw [hperp]
    ext <;> simp <;> ring
  have hsol : (rot h3 (q4 + Real.pi)).mulVec ((rot h4 (q5 + β)).mulVec h5) = (rot h3 q4).mulVec w := by
    rw [← rot_mul h3 u3, ← M3.mulVec_mulVec]
    congr 1
    rw [hv, rot_mulVec h3 u3, Real.cos_pi, Real.sin_pi, V3.dot_sub, V3.dot_hsmul, u3.dot, ← hcdef]
    ext <;> simp <;> ring
  have hdist : ((2 * c) • h3 - w - w).norm = 2 * Spec.wristSin h3 w := by
    rw [V3.norm_eq, Spec.wristSin, ← hcdef]
    have : ((2 * c) • h3 - w - w).dot ((2 * c) • h3 - w - w) = 2 ^ 2 * (1 - c ^ 2) := by
      have h1 : h3.dot w = c := rfl
      simp only [V3.dot_sub, V3.sub_dot, V3.dot_hsmul, V3.hsmul_dot, u3.dot, uw.dot, h1, V3.dot_comm w h3]
      ring
    rw [this, Real.sqrt_mul (by norm_num), Real.sqrt_sq (by norm_num)]
  have hbig : snap ≤ Spec.wristSin h3 w := by
    rw [snap_def, Spec.wristSin]; exact Real.sqrt_le_sqrt hw
  obtain ⟨x', hx', b1, -⟩ := hc (q4 + Real.pi) (q5 + β) hsol
  rw [hv] at b1
  have far : 2 * Spec.wristSin h3 w - snap ≤ ((rot h4 x'.2).mulVec h5 - w).norm := by
    have h1 := V3.norm_add_le ((2 * c) • h3 - w - (rot h4 x'.2).mulVec h5) ((rot h4 x'.2).mulVec h5 - w)
    have h2 : ((2 * c) • h3 - w - (rot h4 x'.2).mulVec h5) + ((rot h4 x'.2).mulVec h5 - w) = (2 * c) • h3 - w - w := by
      generalize (2 * c) • h3 - w = a
      generalize (rot h4 x'.2).mulVec h5 = b
      ext <;> simp
    rw [h2, hdist] at h1
    rw [V3.norm_sub_comm] at b1
    linarith
  have hne : x ≠ x' := by
    rintro rfl
    obtain ⟨n, hn⟩ := x5
    rw [hn, rot_periodic, ← hw', V3.norm_sub_self] at far
    linarith
  have hz' : z = x ∨ z = x' := by
    obtain ⟨a, b, rfl⟩ := List.length_eq_two.1 hlen
    simp only [List.mem_cons, List.not_mem_nil, or_false] at hz hx hx'
    grind
  rcases hz' with rfl | rfl
  · exact .inl ⟨x4, x5⟩
  · right
    intro n
    refine far.trans ?_
    have := rot_chord u4 u5 h45 (z.2 + n * (2 * Real.pi)) q5
    rwa [rot_periodic] at this

/-! ## The spherical wrist search -/

section
variable {h0 h1 h2 h3 h4 h5 P0 P1 P2 P3 P6 p0T : V3 ℝ} {r : Robot ℝ} {last : Option (List ℝ)} {q1 q2 q3 q4 q5 q6 : ℝ}

/-- the first and third entries of a row -/
theorem r6Elbow_shape {N : Normalizer XReal} {h1 h2 h3 h4 h5 P2 P3 p26 : V3 XReal} {R06 R01 : M3 XReal} {x1 x3 : XReal}
    {sols : List (List XReal)} (h : r6Elbow N h1 h2 h3 h4 h5 P2 P3 R06 R01 p26 x1 x3 = .ok sols) {a1 a2 a3 a4 a5 a6 : XReal}
    (hs : [a1, a2, a3, a4, a5, a6] ∈ sols) : x1 = a1 ∧ x3 = a3 := by
  simp only [r6Elbow] at h
  obtain ⟨t2, e2, h⟩ := Except.bind_eq_ok h
  obtain ⟨o2, no2, h⟩ := Except.bind_eq_ok h
  rcases o2 with _ | o2
  · cases h; cases hs
  obtain ⟨Q45, e45, h⟩ := Except.bind_eq_ok h
  obtain ⟨Q45', c45, h⟩ := Except.bind_eq_ok h
  obtain ⟨t, m45, s45, h, hs⟩ := mem_forAppend h hs
  split at h
  · simp only [r6Last] at h
    obtain ⟨o6, e6, h⟩ := Except.bind_eq_ok h
    obtain ⟨o6', no6, h⟩ := Except.bind_eq_ok h
    rcases o6' with _ | o6'
    · cases h; cases hs
    cases h
    rw [List.mem_singleton] at hs
    cases hs
    exact ⟨rfl, rfl⟩
  · cases h

/-- lines 184-222, for the third joint value asked for -/
theorem r6Elbow_gap (u1 : IsUnit3 h1) (u2 : IsUnit3 h2) (u3 : IsUnit3 h3) (u4 : IsUnit3 h4) (u5 : IsUnit3 h5)
    (h34 : h3.dot h4 = 0) (h45 : h4.dot h5 = 0) {R01 : M3 ℝ} (hR01 : IsRot R01)
    (c2 : Spec.clear h1 (P2 + (rot h2 q3).mulVec P3) q2) (c4 : Spec.clear h3 ((rot h4 q5).mulVec h5) q4) (c5 : Spec.clear h4 h5 q5)
    (c6 : Spec.clear h5 h4 q6) (hw : npEps ≤ 1 - h3.dot ((rot h4 q5).mulVec h5) ^ 2)
    {x1 : XReal} {sols : List (List XReal)} {n3 : ℤ} (h6 : IsRot (R01 * rot h1 q2 * rot h2 q3 * (rot h3 q4 * rot h4 q5) * rot h5 q6))
    (h : r6Elbow (upNormalizer r last) h1.up h2.up h3.up h4.up h5.up P2.up P3.up
      (R01 * rot h1 q2 * rot h2 q3 * (rot h3 q4 * rot h4 q5) * rot h5 q6).up R01.up
      ((rot h1 q2).mulVec (P2 + (rot h2 q3).mulVec P3)).up x1 (.fin (q3 + n3 * (2 * Real.pi))) = .ok sols) {s : List XReal} (hs : s ∈ sols) :
    ∃ a2 a4 a5 a6 : ℝ, s = [x1, .fin a2, .fin (q3 + n3 * (2 * Real.pi)), .fin a4, .fin a5, .fin a6] ∧ (∃ n : ℤ, a2 = q2 + n * (2 * Real.pi)) ∧
      (((∃ n : ℤ, a4 = q4 + n * (2 * Real.pi)) ∧ (∃ n : ℤ, a5 = q5 + n * (2 * Real.pi)) ∧ ∃ n : ℤ, a6 = q6 + n * (2 * Real.pi)) ∨
        2 * Spec.wristSin h3 ((rot h4 q5).mulVec h5) - snap ≤ |a5 - q5|) := by
  simp only [r6Elbow, rot_up, rot_periodic, M3.up_mul, M3.up_transpose, M3.up_mulVec, V3.up_add] at h
  obtain ⟨t2, e2, hb2, m2, hn2⟩ := subproblem1_exact u1 c2
  rw [e2, Except.bind_ok] at h
  obtain ⟨o2, no2, h⟩ := Except.bind_eq_ok h
  rcases o2 with _ | o2
  · cases h; cases hs
  obtain ⟨n2, rfl⟩ := upNormalize_one no2
  have ea2 : t2 + n2 * (2 * Real.pi) = q2 + ((m2 + n2 : ℤ) : ℝ) * (2 * Real.pi) := by rw [hn2]; push_cast; ring
  rw [ea2] at h
  simp only [rot_up, rot_periodic, M3.up_mul, M3.up_transpose, M3.up_mulVec] at h
  obtain ⟨Q45, e45, h⟩ := Except.bind_eq_ok h
  obtain ⟨Q45', c45, h⟩ := Except.bind_eq_ok h
  set R03 := R01 * rot h1 q2 * rot h2 q3 with hR03
  have hr03 : IsRot R03 := (hR01.mul (rot_isRot h1 u1 _)).mul (rot_isRot h2 u2 _)
  have hr35 : ∀ a b, IsRot (rot h3 a * rot h4 b) := fun a b => (rot_isRot h3 u3 _).mul (rot_isRot h4 u4 _)
  have e36 : (R03.transpose * (R03 * (rot h3 q4 * rot h4 q5) * rot h5 q6)).mulVec h5 = (rot h3 q4 * rot h4 q5).mulVec h5 := by
    rw [M3.mul_assoc' R03, ← M3.mul_assoc', hr03.orth, M3.one_mul', ← M3.mulVec_mulVec, rot_axis]
  rw [e36] at e45
  obtain ⟨t, m45, s45, h, hs⟩ := mem_forAppend h hs
  obtain ⟨θ45, mθ, n45⟩ := callV_mem c45 m45
  rw [List.mem_map] at mθ
  obtain ⟨y, hy, rfl⟩ := mθ
  obtain ⟨a, b, rfl, hab⟩ := wrist_gap u3 u4 u5 h34 h45 hw c4 c5 e45 hy
  obtain ⟨_, _, n4, n45', rfl⟩ := List.forall₂_cons_left_iff.1 n45
  obtain ⟨_, _, n5, n45'', rfl⟩ := List.forall₂_cons_left_iff.1 n45'
  cases n45''
  obtain ⟨i4, rfl⟩ := normalize_shift n4
  obtain ⟨i5, rfl⟩ := normalize_shift n5
  simp only [r6Last] at h
  obtain ⟨o6, e6, h⟩ := Except.bind_eq_ok h
  simp only [rot_up, rot_periodic, M3.up_mul, M3.up_transpose, M3.up_mulVec] at e6
  obtain ⟨o6', no6, h⟩ := Except.bind_eq_ok h
  rcases o6' with _ | o6'
  · cases h; cases hs
  cases h
  rw [List.mem_singleton] at hs
  subst hs
  obtain ⟨t6, rfl, -⟩ := subproblem1_close u5 e6
  obtain ⟨n6, rfl⟩ := upNormalize_one no6
  refine ⟨_, _, _, _, rfl, ⟨m2 + n2, rfl⟩, ?_⟩
  rcases hab with ⟨⟨m4, w4⟩, ⟨m5, w5⟩⟩ | hab
  · left
    refine ⟨⟨m4 + i4, by rw [w4]; push_cast; ring⟩, ⟨m5 + i5, by rw [w5]; push_cast; ring⟩, ?_⟩
    rw [w4, w5, rot_periodic, rot_periodic, ← M3.mul_assoc', (hr03.mul (hr35 q4 q5)).orth, M3.one_mul'] at e6
    obtain ⟨t, e, -, m, hm⟩ := subproblem1_exact u5 c6
    rw [e] at e6
    cases e6
    exact ⟨m + n6, by rw [hm]; push_cast; ring⟩
  · exact .inr (hab i5)

/-- all entries agree up to whole turns -/
def TurnsApart (a b : List ℝ) : Prop := List.Forall₂ (fun x y => ∃ n : ℤ, x = y + n * (2 * Real.pi)) a b

/-- lines 163-222: every row is the joint vector asked for up to whole turns, or the first, third or fifth joint is at a distance from it -/
theorem r6Search_gap {P4 P5 : V3 XReal} {R06 : M3 ℝ} (u0 : IsUnit3 h0) (s1 : h1 = V3.ey ∨ h1 = -V3.ey) (s2 : h2 = V3.ey ∨ h2 = -V3.ey)
    (u3 : IsUnit3 h3) (u4 : IsUnit3 h4) (u5 : IsUnit3 h5) (h34 : h3.dot h4 = 0) (h45 : h4.dot h5 = 0) {c : ℝ} (hP0 : P0 = c • h0)
    (h0y : V3.ey.dot h0 = 0) (hR : R06 = rot h0 q1 * rot h1 q2 * rot h2 q3 * (rot h3 q4 * rot h4 q5) * rot h5 q6)
    (hp : p0T - R06.mulVec P6 = P0 + (rot h0 q1).mulVec (P1 + (rot h1 q2).mulVec (P2 + (rot h2 q3).mulVec P3)))
    (hoff : h0.cross (P1 + (rot h1 q2).mulVec (P2 + (rot h2 q3).mulVec P3)) ≠ 0)
    (hp3 : h2.cross P3 ≠ 0) (hp2 : h2.cross P2 ≠ 0) (hdir : Spec.dir P3 h2 = Spec.dir P2 h2 ∨ snap ≤ (Spec.dir P3 h2 - Spec.dir P2 h2).norm)
    (c2 : Spec.clear h1 (P2 + (rot h2 q3).mulVec P3) q2) (c4 : Spec.clear h3 ((rot h4 q5).mulVec h5) q4) (c5 : Spec.clear h4 h5 q5)
    (c6 : Spec.clear h5 h4 q6) (hw : npEps ≤ 1 - h3.dot ((rot h4 q5).mulVec h5) ^ 2) {sols : List (List XReal)}
    (h : r6Search [h0.up, h1.up, h2.up, h3.up, h4.up, h5.up] [P0.up, P1.up, P2.up, P3.up, P4, P5, P6.up] (upNormalizer r last)
      R06.up p0T.up = .ok sols) {s : List XReal} (hs : s ∈ sols) :
    ∃ a1 a2 a3 a4 a5 a6 : ℝ, s = [.fin a1, .fin a2, .fin a3, .fin a4, .fin a5, .fin a6] ∧
      (2 * Spec.shoulderSin h0 (P1 + (rot h1 q2).mulVec (P2 + (rot h2 q3).mulVec P3)) ≤ |a1 - q1| ∨
        2 * Spec.elbowSin h2 P2 ((rot h2 q3).mulVec P3) ≤ |a3 - q3| ∨
        2 * Spec.wristSin h3 ((rot h4 q5).mulVec h5) - snap ≤ |a5 - q5| ∨
        TurnsApart [a1, a2, a3, a4, a5, a6] [q1, q2, q3, q4, q5, q6]) := by
  have u1 := pm_unit s1
  have u2 := pm_unit s2
  have hR1 := rot_isRot h0 u0 q1
  have h6 : IsRot R06 := by
    rw [hR]
    exact (((hR1.mul (rot_isRot h1 u1 q2)).mul (rot_isRot h2 u2 q3)).mul ((rot_isRot h3 u3 q4).mul (rot_isRot h4 u4 q5))).mul
      (rot_isRot h5 u5 q6)
  have e2 : V3.ey.dot P0 = 0 := by rw [hP0, V3.dot_hsmul, h0y, mul_zero]
  obtain ⟨b1, b2, b3, b4, b5, b6, hsb, -⟩ := r6Search_sound (r := r) u0 s1 s2 u3 u4 u5 h34 h45 hP0 e2 h6 h hs
  set g := (rot h1 q2).mulVec (P2 + (rot h2 q3).mulVec P3) with hg
  set w := P0 + P1 + g with hw0
  have hv : p0T - R06.mulVec P6 = (rot h0 q1).mulVec w := by
    rw [hp, hw0, M3.mulVec_add (rot h0 q1) (P0 + P1), M3.mulVec_add (rot h0 q1) P0, M3.mulVec_add (rot h0 q1) P1, hP0, rot_hsmul_axis]
    generalize (rot h0 q1).mulVec P1 = a
    generalize (rot h0 q1).mulVec g = b
    ext <;> simp <;> ring
  have hd : V3.ey.dot (P1 + P2 + P3) = V3.ey.dot w := by
    have e1 : V3.ey.dot g = V3.ey.dot P2 + V3.ey.dot P3 := by
      rw [hg, ey_rot_pm s1, V3.dot_add, ey_rot_pm s2]
    rw [hw0, V3.dot_add, V3.dot_add, V3.dot_add, V3.dot_add, e1, e2]; ring
  have hcw : h0.cross w = h0.cross (P1 + g) := by
    rw [hw0, hP0]; ext <;> simp <;> ring
  simp only [r6Search, V3.up_ey, V3.up_add, V3.up_dot, M3.up_mulVec, V3.up_sub, V3.up_neg] at h
  obtain ⟨Q1, c1, h⟩ := Except.bind_eq_ok h
  obtain ⟨x1, m1, sl1, h, hs⟩ := mem_forAppend h hs
  obtain ⟨θ1, mθ1, n1⟩ := callS_mem c1 m1
  simp only [r6Shoulder] at h
  obtain ⟨Q3, e3, h⟩ := Except.bind_eq_ok h
  obtain ⟨Q3', c3, h⟩ := Except.bind_eq_ok h
  obtain ⟨x3, m3, sl3, hE, hsE⟩ := mem_forAppend h hs
  obtain ⟨θ3, mθ3, n3⟩ := callS_mem c3 m3
  obtain ⟨hb1, hb3⟩ : x1 = .fin b1 ∧ x3 = .fin b3 := by
    subst hsb
    exact r6Elbow_shape hE hsE
  subst hb1 hb3
  refine ⟨b1, b2, b3, b4, b5, b6, hsb, ?_⟩
  rcases subproblem4_mem mθ1 with rfl | ⟨t1, rfl, ht1⟩
  · exact absurd (normalize_nan n1) (by simp)
  obtain ⟨i1, hi1⟩ := normalize_shift n1
  simp only [XReal.fin.injEq] at hi1
  have hd1 : V3.ey.dot ((rot h0 b1).transpose.mulVec ((rot h0 q1).mulVec w)) = V3.ey.dot w := by
    rw [hi1, rot_periodic, ← hv, ← hd]; exact shoulder_eq ht1
  rcases shoulder_gap u0 h0y (by rw [hcw]; exact hoff) hd1 with ⟨k1, hk1⟩ | hk1
  swap
  · left
    rwa [Spec.shoulderSin, hcw] at hk1
  right
  rw [hk1] at hE e3
  simp only [rot_up, rot_periodic, M3.up_transpose, M3.up_mulVec, V3.up_add, V3.up_sub, V3.up_norm] at hE e3
  have e26 : (rot h0 q1).transpose.mulVec (p0T - R06.mulVec P6) - (P0 + P1) = g := by
    rw [hv, hR1.transpose_mulVec_mulVec, hw0]; ext <;> simp
  rw [e26] at hE e3
  obtain ⟨ts, e, -, -, -, hc⟩ := C25_subproblem3_partial P3 P2 h2 g.norm u2 hp3 hp2 (V3.norm_nonneg _)
  rw [e] at e3; cases e3
  obtain ⟨t3, mt3, rfl⟩ := List.mem_map.1 mθ3
  obtain ⟨i3, hi3⟩ := normalize_shift n3
  simp only [XReal.fin.injEq] at hi3
  have hel := (hc hdir).1 t3 mt3
  rcases elbow_gap (a := b3) (q := q3) u2 hp2 hp3 (by
      rw [hi3, rot_periodic, hel, hg, (rot_isRot h1 u1 q2).norm_mulVec]) with ⟨k3, hk3⟩ | hk3
  swap
  · exact .inl hk3
  right
  rw [hk3, hR] at hE
  rw [hR] at h6
  obtain ⟨a2, a4, a5, a6, rfl, w2, hw6⟩ := r6Elbow_gap u1 u2 u3 u4 u5 h34 h45 hR1 c2 c4 c5 c6 hw h6 hE hsE
  simp only [List.cons.injEq, XReal.fin.injEq, and_true] at hsb
  obtain ⟨-, rfl, -, rfl, rfl, rfl⟩ := hsb
  rcases hw6 with ⟨w4, w5, w6⟩ | hw6
  · right
    exact .cons ⟨k1, hk1⟩ (.cons w2 (.cons ⟨k3, hk3⟩ (.cons w4 (.cons w5 (.cons w6 .nil)))))
  · exact .inl hw6
end

/-! ## The search for UR arms -/

section
variable {k P0 P1 P2 P3 P4 P5 P6 p0T : V3 ℝ} {r : Robot ℝ} {last : Option (List ℝ)} {q1 q2 q3 q4 q5 q6 : ℝ}

/-- lines 291-320, for the values of joints 1, 3 and 5 asked for -/
theorem urElbow_gap (s : k = V3.ey ∨ k = -V3.ey) {R01 : M3 ℝ} (hR01 : IsRot R01)
    (c2 : Spec.clear k (P2 + (rot k q3).mulVec P3) q2) (c6 : Spec.clear k (-V3.ez) q6) {x1 : XReal} {t24 t5 : ℝ} {n24 n3 n5 : ℤ}
    (e24 : t24 = q2 + q3 + q4 + n24 * (2 * Real.pi)) (e5 : t5 = q5 + n5 * (2 * Real.pi))
    {v : V3 ℝ} (hv : R01.transpose.mulVec v = (rot k q2).mulVec (P2 + (rot k q3).mulVec P3)) {sols : List (List XReal)}
    (h : urElbow (upNormalizer r last) k.up k.up (-V3.ez : V3 ℝ).up k.up P2.up P3.up
      (R01 * rot k (q2 + q3 + q4) * rot (-V3.ez) q5 * rot k q6).up R01.up (R01 * rot k t24).up v.up x1 (.fin t24) (.fin t5)
      (.fin (q3 + n3 * (2 * Real.pi))) = .ok sols) {t : List XReal} (hs : t ∈ sols) :
    ∃ a2 a4 a6 : ℝ, t = [x1, .fin a2, .fin (q3 + n3 * (2 * Real.pi)), .fin a4, .fin t5, .fin a6] ∧ (∃ n : ℤ, a2 = q2 + n * (2 * Real.pi)) ∧
      (∃ n : ℤ, a4 = q4 + n * (2 * Real.pi)) ∧ ∃ n : ℤ, a6 = q6 + n * (2 * Real.pi) := by
  have u := pm_unit s
  simp only [urElbow, rot_up, rot_periodic, M3.up_mul, M3.up_transpose, M3.up_mulVec, V3.up_add] at h
  obtain ⟨t2, e2, hb2, m2, hn2⟩ := subproblem1_exact u c2
  rw [hv, e2, Except.bind_ok] at h
  obtain ⟨o2, no2, h⟩ := Except.bind_eq_ok h
  rcases o2 with _ | o2
  · cases h; cases hs
  obtain ⟨n2, rfl⟩ := upNormalize_one no2
  simp only [XReal.fin_sub] at h
  obtain ⟨o4, no4, h⟩ := Except.bind_eq_ok h
  rcases o4 with _ | o4
  · cases h; cases hs
  obtain ⟨n4, rfl⟩ := upNormalize_one no4
  have er : rot k t24 = rot k (q2 + q3 + q4) := by rw [e24, rot_periodic]
  have er5 : rot (-V3.ez : V3 ℝ) t5 = rot (-V3.ez) q5 := by rw [e5, rot_periodic]
  rw [er, er5] at h
  have hR05 : IsRot (R01 * rot k (q2 + q3 + q4) * rot (-V3.ez) q5) := (hR01.mul (rot_isRot k u _)).mul (rot_isRot _ nez_unit _)
  rw [← M3.mul_assoc', hR05.orth, M3.one_mul'] at h
  obtain ⟨t6, e6, -, m6, hn6⟩ := subproblem1_exact u c6
  dsimp only at h
  rw [e6, Except.bind_ok] at h
  obtain ⟨o6, no6, h⟩ := Except.bind_eq_ok h
  rcases o6 with _ | o6
  · cases h; cases hs
  obtain ⟨n6, rfl⟩ := upNormalize_one no6
  cases h
  rw [List.mem_singleton] at hs
  refine ⟨_, _, _, hs, ⟨m2 + n2, by rw [hn2]; push_cast; ring⟩, ⟨n24 - m2 - n2 - n3 + n4, by rw [e24, hn2]; push_cast; ring⟩,
    ⟨m6 + n6, by rw [hn6]; push_cast; ring⟩⟩

/-- the entries of a row that are already fixed -/
theorem urElbow_shape {N : Normalizer XReal} {h1 h2 h4 h5 P2 P3 p : V3 XReal} {R06 R01 R04 : M3 XReal} {x1 x24 x5 x3 : XReal}
    {sols : List (List XReal)} (h : urElbow N h1 h2 h4 h5 P2 P3 R06 R01 R04 p x1 x24 x5 x3 = .ok sols) {a1 a2 a3 a4 a5 a6 : XReal}
    (hs : [a1, a2, a3, a4, a5, a6] ∈ sols) : x1 = a1 ∧ x3 = a3 ∧ x5 = a5 := by
  simp only [urElbow] at h
  obtain ⟨t2, e2, h⟩ := Except.bind_eq_ok h
  obtain ⟨o2, no2, h⟩ := Except.bind_eq_ok h
  rcases o2 with _ | o2
  · cases h; cases hs
  obtain ⟨o4, no4, h⟩ := Except.bind_eq_ok h
  rcases o4 with _ | o4
  · cases h; cases hs
  obtain ⟨t6, e6, h⟩ := Except.bind_eq_ok h
  obtain ⟨o6, no6, h⟩ := Except.bind_eq_ok h
  rcases o6 with _ | o6
  · cases h; cases hs
  cases h
  rw [List.mem_singleton] at hs
  cases hs
  exact ⟨rfl, rfl, rfl⟩

/-- lines 261-320: every row is the joint vector asked for up to whole turns, or the first, third or fifth joint is at a distance from it -/
theorem urSearch_gap {R06 : M3 ℝ} (s : k = V3.ey ∨ k = -V3.ey) {c : ℝ} (hP0 : P0 = c • V3.ez)
    (hR : R06 = rot V3.ez q1 * rot k (q2 + q3 + q4) * rot (-V3.ez) q5 * rot k q6)
    (hp : p0T - R06.mulVec (P6 + P5) = P0 + (rot V3.ez q1).mulVec (P1 + (rot k q2).mulVec (P2 + (rot k q3).mulVec (P3 + (rot k q4).mulVec P4))))
    (hoff : V3.ez.cross (P1 + (rot k q2).mulVec (P2 + (rot k q3).mulVec (P3 + (rot k q4).mulVec P4))) ≠ 0)
    (hp3 : k.cross P3 ≠ 0) (hp2 : k.cross P2 ≠ 0) (hdir : Spec.dir P3 k = Spec.dir P2 k ∨ snap ≤ (Spec.dir P3 k - Spec.dir P2 k).norm)
    (hw : npEps ≤ 1 - k.dot ((rot (-V3.ez) q5).mulVec k) ^ 2)
    (c2 : Spec.clear k (P2 + (rot k q3).mulVec P3) q2) (c24 : Spec.clear k ((rot (-V3.ez) q5).mulVec k) (q2 + q3 + q4))
    (c5 : Spec.clear (-V3.ez) k q5) (c6 : Spec.clear k (-V3.ez) q6) {sols : List (List XReal)}
    (h : urSearch [V3.ez.up, k.up, k.up, k.up, (-V3.ez : V3 ℝ).up, k.up] [P0.up, P1.up, P2.up, P3.up, P4.up, P5.up, P6.up]
      (upNormalizer r last) R06.up p0T.up = .ok sols) {t : List XReal} (hs : t ∈ sols) :
    ∃ a1 a2 a3 a4 a5 a6 : ℝ, t = [.fin a1, .fin a2, .fin a3, .fin a4, .fin a5, .fin a6] ∧
      (2 * Spec.shoulderSin V3.ez (P1 + (rot k q2).mulVec (P2 + (rot k q3).mulVec (P3 + (rot k q4).mulVec P4))) ≤ |a1 - q1| ∨
        2 * Spec.wristSin k ((rot (-V3.ez) q5).mulVec k) - snap ≤ |a5 - q5| ∨
        2 * Spec.elbowSin k P2 ((rot k q3).mulVec P3) ≤ |a3 - q3| ∨
        TurnsApart [a1, a2, a3, a4, a5, a6] [q1, q2, q3, q4, q5, q6]) := by
  have u := pm_unit s
  have hR01 := rot_isRot V3.ez ez_unit q1
  have h6 : IsRot R06 := by
    rw [hR]
    exact ((hR01.mul (rot_isRot k u _)).mul (rot_isRot _ nez_unit q5)).mul (rot_isRot k u q6)
  obtain ⟨b1, b2, b3, b4, b5, b6, hsb, -⟩ := urSearch_sound (r := r) s hP0 h6 h hs
  set g := (rot k q2).mulVec (P2 + (rot k q3).mulVec (P3 + (rot k q4).mulVec P4)) with hg
  set w := P0 + P1 + g with hw0
  have hv0 : p0T - R06.mulVec (P6 + P5) = (rot V3.ez q1).mulVec w := by
    rw [hp, hw0, M3.mulVec_add _ (P0 + P1), M3.mulVec_add _ P0, M3.mulVec_add _ P1, hP0, rot_hsmul_axis]
    generalize (rot V3.ez q1).mulVec P1 = a
    generalize (rot V3.ez q1).mulVec g = b
    ext <;> simp <;> ring
  have hd : V3.ey.dot (P1 + P2 + P3 + P4) = V3.ey.dot w := by
    have e2 : V3.ey.dot P0 = 0 := by rw [hP0]; simp [V3.dot]
    rw [hw0, hg, V3.dot_add _ (P0 + P1), V3.dot_add _ P0, ey_rot_pm s, V3.dot_add _ P2, ey_rot_pm s, V3.dot_add _ P3, ey_rot_pm s, e2]
    simp only [V3.dot_add]; ring
  have hcw : V3.ez.cross w = V3.ez.cross (P1 + g) := by
    rw [hw0, hP0]; ext <;> simp
  simp only [urSearch, V3.up_ey, V3.up_add, V3.up_dot, M3.up_mulVec, V3.up_sub, V3.up_neg] at h
  obtain ⟨Q1, c1, h⟩ := Except.bind_eq_ok h
  obtain ⟨x1, m1, sl1, h, hs⟩ := mem_forAppend h hs
  obtain ⟨θ1, mθ1, n1⟩ := callS_mem c1 m1
  simp only [urShoulder] at h
  obtain ⟨Q, eQ, h⟩ := Except.bind_eq_ok h
  obtain ⟨⟨x24, x5⟩, mQ, sl2, h, hs⟩ := mem_forAppend h hs
  simp only [urWrist] at h
  obtain ⟨Q3, e3, h⟩ := Except.bind_eq_ok h
  obtain ⟨Q3', c3, h⟩ := Except.bind_eq_ok h
  obtain ⟨x3, m3, sl3, hE, hsE⟩ := mem_forAppend h hs
  obtain ⟨θ3, mθ3, n3⟩ := callS_mem c3 m3
  obtain ⟨hb1, hb3, hb5⟩ : x1 = .fin b1 ∧ x3 = .fin b3 ∧ x5 = .fin b5 := by
    subst hsb
    exact urElbow_shape hE hsE
  subst hb1 hb3 hb5
  refine ⟨b1, b2, b3, b4, b5, b6, hsb, ?_⟩
  rcases subproblem4_mem mθ1 with rfl | ⟨t1, rfl, ht1⟩
  · exact absurd (normalize_nan n1) (by simp)
  obtain ⟨i1, hi1⟩ := normalize_shift n1
  simp only [XReal.fin.injEq] at hi1
  have hd1 : V3.ey.dot ((rot V3.ez b1).transpose.mulVec ((rot V3.ez q1).mulVec w)) = V3.ey.dot w := by
    rw [hi1, rot_periodic, ← hv0, ← hd]; exact shoulder_eq ht1
  rcases shoulder_gap ez_unit (by simp [V3.dot]) (by rw [hcw]; exact hoff) hd1 with ⟨k1, hk1⟩ | hk1
  swap
  · left
    rwa [Spec.shoulderSin, hcw] at hk1
  right
  rw [hk1] at hE e3 eQ
  simp only [rot_up, rot_periodic, M3.up_transpose, M3.up_mul, M3.up_mulVec] at eQ
  have e16 : ((rot V3.ez q1).transpose * R06).mulVec k = (rot k (q2 + q3 + q4) * rot (-V3.ez) q5).mulVec k := by
    rw [hR]
    simp only [M3.mul_assoc']
    rw [← M3.mul_assoc' (rot V3.ez q1).transpose, hR01.orth, M3.one_mul', ← M3.mul_assoc', ← M3.mulVec_mulVec, rot_axis]
  rw [e16] at eQ
  obtain ⟨t24, t5, e', hgap⟩ := wrist_gap u nez_unit u (by rcases s with rfl | rfl <;> simp [V3.dot])
    (by rcases s with rfl | rfl <;> simp [V3.dot]) hw c24 c5 eQ mQ
  simp only [Prod.mk.injEq, XReal.fin.injEq] at e'
  obtain ⟨rfl, rfl⟩ := e'
  rcases hgap with ⟨⟨n24, w24⟩, ⟨n5, w5⟩⟩ | hgap
  swap
  · left
    simpa using hgap 0
  right
  have er : rot k t24 = rot k (q2 + q3 + q4) := by rw [w24, rot_periodic]
  simp only [rot_up, rot_periodic, M3.up_transpose, M3.up_mul, M3.up_mulVec, V3.up_sub, V3.up_norm] at hE e3
  set v := p0T - R06.mulVec (P6 + P5) - P0 - (rot V3.ez q1).mulVec P1 - (rot V3.ez q1 * rot k t24).mulVec P4 with hv
  set g' := (rot k q2).mulVec (P2 + (rot k q3).mulVec P3) with hg'
  have ev : v = (rot V3.ez q1).mulVec g' := by
    rw [hv, hp, hg, hg', er, ← rot_add3 u]
    simp only [M3.mulVec_add, M3.mulVec_mulVec, M3.mul_assoc']
    generalize (rot V3.ez q1).mulVec P1 = a1
    generalize (rot V3.ez q1 * rot k q2).mulVec P2 = a2
    generalize (rot V3.ez q1 * (rot k q2 * rot k q3)).mulVec P3 = a3
    generalize (rot V3.ez q1 * (rot k q2 * (rot k q3 * rot k q4))).mulVec P4 = a4
    ext <;> simp <;> ring
  have hvg : (rot V3.ez q1).transpose.mulVec v = g' := by rw [ev, hR01.transpose_mulVec_mulVec]
  have hn : v.norm = g'.norm := by rw [ev, hR01.norm_mulVec]
  rw [hn] at e3
  obtain ⟨ts, e, -, -, -, hc⟩ := C25_subproblem3_partial P3 P2 k g'.norm u hp3 hp2 (V3.norm_nonneg _)
  rw [e] at e3; cases e3
  obtain ⟨t3, mt3, rfl⟩ := List.mem_map.1 mθ3
  obtain ⟨i3, hi3⟩ := normalize_shift n3
  simp only [XReal.fin.injEq] at hi3
  have hel := (hc hdir).1 t3 mt3
  rcases elbow_gap (a := b3) (q := q3) u hp2 hp3 (by
      rw [hi3, rot_periodic, hel, hg', (rot_isRot k u q2).norm_mulVec]) with ⟨k3, hk3⟩ | hk3
  swap
  · exact .inl hk3
  right
  rw [hk3, hR] at hE
  obtain ⟨a2, a4, a6, rfl, w2, w4, w6⟩ := urElbow_gap s hR01 c2 c6 w24 w5 hvg hE hsE
  simp only [List.cons.injEq, XReal.fin.injEq, and_true] at hsb
  obtain ⟨-, rfl, -, rfl, -, rfl⟩ := hsb
  exact .cons ⟨k1, hk1⟩ (.cons w2 (.cons ⟨k3, hk3⟩ (.cons w4 (.cons ⟨n5, w5⟩ (.cons w6 .nil)))))
end

/-! ## The closest row -/

theorem sqSum_nonneg : ∀ a b : List ℝ, 0 ≤ (a.zipWith (fun x y => (x - y) ^ 2) b).sum := by
  intro a
  induction a with
  | nil => intro b; simp
  | cons x a ih =>
    intro b
    cases b with
    | nil => simp
    | cons y b => simp only [List.zipWith_cons_cons, List.sum_cons]; nlinarith [ih b, sq_nonneg (x - y)]

theorem abs_le_dist {a b : List ℝ} {j : Nat} {x y : ℝ} (ha : a[j]? = some x) (hb : b[j]? = some y) : |x - y| ≤ Spec.dist a b := by
  have key : ∀ (a b : List ℝ) (j : Nat), a[j]? = some x → b[j]? = some y → (x - y) ^ 2 ≤ (a.zipWith (fun x y => (x - y) ^ 2) b).sum := by
    intro a
    induction a with
    | nil => intro b j h; simp at h
    | cons c a ih =>
      intro b j h1 h2
      cases b with
      | nil => simp at h2
      | cons d b =>
        simp only [List.zipWith_cons_cons, List.sum_cons]
        cases j with
        | zero =>
          simp only [List.getElem?_cons_zero, Option.some.injEq] at h1 h2
          subst h1 h2
          linarith [sqSum_nonneg a b]
        | succ j =>
          simp only [List.getElem?_cons_succ] at h1 h2
          linarith [ih b j h1 h2, sq_nonneg (c - d)]
  rw [Spec.dist, ← Real.sqrt_sq_eq_abs]
  exact Real.sqrt_le_sqrt (key a b j ha hb)

/-- a row comes first if every other row is far from it in some entry, compared with its distance to the last joint values -/
theorem sortByLast_nearest {rows sols : List (List XReal)} {l θ : List ℝ} (hlen : θ.length = l.length)
    (h : sortByLast rows (some (l.map .fin)) = .ok sols)
    (hf : ∀ s ∈ rows, ∃ a : List ℝ, s = a.map .fin ∧ a.length = l.length ∧
      (a = θ ∨ ∃ (j : Nat) (x y : ℝ), a[j]? = some x ∧ θ[j]? = some y ∧ 2 * Spec.dist θ l < |x - y|)) (hm : θ.map .fin ∈ rows) :
    sols.head? = some (θ.map .fin) := by
  have hp := sortByLast_mem h
  have hs := sortByLast_sorted h
  rcases sols with _ | ⟨s, sols⟩
  · exact absurd (hp.mem_iff.2 hm) (by simp)
  obtain ⟨a, rfl, ha, rfl | ⟨j, x, y, hx, hy, hd⟩⟩ := hf s (hp.mem_iff.1 (by simp))
  · rfl
  rcases List.mem_cons.1 (hp.mem_iff.2 hm) with e | e
  · rw [e]; rfl
  · have hle := C34_first_closest _ _ _ hs _ e a θ l rfl rfl rfl ha hlen
    obtain ⟨z, hz⟩ : ∃ z, l[j]? = some z := by
      obtain ⟨hj, -⟩ := List.getElem?_eq_some_iff.1 hy
      exact ⟨l[j]'(hlen ▸ hj), List.getElem?_eq_getElem _⟩
    have h1 := abs_le_dist hx hz
    have h2 := abs_le_dist hy hz
    have h3 := abs_sub_le x z y
    rw [abs_sub_comm z y] at h3
    linarith

/-- joint values up to whole turns are the same, or a whole turn apart somewhere -/
theorem TurnsApart.eq_or {a b : List ℝ} (h : TurnsApart a b) :
    a = b ∨ ∃ (j : Nat) (x y : ℝ), a[j]? = some x ∧ b[j]? = some y ∧ 2 * Real.pi ≤ |x - y| := by
  have hpi := Real.pi_pos
  unfold TurnsApart at h
  induction h with
  | nil => exact .inl rfl
  | @cons x y a b hxy _ ih =>
    obtain ⟨n, rfl⟩ := hxy
    by_cases hn : n = 0
    · subst hn
      rcases ih with rfl | ⟨j, u, v, h1, h2, h3⟩
      · left; simp
      · exact .inr ⟨j + 1, u, v, by simpa using h1, by simpa using h2, h3⟩
    · refine .inr ⟨0, _, _, rfl, rfl, ?_⟩
      rw [add_sub_cancel_left, abs_mul, abs_of_pos (by linarith : (0 : ℝ) < 2 * Real.pi)]
      have : (1 : ℝ) ≤ |(n : ℝ)| := by exact_mod_cast Int.one_le_abs hn
      nlinarith

theorem wristSin_le (a b : V3 ℝ) : Spec.wristSin a b ≤ 1 := by
  exact Real.sqrt_le_one.2 (by nlinarith [sq_nonneg (a.dot b)])
