import Verif.Lemmas.R2rot

/-!
# Properties C03, C04: recovering axis and angle

`R2rot` divides and takes square roots, so the statements are about its `XReal` instance: `R.up` is the array
with the finite entries of the real matrix `R`, and a result `k.up`, `.fin θ` is free of NaN and infinities.
-/
set_option autoImplicit false

open R2rotL

/-! ## C03 -/

/-- C03: for a rotation whose angle (given by `cos θ = (tr R - 1)/2`) has sine at least `1e-6`, `R2rot` returns a
unit axis and an angle in `(0, π)` that reproduce `R` exactly. -/
theorem C03_R2rot_regular (R : M3 ℝ) (h : IsRot R)
    (hsin : 1/1000000 ≤ Real.sqrt (1 - ((R.trace - 1) / 2) ^ 2)) :
    ∃ (k : V3 ℝ) (θ : ℝ), R2rot R.up = (.array k.up, .fin θ) ∧ IsUnit3 k ∧ 0 < θ ∧ θ < Real.pi ∧
      rot k θ = R := by
  have h1 := s_sq_add_c_sq h
  have hs : s R = Real.sqrt (1 - ((R.trace - 1) / 2) ^ 2) := by
    rw [eq_comm, Real.sqrt_eq_iff_mul_self_eq_of_pos]
    · unfold c at h1; linarith
    · refine lt_of_le_of_ne (s_nonneg R) ?_
      intro e
      rw [← e] at h1
      have : (1 - ((R.trace - 1) / 2) ^ 2) = 0 := by unfold c at h1; linarith
      rw [this] at hsin; simp at hsin; linarith
  rw [← hs] at hsin
  have hpos : 0 < s R := by linarith
  obtain ⟨hu, hr⟩ := regular h hpos.ne'
  obtain ⟨ha, hb⟩ := arg_mem R hpos
  exact ⟨_, _, eval_regular R hsin, hu, ha, hb, hr⟩

/-- C03: `R2rot(rot(k, θ)) = (k, θ)` for every unit axis and every angle in `(0, π)` with sine at least `1e-6`. -/
theorem C03_R2rot_rot (k : V3 ℝ) (hk : IsUnit3 k) (θ : ℝ) (h0 : 0 < θ) (h1 : θ < Real.pi)
    (hsin : 1/1000000 ≤ Real.sin θ) : R2rot (rot k θ).up = (.array k.up, .fin θ) := by
  have hR := rot_isRot k hk θ
  have hc : c (rot k θ) = Real.cos θ := by
    unfold IsUnit3 at hk
    simp [c, M3.trace, rot]; grind
  have hpos : 0 < Real.sin θ := Real.sin_pos_of_pos_of_lt_pi h0 h1
  have hs : s (rot k θ) = Real.sin θ := by
    have h2 := s_sq_add_c_sq hR
    rw [hc] at h2
    have h3 := Real.sin_sq_add_cos_sq θ
    have h4 : s (rot k θ) ^ 2 = Real.sin θ ^ 2 := by linarith
    exact (pow_left_inj₀ (s_nonneg _) hpos.le two_ne_zero).1 h4
  rw [eval_regular _ (by rw [hs]; exact hsin), hc, hs]
  have e1 : Complex.arg ⟨Real.cos θ, Real.sin θ⟩ = θ := by
    have := arg_polar one_pos (θ := θ) (by linarith) h1.le
    simpa using this
  rw [e1]
  congr 3
  ext <;> simp [invhat, rot] <;> field_simp <;> ring

-- the hypotheses are satisfiable: a quarter turn about an oblique axis
example : IsUnit3 ⟨3/5, 0, 4/5⟩ ∧ 0 < Real.pi / 2 ∧ Real.pi / 2 < Real.pi ∧ 1/1000000 ≤ Real.sin (Real.pi / 2) := by
  refine ⟨by norm_num [IsUnit3], by positivity, by linarith [Real.pi_pos], by rw [Real.sin_pi_div_two]; norm_num⟩

example : IsRot (rot ⟨3/5, 0, 4/5⟩ (Real.pi / 2)) ∧
    1/1000000 ≤ Real.sqrt (1 - (((rot ⟨3/5, 0, 4/5⟩ (Real.pi / 2)).trace - 1) / 2) ^ 2) := by
  refine ⟨rot_isRot _ (by norm_num [IsUnit3]) _, ?_⟩
  have : (rot ⟨3/5, 0, 4/5⟩ (Real.pi / 2)).trace = 1 := by simp [M3.trace, rot]; norm_num
  rw [this]; norm_num

/-! ## C04

Full claim: for every rotation in the singular band (`sin θ < 1e-6`) the returned pair reproduces `R` up to the band
tolerance.  True near the identity and, at exactly π, when the axis has a first component above `1e-6`; false
otherwise: line 119 recovers the sign of the third component from `B[0,2]`, which vanishes together with the first
component, instead of `B[1,2]`. -/

/-- C04 near the identity: the answer is `([0,0,1], 0)`, and `R` is within `2e-6` (Frobenius) of that rotation. -/
theorem C04_R2rot_near_identity (R : M3 ℝ) (h : IsRot R)
    (hsin : Real.sqrt (1 - ((R.trace - 1) / 2) ^ 2) < 1/1000000) (htr : 1 < R.trace) :
    R2rot R.up = (.list V3.ez.up, .fin 0) ∧ (R - rot V3.ez 0).frob ≤ 2 / 1000000 := by
  have h1 := s_sq_add_c_sq h
  have hc : 0 < c R := by unfold c; linarith
  have hs : s R < 1/1000000 := by
    have : s R = Real.sqrt (1 - ((R.trace - 1) / 2) ^ 2) := by
      rw [← Real.sqrt_mul_self (s_nonneg R)]; congr 1; unfold c at h1; linarith
    rw [this]; exact hsin
  refine ⟨by rw [eval_band R hs, if_pos hc], ?_⟩
  obtain ⟨k1, k2, k3, -, -, -⟩ := h.colEqs
  have hf : (R - rot V3.ez 0).frob = Real.sqrt (4 * (1 - c R)) := by
    unfold M3.frob
    simp only [sqrt_real, rot_zero]
    congr 1
    unfold c; simp [M3.trace]; linarith
  rw [hf, Real.sqrt_le_left (by norm_num)]
  have h2 := s_nonneg R
  have h3 : 1 - c R ≤ s R * s R := by nlinarith
  nlinarith

/-- C04 at exactly π, true part.  Missing for the full claim: axes with `k_x² ≤ 1e-12` (where the claim is false, see
`C04_R2rot_false`) and rotations inside the band that are not exactly symmetric. -/
theorem C04_R2rot_pi_partial (R : M3 ℝ) (h : IsRot R) (hsym : R.transpose = R) (hne : R.trace ≤ 1)
    (hx : (1/1000000) ^ 2 < (R.a00 + 1) / 2) :
    ∃ k : V3 ℝ, R2rot R.up = (.array k.up, .fin Real.pi) ∧ IsUnit3 k ∧ rot k Real.pi = R := by
  have hc : c R ≤ 0 := by unfold c; linarith
  have htr := exact_pi h hsym hc
  have hs0 : s R < 1/1000000 := by
    have := s_sq R
    simp [M3.ext_iff] at hsym
    obtain ⟨e1, e2, -, e3, -, -⟩ := hsym
    have h4 : s R * s R = 0 := by nlinarith
    rw [mul_self_eq_zero.1 h4]; norm_num
  simp only [M3.trace] at htr
  simp [M3.ext_iff] at hsym
  obtain ⟨e1, e2, -, e3, -, -⟩ := hsym
  obtain ⟨c1, c2, c3, c4, c5, c6, c7, c8, c9⟩ := h.cof
  obtain ⟨r1, r2, r3, r4, r5, r6⟩ := h.rowEqs
  set u := Real.sqrt ((R.a00 + 1) / 2) with hu
  have hupos : 1/1000000 < u := by rw [hu]; exact Real.lt_sqrt_of_sq_lt hx
  have hu0 : u ≠ 0 := by linarith
  have husq : u * u = (R.a00 + 1) / 2 := Real.mul_self_sqrt (by linarith [sq_nonneg ((1:ℝ)/1000000)])
  have q11 : (R.a11 + 1) / 2 = (R.a01 / 2 / u) ^ 2 := by field_simp; grind
  have q22 : (R.a22 + 1) / 2 = (R.a02 / 2 / u) ^ 2 := by field_simp; grind
  refine ⟨⟨u, R.a01 / 2 / u, R.a02 / 2 / u⟩, ?_, ?_, ?_⟩
  · rw [eval_band R hs0, if_neg (not_lt.2 hc)]
    have b00 : (M3.smul (1/2) (R + 1)).a00 = (R.a00 + 1) / 2 := by simp; ring
    have b11 : (M3.smul (1/2) (R + 1)).a11 = (R.a11 + 1) / 2 := by simp; ring
    have b22 : (M3.smul (1/2) (R + 1)).a22 = (R.a22 + 1) / 2 := by simp; ring
    have b01 : (M3.smul (1/2) (R + 1)).a01 = R.a01 / 2 := by simp; ring
    have b02 : (M3.smul (1/2) (R + 1)).a02 = R.a02 / 2 := by simp; ring
    simp only [b00, b11, b22, b01, b02]
    rw [XReal.sqrt_fin (a := (R.a00 + 1) / 2) (by nlinarith), ← hu, q11, q22, XReal.sqrt_fin (sq_nonneg _),
      XReal.sqrt_fin (sq_nonneg _), Real.sqrt_sq_eq_abs, Real.sqrt_sq_eq_abs]
    rw [if_pos (by simp; rw [abs_of_pos (by linarith)]; linarith)]
    rw [XReal.fin_div _ hu0, XReal.fin_div _ hu0, XReal.sign_fin, XReal.sign_fin, XReal.fin_mul, XReal.fin_mul,
      abs_mul_sign, abs_mul_sign]
    rfl
  · simp only [IsUnit3]; field_simp; grind
  · apply outer_eq_rot_pi
    · simp only [IsUnit3]; field_simp; grind
    · ext <;> simp [M3.outer] <;> field_simp <;> grind

-- a half turn about the oblique axis (3/5, 4/5, 0)
example : ∃ R : M3 ℝ, IsRot R ∧ R.transpose = R ∧ R.trace ≤ 1 ∧ (1/1000000) ^ 2 < (R.a00 + 1) / 2 := by
  refine ⟨⟨-7/25, 24/25, 0, 24/25, 7/25, 0, 0, 0, -1⟩, ⟨?_, ?_⟩, ?_, ?_, ?_⟩
  · ext <;> norm_num
  · norm_num [M3.det]
  · ext <;> simp
  · norm_num [M3.trace]
  · norm_num

/-- C04, what the code does for every half turn about an axis in the y-z plane: the third component is lost. -/
theorem C04_R2rot_yz_plane (k : V3 ℝ) (hk : IsUnit3 k) (hx : k.x = 0) (hy : 1/1000000 < |k.y|) :
    R2rot (rot k Real.pi).up = (.array (V3.up ⟨0, |k.y|, 0⟩), .fin Real.pi) := by
  have hR := rot_isRot k hk Real.pi
  have hentries : rot k Real.pi = ⟨-1, 0, 0, 0, 2 * k.y ^ 2 - 1, 2 * k.y * k.z, 0, 2 * k.y * k.z, 2 * k.z ^ 2 - 1⟩ := by
    unfold IsUnit3 at hk
    ext <;> simp [rot, hx] <;> grind
  set R := rot k Real.pi with hRdef
  have hs0 : s R < 1/1000000 := by
    have := s_sq R
    rw [hentries] at this ⊢
    simp at this
    rw [this]; norm_num
  have hc : ¬ 0 < c R := by
    unfold IsUnit3 at hk
    unfold c; rw [hentries]; simp [M3.trace]; nlinarith
  rw [eval_band R hs0, if_neg hc, hentries]
  have b00 : (1:ℝ)/2 * (-1 + 1) = 0 := by norm_num
  have b11 : (1:ℝ)/2 * (2 * k.y ^ 2 - 1 + 1) = k.y ^ 2 := by ring
  have b22 : (1:ℝ)/2 * (2 * k.z ^ 2 - 1 + 1) = k.z ^ 2 := by ring
  have b02 : (1:ℝ)/2 * (0 + 0) = 0 := by norm_num
  simp only [M3.smul_00, M3.smul_11, M3.smul_22, M3.smul_01, M3.smul_02, M3.add_00, M3.add_11, M3.add_22, M3.add_01,
    M3.add_02, M3.one_00, M3.one_11, M3.one_22, M3.one_01, M3.one_02, b00, b11, b22, b02]
  rw [XReal.sqrt_fin le_rfl, XReal.sqrt_fin (sq_nonneg _), XReal.sqrt_fin (sq_nonneg _), Real.sqrt_sq_eq_abs,
    Real.sqrt_sq_eq_abs, Real.sqrt_zero]
  rw [if_neg (by simp), if_pos (by simpa using hy), XReal.fin_div _ (by intro e; rw [e] at hy; norm_num at hy)]
  simp [sign_real]
  rfl

/-- C04 is false: half turn about `(0, 3/5, 4/5)`.  The returned axis is `(0, 3/5, 0)`, not unit, and its rotation
differs from `R` by more than 1 in the first entry. -/
theorem C04_R2rot_false : ∃ (R : M3 ℝ) (k : V3 ℝ), IsRot R ∧ R.transpose = R ∧
    R2rot R.up = (.array k.up, .fin Real.pi) ∧ ¬ IsUnit3 k ∧ 1 < |R.a00 - (rot k Real.pi).a00| := by
  refine ⟨rot ⟨0, 3/5, 4/5⟩ Real.pi, ⟨0, 3/5, 0⟩, rot_isRot _ (by norm_num [IsUnit3]) _, ?_, ?_, ?_, ?_⟩
  · ext <;> simp [rot] <;> norm_num
  · have := C04_R2rot_yz_plane ⟨0, 3/5, 4/5⟩ (by norm_num [IsUnit3]) rfl (by norm_num)
    rw [this]; norm_num
  · norm_num [IsUnit3]
  · norm_num [rot]

/-- C04: near the identity the axis is a Python list, so feeding the result to `rot2q` raises AttributeError. -/
theorem C04_R2rot_identity_not_array :
    rot2q (R2rot (1 : M3 XReal)).1 (R2rot (1 : M3 XReal)).2 = .error .attribute := by
  have := C04_R2rot_near_identity 1 IsRot.one (by norm_num [M3.trace]) (by norm_num [M3.trace])
  rw [M3.up_one, this.1]; rfl
