import Verif.Lemmas.Up

/-! # `arctan2` (as `Complex.arg`) on ℝ -/
set_option autoImplicit false

theorem norm_mk_sq (c s : ℝ) : ‖(⟨c, s⟩ : ℂ)‖ * ‖(⟨c, s⟩ : ℂ)‖ = c * c + s * s := by
  rw [Complex.norm_def, Real.mul_self_sqrt (Complex.normSq_nonneg _)]; simp [Complex.normSq_apply]

theorem norm_mk (c s : ℝ) : ‖(⟨c, s⟩ : ℂ)‖ = Real.sqrt (c * c + s * s) := by
  rw [Complex.norm_def]; simp [Complex.normSq_apply]

theorem mk_ne_zero {c s : ℝ} (h : 0 < c * c + s * s) : (⟨c, s⟩ : ℂ) ≠ 0 := by
  intro e
  have h1 := congrArg Complex.re e
  have h2 := congrArg Complex.im e
  simp at h1 h2
  simp [h1, h2] at h

theorem cos_arg_mk {c s : ℝ} (h : c * c + s * s = 1) : Real.cos (Complex.arg ⟨c, s⟩) = c := by
  rw [Complex.cos_arg (mk_ne_zero (by rw [h]; norm_num)), norm_mk, h]; simp

theorem sin_arg_mk {c s : ℝ} (h : c * c + s * s = 1) : Real.sin (Complex.arg ⟨c, s⟩) = s := by
  rw [Complex.sin_arg, norm_mk, h]; simp

/-- `arctan2(r sin θ, r cos θ) = θ` for `r > 0` and `θ` in `(-π, π]`. -/
theorem arg_polar {r θ : ℝ} (hr : 0 < r) (h1 : -Real.pi < θ) (h2 : θ ≤ Real.pi) :
    Complex.arg ⟨r * Real.cos θ, r * Real.sin θ⟩ = θ := by
  have := Complex.arg_mul_cos_add_sin_mul_I hr (θ := θ) ⟨h1, h2⟩
  convert this using 2
  apply Complex.ext <;> simp [Complex.cos_ofReal_re, Complex.sin_ofReal_re]

/-- Polar form: `c = r cos`, `s = r sin` at `arctan2(s, c)`. -/
theorem polar_arg (c s : ℝ) :
    Real.sqrt (c * c + s * s) * Real.cos (Complex.arg ⟨c, s⟩) = c ∧
    Real.sqrt (c * c + s * s) * Real.sin (Complex.arg ⟨c, s⟩) = s := by
  rw [← norm_mk]
  exact ⟨Complex.norm_mul_cos_arg _, Complex.norm_mul_sin_arg _⟩

/-- Two angles with equal sine and cosine differ by whole turns. -/
theorem angle_eq_of_sin_cos {a b : ℝ} (hs : Real.sin a = Real.sin b) (hc : Real.cos a = Real.cos b) :
    ∃ n : ℤ, a = b + n * (2 * Real.pi) := by
  have : Real.cos (a - b) = 1 := by
    rw [Real.cos_sub, hs, hc]; have := Real.sin_sq_add_cos_sq b; nlinarith
  obtain ⟨n, hn⟩ := (Real.cos_eq_one_iff _).1 this
  exact ⟨n, by linarith⟩

/-- ... and are equal when both are in `(-π, π]`. -/
theorem angle_eq_of_sin_cos' {a b : ℝ} (hs : Real.sin a = Real.sin b) (hc : Real.cos a = Real.cos b)
    (ha : -Real.pi < a ∧ a ≤ Real.pi) (hb : -Real.pi < b ∧ b ≤ Real.pi) : a = b := by
  obtain ⟨n, hn⟩ := angle_eq_of_sin_cos hs hc
  have hpi := Real.pi_pos
  have h1 : (n : ℝ) < 1 := by
    by_contra hcon; push Not at hcon
    nlinarith [ha.2, hb.1]
  have h2 : (-1 : ℝ) < n := by
    by_contra hcon; push Not at hcon
    nlinarith [ha.1, hb.2]
  have h3 : n = 0 := by
    have h1' : n < 1 := by exact_mod_cast h1
    have h2' : -1 < n := by exact_mod_cast h2
    omega
  rw [hn, h3]; simp
