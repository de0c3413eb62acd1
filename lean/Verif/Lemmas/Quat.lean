import Verif.Lemmas.SO3
import Verif.Lemmas.Trig

/-! # Lemmas on `rot2q`, `q2rot`, `slerp` -/
set_option autoImplicit false

theorem rot2qA_up (k : V3 ℝ) (θ : ℝ) : rot2qA k.up (.fin θ) = (rot2qA k θ).up := by
  have h : XReal.fin θ / XReal.fin 2 = XReal.fin (θ / 2) := XReal.fin_div _ two_ne_zero
  ext <;> simp [rot2qA, h]

theorem rot2qA_unit (k : V3 ℝ) (hk : IsUnit3 k) (θ : ℝ) : IsUnit4 (rot2qA k θ) := by
  have := Real.sin_sq_add_cos_sq (θ / 2)
  unfold IsUnit3 at hk
  simp [IsUnit4, rot2qA]; grind

theorem q2R_rot2qA (k : V3 ℝ) (hk : IsUnit3 k) (θ : ℝ) : q2R (rot2qA k θ) = rot k θ := by
  have h1 := Real.sin_sq_add_cos_sq (θ / 2)
  have h2 : Real.sin θ = 2 * Real.sin (θ/2) * Real.cos (θ/2) := by
    rw [← Real.sin_two_mul]; congr 1; ring
  have h3 : Real.cos θ = 2 * Real.cos (θ/2) ^ 2 - 1 := by
    rw [← Real.cos_two_mul]; congr 1; ring
  unfold IsUnit3 at hk
  ext <;> simp [q2R, rot, rot2qA, h2, h3] <;> grind

/-- evaluation of `q2rot` outside the small-angle band -/
theorem q2rot_eval (q : V4 ℝ) (h1 : -1 < q.w) (h2 : q.w ≤ 1) (hb : 1/1000000 ≤ 2 * Real.arccos q.w) :
    q2rot q.up = (.array (q.vec.sdiv (Real.sqrt (1 - q.w ^ 2))).up, .fin (2 * Real.arccos q.w)) := by
  have hlt : q.w < 1 := by
    rcases lt_or_eq_of_le h2 with h | h
    · exact h
    · rw [h, Real.arccos_one] at hb; norm_num at hb
  have hpos : 0 < 1 - q.w ^ 2 := by nlinarith
  unfold q2rot
  simp only [V4.up_w, XReal.arccos_fin h1.le h2, XReal.lit_fin, XReal.fin_mul, XReal.abs_fin, XReal.fin_lt,
    V4.up_vec]
  have e2 : ((2 : ℚ) : ℝ) = 2 := by norm_num
  have e6 : ((1/1000000 : ℚ) : ℝ) = 1/1000000 := by norm_num
  rw [e2, e6, abs_of_nonneg (by linarith), if_neg (not_lt.2 hb), XReal.fin_div _ two_ne_zero, XReal.sin_fin]
  have e : 2 * Real.arccos q.w / 2 = Real.arccos q.w := by ring
  rw [e, Real.sin_arccos, V3.up_sdiv _ (Real.sqrt_pos.2 hpos).ne']

theorem V4.norm_sq (a : V4 ℝ) : a.norm * a.norm = a.dot a := by
  unfold V4.norm V4.dot; simp only [sqrt_real]; rw [Real.mul_self_sqrt (V4.sq_nonneg' a)]

theorem V4.norm_nonneg (a : V4 ℝ) : 0 ≤ a.norm := by unfold V4.norm; exact Real.sqrt_nonneg _

theorem V4.norm_pos {a : V4 ℝ} (h : a ≠ ⟨0, 0, 0, 0⟩) : 0 < a.norm := by
  refine lt_of_le_of_ne a.norm_nonneg fun e => h ?_
  have h1 := V4.norm_sq a
  rw [← e] at h1
  have := sum4_sq_zero (a := a.w) (b := a.x) (c := a.y) (d := a.z) (by simp [V4.dot] at h1; linarith)
  ext <;> simp <;> tauto

theorem V4.sdiv_norm_unit {a : V4 ℝ} (h : a ≠ ⟨0, 0, 0, 0⟩) : IsUnit4 (a.sdiv a.norm) := by
  have h1 := V4.norm_sq a
  have h2 := (V4.norm_pos h).ne'
  unfold IsUnit4; simp [V4.dot] at h1 ⊢; field_simp; linarith

theorem IsUnit4.dot_self {a : V4 ℝ} (h : IsUnit4 a) : a.dot a = 1 := h

theorem IsUnit4.norm {a : V4 ℝ} (h : IsUnit4 a) : a.norm = 1 := by
  unfold V4.norm; simp only [sqrt_real]; rw [h]; simp

theorem IsUnit4.neg {a : V4 ℝ} (h : IsUnit4 a) : IsUnit4 (-a) := by
  unfold IsUnit4 at *; simp; linarith

/-- Cauchy-Schwarz for unit quaternions. -/
theorem IsUnit4.dot_le {a b : V4 ℝ} (ha : IsUnit4 a) (hb : IsUnit4 b) : -1 ≤ a.dot b ∧ a.dot b ≤ 1 := by
  unfold IsUnit4 at ha hb
  unfold V4.dot
  constructor
  · nlinarith [sq_nonneg (a.w + b.w), sq_nonneg (a.x + b.x), sq_nonneg (a.y + b.y), sq_nonneg (a.z + b.z)]
  · nlinarith [sq_nonneg (a.w - b.w), sq_nonneg (a.x - b.x), sq_nonneg (a.y - b.y), sq_nonneg (a.z - b.z)]

/-- The start of the interpolation: the normalized first quaternion, on the side of the second. -/
noncomputable def slerpStart (q0 q1 : V4 ℝ) : V4 ℝ :=
  if (q0.sdiv q0.norm).dot (q1.sdiv q1.norm) < 0 then -(q0.sdiv q0.norm) else q0.sdiv q0.norm

theorem slerpStart_unit {q0 q1 : V4 ℝ} (h : q0 ≠ ⟨0, 0, 0, 0⟩) : IsUnit4 (slerpStart q0 q1) := by
  unfold slerpStart
  split_ifs
  · exact (V4.sdiv_norm_unit h).neg
  · exact V4.sdiv_norm_unit h

theorem slerpStart_dot (q0 q1 : V4 ℝ) : 0 ≤ (slerpStart q0 q1).dot (q1.sdiv q1.norm) := by
  unfold slerpStart
  split_ifs with h
  · simp [V4.dot] at h ⊢; linarith
  · exact not_lt.1 h

/-- The combination inside `slerp`, before the final normalization. -/
noncomputable def slerpComb (u0 u1 : V4 ℝ) (θ t : ℝ) : V4 ℝ :=
  ((V4.smul (Real.sin ((1 - t) * θ)) u0) + (V4.smul (Real.sin (t * θ)) u1)).sdiv (Real.sin θ)

theorem slerpComb_props {u0 u1 : V4 ℝ} (h0 : IsUnit4 u0) (h1 : IsUnit4 u1) {θ : ℝ}
    (hc : u0.dot u1 = Real.cos θ) (hs : Real.sin θ ≠ 0) (t : ℝ) :
    IsUnit4 (slerpComb u0 u1 θ t) ∧ u0.dot (slerpComb u0 u1 θ t) = Real.cos (t * θ) ∧
    u1.dot (slerpComb u0 u1 θ t) = Real.cos ((1 - t) * θ) := by
  have e : Real.sin ((1 - t) * θ) = Real.sin θ * Real.cos (t * θ) - Real.cos θ * Real.sin (t * θ) := by
    rw [← Real.sin_sub]; congr 1; ring
  have e' : Real.cos ((1 - t) * θ) = Real.cos θ * Real.cos (t * θ) + Real.sin θ * Real.sin (t * θ) := by
    rw [← Real.cos_sub]; congr 1; ring
  have p1 := Real.sin_sq_add_cos_sq θ
  have p2 := Real.sin_sq_add_cos_sq (t * θ)
  unfold IsUnit4 at h0 h1
  unfold V4.dot at hc
  refine ⟨?_, ?_, ?_⟩
  · simp [IsUnit4, slerpComb, e]; field_simp; grind
  · simp [V4.dot, slerpComb, e]; field_simp; grind
  · simp [V4.dot, slerpComb, e, e']; field_simp; grind

theorem slerp_start_up {q0 q1 : V4 ℝ} (h0 : q0 ≠ ⟨0, 0, 0, 0⟩) (h1 : q1 ≠ ⟨0, 0, 0, 0⟩) :
    (if (q0.up.sdiv q0.up.norm).dot (q1.up.sdiv q1.up.norm) < 0 then -(q0.up.sdiv q0.up.norm)
      else q0.up.sdiv q0.up.norm) = (slerpStart q0 q1).up := by
  rw [V4.up_norm, V4.up_norm, V4.up_sdiv _ (V4.norm_pos h0).ne', V4.up_sdiv _ (V4.norm_pos h1).ne', V4.up_dot,
    XReal.zero_def, V4.up_neg]
  unfold slerpStart
  by_cases h : (q0.sdiv q0.norm).dot (q1.sdiv q1.norm) < 0
  · rw [if_pos h, if_pos (by simpa using h)]
  · rw [if_neg h, if_neg (by simpa using h)]

/-- Evaluation of `slerp` on nonzero quaternions. -/
theorem slerp_eval {q0 q1 : V4 ℝ} (h0 : q0 ≠ ⟨0, 0, 0, 0⟩) (h1 : q1 ≠ ⟨0, 0, 0, 0⟩) (t : ℝ) :
    let u0 := slerpStart q0 q1
    let u1 := q1.sdiv q1.norm
    let θ := Real.arccos (u0.dot u1)
    slerp q0.up q1.up (.fin t) =
      if 0 ≤ t ∧ t ≤ 1 then
        if θ < 1/1000000 then .ok u0.up else .ok (slerpComb u0 u1 θ t).up
      else .error .assertion := by
  intro u0 u1 θ
  have hu0 : IsUnit4 u0 := slerpStart_unit h0
  have hu1 : IsUnit4 u1 := V4.sdiv_norm_unit h1
  have hd := hu0.dot_le hu1
  have hd0 : 0 ≤ u0.dot u1 := slerpStart_dot q0 q1
  unfold slerp
  simp only [slerp_start_up h0 h1]
  rw [V4.up_norm, V4.up_sdiv _ (V4.norm_pos h1).ne']
  change (if _ then (if Elem.abs (Elem.arccos (u0.up.dot u1.up)) < _ then _ else _) else _) = _
  rw [V4.up_dot, XReal.arccos_fin hd.1 hd.2, XReal.zero_def, XReal.one_def, XReal.abs_fin,
    abs_of_nonneg (Real.arccos_nonneg _)]
  by_cases ht : 0 ≤ t ∧ t ≤ 1
  · rw [if_pos ht, if_pos (show XReal.fin 0 ≤ XReal.fin t ∧ XReal.fin t ≤ XReal.fin 1 from ht)]
    by_cases hθ : θ < 1/1000000
    · rw [if_pos hθ, if_pos (by simpa using hθ)]
    · rw [if_neg hθ, if_neg (by simpa using hθ)]
      have hθpos : 0 < θ := by push Not at hθ; linarith
      have hθle : θ ≤ Real.pi / 2 := by
        have := Real.arccos_le_pi_div_two.2 hd0; exact this
      have hs : Real.sin θ ≠ 0 :=
        (Real.sin_pos_of_pos_of_lt_pi hθpos (by linarith [Real.pi_pos])).ne'
      have hc : u0.dot u1 = Real.cos θ := (Real.cos_arccos hd.1 hd.2).symm
      obtain ⟨hn, -, -⟩ := slerpComb_props hu0 hu1 hc hs t
      have hq : ((V4.smul (Elem.sin ((XReal.fin 1 - XReal.fin t) * XReal.fin θ)) u0.up) +
          (V4.smul (Elem.sin (XReal.fin t * XReal.fin θ)) u1.up)).sdiv (Elem.sin (XReal.fin θ))
          = (slerpComb u0 u1 θ t).up := by
        rw [XReal.fin_sub, XReal.fin_mul, XReal.fin_mul, XReal.sin_fin, XReal.sin_fin, XReal.sin_fin, V4.up_smul,
          V4.up_smul, V4.up_add, V4.up_sdiv _ hs]; rfl
      change Except.ok (V4.sdiv (V4.sdiv ((V4.smul (Elem.sin ((XReal.fin 1 - XReal.fin t) * XReal.fin θ)) u0.up) +
          (V4.smul (Elem.sin (XReal.fin t * XReal.fin θ)) u1.up)) (Elem.sin (XReal.fin θ))) _) = _
      rw [hq]
      rw [V4.up_norm, hn.norm, V4.up_sdiv _ one_ne_zero]
      congr 2; ext <;> simp
  · rw [if_neg ht, if_neg (show ¬ (XReal.fin 0 ≤ XReal.fin t ∧ XReal.fin t ≤ XReal.fin 1) from ht)]
