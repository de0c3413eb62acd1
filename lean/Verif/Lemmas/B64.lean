import Verif.B64
import Verif.Lemmas.Fl
import Verif.Lemmas.Quat

/-! # `slerp` in binary64 on one input: the rounded inner product exceeds 1 -/
set_option autoImplicit false

namespace Fl
variable {F : FSys}

theorem round_of {x y : ℝ} (h : F.rnd x = y) (hy : |y| ≤ F.big) : F.round (.fin x) = .fin y := by
  simp [FSys.round, h, hy]

theorem add_of {a b y : ℝ} (h : F.rnd (a + b) = y) (hy : |y| ≤ F.big) : (of a + of b : Fl F) = of y :=
  congrArg Fl.mk (round_of h hy)
theorem mul_of {a b y : ℝ} (h : F.rnd (a * b) = y) (hy : |y| ≤ F.big) : (of a * of b : Fl F) = of y :=
  congrArg Fl.mk (round_of h hy)
theorem div_of {a b y : ℝ} (hb : b ≠ 0) (h : F.rnd (a / b) = y) (hy : |y| ≤ F.big) : (of a / of b : Fl F) = of y := by
  change (⟨F.round (.fin a / .fin b)⟩ : Fl F) = _
  rw [XReal.fin_div _ hb, round_of h hy]; rfl
theorem sqrt_of {a y : ℝ} (ha : 0 ≤ a) (h : F.rnd (Real.sqrt a) = y) (hy : |y| ≤ F.big) : (Elem.sqrt (of a) : Fl F) = of y := by
  change (⟨F.round (Elem.sqrt (.fin a))⟩ : Fl F) = _
  rw [XReal.sqrt_fin ha, round_of h hy]; rfl

end Fl

theorem small_le_big (lib : Libm) {y : ℝ} (h : |y| ≤ 1000) : |y| ≤ (b64 lib).big :=
  h.trans (le_trans (by norm_num) (b64 lib).big_ge)

/-- The rounded norm of (3, 3, 0, 0): √18. -/
noncomputable def nrm : ℝ := 4776788754394329 * 2⁻¹ ^ 50
/-- 3 divided by that. -/
noncomputable def quo : ℝ := 6369051672525773 * 2⁻¹ ^ 53

theorem norm_3300 (lib : Libm) : (⟨.of 3, .of 3, .of 0, .of 0⟩ : V4 (Fl (b64 lib))).norm = .of nrm := by
  have sb {y : ℝ} (h : |y| ≤ 1000) := small_le_big lib h
  have h9 : (Fl.of 3 * Fl.of 3 : Fl (b64 lib)) = .of 9 :=
    Fl.mul_of (by
      change B64.rnd _ = _
      rw [B64.rnd_exact (9 * 2 ^ 49) (-49)] <;> norm_num) (sb (by norm_num))
  have h0 : (Fl.of 0 * Fl.of 0 : Fl (b64 lib)) = .of 0 :=
    Fl.mul_of (by rw [mul_zero]; exact B64.rnd_zero) (sb (by norm_num))
  have h18 : (Fl.of 9 + Fl.of 9 : Fl (b64 lib)) = .of 18 :=
    Fl.add_of (by
      change B64.rnd _ = _
      rw [B64.rnd_exact (9 * 2 ^ 49) (-48)] <;> norm_num) (sb (by norm_num))
  have h18' : (Fl.of 18 + Fl.of 0 : Fl (b64 lib)) = .of 18 :=
    Fl.add_of (by
      change B64.rnd _ = _
      rw [B64.rnd_exact (9 * 2 ^ 49) (-48)] <;> norm_num) (sb (by norm_num))
  simp only [V4.norm, h9, h0, h18, h18']
  apply Fl.sqrt_of (by norm_num)
  · change B64.rnd _ = _
    have l : 4776788754394329 * 2⁻¹ ^ 50 - 2⁻¹ ^ 51 < Real.sqrt 18 := Real.lt_sqrt_of_sq_lt (by norm_num)
    have u : Real.sqrt 18 < 4776788754394329 * 2⁻¹ ^ 50 + 2⁻¹ ^ 51 := by
      rw [Real.sqrt_lt' (by norm_num)]; norm_num
    rw [B64.rnd_eq 4776788754394329 (-50) (by norm_num)]
    · norm_num [nrm]
    · rw [abs_of_nonneg (Real.sqrt_nonneg _)]; norm_num at l ⊢; linarith
    · rw [abs_of_nonneg (Real.sqrt_nonneg _)]; norm_num at u ⊢; linarith
    · norm_num at l ⊢; linarith
    · norm_num at u ⊢; linarith
  · exact sb (by norm_num [nrm, abs_le])

theorem nrm_ne : nrm ≠ 0 := by norm_num [nrm]

theorem div_nrm (lib : Libm) : (Fl.of 3 / Fl.of nrm : Fl (b64 lib)) = .of quo :=
    Fl.div_of nrm_ne (by
      change B64.rnd _ = _
      rw [B64.rnd_eq 6369051672525773 (-53) (by norm_num)]
      · norm_num [quo]
      all_goals norm_num [nrm, abs_of_pos]) (small_le_big lib (by norm_num [quo, abs_le]))

theorem zero_nrm (lib : Libm) : (Fl.of 0 / Fl.of nrm : Fl (b64 lib)) = .of 0 :=
    Fl.div_of nrm_ne (by rw [zero_div]; exact B64.rnd_zero) (small_le_big lib (by norm_num))

theorem mul_quo (lib : Libm) : (Fl.of quo * Fl.of quo : Fl (b64 lib)) = .of (4503599627370497 * 2⁻¹ ^ 53) :=
    Fl.mul_of (by
      change B64.rnd _ = _
      rw [B64.rnd_eq 4503599627370497 (-53) (by norm_num)]
      · norm_num
      all_goals norm_num [quo, abs_of_pos]) (small_le_big lib (by norm_num [abs_le]))

theorem slerp_nan (lib : Libm) (t : Fl (b64 lib)) (h : 0 ≤ t ∧ t ≤ 1) :
    slerp (⟨.of 3, .of 3, .of 0, .of 0⟩ : V4 (Fl (b64 lib))) ⟨.of 3, .of 3, .of 0, .of 0⟩ t = .ok ⟨⟨.nan⟩, ⟨.nan⟩, ⟨.nan⟩, ⟨.nan⟩⟩ := by
  have sb {y : ℝ} (h : |y| ≤ 1000) := small_le_big lib h
  have hq := div_nrm lib
  have hz := zero_nrm lib
  have h0 : (Fl.of 0 * Fl.of 0 : Fl (b64 lib)) = .of 0 :=
    Fl.mul_of (by rw [mul_zero]; exact B64.rnd_zero) (sb (by norm_num))
  have hp := mul_quo lib
  have hs : (Fl.of (4503599627370497 * 2⁻¹ ^ 53) + Fl.of (4503599627370497 * 2⁻¹ ^ 53) : Fl (b64 lib)) = .of (4503599627370497 * 2⁻¹ ^ 52) :=
    Fl.add_of (by
      change B64.rnd _ = _
      rw [B64.rnd_exact 4503599627370497 (-52)] <;> norm_num) (sb (by norm_num [abs_le]))
  have hs' : (Fl.of (4503599627370497 * 2⁻¹ ^ 52) + Fl.of 0 : Fl (b64 lib)) = .of (4503599627370497 * 2⁻¹ ^ 52) :=
    Fl.add_of (by
      change B64.rnd _ = _
      rw [B64.rnd_exact 4503599627370497 (-52)] <;> norm_num) (sb (by norm_num [abs_le]))
  have hd : (V4.sdiv ⟨.of 3, .of 3, .of 0, .of 0⟩ (.of nrm) : V4 (Fl (b64 lib))) = ⟨.of quo, .of quo, .of 0, .of 0⟩ := by
    simp only [V4.sdiv, hq, hz]
  have hdot : (V4.dot ⟨.of quo, .of quo, .of 0, .of 0⟩ ⟨.of quo, .of quo, .of 0, .of 0⟩ : Fl (b64 lib)) = .of (4503599627370497 * 2⁻¹ ^ 52) := by
    simp only [V4.dot, hp, h0, hs, hs']
  have hnn : ¬ (Fl.of (4503599627370497 * 2⁻¹ ^ 52) : Fl (b64 lib)) < 0 := by
    change ¬ (4503599627370497 * 2⁻¹ ^ 52 : ℝ) < 0
    norm_num
  have hac : (Elem.arccos (Fl.of (4503599627370497 * 2⁻¹ ^ 52)) : Fl (b64 lib)) = ⟨.nan⟩ := by
    change (⟨XReal.onFin _ _ (.fin _)⟩ : Fl (b64 lib)) = _
    simp only [XReal.onFin]
    rw [if_neg]
    norm_num
  have habs : ¬ (Elem.abs (⟨.nan⟩ : Fl (b64 lib)) < lit (1/1000000)) := fun h => by cases h
  unfold slerp
  rw [if_pos h, norm_3300, hd]
  dsimp only
  rw [hdot, if_neg hnn, hdot, hac, if_neg habs]
  have m1 : ∀ a : Fl (b64 lib), a * (⟨.nan⟩ : Fl (b64 lib)) = ⟨.nan⟩ := by
    rintro ⟨_ | _ | _ | _⟩ <;> rfl
  have m2 : ∀ a : Fl (b64 lib), (⟨.nan⟩ : Fl (b64 lib)) * a = ⟨.nan⟩ := by
    rintro ⟨_ | _ | _ | _⟩ <;> rfl
  have m3 : (Elem.sin (⟨.nan⟩ : Fl (b64 lib))) = ⟨.nan⟩ := rfl
  have m4 : (⟨.nan⟩ : Fl (b64 lib)) + ⟨.nan⟩ = ⟨.nan⟩ := rfl
  have m5 : ∀ a : Fl (b64 lib), (⟨.nan⟩ : Fl (b64 lib)) / a = ⟨.nan⟩ := by
    rintro ⟨_ | _ | _ | _⟩ <;> rfl
  simp only [m1, m3, V4.smul, m2, V4.sdiv]
  change Except.ok (V4.mk _ _ _ _) = _
  simp only [V4.add_w, V4.add_x, V4.add_y, V4.add_z, m4, m5]
