import Verif.Lemmas.B64
import Verif.Model.Subproblems

/-! # `subproblem1` in binary64 on one input: the rounded perpendicular part fails the check of `subproblem0` -/
set_option autoImplicit false

namespace Fl
variable {F : FSys}

theorem sub_of {a b y : ℝ} (h : F.rnd (a - b) = y) (hy : |y| ≤ F.big) : (of a - of b : Fl F) = of y :=
  congrArg Fl.mk (round_of h hy)

theorem lit_of {q : ℚ} {y : ℝ} (h : F.rnd (q : ℝ) = y) (hy : |y| ≤ F.big) : (lit q : Fl F) = of y :=
  congrArg Fl.mk (round_of h hy)

end Fl

namespace B64Sub

/-- The rounded norm of (1, 1, 0): √2. -/
noncomputable def n : ℝ := 6369051672525773 * 2⁻¹ ^ 52
/-- 1 divided by that, rounded. -/
noncomputable def a : ℝ := 6369051672525772 * 2⁻¹ ^ 53
/-- The rounded inner product with the normalised axis. -/
noncomputable def c : ℝ := 6369051672525772 * 2⁻¹ ^ 52

variable (lib : Libm)

theorem ex {x y : ℝ} (m e : ℤ) (he : -1074 ≤ e) (hm : 2 ^ 52 ≤ |m|) (hm' : |m| < 2 ^ 53) (hx : x = m * 2 ^ e) (hy : y = m * 2 ^ e) :
    (b64 lib).rnd x = y := by
  change B64.rnd x = y
  rw [B64.rnd_exact m e he hm hm' hx, hx, hy]

theorem sb {y : ℝ} (h : |y| ≤ 1000) : |y| ≤ (b64 lib).big := small_le_big lib h

theorem m00 : (Fl.of 0 * Fl.of 0 : Fl (b64 lib)) = .of 0 := Fl.mul_of (by rw [mul_zero]; exact B64.rnd_zero) (sb lib (by norm_num))
theorem m10 : (Fl.of 1 * Fl.of 0 : Fl (b64 lib)) = .of 0 := Fl.mul_of (by rw [mul_zero]; exact B64.rnd_zero) (sb lib (by norm_num))
theorem m01 : (Fl.of 0 * Fl.of 1 : Fl (b64 lib)) = .of 0 := Fl.mul_of (by rw [zero_mul]; exact B64.rnd_zero) (sb lib (by norm_num))
theorem mn0 : (Fl.of (-1) * Fl.of 0 : Fl (b64 lib)) = .of 0 := Fl.mul_of (by rw [mul_zero]; exact B64.rnd_zero) (sb lib (by norm_num))
theorem m0n : (Fl.of 0 * Fl.of (-1) : Fl (b64 lib)) = .of 0 := Fl.mul_of (by rw [zero_mul]; exact B64.rnd_zero) (sb lib (by norm_num))
theorem mc0 : (Fl.of c * Fl.of 0 : Fl (b64 lib)) = .of 0 := Fl.mul_of (by rw [mul_zero]; exact B64.rnd_zero) (sb lib (by norm_num))
theorem a00 : (Fl.of 0 + Fl.of 0 : Fl (b64 lib)) = .of 0 := Fl.add_of (by rw [add_zero]; exact B64.rnd_zero) (sb lib (by norm_num))
theorem s11 : (Fl.of 1 - Fl.of 1 : Fl (b64 lib)) = .of 0 := Fl.sub_of (by rw [sub_self]; exact B64.rnd_zero) (sb lib (by norm_num))
theorem m11 : (Fl.of 1 * Fl.of 1 : Fl (b64 lib)) = .of 1 := Fl.mul_of (ex lib (2 ^ 52) (-52) (by norm_num) (by norm_num) (by norm_num) (by norm_num) (by norm_num)) (sb lib (by norm_num))
theorem mnn : (Fl.of (-1) * Fl.of (-1) : Fl (b64 lib)) = .of 1 := Fl.mul_of (ex lib (2 ^ 52) (-52) (by norm_num) (by norm_num) (by norm_num) (by norm_num) (by norm_num)) (sb lib (by norm_num))
theorem m22 : (Fl.of 2 * Fl.of 2 : Fl (b64 lib)) = .of 4 := Fl.mul_of (ex lib (2 ^ 52) (-50) (by norm_num) (by norm_num) (by norm_num) (by norm_num) (by norm_num)) (sb lib (by norm_num))
theorem s1n : (Fl.of 1 - Fl.of (-1) : Fl (b64 lib)) = .of 2 := Fl.sub_of (ex lib (2 ^ 52) (-51) (by norm_num) (by norm_num) (by norm_num) (by norm_num) (by norm_num)) (sb lib (by norm_num))
theorem a11 : (Fl.of 1 + Fl.of 1 : Fl (b64 lib)) = .of 2 := Fl.add_of (ex lib (2 ^ 52) (-51) (by norm_num) (by norm_num) (by norm_num) (by norm_num) (by norm_num)) (sb lib (by norm_num))
theorem a20 : (Fl.of 2 + Fl.of 0 : Fl (b64 lib)) = .of 2 := Fl.add_of (ex lib (2 ^ 52) (-51) (by norm_num) (by norm_num) (by norm_num) (by norm_num) (by norm_num)) (sb lib (by norm_num))
theorem a04 : (Fl.of 0 + Fl.of 4 : Fl (b64 lib)) = .of 4 := Fl.add_of (ex lib (2 ^ 52) (-50) (by norm_num) (by norm_num) (by norm_num) (by norm_num) (by norm_num)) (sb lib (by norm_num))
theorem q4 : (Elem.sqrt (Fl.of 4) : Fl (b64 lib)) = .of 2 := Fl.sqrt_of (by norm_num) (by
    rw [show (4 : ℝ) = 2 ^ 2 by norm_num, Real.sqrt_sq (by norm_num)]
    exact ex lib (2 ^ 52) (-51) (by norm_num) (by norm_num) (by norm_num) (by norm_num) (by norm_num)) (sb lib (by norm_num))
theorem q1 : (Elem.sqrt (Fl.of 1) : Fl (b64 lib)) = .of 1 := Fl.sqrt_of (by norm_num) (by
    rw [Real.sqrt_one]
    exact ex lib (2 ^ 52) (-52) (by norm_num) (by norm_num) (by norm_num) (by norm_num) (by norm_num)) (sb lib (by norm_num))
theorem eps : (npEps : Fl (b64 lib)) = .of (2⁻¹ ^ 52) :=
  Fl.lit_of (ex lib (2 ^ 52) (-104) (by norm_num) (by norm_num) (by norm_num) (by norm_num) (by norm_num)) (sb lib (by norm_num [_root_.abs_le]))
theorem qeps : (Elem.sqrt npEps : Fl (b64 lib)) = .of (2⁻¹ ^ 26) := by
  rw [eps]
  exact Fl.sqrt_of (by positivity) (by
    rw [show (2⁻¹ : ℝ) ^ 52 = (2⁻¹ ^ 26) ^ 2 by norm_num, Real.sqrt_sq (by positivity)]
    exact ex lib (2 ^ 52) (-78) (by norm_num) (by norm_num) (by norm_num) (by norm_num) (by norm_num)) (sb lib (by norm_num [_root_.abs_le]))
theorem q2 : (Elem.sqrt (Fl.of 2) : Fl (b64 lib)) = .of n := by
  apply Fl.sqrt_of (by norm_num)
  · change B64.rnd _ = _
    have l : 6369051672525773 * 2⁻¹ ^ 52 - 2⁻¹ ^ 53 < Real.sqrt 2 := Real.lt_sqrt_of_sq_lt (by norm_num)
    have u : Real.sqrt 2 < 6369051672525773 * 2⁻¹ ^ 52 + 2⁻¹ ^ 53 := by
      rw [Real.sqrt_lt' (by norm_num)]; norm_num
    rw [B64.rnd_eq 6369051672525773 (-52) (by norm_num)]
    · norm_num [n]
    · rw [abs_of_nonneg (Real.sqrt_nonneg _)]; norm_num
    · rw [abs_of_nonneg (Real.sqrt_nonneg _)]; norm_num
    · norm_num at l ⊢; linarith
    · norm_num at u ⊢; linarith
  · exact sb lib (by norm_num [n, _root_.abs_le])
theorem n_ne : n ≠ 0 := by norm_num [n]
theorem d1n : (Fl.of 1 / Fl.of n : Fl (b64 lib)) = .of a :=
  Fl.div_of n_ne (by
    change B64.rnd _ = _
    rw [B64.rnd_eq 6369051672525772 (-53) (by norm_num)]
    · norm_num [a]
    all_goals norm_num [n, abs_of_pos]) (sb lib (by norm_num [a, _root_.abs_le]))
theorem d0n : (Fl.of 0 / Fl.of n : Fl (b64 lib)) = .of 0 := Fl.div_of n_ne (by rw [zero_div]; exact B64.rnd_zero) (sb lib (by norm_num))
theorem m1a : (Fl.of 1 * Fl.of a : Fl (b64 lib)) = .of a := Fl.mul_of (ex lib 6369051672525772 (-53) (by norm_num) (by norm_num) (by norm_num) (by norm_num [a]) (by norm_num [a])) (sb lib (by norm_num [a, _root_.abs_le]))
theorem aaa : (Fl.of a + Fl.of a : Fl (b64 lib)) = .of c := Fl.add_of (ex lib 6369051672525772 (-52) (by norm_num) (by norm_num) (by norm_num) (by norm_num [a]) (by norm_num [c])) (sb lib (by norm_num [c, _root_.abs_le]))
theorem ac0 : (Fl.of c + Fl.of 0 : Fl (b64 lib)) = .of c := Fl.add_of (ex lib 6369051672525772 (-52) (by norm_num) (by norm_num) (by norm_num) (by norm_num [c]) (by norm_num [c])) (sb lib (by norm_num [c, _root_.abs_le]))
theorem mca : (Fl.of c * Fl.of a : Fl (b64 lib)) = .of (1 - 2⁻¹ ^ 52) :=
  Fl.mul_of (by
    change B64.rnd _ = _
    rw [B64.rnd_eq 9007199254740990 (-53) (by norm_num)]
    · norm_num
    all_goals norm_num [c, a, abs_of_pos]) (sb lib (by norm_num [_root_.abs_le]))
theorem s1s : (Fl.of 1 - Fl.of (1 - 2⁻¹ ^ 52) : Fl (b64 lib)) = .of (2⁻¹ ^ 52) := Fl.sub_of (ex lib (2 ^ 52) (-104) (by norm_num) (by norm_num) (by norm_num) (by norm_num) (by norm_num)) (sb lib (by norm_num [_root_.abs_le]))
theorem s10 : (Fl.of 1 - Fl.of 0 : Fl (b64 lib)) = .of 1 := Fl.sub_of (ex lib (2 ^ 52) (-52) (by norm_num) (by norm_num) (by norm_num) (by norm_num) (by norm_num)) (sb lib (by norm_num))
theorem sn0 : (Fl.of (-1) - Fl.of 0 : Fl (b64 lib)) = .of (-1) := Fl.sub_of (ex lib (-2 ^ 52) (-52) (by norm_num) (by norm_num) (by norm_num) (by norm_num) (by norm_num)) (sb lib (by norm_num))
theorem mee : (Fl.of (2⁻¹ ^ 52) * Fl.of (2⁻¹ ^ 52) : Fl (b64 lib)) = .of (2⁻¹ ^ 104) := Fl.mul_of (ex lib (2 ^ 52) (-156) (by norm_num) (by norm_num) (by norm_num) (by norm_num) (by norm_num)) (sb lib (by norm_num [_root_.abs_le]))
theorem aee : (Fl.of (2⁻¹ ^ 104) + Fl.of (2⁻¹ ^ 104) : Fl (b64 lib)) = .of (2⁻¹ ^ 103) := Fl.add_of (ex lib (2 ^ 52) (-155) (by norm_num) (by norm_num) (by norm_num) (by norm_num) (by norm_num)) (sb lib (by norm_num [_root_.abs_le]))
theorem ae1 : (Fl.of (2⁻¹ ^ 103) + Fl.of 1 : Fl (b64 lib)) = .of 1 :=
  Fl.add_of (by
    change B64.rnd _ = _
    rw [B64.rnd_eq (2 ^ 52) (-52) (by norm_num)]
    · norm_num
    all_goals norm_num [abs_of_pos]) (sb lib (by norm_num))
theorem de1 : (Fl.of (2⁻¹ ^ 52) / Fl.of 1 : Fl (b64 lib)) = .of (2⁻¹ ^ 52) := Fl.div_of one_ne_zero (ex lib (2 ^ 52) (-104) (by norm_num) (by norm_num) (by norm_num) (by norm_num) (by norm_num)) (sb lib (by norm_num [_root_.abs_le]))
theorem d11 : (Fl.of 1 / Fl.of 1 : Fl (b64 lib)) = .of 1 := Fl.div_of one_ne_zero (ex lib (2 ^ 52) (-52) (by norm_num) (by norm_num) (by norm_num) (by norm_num) (by norm_num)) (sb lib (by norm_num))
theorem dn1 : (Fl.of (-1) / Fl.of 1 : Fl (b64 lib)) = .of (-1) := Fl.div_of one_ne_zero (ex lib (-2 ^ 52) (-52) (by norm_num) (by norm_num) (by norm_num) (by norm_num) (by norm_num)) (sb lib (by norm_num))
theorem mae : (Fl.of a * Fl.of (2⁻¹ ^ 52) : Fl (b64 lib)) = .of (a * 2⁻¹ ^ 52) := Fl.mul_of (ex lib 6369051672525772 (-105) (by norm_num) (by norm_num) (by norm_num) (by norm_num [a]) (by norm_num [a])) (sb lib (by norm_num [a, _root_.abs_le]))
theorem ame : (Fl.of (a * 2⁻¹ ^ 52) + Fl.of (a * 2⁻¹ ^ 52) : Fl (b64 lib)) = .of (c * 2⁻¹ ^ 52) := Fl.add_of (ex lib 6369051672525772 (-104) (by norm_num) (by norm_num) (by norm_num) (by norm_num [a]) (by norm_num [c])) (sb lib (by norm_num [c, _root_.abs_le]))
theorem ame0 : (Fl.of (c * 2⁻¹ ^ 52) + Fl.of 0 : Fl (b64 lib)) = .of (c * 2⁻¹ ^ 52) := Fl.add_of (ex lib 6369051672525772 (-104) (by norm_num) (by norm_num) (by norm_num) (by norm_num [c]) (by norm_num [c])) (sb lib (by norm_num [c, _root_.abs_le]))

theorem raises : subproblem1 (⟨.of 1, .of 1, .of 1⟩ : V3 (Fl (b64 lib))) ⟨.of 1, .of 1, .of (-1)⟩ ⟨.of 1, .of 1, .of 0⟩ = .error .assertion := by
  have h1 : ((⟨.of 1, .of 1, .of 1⟩ : V3 (Fl (b64 lib))) - ⟨.of 1, .of 1, .of (-1)⟩).norm = .of 2 := by
    change Elem.sqrt ((.of 1 - .of 1) * (.of 1 - .of 1) + (.of 1 - .of 1) * (.of 1 - .of 1) + (.of 1 - .of (-1)) * (.of 1 - .of (-1)) : Fl (b64 lib)) = _
    rw [s11, s1n, m00, m22, a00, a04, q4]
  have h2 : ¬ ((Fl.of 2 : Fl (b64 lib)) < Elem.sqrt npEps) := by
    rw [qeps]
    change ¬ (2 : ℝ) < 2⁻¹ ^ 26
    norm_num
  have h3 : (⟨.of 1, .of 1, .of 0⟩ : V3 (Fl (b64 lib))).sdiv (⟨.of 1, .of 1, .of 0⟩ : V3 (Fl (b64 lib))).norm = ⟨.of a, .of a, .of 0⟩ := by
    simp only [V3.sdiv, V3.norm, m11, m00, a11, a20, q2, d1n, d0n]
  have h4 : (⟨.of 1, .of 1, .of 1⟩ : V3 (Fl (b64 lib))).dot ⟨.of a, .of a, .of 0⟩ = .of c := by
    simp only [V3.dot, m1a, m10, aaa, ac0]
  have h5 : (⟨.of 1, .of 1, .of 1⟩ : V3 (Fl (b64 lib))) - V3.smul (.of c) ⟨.of a, .of a, .of 0⟩ = ⟨.of (2⁻¹ ^ 52), .of (2⁻¹ ^ 52), .of 1⟩ := by
    change (⟨.of 1 - .of c * .of a, .of 1 - .of c * .of a, .of 1 - .of c * .of 0⟩ : V3 (Fl (b64 lib))) = _
    rw [mca, mc0, s1s, s10]
  have h6 : (⟨.of (2⁻¹ ^ 52), .of (2⁻¹ ^ 52), .of 1⟩ : V3 (Fl (b64 lib))).norm = .of 1 := by
    simp only [V3.norm, mee, aee, m11, ae1, q1]
  have h7 : (⟨.of a, .of a, .of 0⟩ : V3 (Fl (b64 lib))).dot ⟨.of (2⁻¹ ^ 52), .of (2⁻¹ ^ 52), .of 1⟩ = .of (c * 2⁻¹ ^ 52) := by
    simp only [V3.dot, mae, m01, ame, ame0]
  have h8 : ¬ ((Fl.of (c * 2⁻¹ ^ 52) : Fl (b64 lib)) < npEps) := by
    rw [eps]
    change ¬ (c * 2⁻¹ ^ 52 : ℝ) < 2⁻¹ ^ 52
    norm_num [c]
  unfold subproblem1
  rw [h1, if_neg h2]
  simp only [h3, h4, h5, h6]
  rw [show (⟨.of (2⁻¹ ^ 52), .of (2⁻¹ ^ 52), .of 1⟩ : V3 (Fl (b64 lib))).sdiv (.of 1) = ⟨.of (2⁻¹ ^ 52), .of (2⁻¹ ^ 52), .of 1⟩ by
    simp only [V3.sdiv, de1, d11]]
  unfold subproblem0
  rw [h7]
  simp only [pyAssert, h8, false_and]
  rfl

end B64Sub
