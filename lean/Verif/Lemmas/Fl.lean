import Verif.Fl
import Verif.Lemmas.Norm
import Verif.Lemmas.Rot
import Mathlib.Analysis.SpecialFunctions.Trigonometric.Bounds

/-! # Rounding error rules for `Fl F` -/
set_option autoImplicit false

namespace Fl
variable {F : FSys}

theorem Near.mono {a : Fl F} {x d e : ℝ} (h : a.Near x d) (hde : d ≤ e) : a.Near x e := by
  obtain ⟨v, hv, h⟩ := h
  exact ⟨v, hv, h.trans hde⟩

theorem Near.nonneg {a : Fl F} {x e : ℝ} (h : a.Near x e) : 0 ≤ e := by
  obtain ⟨v, -, h⟩ := h
  exact (abs_nonneg _).trans h

theorem near_of (x : ℝ) : (of x : Fl F).Near x 0 := ⟨x, rfl, by simp⟩
theorem near_zero : (0 : Fl F).Near 0 0 := ⟨0, rfl, by simp⟩
theorem near_one : (1 : Fl F).Near 1 0 := ⟨1, rfl, by simp⟩

/-- Rounding a number within `d` of `x`. -/
theorem near_round {w x d e : ℝ} (h : |w - x| ≤ d) (he : d + F.u * (|x| + d) + F.η ≤ e) (hb : |x| + e ≤ F.big) :
    (⟨F.round (.fin w)⟩ : Fl F).Near x e := by
  have h1 : |w| ≤ |x| + d := by
    calc |w| = |x + (w - x)| := by rw [add_sub_cancel]
      _ ≤ |x| + |w - x| := abs_add_le _ _
      _ ≤ |x| + d := by linarith
  have h2 := F.rnd_err w
  have h3 : |F.rnd w - x| ≤ e := by
    calc |F.rnd w - x| = |(F.rnd w - w) + (w - x)| := by rw [sub_add_sub_cancel]
      _ ≤ |F.rnd w - w| + |w - x| := abs_add_le _ _
      _ ≤ (F.u * |w| + F.η) + d := add_le_add h2 h
      _ ≤ (F.u * (|x| + d) + F.η) + d := by have := mul_le_mul_of_nonneg_left h1 F.u_nonneg; linarith
      _ ≤ e := by linarith
  have h4 : |F.rnd w| ≤ F.big := by
    calc |F.rnd w| = |x + (F.rnd w - x)| := by rw [add_sub_cancel]
      _ ≤ |x| + |F.rnd w - x| := abs_add_le _ _
      _ ≤ F.big := by linarith
  exact ⟨F.rnd w, by simp [FSys.round, h4], h3⟩

theorem Near.neg {a : Fl F} {x e : ℝ} (h : a.Near x e) : (-a).Near (-x) e := by
  obtain ⟨v, hv, h⟩ := h
  refine ⟨-v, show -a.val = _ by rw [hv]; rfl, ?_⟩
  rw [← neg_add', abs_neg, ← sub_eq_add_neg]
  exact h

theorem Near.add {a b : Fl F} {x y d e f : ℝ} (ha : a.Near x d) (hb : b.Near y e)
    (hf : (d + e) + F.u * (|x + y| + (d + e)) + F.η ≤ f) (hbig : |x + y| + f ≤ F.big) : (a + b).Near (x + y) f := by
  obtain ⟨v, hv, h⟩ := ha
  obtain ⟨w, hw, k⟩ := hb
  have := near_round (F := F) (w := v + w) (x := x + y) (d := d + e)
    (by rw [add_sub_add_comm]; exact (abs_add_le _ _).trans (add_le_add h k)) hf hbig
  change (⟨F.round (a.val + b.val)⟩ : Fl F).Near _ _
  rw [hv, hw]
  exact this

theorem Near.sub {a b : Fl F} {x y d e f : ℝ} (ha : a.Near x d) (hb : b.Near y e)
    (hf : (d + e) + F.u * (|x - y| + (d + e)) + F.η ≤ f) (hbig : |x - y| + f ≤ F.big) : (a - b).Near (x - y) f := by
  obtain ⟨v, hv, h⟩ := ha
  obtain ⟨w, hw, k⟩ := hb
  have := near_round (F := F) (w := v - w) (x := x - y) (d := d + e)
    (by rw [sub_sub_sub_comm]; exact (abs_sub _ _).trans (add_le_add h k)) hf hbig
  change (⟨F.round (a.val - b.val)⟩ : Fl F).Near _ _
  rw [hv, hw, XReal.fin_sub]
  exact this

theorem Near.mul {a b : Fl F} {x y d e f : ℝ} (ha : a.Near x d) (hb : b.Near y e)
    (hf : (|x| * e + |y| * d + d * e) + F.u * (|x * y| + (|x| * e + |y| * d + d * e)) + F.η ≤ f) (hbig : |x * y| + f ≤ F.big) :
    (a * b).Near (x * y) f := by
  obtain ⟨v, hv, h⟩ := ha
  obtain ⟨w, hw, k⟩ := hb
  have h0 : 0 ≤ d := (abs_nonneg _).trans h
  have := near_round (F := F) (w := v * w) (x := x * y) (d := |x| * e + |y| * d + d * e)
    (by
      have : v * w - x * y = x * (w - y) + y * (v - x) + (v - x) * (w - y) := by ring
      rw [this]
      refine (abs_add_le _ _).trans (add_le_add ((abs_add_le _ _).trans (add_le_add ?_ ?_)) ?_)
      · rw [abs_mul]; exact mul_le_mul_of_nonneg_left k (abs_nonneg _)
      · rw [abs_mul]; exact mul_le_mul_of_nonneg_left h (abs_nonneg _)
      · rw [abs_mul]; exact mul_le_mul h k (abs_nonneg _) h0) hf hbig
  change (⟨F.round (a.val * b.val)⟩ : Fl F).Near _ _
  rw [hv, hw, XReal.fin_mul]
  exact this

theorem Near.sin {a : Fl F} {x d : ℝ} (h : a.Near x d) : (Elem.sin a).Near (Real.sin x) (d + F.u) := by
  obtain ⟨v, hv, h⟩ := h
  refine ⟨F.sinF v, show XReal.onFin _ _ a.val = _ by rw [hv]; simp [XReal.onFin], ?_⟩
  have h1 : |Real.sin v - Real.sin x| ≤ |v - x| := Real.abs_sin_sub_sin_le v x
  calc |F.sinF v - Real.sin x| = |(F.sinF v - Real.sin v) + (Real.sin v - Real.sin x)| := by rw [sub_add_sub_cancel]
    _ ≤ |F.sinF v - Real.sin v| + |Real.sin v - Real.sin x| := abs_add_le _ _
    _ ≤ d + F.u := by have := F.sin_err v; linarith

theorem Near.cos {a : Fl F} {x d : ℝ} (h : a.Near x d) : (Elem.cos a).Near (Real.cos x) (d + F.u) := by
  obtain ⟨v, hv, h⟩ := h
  refine ⟨F.cosF v, show XReal.onFin _ _ a.val = _ by rw [hv]; simp [XReal.onFin], ?_⟩
  have h1 : |Real.cos v - Real.cos x| ≤ |v - x| := Real.abs_cos_sub_cos_le v x
  calc |F.cosF v - Real.cos x| = |(F.cosF v - Real.cos v) + (Real.cos v - Real.cos x)| := by rw [sub_add_sub_cancel]
    _ ≤ |F.cosF v - Real.cos v| + |Real.cos v - Real.cos x| := abs_add_le _ _
    _ ≤ d + F.u := by have := F.cos_err v; linarith

/-! ### Errors counted in units of `u * scale` -/

/-- Product of numbers of sizes `M * s`, `N * t` with errors of `k`, `l` units. -/
theorem Near.mulS {a b : Fl F} {x y s t M N k l : ℝ} (m : ℝ) (ha : a.Near x (k * (F.u * s))) (hb : b.Near y (l * (F.u * t)))
    (hx : |x| ≤ M * s) (hy : |y| ≤ N * t) (hs : 0 < s) (ht : 0 < t) (hk : 0 ≤ k) (hl : 0 ≤ l) (hη : F.η ≤ F.u * (s * t))
    (hm : (M * l + N * k + k * l / 1024) * (1 + 1 / 1024) + M * N + 1 ≤ m) (hbig : (M * N + m / 1024) * (s * t) ≤ F.big) :
    (a * b).Near (x * y) (m * (F.u * (s * t))) := by
  have hu := F.u_nonneg
  have hu' := F.u_le
  have hM : 0 ≤ M := by
    by_contra h
    nlinarith [abs_nonneg x]
  have hN : 0 ≤ N := by
    by_contra h
    nlinarith [abs_nonneg y]
  have hst : 0 < s * t := mul_pos hs ht
  have hxy : |x * y| ≤ M * N * (s * t) := by
    rw [abs_mul]
    calc |x| * |y| ≤ (M * s) * (N * t) := mul_le_mul hx hy (abs_nonneg _) (mul_nonneg hM hs.le)
      _ = _ := by ring
  have e1 : |x| * (l * (F.u * t)) ≤ M * l * (F.u * (s * t)) := by
    calc |x| * (l * (F.u * t)) ≤ (M * s) * (l * (F.u * t)) := mul_le_mul_of_nonneg_right hx (by positivity)
      _ = _ := by ring
  have e2 : |y| * (k * (F.u * s)) ≤ N * k * (F.u * (s * t)) := by
    calc |y| * (k * (F.u * s)) ≤ (N * t) * (k * (F.u * s)) := mul_le_mul_of_nonneg_right hy (by positivity)
      _ = _ := by ring
  have e3 : (k * (F.u * s)) * (l * (F.u * t)) ≤ k * l / 1024 * (F.u * (s * t)) := by
    calc (k * (F.u * s)) * (l * (F.u * t)) = (k * l * (F.u * (s * t))) * F.u := by ring
      _ ≤ (k * l * (F.u * (s * t))) * (1 / 1024) := mul_le_mul_of_nonneg_left hu' (by positivity)
      _ = _ := by ring
  set D := |x| * (l * (F.u * t)) + |y| * (k * (F.u * s)) + (k * (F.u * s)) * (l * (F.u * t)) with hD
  have hD0 : 0 ≤ D := by positivity
  have hD1 : D ≤ (M * l + N * k + k * l / 1024) * (F.u * (s * t)) := by rw [hD]; linarith
  have hust : 0 ≤ F.u * (s * t) := by positivity
  have key : D + F.u * (|x * y| + D) + F.η ≤ m * (F.u * (s * t)) := by
    have h1 : F.u * |x * y| ≤ M * N * (F.u * (s * t)) := by
      calc F.u * |x * y| ≤ F.u * (M * N * (s * t)) := mul_le_mul_of_nonneg_left hxy hu
        _ = _ := by ring
    have h2 : F.u * D ≤ 1 / 1024 * D := mul_le_mul_of_nonneg_right hu' hD0
    have h3 := mul_le_mul_of_nonneg_right hm hust
    nlinarith
  refine ha.mul hb key ?_
  have hm0 : 0 ≤ m := by
    refine le_trans ?_ hm
    positivity
  have : m * (F.u * (s * t)) ≤ m / 1024 * (s * t) := by
    calc m * (F.u * (s * t)) = (m * (s * t)) * F.u := by ring
      _ ≤ (m * (s * t)) * (1 / 1024) := mul_le_mul_of_nonneg_left hu' (by positivity)
      _ = _ := by ring
  linarith

/-- Sum of numbers of sizes `M * s`, `N * s` with errors of `k`, `l` units. -/
theorem Near.addS {a b : Fl F} {x y s S k l : ℝ} (m : ℝ) (ha : a.Near x (k * (F.u * s))) (hb : b.Near y (l * (F.u * s)))
    (hxy : |x + y| ≤ S * s) (hs : 0 < s) (hk : 0 ≤ k) (hl : 0 ≤ l) (hη : F.η ≤ F.u * s)
    (hm : (k + l) * (1 + 1 / 1024) + S + 1 ≤ m) (hbig : (S + m / 1024) * s ≤ F.big) :
    (a + b).Near (x + y) (m * (F.u * s)) := by
  have hu := F.u_nonneg
  have hu' := F.u_le
  have hS : 0 ≤ S := by
    by_contra h
    nlinarith [abs_nonneg (x + y)]
  have hus : 0 ≤ F.u * s := by positivity
  have key : (k * (F.u * s) + l * (F.u * s)) + F.u * (|x + y| + (k * (F.u * s) + l * (F.u * s))) + F.η ≤ m * (F.u * s) := by
    have h1 : F.u * |x + y| ≤ S * (F.u * s) := by
      calc F.u * |x + y| ≤ F.u * (S * s) := mul_le_mul_of_nonneg_left hxy hu
        _ = _ := by ring
    have h2 : F.u * (k * (F.u * s) + l * (F.u * s)) ≤ 1 / 1024 * (k * (F.u * s) + l * (F.u * s)) :=
      mul_le_mul_of_nonneg_right hu' (by positivity)
    have h3 := mul_le_mul_of_nonneg_right hm hus
    nlinarith
  refine ha.add hb key ?_
  have hm0 : 0 ≤ m := le_trans (by positivity) hm
  have : m * (F.u * s) ≤ m / 1024 * s := by
    calc m * (F.u * s) = (m * s) * F.u := by ring
      _ ≤ (m * s) * (1 / 1024) := mul_le_mul_of_nonneg_left hu' (by positivity)
      _ = _ := by ring
  linarith

theorem Near.subS {a b : Fl F} {x y s S k l : ℝ} (m : ℝ) (ha : a.Near x (k * (F.u * s))) (hb : b.Near y (l * (F.u * s)))
    (hxy : |x - y| ≤ S * s) (hs : 0 < s) (hk : 0 ≤ k) (hl : 0 ≤ l) (hη : F.η ≤ F.u * s)
    (hm : (k + l) * (1 + 1 / 1024) + S + 1 ≤ m) (hbig : (S + m / 1024) * s ≤ F.big) :
    (a - b).Near (x - y) (m * (F.u * s)) := by
  have h := Near.addS m ha hb.neg (by rwa [← sub_eq_add_neg]) hs hk hl hη hm hbig
  obtain ⟨v, hv, h⟩ := h
  obtain ⟨v1, hv1, -⟩ := ha
  obtain ⟨v2, hv2, -⟩ := hb
  refine ⟨v, ?_, by rwa [← sub_eq_add_neg] at h⟩
  rw [← hv]
  change F.round (a.val - b.val) = F.round (a.val + -b.val)
  rw [hv1, hv2, XReal.fin_sub, XReal.fin_neg, XReal.fin_add, sub_eq_add_neg]

/-- An inner product of three pairs of numbers a little larger than 1 and `s`. -/
theorem near_dot3 {a₁ a₂ a₃ b₁ b₂ b₃ s : ℝ} (hs : 0 < s) (hη : F.η ≤ F.u * s) (hbig : 5 * s ≤ F.big)
    (ha₁ : |a₁| ≤ 17 / 16) (ha₂ : |a₂| ≤ 17 / 16) (ha₃ : |a₃| ≤ 17 / 16)
    (hb₁ : |b₁| ≤ 17 / 16 * s) (hb₂ : |b₂| ≤ 17 / 16 * s) (hb₃ : |b₃| ≤ 17 / 16 * s) :
    (of a₁ * of b₁ + of a₂ * of b₂ + of a₃ * of b₃ : Fl F).Near (a₁ * b₁ + a₂ * b₂ + a₃ * b₃) (15 * (F.u * s)) := by
  have prod : ∀ {a b : ℝ}, |a| ≤ 17 / 16 → |b| ≤ 17 / 16 * s →
      (of a * of b : Fl F).Near (a * b) (17 / 8 * (F.u * s) + (1 / 64) * (F.u * s)) ∧ |a * b| ≤ 289 / 256 * s := by
    intro a b ha hb
    have h := Near.mulS (F := F) (a := of a) (b := of b) (s := 1) (t := s) (M := 17 / 16) (N := 17 / 16) (k := 0) (l := 0) (137 / 64)
      ((near_of a).mono (by simp)) ((near_of b).mono (by simp)) (by linarith) hb one_pos hs le_rfl le_rfl (by linarith)
      (by norm_num) (by linarith)
    rw [one_mul] at h
    refine ⟨h.mono (by linarith), ?_⟩
    rw [abs_mul]
    calc |a| * |b| ≤ 17 / 16 * (17 / 16 * s) := mul_le_mul ha hb (abs_nonneg _) (by norm_num)
      _ = _ := by ring
  obtain ⟨p₁, q₁⟩ := prod ha₁ hb₁
  obtain ⟨p₂, q₂⟩ := prod ha₂ hb₂
  obtain ⟨p₃, q₃⟩ := prod ha₃ hb₃
  have r₂ : |a₁ * b₁ + a₂ * b₂| ≤ 289 / 128 * s := (abs_add_le _ _).trans (by linarith)
  have r₃ : |a₁ * b₁ + a₂ * b₂ + a₃ * b₃| ≤ 867 / 256 * s := (abs_add_le _ _).trans (by linarith)
  rw [← add_mul] at p₁ p₂ p₃
  have t₂ := Near.addS (8 : ℝ) p₁ p₂ r₂ hs (by norm_num) (by norm_num) hη (by norm_num) (by linarith)
  exact Near.addS (15 : ℝ) t₂ p₃ r₃ hs (by norm_num) (by norm_num) hη (by norm_num) (by linarith)

end Fl
