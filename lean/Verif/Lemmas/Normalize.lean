import Verif.Lemmas.ListM
import Mathlib.Algebra.Order.Floor.Ring

/-! # Evaluation of `normalize_joints` -/
set_option autoImplicit false

theorem XReal.lt_of_lt_fin {l : XReal} {a b : ℝ} (h : l < .fin a) (hab : a ≤ b) : l < .fin b := by
  cases l with
  | fin r => exact lt_of_lt_of_le (show r < a from h) hab
  | ninf => trivial
  | pinf => exact absurd h (by simp [XReal.lt_iff, XReal.lt])
  | nan => exact absurd h (by simp)

theorem XReal.fin_lt_of_lt {u : XReal} {a b : ℝ} (h : XReal.fin b < u) (hab : a ≤ b) : XReal.fin a < u := by
  cases u with
  | fin r => exact lt_of_le_of_lt hab (show b < r from h)
  | pinf => trivial
  | ninf => exact absurd h (by simp [XReal.lt_iff, XReal.lt])
  | nan => exact absurd h (by simp)

theorem twoPi_fin : (twoPi : XReal) = .fin (2 * Real.pi) := by
  have e : ((2 : ℚ) : ℝ) = 2 := by norm_num
  simp [twoPi, e]

/-- number of whole turns that brings `θ` closest to `x` -/
theorem turns_eval (x θ : ℝ) : ∃ n : ℤ, turns (XReal.fin x) (.fin θ) = .fin n ∧ |x - (θ + n * (2 * Real.pi))| ≤ Real.pi := by
  have hp := Real.two_pi_pos
  have h1 := Int.floor_le ((x - θ) / (2 * Real.pi))
  have h2 := Int.lt_floor_add_one ((x - θ) / (2 * Real.pi))
  rw [le_div_iff₀ hp] at h1
  rw [div_lt_iff₀ hp] at h2
  simp only [turns, XReal.fin_sub, twoPi_fin, XReal.floorDiv_fin _ hp.ne', XReal.remainder_fin _ hp.ne', XReal.pi_fin,
    XReal.fin_lt, XReal.one_def, XReal.fin_add]
  split_ifs with hr
  · refine ⟨⌊(x - θ) / (2 * Real.pi)⌋ + 1, by push_cast; rfl, ?_⟩
    rw [abs_le]; push_cast
    constructor <;> linarith
  · refine ⟨⌊(x - θ) / (2 * Real.pi)⌋, rfl, ?_⟩
    rw [abs_le]
    constructor <;> linarith [Real.pi_pos]

theorem trunc_int (n : ℤ) : Real.trunc (n : ℝ) = n := by
  unfold Real.trunc; split_ifs <;> simp

/-- the nearest turn is nearest -/
theorem nearest_turn {x θ : ℝ} {n : ℤ} (h : |x - (θ + n * (2 * Real.pi))| ≤ Real.pi) (m : ℤ) :
    |x - (θ + n * (2 * Real.pi))| ≤ |x - (θ + m * (2 * Real.pi))| := by
  have hp := Real.pi_pos
  rcases lt_trichotomy m n with hlt | rfl | hlt
  · have : (m : ℝ) + 1 ≤ n := by exact_mod_cast hlt
    have h2 : (n - m - 1 : ℝ) * (2 * Real.pi) ≥ 0 := mul_nonneg (by linarith) (by linarith)
    have := le_abs_self (x - (θ + m * (2 * Real.pi)))
    have := (abs_le.1 h).1
    linarith
  · exact le_rfl
  · have : (n : ℝ) + 1 ≤ m := by exact_mod_cast hlt
    have h2 : (m - n - 1 : ℝ) * (2 * Real.pi) ≥ 0 := mul_nonneg (by linarith) (by linarith)
    have := neg_abs_le (x - (θ + m * (2 * Real.pi)))
    have := (abs_le.1 h).2
    linarith

/-- moving away from `x` on one side -/
theorem farther {x θ : ℝ} {n k m : ℤ} (h : |x - (θ + n * (2 * Real.pi))| ≤ Real.pi)
    (hs : (k < n ∧ m ≤ k) ∨ (n < k ∧ k ≤ m)) : |x - (θ + k * (2 * Real.pi))| ≤ |x - (θ + m * (2 * Real.pi))| := by
  have hp := Real.pi_pos
  obtain ⟨h1, h2⟩ := abs_le.1 h
  rcases hs with ⟨a, b⟩ | ⟨a, b⟩
  · have a' : (k : ℝ) + 1 ≤ n := by exact_mod_cast a
    have b' : (m : ℝ) ≤ k := by exact_mod_cast b
    have e1 : (n - k - 1 : ℝ) * (2 * Real.pi) ≥ 0 := mul_nonneg (by linarith) (by linarith)
    have e2 : (k - m : ℝ) * (2 * Real.pi) ≥ 0 := mul_nonneg (by linarith) (by linarith)
    rw [abs_of_nonneg (by linarith), abs_of_nonneg (by linarith)]; linarith
  · have a' : (n : ℝ) + 1 ≤ k := by exact_mod_cast a
    have b' : (k : ℝ) ≤ m := by exact_mod_cast b
    have e1 : (k - n - 1 : ℝ) * (2 * Real.pi) ≥ 0 := mul_nonneg (by linarith) (by linarith)
    have e2 : (m - k : ℝ) * (2 * Real.pi) ≥ 0 := mul_nonneg (by linarith) (by linarith)
    rw [abs_of_nonpos (by linarith), abs_of_nonpos (by linarith)]; linarith

/-- lines 56-66 -/
theorem normLimits_eval (l u : XReal) (θ : ℝ) :
    (∃ k : ℤ, normLimits l u (.fin θ) = some (.fin (θ + k * (2 * Real.pi))) ∧ l < .fin (θ + k * (2 * Real.pi)) ∧
      .fin (θ + k * (2 * Real.pi)) < u) ∨
    (normLimits l u (.fin θ) = none ∧
      ∀ m : ℤ, |m| ≤ 1 → ¬ (l < XReal.fin (θ + m * (2 * Real.pi)) ∧ XReal.fin (θ + m * (2 * Real.pi)) < u)) := by
  have e1 : (((-1 : ℚ)) : ℝ) = -1 := by norm_num
  have e2 : (((1 : ℚ)) : ℝ) = 1 := by norm_num
  have c1 : 2 * Real.pi * -1 + θ = θ + ((-1 : ℤ) : ℝ) * (2 * Real.pi) := by push_cast; ring
  have c2 : 2 * Real.pi * 1 + θ = θ + ((1 : ℤ) : ℝ) * (2 * Real.pi) := by push_cast; ring
  have c3 : θ + 2 * Real.pi * -1 = θ + ((-1 : ℤ) : ℝ) * (2 * Real.pi) := by push_cast; ring
  have c4 : θ + 2 * Real.pi * 1 = θ + ((1 : ℤ) : ℝ) * (2 * Real.pi) := by push_cast; ring
  have c0 : θ = θ + ((0 : ℤ) : ℝ) * (2 * Real.pi) := by push_cast; ring
  simp only [normLimits, twoPi_fin, XReal.lit_fin, e1, e2, XReal.fin_mul, XReal.fin_add, c1, c2, c3, c4]
  split_ifs with h0 h1 h2
  · left; refine ⟨0, ?_⟩; rw [← c0]; exact ⟨rfl, h0⟩
  · left; exact ⟨-1, rfl, h1⟩
  · left; exact ⟨1, rfl, h2⟩
  · right
    refine ⟨rfl, fun m hm => ?_⟩
    obtain ⟨a, b⟩ := abs_le.1 hm
    have : m = -1 ∨ m = 0 ∨ m = 1 := by omega
    rcases this with rfl | rfl | rfl
    · exact h1
    · rw [← c0]; exact h0
    · exact h2

theorem normLimits_nan (l u : XReal) : normLimits l u .nan = none := by simp [normLimits]

/-- lines 68-80 without limits -/
theorem normLast_free (x θ : ℝ) : ∃ n : ℤ, normLast none (XReal.fin x) (XReal.fin θ) = .ok (.fin (θ + n * (2 * Real.pi))) ∧
    |x - (θ + n * (2 * Real.pi))| ≤ Real.pi := by
  obtain ⟨n, hn, hb⟩ := turns_eval x θ
  refine ⟨n, ?_, hb⟩
  simp only [normLast, hn, XReal.abs_fin, XReal.zero_def, XReal.fin_lt, twoPi_fin, XReal.fin_mul, XReal.fin_add]
  split_ifs with h
  · rw [mul_comm]
  · have : (n : ℝ) = 0 := by simpa using h
    rw [this]; simp

/-- lines 68-80 with limits, from an angle inside the limits -/
theorem normLast_lim (l u : XReal) (x θ : ℝ) (hl : l < .fin θ) (hu : .fin θ < u) : ∃ k : ℤ,
    normLast (some (l, u)) (.fin x) (.fin θ) = .ok (.fin (θ + k * (2 * Real.pi))) ∧
    l < .fin (θ + k * (2 * Real.pi)) ∧ .fin (θ + k * (2 * Real.pi)) < u ∧
    ∀ m : ℤ, l < .fin (θ + m * (2 * Real.pi)) → .fin (θ + m * (2 * Real.pi)) < u →
      |x - (θ + k * (2 * Real.pi))| ≤ |x - (θ + m * (2 * Real.pi))| := by
  have hp := Real.two_pi_pos
  obtain ⟨n, hn, hb⟩ := turns_eval x θ
  have ev : normLast (some (l, u)) (.fin x) (.fin θ) = if n = 0 then .ok (.fin θ) else
      match ((List.range (n.natAbs + 1)).map fun (i : Nat) => XReal.fin (θ + ((n - n.sign * (i : ℤ) : ℤ) : ℝ) * (2 * Real.pi))).find?
        fun t => decide (l < t ∧ t < u) with
      | some t => .ok t
      | none => .error .index := by
    simp only [normLast, hn, XReal.abs_fin, XReal.zero_def, XReal.fin_lt, twoPi_fin, XReal.toInt_fin, trunc_int,
      XReal.lit_fin, XReal.fin_mul, XReal.fin_add]
    by_cases h0 : n = 0
    · simp [h0]
    · rw [if_pos (by simpa using h0), if_neg h0]
      have : ∀ i : ℕ, θ + 2 * Real.pi * (((n - n.sign * (i : ℤ) : ℤ) : ℚ) : ℝ) = θ + ((n - n.sign * (i : ℤ) : ℤ) : ℝ) * (2 * Real.pi) := by
        intro i; push_cast; ring
      simp only [this]
      split <;> rename_i h <;> simp only [h]
  rw [ev]
  by_cases h0 : n = 0
  · subst h0
    refine ⟨0, by simp, by simpa using hl, by simpa using hu, fun m _ _ => nearest_turn hb m⟩
  rw [if_neg h0]
  -- the candidate list
  cases hf : (((List.range (n.natAbs + 1)).map fun (i : Nat) => XReal.fin (θ + ((n - n.sign * (i : ℤ) : ℤ) : ℝ) * (2 * Real.pi))).find?
        fun t => decide (l < t ∧ t < u)) with
  | none =>
    exfalso
    rw [List.find?_eq_none] at hf
    have := hf (.fin θ) (by
      rw [List.mem_map]
      refine ⟨n.natAbs, by simp, ?_⟩
      rw [Int.sign_mul_natAbs]; simp)
    simp [hl, hu] at this
  | some t =>
    rw [List.find?_eq_some_iff_getElem] at hf
    obtain ⟨ht, i, hi, hti, hbefore⟩ := hf
    simp only [List.length_map, List.length_range] at hi
    simp only [List.getElem_map, List.getElem_range] at hti
    subst hti
    simp only [decide_eq_true_eq] at ht
    refine ⟨n - n.sign * (i : ℤ), rfl, ht.1, ht.2, fun m hm1 hm2 => ?_⟩
    -- position of `m` among the candidates
    by_cases hi0 : i = 0
    · subst hi0; simpa using nearest_turn hb m
    have hprev : ∀ j : ℕ, j < i → ¬ (l < XReal.fin (θ + ((n - n.sign * (j : ℤ) : ℤ) : ℝ) * (2 * Real.pi)) ∧
        XReal.fin (θ + ((n - n.sign * (j : ℤ) : ℤ) : ℝ) * (2 * Real.pi)) < u) := by
      intro j hj hh
      have := hbefore j hj
      simp only [List.getElem_map, List.getElem_range, decide_eq_true hh] at this
      simp at this
    have hn0 := hprev 0 (Nat.pos_of_ne_zero hi0)
    simp only [Nat.cast_zero, mul_zero, sub_zero] at hn0
    rcases lt_or_gt_of_ne h0 with hneg | hpos
    · -- n < 0: candidates n, n+1, ..., 0
      rw [Int.sign_eq_neg_one_of_neg hneg] at *
      apply farther hb
      right
      refine ⟨by omega, ?_⟩
      by_contra hlt
      push Not at hlt
      by_cases hmn : m < n
      · apply hn0
        have hmn' : (m : ℝ) ≤ n := by exact_mod_cast hmn.le
        have hneg' : (n : ℝ) ≤ 0 := by exact_mod_cast hneg.le
        exact ⟨XReal.lt_of_lt_fin hm1 (by nlinarith), XReal.fin_lt_of_lt hu (by nlinarith)⟩
      · have := hprev (m - n).toNat (by omega)
        apply this
        have e : n - -1 * ((m - n).toNat : ℤ) = m := by omega
        rw [e]; exact ⟨hm1, hm2⟩
    · rw [Int.sign_eq_one_of_pos hpos] at *
      apply farther hb
      left
      refine ⟨by omega, ?_⟩
      by_contra hlt
      push Not at hlt
      by_cases hmn : n < m
      · apply hn0
        have hmn' : (n : ℝ) ≤ m := by exact_mod_cast hmn.le
        have hpos' : (0 : ℝ) ≤ n := by exact_mod_cast hpos.le
        exact ⟨XReal.lt_of_lt_fin hl (by nlinarith), XReal.fin_lt_of_lt hm2 (by nlinarith)⟩
      · have := hprev (n - m).toNat (by omega)
        apply this
        have e : n - 1 * ((n - m).toNat : ℤ) = m := by omega
        rw [e]; exact ⟨hm1, hm2⟩
