import Verif.Lemmas.FlIter
import Verif.Lemmas.Lip

/-! # Rounding error of `normalize_joints` without limits -/
set_option autoImplicit false

/-- Rounding an integer gives an integer (true of every binary format: an integer that is not representable lies between two
representable integers). -/
def Spec.IntRounding (F : FSys) : Prop := ∀ n : ℤ, ∃ m : ℤ, F.rnd n = m

namespace Fl
variable {F : FSys}

theorem round_eq_fin {v : XReal} {s : ℝ} (h : F.round v = .fin s) : ∃ x, v = .fin x ∧ F.rnd x = s := by
  cases v with
  | fin x =>
    simp only [FSys.round] at h
    split_ifs at h
    exact ⟨x, rfl, by injection h⟩
  | _ => cases h

theorem add_eq_fin {a b : XReal} {s : ℝ} (h : a + b = .fin s) : ∃ x y, a = .fin x ∧ b = .fin y ∧ x + y = s := by
  cases a <;> cases b <;> first | (injection h with h; exact ⟨_, _, rfl, rfl, h⟩) | cases h

theorem mul_eq_fin {a : ℝ} {b : XReal} {s : ℝ} (h : .fin a * b = .fin s) : ∃ y, b = .fin y ∧ a * y = s := by
  cases b with
  | fin y => injection h with h; exact ⟨_, rfl, h⟩
  | nan => cases h
  | pinf =>
    change XReal.signInf a = _ at h
    unfold XReal.signInf at h
    split_ifs at h
  | ninf =>
    change XReal.signInf (-a) = _ at h
    unfold XReal.signInf at h
    split_ifs at h

theorem twoPi_near : (twoPi : Fl F).Near (2 * Real.pi) (29 * F.u) := by
  have hu0 := F.u_nonneg
  have hu := F.u_le
  have hη := F.η_le
  have hb := F.big_ge
  have p1 := Real.pi_gt_three
  have p2 := Real.pi_lt_d2
  have h2 := near_lit (F := F) 2 (S := 2) le_rfl (by linarith) (by norm_num) (by norm_num)
  have hp : (Elem.pi : Fl F).Near Real.pi (5 * F.u) := by
    refine near_round (F := F) (w := Real.pi) (d := 0) (by simp) ?_ ?_
    · rw [abs_of_pos (by linarith)]
      have : F.u * (Real.pi + 0) ≤ F.u * 4 := mul_le_mul_of_nonneg_left (by linarith) hu0
      linarith
    · rw [abs_of_pos (by linarith)]; linarith
  have := Near.mulE (F := F) (ε := F.u) (k := 3) (l := 5) (M := 2) (N := 3.15) 29 (by simpa [show (2 : ℝ) + 1 = 3 by norm_num] using h2) hp le_rfl (by linarith)
    (by norm_num) (by rw [abs_of_pos (by linarith)]; linarith) (by norm_num) (by norm_num) (by norm_num) (by norm_num)
  exact this

/-- The number of turns is an integer, if it is finite at all. -/
theorem turns_int (hI : Spec.IntRounding F) (last : Fl F) (θ : ℝ) : (∃ m : ℤ, (turns last (of θ)).val = .fin m) ∨ ∀ x, (turns last (of θ)).val ≠ .fin x := by
  have rint : ∀ n : ℤ, (∃ m : ℤ, F.round (.fin (n : ℝ)) = .fin m) ∨ ∀ x, F.round (.fin (n : ℝ)) ≠ .fin x := by
    intro n
    obtain ⟨m, hm⟩ := hI n
    by_cases h : ∃ x, F.round (.fin (n : ℝ)) = .fin x
    · obtain ⟨x, hx⟩ := h
      obtain ⟨y, hy, rfl⟩ := round_eq_fin hx
      cases hy
      exact .inl ⟨m, by rw [hx, hm]⟩
    · exact .inr fun x hx => h ⟨x, hx⟩
  have hfl : (∃ m : ℤ, (Elem.floorDiv (last - of θ) (twoPi : Fl F)).val = .fin m) ∨ ∀ x, (Elem.floorDiv (last - of θ) (twoPi : Fl F)).val ≠ .fin x := by
    change (∃ m : ℤ, F.round (Elem.floorDiv (last - of θ : Fl F).val (twoPi : Fl F).val) = .fin m) ∨
      ∀ x, F.round (Elem.floorDiv (last - of θ : Fl F).val (twoPi : Fl F).val) ≠ .fin x
    generalize (last - of θ : Fl F).val = d
    generalize (twoPi : Fl F).val = w
    cases d with
    | fin a =>
      cases w with
      | fin b =>
        change (∃ m : ℤ, F.round (if b = 0 then XReal.signInf a else .fin (⌊a / b⌋ : ℝ)) = .fin m) ∨
          ∀ x, F.round (if b = 0 then XReal.signInf a else .fin (⌊a / b⌋ : ℝ)) ≠ .fin x
        by_cases hb : b = 0
        · simp only [if_pos hb]
          right
          intro x h
          obtain ⟨y, hy, -⟩ := round_eq_fin h
          unfold XReal.signInf at hy
          split_ifs at hy
        · simp only [if_neg hb]
          exact rint _
      | _ => right; intro x h; cases h
    | _ => right; intro x h; cases w <;> cases h
  unfold turns
  simp only
  split_ifs
  · rcases hfl with ⟨m, hm⟩ | h
    · change (∃ m' : ℤ, F.round ((Elem.floorDiv (last - of θ) (twoPi : Fl F)).val + .fin 1) = .fin m') ∨ ∀ x, F.round ((Elem.floorDiv (last - of θ) (twoPi : Fl F)).val + .fin 1) ≠ .fin x
      rw [hm, XReal.fin_add]
      have := rint (m + 1)
      push_cast at this
      exact this
    · right
      intro x
      change F.round ((Elem.floorDiv (last - of θ) (twoPi : Fl F)).val + .fin 1) ≠ .fin x
      revert h
      generalize (Elem.floorDiv (last - of θ) (twoPi : Fl F)).val = v
      intro h
      cases v with
      | fin y => exact absurd rfl (h y)
      | _ => intro h; cases h
  · exact hfl

/-- The errors of the last two operations. -/
theorem turns_num {u η w t s θ m : ℝ} (hu0 : 0 ≤ u) (hu : u ≤ 1 / 1024) (hη : 0 ≤ η) (hw : |w - 2 * Real.pi| ≤ 29 * u)
    (e1 : |t - w * m| ≤ u * |w * m| + η) (e2 : |s - (θ + t)| ≤ u * |θ + t| + η) :
    |s - (θ + m * (2 * Real.pi))| ≤ 7 * u * (|θ| + |s|) + 4 * η := by
  have p1 := Real.pi_gt_d2
  set a := 2 * Real.pi * |m| with ha
  have a0 : 0 ≤ a := by positivity
  have am : |m| ≤ a / 6 := by rw [ha]; nlinarith [abs_nonneg m]
  -- the product
  have d1 : |w * m - m * (2 * Real.pi)| ≤ 29 / 6 * (u * a) := by
    rw [show w * m - m * (2 * Real.pi) = (w - 2 * Real.pi) * m by ring, abs_mul]
    have := mul_le_mul hw am (abs_nonneg _) (by linarith)
    linarith
  have ea : |m * (2 * Real.pi)| = a := by rw [abs_mul, abs_of_pos (by positivity : (0 : ℝ) < 2 * Real.pi), ha]; ring
  set z := m * (2 * Real.pi) with hz
  have ua : u * a ≤ 1 / 1024 * a := mul_le_mul_of_nonneg_right hu a0
  have ua0 : 0 ≤ u * a := by positivity
  have d2 : |w * m| ≤ a + 29 / 6 * (u * a) := by
    have := abs_add_le (w * m - z) z
    rw [sub_add_cancel, ea] at this
    linarith
  have d3 : u * |w * m| ≤ 1006 / 1000 * (u * a) := by
    have h1 : u * |w * m| ≤ u * (1006 / 1000 * a) := mul_le_mul_of_nonneg_left (by linarith) hu0
    linarith
  have d4 : |t - z| ≤ 35 / 6 * (u * a) + 1 / 100 * (u * a) + η := by
    have := abs_add_le (t - w * m) (w * m - z)
    rw [sub_add_sub_cancel] at this
    linarith
  have x0 := abs_nonneg (θ + t)
  have d5 : |θ + t| ≤ |s| + u * |θ + t| + η := by
    have := abs_sub_abs_le_abs_sub (θ + t) s
    rw [abs_sub_comm] at this
    linarith
  have ux : u * |θ + t| ≤ 1 / 1024 * |θ + t| := mul_le_mul_of_nonneg_right hu x0
  have d6 : a ≤ |t| + |t - z| := by
    have := abs_sub_abs_le_abs_sub z t
    rw [abs_sub_comm, ea] at this
    linarith
  have d7 : |t| ≤ |θ| + |θ + t| := by
    have := abs_sub (θ + t) θ
    rw [add_sub_cancel_left] at this
    linarith
  have d8 : |s - (θ + z)| ≤ |s - (θ + t)| + |t - z| := by
    have := abs_add_le (s - (θ + t)) (t - z)
    rwa [show s - (θ + t) + (t - z) = s - (θ + z) by ring] at this
  generalize |θ + t| = x at *
  have b1 : x ≤ 1001 / 1000 * (|s| + η) := by linarith
  have b2 : a ≤ 1008 / 1000 * (|θ| + |s|) + 3 * η := by
    have := abs_nonneg s
    have := abs_nonneg θ
    linarith
  have b3 : u * a ≤ 1008 / 1000 * (u * (|θ| + |s|)) + 3 * (u * η) := by
    have := mul_le_mul_of_nonneg_left b2 hu0
    linarith
  have b4 : u * x ≤ 1001 / 1000 * (u * (|θ| + |s|)) + 1001 / 1000 * (u * η) := by
    have h1 := mul_le_mul_of_nonneg_left b1 hu0
    have h2 : 0 ≤ u * |θ| := by positivity
    linarith
  have b5 : u * η ≤ 1 / 1024 * η := mul_le_mul_of_nonneg_right hu hη
  have b6 : 0 ≤ u * (|θ| + |s|) := by positivity
  linarith

/-- A finite result of the normalization differs from the joint value by whole turns, up to rounding. -/
theorem normLast_near (hI : Spec.IntRounding F) (last : Fl F) (θ : ℝ) {r : Fl F} (h : normLast none last (of θ) = .ok r) {s : ℝ} (hs : r.val = .fin s) :
    ∃ k : ℤ, |s - (θ + k * (2 * Real.pi))| ≤ 7 * F.u * (|θ| + |s|) + 4 * F.η := by
  have hu0 := F.u_nonneg
  have hu := F.u_le
  have hη := F.η_nonneg
  unfold normLast at h
  simp only at h
  split_ifs at h with hn
  · cases h
    obtain ⟨w, hw, hwd⟩ := twoPi_near (F := F)
    change F.round (.fin θ + F.round ((twoPi : Fl F).val * (turns last (of θ)).val)) = .fin s at hs
    rw [hw] at hs
    obtain ⟨x, hx, hs'⟩ := round_eq_fin hs
    obtain ⟨θ', t, h1, h2, rfl⟩ := add_eq_fin hx
    cases h1
    obtain ⟨y, h3, rfl⟩ := round_eq_fin h2
    obtain ⟨n, hn', rfl⟩ := mul_eq_fin h3
    rcases turns_int hI last θ with ⟨m, hm⟩ | hm
    · rw [hn'] at hm
      injection hm with hm
      subst hm
      refine ⟨m, ?_⟩
      have e1 := F.rnd_err (w * m)
      have e2 := F.rnd_err (θ + F.rnd (w * m))
      rw [hs'] at e2
      generalize F.rnd (w * m) = t at *
      exact turns_num hu0 hu hη hwd e1 e2
    · exact absurd hn' (hm n)
  · cases h
    refine ⟨0, ?_⟩
    obtain rfl : θ = s := by injection hs
    have := abs_nonneg θ
    simp
    positivity

end Fl
