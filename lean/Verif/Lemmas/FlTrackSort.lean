import Verif.Lemmas.FlTrackCall

/-!
# The computed distances by which the inverse kinematics sort their rows

Bounds in both directions: a row whose joints are all near the last joint values has a small computed distance, and the joints of a row of small computed
distance are all near the last joint values.
-/
set_option autoImplicit false

namespace Fl
variable {F : FSys}

theorem rnd_le (hu : F.u ≤ 1 / 100000000000) {x : ℝ} (hx : 0 ≤ x) : F.rnd x ≤ 1001 / 1000 * x + 1 / 100000000000 := by
  have h := (abs_le.1 (F.rnd_err x)).2
  rw [abs_of_nonneg hx] at h
  have := F.η_le
  have h1 : F.u * x ≤ 1 / 1000 * x := mul_le_mul_of_nonneg_right (by linarith) hx
  linarith

theorem le_rnd (hu : F.u ≤ 1 / 100000000000) {x : ℝ} (hx : 0 ≤ x) : x ≤ 1001 / 1000 * F.rnd x + 1 / 50000000000 := by
  have h := (abs_le.1 (F.rnd_err x)).1
  rw [abs_of_nonneg hx] at h
  have := F.η_le
  have h1 : F.u * x ≤ 1 / 2000 * x := mul_le_mul_of_nonneg_right (by linarith) hx
  linarith

/-- The computed sum of squares. -/
theorem sumsq_cons (a : Fl F) (l : List (Fl F)) : ((a :: l).map fun x => x * x).sum = a * a + (l.map fun x => x * x).sum := by
  rw [List.map_cons, List.sum_cons]

/-- Small entries have a small sum of squares. -/
theorem sumsq_le (hu : F.u ≤ 1 / 100000000000) {K : ℝ} (hK : K ≤ 10) {l : List (Fl F)} (h : ∀ x ∈ l, ∃ v, x.val = .fin v ∧ |v| ≤ K) (hlen : l.length ≤ 6) :
    ∃ s, (l.map fun x => x * x).sum.val = .fin s ∧ 0 ≤ s ∧ s ≤ (1001 / 1000) ^ (2 * l.length) * (l.length * (K ^ 2 + 1 / 10000000000)) := by
  induction l with
  | nil => exact ⟨0, rfl, le_rfl, by simp⟩
  | cons a l ih =>
    obtain ⟨s, hs, s0, hsl⟩ := ih (fun x hx => h x (by simp [hx])) (by simp at hlen; omega)
    obtain ⟨v, hv, hvk⟩ := h a (by simp)
    have K0 := (abs_nonneg _).trans hvk
    have vv : v * v ≤ K ^ 2 := by rw [← sq, ← sq_abs]; exact pow_le_pow_left₀ (abs_nonneg _) hvk 2
    have vv0 := mul_self_nonneg v
    have bg := F.big_ge
    have K2 : K ^ 2 ≤ 100 := by nlinarith
    rw [List.length_cons] at hlen ⊢
    have hn : (l.length : ℝ) ≤ 5 := by exact_mod_cast (by omega : l.length ≤ 5)
    generalize l.length = n at *
    have c1 : (1 : ℝ) ≤ (1001 / 1000) ^ (2 * n) := one_le_pow₀ (by norm_num)
    have c2 : ((1001 / 1000) ^ (2 * n) : ℝ) ≤ 2 := by
      refine (pow_le_pow_right₀ (by norm_num) (show 2 * n ≤ 12 by omega)).trans ?_
      norm_num
    have c3 : ((1001 / 1000) ^ (2 * (n + 1)) : ℝ) = (1001 / 1000) ^ (2 * n) * (1001 / 1000) ^ 2 := by rw [mul_add, pow_add]
    generalize ((1001 / 1000) ^ (2 * n) : ℝ) = c at *
    have t0 := F.rnd_nonneg _ vv0
    have t1 := rnd_le hu vv0
    have n0 : (0 : ℝ) ≤ n := Nat.cast_nonneg _
    have sm : s ≤ 2 * (5 * 101) := hsl.trans (mul_le_mul c2 (mul_le_mul hn (by linarith) (by positivity) (by norm_num)) (by positivity) (by norm_num))
    have r1 : (a * a).val = .fin (F.rnd (v * v)) := by
      change F.round (a.val * a.val) = _
      rw [hv]
      exact round_of rfl (by rw [abs_of_nonneg t0]; linarith)
    have w0 : 0 ≤ F.rnd (v * v) + s := by linarith
    have t2 := F.rnd_nonneg _ w0
    have t3 := rnd_le hu w0
    refine ⟨F.rnd (F.rnd (v * v) + s), ?_, t2, ?_⟩
    · rw [sumsq_cons]
      change F.round ((a * a).val + _) = _
      rw [r1, hs]
      exact round_of rfl (by rw [abs_of_nonneg t2]; linarith)
    · rw [c3]
      push_cast
      have e : K ^ 2 + 1 / 10000000000 ≤ c * (K ^ 2 + 1 / 10000000000) := le_mul_of_one_le_left (by positivity) c1
      have : 0 ≤ c * (n * (K ^ 2 + 1 / 10000000000)) := by positivity
      rw [show c * (1001 / 1000) ^ 2 * ((n + 1) * (K ^ 2 + 1 / 10000000000)) =
        (1001 / 1000) ^ 2 * (c * (n * (K ^ 2 + 1 / 10000000000))) + (1001 / 1000) ^ 2 * (c * (K ^ 2 + 1 / 10000000000)) by ring]
      generalize c * (n * (K ^ 2 + 1 / 10000000000)) = X at *
      generalize c * (K ^ 2 + 1 / 10000000000) = Y at *
      have : 0 ≤ K ^ 2 := by positivity
      linarith

/-- A small sum of squares has small entries. -/
theorem le_sumsq (hu : F.u ≤ 1 / 100000000000) {l : List (Fl F)} {s : ℝ} (h : (l.map fun x => x * x).sum.val = .fin s) :
    0 ≤ s ∧ ∀ x ∈ l, ∃ v, x.val = .fin v ∧ v ^ 2 ≤ (1001 / 1000) ^ (2 * l.length) * (s + l.length * (1 / 10000000000)) := by
  induction l generalizing s with
  | nil =>
    cases h
    exact ⟨le_rfl, by simp⟩
  | cons a l ih =>
    rw [sumsq_cons] at h
    change F.round ((a * a).val + _) = _ at h
    obtain ⟨y, hy, hys⟩ := round_eq_fin (F := F) h
    obtain ⟨t, s', ht, hs', rfl⟩ := add_eq_fin hy
    obtain ⟨s0, hl⟩ := ih hs'
    change F.round (a.val * a.val) = _ at ht
    obtain ⟨z, hz, hzt⟩ := round_eq_fin (F := F) ht
    obtain ⟨v, hv, rfl⟩ : ∃ v, a.val = .fin v ∧ v * v = z := by
      cases ha : a.val with
      | fin v =>
        rw [ha] at hz
        obtain ⟨w, hw, e⟩ := mul_eq_fin hz
        cases hw
        exact ⟨v, rfl, e⟩
      | nan => rw [ha] at hz; cases hz
      | pinf => rw [ha] at hz; cases hz
      | ninf => rw [ha] at hz; cases hz
    subst hzt hys
    have vv0 := mul_self_nonneg v
    have t0 := F.rnd_nonneg _ vv0
    have t1 := le_rnd hu vv0
    have w0 : 0 ≤ F.rnd (v * v) + s' := by linarith
    have t2 := F.rnd_nonneg _ w0
    have t3 := le_rnd hu w0
    rw [List.length_cons]
    generalize l.length = n at *
    have c1 : (1 : ℝ) ≤ (1001 / 1000) ^ (2 * n) := one_le_pow₀ (by norm_num)
    have c3 : ((1001 / 1000) ^ (2 * (n + 1)) : ℝ) = (1001 / 1000) ^ (2 * n) * (1001 / 1000) ^ 2 := by rw [mul_add, pow_add]
    rw [c3]
    generalize ((1001 / 1000) ^ (2 * n) : ℝ) = c at *
    have n0 : (0 : ℝ) ≤ n := Nat.cast_nonneg _
    push_cast
    generalize F.rnd (F.rnd (v * v) + s') = s at *
    generalize F.rnd (v * v) = t at *
    refine ⟨t2, fun x hx => ?_⟩
    rcases List.mem_cons.1 hx with rfl | hx
    · refine ⟨v, hv, ?_⟩
      have e : (1001 / 1000) ^ 2 * (s + (n + 1) * (1 / 10000000000)) ≤ c * ((1001 / 1000) ^ 2 * (s + (n + 1) * (1 / 10000000000))) :=
        le_mul_of_one_le_left (by positivity) c1
      rw [sq v, mul_assoc]
      linarith
    · obtain ⟨w, hw, hwl⟩ := hl x hx
      refine ⟨w, hw, hwl.trans ?_⟩
      rw [mul_assoc]
      exact mul_le_mul_of_nonneg_left (by linarith) (by linarith)

theorem sqrt_num1 {s k K κ x : ℝ} (K0 : 0 ≤ K) (hs : s ≤ (1001 / 1000) ^ (2 * 6) * (6 * (K ^ 2 + 1 / 10000000000))) (hx : x ≤ Real.sqrt s) (hk : k ≤ 1001 / 1000 * x + 1 / 100000000000)
    (hK : K ≤ 1001 / 1000 * κ + 1 / 100000000000) : k ≤ 5 / 2 * κ + 1 / 40000 := by
  have h : Real.sqrt s ≤ 24643 / 10000 * (K + 1 / 100000) := by
    rw [Real.sqrt_le_iff]
    refine ⟨by positivity, hs.trans ?_⟩
    have : ((1001 / 1000) ^ (2 * 6) * 6 : ℝ) ≤ (24643 / 10000) ^ 2 := by norm_num
    have h2 : K ^ 2 + 1 / 10000000000 ≤ (K + 1 / 100000) ^ 2 := by nlinarith
    rw [mul_pow, ← mul_assoc]
    exact mul_le_mul this h2 (by positivity) (by norm_num)
  linarith

theorem sqrt_num2 {s k v x y : ℝ} (s0 : 0 ≤ s) (hv : v ^ 2 ≤ (1001 / 1000) ^ (2 * 6) * (s + 6 * (1 / 10000000000))) (hx : Real.sqrt s ≤ x) (hk : x ≤ 1001 / 1000 * k + 1 / 50000000000)
    (hy : y ≤ 1001 / 1000 * |v| + 1 / 50000000000) : y ≤ 10082 / 10000 * k + 25 / 1000000 := by
  have h0 := Real.sqrt_nonneg s
  have e := Real.sq_sqrt s0
  have h : |v| ≤ 100605 / 100000 * (Real.sqrt s + 245 / 10000000) := by
    refine abs_le_of_sq_le_sq ?_ (by positivity)
    refine hv.trans ?_
    have : ((1001 / 1000) ^ (2 * 6) : ℝ) ≤ (100605 / 100000) ^ 2 := by norm_num
    have h2 : s + 6 * (1 / 10000000000) ≤ (Real.sqrt s + 245 / 10000000) ^ 2 := by nlinarith
    rw [mul_pow]
    exact mul_le_mul this h2 (by positivity) (by norm_num)
  linarith

theorem abs_rnd_le (hu : F.u ≤ 1 / 100000000000) (x : ℝ) : |F.rnd x| ≤ 1001 / 1000 * |x| + 1 / 100000000000 := by
  have h := F.rnd_err x
  have := F.η_le
  have h1 : F.u * |x| ≤ 1 / 1000 * |x| := mul_le_mul_of_nonneg_right (by linarith) (abs_nonneg x)
  have h2 := abs_add_le (F.rnd x - x) x
  rw [sub_add_cancel] at h2
  linarith

theorem le_abs_rnd (hu : F.u ≤ 1 / 100000000000) (x : ℝ) : |x| ≤ 1001 / 1000 * |F.rnd x| + 1 / 50000000000 := by
  have h := F.rnd_err x
  have := F.η_le
  have h1 : F.u * |x| ≤ 1 / 2000 * |x| := mul_le_mul_of_nonneg_right (by linarith) (abs_nonneg x)
  have h2 := abs_sub (F.rnd x) (F.rnd x - x)
  rw [sub_sub_cancel] at h2
  have h3 := abs_nonneg (F.rnd x)
  linarith

/-- The joints of the row are finite and within `κ` of the last joint values. -/
def RowClose (row : List (Fl F)) (a : List ℝ) (κ : ℝ) : Prop := List.Forall₂ (fun x t => x.Near t κ) row a

theorem rowKey_small (hu : F.u ≤ 1 / 100000000000) {row : List (Fl F)} {a : List ℝ} {κ : ℝ} (h : RowClose row a κ) (hκ : κ ≤ 9) (ha : a.length = 6) :
    ∃ k, (rowKey (a.map of) row).val = .fin k ∧ k ≤ 5 / 2 * κ + 1 / 40000 := by
  have κ0 : 0 ≤ κ := by
    obtain _ | ⟨⟨v, -, h⟩, -⟩ := h
    · cases ha
    · exact (abs_nonneg _).trans h
  have bg := F.big_ge
  have len := h.length_eq
  have ent : ∀ x ∈ (row.zip (a.map of)).map fun x => x.1 - x.2, ∃ v, x.val = .fin v ∧ |v| ≤ 1001 / 1000 * κ + 1 / 100000000000 := by
    clear ha len
    induction h with
    | nil => simp
    | @cons x t row a h1 _ ih =>
      intro y hy
      rw [List.map_cons, List.zip_cons_cons, List.map_cons, List.mem_cons] at hy
      rcases hy with rfl | hy
      · obtain ⟨v, hv, hvt⟩ := h1
        have b := abs_rnd_le hu (v - t)
        refine ⟨F.rnd (v - t), ?_, by linarith⟩
        change F.round (x.val - .fin t) = _
        rw [hv]
        exact round_of rfl (by linarith)
      · exact ih y hy
  have l6 : ((row.zip (a.map of)).map fun x : Fl F × Fl F => x.1 - x.2).length = 6 := by
    rw [List.length_map, List.length_zip, List.length_map, len, ha, min_self]
  obtain ⟨s, hs, s0, hsl⟩ := sumsq_le hu (K := 1001 / 1000 * κ + 1 / 100000000000) (by linarith) ent (by rw [l6])
  rw [l6] at hsl
  have t0 := Real.sqrt_nonneg s
  have t1 := rnd_le hu t0
  have t2 := F.rnd_nonneg _ t0
  have := sqrt_num1 (k := F.rnd (Real.sqrt s)) (κ := κ) (by positivity) (by exact_mod_cast hsl) le_rfl t1 le_rfl
  refine ⟨F.rnd (Real.sqrt s), ?_, this⟩
  change F.round (Elem.sqrt (((row.zip (a.map of)).map fun x : Fl F × Fl F => x.1 - x.2).map fun x => x * x).sum.val) = _
  rw [hs, XReal.sqrt_fin s0]
  exact round_of rfl (by rw [abs_of_nonneg t2]; linarith)

theorem rowKey_close (hu : F.u ≤ 1 / 100000000000) {row : List (Fl F)} {a : List ℝ} (hrow : row.length = 6) (ha : a.length = 6)
    {k κ : ℝ} (hk : (rowKey (a.map of) row).val = .fin k) (hκ : k ≤ 5 / 2 * κ + 1 / 40000) : RowClose row a (13 / 5 * κ + 1 / 10000) := by
  change F.round (Elem.sqrt (((row.zip (a.map of)).map fun x : Fl F × Fl F => x.1 - x.2).map fun x => x * x).sum.val) = _ at hk
  obtain ⟨y, hy, hyk⟩ := round_eq_fin (F := F) hk
  cases hs : (((row.zip (a.map of)).map fun x : Fl F × Fl F => x.1 - x.2).map fun x => x * x).sum.val with
  | nan => rw [hs] at hy; cases hy
  | ninf => rw [hs] at hy; cases hy
  | pinf => rw [hs] at hy; cases hy
  | fin s =>
    rw [hs] at hy
    obtain ⟨s0, hl⟩ := le_sumsq hu hs
    have l6 : ((row.zip (a.map of)).map fun x : Fl F × Fl F => x.1 - x.2).length = 6 := by
      rw [List.length_map, List.length_zip, List.length_map, hrow, ha, min_self]
    rw [l6] at hl
    rw [XReal.sqrt_fin s0] at hy
    cases hy
    subst hyk
    have t0 := Real.sqrt_nonneg s
    have t2 := F.rnd_nonneg _ t0
    have t1 := le_rnd hu t0
    have key : ∀ x ∈ (row.zip (a.map of)).map fun x : Fl F × Fl F => x.1 - x.2, ∃ v, x.val = .fin v ∧ 1001 / 1000 * |v| + 1 / 50000000000 ≤ 13 / 5 * κ + 1 / 10000 := by
      intro x hx
      obtain ⟨v, hv, hvl⟩ := hl x hx
      refine ⟨v, hv, ?_⟩
      have := sqrt_num2 s0 (by exact_mod_cast hvl) le_rfl t1 (v := v) le_rfl
      linarith
    have len : row.length = a.length := by rw [hrow, ha]
    clear hl hs hk t1 t2 hκ l6 hrow ha
    induction row generalizing a with
    | nil =>
      rcases a with _ | ⟨t, a⟩
      · exact .nil
      · cases len
    | cons x row ih =>
      rcases a with _ | ⟨t, a⟩
      · cases len
      rw [List.map_cons, List.zip_cons_cons, List.map_cons] at key
      refine .cons ?_ (ih (fun y hy => key y (List.mem_cons_of_mem _ hy)) (by simpa using len))
      obtain ⟨w, hw, hwl⟩ := key _ List.mem_cons_self
      change F.round (x.val - .fin t) = _ at hw
      obtain ⟨y, hy, rfl⟩ := round_eq_fin (F := F) hw
      obtain ⟨v, t', hv, e, rfl⟩ := sub_eq_fin hy
      cases e
      exact ⟨v, hv, (le_abs_rnd hu _).trans hwl⟩

/-- If some row is within `κ` of the last joint values, the first row after the sort is nearly as near. -/
theorem sort_first (hu : F.u ≤ 1 / 100000000000) {rows : List (List (Fl F))} {a : List ℝ} (ha : a.length = 6) (hrows : ∀ row ∈ rows, row.length = 6)
    {row0 : List (Fl F)} (h0 : row0 ∈ rows) {κ : ℝ} (hclose : RowClose row0 a κ) (hκ : κ ≤ 9) :
    ∃ sols row, sortByLast rows (some (a.map of)) = .ok sols ∧ sols.Perm rows ∧ sols.head? = some row ∧ RowClose row a (13 / 5 * κ + 1 / 10000) := by
  obtain ⟨sols, hs, hp, hsort⟩ := sortByLast_run (ls := a.map of) (List.ne_nil_of_mem h0) (fun s hs => by rw [hrows s hs, List.length_map, ha])
  rcases sols with _ | ⟨row, sols⟩
  · exact absurd (hp.mem_iff.2 h0) (by simp)
  refine ⟨_, row, hs, hp, rfl, ?_⟩
  obtain ⟨k0, hk0, hk0l⟩ := rowKey_small hu hclose hκ ha
  have hr6 := hrows row (hp.mem_iff.1 (by simp))
  rcases List.mem_cons.1 (hp.mem_iff.2 h0) with rfl | hm
  · exact rowKey_close hu hr6 ha hk0 hk0l
  · have h := (List.pairwise_cons.1 hsort).1 row0 hm
    rw [hk0] at h
    cases hk : (rowKey (a.map of) row).val with
    | fin k =>
      rw [hk] at h
      refine rowKey_close hu hr6 ha hk (le_trans ?_ hk0l)
      by_contra hlt
      exact h (.inl (not_le.1 hlt))
    | nan =>
      rw [hk] at h
      exact absurd (Or.inr ⟨by rw [XReal.feq_self]; simp, by rw [XReal.feq_self]; simp⟩) h
    | pinf =>
      rw [hk] at h
      exact absurd (Or.inl (by simp [XReal.lt_iff, XReal.lt])) h
    | ninf =>
      change F.round (Elem.sqrt (((row.zip (a.map of)).map fun x : Fl F × Fl F => x.1 - x.2).map fun x => x * x).sum.val) = _ at hk
      cases hs : (((row.zip (a.map of)).map fun x : Fl F × Fl F => x.1 - x.2).map fun x => x * x).sum.val with
      | nan => rw [hs] at hk; cases hk
      | ninf => rw [hs] at hk; cases hk
      | pinf => rw [hs] at hk; cases hk
      | fin s =>
        have s0 := (le_sumsq hu hs).1
        rw [hs, XReal.sqrt_fin s0] at hk
        simp only [FSys.round] at hk
        split_ifs at hk with _ hlt
        exact absurd (Real.sqrt_nonneg s) (not_le.2 hlt)

end Fl
