import Verif.Lemmas.FlKeeps
import Verif.Lemmas.Normalize

/-!
# `normalize_joints` with limits and last joint values, in floating point

The number of turns is the integer that brings the angle within half a turn of the last joint value, up to a thousandth; the moved angle is the same angle up to
a few rounding errors; and the candidate within half a turn of the last joint value survives.
-/
set_option autoImplicit false

namespace Fl
variable {F : FSys}

section
variable (hI : Spec.IntRounding F) (hu : F.u ≤ 1 / 100000000000)
include hI hu

/-- Small integers are floating-point numbers. -/
theorem rnd_int {n : ℤ} (hn : |(n : ℝ)| ≤ 1000) : F.rnd n = n := by
  have hη := F.η_le
  obtain ⟨m, hm⟩ := hI n
  have h := F.rnd_err n
  rw [hm] at h ⊢
  have h1 : F.u * |(n : ℝ)| ≤ F.u * 1000 := mul_le_mul_of_nonneg_left hn F.u_nonneg
  have h2 : |((m - n : ℤ) : ℝ)| < 1 := by push_cast; linarith
  have h3 : |m - n| < 1 := by exact_mod_cast h2
  have h4 : m = n := by rw [Int.abs_lt_one_iff] at h3; omega
  rw [h4]

theorem round_int {n : ℤ} (hn : |(n : ℝ)| ≤ 1000) : F.round (.fin (n : ℝ)) = .fin n := by
  have b := F.big_ge
  rw [FSys.round, rnd_int hI hu hn, if_pos (by linarith)]

theorem lit_int {n : ℤ} (hn : |(n : ℝ)| ≤ 1000) : (lit (n : ℚ) : Fl F) = of n := by
  have h : (lit (n : ℚ) : Fl F).val = .fin n := by
    change F.round (.fin ((n : ℚ) : ℝ)) = _
    rw [Rat.cast_intCast]
    exact round_int hI hu hn
  cases hl : (lit (n : ℚ) : Fl F)
  rw [hl] at h
  cases h
  rfl

end

theorem turns_num1 {d w n r p u : ℝ} (u0 : 0 ≤ u) (hu : u ≤ 1 / 100000000000) (hw : |w - 2 * Real.pi| ≤ 29 * u) (h1 : 0 ≤ d - w * n) (h2 : d - w * n < w)
    (hr : |r - (d - w * n)| ≤ 20 * u) (hp : |p - Real.pi| ≤ 5 * u) :
    (p < r → |d - w * (n + 1)| ≤ Real.pi + 1 / 10000) ∧ (¬ p < r → |d - w * n| ≤ Real.pi + 1 / 10000) := by
  obtain ⟨w1, w2⟩ := abs_le.1 hw
  obtain ⟨r1, r2⟩ := abs_le.1 hr
  obtain ⟨p1, p2⟩ := abs_le.1 hp
  constructor
  · intro h
    exact abs_le.2 ⟨by linarith, by linarith [Real.pi_pos]⟩
  · intro h
    exact abs_le.2 ⟨by linarith [Real.pi_pos], by linarith⟩

/-- The number of turns brings the angle within half a turn of the last joint value. -/
theorem turns_near (hI : Spec.IntRounding F) (hu : F.u ≤ 1 / 100000000000) {a b : ℝ} (ha : |a| ≤ 110) (hb : |b| ≤ 300) :
    ∃ m : ℤ, turns (of a) (of b : Fl F) = of m ∧ |a - b - m * (2 * Real.pi)| ≤ Real.pi + 1 / 1000 := by
  have u0 := F.u_nonneg
  have η0 := F.η_nonneg
  have ηu := F.η_le
  have bg := F.big_ge
  have p1 := Real.pi_gt_d2
  have p2 := Real.pi_lt_d2
  obtain ⟨w, hw, hwd⟩ := twoPi_near (F := F)
  have hab : |a - b| ≤ 410 := (abs_sub a b).trans (by linarith)
  obtain ⟨d, hd, hdd⟩ := Near.subE (ε := F.u) (k := 0) (l := 0) (S := 410) 411 (by rw [zero_mul]; exact near_of (F := F) a) (by rw [zero_mul]; exact near_of b) le_rfl
    (by linarith) hab (by norm_num) (by norm_num) (by norm_num)
  obtain ⟨p, hp, hpd⟩ : (Elem.pi : Fl F).Near Real.pi (5 * F.u) := by
    refine near_round (F := F) (w := Real.pi) (d := 0) (by simp) ?_ ?_
    · rw [abs_of_pos (by linarith)]
      have : F.u * (Real.pi + 0) ≤ F.u * 4 := mul_le_mul_of_nonneg_left (by linarith) u0
      linarith
    · rw [abs_of_pos (by linarith)]; linarith
  have w0 : 6 < w := by have := abs_le.1 hwd; linarith
  have w1 : w < 7 := by have := abs_le.1 hwd; linarith
  have hw0 : w ≠ 0 := by linarith
  set n := ⌊d / w⌋ with hn
  have f1 : (n : ℝ) ≤ d / w := Int.floor_le _
  have f2 : d / w < n + 1 := Int.lt_floor_add_one _
  have g1 : 0 ≤ d - w * n := by
    rw [le_div_iff₀ (by linarith)] at f1
    linarith
  have g2 : d - w * n < w := by
    rw [div_lt_iff₀ (by linarith)] at f2
    linarith
  have dle : |d| ≤ 411 := by
    have := abs_add_le (d - (a - b)) (a - b)
    rw [sub_add_cancel] at this
    linarith
  have nle : |(n : ℝ)| ≤ 70 := by
    rw [abs_le] at dle ⊢
    constructor <;> nlinarith
  have efl : (Elem.floorDiv (of a - of b) (twoPi : Fl F)) = of n := by
    have : (Elem.floorDiv (of a - of b) (twoPi : Fl F)).val = .fin n := by
      change F.round (Elem.floorDiv (of a - of b : Fl F).val (twoPi : Fl F).val) = _
      rw [hd, hw, XReal.floorDiv_fin _ hw0]
      exact round_int hI hu (by linarith)
    cases hl : (Elem.floorDiv (of a - of b) (twoPi : Fl F))
    rw [hl] at this
    cases this
    rfl
  obtain ⟨r, hr, hrd⟩ : (Elem.remainder (of a - of b) (twoPi : Fl F)).Near (d - w * n) (20 * F.u) := by
    have h := near_round (F := F) (w := d - w * n) (x := d - w * n) (d := 0) (e := 20 * F.u) (by simp) (by
      rw [abs_of_nonneg g1]
      have : F.u * (d - w * n + 0) ≤ F.u * 7 := mul_le_mul_of_nonneg_left (by linarith) u0
      linarith) (by rw [abs_of_nonneg g1]; linarith)
    have e : (Elem.remainder (of a - of b) (twoPi : Fl F)) = ⟨F.round (.fin (d - w * n))⟩ := by
      change (⟨F.round (Elem.remainder (of a - of b : Fl F).val (twoPi : Fl F).val)⟩ : Fl F) = _
      rw [hd, hw, XReal.remainder_fin _ hw0]
    rw [e]
    exact h
  have hc : ((Elem.pi : Fl F) < Elem.remainder (of a - of b) (twoPi : Fl F)) ↔ p < r := by
    change (Elem.pi : Fl F).val < (Elem.remainder (of a - of b) (twoPi : Fl F)).val ↔ _
    rw [hp, hr, XReal.fin_lt]
  obtain ⟨t1, t2⟩ := turns_num1 u0 hu hwd g1 g2 hrd hpd
  have close : ∀ m : ℤ, |(m : ℝ)| ≤ 71 → |d - w * m| ≤ Real.pi + 1 / 10000 → |a - b - m * (2 * Real.pi)| ≤ Real.pi + 1 / 1000 := by
    intro m hm h
    have e : a - b - m * (2 * Real.pi) = (d - w * m) - (d - (a - b)) + (w - 2 * Real.pi) * m := by ring
    rw [e]
    have h1 := abs_add_le ((d - w * m) - (d - (a - b))) ((w - 2 * Real.pi) * m)
    have h2 := abs_sub (d - w * m) (d - (a - b))
    have h3 : |(w - 2 * Real.pi) * m| ≤ 29 * F.u * 71 := by
      rw [abs_mul]
      exact mul_le_mul hwd hm (abs_nonneg _) (by linarith)
    linarith
  unfold turns
  simp only
  split_ifs with h
  · refine ⟨n + 1, ?_, ?_⟩
    · rw [efl]
      change (⟨F.round (.fin (n : ℝ) + .fin 1)⟩ : Fl F) = _
      have := round_int (n := n + 1) hI hu (by
        push_cast
        have := abs_add_le (n : ℝ) 1
        rw [abs_one] at this
        linarith)
      push_cast at this
      rw [XReal.fin_add, this]
      simp [of]
    · refine close (n + 1) ?_ ?_
      · push_cast
        have := abs_add_le (n : ℝ) 1
        rw [abs_one] at this
        linarith
      · push_cast
        exact t1 (hc.1 h)
  · exact ⟨n, efl, close n (by linarith) (t2 (fun g => h (hc.2 g)))⟩

/-- Moving by whole turns. -/
theorem shift_near (hu : F.u ≤ 1 / 100000000000) {b B N : ℝ} {m : ℤ} (hb : |b| ≤ B) (hm : |(m : ℝ)| ≤ N) (hB : B ≤ 1000) (hN : N ≤ 1000) :
    (of b + twoPi * of m : Fl F).Near (b + m * (2 * Real.pi)) ((43 * N + B + 4) * F.u) := by
  have u0 := F.u_nonneg
  have p1 := Real.pi_gt_d2
  have p2 := Real.pi_lt_d2
  have B0 := (abs_nonneg _).trans hb
  have N0 := (abs_nonneg _).trans hm
  have hp : |2 * Real.pi| ≤ 63 / 10 := by rw [abs_of_pos (by positivity)]; linarith
  have h1 := Near.mulE (ε := F.u) (k := 29) (l := 0) (M := 63 / 10) (N := N) (36 * N + 2) (twoPi_near (F := F)) (by rw [zero_mul]; exact near_of (F := F) (m : ℝ)) le_rfl (by linarith)
    hp hm (by norm_num) le_rfl (by linarith) (by linarith)
  have h2 := Near.addE (ε := F.u) (k := 0) (l := 36 * N + 2) (S := B + 63 / 10 * N) (43 * N + B + 4) (by rw [zero_mul]; exact near_of (F := F) b) h1 le_rfl (by linarith)
    (by
      refine (abs_add_le _ _).trans (add_le_add hb ?_)
      rw [abs_mul]
      exact mul_le_mul hp hm (abs_nonneg _) (by norm_num)) (by linarith) (by linarith) (by linarith)
  rwa [mul_comm (2 * Real.pi)] at h2

/-- `y` is the angle `b` moved by `m` turns, up to `e`. -/
def Moved (b : ℝ) (m : ℤ) (e : ℝ) (y : Fl F) : Prop := y.Near (b + m * (2 * Real.pi)) e

theorem Moved.same {b e : ℝ} {m : ℤ} {y : Fl F} (h : Moved b m e y) : Same e y (of b) := by
  intro θ d hd
  obtain ⟨n, v, hv, hn⟩ := hd
  cases hv
  obtain ⟨s, hs, hse⟩ := h
  refine ⟨n + m, s, hs, ?_⟩
  push_cast
  rw [show s - (θ + (n + m) * (2 * Real.pi)) = (b - (θ + n * (2 * Real.pi))) + (s - (b + m * (2 * Real.pi))) by ring]
  exact (abs_add_le _ _).trans (add_le_add hn hse)

theorem Moved.trans {b v e d : ℝ} {m n : ℤ} {y : Fl F} (h1 : |v - (b + m * (2 * Real.pi))| ≤ e) (h2 : Moved v n d y) : Moved b (m + n) (e + d) y := by
  obtain ⟨s, hs, hse⟩ := h2
  refine ⟨s, hs, ?_⟩
  push_cast
  rw [show s - (b + (m + n) * (2 * Real.pi)) = (v - (b + m * (2 * Real.pi))) + (s - (v + n * (2 * Real.pi))) by ring]
  exact (abs_add_le _ _).trans (add_le_add h1 hse)

theorem fl_add_comm (a b : Fl F) : a + b = b + a := by
  change (⟨F.round (a.val + b.val)⟩ : Fl F) = ⟨F.round (b.val + a.val)⟩
  have : a.val + b.val = b.val + a.val := by
    cases a.val <;> cases b.val <;> first | rfl | (simp only [XReal.fin_add, add_comm])
  rw [this]

/-- What `normLimits` returns. -/
theorem normLimits_cases (hE : Spec.ExactRnd F) (hI : Spec.IntRounding F) (hu : F.u ≤ 1 / 100000000000) {l u : Fl F} {b S : ℝ} (hb : |b| ≤ S) (hS : S ≤ 900)
    (hr : Rep F b) {t : Fl F} (h : normLimits l u (of b) = some t) :
    (l < t ∧ t < u) ∧ RepS t ∧ ∃ m : ℤ, |(m : ℝ)| ≤ 1 ∧ Moved b m ((S + 47) * F.u) t := by
  have u0 := F.u_nonneg
  have S0 := (abs_nonneg _).trans hb
  have e1 : (lit (-1) : Fl F) = of (-1) := by
    have := lit_int (F := F) (n := -1) hI hu (by norm_num)
    simpa using this
  have e2 : (lit 1 : Fl F) = of 1 := by
    have := lit_int (F := F) (n := 1) hI hu (by norm_num)
    simpa using this
  have mv : ∀ m : ℤ, |(m : ℝ)| ≤ 1 → Moved b m ((S + 47) * F.u) (of b + twoPi * of m : Fl F) := by
    intro m hm
    exact (shift_near hu hb hm (by linarith) (by norm_num)).mono (by linarith)
  unfold normLimits at h
  simp only at h
  split_ifs at h with c1 c2 c3
  · cases h
    exact ⟨c1, RepS.of hr, 0, by simp, b, rfl, by simp; positivity⟩
  · cases h
    rw [fl_add_comm] at c2
    refine ⟨c2, repS_add hE _ _, -1, by norm_num, ?_⟩
    rw [e1]
    have := mv (-1) (by norm_num)
    push_cast at this
    exact this
  · cases h
    rw [fl_add_comm] at c3
    refine ⟨c3, repS_add hE _ _, 1, by norm_num, ?_⟩
    rw [e2]
    have := mv 1 (by norm_num)
    push_cast at this
    exact this

/-- The error of a move towards the last joint value, for angles of at most `S`. -/
noncomputable def moveErr (F : FSys) (S : ℝ) : ℝ := (43 * ((114 + S) / 6) + S + 4) * F.u

theorem turns_le {a b S : ℝ} {m : ℤ} (ha : |a| ≤ 110) (hb : |b| ≤ S) (h : |a - b - m * (2 * Real.pi)| ≤ Real.pi + 1 / 1000) : |(m : ℝ)| ≤ (114 + S) / 6 := by
  have p1 := Real.pi_gt_d2
  have p2 := Real.pi_lt_d2
  have h1 : |(m : ℝ) * (2 * Real.pi)| ≤ 114 + S := by
    rw [show (m : ℝ) * (2 * Real.pi) = a - b - (a - b - m * (2 * Real.pi)) by ring]
    refine (abs_sub _ _).trans ?_
    have := abs_sub a b
    linarith
  rw [abs_mul, abs_of_pos (by positivity : 0 < 2 * Real.pi)] at h1
  have := abs_nonneg (m : ℝ)
  rw [le_div_iff₀ (by norm_num)]
  nlinarith

theorem of_val {x : Fl F} {v : ℝ} (h : x.val = .fin v) : x = of v := by
  cases x
  cases h
  rfl

/-- `normLast` returns, moves by whole turns, and by the right number of turns if this stays inside the limits. -/
theorem normLast_cases (hI : Spec.IntRounding F) (hu : F.u ≤ 1 / 100000000000) {lims : Option (Fl F × Fl F)} {a b S : ℝ} (ha : |a| ≤ 110)
    (hb : |b| ≤ S) (hS : S ≤ 300) (hr : Rep F b) (hin : ∀ l u, lims = some (l, u) → l < of b ∧ of b < u) :
    ∃ y, normLast lims (of a) (of b) = .ok y ∧ (∃ n : ℤ, Moved b n (moveErr F S) y ∧ |(n : ℝ) * (2 * Real.pi)| ≤ S + 566 / 5) ∧
      ∃ m : ℤ, |a - b - m * (2 * Real.pi)| ≤ Real.pi + 1 / 1000 ∧
        ((∀ l u y, lims = some (l, u) → Moved b m (moveErr F S) y → l < y ∧ y < u) → Moved b m (moveErr F S) y) := by
  have u0 := F.u_nonneg
  have S0 := (abs_nonneg _).trans hb
  obtain ⟨m, hm, hmd⟩ := turns_near (F := F) hI hu ha (hb.trans hS)
  have mle := turns_le ha hb hmd
  have mle' : |(m : ℝ) * (2 * Real.pi)| ≤ S + 566 / 5 := by
    rw [show (m : ℝ) * (2 * Real.pi) = a - b - (a - b - m * (2 * Real.pi)) by ring]
    have := Real.pi_lt_d2
    have := abs_sub (a - b) (a - b - m * (2 * Real.pi))
    have := abs_sub a b
    linarith
  have mv : ∀ n : ℤ, |(n : ℝ)| ≤ (114 + S) / 6 → Moved b n (moveErr F S) (of b + twoPi * of n : Fl F) := fun n hn =>
    shift_near hu hb hn (by linarith) (by linarith)
  have m0 : Moved b 0 (moveErr F S) (of b : Fl F) := ⟨b, rfl, by simp [moveErr]; positivity⟩
  unfold normLast
  simp only [hm]
  have c : ((0 : Fl F) < Elem.abs (of (m : ℝ))) ↔ m ≠ 0 := by
    change XReal.fin 0 < XReal.fin |(m : ℝ)| ↔ _
    rw [XReal.fin_lt, abs_pos]
    exact Int.cast_ne_zero
  by_cases hm0 : m = 0
  · rw [if_neg (by rw [c]; exact fun h => h hm0)]
    refine ⟨_, rfl, ⟨0, m0, by simp; linarith⟩, m, hmd, fun _ => by rw [hm0]; exact m0⟩
  · rw [if_pos (c.2 hm0)]
    cases lims with
    | none => exact ⟨_, rfl, ⟨m, mv m mle, mle'⟩, m, hmd, fun _ => mv m mle⟩
    | some lu =>
      obtain ⟨l, u⟩ := lu
      obtain ⟨i1, i2⟩ := hin l u rfl
      have et : Elem.toInt (of (m : ℝ) : Fl F) = some m := by
        change Elem.toInt (XReal.fin (m : ℝ)) = _
        rw [XReal.toInt_fin, trunc_int]
      simp only [et]
      have small0 : ∀ i ∈ List.range (m.natAbs + 1), |((m - m.sign * (i : ℤ) : ℤ) : ℝ)| ≤ |(m : ℝ)| := by
        intro i hi
        rw [List.mem_range] at hi
        have : |m - m.sign * (i : ℤ)| ≤ |m| := by
          rcases lt_trichotomy m 0 with h | h | h
          · rw [Int.sign_eq_neg_one_of_neg h, abs_of_neg h, abs_le]; omega
          · exact absurd h hm0
          · rw [Int.sign_eq_one_of_pos h, abs_of_pos h, abs_le]; omega
        exact_mod_cast this
      have small := fun i hi => (small0 i hi).trans mle
      have ecand : ∀ i ∈ List.range (m.natAbs + 1), (of b + twoPi * lit ((m - m.sign * (i : ℤ) : ℤ) : ℚ) : Fl F) = of b + twoPi * of ((m - m.sign * (i : ℤ) : ℤ) : ℝ) := by
        intro i hi
        rw [lit_int hI hu ((small i hi).trans (by linarith))]
      -- the last candidate is the angle itself
      have elast : (of b + twoPi * lit ((m - m.sign * (m.natAbs : ℤ) : ℤ) : ℚ) : Fl F) = of b := by
        have e0 : m - m.sign * (m.natAbs : ℤ) = 0 := by rw [Int.sign_mul_natAbs]; omega
        rw [ecand m.natAbs (by simp), e0, Int.cast_zero]
        obtain ⟨w, hw, -⟩ := twoPi_near (F := F)
        rw [of_val hw, mul_zero_of, add_zero_of hr]
      set cands : List (Fl F) := (List.range (m.natAbs + 1)).map fun (i : ℕ) => (of b + twoPi * lit ((m - m.sign * (i : ℤ) : ℤ) : ℚ) : Fl F) with hcands
      have hmem : (of b : Fl F) ∈ cands := List.mem_map.2 ⟨m.natAbs, by simp, elast⟩
      cases hf : cands.find? fun t => decide (l < t ∧ t < u) with
      | none =>
        have := List.find?_eq_none.1 hf _ hmem
        simp only [decide_eq_true_eq] at this
        exact absurd ⟨i1, i2⟩ this
      | some y =>
        refine ⟨y, rfl, ?_, m, hmd, fun hlim => ?_⟩
        · obtain ⟨i, hi, rfl⟩ := List.mem_map.1 (List.mem_of_find?_eq_some hf)
          refine ⟨_, by rw [ecand i hi]; exact mv _ (small i hi), le_trans ?_ mle'⟩
          rw [abs_mul _ (2 * Real.pi), abs_mul (m : ℝ)]
          exact mul_le_mul_of_nonneg_right (small0 i hi) (abs_nonneg _)
        · have hd : cands = (of b + twoPi * of (m : ℝ)) :: cands.tail := by
            rw [hcands, List.range_succ_eq_map, List.map_cons, List.tail_cons, ecand 0 (by simp)]
            simp
          have hmv := mv m mle
          rw [hd, List.find?_cons_of_pos (by simpa using hlim l u _ rfl hmv)] at hf
          cases hf
          exact hmv

/-- The error of a call of `normalize`, for angles of at most `S`. -/
noncomputable def normErr (F : FSys) (S : ℝ) : ℝ := (S + 47) * F.u + moveErr F (S + 7)

/-- The limits and the last joint values have entries for all joints, and the last joint values are finite and of moderate size. -/
structure Usable (N : Normalizer (Fl F)) : Prop where
  last : ∀ ls, N.last = some ls → ∀ j < 6, ∃ a : ℝ, ls[j]? = some (of a) ∧ |a| ≤ 110
  limits : ∀ lo up, N.limits = some (lo, up) → ∀ j < 6, ∃ l u, lo[j]? = some l ∧ up[j]? = some u

/-- The limits of joint `j`, as read by `normalize`. -/
def Normalizer.limsAt (N : Normalizer (Fl F)) (j : ℕ) : Option (Fl F × Fl F) :=
  match N.limits with
  | none => none
  | some (lo, up) => match lo[j]?, up[j]? with
    | some l, some u => some (l, u)
    | _, _ => none

/-- `normalize`, once the lists are known to be long enough. -/
theorem normalize_eq {N : Normalizer (Fl F)} (hN : Usable N) {j : ℕ} (hj : j < 6) (x : Fl F) :
    N.normalize j x = (match (match Normalizer.limsAt N j with | none => some x | some (l, u) => normLimits l u x) with
      | none => .ok none
      | some t => match N.last with
        | none => .ok (some t)
        | some last => (getI last j >>= fun a => normLast (Normalizer.limsAt N j) a t >>= fun r => .ok (some r))) := by
  unfold Normalizer.normalize Normalizer.limsAt
  cases hl : N.limits with
  | none => rcases N.last with _ | ls <;> rfl
  | some lu =>
    obtain ⟨lo, up⟩ := lu
    obtain ⟨l, u, e1, e2⟩ := hN.limits lo up hl j hj
    simp only [getI_some e1, getI_some e2, e1, e2, Except.bind_ok]
    rw [show (pure (some (l, u)) : Except PyErr _) = .ok (some (l, u)) from rfl, Except.bind_ok]
    dsimp only
    rcases normLimits l u x with _ | t
    · rfl
    · rcases N.last with _ | ls <;> rfl

/-- The first step: nothing, or the angle moved by at most one turn to a number inside the limits. -/
theorem limits_cases (hE : Spec.ExactRnd F) (hI : Spec.IntRounding F) (hu : F.u ≤ 1 / 100000000000) (L : Option (Fl F × Fl F)) {b S : ℝ} (hb : |b| ≤ S) (hS : S ≤ 290)
    (hr : Rep F b) {t : Fl F} (h : (match L with | none => some (of b) | some (l, u) => normLimits l u (of b)) = some t) :
    ∃ (v : ℝ) (m : ℤ), t = of v ∧ Rep F v ∧ |v| ≤ S + 7 ∧ |v - (b + m * (2 * Real.pi))| ≤ (S + 47) * F.u ∧ ∀ l u, L = some (l, u) → l < of v ∧ of v < u := by
  have u0 := F.u_nonneg
  have S0 := (abs_nonneg _).trans hb
  have p1 := Real.pi_pos
  have p2 := Real.pi_lt_d2
  cases L with
  | none =>
    cases h
    exact ⟨b, 0, rfl, hr, by linarith, by simp; positivity, fun l u h => by cases h⟩
  | some lu =>
    obtain ⟨l, u⟩ := lu
    obtain ⟨c, rt, m, hm, v, hv, hvd⟩ := normLimits_cases hE hI hu hb (by linarith) hr h
    refine ⟨v, m, of_val hv, rt v hv, ?_, hvd, fun l' u' e => ?_⟩
    · have h1 := abs_add_le (v - (b + m * (2 * Real.pi))) (b + m * (2 * Real.pi))
      rw [sub_add_cancel] at h1
      have h2 := abs_add_le b (m * (2 * Real.pi))
      have h3 : |(m : ℝ) * (2 * Real.pi)| ≤ 1 * (2 * Real.pi) := by
        rw [abs_mul, abs_of_pos (by positivity : 0 < 2 * Real.pi)]
        exact mul_le_mul_of_nonneg_right hm (by positivity)
      have h4 : (S + 47) * F.u ≤ 400 * F.u := mul_le_mul_of_nonneg_right (by linarith) u0
      linarith
    · cases e
      rwa [← of_val hv]

theorem moveErr_nonneg {S : ℝ} (hS : 0 ≤ S) : 0 ≤ moveErr F S := by
  have := F.u_nonneg
  unfold moveErr
  positivity

/-- `normalize` returns, and moves by whole turns. -/
theorem normalize_keeps (hE : Spec.ExactRnd F) (hI : Spec.IntRounding F) (hu : F.u ≤ 1 / 100000000000) {N : Normalizer (Fl F)} (hN : Usable N) {j : ℕ} (hj : j < 6)
    {b S : ℝ} (hb : |b| ≤ S) (hS : S ≤ 290) (hr : Rep F b) :
    ∃ o, N.normalize j (of b) = .ok o ∧ ∀ y, o = some y → (∃ n : ℤ, Moved b n (normErr F S) y) ∧ Sz (2 * S + 128) y := by
  have S0 := (abs_nonneg _).trans hb
  rw [normalize_eq hN hj]
  cases h : (match Normalizer.limsAt N j with | none => some (of b) | some (l, u) => normLimits l u (of b)) with
  | none => exact ⟨none, rfl, fun y h => by cases h⟩
  | some t =>
    obtain ⟨v, m, rfl, rv, hv, hvd, hin⟩ := limits_cases hE hI hu _ hb hS hr h
    cases hl : N.last with
    | none =>
      refine ⟨_, rfl, fun y e => ?_⟩
      cases e
      refine ⟨⟨m, v, rfl, hvd.trans (by unfold normErr; linarith [moveErr_nonneg (F := F) (S := S + 7) (by linarith)])⟩, fun w hw => ?_⟩
      cases hw
      linarith
    | some ls =>
      obtain ⟨a, ea, ha⟩ := hN.last ls hl j hj
      obtain ⟨y, hy, ⟨n, hn, hn'⟩, -⟩ := normLast_cases hI hu ha hv (by linarith) rv hin
      simp only [getI_some ea, Except.bind_ok, hy]
      refine ⟨_, rfl, fun y' e => ?_⟩
      cases e
      refine ⟨⟨m + n, Moved.trans hvd hn⟩, fun w hw => ?_⟩
      obtain ⟨w', hw', hd⟩ := hn
      rw [hw] at hw'
      cases hw'
      have h1 := abs_add_le (w - (v + n * (2 * Real.pi))) (v + n * (2 * Real.pi))
      rw [sub_add_cancel] at h1
      have h2 := abs_add_le v (n * (2 * Real.pi))
      have h3 : moveErr F (S + 7) ≤ 4000 * F.u := by
        unfold moveErr
        exact mul_le_mul_of_nonneg_right (by linarith) F.u_nonneg
      linarith

/-- An angle of at most `S` that is `q` up to whole turns and `μ` is inside the limits `l`, `u` around `q` after at most one turn: either it is less than two turns away from `q`,
or the limits are beyond half a turn (and `S` less one turn) on either side. -/
def _root_.Spec.LimShape (S q l u μ : ℝ) : Prop :=
  S + |q| + μ < 4 * Real.pi ∨
    l < -(max Real.pi (S - 2 * Real.pi) + 1 / 100) ∧ max Real.pi (S - 2 * Real.pi) + 1 / 100 < u

/-- Some representative is inside the limits. -/
theorem normLimits_some (hI : Spec.IntRounding F) (hu : F.u ≤ 1 / 100000000000) {l u b q D : ℝ} {S : ℝ} {k : ℤ} (hb : |b| ≤ S) (hS : S ≤ 290) (hD : D ≤ 1 / 20) (hk : |b - (q + k * (2 * Real.pi))| ≤ D)
    (hl : l + (D + (S + 47) * F.u) < q) (hq : q + (D + (S + 47) * F.u) < u) (hlu : Spec.LimShape S q l u (D + (S + 47) * F.u)) : ∃ t, normLimits (of l) (of u) (of b : Fl F) = some t := by
  have u0 := F.u_nonneg
  have p1 := Real.pi_gt_d2
  have p2 := Real.pi_lt_d2
  have D0 := (abs_nonneg _).trans hk
  have e1 : (lit (-1) : Fl F) = of (-1) := by
    have := lit_int (F := F) (n := -1) hI hu (by norm_num)
    simpa using this
  have e2 : (lit 1 : Fl F) = of 1 := by
    have := lit_int (F := F) (n := 1) hI hu (by norm_num)
    simpa using this
  obtain ⟨s, hs, hsd⟩ := shift_near (F := F) hu hb (m := -1) (N := 1) (by norm_num) (by linarith) (by norm_num)
  obtain ⟨s', hs', hsd'⟩ := shift_near (F := F) hu hb (m := 1) (N := 1) (by norm_num) (by linarith) (by norm_num)
  push_cast at hs hsd hs' hsd'
  have S0 := (abs_nonneg _).trans hb
  have small : (S + 47) * F.u ≤ 1 / 1000 := by
    have : (S + 47) * F.u ≤ 400 * F.u := mul_le_mul_of_nonneg_right (by linarith) u0
    linarith
  have small0 : 0 ≤ (S + 47) * F.u := by positivity
  have eS : (43 * 1 + S + 4) * F.u = (S + 47) * F.u := by ring
  rw [eS] at hsd hsd'
  generalize (S + 47) * F.u = z at *
  have key : (l < b ∧ b < u) ∨ (l < s ∧ s < u) ∨ (l < s' ∧ s' < u) := by
    rw [abs_le] at hb hk hsd hsd'
    rcases hlu with h1 | ⟨h1, h2⟩
    · have q1 := le_abs_self q
      have q2 := neg_abs_le q
      have k1 : (k : ℝ) < 2 := by
        by_contra h
        have : 2 * (2 * Real.pi) ≤ k * (2 * Real.pi) := mul_le_mul_of_nonneg_right (not_lt.1 h) (by linarith)
        linarith
      have k2 : (-2 : ℝ) < k := by
        by_contra h
        have : k * (2 * Real.pi) ≤ -2 * (2 * Real.pi) := mul_le_mul_of_nonneg_right (not_lt.1 h) (by linarith)
        linarith
      have k1' : k < 2 := by exact_mod_cast k1
      have k2' : -2 < k := by exact_mod_cast k2
      obtain rfl | rfl | rfl : k = 0 ∨ k = 1 ∨ k = -1 := by omega
      · push_cast at hk
        exact .inl ⟨by linarith, by linarith⟩
      · push_cast at hk
        exact .inr (.inl ⟨by linarith, by linarith⟩)
      · push_cast at hk
        exact .inr (.inr ⟨by linarith, by linarith⟩)
    · have m1 := le_max_left Real.pi (S - 2 * Real.pi)
      have m2 := le_max_right Real.pi (S - 2 * Real.pi)
      generalize max Real.pi (S - 2 * Real.pi) = C at *
      by_cases c1 : b ≤ C
      · by_cases c2 : -C ≤ b
        · exact .inl ⟨by linarith, by linarith⟩
        · exact .inr (.inr ⟨by linarith, by linarith⟩)
      · exact .inr (.inl ⟨by linarith, by linarith⟩)
  unfold normLimits
  simp only [e1, e2]
  have c1 : ((of l : Fl F) < of b ∧ (of b : Fl F) < of u) ↔ (l < b ∧ b < u) := Iff.rfl
  have c2 : ((of l : Fl F) < twoPi * of (-1) + of b ∧ (twoPi * of (-1) + of b : Fl F) < of u) ↔ (l < s ∧ s < u) := by
    rw [fl_add_comm, of_val hs]
    exact Iff.rfl
  have c3 : ((of l : Fl F) < twoPi * of 1 + of b ∧ (twoPi * of 1 + of b : Fl F) < of u) ↔ (l < s' ∧ s' < u) := by
    rw [fl_add_comm, of_val hs']
    exact Iff.rfl
  split_ifs with g1 g2 g3
  · exact ⟨_, rfl⟩
  · exact ⟨_, rfl⟩
  · exact ⟨_, rfl⟩
  · rw [c1] at g1
    rw [c2] at g2
    rw [c3] at g3
    tauto

/-- `q` is inside the limits of joint `j` with a margin, and these are not unusual for angles of at most `S`. -/
def LimOk (N : Normalizer (Fl F)) (j : ℕ) (S q μ : ℝ) : Prop :=
  ∀ lo up, N.limits = some (lo, up) → ∃ l u : ℝ, lo[j]? = some (of l) ∧ up[j]? = some (of u) ∧ l + μ < q ∧ q + μ < u ∧ Spec.LimShape S q l u μ

theorem LimOk.mono {N : Normalizer (Fl F)} {j : ℕ} {S q μ ν : ℝ} (h : LimOk N j S q μ) (hν : ν ≤ μ) : LimOk N j S q ν := by
  intro lo up hl
  obtain ⟨l, u, a1, a2, a3, a4, a5⟩ := h lo up hl
  exact ⟨l, u, a1, a2, by linarith, by linarith, a5.imp (fun h => by linarith) id⟩

/-- A candidate for `q` is not dropped. -/
theorem normalize_some (hE : Spec.ExactRnd F) (hI : Spec.IntRounding F) (hu : F.u ≤ 1 / 100000000000) {N : Normalizer (Fl F)} (hN : Usable N) {j : ℕ} (hj : j < 6)
    {b S q d D : ℝ} {k : ℤ} (hb : |b| ≤ S) (hS : S ≤ 290) (hr : Rep F b) (hk : |b - (q + k * (2 * Real.pi))| ≤ d) (hdD : d ≤ D)
    (hD : D ≤ 1 / 20) (hlim : LimOk N j S q (D + normErr F S)) :
    ∃ (v : ℝ) (m : ℤ), (match Normalizer.limsAt N j with | none => some (of b) | some (l, u) => normLimits l u (of b)) = some (of v) ∧ Rep F v ∧ |v| ≤ S + 7 ∧
      |v - (q + m * (2 * Real.pi))| ≤ d + (S + 47) * F.u ∧ ∀ l u, Normalizer.limsAt N j = some (l, u) → l < of v ∧ of v < u := by
  have u0 := F.u_nonneg
  have S0 := (abs_nonneg _).trans hb
  have M0 := moveErr_nonneg (F := F) (S := S + 7) (by linarith)
  obtain ⟨t, ht⟩ : ∃ t, (match Normalizer.limsAt N j with | none => some (of b) | some (l, u) => normLimits l u (of b)) = some t := by
    cases hl : N.limits with
    | none => exact ⟨of b, by simp [Normalizer.limsAt, hl]⟩
    | some lu =>
      obtain ⟨lo, up⟩ := lu
      obtain ⟨l, u, h1, h2, h3, h4, h5⟩ := hlim lo up hl
      have : Normalizer.limsAt N j = some (of l, of u) := by simp [Normalizer.limsAt, hl, h1, h2]
      rw [this]
      have hM : (S + 47) * F.u ≤ normErr F S := by
        unfold normErr
        linarith
      exact normLimits_some hI hu hb hS hD (hk.trans hdD) (by linarith) (by linarith) (h5.imp (fun h => by linarith) id)
  obtain ⟨v, m, rfl, rv, hv, hvd, hin⟩ := limits_cases hE hI hu _ hb hS hr ht
  refine ⟨v, k + m, ht, rv, hv, ?_, hin⟩
  push_cast
  rw [show v - (q + (k + m) * (2 * Real.pi)) = (b - (q + k * (2 * Real.pi))) + (v - (b + m * (2 * Real.pi))) by ring]
  exact (abs_add_le _ _).trans (add_le_add hk hvd)

/-- Without last joint values, the candidate stays up to whole turns. -/
theorem normalize_stays (hE : Spec.ExactRnd F) (hI : Spec.IntRounding F) (hu : F.u ≤ 1 / 100000000000) {N : Normalizer (Fl F)} (hN : Usable N) (hl : N.last = none) {j : ℕ} (hj : j < 6)
    {b S q d D : ℝ} {k : ℤ} (hb : |b| ≤ S) (hS : S ≤ 290) (hr : Rep F b) (hk : |b - (q + k * (2 * Real.pi))| ≤ d) (hdD : d ≤ D)
    (hD : D ≤ 1 / 20) (hlim : LimOk N j S q (D + normErr F S)) :
    ∃ y, N.normalize j (of b) = .ok (some y) ∧ Spec.AngNear y q (d + normErr F S) := by
  have S0 := (abs_nonneg _).trans hb
  have M0 := moveErr_nonneg (F := F) (S := S + 7) (by linarith)
  obtain ⟨v, m, ht, -, -, hv, -⟩ := normalize_some hE hI hu hN hj hb hS hr hk hdD hD hlim
  rw [normalize_eq hN hj, ht, hl]
  exact ⟨_, rfl, m, v, rfl, hv.trans (by unfold normErr; linarith)⟩

/-- With last joint values near `q`, the candidate becomes `q` itself. -/
theorem normalize_tracks (hE : Spec.ExactRnd F) (hI : Spec.IntRounding F) (hu : F.u ≤ 1 / 100000000000) {N : Normalizer (Fl F)} (hN : Usable N) {ls : List (Fl F)}
    (hl : N.last = some ls) {j : ℕ} (hj : j < 6) {a : ℝ} (ea : ls[j]? = some (of a))
    {b S q d D : ℝ} (ha : |a - q| ≤ 1 / 2) {k : ℤ} (hb : |b| ≤ S) (hS : S ≤ 290) (hr : Rep F b)
    (hk : |b - (q + k * (2 * Real.pi))| ≤ d) (hdD : d ≤ D) (hD : D ≤ 1 / 20) (hlim : LimOk N j S q (D + normErr F S)) :
    ∃ y, N.normalize j (of b) = .ok (some y) ∧ y.Near q (d + normErr F S) := by
  have u0 := F.u_nonneg
  have S0 := (abs_nonneg _).trans hb
  have d0 := (abs_nonneg _).trans hk
  have M0 := moveErr_nonneg (F := F) (S := S + 7) (by linarith)
  have p1 := Real.pi_gt_d2
  have p2 := Real.pi_lt_d2
  obtain ⟨v, m, ht, rv, hv, hvd, hin⟩ := normalize_some hE hI hu hN hj hb hS hr hk hdD hD hlim
  obtain ⟨a', ea', ha'⟩ := hN.last ls hl j hj
  rw [ea] at ea'
  obtain rfl : a = a' := by cases ea'; rfl
  obtain ⟨y, hy, -, n, hn, hyn⟩ := normLast_cases hI hu ha' hv (by linarith) rv hin
  have small : (S + 47) * F.u ≤ 1 / 1000 := by
    have : (S + 47) * F.u ≤ 400 * F.u := mul_le_mul_of_nonneg_right (by linarith) u0
    linarith
  have nm : n = -m := by
    have h1 : |((m : ℝ) + n) * (2 * Real.pi)| ≤ Real.pi + 3 / 4 := by
      rw [show ((m : ℝ) + n) * (2 * Real.pi) = (a - q) - (v - (q + m * (2 * Real.pi))) - (a - v - n * (2 * Real.pi)) by ring]
      refine (abs_sub _ _).trans ?_
      have := abs_sub (a - q) (v - (q + m * (2 * Real.pi)))
      linarith
    rw [abs_mul, abs_of_pos (by positivity : 0 < 2 * Real.pi)] at h1
    have h2 : |((m + n : ℤ) : ℝ)| < 1 := by push_cast; nlinarith
    have h3 : |m + n| < 1 := by exact_mod_cast h2
    rw [Int.abs_lt_one_iff] at h3
    omega
  subst nm
  have fin : ∀ y : Fl F, Moved v (-m) (moveErr F (S + 7)) y → y.Near q (d + normErr F S) := by
    rintro y ⟨s, hs, hsd⟩
    refine ⟨s, hs, ?_⟩
    push_cast at hsd
    rw [show s - q = (v - (q + m * (2 * Real.pi))) + (s - (v + -m * (2 * Real.pi))) by ring]
    refine (abs_add_le _ _).trans ?_
    unfold normErr
    linarith
  refine ⟨y, ?_, fin y (hyn fun l u y' e hm => ?_)⟩
  · rw [normalize_eq hN hj, ht, hl]
    simp only [getI_some ea, Except.bind_ok, hy]
  · obtain ⟨s, hs, hsd⟩ := fin y' hm
    rw [abs_le] at hsd
    unfold Normalizer.limsAt at e
    cases hL : N.limits with
    | none => rw [hL] at e; cases e
    | some lu =>
      obtain ⟨lo, up⟩ := lu
      obtain ⟨l', u', h1, h2, h3, h4, -⟩ := hlim lo up hL
      rw [hL] at e
      simp only [h1, h2] at e
      cases e
      rw [of_val hs]
      exact ⟨show l' < s by linarith, show s < u' by linarith⟩

end Fl
