import Verif.Lemmas.FlTrack
import Verif.Lemmas.EquivTurns

/-! # The turns counted and made by `equivalent_configurations` in floating point -/
set_option autoImplicit false

namespace Fl
variable {F : FSys}

/-- the error of one entry, for limits and joint values of size at most `S` -/
noncomputable def turnErr (F : FSys) (S : ℝ) : ℝ := (23 * S + 100) * F.u

theorem floorDiv_turns (hI : Spec.IntRounding F) (hu : F.u ≤ 1 / 100000000000) {x y S : ℝ} (hx : |x| ≤ S) (hy : |y| ≤ S) (hS : S ≤ 900) :
    ∃ n : ℤ, Elem.floorDiv (of x - of y) (twoPi : Fl F) = of n ∧ |(n : ℝ)| ≤ S / 2 + 2 ∧
      ∀ k : ℤ, 0 ≤ k → (k ≤ n → y + k * (2 * Real.pi) ≤ x + turnErr F S) ∧ (y + k * (2 * Real.pi) ≤ x - turnErr F S → k ≤ n) := by
  have u0 := F.u_nonneg
  have S0 := (abs_nonneg _).trans hx
  have p1 := Real.pi_gt_d2
  have p2 := Real.pi_lt_d2
  obtain ⟨w, hw, hwd⟩ := twoPi_near (F := F)
  have hxy : |x - y| ≤ 2 * S := (abs_sub x y).trans (by linarith)
  obtain ⟨d, hd, hdd⟩ := Near.subE (ε := F.u) (k := 0) (l := 0) (S := 2 * S) (2 * S + 1) (by rw [zero_mul]; exact near_of (F := F) x) (by rw [zero_mul]; exact near_of y)
    le_rfl (by linarith) hxy (by linarith) (by linarith) (by linarith)
  have Su : (2 * S + 1) * F.u ≤ 1 / 2 := by
    have : (2 * S + 1) * F.u ≤ 2000 * (1 / 100000000000) := mul_le_mul (by linarith) hu u0 (by norm_num)
    linarith
  obtain ⟨w1, w2⟩ := abs_le.1 hwd
  obtain ⟨d1, d2⟩ := abs_le.1 hdd
  obtain ⟨x1, x2⟩ := abs_le.1 hxy
  have w0 : 6 < w := by linarith
  have hw0 : w ≠ 0 := by linarith
  set n := ⌊d / w⌋ with hn
  have f1 : (n : ℝ) ≤ d / w := Int.floor_le _
  have f2 : d / w < n + 1 := Int.lt_floor_add_one _
  rw [le_div_iff₀ (by linarith)] at f1
  rw [div_lt_iff₀ (by linarith)] at f2
  have nle : |(n : ℝ)| ≤ S / 2 + 2 := by
    rw [abs_le]
    constructor
    · by_contra h
      push Not at h
      nlinarith
    · by_contra h
      push Not at h
      nlinarith
  refine ⟨n, ?_, nle, fun k k0 => ?_⟩
  · have : (Elem.floorDiv (of x - of y) (twoPi : Fl F)).val = .fin n := by
      change F.round (Elem.floorDiv (of x - of y : Fl F).val (twoPi : Fl F).val) = _
      rw [hd, hw, XReal.floorDiv_fin _ hw0]
      exact round_int hI hu (by linarith)
    cases hl : (Elem.floorDiv (of x - of y) (twoPi : Fl F))
    rw [hl] at this
    cases this
    rfl
  · have kr : (0 : ℝ) ≤ k := by exact_mod_cast k0
    have mul29 : ∀ c : ℝ, c ≤ S / 2 + 2 → 29 * F.u * c ≤ 29 * F.u * (S / 2 + 2) := fun c hc => mul_le_mul_of_nonneg_left hc (by linarith)
    have lo : (k : ℝ) * (2 * Real.pi) ≤ k * w + 29 * F.u * k := by nlinarith
    have hi : (k : ℝ) * w ≤ k * (2 * Real.pi) + 29 * F.u * k := by nlinarith
    have hkn : k ≤ n ↔ (k : ℝ) * w ≤ d := by rw [hn, Int.le_floor, le_div_iff₀ (by linarith)]
    have su : 0 ≤ S * F.u := mul_nonneg S0 u0
    unfold turnErr
    constructor
    · intro h
      have hk : (k : ℝ) ≤ n := by exact_mod_cast h
      have a := mul29 k (hk.trans (abs_le.1 nle).2)
      have b := hkn.1 h
      nlinarith
    · intro h
      have hk : (k : ℝ) ≤ S / 2 + 2 := by
        by_contra g
        push Not at g
        have : 0 ≤ (23 * S + 100) * F.u := by positivity
        nlinarith
      have a := mul29 k hk
      rw [hkn]
      nlinarith

theorem lit_nat (hI : Spec.IntRounding F) (hu : F.u ≤ 1 / 100000000000) {n : ℕ} (hn : (n : ℝ) ≤ 1000) : (lit ((n : ℕ) : Rat) : Fl F) = of (n : ℤ) := by
  have := lit_int (F := F) hI hu (n := (n : ℤ)) (by push_cast; rw [abs_of_nonneg (by positivity)]; exact hn)
  push_cast at this ⊢
  exact this

/-- an entry moved by some turns -/
theorem spin_near (hI : Spec.IntRounding F) (hu : F.u ≤ 1 / 100000000000) {t S : ℝ} (ht : |t| ≤ S) (hS : S ≤ 900) {k : ℤ} (hk : |(k : ℝ)| ≤ S / 2 + 2) :
    (spin (of t : Fl F) k).Near (t + k * (2 * Real.pi)) (turnErr F S) := by
  have u0 := F.u_nonneg
  have S0 := (abs_nonneg _).trans ht
  have su : 0 ≤ S * F.u := mul_nonneg S0 u0
  have p1 := Real.pi_gt_d2
  have p2 := Real.pi_lt_d2
  have hp : |2 * Real.pi| ≤ 63 / 10 := by rw [abs_of_pos (by positivity)]; linarith
  have mono : ∀ {a : Fl F} {x c : ℝ}, a.Near x c → c ≤ turnErr F S → a.Near x (turnErr F S) := by
    rintro a x c ⟨v, h1, h2⟩ h
    exact ⟨v, h1, h2.trans h⟩
  unfold spin
  split_ifs with h1 h2
  · have e : ((k.toNat : ℤ)) = k := Int.toNat_of_nonneg h1.le
    have er : ((k.toNat : ℕ) : ℝ) = k := by exact_mod_cast congrArg (fun z : ℤ => (z : ℝ)) e
    rw [lit_nat hI hu (by rw [er]; exact (le_abs_self _).trans (by linarith)), e]
    refine mono (shift_near hu ht hk (by linarith) (by linarith)) ?_
    unfold turnErr
    nlinarith
  · have e : (((-k).toNat : ℤ)) = -k := Int.toNat_of_nonneg (by omega)
    have er : (((-k).toNat : ℕ) : ℝ) = -k := by exact_mod_cast congrArg (fun z : ℤ => (z : ℝ)) e
    rw [lit_nat hI hu (by rw [er]; exact (neg_le_abs _).trans (by linarith)), e]
    have hk' : |((-k : ℤ) : ℝ)| ≤ S / 2 + 2 := by push_cast; rwa [abs_neg]
    have g1 := Near.mulE (ε := F.u) (k := 29) (l := 0) (M := 63 / 10) (N := S / 2 + 2) (36 * (S / 2 + 2) + 2) (twoPi_near (F := F))
      (by rw [zero_mul]; exact near_of (F := F) ((-k : ℤ) : ℝ)) le_rfl (by linarith) hp hk' (by norm_num) le_rfl (by linarith) (by linarith)
    have g2 := Near.subE (ε := F.u) (k := 0) (l := 36 * (S / 2 + 2) + 2) (S := S + 63 / 10 * (S / 2 + 2)) (43 * (S / 2 + 2) + S + 4)
      (by rw [zero_mul]; exact near_of (F := F) t) g1 le_rfl (by linarith)
      (by
        refine (abs_sub _ _).trans (add_le_add ht ?_)
        rw [abs_mul]
        exact mul_le_mul hp hk' (abs_nonneg _) (by norm_num)) (by linarith) (by linarith) (by linarith)
    rw [show t + (k : ℝ) * (2 * Real.pi) = t - 2 * Real.pi * ((-k : ℤ) : ℝ) by push_cast; ring]
    refine mono g2 ?_
    unfold turnErr
    nlinarith
  · obtain rfl : k = 0 := by omega
    refine mono (c := 0) ⟨t, rfl, by simp⟩ ?_
    unfold turnErr
    positivity

theorem rangeLen_of (n : ℤ) : rangeLen (of n : Fl F) = .ok n.toNat := by
  have : Elem.toInt (of n : Fl F) = some n := by
    change Elem.toInt (XReal.fin (n : ℝ)) = _
    rw [XReal.toInt_fin, trunc_int]
  simp only [rangeLen, this]

theorem of_int_pos (n : ℤ) : (0 : Fl F) < of n ↔ 0 < n := by
  change XReal.fin 0 < XReal.fin (n : ℝ) ↔ _
  rw [XReal.fin_lt]
  exact Int.cast_pos

theorem reads_of (a b : ℤ) : Reads ((of a : Fl F), (of b : Fl F)) a.toNat b.toNat := by
  refine ⟨rangeLen_of a, rangeLen_of b, fun h => ?_⟩
  simp only [of_int_pos] at h
  omega

theorem confG_near {δ : ℝ} : ∀ {θ : List ℝ} {m : List ℤ}, m.length = θ.length →
    (∀ (j : ℕ) (t : ℝ) (k : ℤ), θ[j]? = some t → m[j]? = some k → (spin (of t : Fl F) k).Near (t + k * (2 * Real.pi)) δ) →
    List.Forall₂ (fun (y : Fl F) x => y.Near x δ) (confG (θ.map of) m) (conf θ m)
  | [], [], _, _ => .nil
  | [], _ :: _, h, _ => by simp at h
  | _ :: _, [], h, _ => by simp at h
  | t :: θ, k :: m, h, hn => .cons (hn 0 t k rfl rfl) (confG_near (by simpa using h) fun j t' k' h1 h2 => hn (j + 1) t' k' (by simpa using h1) (by simpa using h2))

end Fl
