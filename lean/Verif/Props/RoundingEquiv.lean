import Verif.Lemmas.FlEquiv
import Verif.Lemmas.B64Sub
import Verif.Props.Equiv
import Verif.Props.RoundingIter

/-! # Property C108: `equivalent_configurations` in floating-point arithmetic -/
set_option autoImplicit false

namespace Spec

/-- `c` is a configuration other than `θ` that differs from `θ` by whole turns of revolute joints, every turned joint inside its limits
widened by `δ` (narrowed, if `δ` is negative). -/
def wholeTurns (δ : ℝ) (types : List Nat) (lo up θ c : List ℝ) : Prop :=
  c.length = θ.length ∧ c ≠ θ ∧ ∀ (j : Nat) (l u t x : ℝ), lo[j]? = some l → up[j]? = some u → θ[j]? = some t → c[j]? = some x →
    x = t ∨ (types[j]? = some 0 ∧ l - δ ≤ x ∧ x ≤ u + δ ∧ ∃ k : ℤ, x = t + k * (2 * Real.pi))

/-- the finite numbers of `row` are within `δ` of those of `c` -/
def ConfNear {F : FSys} (δ : ℝ) (row : List (Fl F)) (c : List ℝ) : Prop := List.Forall₂ (fun y x => y.Near x δ) row c

/-- all numbers are at most `S` in size -/
def SizedBy (S : ℝ) (l : List ℝ) : Prop := ∀ x ∈ l, |x| ≤ S

end Spec

namespace Fl
variable {F : FSys}

theorem turns_bounds (hI : Spec.IntRounding F) (hu : F.u ≤ 1 / 100000000000) {S : ℝ} (hS : S ≤ 900) {lo up θ : List ℝ} (sl : Spec.SizedBy S lo)
    (su : Spec.SizedBy S up) (sθ : Spec.SizedBy S θ) (j : Nat) :
    ∃ a b : Nat, ∀ l u t, lo[j]? = some l → up[j]? = some u → θ[j]? = some t →
      Reads (Elem.floorDiv (of u - of t) (twoPi : Fl F), Elem.floorDiv (of t - of l) (twoPi : Fl F)) a b ∧ (a : ℝ) ≤ S / 2 + 2 ∧ (b : ℝ) ≤ S / 2 + 2 ∧
      (∀ k : ℤ, 0 < k → (k ≤ a → t + k * (2 * Real.pi) ≤ u + turnErr F S) ∧ (t + k * (2 * Real.pi) ≤ u - turnErr F S → k ≤ a)) ∧
      (∀ k : ℤ, k < 0 → (-(b : ℤ) ≤ k → l - turnErr F S ≤ t + k * (2 * Real.pi)) ∧ (l + turnErr F S ≤ t + k * (2 * Real.pi) → -(b : ℤ) ≤ k)) := by
  by_cases hj : j < lo.length ∧ j < up.length ∧ j < θ.length
  · obtain ⟨h1, h2, h3⟩ := hj
    have e1 := List.getElem?_eq_getElem h1
    have e2 := List.getElem?_eq_getElem h2
    have e3 := List.getElem?_eq_getElem h3
    have b1 := sl _ (List.getElem_mem h1)
    have b2 := su _ (List.getElem_mem h2)
    have b3 := sθ _ (List.getElem_mem h3)
    obtain ⟨n, en, bn, hn⟩ := floorDiv_turns hI hu b2 b3 hS
    obtain ⟨m, em, bm, hm⟩ := floorDiv_turns hI hu b3 b1 hS
    have S0 := (abs_nonneg _).trans b1
    have cast : ∀ {n : ℤ}, |(n : ℝ)| ≤ S / 2 + 2 → ((n.toNat : ℕ) : ℝ) ≤ S / 2 + 2 := by
      intro n hn
      rcases le_total 0 n with h | h
      · have : ((n.toNat : ℕ) : ℝ) = n := by exact_mod_cast congrArg (fun z : ℤ => (z : ℝ)) (Int.toNat_of_nonneg h)
        rw [this]
        exact (le_abs_self _).trans hn
      · rw [Int.toNat_of_nonpos h]
        push_cast
        linarith
    refine ⟨n.toNat, m.toNat, fun l u t g1 g2 g3 => ?_⟩
    rw [e1] at g1; rw [e2] at g2; rw [e3] at g3
    cases g1; cases g2; cases g3
    refine ⟨?_, cast bn, cast bm, fun k hk => ⟨fun h => ?_, fun h => ?_⟩, fun k hk => ⟨fun h => ?_, fun h => ?_⟩⟩
    · rw [en, em]; exact reads_of n m
    · exact (hn k hk.le).1 (by omega)
    · have := (hn k hk.le).2 h
      omega
    · have := (hm (-k) (by omega)).1 (by omega)
      push_cast at this
      linarith
    · have := (hm (-k) (by omega)).2 (by push_cast; linarith)
      omega
  · refine ⟨0, 0, fun l u t g1 g2 g3 => absurd ⟨?_, ?_, ?_⟩ hj⟩
    · exact (List.getElem?_eq_some_iff.1 g1).1
    · exact (List.getElem?_eq_some_iff.1 g2).1
    · exact (List.getElem?_eq_some_iff.1 g3).1

theorem turnErr_small (hu : F.u ≤ 1 / 100000000000) {S : ℝ} (hS : S ≤ 900) : turnErr F S ≤ 1 / 1000 := by
  have u0 := F.u_nonneg
  unfold turnErr
  rcases le_total 0 (23 * S + 100) with h | h
  · calc (23 * S + 100) * F.u ≤ 30000 * (1 / 100000000000) := mul_le_mul (by linarith) hu u0 (by norm_num)
      _ ≤ _ := by norm_num
  · have : (23 * S + 100) * F.u ≤ 0 := mul_nonpos_of_nonpos_of_nonneg h u0
    linarith

theorem near_turn {δ t : ℝ} (hδ : δ ≤ 1 / 1000) {k k' : ℤ} {y : Fl F} (h : y.Near (t + k * (2 * Real.pi)) δ) (h' : y.Near (t + k' * (2 * Real.pi)) δ) : k = k' := by
  obtain ⟨v, e, h1⟩ := h
  obtain ⟨v', e', h2⟩ := h'
  rw [e] at e'
  cases e'
  have p := Real.pi_gt_three
  rw [abs_le] at h1 h2
  by_contra hne
  rcases lt_or_gt_of_ne hne with h | h
  · have : (k : ℝ) + 1 ≤ k' := by exact_mod_cast h
    nlinarith
  · have : (k' : ℝ) + 1 ≤ k := by exact_mod_cast h
    nlinarith

/-- one input -/
theorem equivOne_near (hI : Spec.IntRounding F) (hu : F.u ≤ 1 / 100000000000) {S : ℝ} (hS : S ≤ 900) (robot : Robot (Fl F)) (lo up θ : List ℝ)
    (hlo : robot.lower = some (lo.map of)) (hup : robot.upper = some (up.map of))
    (ll : lo.length = robot.jointType.length) (lu : up.length = robot.jointType.length) (lθ : θ.length = robot.jointType.length)
    (sl : Spec.SizedBy S lo) (su : Spec.SizedBy S up) (sθ : Spec.SizedBy S θ) (hθ : Spec.within lo up θ) :
    ∃ part, equivOne robot (θ.map of) = .ok part ∧ part.Nodup ∧
      (∀ row ∈ part, ∃ c, Spec.wholeTurns (turnErr F S) robot.jointType lo up θ c ∧ Spec.ConfNear (turnErr F S) row c) ∧
      ∀ c, Spec.wholeTurns (-turnErr F S) robot.jointType lo up θ c → ∃ row ∈ part, Spec.ConfNear (turnErr F S) row c := by
  have h := turns_bounds (F := F) hI hu hS sl su sθ
  choose nu nl h using h
  obtain ⟨E, hE, e⟩ := equivOne_turns robot (lo.map of) (up.map of) (θ.map of) hlo hup (by simpa using ll) (by simpa using lu) (by simpa using lθ) nu nl (by
    intro j l u t g1 g2 g3
    simp only [List.getElem?_map, Option.map_eq_some_iff] at g1 g2 g3
    obtain ⟨l, g1, rfl⟩ := g1
    obtain ⟨u, g2, rfl⟩ := g2
    obtain ⟨t, g3, rfl⟩ := g3
    exact (h j l u t g1 g2 g3).1)
  rw [List.length_map] at hE
  have δ1 := turnErr_small hu hS
  have get : ∀ {l : List ℝ}, l.length = robot.jointType.length → ∀ {j}, j < θ.length → ∃ x, l[j]? = some x :=
    fun {l} hl {j} hj => ⟨_, List.getElem?_eq_getElem (by omega)⟩
  have near : ∀ m, Allowed θ.length θ.length (turnsIn robot.jointType nu nl) m → Spec.ConfNear (F := F) (turnErr F S) (confG (θ.map of) m) (conf θ m) := by
    intro m hm
    refine confG_near hm.1 fun j t k ht hk => ?_
    have hj := (List.getElem?_eq_some_iff.1 ht).1
    refine spin_near hI hu (sθ t (List.mem_of_getElem? ht)) hS ?_
    by_cases hk0 : k = 0
    · subst hk0
      have := (abs_nonneg _).trans (sθ t (List.mem_of_getElem? ht))
      simp only [Int.cast_zero, abs_zero]
      linarith
    · obtain ⟨-, -, a1, a2⟩ := hm.2 j k hk hk0
      obtain ⟨l, el⟩ := get ll hj
      obtain ⟨u, eu⟩ := get lu hj
      obtain ⟨-, c1, c2, -⟩ := h j l u t el eu ht
      have r1 : -((nl j : ℕ) : ℝ) ≤ k := by exact_mod_cast a1
      have r2 : (k : ℝ) ≤ nu j := by exact_mod_cast a2
      exact abs_le.2 ⟨by linarith, by linarith⟩
  refine ⟨_, e, ?_, ?_, ?_⟩
  · refine List.Nodup.map_on ?_ hE.nodup
    intro m hm m' hm' hmm
    have a := ((hE.mem m).1 hm).1
    have a' := ((hE.mem m').1 hm').1
    have n1 := near m a
    have n2 := near m' a'
    rw [← hmm] at n2
    apply List.ext_getElem (by rw [a.1, a'.1])
    intro j j1 j2
    have hj : j < θ.length := by rw [← a.1]; exact j1
    have c1 := conf_getElem? θ m a.1 j hj
    have c2 := conf_getElem? θ m' a'.1 j hj
    have hy := List.getElem?_eq_getElem (l := confG (θ.map (of (F := F))) m) (i := j) (by rw [confG_length _ _ (by simp [a.1])]; simpa using hj)
    have k1 := (List.forall₂_iff_get.1 n1).2 j (List.getElem?_eq_some_iff.1 hy).1 (List.getElem?_eq_some_iff.1 c1).1
    have k2 := (List.forall₂_iff_get.1 n2).2 j (List.getElem?_eq_some_iff.1 hy).1 (List.getElem?_eq_some_iff.1 c2).1
    simp only [List.get_eq_getElem, (List.getElem?_eq_some_iff.1 c1).2] at k1
    simp only [List.get_eq_getElem, (List.getElem?_eq_some_iff.1 c2).2] at k2
    exact near_turn δ1 k1 k2
  · intro row hrow
    obtain ⟨m, hm, rfl⟩ := List.mem_map.1 hrow
    obtain ⟨a, hne⟩ := (hE.mem m).1 hm
    refine ⟨conf θ m, ⟨conf_length θ m a.1, fun he => hne (conf_inj a.1 (by simp) (by rw [he, conf_zero])), ?_⟩, near m a⟩
    intro j l u t x g1 g2 g3 g4
    obtain ⟨hj, rfl⟩ := List.getElem?_eq_some_iff.1 g3
    rw [conf_getElem? θ m a.1 j hj, Option.some.injEq] at g4
    have hjm : j < m.length := by rw [a.1]; exact hj
    by_cases h0 : m[j] = 0
    · left; rw [← g4, h0]; simp
    · right
      obtain ⟨-, ty, a1, a2⟩ := a.2 j m[j] (List.getElem?_eq_getElem _) h0
      obtain ⟨-, -, -, cu, cl⟩ := h j l u _ g1 g2 g3
      obtain ⟨w1, w2⟩ := hθ j l u _ g1 g2 g3
      have p := Real.two_pi_pos
      have S0 := (abs_nonneg _).trans (sl l (List.mem_of_getElem? g1))
      have e0 : 0 ≤ turnErr F S := by
        have := F.u_nonneg
        unfold turnErr
        positivity
      rw [← g4]
      refine ⟨ty, ?_, ?_, m[j], rfl⟩
      · rcases lt_or_gt_of_ne h0 with hk | hk
        · exact (cl _ hk).1 a1
        · have : (0 : ℝ) < m[j] := by exact_mod_cast hk
          nlinarith
      · rcases lt_or_gt_of_ne h0 with hk | hk
        · have : (m[j] : ℝ) < 0 := by exact_mod_cast hk
          nlinarith
        · exact (cu _ hk).1 a2
  · rintro c ⟨hl, hne, hturn⟩
    have hk : ∀ j, ∃ k : ℤ, ∀ (g : j < θ.length) (g' : j < c.length), c[j] = θ[j] + k * (2 * Real.pi) ∧
        (k ≠ 0 → turnsIn robot.jointType nu nl j k) := by
      intro j
      by_cases g : j < θ.length
      · have g' : j < c.length := by omega
        obtain ⟨l, el⟩ := get ll g
        obtain ⟨u, eu⟩ := get lu g
        rcases hturn j l u θ[j] c[j] el eu (List.getElem?_eq_getElem g) (List.getElem?_eq_getElem g') with e | ⟨ty, x1, x2, k, e⟩
        · exact ⟨0, fun _ _ => ⟨by simp [e], by simp⟩⟩
        · refine ⟨k, fun _ _ => ⟨e, fun h0 => ⟨ty, ?_, ?_⟩⟩⟩
          · rcases lt_or_gt_of_ne h0 with hk | hk
            · exact ((h j l u _ el eu (List.getElem?_eq_getElem g)).2.2.2.2 k hk).2 (by rw [← e]; linarith)
            · omega
          · rcases lt_or_gt_of_ne h0 with hk | hk
            · omega
            · exact ((h j l u _ el eu (List.getElem?_eq_getElem g)).2.2.2.1 k hk).2 (by rw [← e]; linarith)
      · exact ⟨0, fun h1 => absurd h1 g⟩
    choose k hk using hk
    have hml : ((List.range θ.length).map k).length = θ.length := by simp
    have hc : conf θ ((List.range θ.length).map k) = c := by
      apply List.ext_getElem (by rw [conf_length _ _ hml, hl])
      intro j h1 h2
      have hj : j < θ.length := by omega
      have := conf_getElem? θ _ hml j hj
      rw [List.getElem?_eq_getElem h1, Option.some.injEq] at this
      rw [this, (hk j hj h2).1]
      simp
    have hal : Allowed θ.length θ.length (turnsIn robot.jointType nu nl) ((List.range θ.length).map k) := by
      refine ⟨hml, fun j s hj hs => ?_⟩
      obtain ⟨h1, h2⟩ := List.getElem?_eq_some_iff.1 hj
      have h3 : j < θ.length := by simpa using h1
      simp only [List.getElem_map, List.getElem_range] at h2
      subst h2
      exact ⟨h3, (hk j h3 (by omega)).2 hs⟩
    refine ⟨_, List.mem_map.2 ⟨_, (hE.mem _).2 ⟨hal, ?_⟩, rfl⟩, ?_⟩
    · intro e
      apply hne
      rw [← hc, e, conf_zero]
    · have := near _ hal
      rwa [hc] at this

end Fl

open Fl

/-- **C108** (`_partial`: the property asks for rows inside the limits, see `C108_limits_false`): in floating-point arithmetic the call
returns for inputs inside finite limits, and the result is the concatenation, input by input, of lists without repetition in which every
row is within `(23 S + 100) u` of a configuration one or more whole turns away from the input and inside the limits up to that error, and
every such configuration inside the limits by that error has its row.  `S` bounds the size of limits and joint values. -/
theorem C108_equiv_rounding_partial {F : FSys} (hI : Spec.IntRounding F) (hu : F.u ≤ 1 / 100000000000) (S : ℝ) (hS : S ≤ 900) (robot : Robot (Fl F))
    (lo up : List ℝ) (hlo : robot.lower = some (lo.map of)) (hup : robot.upper = some (up.map of))
    (ll : lo.length = robot.jointType.length) (lu : up.length = robot.jointType.length) (sl : Spec.SizedBy S lo) (su : Spec.SizedBy S up)
    (θs : List (List ℝ)) (lθ : ∀ θ ∈ θs, θ.length = robot.jointType.length) (sθ : ∀ θ ∈ θs, Spec.SizedBy S θ)
    (hθ : ∀ θ ∈ θs, Spec.within lo up θ) :
    ∃ parts : List (List (List (Fl F))), equivalent_configurations robot (θs.map (·.map of)) = .ok parts.flatten ∧
      List.Forall₂ (fun θ part => part.Nodup ∧
        (∀ row ∈ part, ∃ c, Spec.wholeTurns ((23 * S + 100) * F.u) robot.jointType lo up θ c ∧ Spec.ConfNear ((23 * S + 100) * F.u) row c) ∧
        ∀ c, Spec.wholeTurns (-((23 * S + 100) * F.u)) robot.jointType lo up θ c → ∃ row ∈ part, Spec.ConfNear ((23 * S + 100) * F.u) row c) θs parts := by
  have h1 : ∃ parts : List (List (List (Fl F))), (θs.map (·.map of)).mapM (equivOne robot) = .ok parts ∧
      List.Forall₂ (fun θ part => part.Nodup ∧
        (∀ row ∈ part, ∃ c, Spec.wholeTurns ((23 * S + 100) * F.u) robot.jointType lo up θ c ∧ Spec.ConfNear ((23 * S + 100) * F.u) row c) ∧
        ∀ c, Spec.wholeTurns (-((23 * S + 100) * F.u)) robot.jointType lo up θ c → ∃ row ∈ part, Spec.ConfNear ((23 * S + 100) * F.u) row c) θs parts := by
    induction θs with
    | nil => exact ⟨[], rfl, .nil⟩
    | cons θ θs ih =>
      obtain ⟨parts, e1, e2⟩ := ih (fun x hx => lθ x (by simp [hx])) (fun x hx => sθ x (by simp [hx])) (fun x hx => hθ x (by simp [hx]))
      obtain ⟨part, e, hp⟩ := equivOne_near hI hu hS robot lo up θ hlo hup ll lu (lθ θ (by simp)) sl su (sθ θ (by simp)) (hθ θ (by simp))
      refine ⟨part :: parts, ?_, .cons hp e2⟩
      rw [List.map_cons, mapM_cons', e, e1]; rfl
  obtain ⟨parts, e1, e2⟩ := h1
  refine ⟨parts, ?_, e2⟩
  have h2 : ∃ u, parts.flatten.mapM (fun e => (θs.map (·.map of)).mapM fun t => allcloseEffect t e) = .ok u := by
    apply exists_mapM_ok
    intro row hc
    apply exists_mapM_ok
    intro t ht
    obtain ⟨part, hp, hcp⟩ := List.mem_flatten.1 hc
    obtain ⟨θ, hθm, -, hmem, -⟩ := Forall₂.exists_left e2 hp
    obtain ⟨c, ⟨hcl, -⟩, hrow⟩ := hmem row hcp
    rw [List.mem_map] at ht
    obtain ⟨t', ht', rfl⟩ := ht
    refine ⟨(), ?_⟩
    rw [allcloseEffect, bcast_eq _ _ (by rw [hrow.length_eq]; simp [hcl, lθ θ hθm, lθ t' ht'])]
    rfl
  obtain ⟨u, h2⟩ := h2
  simp only [equivalent_configurations, forAppend, e1, Except.bind_ok, Except.pure_eq, h2]
  rfl

/-- **C108**: with last joint values the same rows are returned, in another order. -/
theorem C108_equiv_last {F : FSys} (robot : Robot (Fl F)) (θs : List (List (Fl F))) (last : List (Fl F)) (sols : List (List (Fl F)))
    (h : equivalent_configurations robot θs (some last) = .ok sols) :
    ∃ sols', equivalent_configurations robot θs = .ok sols' ∧ sols.Perm sols' := by
  unfold equivalent_configurations at h
  obtain ⟨rows, h1, h⟩ := Except.bind_eq_ok h
  obtain ⟨u, h2, h⟩ := Except.bind_eq_ok h
  refine ⟨rows, ?_, sortByLast_mem h⟩
  simp only [equivalent_configurations, h1, h2, Except.bind_ok]
  rfl

namespace B64Equiv
open B64Sub
variable (lib : Libm)

/-- 2π in binary64 -/
noncomputable def W : ℝ := 7074237752028440 * 2⁻¹ ^ 50
/-- the joint value: a little more than three turns below 15 -/
noncomputable def t : ℝ := -8668429306891917 * 2⁻¹ ^ 51
/-- the number after 15 -/
noncomputable def above : ℝ := 8444249301319681 * 2⁻¹ ^ 49

theorem pi_of : (Elem.pi : Fl (b64 lib)) = of (7074237752028440 * 2⁻¹ ^ 51) := by
  refine congrArg Fl.mk (round_of ?_ (sb lib (by norm_num [_root_.abs_le])))
  change B64.rnd Real.pi = _
  have p1 := Real.pi_gt_d20
  have p2 := Real.pi_lt_d20
  rw [B64.rnd_eq 7074237752028440 (-51) (by norm_num) (by rw [abs_of_pos Real.pi_pos]; norm_num; linarith) (by rw [abs_of_pos Real.pi_pos]; norm_num; linarith)
    (by norm_num; linarith) (by norm_num; linarith)]
  norm_num

theorem lit2 : (lit 2 : Fl (b64 lib)) = of 2 :=
  Fl.lit_of (ex lib (2 ^ 52) (-51) (by norm_num) (by norm_num) (by norm_num) (by norm_num) (by norm_num)) (sb lib (by norm_num))

theorem lit3 : (lit 3 : Fl (b64 lib)) = of 3 :=
  Fl.lit_of (ex lib (3 * 2 ^ 51) (-51) (by norm_num) (by norm_num) (by norm_num) (by norm_num) (by norm_num)) (sb lib (by norm_num))

theorem twoPi_of : (twoPi : Fl (b64 lib)) = of W := by
  unfold twoPi
  rw [lit2, pi_of]
  exact Fl.mul_of (ex lib 7074237752028440 (-50) (by norm_num) (by norm_num) (by norm_num) (by norm_num) (by norm_num [W])) (sb lib (by norm_num [W, _root_.abs_le]))

theorem sub_up : (of 15 - of t : Fl (b64 lib)) = of (3 * W) := by
  refine Fl.sub_of ?_ (sb lib (by norm_num [W, _root_.abs_le]))
  change B64.rnd _ = _
  rw [B64.rnd_eq 5305678314021330 (-48) (by norm_num) (by norm_num [t]) (by norm_num [t]) (by norm_num [t]) (by norm_num [t])]
  norm_num [W]

theorem sub_lo : (of t - of (-4) : Fl (b64 lib)) = of (t + 4) :=
  Fl.sub_of (ex lib 5420319165585200 (-55) (by norm_num) (by norm_num) (by norm_num) (by norm_num [t]) (by norm_num [t])) (sb lib (by norm_num [t, _root_.abs_le]))

theorem W_pos : 0 < W := by norm_num [W]

theorem div_up : Elem.floorDiv (of 15 - of t) (twoPi : Fl (b64 lib)) = of ((3 : ℤ) : ℝ) := by
  rw [sub_up, twoPi_of]
  refine congrArg Fl.mk ?_
  change (b64 lib).round (Elem.floorDiv (XReal.fin (3 * W)) (XReal.fin W)) = _
  rw [XReal.floorDiv_fin _ W_pos.ne', mul_div_cancel_right₀ _ W_pos.ne', show ⌊(3 : ℝ)⌋ = (3 : ℤ) from by exact_mod_cast Int.floor_intCast (R := ℝ) 3]
  exact Fl.round_int (intRounding_b64 lib) (by norm_num [b64]) (by norm_num)

theorem div_lo : Elem.floorDiv (of t - of (-4)) (twoPi : Fl (b64 lib)) = of ((0 : ℤ) : ℝ) := by
  rw [sub_lo, twoPi_of]
  refine congrArg Fl.mk ?_
  change (b64 lib).round (Elem.floorDiv (XReal.fin (t + 4)) (XReal.fin W)) = _
  rw [XReal.floorDiv_fin _ W_pos.ne', show ⌊(t + 4) / W⌋ = (0 : ℤ) from by
    rw [Int.floor_eq_zero_iff, Set.mem_Ico]
    norm_num [t, W]]
  exact Fl.round_int (intRounding_b64 lib) (by norm_num [b64]) (by norm_num)

theorem row_of : spin (of t : Fl (b64 lib)) 3 = of above := by
  rw [spin, if_pos (by norm_num)]
  have e : (((3 : ℤ).toNat : ℕ) : Rat) = 3 := rfl
  rw [e, lit3, twoPi_of]
  have e1 : (of W * of 3 : Fl (b64 lib)) = of (3 * W) :=
    Fl.mul_of (ex lib 5305678314021330 (-48) (by norm_num) (by norm_num) (by norm_num) (by norm_num [W]) (by norm_num [W])) (sb lib (by norm_num [W, _root_.abs_le]))
  rw [e1]
  refine Fl.add_of ?_ (sb lib (by norm_num [above, _root_.abs_le]))
  change B64.rnd _ = _
  rw [B64.rnd_eq 8444249301319681 (-49) (by norm_num) (by norm_num [t, W]) (by norm_num [t, W]) (by norm_num [t, W]) (by norm_num [t, W])]
  norm_num [above]

/-- one rotary joint with limits -4 and 15 -/
noncomputable def arm : Robot (Fl (b64 lib)) where
  H := [⟨of 0, of 0, of 1⟩]
  P := [⟨of 0, of 0, of 0⟩, ⟨of 1, of 0, of 0⟩]
  jointType := [0]
  lower := some [of (-4)]
  upper := some [of 15]

end B64Equiv

open B64Equiv in
/-- **C108** (negative): in binary64 a row may be outside the limits: for one rotary joint with limits -4 and 15 and a joint value inside them,
three turns up are returned although they end one place above 15, and `fwdkin` refuses that row.  `15 - θ` is rounded up to three turns. -/
theorem C108_limits_false (lib : Libm) : ∃ (θ : Fl (b64 lib)) (T : Transform (Fl (b64 lib))) (rows : List (List (Fl (b64 lib)))) (row : List (Fl (b64 lib))),
    fwdkin (arm lib) [θ] = .ok T ∧ equivalent_configurations (arm lib) [[θ]] = .ok rows ∧ row ∈ rows ∧ fwdkin (arm lib) row = .error .assertion := by
  obtain ⟨E, hE, e⟩ := equivOne_turns (arm lib) [of (-4)] [of 15] [of t] rfl rfl rfl rfl rfl (fun _ => 3) (fun _ => 0) (by
    intro j l u x g1 g2 g3
    cases j with
    | zero =>
      cases g1; cases g2; cases g3
      rw [div_up, div_lo]
      exact reads_of 3 0
    | succ j => simp at g1)
  have h3 : [(3 : ℤ)] ∈ E := by
    rw [hE.mem]
    refine ⟨⟨rfl, fun j k hj hk => ?_⟩, by simp⟩
    cases j with
    | zero =>
      cases hj
      exact ⟨by simp, rfl, by decide, by decide⟩
    | succ j => simp at hj
  have chk : checkLimits (arm lib) [of t] false = .ok () := by
    rcases checkLimits_iff (arm lib) [of t] [of (-4)] [of 15] rfl rfl rfl rfl with ⟨h, -⟩ | ⟨-, i, hi, h⟩
    · exact h
    · exfalso
      obtain rfl : i = 0 := by simpa using hi
      rcases h with h | h
      · apply h
        change XReal.fin (-4) ≤ XReal.fin t
        rw [XReal.fin_le]
        norm_num [t]
      · apply h
        change XReal.fin t ≤ XReal.fin 15
        rw [XReal.fin_le]
        norm_num [t]
  have refuse : checkLimits (arm lib) [of above] false = .error .assertion := by
    rcases checkLimits_iff (arm lib) [of above] [of (-4)] [of 15] rfl rfl rfl rfl with ⟨-, h⟩ | ⟨h, -⟩
    · exfalso
      have h := (h 0 (by simp)).2
      change XReal.fin above ≤ XReal.fin 15 at h
      rw [XReal.fin_le] at h
      norm_num [above] at h
    · exact h
  have hmem : [(of above : Fl (b64 lib))] ∈ E.map (confG [(of t : Fl (b64 lib))]) := by
    refine List.mem_map.2 ⟨_, h3, ?_⟩
    simp only [confG, List.zipWith_cons_cons, List.zipWith_nil_right, row_of]
  have h2 : ∃ u, (E.map (confG [(of t : Fl (b64 lib))])).mapM (fun e => [[(of t : Fl (b64 lib))]].mapM fun t => allcloseEffect t e) = .ok u := by
    apply exists_mapM_ok
    intro c hc
    apply exists_mapM_ok
    intro x hx
    obtain ⟨m, hm, rfl⟩ := List.mem_map.1 hc
    rw [List.mem_singleton] at hx
    subst hx
    refine ⟨(), ?_⟩
    rw [allcloseEffect, bcast_eq _ _ (by rw [confG_length _ _ ((hE.mem m).1 hm).1.1])]
    rfl
  obtain ⟨u, h2⟩ := h2
  obtain ⟨T, hT⟩ : ∃ T, fwdkin (arm lib) [of t] = .ok T := by
    unfold fwdkin
    rw [chk]
    exact ⟨_, rfl⟩
  refine ⟨of t, T, E.map (confG [of t]), [of above], hT, ?_, hmem, ?_⟩
  · simp only [mapM_cons', Except.bind_ok, List.mapM_nil, Except.pure_eq] at h2
    simp only [equivalent_configurations, forAppend, mapM_cons', e, Except.bind_ok, List.mapM_nil, Except.pure_eq, List.flatten_cons, List.flatten_nil, List.append_nil, h2]
    rfl
  · unfold fwdkin
    rw [refuse]
    rfl

/-- The hypotheses of `C108_equiv_rounding_partial` are met in binary64 by a rotary joint with limits -7 and 7 and a sliding joint, at the
values 1/2 and 1/4, and one configuration has to be found: one turn down.  The sliding joint is not moved. -/
example (lib : Libm) (robot : Robot (Fl (b64 lib))) (ht : robot.jointType = [0, 1]) (hl : robot.lower = some [of (-7), of (-1)])
    (hu : robot.upper = some [of 7, of 1]) :
    ∃ rows, equivalent_configurations robot [[of (1 / 2), of (1 / 4)]] = .ok rows ∧
      ∃ row ∈ rows, Spec.ConfNear (1 / 1000000000) row [1 / 2 - 2 * Real.pi, 1 / 4] := by
  have p1 := Real.pi_gt_d2
  have p2 := Real.pi_lt_d2
  have hδ : (23 * 7 + 100) * (b64 lib).u ≤ 1 / 1000000000 := by norm_num [b64]
  have hδ0 : 0 ≤ (23 * 7 + 100) * (b64 lib).u := by norm_num [b64]
  obtain ⟨parts, e, hp⟩ := C108_equiv_rounding_partial (intRounding_b64 lib) (by norm_num [b64]) 7 (by norm_num) robot [-7, -1] [7, 1] hl hu
    (by simp [ht]) (by simp [ht]) (by simp [Spec.SizedBy]) (by simp [Spec.SizedBy]) [[1 / 2, 1 / 4]] (by simp [ht])
    (by simp [Spec.SizedBy, abs_of_pos]; norm_num) (by
      intro θ hθ j l u t g1 g2 g3
      rw [List.mem_singleton] at hθ
      subst hθ
      match j with
      | 0 => cases g1; cases g2; cases g3; norm_num
      | 1 => cases g1; cases g2; cases g3; norm_num
      | j + 2 => simp at g1)
  obtain _ | ⟨⟨-, -, hc⟩, _ | _⟩ := hp
  obtain ⟨row, hr, hn⟩ := hc [1 / 2 - 2 * Real.pi, 1 / 4] ⟨rfl, by simp [Real.pi_ne_zero], by
    intro j l u t x g1 g2 g3 g4
    match j with
    | 0 =>
      cases g1; cases g2; cases g3; cases g4
      exact .inr ⟨by simp [ht], by linarith, by linarith, -1, by push_cast; ring⟩
    | 1 => cases g1; cases g2; cases g3; cases g4; exact .inl rfl
    | j + 2 => simp at g1⟩
  refine ⟨_, e, row, by simpa using hr, List.Forall₂.imp ?_ hn⟩
  rintro a b ⟨v, h1, h2⟩
  exact ⟨v, h1, h2.trans hδ⟩
