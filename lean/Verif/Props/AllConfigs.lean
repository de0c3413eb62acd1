import Verif.Props.Robot6
import Verif.Props.Ur
import Verif.Props.Track
import Verif.Props.Equiv
import Verif.Props.InvkinMisc
import Verif.Props.Iter

/-!
# Property C96: an analytic solver and `equivalent_configurations` together list all joint vectors

The solvers return one joint vector for each way to reach a pose; `equivalent_configurations`, applied to what they
return, adds the whole turns.
-/
set_option autoImplicit false

namespace Spec

/-- The joint vector `θ` is between the limits, bounds included, joint by joint. -/
def fits (lo up θ : List ℝ) : Prop := List.Forall₂ (· ≤ ·) lo θ ∧ List.Forall₂ (· ≤ ·) θ up

end Spec

theorem fits_within {lo up θ : List ℝ} (h : Spec.fits lo up θ) : Spec.within lo up θ := by
  intro j l u t h1 h2 h3
  obtain ⟨a1, a2⟩ := h
  obtain ⟨i1, e1⟩ := List.getElem?_eq_some_iff.1 h1
  obtain ⟨i2, e2⟩ := List.getElem?_eq_some_iff.1 h2
  obtain ⟨i3, e3⟩ := List.getElem?_eq_some_iff.1 h3
  subst e1 e2 e3
  exact ⟨a1.get i1 i3, a2.get i3 i2⟩

theorem within_fits {lo up θ : List ℝ} (h : Spec.within lo up θ) (l1 : lo.length = θ.length) (l2 : up.length = θ.length) :
    Spec.fits lo up θ := by
  refine ⟨List.forall₂_iff_get.2 ⟨l1, fun i h1 h2 => ?_⟩, List.forall₂_iff_get.2 ⟨l2.symm, fun i h1 h2 => ?_⟩⟩
  · exact (h i lo[i] (up[i]'(by omega)) θ[i] (by simp) (by simp) (by simp)).1
  · exact (h i (lo[i]'(by omega)) up[i] θ[i] (by simp) (by simp) (by simp)).2

theorem forall₂_mem_left {α β : Type} {R : α → β → Prop} {l : List α} {m : List β} (h : List.Forall₂ R l m) {a : α} (ha : a ∈ l) :
    ∃ b ∈ m, R a b := by
  induction h with
  | nil => cases ha
  | cons hab _ ih =>
    rcases List.mem_cons.1 ha with rfl | ha
    · exact ⟨_, by simp, hab⟩
    · obtain ⟨b, h1, h2⟩ := ih ha
      exact ⟨b, by simp [h1], h2⟩

/-- `equivalent_configurations` on a list that contains a representative of `c`. -/
theorem equivalents_complete (r : Robot ℝ) (lo up : List ℝ) (hlo : r.lower = some lo) (hup : r.upper = some up)
    (ht : ∀ t ∈ r.jointType, t = 0) (ll : lo.length = r.jointType.length) (lu : up.length = r.jointType.length)
    (sols : List (List XReal)) (hs : ∀ s ∈ sols, ∃ θ : List ℝ, s = θ.map .fin ∧ θ.length = r.jointType.length ∧ Spec.within lo up θ) :
    ∃ eqs, equivalent_configurations r.up sols = .ok eqs ∧
      (∀ c ∈ eqs, ∃ θ c' : List ℝ, θ.map .fin ∈ sols ∧ c = c'.map .fin ∧ Spec.fits lo up c' ∧
        fwdkin r c' true = fwdkin r θ true) ∧
      ∀ (θ c : List ℝ), θ.map .fin ∈ sols → Spec.fits lo up c → (List.Forall₂ (fun t x => ∃ k : ℤ, x = t + k * (2 * Real.pi)) θ c) →
        c.map .fin ∈ sols ++ eqs := by
  obtain ⟨θs, rfl, lθ, hθ⟩ : ∃ θs : List (List ℝ), sols = θs.map (·.map .fin) ∧ (∀ θ ∈ θs, θ.length = r.jointType.length) ∧
      ∀ θ ∈ θs, Spec.within lo up θ := by
    induction sols with
    | nil => exact ⟨[], rfl, by simp, by simp⟩
    | cons s sols ih =>
      obtain ⟨θs, e, a, b⟩ := ih fun s h => hs s (by simp [h])
      obtain ⟨θ, e', a', b'⟩ := hs s (by simp)
      refine ⟨θ :: θs, by simp [e, e'], ?_, ?_⟩
      · intro x hx; rcases List.mem_cons.1 hx with rfl | hx
        · exact a'
        · exact a x hx
      · intro x hx; rcases List.mem_cons.1 hx with rfl | hx
        · exact b'
        · exact b x hx
  obtain ⟨parts, e1, e2⟩ := C38_equivalent_partial r lo up hlo hup ll lu θs lθ hθ
  refine ⟨_, e1, fun c hc => ?_, fun θ c hm hc hk => ?_⟩
  · obtain ⟨θ, h1, c', h2, h3, h4, -⟩ := C37_equivalent_sound r lo up hlo hup ll lu θs lθ hθ none _ e1 c hc
    refine ⟨θ, c', List.mem_map.2 ⟨θ, h1, rfl⟩, h2, within_fits h3.2.2.1 ?_ ?_, h4⟩ <;> rw [h3.1, lθ θ h1] <;> assumption
  · obtain ⟨θ', h1, h2⟩ := List.mem_map.1 hm
    obtain rfl : θ' = θ := List.map_injective_iff.2 (fun a b h => by simpa using h) h2
    by_cases hne : c = θ'
    · rw [hne]; exact List.mem_append_left _ hm
    refine List.mem_append_right _ ?_
    obtain ⟨part, hp, _, hpm⟩ := forall₂_mem_left e2 h1
    refine List.mem_flatten.2 ⟨part, hp, (hpm _).2 ⟨c, rfl, hk.length_eq.symm, hne, fits_within hc, ?_⟩⟩
    intro j t x g1 g2
    obtain ⟨i1, f1⟩ := List.getElem?_eq_some_iff.1 g1
    obtain ⟨i2, f2⟩ := List.getElem?_eq_some_iff.1 g2
    subst f1 f2
    refine .inr ⟨?_, hk.get i1 i2⟩
    have i3 : j < r.jointType.length := by rw [← lθ θ' h1]; exact i1
    rw [List.getElem?_eq_getElem i3, ht _ (List.getElem_mem i3)]

/-- Returned joint vectors are inside the limits, as lists of real numbers. -/
theorem inLimits_within {r : Robot ℝ} {lo up : List ℝ} (hlo : r.lower = some lo) (hup : r.upper = some up) {θ : List ℝ} {j : Nat} {t : ℝ}
    (h : Spec.inLimits r.up false j (.fin t)) {l u : ℝ} (h1 : lo[j]? = some l) (h2 : up[j]? = some u) : l ≤ t ∧ t ≤ u := by
  have e1 : r.up.lower = some (lo.map .fin) := by show r.lower.map _ = _; rw [hlo]; rfl
  have e2 : r.up.upper = some (up.map .fin) := by show r.upper.map _ = _; rw [hup]; rfl
  have := h rfl _ _ e1 e2 (.fin l) (.fin u) (by simp [h1]) (by simp [h2])
  exact ⟨le_of_lt (by simpa using this.1), le_of_lt (by simpa using this.2)⟩

section
variable {r : Robot ℝ} {h0 h1 h2 h3 h4 h5 P0 P1 P2 P3 P4 P5 P6 k : V3 ℝ}

/-- C96 (`_partial`: as in C30, no regularity is asked of the property): when `robot6_sphericalwrist_invkin` returns for the
pose of a regular joint vector inside the limits, then `equivalent_configurations` returns for its list, and the two lists
together contain this very joint vector - every one, that is, since the vector is arbitrary. -/
theorem C96_robot6_partial (hr : Spec.WristArm r h0 h1 h2 h3 h4 h5 P0 P1 P2 P3 P4 P5 P6)
    (ha : Spec.RegularArm h0 h2 P2 (P3 + P4)) {lo up : List ℝ} (hlo : r.lower = some lo) (hup : r.upper = some up)
    (ll : lo.length = 6) (lu : up.length = 6) {T : Transform ℝ} (hT : IsRot T.R) {sols : List (List XReal)}
    (h : (robot6_sphericalwrist_invkin r.up T.up).2 = .ok sols) :
    ∃ eqs, equivalent_configurations r.up sols = .ok eqs ∧
      (∀ c ∈ eqs, ∃ θ c' : List ℝ, θ.map .fin ∈ sols ∧ c = c'.map .fin ∧ Spec.fits lo up c' ∧ fwdkin r c' true = fwdkin r θ true) ∧
      ∀ q1 q2 q3 q4 q5 q6 : ℝ, Spec.RegularConf h0 h1 h2 h3 h4 h5 P1 P2 (P3 + P4) q2 q3 q4 q5 q6 →
        Spec.withinLimits r 0 q1 → Spec.withinLimits r 1 q2 → Spec.withinLimits r 2 q3 → Spec.withinLimits r 3 q4 →
        Spec.withinLimits r 4 q5 → Spec.withinLimits r 5 q6 → fwdkin r [q1, q2, q3, q4, q5, q6] true = .ok T →
        [XReal.fin q1, .fin q2, .fin q3, .fin q4, .fin q5, .fin q6] ∈ sols ++ eqs := by
  have lt : r.jointType.length = 6 := by rw [hr.types]; rfl
  obtain ⟨eqs, e1, e2, e3⟩ := equivalents_complete r lo up hlo hup (by rw [hr.types]; simp) (by omega) (by omega) sols (fun s hs => by
    obtain ⟨q1, q2, q3, q4, q5, q6, rfl, -⟩ := C29_robot6_sound r h0 h1 h2 h3 h4 h5 P0 P1 P2 P3 P4 P5 P6 hr T hT none sols h s hs
    obtain ⟨-, hin⟩ := C31_robot6_limits r.up T.up none sols h _ hs
    refine ⟨[q1, q2, q3, q4, q5, q6], rfl, by rw [lt]; rfl, fun j l u t g1 g2 g3 => ?_⟩
    refine inLimits_within (θ := [q1, q2, q3, q4, q5, q6]) hlo hup (hin j (.fin t) ?_) g1 g2
    have : ([q1, q2, q3, q4, q5, q6].map XReal.fin)[j]? = some (.fin t) := by rw [List.getElem?_map, g3]; rfl
    exact this)
  refine ⟨eqs, e1, e2, fun q1 q2 q3 q4 q5 q6 hc l1 l2 l3 l4 l5 l6 hf => ?_⟩
  obtain ⟨n1, n2, n3, n4, n5, n6, hm⟩ := C30_robot6_complete_partial hr ha hc l1 l2 l3 l4 l5 l6 hf h
  have key := e3 [q1 + n1 * (2 * Real.pi), q2 + n2 * (2 * Real.pi), q3 + n3 * (2 * Real.pi), q4 + n4 * (2 * Real.pi),
    q5 + n5 * (2 * Real.pi), q6 + n6 * (2 * Real.pi)] [q1, q2, q3, q4, q5, q6] hm
  refine key (within_fits ?_ (by rw [ll]; rfl) (by rw [lu]; rfl)) ?_
  · have hj : ∀ (j : Nat) (q : ℝ), Spec.withinLimits r j q → ∀ l u : ℝ, lo[j]? = some l → up[j]? = some u → l ≤ q ∧ q ≤ u := by
      intro j q hq l u g1 g2
      obtain ⟨l', u', f1, f2, f3, f4, -⟩ := hq lo up hlo hup
      rw [g1] at f1; rw [g2] at f2; cases f1; cases f2
      exact ⟨f3.le, f4.le⟩
    intro j l u t g1 g2 g3
    match j, g3 with
    | 0, g3 => cases g3; exact hj 0 q1 l1 l u g1 g2
    | 1, g3 => cases g3; exact hj 1 q2 l2 l u g1 g2
    | 2, g3 => cases g3; exact hj 2 q3 l3 l u g1 g2
    | 3, g3 => cases g3; exact hj 3 q4 l4 l u g1 g2
    | 4, g3 => cases g3; exact hj 4 q5 l5 l u g1 g2
    | 5, g3 => cases g3; exact hj 5 q6 l6 l u g1 g2
  · have : ∀ (q : ℝ) (n : ℤ), ∃ k : ℤ, q = q + n * (2 * Real.pi) + k * (2 * Real.pi) := fun q n => ⟨-n, by push_cast; ring⟩
    exact .cons (this q1 n1) (.cons (this q2 n2) (.cons (this q3 n3) (.cons (this q4 n4) (.cons (this q5 n5) (.cons (this q6 n6) .nil)))))

/-- C96 (`_partial`: as in C60, no regularity is asked of the property, and the limits of joint 5 contain half a turn on either
side of zero, since `ur_invkin` does not check them, `C36_ur_limits_false`): the same for `ur_invkin`; in particular the joint
vectors that the solver alone loses with limits of one turn (`C67_ur_wrist_false`) are found. -/
theorem C96_ur_partial (hr : Spec.UrChain r k P0 P1 P2 P3 P4 P5 P6) {lo up : List ℝ} (hlo : r.lower = some lo) (hup : r.upper = some up)
    (ll : lo.length = 6) (lu : up.length = 6) (h5 : ∀ l u : ℝ, lo[4]? = some l → up[4]? = some u → l ≤ -Real.pi ∧ Real.pi ≤ u)
    {T : Transform ℝ} (hT : IsRot T.R) {sols : List (List XReal)} (h : ur_invkin r.up T.up = .ok sols) :
    ∃ eqs, equivalent_configurations r.up sols = .ok eqs ∧
      (∀ c ∈ eqs, ∃ θ c' : List ℝ, θ.map .fin ∈ sols ∧ c = c'.map .fin ∧ Spec.fits lo up c' ∧ fwdkin r c' true = fwdkin r θ true) ∧
      ∀ q1 q2 q3 q4 q5 q6 : ℝ, Spec.RegularUr k P1 P2 P3 P4 q2 q3 q4 q5 q6 →
        Spec.fits lo up [q1, q2, q3, q4, q5, q6] → Spec.withinLimits r 0 q1 → Spec.urLimits r q2 q3 q4 → Spec.withinLimits r 5 q6 →
        fwdkin r [q1, q2, q3, q4, q5, q6] true = .ok T →
        [XReal.fin q1, .fin q2, .fin q3, .fin q4, .fin q5, .fin q6] ∈ sols ++ eqs := by
  have lt : r.jointType.length = 6 := by rw [hr.types]; rfl
  obtain ⟨eqs, e1, e2, e3⟩ := equivalents_complete r lo up hlo hup (by rw [hr.types]; simp) (by omega) (by omega) sols (fun s hs => by
    obtain ⟨q1, q2, q3, q4, q5, q6, rfl, -⟩ := C35_ur_sound hr T hT none sols h s hs
    obtain ⟨-, hin⟩ := C36_ur_limits_partial r.up T.up none sols h _ hs
    refine ⟨[q1, q2, q3, q4, q5, q6], rfl, by rw [lt]; rfl, fun j l u t g1 g2 g3 => ?_⟩
    have g : ([q1, q2, q3, q4, q5, q6].map XReal.fin)[j]? = some (.fin t) := by rw [List.getElem?_map, g3]; rfl
    by_cases hj : j = 4
    · subst hj
      have := abs_le.1 (C67_ur_wrist_turn_lost _ _ _ _ h _ hs t g)
      obtain ⟨a, b⟩ := h5 l u g1 g2
      exact ⟨by linarith, by linarith⟩
    · exact inLimits_within (θ := [q1, q2, q3, q4, q5, q6]) hlo hup (hin j (.fin t) hj g) g1 g2)
  refine ⟨eqs, e1, e2, fun q1 q2 q3 q4 q5 q6 hc hf l1 l234 l6 hk => ?_⟩
  obtain ⟨n1, n2, n3, n4, n5, n6, hm, -⟩ := C60_ur_complete_partial hr hc l1 l234 l6 hk h
  refine e3 [q1 + n1 * (2 * Real.pi), q2 + n2 * (2 * Real.pi), q3 + n3 * (2 * Real.pi), q4 + n4 * (2 * Real.pi),
    q5 + n5 * (2 * Real.pi), q6 + n6 * (2 * Real.pi)] [q1, q2, q3, q4, q5, q6] hm hf ?_
  have : ∀ (q : ℝ) (n : ℤ), ∃ k : ℤ, q = q + n * (2 * Real.pi) + k * (2 * Real.pi) := fun q n => ⟨-n, by push_cast; ring⟩
  exact .cons (this q1 n1) (.cons (this q2 n2) (.cons (this q3 n3) (.cons (this q4 n4) (.cons (this q5 n5) (.cons (this q6 n6) .nil)))))

end

/-! ### Concrete cases -/

/-- The joint vector of `C67_ur_wrist_false`, which `ur_invkin` alone never returns, is found with its help and that of
`equivalent_configurations`. -/
theorem C96_ur_recovers : ∃ T sols eqs, fwdkin (Spec.smallUr (some Spec.urLo) (some Spec.urUp))
      [0, 0, Real.pi / 2, 0, Real.pi / 2 + ((-1 : ℤ) : ℝ) * (2 * Real.pi), 0] true = .ok T ∧
    ur_invkin (Spec.smallUr (some Spec.urLo) (some Spec.urUp)).up T.up = .ok sols ∧
    equivalent_configurations (Spec.smallUr (some Spec.urLo) (some Spec.urUp)).up sols = .ok eqs ∧
    [XReal.fin 0, .fin 0, .fin (Real.pi / 2), .fin 0, .fin (Real.pi / 2 + ((-1 : ℤ) : ℝ) * (2 * Real.pi)), .fin 0] ∉ sols ∧
    [XReal.fin 0, .fin 0, .fin (Real.pi / 2), .fin 0, .fin (Real.pi / 2 + ((-1 : ℤ) : ℝ) * (2 * Real.pi)), .fin 0] ∈ eqs := by
  have hr := Spec.smallUr_arm (some Spec.urLo) (some Spec.urUp)
  have hpi := Real.pi_pos
  have hT := fwdkin_chain6 hr.types hr.axes hr.links 0 0 (Real.pi / 2) 0 (Real.pi / 2 + ((-1 : ℤ) : ℝ) * (2 * Real.pi)) 0
  have hT' := fwdkin_chain6 hr.types hr.axes hr.links 0 0 (Real.pi / 2) 0 (Real.pi / 2) 0
  rw [rot_periodic] at hT
  obtain ⟨S, hS, hR⟩ := fwdkin_rigid (Spec.smallUr (some Spec.urLo) (some Spec.urUp)) ⟨rfl, rfl, by simp [Spec.smallUr], by
    simp [Spec.smallUr, IsUnit3], by simp [Spec.smallUr], by simp [Spec.smallUr], by simp [Spec.smallUr], by simp [Spec.smallUr]⟩
    [0, 0, Real.pi / 2, 0, Real.pi / 2, 0] rfl
  rw [hT'] at hS
  have hw : ∀ j < 6, ∀ q : ℝ, -(2 * Real.pi) < q → q < 2 * Real.pi → Spec.withinLimits (Spec.smallUr (some Spec.urLo) (some Spec.urUp)) j q := by
    rintro j hj q h1 h2 _ _ ⟨⟩ ⟨⟩
    refine ⟨-(2 * Real.pi), 2 * Real.pi, ?_, ?_, h1, h2, .inr ⟨by linarith, by linarith⟩⟩ <;> interval_cases j <;> rfl
  have hsize : Spec.limitsSized (Spec.smallUr (some Spec.urLo) (some Spec.urUp)) 6 := by
    rintro _ _ ⟨⟩ ⟨⟩; simp [Spec.urLo, Spec.urUp]
  obtain ⟨sols, hs⟩ := Spec.smallUr_returns (some Spec.urLo) (some Spec.urUp) hsize 0 (by rw [Int.cast_zero, zero_mul]; exact hT')
  obtain ⟨eqs, e1, -, e3⟩ := C96_ur_partial hr rfl rfl rfl rfl (by
    rintro l u ⟨⟩ ⟨⟩; constructor <;> linarith) (by cases hS; exact hR) hs
  have hno : [XReal.fin 0, .fin 0, .fin (Real.pi / 2), .fin 0, .fin (Real.pi / 2 + ((-1 : ℤ) : ℝ) * (2 * Real.pi)), .fin 0] ∉ sols := by
    intro hm
    have := C67_ur_wrist_turn_lost _ _ _ _ hs _ hm (Real.pi / 2 + ((-1 : ℤ) : ℝ) * (2 * Real.pi)) rfl
    rw [abs_le] at this
    push_cast at this
    linarith [this.1]
  refine ⟨_, sols, eqs, hT, hs, e1, hno, ?_⟩
  have hc := Spec.smallUr_conf
  have := e3 0 0 (Real.pi / 2) 0 (Real.pi / 2 + ((-1 : ℤ) : ℝ) * (2 * Real.pi)) 0
    ⟨hc.upper, hc.fore, hc.bend, hc.shoulder, by rw [Real.sin_add_int_mul_two_pi]; exact hc.wrist, hc.clear2, by
      rw [rot_periodic]; exact hc.clear24, .inr (by
      rw [rot_periodic]; rcases hc.clear5 with ⟨n, hn⟩ | h
      · exfalso
        have h4 : (n : ℝ) * 4 = 1 := by nlinarith
        have : (n * 4 : ℤ) = 1 := by exact_mod_cast h4
        omega
      · exact h), hc.clear6⟩
    (by
      refine ⟨.cons ?_ (.cons ?_ (.cons ?_ (.cons ?_ (.cons ?_ (.cons ?_ .nil))))),
        .cons ?_ (.cons ?_ (.cons ?_ (.cons ?_ (.cons ?_ (.cons ?_ .nil)))))⟩ <;> push_cast <;> linarith)
    (hw 0 (by norm_num) 0 (by linarith) (by linarith))
    (by
      rintro _ _ ⟨⟩ ⟨⟩
      exact .inr (.inr ⟨⟨rfl, rfl⟩, ⟨rfl, rfl⟩, ⟨rfl, rfl⟩⟩))
    (hw 5 (by norm_num) 0 (by linarith) (by linarith)) hT
  exact (List.mem_append.1 this).resolve_left hno

-- non-vacuity of C96_robot6_partial: the small arm with limits of ±3
example : ∃ T sols eqs, fwdkin (Spec.smallArm (some [-3, -3, -3, -3, -3, -3]) (some [3, 3, 3, 3, 3, 3])) [0, 0, 0, Real.pi / 2, Real.pi / 2, 0] true = .ok T ∧
    (robot6_sphericalwrist_invkin (Spec.smallArm (some [-3, -3, -3, -3, -3, -3]) (some [3, 3, 3, 3, 3, 3])).up T.up none).2 = .ok sols ∧
    equivalent_configurations (Spec.smallArm (some [-3, -3, -3, -3, -3, -3]) (some [3, 3, 3, 3, 3, 3])).up sols = .ok eqs ∧
    [XReal.fin 0, .fin 0, .fin 0, .fin (Real.pi / 2), .fin (Real.pi / 2), .fin 0] ∈ sols ++ eqs := by
  set lo : List ℝ := [-3, -3, -3, -3, -3, -3] with hlo
  set up : List ℝ := [3, 3, 3, 3, 3, 3] with hup
  have hr := Spec.smallArm_wrist (some lo) (some up)
  have hT := fwdkin_chain6 hr.types hr.axes hr.links 0 0 0 (Real.pi / 2) (Real.pi / 2) 0
  have p1 := Real.pi_gt_three
  have p2 := Real.pi_lt_d2
  obtain ⟨S, hS, hR⟩ := fwdkin_rigid (Spec.smallArm (some lo) (some up)) ⟨rfl, rfl, by simp [Spec.smallArm], by
    simp [Spec.smallArm, IsUnit3], by simp [Spec.smallArm], by simp [Spec.smallArm], by simp [Spec.smallArm], by simp [Spec.smallArm]⟩
    [0, 0, 0, Real.pi / 2, Real.pi / 2, 0] rfl
  obtain ⟨sols, hs⟩ := Spec.smallArm_returns (some lo) (some up) (by rintro _ _ ⟨⟩ ⟨⟩; simp [hlo, hup]) 0 (by rw [Int.cast_zero, zero_mul]; exact hS)
  have hw : ∀ j < 6, ∀ q : ℝ, -3 < q → q < 3 → Spec.withinLimits (Spec.smallArm (some lo) (some up)) j q := by
    rintro j hj q h1 h2 _ _ ⟨⟩ ⟨⟩
    refine ⟨-3, 3, ?_, ?_, h1, h2, .inl ⟨by linarith, by linarith⟩⟩ <;> interval_cases j <;> rfl
  obtain ⟨eqs, e1, -, e3⟩ := C96_robot6_partial hr Spec.smallArm_regular rfl rfl rfl rfl hR hs
  exact ⟨S, sols, eqs, hS, hs, e1, e3 _ _ _ _ _ _ Spec.smallArm_conf (hw 0 (by norm_num) 0 (by norm_num) (by norm_num))
    (hw 1 (by norm_num) 0 (by norm_num) (by norm_num)) (hw 2 (by norm_num) 0 (by norm_num) (by norm_num))
    (hw 3 (by norm_num) _ (by linarith) (by linarith)) (hw 4 (by norm_num) _ (by linarith) (by linarith))
    (hw 5 (by norm_num) 0 (by norm_num) (by norm_num)) hS⟩
