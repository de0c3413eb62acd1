import Verif.Lemmas.Normalize
import Mathlib.Analysis.Real.Pi.Bounds

/-!
# Properties C27, C28: `normalize_joints`
-/
set_option autoImplicit false

section
variable {α : Type} [Add α] [Sub α] [Mul α] [Div α] [Neg α] [Zero α] [One α] [LT α] [LE α]
  [DecidableLT α] [DecidableLE α] [Elem α]

/-- Strictly inside the limits of joint `j`, when the robot has both limits and they are checked. -/
def Spec.inLimits (robot : Robot α) (ignore : Bool) (j : Nat) (t : α) : Prop :=
  ignore = false → ∀ lo up, robot.lower = some lo → robot.upper = some up →
    ∀ l u, lo[j]? = some l → up[j]? = some u → l < t ∧ t < u

end

/-- the limit arrays, when present, have an entry for joint `j` -/
def Spec.hasLimits (robot : Robot XReal) (j : Nat) : Prop :=
  ∀ lo up, robot.lower = some lo → robot.upper = some up → j < lo.length ∧ j < up.length

/-- evaluation of the limits of joint `j` -/
theorem ofRobot_limits (robot : Robot XReal) (last : Option (List XReal)) (ignore : Bool) (j : Nat) (hl : Spec.hasLimits robot j) :
    ((Normalizer.ofRobot robot last ignore).limits = none ∧ ∀ t, Spec.inLimits robot ignore j t) ∨
    ∃ lo up l u, (Normalizer.ofRobot robot last ignore).limits = some (lo, up) ∧ getI lo j = .ok l ∧ getI up j = .ok u ∧
      ∀ t, Spec.inLimits robot ignore j t ↔ (l < t ∧ t < u) := by
  rcases hlo : robot.lower with _ | lo
  · left; simp [Normalizer.ofRobot, Spec.inLimits, hlo]
  rcases hup : robot.upper with _ | up
  · left; simp [Normalizer.ofRobot, Spec.inLimits, hlo, hup]
  cases ignore with
  | true => left; simp [Normalizer.ofRobot, Spec.inLimits, hlo, hup]
  | false =>
    right
    obtain ⟨h1, h2⟩ := hl lo up hlo hup
    refine ⟨lo, up, lo[j], up[j], by simp [Normalizer.ofRobot, hlo, hup], getI_some (by simp [h1]), getI_some (by simp [h2]), fun t => ?_⟩
    simp [Spec.inLimits, hlo, hup, h1, h2]

/-- C27 (`_partial`: of the infinitely many representatives of an angle only those within one turn are tried when the angle is
outside the limits, so the last clause has `|m| ≤ 1` where the property has every `m`; see `C27_normalize_far_false`).
The normalized value differs from the input by a multiple of `2π`, is strictly inside the limits when they are checked, and is
the representative inside the limits that is closest to the last joint value when that is given. -/
theorem C27_normalize_partial (robot : Robot XReal) (last : Option (List XReal)) (ignore : Bool) (j : Nat) (θ : ℝ)
    (hl : Spec.hasLimits robot j) (hlast : ∀ xs, last = some xs → ∃ x : ℝ, xs[j]? = some (.fin x)) :
    ∃ r, (Normalizer.ofRobot robot last ignore).normalize j (.fin θ) = .ok r ∧
      (∀ t, r = some t → ∃ k : ℤ, t = .fin (θ + k * (2 * Real.pi)) ∧ Spec.inLimits robot ignore j t ∧
        ∀ xs, last = some xs → ∀ x : ℝ, xs[j]? = some (.fin x) → ∀ m : ℤ,
          Spec.inLimits robot ignore j (.fin (θ + m * (2 * Real.pi))) →
            |x - (θ + k * (2 * Real.pi))| ≤ |x - (θ + m * (2 * Real.pi))|) ∧
      (r = none → ∀ m : ℤ, |m| ≤ 1 → ¬ Spec.inLimits robot ignore j (.fin (θ + m * (2 * Real.pi)))) := by
  have hN : (Normalizer.ofRobot robot last ignore).last = last := rfl
  rcases ofRobot_limits robot last ignore j hl with ⟨h1, h2⟩ | ⟨lo, up, l, u, h1, h2, h3, h4⟩
  · rcases last with _ | xs
    · refine ⟨some (.fin θ), by simp [Normalizer.normalize, h1, hN], fun t ht => ⟨0, ?_, h2 _, by simp⟩, by simp⟩
      cases ht; simp
    · obtain ⟨x, hx⟩ := hlast xs rfl
      obtain ⟨n, e1, e2⟩ := normLast_free x θ
      refine ⟨some (.fin (θ + n * (2 * Real.pi))), by simp [Normalizer.normalize, h1, hN, getI_some hx, e1], fun t ht => ?_, by simp⟩
      cases ht
      refine ⟨n, rfl, h2 _, fun ys hy x' hx' m _ => ?_⟩
      cases hy
      rw [hx] at hx'; cases hx'
      exact nearest_turn e2 m
  · rcases normLimits_eval l u θ with ⟨k, e1, e2, e3⟩ | ⟨e1, e2⟩
    · rcases last with _ | xs
      · refine ⟨some (.fin (θ + k * (2 * Real.pi))), by simp [Normalizer.normalize, h1, h2, h3, hN, e1],
          fun t ht => ⟨k, ?_, ?_, by simp⟩, by simp⟩
        · cases ht; rfl
        · cases ht; exact (h4 _).2 ⟨e2, e3⟩
      · obtain ⟨x, hx⟩ := hlast xs rfl
        obtain ⟨n, f1, f2, f3, f4⟩ := normLast_lim l u x _ e2 e3
        have ek : ∀ m : ℤ, θ + k * (2 * Real.pi) + m * (2 * Real.pi) = θ + ((k + m : ℤ) : ℝ) * (2 * Real.pi) := by
          intro m; push_cast; ring
        refine ⟨some (.fin (θ + k * (2 * Real.pi) + n * (2 * Real.pi))),
          by simp [Normalizer.normalize, h1, h2, h3, hN, e1, getI_some hx, f1], fun t ht => ⟨k + n, ?_, ?_, ?_⟩, by simp⟩
        · cases ht; rw [ek]
        · cases ht; exact (h4 _).2 ⟨f2, f3⟩
        · intro ys hy x' hx' m hm
          cases hy
          rw [hx] at hx'; cases hx'
          have := f4 (m - k) (by rw [ek]; simpa using ((h4 _).1 hm).1) (by rw [ek]; simpa using ((h4 _).1 hm).2)
          rw [ek, ek] at this
          simpa using this
    · refine ⟨none, by simp [Normalizer.normalize, h1, h2, h3, e1], by simp, fun _ m hm hh => e2 m hm ((h4 _).1 hh)⟩

/-- C27, sufficient conditions under which dropping is right: the angle is a principal one and the limits are within one and a
half turns, so that one turn reaches every representative. -/
theorem C27_normalize_principal (robot : Robot XReal) (last : Option (List XReal)) (j : Nat) (θ : ℝ)
    (hl : Spec.hasLimits robot j) (lo up : List XReal) (l u : ℝ) (hlo : robot.lower = some lo) (hup : robot.upper = some up)
    (hlj : lo[j]? = some (.fin l)) (huj : up[j]? = some (.fin u))
    (h1 : -Real.pi < θ) (h2 : θ ≤ Real.pi) (h3 : -(3 * Real.pi) ≤ l) (h4 : u ≤ 3 * Real.pi)
    (hdrop : (Normalizer.ofRobot robot last).normalize j (.fin θ) = .ok none) (m : ℤ) :
    ¬ Spec.inLimits robot false j (.fin (θ + m * (2 * Real.pi))) := by
  have hp := Real.pi_pos
  intro hin
  obtain ⟨a, b⟩ := hin rfl lo up hlo hup _ _ hlj huj
  rw [XReal.fin_lt] at a b
  have hm : |m| ≤ 1 := by
    have c1 : (m : ℝ) < 2 := by
      by_contra hc; push Not at hc
      nlinarith [mul_le_mul_of_nonneg_right hc hp.le]
    have c2 : (-2 : ℝ) < m := by
      by_contra hc; push Not at hc
      nlinarith [mul_le_mul_of_nonneg_right hc hp.le]
    have c1' : m < 2 := by exact_mod_cast c1
    have c2' : -2 < m := by exact_mod_cast c2
    rw [abs_le]; omega
  rcases ofRobot_limits robot last false j hl with ⟨g1, -⟩ | ⟨lo', up', l', u', g1, g2, g3, g4⟩
  · simp [Normalizer.ofRobot, hlo, hup] at g1
  · rcases normLimits_eval l' u' θ with ⟨k, e1, e2, e3⟩ | ⟨-, e2⟩
    · exfalso
      rcases last with _ | xs
      · have hN : (Normalizer.ofRobot robot none).last = none := rfl
        simp [Normalizer.normalize, g1, g2, g3, e1, hN] at hdrop
      · simp only [Normalizer.normalize, g1, g2, g3, e1, Except.bind_ok, Except.pure_eq] at hdrop
        obtain ⟨x, -, hdrop⟩ := Except.bind_eq_ok hdrop
        obtain ⟨y, -, hdrop⟩ := Except.bind_eq_ok hdrop
        simp at hdrop
    · exact e2 m hm ((g4 _).1 hin)

/-- C27 is false for angles more than one turn away from the limits: `0` is dropped for the limits `(10, 20)` although
`0 + 4π` is inside them. -/
theorem C27_normalize_far_false :
    ∃ robot : Robot XReal, Spec.hasLimits robot 0 ∧
      (Normalizer.ofRobot robot none).normalize 0 (.fin 0) = .ok none ∧
      Spec.inLimits robot false 0 (.fin (0 + (2 : ℤ) * (2 * Real.pi))) := by
  have p1 := Real.pi_gt_three
  have p2 := Real.pi_lt_four
  refine ⟨{ H := [], P := [], jointType := [], lower := some [.fin 10], upper := some [.fin 20] }, ?_, ?_, ?_⟩
  · rintro lo up h1 h2; cases h1; cases h2; simp
  · rcases normLimits_eval (.fin 10) (.fin 20) 0 with ⟨k, e1, e2, e3⟩ | ⟨e1, e2⟩
    · exfalso
      have e4 : normLimits (XReal.fin 10) (.fin 20) (.fin 0) = none := by
        have a1 : (((-1 : ℚ)) : ℝ) = -1 := by norm_num
        have a2 : (((1 : ℚ)) : ℝ) = 1 := by norm_num
        simp only [normLimits, twoPi_fin, XReal.lit_fin, a1, a2, XReal.fin_mul, XReal.fin_add, XReal.fin_lt]
        rw [if_neg (by norm_num), if_neg (by intro h; linarith [h.1]), if_neg (by intro h; linarith [h.1])]
      rw [e1] at e4; simp at e4
    · simp [Normalizer.normalize, Normalizer.ofRobot, getI, e1]
  · intro _ lo up h1 h2 l u h3 h4
    cases h1; cases h2
    simp only [List.getElem?_cons_zero, Option.some.injEq] at h3 h4
    subst h3 h4
    simp only [XReal.fin_lt]
    constructor <;> push_cast <;> linarith [Real.pi_lt_d2]

-- non-vacuity: with the limits (-10, 10) and the last joint value 9, the angle 3 becomes 3 + 2π, one turn up
example : ∃ robot : Robot XReal, Spec.hasLimits robot 0 ∧
    (Normalizer.ofRobot robot (some [.fin 9])).normalize 0 (.fin 3) = .ok (some (.fin (3 + (1 : ℤ) * (2 * Real.pi)))) := by
  have p1 := Real.pi_gt_three
  have p2 := Real.pi_lt_d2
  let robot : Robot XReal := { H := [], P := [], jointType := [], lower := some [.fin (-10)], upper := some [.fin 10] }
  have hl : Spec.hasLimits robot 0 := by rintro lo up h1 h2; cases h1; cases h2; simp
  refine ⟨robot, hl, ?_⟩
  have lim : ∀ t, Spec.inLimits robot false 0 (.fin t) ↔ -10 < t ∧ t < 10 := by
    intro t; simp [Spec.inLimits, robot]
  obtain ⟨r, h1, h2, h3⟩ := C27_normalize_partial robot (some [.fin 9]) false 0 3 hl (by rintro xs ⟨⟩; exact ⟨9, rfl⟩)
  rw [h1]
  cases r with
  | none => exact absurd ((lim _).2 (by norm_num)) (h3 rfl 0 (by norm_num))
  | some t =>
    obtain ⟨k, rfl, -, h5⟩ := h2 t rfl
    have := h5 _ rfl 9 rfl 1 ((lim _).2 (by constructor <;> push_cast <;> linarith))
    have hk : k = 1 := by
      have hr : |(9 : ℝ) - (3 + ((1 : ℤ) : ℝ) * (2 * Real.pi))| < 1 := by
        rw [abs_lt]; push_cast; constructor <;> linarith
      have := lt_of_le_of_lt this hr
      rw [abs_lt] at this
      have c1 : (k : ℝ) < 2 := by
        by_contra hc; push Not at hc; nlinarith
      have c2 : (0 : ℝ) < k := by
        by_contra hc; push Not at hc; nlinarith
      have c1' : k < 2 := by exact_mod_cast c1
      have c2' : 0 < k := by exact_mod_cast c2
      omega
    rw [hk]

/-! ## C28 -/

/-- C28 without last joints: exactly the candidates that `normalize` keeps, in order. -/
theorem C28_call_no_last (N : Normalizer XReal) (hN : N.last = none) (j : Nat) (θs r : List XReal)
    (h : N.callS j θs = .ok r) : ∃ ts, List.Forall₂ (fun θ t => N.normalize j θ = .ok t) θs ts ∧ r = ts.filterMap id := by
  obtain ⟨ts, h1, h2⟩ := Except.bind_eq_ok h
  rw [hN] at h2
  cases h2
  exact ⟨ts, forall₂_of_mapM h1, rfl⟩

/-- C28 with last joints (`_partial`: the property excludes the first alternative, see `C28_call_prunes_false`): either the
result is a single candidate, the only one within a quarter turn of the last joint value, or it consists of all the candidates
that `normalize` keeps, sorted by distance to the last joint value. -/
theorem C28_call_last_partial (N : Normalizer XReal) (last : List XReal) (hN : N.last = some last) (j : Nat) (x : XReal)
    (hx : last[j]? = some x) (θs r : List XReal) (h : N.callS j θs = .ok r) :
    ∃ ts, List.Forall₂ (fun θ t => N.normalize j θ = .ok t) θs ts ∧
      ((∃ t, r = [t] ∧ t ∈ ts.filterMap id ∧ Elem.abs (t - x) < .fin (Real.pi / 2)) ∨
        r.Perm (ts.filterMap id)) ∧
      r.Pairwise fun a b => ¬ npLt (Elem.abs (b - x)) (Elem.abs (a - x)) := by
  obtain ⟨ts, h1, h2⟩ := Except.bind_eq_ok h
  refine ⟨ts, forall₂_of_mapM h1, ?_⟩
  rw [hN] at h2
  simp only [getI_some hx, Except.bind_ok, Except.pure_eq] at h2
  split_ifs at h2 with hlen
  · cases h2
    refine ⟨Or.inr (.refl _), ?_⟩
    have : (ts.filterMap id).length < 2 := hlen
    match hl : ts.filterMap id with
    | [] => exact .nil
    | [a] => exact List.pairwise_singleton _ _
    | a :: b :: l => rw [hl] at this; simp at this
  · cases h2
    have e2 : ((2 : ℚ) : ℝ) = 2 := by norm_num
    simp only [pruneSort]
    split_ifs with hone
    · obtain ⟨t, ht⟩ := List.length_eq_one_iff.1 hone
      rw [ht]
      refine ⟨Or.inl ⟨t, rfl, ?_⟩, List.pairwise_singleton _ _⟩
      have hm : t ∈ (((ts.filterMap id).map fun t => (t, Elem.abs (t - x), decide (Elem.abs (t - x) < Elem.pi / lit 2))).filter
          fun x => x.2.2).map fun x => x.1 := by rw [ht]; simp
      simp only [List.mem_map, List.mem_filter] at hm
      obtain ⟨y, ⟨⟨z, hz, rfl⟩, hy⟩, rfl⟩ := hm
      refine ⟨hz, ?_⟩
      simpa [e2, XReal.fin_div] using hy
    · refine ⟨Or.inr ?_, ?_⟩
      · refine (argsortBy_perm _).trans (List.Perm.of_eq ?_)
        simp [List.map_map, Function.comp_def]
      · apply argsortBy_sorted _ (fun t => Elem.abs (t - x))
        intro y hy
        simp only [List.mem_map] at hy
        obtain ⟨z, ⟨w, -, rfl⟩, rfl⟩ := hy
        rfl

/-- C28 is false with last joints: of the candidates `0` and `2`, both of which `normalize` keeps, only `0` is returned for the
last joint value `0`. -/
theorem C28_call_prunes_false :
    ∃ N : Normalizer XReal, N.limits = none ∧ N.last = some [.fin 0] ∧ N.normalize 0 (.fin 0) = .ok (some (.fin 0)) ∧
      N.normalize 0 (.fin 2) = .ok (some (.fin 2)) ∧ N.callS 0 [.fin 0, .fin 2] = .ok [.fin 0] := by
  have p1 := Real.pi_gt_three
  have p2 := Real.pi_lt_four
  have e2 : ((2 : ℚ) : ℝ) = 2 := by norm_num
  have hz : ∀ θ : ℝ, |θ| < 3 → normLast none (XReal.fin 0) (.fin θ) = .ok (.fin θ) := by
    intro θ hθ
    obtain ⟨n, h1, h2⟩ := normLast_free 0 θ
    have : n = 0 := by
      rw [abs_lt] at hθ
      rw [abs_le] at h2
      have c1 : (n : ℝ) < 1 := by
        by_contra hc; push Not at hc; nlinarith
      have c2 : (-1 : ℝ) < n := by
        by_contra hc; push Not at hc; nlinarith
      have c1' : n < 1 := by exact_mod_cast c1
      have c2' : -1 < n := by exact_mod_cast c2
      omega
    rw [h1, this]; simp
  refine ⟨⟨none, some [.fin 0]⟩, rfl, rfl, ?_, ?_, ?_⟩
  · simp [Normalizer.normalize, getI, hz 0 (by norm_num)]
  · simp [Normalizer.normalize, getI, hz 2 (by norm_num)]
  · have n0 : (⟨none, some [.fin 0]⟩ : Normalizer XReal).normalize 0 (.fin 0) = .ok (some (.fin 0)) := by
      simp [Normalizer.normalize, getI, hz 0 (by norm_num)]
    have n2 : (⟨none, some [.fin 0]⟩ : Normalizer XReal).normalize 0 (.fin 2) = .ok (some (.fin 2)) := by
      simp [Normalizer.normalize, getI, hz 2 (by norm_num)]
    have d1 : (0 : ℝ) < Real.pi / 2 := by linarith
    have d2 : ¬ (2 : ℝ) < Real.pi / 2 := by linarith
    simp only [Normalizer.callS, mapM_cons', n0, n2, mapM_nil', Except.bind_ok, getI, List.getElem?_cons_zero]
    simp [pruneSort, e2, XReal.fin_div, d1, d2]

-- non-vacuity: the hypotheses of `C28_call_last_partial` are met by the witness above
example : ∃ (N : Normalizer XReal) (last : List XReal) (r : List XReal), N.last = some last ∧ last[0]? = some (.fin 0) ∧
    N.callS 0 [.fin 0, .fin 2] = .ok r := by
  obtain ⟨N, -, h1, -, -, h2⟩ := C28_call_prunes_false
  exact ⟨N, _, _, h1, rfl, h2⟩

-- non-vacuity of `C28_call_no_last`: no limits, nothing is dropped
example : (⟨none, none⟩ : Normalizer XReal).callS 0 [.fin 7, .fin 2] = .ok [.fin 7, .fin 2] := rfl
