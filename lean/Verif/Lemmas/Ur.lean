import Verif.Lemmas.Complete

/-! # The search of `ur_invkin` on robots with finite entries -/
set_option autoImplicit false

theorem rot_nan_mulVec' (h : V3 ℝ) (v : V3 XReal) : (rot h.up .nan).transpose.mulVec v = ⟨.nan, .nan, .nan⟩ := by
  ext <;> simp [rot]

theorem ez_unit : IsUnit3 (V3.ez : V3 ℝ) := by simp [IsUnit3]
theorem nez_unit : IsUnit3 (-V3.ez : V3 ℝ) := by simp [IsUnit3]

/-- three joints about the same axis -/
theorem rot_add3 {k : V3 ℝ} (hk : IsUnit3 k) (a b c : ℝ) : rot k a * rot k b * rot k c = rot k (a + b + c) := by
  rw [rot_mul _ hk, rot_mul _ hk]

section
variable {k P0 P1 P2 P3 P4 P5 P6 p0T : V3 ℝ} {R06 : M3 ℝ} {r : Robot ℝ} {last : Option (List ℝ)}

/-- lines 291-320 -/
theorem urElbow_sound (s : k = V3.ey ∨ k = -V3.ey) (h6 : IsRot R06) {R01 : M3 ℝ} (hR01 : IsRot R01) {x1 : XReal}
    {q24 q5 q3 : ℝ} {v : V3 ℝ} {sols : List (List XReal)} {e : ℝ}
    (hel : ∀ x, subproblem1 (P2 + (rot k q3).mulVec P3).up (R01.transpose.mulVec v).up k.up = .ok x →
      ∃ θ : ℝ, x = .fin θ ∧ ((rot k θ).mulVec (P2 + (rot k q3).mulVec P3) - R01.transpose.mulVec v).norm ≤ e)
    (h : urElbow (upNormalizer r last) k.up k.up (-V3.ez : V3 ℝ).up k.up P2.up P3.up R06.up R01.up (R01 * rot k q24).up v.up x1
      (.fin q24) (.fin q5) (.fin q3) = .ok sols)
    {t : List XReal} (hs : t ∈ sols) :
    ∃ q2 q4 q6 : ℝ, t = [x1, .fin q2, .fin q3, .fin q4, .fin q5, .fin q6] ∧
      ((rot k q2).mulVec (P2 + (rot k q3).mulVec P3) - R01.transpose.mulVec v).norm ≤ e ∧
      (∃ n : ℤ, q2 + q3 + q4 = q24 + n * (2 * Real.pi)) ∧
      (((R01 * rot k q24 * rot (-V3.ez) q5).mulVec k - R06.mulVec k).norm ≤ 2 * snap → ∀ w : V3 ℝ,
        ((R01 * rot k q24 * rot (-V3.ez) q5 * rot k q6).mulVec w - R06.mulVec w).norm ≤ 10 * snap * w.norm) := by
  have u := pm_unit s
  have h45 : (-V3.ez : V3 ℝ).dot k = 0 := by rcases s with rfl | rfl <;> simp [V3.dot]
  simp only [urElbow, rot_up, M3.up_mul, M3.up_transpose, M3.up_mulVec, V3.up_add] at h
  obtain ⟨q2r, e2, h⟩ := Except.bind_eq_ok h
  obtain ⟨q2, n2, h⟩ := Except.bind_eq_ok h
  rcases q2 with _ | q2
  · cases h; cases hs
  obtain ⟨θ2, rfl, hθ2⟩ := hel _ e2
  obtain ⟨i2, rfl⟩ := upNormalize_one n2
  simp only [XReal.fin_sub] at h
  obtain ⟨q4, n4, h⟩ := Except.bind_eq_ok h
  rcases q4 with _ | q4
  · cases h; cases hs
  obtain ⟨i4, rfl⟩ := upNormalize_one n4
  obtain ⟨q6r, e6, h⟩ := Except.bind_eq_ok h
  obtain ⟨q6, n6, h⟩ := Except.bind_eq_ok h
  rcases q6 with _ | q6
  · cases h; cases hs
  cases h
  rw [List.mem_singleton] at hs
  obtain ⟨θ, rfl, -⟩ := subproblem1_close u e6
  obtain ⟨i6, rfl⟩ := upNormalize_one n6
  have hR05 : IsRot (R01 * rot k q24 * rot (-V3.ez) q5) := (hR01.mul (rot_isRot k u _)).mul (rot_isRot _ nez_unit _)
  refine ⟨_, _, _, hs, by rw [rot_periodic]; exact hθ2, ⟨i4, by ring⟩, fun hp w => ?_⟩
  obtain ⟨θ', hθ', hv⟩ := wrist_last nez_unit u h45 hR05 h6 hp e6
  cases hθ'
  rw [rot_periodic]; exact hv w

/-- lines 261-320: everything returned is finite, places the point where the axes of joints 4 and 5 meet up to `(1+|P3|)·snap`, and away
from the wrist singularity gives the rotation up to `10·snap` -/
theorem urSearch_sound (s : k = V3.ey ∨ k = -V3.ey) {c : ℝ} (hP0 : P0 = c • V3.ez) (h6 : IsRot R06) {sols : List (List XReal)}
    (h : urSearch [V3.ez.up, k.up, k.up, k.up, (-V3.ez : V3 ℝ).up, k.up] [P0.up, P1.up, P2.up, P3.up, P4.up, P5.up, P6.up]
      (upNormalizer r last) R06.up p0T.up = .ok sols) {t : List XReal} (hs : t ∈ sols) :
    ∃ q1 q2 q3 q4 q5 q6 : ℝ, t = [.fin q1, .fin q2, .fin q3, .fin q4, .fin q5, .fin q6] ∧
      (P0 + (rot V3.ez q1).mulVec (P1 + (rot k q2).mulVec (P2 + (rot k q3).mulVec (P3 + (rot k q4).mulVec P4))) -
        (p0T - R06.mulVec (P6 + P5))).norm ≤ (1 + P3.norm) * snap ∧
      (npEps ≤ 1 - (V3.ey.dot ((rot V3.ez q1).transpose.mulVec (R06.mulVec V3.ey))) ^ 2 → ∀ w : V3 ℝ,
        ((rot V3.ez q1 * rot k q2 * rot k q3 * (rot k q4 * rot (-V3.ez) q5) * rot k q6).mulVec w - R06.mulVec w).norm
          ≤ 10 * snap * w.norm) := by
  have u := pm_unit s
  simp only [urSearch, V3.up_ey, V3.up_add, V3.up_dot, M3.up_mulVec, V3.up_sub, V3.up_neg] at h
  obtain ⟨Q1, c1, h⟩ := Except.bind_eq_ok h
  obtain ⟨x1, m1, sl1, h, hs⟩ := mem_forAppend h hs
  obtain ⟨θ1, mθ1, n1⟩ := callS_mem c1 m1
  simp only [urShoulder] at h
  obtain ⟨Q, e2, h⟩ := Except.bind_eq_ok h
  obtain ⟨x, mx, sl2, h, hs⟩ := mem_forAppend h hs
  simp only [urWrist] at h
  obtain ⟨Q3, e3, h⟩ := Except.bind_eq_ok h
  obtain ⟨Q3', c3, h⟩ := Except.bind_eq_ok h
  obtain ⟨x3, m3, sl3, h, hs⟩ := mem_forAppend h hs
  obtain ⟨θ3, mθ3, n3⟩ := callS_mem c3 m3
  rcases subproblem4_mem mθ1 with rfl | ⟨t1, rfl, ht1⟩
  · exfalso
    have := normalize_nan n1; subst this
    simp only [urElbow] at h
    obtain ⟨q2r, e2, h⟩ := Except.bind_eq_ok h
    rw [subproblem1_nan _ _ _ (.inr (rot_nan_mulVec' V3.ez _))] at e2
    cases e2
  obtain ⟨i1, rfl⟩ := normalize_shift n1
  set q1 := t1 + i1 * (2 * Real.pi) with hq1
  have hd : V3.ey.dot ((rot V3.ez q1).transpose.mulVec (p0T - R06.mulVec (P6 + P5))) = V3.ey.dot (P1 + P2 + P3 + P4) := by
    rw [hq1, rot_periodic]; exact shoulder_eq ht1
  have hr01 := rot_isRot V3.ez ez_unit q1
  simp only [rot_up, M3.up_transpose, M3.up_mul, M3.up_mulVec, V3.up_neg] at e2
  obtain ⟨q24, q5, rfl, hwr⟩ := wrist_pair u nez_unit u (by rcases s with rfl | rfl <;> simp [V3.dot])
    (by rcases s with rfl | rfl <;> simp [V3.dot]) (hr01.transpose.mul h6) e2 mx
  simp only [rot_up, M3.up_transpose, M3.up_mul, M3.up_mulVec, V3.up_add, V3.up_sub, V3.up_neg, V3.up_norm] at h e3
  set v := p0T - R06.mulVec (P6 + P5) - P0 - (rot V3.ez q1).mulVec P1 - (rot V3.ez q1 * rot k q24).mulVec P4 with hv
  set w := (rot V3.ez q1).transpose.mulVec v with hw
  have hfix : (rot V3.ez q1).mulVec P0 = P0 := by rw [hP0, rot_hsmul_axis]
  have hfix' : (rot V3.ez q1).transpose.mulVec P0 = P0 := by
    conv_lhs => rw [← hfix]
    exact hr01.transpose_mulVec_mulVec P0
  have ew : w = (rot V3.ez q1).transpose.mulVec (p0T - R06.mulVec (P6 + P5)) - P0 - P1 - (rot k q24).mulVec P4 := by
    rw [hw, hv, M3.mulVec_sub, M3.mulVec_sub, M3.mulVec_sub, hfix', hr01.transpose_mulVec_mulVec, M3.mulVec_mulVec, ← M3.mul_assoc',
      hr01.orth, M3.one_mul']
  have eyk : ∀ a : V3 ℝ, V3.ey.dot ((rot k q24).mulVec a) = V3.ey.dot a := by
    intro a
    have := rot_dot_axis u q24 a
    rcases s with rfl | rfl
    · rw [V3.dot_comm, this, V3.dot_comm]
    · rw [V3.dot_neg, V3.dot_neg, neg_inj] at this
      rw [V3.dot_comm, this, V3.dot_comm]
  have eyP0 : V3.ey.dot P0 = 0 := by rw [hP0]; simp [V3.dot]
  have hnorm : v.norm = w.norm := by rw [hw, hr01.transpose.norm_mulVec]
  rw [hnorm] at e3
  obtain ⟨t3, rfl, hel⟩ := elbow_close (k' := k) u (.inl rfl) (pm_dot s (by
    rw [ew, V3.dot_sub, V3.dot_sub, V3.dot_sub, hd, eyk, eyP0]; simp only [V3.dot_add]; ring)) e3 mθ3
  obtain ⟨i3, rfl⟩ := normalize_shift n3
  obtain ⟨q2, q4, q6, rfl, hpos, ⟨n, hn⟩, hrot⟩ := urElbow_sound s h6 hr01 (hel i3) h hs
  set q3 := t3 + i3 * (2 * Real.pi) with hq3
  have e24 : rot k q2 * rot k q3 * rot k q4 = rot k q24 := by rw [rot_add3 u, hn, rot_periodic]
  refine ⟨q1, q2, q3, q4, q5, q6, rfl, ?_, ?_⟩
  · rw [← hr01.norm_mulVec] at hpos
    convert hpos using 2
    rw [M3.mulVec_sub, hr01.mulVec_transpose_mulVec, hv]
    simp only [M3.mulVec_add, M3.mulVec_mulVec, ← e24, M3.mul_assoc']
    generalize (rot V3.ez q1).mulVec P1 = a1
    generalize (rot V3.ez q1 * rot k q2).mulVec P2 = a2
    generalize (rot V3.ez q1 * (rot k q2 * rot k q3)).mulVec P3 = a3
    generalize (rot V3.ez q1 * (rot k q2 * (rot k q3 * rot k q4))).mulVec P4 = a4
    ext <;> simp <;> ring
  · intro hns
    have hsq : npEps ≤ 1 - (((rot V3.ez q1).transpose * R06).mulVec k).dot k ^ 2 := by
      refine hns.trans (le_of_eq ?_)
      rw [← M3.mulVec_mulVec, V3.dot_comm]
      rcases s with rfl | rfl
      · rfl
      · rw [M3.mulVec_neg, M3.mulVec_neg, V3.dot_neg, V3.neg_dot, neg_neg]
    have := hwr hsq
    rw [← hr01.norm_mulVec, M3.mulVec_sub, M3.mulVec_mulVec, M3.mulVec_mulVec (rot V3.ez q1) (_ * R06), ← M3.mul_assoc', ← M3.mul_assoc',
      hr01.orth', M3.one_mul'] at this
    intro w
    have h2 := hrot this w
    have e : rot V3.ez q1 * rot k q2 * rot k q3 * (rot k q4 * rot (-V3.ez) q5) * rot k q6 =
        rot V3.ez q1 * rot k q24 * rot (-V3.ez) q5 * rot k q6 := by
      rw [← e24]; simp only [M3.mul_assoc']
    rw [e]; exact h2
end

/-! ## Completeness -/

/-- whatever representative of the angle `q` that satisfies `In` is found, joint `j` keeps it, up to a number of turns allowed by `Z`, as
an angle that satisfies `Out` -/
structure KeepsTo (N : Normalizer XReal) (j : Nat) (q : ℝ) (In Out : ℝ → Prop) (Z : ℤ → Prop) : Prop where
  norm : ∀ t : ℝ, In t → (∃ n : ℤ, t = q + n * (2 * Real.pi)) →
    ∃ n : ℤ, Z n ∧ N.normalize j (.fin t) = .ok (some (.fin (q + n * (2 * Real.pi)))) ∧ Out (q + n * (2 * Real.pi))
  prune : NoPrune N j q Z

/-- The value `q` is strictly between the limits of joint `j`, and these are at most half a turn away from zero. -/
def Spec.tight (lo up : List ℝ) (j : Nat) (q : ℝ) : Prop :=
  ∃ l u, lo[j]? = some l ∧ up[j]? = some u ∧ -Real.pi ≤ l ∧ u ≤ Real.pi ∧ l < q ∧ q < u

/-- The limits of joint `j` are more than one turn away from zero on both sides. -/
def Spec.wide (lo up : List ℝ) (j : Nat) : Prop :=
  ∃ l u, lo[j]? = some l ∧ up[j]? = some u ∧ l < -(2 * Real.pi) ∧ 2 * Real.pi < u

/-- The limits of joint `j` are one turn on both sides, as on UR arms. -/
def Spec.oneTurn (lo up : List ℝ) (j : Nat) : Prop := lo[j]? = some (-(2 * Real.pi)) ∧ up[j]? = some (2 * Real.pi)

/-- The value `q` is strictly between the limits of joint `j`, and these are at least one turn away from zero. -/
def Spec.atLeastTurn (lo up : List ℝ) (j : Nat) (q : ℝ) : Prop :=
  ∃ l u, lo[j]? = some l ∧ up[j]? = some u ∧ l ≤ -(2 * Real.pi) ∧ 2 * Real.pi ≤ u ∧ l < q ∧ q < u

/-- No limits, or the values of the three parallel joints are strictly between limits of at most half a turn, or the limits are of more
than one turn, or of exactly one turn. -/
def Spec.urLimits (r : Robot ℝ) (q2 q3 q4 : ℝ) : Prop :=
  ∀ lo up, r.lower = some lo → r.upper = some up →
    (Spec.tight lo up 1 q2 ∧ Spec.tight lo up 2 q3 ∧ Spec.tight lo up 3 q4) ∨
    (Spec.wide lo up 1 ∧ Spec.wide lo up 2 ∧ Spec.wide lo up 3) ∨
    (Spec.oneTurn lo up 1 ∧ Spec.oneTurn lo up 2 ∧ Spec.oneTurn lo up 3)

/-- The values of the three parallel joints are strictly inside their limits; the limits are at most half a turn, or at least one turn,
and then the difference of the sum of the three, brought to half a turn around zero, and the first two is less than two turns. -/
def Spec.urTrackLimits (r : Robot ℝ) (q2 q3 q4 : ℝ) : Prop :=
  ∀ lo up, r.lower = some lo → r.upper = some up →
    (Spec.tight lo up 1 q2 ∧ Spec.tight lo up 2 q3 ∧ Spec.tight lo up 3 q4) ∨
    (Spec.atLeastTurn lo up 1 q2 ∧ Spec.atLeastTurn lo up 2 q3 ∧ Spec.atLeastTurn lo up 3 q4 ∧
      ∀ n : ℤ, |q2 + q3 + q4 + n * (2 * Real.pi)| ≤ Real.pi → |q4 + n * (2 * Real.pi)| < 4 * Real.pi)

theorem upNormalizer_limits {r : Robot ℝ} {lo up : List ℝ} (hlo : r.lower = some lo) (hup : r.upper = some up) (last : Option (List ℝ)) :
    (upNormalizer r last).limits = some (lo.map .fin, up.map .fin) := by
  simp [upNormalizer, Normalizer.ofRobot, Robot.up, hlo, hup]

theorem upNormalizer_no_limits {r : Robot ℝ} (hlim : ¬ ∃ lo up, r.lower = some lo ∧ r.upper = some up) (last : Option (List ℝ)) :
    (upNormalizer r last).limits = none := by
  simp only [upNormalizer, Normalizer.ofRobot, Robot.up]
  rcases hlo : r.lower with _ | lo
  · rfl
  · rcases hup : r.upper with _ | up
    · rfl
    · exact absurd ⟨lo, up, hlo, hup⟩ hlim

theorem normalize_limits_eval {r : Robot ℝ} {lo up : List ℝ} (hlo : r.lower = some lo) (hup : r.upper = some up) {j : Nat} {l u : ℝ}
    (h1 : lo[j]? = some l) (h2 : up[j]? = some u) (t : XReal) :
    (upNormalizer r none).normalize j t = .ok (normLimits (.fin l) (.fin u) t) := by
  have g1 : getI (lo.map XReal.fin) j = .ok (.fin l) := getI_some (by simp [h1])
  have g2 : getI (up.map XReal.fin) j = .ok (.fin u) := getI_some (by simp [h2])
  simp only [Normalizer.normalize, upNormalizer_limits hlo hup, g1, g2, Except.bind_ok, Except.pure_eq]
  rcases normLimits (XReal.fin l) (XReal.fin u) t with _ | x <;> rfl

theorem keepsTo_free {r : Robot ℝ} (hlim : ¬ ∃ lo up, r.lower = some lo ∧ r.upper = some up) (j : Nat) (q : ℝ) (In : ℝ → Prop) :
    KeepsTo (upNormalizer r none) j q In In fun _ => True := by
  refine ⟨?_, .inl rfl⟩
  rintro t ht ⟨n, rfl⟩
  refine ⟨n, trivial, ?_, ht⟩
  simp only [Normalizer.normalize, upNormalizer_no_limits hlim, Except.bind_ok, Except.pure_eq]
  rfl

/-- if a representative within one turn is inside the limits, the angle is kept, inside the limits -/
theorem keepsTo_limits {r : Robot ℝ} {lo up : List ℝ} (hlo : r.lower = some lo) (hup : r.upper = some up) {j : Nat} {q l u : ℝ}
    (h1 : lo[j]? = some l) (h2 : up[j]? = some u) {In : ℝ → Prop}
    (h : ∀ n : ℤ, In (q + n * (2 * Real.pi)) → ∃ m : ℤ, |m| ≤ 1 ∧ l < q + n * (2 * Real.pi) + m * (2 * Real.pi) ∧
      q + n * (2 * Real.pi) + m * (2 * Real.pi) < u) :
    KeepsTo (upNormalizer r none) j q In (fun t => l < t ∧ t < u) fun _ => True := by
  refine ⟨?_, .inl rfl⟩
  rintro t ht ⟨n, rfl⟩
  rw [normalize_limits_eval hlo hup h1 h2]
  rcases normLimits_eval (.fin l) (.fin u) (q + n * (2 * Real.pi)) with ⟨k, e1, e2, e3⟩ | ⟨-, e2⟩
  · have e4 : q + n * (2 * Real.pi) + k * (2 * Real.pi) = q + ((n + k : ℤ) : ℝ) * (2 * Real.pi) := by push_cast; ring
    rw [e4] at e1 e2 e3
    rw [XReal.fin_lt] at e2 e3
    exact ⟨n + k, trivial, by rw [e1], e2, e3⟩
  · obtain ⟨m, m1, m2, m3⟩ := h n ht
    exact absurd ⟨(XReal.fin_lt _ _).2 m2, (XReal.fin_lt _ _).2 m3⟩ (e2 m m1)

/-- limits of at most half a turn: representatives of at most one and a half turns are one turn away -/
theorem tight_turn {q l u : ℝ} {n : ℤ} (h3 : -Real.pi ≤ l) (h4 : u ≤ Real.pi) (h5 : l < q) (h6 : q < u)
    (ht : |q + n * (2 * Real.pi)| ≤ 3 * Real.pi) : ∃ m : ℤ, |m| ≤ 1 ∧ l < q + n * (2 * Real.pi) + m * (2 * Real.pi) ∧
      q + n * (2 * Real.pi) + m * (2 * Real.pi) < u := by
  have hpi := Real.pi_pos
  rw [abs_le] at ht
  have n1 : (n : ℝ) < 2 := by nlinarith
  have n2 : (-2 : ℝ) < n := by nlinarith
  have n1' : n < 2 := by exact_mod_cast n1
  have n2' : -2 < n := by exact_mod_cast n2
  refine ⟨-n, by rw [abs_neg, abs_le]; omega, ?_, ?_⟩ <;> push_cast <;> linarith

/-- limits of at least one turn: angles of less than two turns are one turn away -/
theorem wide_turn {x l u : ℝ} (h3 : l ≤ -(2 * Real.pi)) (h4 : 2 * Real.pi ≤ u) (ht : |x| < 4 * Real.pi) :
    ∃ m : ℤ, |m| ≤ 1 ∧ l < x + m * (2 * Real.pi) ∧ x + m * (2 * Real.pi) < u := by
  have hpi := Real.pi_pos
  rw [abs_lt] at ht
  by_cases c1 : Real.pi < x
  · refine ⟨-1, by simp, ?_, ?_⟩ <;> push_cast <;> linarith
  by_cases c2 : x < -Real.pi
  · refine ⟨1, by simp, ?_, ?_⟩ <;> push_cast <;> linarith
  refine ⟨0, by simp, ?_, ?_⟩ <;> push_cast <;> linarith

/-- what the fourth joint is asked to be: the sum of the parallel joints minus the second and the third -/
def FourthIn (Out2 Out3 : ℝ → Prop) (t : ℝ) : Prop := ∃ a b c, |a| ≤ Real.pi ∧ Out2 b ∧ Out3 c ∧ t = a - b - c

theorem FourthIn.abs_le {t B C : ℝ} (h : FourthIn (fun b => |b| ≤ B) (fun c => |c| ≤ C) t) : |t| ≤ Real.pi + B + C := by
  obtain ⟨a, b, c, h1, h2, h3, rfl⟩ := h
  rw [_root_.abs_le] at *
  constructor <;> linarith [h1.1, h1.2, h2.1, h2.2, h3.1, h3.2]

theorem KeepsTo.weaken {N : Normalizer XReal} {j : Nat} {q : ℝ} {In In' Out Out' : ℝ → Prop} {Z : ℤ → Prop} (h : KeepsTo N j q In Out Z)
    (hi : ∀ t, In' t → In t) (ho : ∀ t, Out t → Out' t) : KeepsTo N j q In' Out' Z :=
  ⟨fun t ht hn => by obtain ⟨n, a, b, c⟩ := h.norm t (hi t ht) hn; exact ⟨n, a, b, ho _ c⟩, h.prune⟩

theorem keepsTo_ur {r : Robot ℝ} {q2 q3 q4 : ℝ} (h : Spec.urLimits r q2 q3 q4) : ∃ Out2 Out3 Out4 : ℝ → Prop,
    KeepsTo (upNormalizer r none) 1 q2 (|·| ≤ Real.pi) Out2 (fun _ => True) ∧
    KeepsTo (upNormalizer r none) 2 q3 (|·| ≤ 2 * Real.pi) Out3 (fun _ => True) ∧
    KeepsTo (upNormalizer r none) 3 q4 (FourthIn Out2 Out3) Out4 (fun _ => True) := by
  have hpi := Real.pi_pos
  by_cases hlim : ∃ lo up, r.lower = some lo ∧ r.upper = some up
  · obtain ⟨lo, up, hlo, hup⟩ := hlim
    rcases h lo up hlo hup with ⟨⟨l2, u2, a2, b2, c2, d2, e2, f2⟩, ⟨l3, u3, a3, b3, c3, d3, e3, f3⟩, ⟨l4, u4, a4, b4, c4, d4, e4, f4⟩⟩ |
      ⟨⟨l2, u2, a2, b2, c2, d2⟩, ⟨l3, u3, a3, b3, c3, d3⟩, ⟨l4, u4, a4, b4, c4, d4⟩⟩ | ⟨⟨a2, b2⟩, ⟨a3, b3⟩, ⟨a4, b4⟩⟩
    · refine ⟨(|·| ≤ Real.pi), (|·| ≤ Real.pi), _,
        (keepsTo_limits hlo hup a2 b2 fun n hn => tight_turn c2 d2 e2 f2 (by linarith)).weaken (fun _ h => h) ?_,
        (keepsTo_limits hlo hup a3 b3 fun n hn => tight_turn c3 d3 e3 f3 (by linarith)).weaken (fun _ h => h) ?_,
        keepsTo_limits hlo hup a4 b4 fun n hn => tight_turn c4 d4 e4 f4 (by have := hn.abs_le; linarith)⟩
      · rintro t ⟨h1, h2⟩; rw [_root_.abs_le]; constructor <;> linarith
      · rintro t ⟨h1, h2⟩; rw [_root_.abs_le]; constructor <;> linarith
    · refine ⟨(|·| ≤ Real.pi), (|·| ≤ 2 * Real.pi), _, ⟨?_, .inl rfl⟩, ⟨?_, .inl rfl⟩, keepsTo_limits hlo hup a4 b4 fun n hn => ?_⟩
      · rintro t ht ⟨n, rfl⟩
        rw [normalize_limits_eval hlo hup a2 b2]
        refine ⟨n, trivial, ?_, ht⟩
        rw [_root_.abs_le] at ht
        rw [normLimits, if_pos ⟨(XReal.fin_lt _ _).2 (by linarith), (XReal.fin_lt _ _).2 (by linarith)⟩]
      · rintro t ht ⟨n, rfl⟩
        rw [normalize_limits_eval hlo hup a3 b3]
        refine ⟨n, trivial, ?_, ht⟩
        rw [_root_.abs_le] at ht
        rw [normLimits, if_pos ⟨(XReal.fin_lt _ _).2 (by linarith), (XReal.fin_lt _ _).2 (by linarith)⟩]
      · have ht := hn.abs_le
        rw [_root_.abs_le] at ht
        set x := q4 + n * (2 * Real.pi) with hx
        by_cases c1 : 0 < x
        · refine ⟨-1, by simp, ?_, ?_⟩ <;> push_cast <;> linarith
        · refine ⟨1, by simp, ?_, ?_⟩ <;> push_cast <;> linarith
    · have h2 : KeepsTo (upNormalizer r none) 1 q2 (|·| ≤ Real.pi) (|·| ≤ Real.pi) fun _ => True := by
        refine ⟨?_, .inl rfl⟩
        rintro t ht ⟨n, rfl⟩
        rw [normalize_limits_eval hlo hup a2 b2]
        refine ⟨n, trivial, ?_, ht⟩
        rw [_root_.abs_le] at ht
        rw [normLimits, if_pos ⟨(XReal.fin_lt _ _).2 (by linarith), (XReal.fin_lt _ _).2 (by linarith)⟩]
      refine ⟨_, _, _, h2, keepsTo_limits hlo hup a3 b3 fun n hn => wide_turn le_rfl le_rfl (by linarith),
        keepsTo_limits hlo hup a4 b4 fun n hn => wide_turn le_rfl le_rfl ?_⟩
      obtain ⟨a, b, c, i1, i2, ⟨i3, i4⟩, e⟩ := hn
      rw [e]
      rw [_root_.abs_le] at i1 i2
      rw [abs_lt]
      constructor <;> linarith [i1.1, i1.2, i2.1, i2.2]
  · exact ⟨_, _, _, keepsTo_free hlim _ _ _, keepsTo_free hlim _ _ _, keepsTo_free hlim _ _ _⟩

theorem keepsTo_near {r : Robot ℝ} {j : Nat} {q x : ℝ} {xs : List ℝ} (hx : xs[j]? = some x) (hq : |q - x| < Real.pi / 2) {In : ℝ → Prop}
    (hl : ∀ lo up, r.lower = some lo → r.upper = some up → ∃ l u, lo[j]? = some l ∧ up[j]? = some u ∧ l < q ∧ q < u ∧
      ∀ n : ℤ, In (q + n * (2 * Real.pi)) → ∃ m : ℤ, |m| ≤ 1 ∧ l < q + n * (2 * Real.pi) + m * (2 * Real.pi) ∧
        q + n * (2 * Real.pi) + m * (2 * Real.pi) < u) : KeepsTo (upNormalizer r (some xs)) j q In (· = q) (· = 0) := by
  refine ⟨?_, .inr ⟨xs.map .fin, x, rfl, by simp [hx], hq, fun _ h => h⟩⟩
  rintro t ht ⟨n, rfl⟩
  refine ⟨0, rfl, ?_, by simp⟩
  rw [normalize_to_last hx (by have := Real.pi_pos; linarith) ⟨n, rfl⟩ fun lo up hlo hup => ?_]
  · simp
  · obtain ⟨l, u, h1, h2, h3, h4, h5⟩ := hl lo up hlo hup
    exact ⟨l, u, h1, h2, h3, h4, h5 n ht⟩

theorem keepsTo_ur_near {r : Robot ℝ} {q2 q3 q4 x2 x3 x4 : ℝ} {xs : List ℝ} (h2 : xs[1]? = some x2) (h3 : xs[2]? = some x3)
    (h4 : xs[3]? = some x4) (d2 : |q2 - x2| < Real.pi / 2) (d3 : |q3 - x3| < Real.pi / 2) (d4 : |q4 - x4| < Real.pi / 2)
    (h : Spec.urTrackLimits r q2 q3 q4) : KeepsTo (upNormalizer r (some xs)) 1 q2 (|·| ≤ Real.pi) (· = q2) (· = 0) ∧
    KeepsTo (upNormalizer r (some xs)) 2 q3 (|·| ≤ 2 * Real.pi) (· = q3) (· = 0) ∧
    KeepsTo (upNormalizer r (some xs)) 3 q4 (FourthIn (· = q2) (· = q3)) (· = q4) (· = 0) := by
  have hpi := Real.pi_pos
  have h4in : ∀ t, FourthIn (· = q2) (· = q3) t → |t| ≤ Real.pi + |q2| + |q3| := by
    rintro t ⟨a, b, c, i1, rfl, rfl, rfl⟩
    exact FourthIn.abs_le ⟨a, b, c, i1, le_rfl, le_rfl, rfl⟩
  refine ⟨keepsTo_near h2 d2 fun lo up hlo hup => ?_, keepsTo_near h3 d3 fun lo up hlo hup => ?_, keepsTo_near h4 d4 fun lo up hlo hup => ?_⟩
  all_goals
    rcases h lo up hlo hup with ⟨⟨l2, u2, a2, b2, c2, d2, e2, f2⟩, ⟨l3, u3, a3, b3, c3, d3, e3, f3⟩, ⟨l4, u4, a4, b4, c4, d4, e4, f4⟩⟩ |
      ⟨⟨l2, u2, a2, b2, c2, d2, e2, f2⟩, ⟨l3, u3, a3, b3, c3, d3, e3, f3⟩, ⟨l4, u4, a4, b4, c4, d4, e4, f4⟩, hs⟩
  · exact ⟨l2, u2, a2, b2, e2, f2, fun n hn => tight_turn c2 d2 e2 f2 (by linarith)⟩
  · exact ⟨l2, u2, a2, b2, e2, f2, fun n hn => wide_turn c2 d2 (by linarith)⟩
  · exact ⟨l3, u3, a3, b3, e3, f3, fun n hn => tight_turn c3 d3 e3 f3 (by linarith)⟩
  · exact ⟨l3, u3, a3, b3, e3, f3, fun n hn => wide_turn c3 d3 (by linarith)⟩
  · refine ⟨l4, u4, a4, b4, e4, f4, fun n hn => tight_turn c4 d4 e4 f4 ?_⟩
    have i2 : |q2| ≤ Real.pi := by rw [_root_.abs_le]; constructor <;> linarith
    have i3 : |q3| ≤ Real.pi := by rw [_root_.abs_le]; constructor <;> linarith
    linarith [h4in _ hn]
  · refine ⟨l4, u4, a4, b4, e4, f4, fun n hn => wide_turn c4 d4 (hs n ?_)⟩
    obtain ⟨a, b, c, i1, rfl, rfl, i4⟩ := hn
    rwa [show b + c + q4 + n * (2 * Real.pi) = a by linarith]

theorem keepsTo_ur_last {r : Robot ℝ} {q2 q3 q4 : ℝ} {xs : List ℝ} (h2 : xs[1]? = some q2) (h3 : xs[2]? = some q3) (h4 : xs[3]? = some q4)
    (h : Spec.urTrackLimits r q2 q3 q4) : KeepsTo (upNormalizer r (some xs)) 1 q2 (|·| ≤ Real.pi) (· = q2) (· = 0) ∧
    KeepsTo (upNormalizer r (some xs)) 2 q3 (|·| ≤ 2 * Real.pi) (· = q3) (· = 0) ∧
    KeepsTo (upNormalizer r (some xs)) 3 q4 (FourthIn (· = q2) (· = q3)) (· = q4) (· = 0) := by
  have z : ∀ q : ℝ, |q - q| < Real.pi / 2 := by intro q; rw [sub_self, abs_zero]; have := Real.pi_pos; linarith
  exact keepsTo_ur_near h2 h3 h4 (z _) (z _) (z _) h

theorem callS_keepsTo {N : Normalizer XReal} {j : Nat} {q t : ℝ} {In Out : ℝ → Prop} {Z : ℤ → Prop} (hk : KeepsTo N j q In Out Z)
    {l l' : List XReal} (h : N.callS j l = .ok l') (ht : .fin t ∈ l) (hb : In t) (hn : ∃ n : ℤ, t = q + n * (2 * Real.pi)) :
    ∃ n : ℤ, Z n ∧ .fin (q + n * (2 * Real.pi)) ∈ l' ∧ Out (q + n * (2 * Real.pi)) := by
  obtain ⟨n, hz, e, eb⟩ := hk.norm t hb hn
  exact ⟨n, hz, callS_member hk.prune h ht hz e, eb⟩

section
variable {k P0 P1 P2 P3 P4 P5 P6 p0T : V3 ℝ} {N : Normalizer XReal} {Z : ℤ → Prop} {q1 q2 q3 q4 q5 q6 : ℝ}

/-- lines 291-320 -/
theorem urElbow_complete (s : k = V3.ey ∨ k = -V3.ey) {R01 : M3 ℝ} (hR01 : IsRot R01)
    (c2 : Spec.clear k (P2 + (rot k q3).mulVec P3) q2) (c6 : Spec.clear k (-V3.ez) q6) {Out2 Out3 Out4 : ℝ → Prop}
    (k2 : KeepsTo N 1 q2 (|·| ≤ Real.pi) Out2 Z) (k4 : KeepsTo N 3 q4 (FourthIn Out2 Out3) Out4 Z)
    (k6 : Keeps N 5 q6 Z) {x1 : XReal} {t24 t5 : ℝ} {n24 n3 n5 : ℤ}
    (e24 : t24 = q2 + q3 + q4 + n24 * (2 * Real.pi)) (h24 : |t24| ≤ Real.pi) (e5 : t5 = q5 + n5 * (2 * Real.pi))
    (h3 : Out3 (q3 + n3 * (2 * Real.pi))) {v : V3 ℝ} (hv : R01.transpose.mulVec v = (rot k q2).mulVec (P2 + (rot k q3).mulVec P3))
    {sols : List (List XReal)}
    (h : urElbow N k.up k.up (-V3.ez : V3 ℝ).up k.up P2.up P3.up
      (R01 * rot k (q2 + q3 + q4) * rot (-V3.ez) q5 * rot k q6).up R01.up (R01 * rot k t24).up v.up x1 (.fin t24) (.fin t5)
      (.fin (q3 + n3 * (2 * Real.pi))) = .ok sols) :
    ∃ n2 n4 n6 : ℤ, (Z n2 ∧ Z n4 ∧ Z n6) ∧ [x1, .fin (q2 + n2 * (2 * Real.pi)), .fin (q3 + n3 * (2 * Real.pi)), .fin (q4 + n4 * (2 * Real.pi)),
      .fin t5, .fin (q6 + n6 * (2 * Real.pi))] ∈ sols := by
  have u := pm_unit s
  have hpi := Real.pi_pos
  simp only [urElbow, rot_up, rot_periodic, M3.up_mul, M3.up_transpose, M3.up_mulVec, V3.up_add] at h
  obtain ⟨t2, e2, hb2, hn2⟩ := subproblem1_exact u c2
  obtain ⟨n2, z2, e2', hb2'⟩ := k2.norm t2 hb2 hn2
  rw [hv, e2, Except.bind_ok, one_eq, e2', Except.bind_ok] at h
  simp only [XReal.fin_sub] at h
  obtain ⟨n4, z4, e4, -⟩ := k4.norm (t24 - (q2 + n2 * (2 * Real.pi)) - (q3 + n3 * (2 * Real.pi)))
    ⟨_, _, _, h24, hb2', h3, rfl⟩
    ⟨n24 - n2 - n3, by rw [e24]; push_cast; ring⟩
  rw [one_eq, e4, Except.bind_ok] at h
  have er : rot k t24 = rot k (q2 + q3 + q4) := by rw [e24, rot_periodic]
  have er5 : rot (-V3.ez : V3 ℝ) t5 = rot (-V3.ez) q5 := by rw [e5, rot_periodic]
  rw [er, er5] at h
  have hR05 : IsRot (R01 * rot k (q2 + q3 + q4) * rot (-V3.ez) q5) := (hR01.mul (rot_isRot k u _)).mul (rot_isRot _ nez_unit _)
  rw [← M3.mul_assoc', hR05.orth, M3.one_mul'] at h
  obtain ⟨t, e, hb, hn⟩ := subproblem1_exact u c6
  obtain ⟨n6, z6, e6⟩ := one_keeps k6 (by linarith) hn
  dsimp only at h
  rw [e, Except.bind_ok, e6, Except.bind_ok] at h
  cases h
  exact ⟨n2, n4, n6, ⟨z2, z4, z6⟩, by simp⟩

theorem ey_rot_pm (s : k = V3.ey ∨ k = -V3.ey) (q : ℝ) (a : V3 ℝ) : V3.ey.dot ((rot k q).mulVec a) = V3.ey.dot a := by
  have := rot_dot_axis (pm_unit s) q a
  rcases s with rfl | rfl
  · rw [V3.dot_comm, this, V3.dot_comm]
  · rw [V3.dot_neg, V3.dot_neg, neg_inj] at this
    rw [V3.dot_comm, this, V3.dot_comm]

/-- lines 261-278: the search gets to the loop body for the given first joint value -/
theorem urSearch_reach {R06 : M3 ℝ} (s : k = V3.ey ∨ k = -V3.ey) {c : ℝ} (hP0 : P0 = c • V3.ez)
    (hp : p0T - R06.mulVec (P6 + P5) = P0 + (rot V3.ez q1).mulVec (P1 + (rot k q2).mulVec (P2 + (rot k q3).mulVec (P3 + (rot k q4).mulVec P4))))
    (hoff : V3.ez.cross (P1 + (rot k q2).mulVec (P2 + (rot k q3).mulVec (P3 + (rot k q4).mulVec P4))) ≠ 0)
    (k1 : Keeps N 0 q1 Z) {sols : List (List XReal)}
    (h : urSearch [V3.ez.up, k.up, k.up, k.up, (-V3.ez : V3 ℝ).up, k.up] [P0.up, P1.up, P2.up, P3.up, P4.up, P5.up, P6.up]
      N R06.up p0T.up = .ok sols) :
    ∃ (n1 : ℤ) (sl : List (List XReal)), Z n1 ∧ urShoulder N V3.ez.up k.up k.up k.up (-V3.ez : V3 ℝ).up k.up P0.up P1.up P2.up
      P3.up P4.up R06.up (p0T - R06.mulVec (P6 + P5)).up (.fin (q1 + n1 * (2 * Real.pi))) = .ok sl ∧ ∀ t ∈ sl, t ∈ sols := by
  set g := (rot k q2).mulVec (P2 + (rot k q3).mulVec (P3 + (rot k q4).mulVec P4)) with hg
  set w := P0 + P1 + g with hw
  have hv : p0T - R06.mulVec (P6 + P5) = (rot V3.ez q1).mulVec w := by
    rw [hp, hw, M3.mulVec_add _ (P0 + P1), M3.mulVec_add _ P0, M3.mulVec_add _ P1, hP0, rot_hsmul_axis]
    generalize (rot V3.ez q1).mulVec P1 = a
    generalize (rot V3.ez q1).mulVec g = b
    ext <;> simp <;> ring
  have hd : V3.ey.dot (P1 + P2 + P3 + P4) = V3.ey.dot w := by
    have e2 : V3.ey.dot P0 = 0 := by rw [hP0]; simp [V3.dot]
    rw [hw, hg, V3.dot_add _ (P0 + P1), V3.dot_add _ P0, ey_rot_pm s, V3.dot_add _ P2, ey_rot_pm s, V3.dot_add _ P3, ey_rot_pm s, e2]
    simp only [V3.dot_add]; ring
  have hoff' : V3.ez.cross w ≠ 0 := by
    have : V3.ez.cross w = V3.ez.cross (P1 + g) := by
      rw [hw, hP0]; ext <;> simp
    rwa [this]
  simp only [urSearch, V3.up_ey, V3.up_add, V3.up_dot, M3.up_mulVec, V3.up_sub, V3.up_neg] at h
  obtain ⟨Q1, c1, h⟩ := Except.bind_eq_ok h
  rw [hd] at c1
  obtain ⟨t1, m1, b1, w1⟩ := shoulder_exact ez_unit (by simp [V3.dot]) hoff' hv
  obtain ⟨n1, z1, m1'⟩ := callS_keeps k1 c1 m1 b1 w1
  obtain ⟨sl1, h, hsub1⟩ := forAppend_mem h m1'
  exact ⟨n1, sl1, z1, h, hsub1⟩

/-- lines 261-320 -/
theorem urSearch_complete {R06 : M3 ℝ} (s : k = V3.ey ∨ k = -V3.ey) {c : ℝ} (hP0 : P0 = c • V3.ez)
    (hR : R06 = rot V3.ez q1 * rot k (q2 + q3 + q4) * rot (-V3.ez) q5 * rot k q6)
    (hp : p0T - R06.mulVec (P6 + P5) = P0 + (rot V3.ez q1).mulVec (P1 + (rot k q2).mulVec (P2 + (rot k q3).mulVec (P3 + (rot k q4).mulVec P4))))
    (hoff : V3.ez.cross (P1 + (rot k q2).mulVec (P2 + (rot k q3).mulVec (P3 + (rot k q4).mulVec P4))) ≠ 0)
    (hp3 : k.cross P3 ≠ 0) (hp2 : k.cross P2 ≠ 0) (hdir : Spec.dir P3 k = Spec.dir P2 k ∨ snap ≤ (Spec.dir P3 k - Spec.dir P2 k).norm)
    (hw : npEps ≤ 1 - k.dot ((rot (-V3.ez) q5).mulVec k) ^ 2)
    (c2 : Spec.clear k (P2 + (rot k q3).mulVec P3) q2) (c24 : Spec.clear k ((rot (-V3.ez) q5).mulVec k) (q2 + q3 + q4))
    (c5 : Spec.clear (-V3.ez) k q5) (c6 : Spec.clear k (-V3.ez) q6)
    (k1 : Keeps N 0 q1 Z) {Out2 Out3 Out4 : ℝ → Prop} (k2 : KeepsTo N 1 q2 (|·| ≤ Real.pi) Out2 Z)
    (k3 : KeepsTo N 2 q3 (|·| ≤ 2 * Real.pi) Out3 Z) (k4 : KeepsTo N 3 q4 (FourthIn Out2 Out3) Out4 Z)
    (k6 : Keeps N 5 q6 Z) {sols : List (List XReal)}
    (h : urSearch [V3.ez.up, k.up, k.up, k.up, (-V3.ez : V3 ℝ).up, k.up] [P0.up, P1.up, P2.up, P3.up, P4.up, P5.up, P6.up]
      N R06.up p0T.up = .ok sols) :
    ∃ n1 n2 n3 n4 n5 n6 : ℤ, (Z n1 ∧ Z n2 ∧ Z n3 ∧ Z n4 ∧ Z n6) ∧ [.fin (q1 + n1 * (2 * Real.pi)), .fin (q2 + n2 * (2 * Real.pi)), .fin (q3 + n3 * (2 * Real.pi)),
      .fin (q4 + n4 * (2 * Real.pi)), .fin (q5 + n5 * (2 * Real.pi)), .fin (q6 + n6 * (2 * Real.pi))] ∈ sols ∧
      |q5 + n5 * (2 * Real.pi)| ≤ Real.pi := by
  have u := pm_unit s
  have hR01 := rot_isRot V3.ez ez_unit q1
  obtain ⟨n1, sl1, z1, h, hsub1⟩ := urSearch_reach s hP0 hp hoff k1 h
  simp only [urShoulder, rot_up, rot_periodic, M3.up_transpose, M3.up_mul, M3.up_mulVec] at h
  obtain ⟨Q, e2, h⟩ := Except.bind_eq_ok h
  have e16 : ((rot V3.ez q1).transpose * R06).mulVec k = (rot k (q2 + q3 + q4) * rot (-V3.ez) q5).mulVec k := by
    rw [hR]
    simp only [M3.mul_assoc']
    rw [← M3.mul_assoc' (rot V3.ez q1).transpose, hR01.orth, M3.one_mul', ← M3.mul_assoc', ← M3.mulVec_mulVec, rot_axis]
  rw [e16] at e2
  obtain ⟨t24, t5, m, b24, ⟨n24, w24⟩, b5, ⟨n5, w5⟩⟩ := subproblem2_exact u nez_unit u (by rcases s with rfl | rfl <;> simp [V3.dot])
    (by rcases s with rfl | rfl <;> simp [V3.dot]) hw c24 c5 e2
  obtain ⟨sl2, h, hsub2⟩ := forAppend_mem h m
  have er : rot k t24 = rot k (q2 + q3 + q4) := by rw [w24, rot_periodic]
  simp only [urWrist, rot_up, rot_periodic, M3.up_transpose, M3.up_mul, M3.up_mulVec, V3.up_sub, V3.up_norm] at h
  set v := p0T - R06.mulVec (P6 + P5) - P0 - (rot V3.ez q1).mulVec P1 - (rot V3.ez q1 * rot k t24).mulVec P4 with hv
  set g := (rot k q2).mulVec (P2 + (rot k q3).mulVec P3) with hg
  have ev : v = (rot V3.ez q1).mulVec g := by
    rw [hv, hp, hg, er, ← rot_add3 u]
    simp only [M3.mulVec_add, M3.mulVec_mulVec, M3.mul_assoc']
    generalize (rot V3.ez q1).mulVec P1 = a1
    generalize (rot V3.ez q1 * rot k q2).mulVec P2 = a2
    generalize (rot V3.ez q1 * (rot k q2 * rot k q3)).mulVec P3 = a3
    generalize (rot V3.ez q1 * (rot k q2 * (rot k q3 * rot k q4))).mulVec P4 = a4
    ext <;> simp <;> ring
  have hvg : (rot V3.ez q1).transpose.mulVec v = g := by rw [ev, hR01.transpose_mulVec_mulVec]
  have hn : v.norm = g.norm := by rw [ev, hR01.norm_mulVec]
  rw [hn] at h
  obtain ⟨Q3, e3, h⟩ := Except.bind_eq_ok h
  obtain ⟨Q3', c3, h⟩ := Except.bind_eq_ok h
  obtain ⟨ts, e, -, -, -, hc⟩ := C25_subproblem3_partial P3 P2 k g.norm u hp3 hp2 (V3.norm_nonneg _)
  obtain ⟨t3, m3, n, hn⟩ := (hc hdir).2 q3 (by rw [hg, (rot_isRot k u q2).norm_mulVec])
  have m3' : XReal.fin t3 ∈ Q3 := by
    rw [e] at e3; cases e3; exact List.mem_map.2 ⟨t3, m3, rfl⟩
  obtain ⟨n3, z3, m3'', hb3⟩ := callS_keepsTo k3 c3 m3' (subproblem3_bound u hp3 hp2 e3 m3') ⟨-n, by rw [hn]; push_cast; ring⟩
  obtain ⟨sl3, h, hsub3⟩ := forAppend_mem h m3''
  rw [hR] at h
  obtain ⟨n2, n4, n6, ⟨z2, z4, z6⟩, hm⟩ := urElbow_complete s hR01 c2 c6 k2 k4 k6 w24 b24 w5 hb3 hvg h
  refine ⟨n1, n2, n3, n4, n5, n6, ⟨z1, z2, z3, z4, z6⟩, ?_, by rw [← w5]; exact b5⟩
  rw [w5] at hm
  exact hsub1 _ (hsub2 _ (hsub3 _ hm))
end

/-! ## Totality -/

section
variable {k P0 P1 P2 P3 P4 P5 P6 p0T : V3 ℝ} {R06 : M3 ℝ} {r : Robot ℝ} {last : Option (List ℝ)}

/-- lines 291-320 -/
theorem urElbow_total (s : k = V3.ey ∨ k = -V3.ey) (h6 : IsRot R06) (hl : Spec.limitsSized r 6) (hs6 : Spec.lastSized last 6) {R01 : M3 ℝ} (hR01 : IsRot R01) {x1 : XReal}
    {q24 q5 q3 : ℝ} {v : V3 ℝ}
    (e1 : (P2 + (rot k q3).mulVec P3).dot (P2 + (rot k q3).mulVec P3) = (R01.transpose.mulVec v).dot (R01.transpose.mulVec v))
    (e2 : (P2 + (rot k q3).mulVec P3).dot k = (R01.transpose.mulVec v).dot k)
    (hp : ((R01 * rot k q24 * rot (-V3.ez) q5).mulVec k - R06.mulVec k).norm ≤ 2 * snap) :
    ∃ sols, urElbow (upNormalizer r last) k.up k.up (-V3.ez : V3 ℝ).up k.up P2.up P3.up R06.up R01.up (R01 * rot k q24).up v.up x1
      (.fin q24) (.fin q5) (.fin q3) = .ok sols := by
  have u := pm_unit s
  have h45 : (-V3.ez : V3 ℝ).dot k = 0 := by rcases s with rfl | rfl <;> simp [V3.dot]
  simp only [urElbow, rot_up, M3.up_mul, M3.up_transpose, M3.up_mulVec, V3.up_add]
  obtain ⟨y, hy⟩ := subproblem1_total u e1 e2
  obtain ⟨t2, rfl, -⟩ := subproblem1_close u hy
  obtain ⟨o, ho⟩ := one_total hl hs6 (by norm_num : 1 < 6) t2
  rw [hy, Except.bind_ok, ho, Except.bind_ok]
  rcases o with _ | q2
  · exact ⟨_, rfl⟩
  obtain ⟨n, rfl⟩ := upNormalize_one ho
  simp only [XReal.fin_sub]
  obtain ⟨o4, ho4⟩ := one_total hl hs6 (by norm_num : 3 < 6) (q24 - (t2 + n * (2 * Real.pi)) - q3)
  rw [ho4, Except.bind_ok]
  rcases o4 with _ | q4
  · exact ⟨_, rfl⟩
  dsimp only
  have hR05 : IsRot (R01 * rot k q24 * rot (-V3.ez) q5) := (hR01.mul (rot_isRot k u _)).mul (rot_isRot _ nez_unit _)
  obtain ⟨y6, hy6⟩ := last_joint_total nez_unit u h45 (hR05.transpose.mul h6) (by
    rw [V3.norm_sub_comm, ← hR05.norm_mulVec, M3.mulVec_sub, ← M3.mulVec_mulVec _ R06, hR05.mulVec_transpose_mulVec]
    exact hp)
  obtain ⟨t6, rfl, -⟩ := subproblem1_close u hy6
  obtain ⟨o6, ho6⟩ := one_total hl hs6 (by norm_num : 5 < 6) t6
  rw [hy6, Except.bind_ok, ho6, Except.bind_ok]
  rcases o6 with _ | q6 <;> exact ⟨_, rfl⟩

/-- lines 272-320: nothing is raised for a first joint value that puts the arm in the right plane and is not wrist-singular -/
theorem urShoulder_total (s : k = V3.ey ∨ k = -V3.ey) {c : ℝ} (hP0 : P0 = c • V3.ez) (h6 : IsRot R06) (hl : Spec.limitsSized r 6) (hs6 : Spec.lastSized last 6)
    (hp3 : k.cross P3 ≠ 0) (hp2 : k.cross P2 ≠ 0) (hdir : Spec.dir P3 k = Spec.dir P2 k ∨ snap ≤ (Spec.dir P3 k - Spec.dir P2 k).norm)
    {W : V3 ℝ} {q1 : ℝ} (hd : V3.ey.dot ((rot V3.ez q1).transpose.mulVec W) = V3.ey.dot (P1 + P2 + P3 + P4))
    (hns : npEps ≤ 1 - (V3.ey.dot ((rot V3.ez q1).transpose.mulVec (R06.mulVec V3.ey))) ^ 2) :
    ∃ sols, urShoulder (upNormalizer r last) V3.ez.up k.up k.up k.up (-V3.ez : V3 ℝ).up k.up P0.up P1.up P2.up P3.up P4.up R06.up W.up
      (.fin q1) = .ok sols := by
  have u := pm_unit s
  have hr01 := rot_isRot V3.ez ez_unit q1
  have h34 : k.dot (-V3.ez : V3 ℝ) = 0 := by rcases s with rfl | rfl <;> simp [V3.dot]
  have h45 : (-V3.ez : V3 ℝ).dot k = 0 := by rw [V3.dot_comm, h34]
  have hsq : npEps ≤ 1 - (((rot V3.ez q1).transpose * R06).mulVec k).dot k ^ 2 := by
    refine hns.trans (le_of_eq ?_)
    rw [← M3.mulVec_mulVec, V3.dot_comm]
    rcases s with rfl | rfl
    · rfl
    · rw [M3.mulVec_neg, M3.mulVec_neg, V3.dot_neg, V3.neg_dot, neg_neg]
  have h16 : IsRot ((rot V3.ez q1).transpose * R06) := hr01.transpose.mul h6
  obtain ⟨l, e, -, hs, -⟩ := C24_subproblem2_partial k (((rot V3.ez q1).transpose * R06).mulVec k) k (-V3.ez) u nez_unit
    (by rw [h16.dot_mulVec]) (by rw [h34, npEps]; norm_num) (by rw [disc_wrist u h34 h45]; exact hsq)
  simp only [urShoulder, rot_up, M3.up_transpose, M3.up_mul, M3.up_mulVec]
  rw [e, Except.bind_ok]
  apply exists_forAppend_ok
  intro a ha
  obtain ⟨x, hx, rfl⟩ := List.mem_map.1 ha
  have hclose := (hs x hx).1
  simp only [urWrist, rot_up, M3.up_transpose, M3.up_mul, M3.up_mulVec, V3.up_sub, V3.up_norm]
  set v := W - P0 - (rot V3.ez q1).mulVec P1 - (rot V3.ez q1 * rot k x.1).mulVec P4 with hv
  obtain ⟨ts, e3, -, -, -, hc⟩ := C25_subproblem3_partial P3 P2 k v.norm u hp3 hp2 (V3.norm_nonneg _)
  obtain ⟨l3, hl3⟩ := callS_total hl hs6 (by norm_num : 2 < 6) ts
  rw [e3, Except.bind_ok, hl3, Except.bind_ok]
  apply exists_forAppend_ok
  intro b hb
  obtain ⟨θ3, mθ3, n3⟩ := callS_mem hl3 hb
  obtain ⟨t3, ht3, rfl⟩ := List.mem_map.1 mθ3
  obtain ⟨i3, rfl⟩ := normalize_shift n3
  have hex := (hc hdir).1 t3 ht3
  have hfix : (rot V3.ez q1).mulVec P0 = P0 := by rw [hP0, rot_hsmul_axis]
  have hfix' : (rot V3.ez q1).transpose.mulVec P0 = P0 := by
    conv_lhs => rw [← hfix]
    exact hr01.transpose_mulVec_mulVec P0
  have ew : (rot V3.ez q1).transpose.mulVec v = (rot V3.ez q1).transpose.mulVec W - P0 - P1 - (rot k x.1).mulVec P4 := by
    rw [hv, M3.mulVec_sub, M3.mulVec_sub, M3.mulVec_sub, hfix', hr01.transpose_mulVec_mulVec, M3.mulVec_mulVec, ← M3.mul_assoc',
      hr01.orth, M3.one_mul']
  have eyP0 : V3.ey.dot P0 = 0 := by rw [hP0]; simp [V3.dot]
  have := urElbow_total (r := r) (P2 := P2) (P3 := P3) (x1 := .fin q1) (q24 := x.1) (q5 := x.2) (q3 := t3 + i3 * (2 * Real.pi)) (v := v)
    s h6 hl hs6 hr01 (by rw [hr01.transpose.dot_mulVec, rot_periodic, ← V3.norm_mul_self, hex, V3.norm_mul_self])
    (pm_dot s (by rw [ew, V3.dot_add, ey_rot_pm s, V3.dot_sub, V3.dot_sub, V3.dot_sub, hd, ey_rot_pm s, eyP0]; simp only [V3.dot_add]; ring))
    (by
      rw [← M3.mulVec_mulVec _ R06, ← hr01.norm_mulVec, M3.mulVec_sub, hr01.mulVec_transpose_mulVec, M3.mulVec_mulVec,
        M3.mulVec_mulVec] at hclose
      exact hclose.le)
  simpa only [M3.up_mul] using this

/-- lines 261-320 -/
theorem urSearch_total (s : k = V3.ey ∨ k = -V3.ey) {c : ℝ} (hP0 : P0 = c • V3.ez) (h6 : IsRot R06) (hl : Spec.limitsSized r 6) (hs6 : Spec.lastSized last 6)
    (hoff : V3.ez.cross (p0T - R06.mulVec (P6 + P5)) ≠ 0)
    (hreach : |V3.ey.dot (P1 + P2 + P3 + P4)| ≤ (V3.ez.cross (p0T - R06.mulVec (P6 + P5))).norm)
    (hp3 : k.cross P3 ≠ 0) (hp2 : k.cross P2 ≠ 0) (hdir : Spec.dir P3 k = Spec.dir P2 k ∨ snap ≤ (Spec.dir P3 k - Spec.dir P2 k).norm)
    (hns : ∀ q1 : ℝ, V3.ey.dot ((rot V3.ez q1).transpose.mulVec (p0T - R06.mulVec (P6 + P5))) = V3.ey.dot (P1 + P2 + P3 + P4) →
      npEps ≤ 1 - (V3.ey.dot ((rot V3.ez q1).transpose.mulVec (R06.mulVec V3.ey))) ^ 2) :
    ∃ sols, urSearch [V3.ez.up, k.up, k.up, k.up, (-V3.ez : V3 ℝ).up, k.up] [P0.up, P1.up, P2.up, P3.up, P4.up, P5.up, P6.up]
      (upNormalizer r last) R06.up p0T.up = .ok sols := by
  set W := p0T - R06.mulVec (P6 + P5) with hW
  have hn : V3.ey.dot (-V3.ez : V3 ℝ) = 0 := by simp [V3.dot]
  have hamp : Spec.sp4amp V3.ey W (-V3.ez) = (V3.ez.cross W).norm := by
    rw [sp4amp_eq ey_unit nez_unit hn, show (-V3.ez : V3 ℝ).cross W = -(V3.ez.cross W) by ext <;> simp, V3.norm_neg]
  have hmid := sp4mid_eq (q := W) nez_unit hn
  simp only [urSearch, V3.up_ey, V3.up_add, V3.up_dot, M3.up_mulVec, V3.up_sub, V3.up_neg, ← hW]
  obtain ⟨t1, t2, e, e1, e2, -⟩ := C26_subproblem4_partial V3.ey W (-V3.ez) (V3.ey.dot (P1 + P2 + P3 + P4))
    (by rw [hamp]; exact V3.norm_pos hoff) (by rw [hamp, hmid, sub_zero]; exact hreach)
  have hsh : ∀ t ∈ [t1, t2], V3.ey.dot ((rot (-V3.ez) t).mulVec W) = V3.ey.dot (P1 + P2 + P3 + P4) := by
    intro t ht
    simp only [List.mem_cons, List.not_mem_nil, or_false] at ht
    rcases ht with rfl | rfl <;> assumption
  obtain ⟨l, hl1⟩ := callS_total hl hs6 (by norm_num : 0 < 6) [t1, t2]
  rw [e, show [XReal.fin t1, XReal.fin t2] = [t1, t2].map XReal.fin from rfl, hl1, Except.bind_ok]
  apply exists_forAppend_ok
  intro a ha
  obtain ⟨θ1, mθ1, n1⟩ := callS_mem hl1 ha
  obtain ⟨t, ht, rfl⟩ := List.mem_map.1 mθ1
  obtain ⟨i1, rfl⟩ := normalize_shift n1
  have hd := shoulder_eq (hsh t ht)
  have hns := hns t hd
  rw [← rot_periodic _ t i1] at hd hns
  exact urShoulder_total s hP0 h6 hl hs6 hp3 hp2 hdir hd hns
end
