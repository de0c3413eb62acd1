import Verif.Lemmas.FlSub2
import Verif.B64
import Verif.Lemmas.Empty

/-!
# Coordinate axes and floating-point numbers

For the six coordinate axes the checks of the subproblems are computed without error, provided the points are floating-point numbers; and all
results of operations are.
-/
set_option autoImplicit false

/-- Rounding twice changes nothing more, and is the same for a number and its negative. -/
structure Spec.ExactRnd (F : FSys) : Prop where
  idem : ∀ x, F.rnd (F.rnd x) = F.rnd x
  neg : ∀ x, F.rnd (-x) = -F.rnd x

/-- One of the six coordinate axes. -/
def Spec.CoordAxis (k : V3 ℝ) : Prop := k = V3.ex ∨ k = V3.ey ∨ k = V3.ez ∨ k = -V3.ex ∨ k = -V3.ey ∨ k = -V3.ez

theorem Spec.CoordAxis.unit {k : V3 ℝ} (h : Spec.CoordAxis k) : IsUnit3 k := by
  rcases h with rfl | rfl | rfl | rfl | rfl | rfl <;> simp [IsUnit3]

namespace Fl
variable {F : FSys}

/-- The number, if finite, is a floating-point number. -/
def RepS (a : Fl F) : Prop := ∀ x, a.val = .fin x → Rep F x

def RepV (v : V3 (Fl F)) : Prop := RepS v.x ∧ RepS v.y ∧ RepS v.z

theorem repS_round (hF : Spec.ExactRnd F) (z : XReal) : RepS (F := F) ⟨F.round z⟩ := by
  intro x hx
  change F.round z = .fin x at hx
  cases z with
  | fin y =>
    by_cases hb : |F.rnd y| ≤ F.big
    · rw [round_of rfl hb] at hx
      cases hx
      exact ⟨hF.idem y, hb⟩
    · simp only [FSys.round] at hx
      split_ifs at hx
  | nan => cases hx
  | pinf => cases hx
  | ninf => cases hx

theorem RepS.of {x : ℝ} (h : Rep F x) : RepS (of x : Fl F) := by
  intro y hy
  cases hy
  exact h

theorem RepS.neg (hF : Spec.ExactRnd F) {a : Fl F} (h : RepS a) : RepS (-a) := by
  intro x hx
  change -a.val = .fin x at hx
  rcases ha : a.val with _ | _ | _ | y <;> rw [ha] at hx <;> cases hx
  have := h y ha
  exact ⟨by rw [hF.neg, this.1], by rw [abs_neg]; exact this.2⟩

/-- A quotient that is clearly larger than 1. -/
theorem one_lt_abs_div {N D : ℝ} (hD : 0 < D) (hD9 : D ≤ 9) (h : D + 40 * F.u ≤ |N|) (hu0 : 0 < F.u) (hu : F.u ≤ 1 / 1000) :
    (1 : Fl F) < Elem.abs (of N / of D) := by
  change XReal.fin 1 < Elem.abs (F.round (.fin N / .fin D))
  rw [XReal.fin_div _ hD.ne']
  have hz : 1 + 4 * F.u ≤ |N / D| := by
    rw [abs_div, abs_of_pos hD, le_div_iff₀ hD]
    have : 4 * F.u * D ≤ 4 * F.u * 9 := mul_le_mul_of_nonneg_left hD9 (by linarith)
    linarith
  generalize N / D = z at hz
  have h1 := F.rnd_err z
  have h2 : 1 < |F.rnd z| := by
    have h3 := abs_sub_abs_le_abs_sub z (F.rnd z)
    rw [abs_sub_comm] at h3
    have h4 : (1 + 4 * F.u) * (1 - F.u) ≤ |z| * (1 - F.u) := mul_le_mul_of_nonneg_right hz (by linarith)
    have h5 : F.u * F.u ≤ F.u * (1 / 1000) := mul_le_mul_of_nonneg_left hu hu0.le
    have := F.η_le
    linarith
  by_cases hb : |F.rnd z| ≤ F.big
  · rw [round_of rfl hb, XReal.abs_fin, XReal.fin_lt]
    exact h2
  · simp only [FSys.round, if_neg hb]
    split_ifs <;> trivial

/-- `subproblem3` for a distance that is clearly out of reach. -/
theorem subproblem3_far {k p q : V3 ℝ} (hk : IsUnit3 k) (hp : p.norm ≤ 2) (hq : q.norm ≤ 2) {d f m : ℝ} (hd0 : 0 ≤ d) (hd4 : d ≤ 4)
    (hab : m ≤ (p.perp k).norm * (q.perp k).norm) (hm : 20000 * F.u ≤ m)
    (hfar : 2 * (p.perp k).norm * (q.perp k).norm + (60000 * F.u + 9 * f) ≤
      |d * d - k.dot (p + q) * k.dot (p + q) - ((p.perp k).dot (p.perp k) + (q.perp k).dot (q.perp k))|)
    {k' p' q' : V3 (Fl F)} {d' : Fl F} (hu0 : 0 < F.u) (hu : F.u ≤ 1 / 100000000000) (hη : 16 * F.η ≤ F.u ^ 3) (hf : f ≤ 1 / 10)
    (hk' : Spec.VNear k' k F.u) (hp' : Spec.VNear p' p (16 * F.u)) (hq' : Spec.VNear q' q (16 * F.u)) (hd' : d'.Near d f) :
    subproblem3 p' q' k' d' = .ok [] := by
  have u0 := F.u_nonneg
  have k1 := V3.norm_eq_one hk
  obtain ⟨v, rfl, hv⟩ := hp'
  obtain ⟨w, rfl, hw⟩ := hq'
  obtain ⟨δ, hδ, hδd⟩ := hd'
  have f0 : 0 ≤ f := (abs_nonneg _).trans hδd
  have hd'' : d' = Fl.of δ := congrArg Fl.mk hδ
  subst hd''
  have hv2 : v.norm ≤ 21 / 10 := by
    have := V3.norm_add_le (v - p) p
    rw [show v - p + p = v by ext <;> simp] at this
    linarith
  have hw2 : w.norm ≤ 21 / 10 := by
    have := V3.norm_add_le (w - q) q
    rw [show w - q + q = w by ext <;> simp] at this
    linarith
  have hδ4 : |δ| ≤ 41 / 10 := by
    have := abs_add_le (δ - d) d
    rw [sub_add_cancel, abs_of_nonneg hd0] at this
    linarith
  have ha2 := (V3.perp_norm_le hk p).trans hp
  have hb2 := (V3.perp_norm_le hk q).trans hq
  obtain ⟨np, nq, ndp, ⟨N, hN, nN⟩, ⟨D, hD, nD⟩⟩ := sp3_coeff hk hv2 hw2 hδ4 (by linarith) hη (VNear.entries hk') rfl rfl
  have evp := (V3.perp_sub_norm hk v p).trans hv
  have ewq := (V3.perp_sub_norm hk w q).trans hw
  have nvp := (V3.norm_sub_rev (v.perp k) (p.perp k)).trans evp
  have nwq := (V3.norm_sub_rev (w.perp k) (q.perp k)).trans ewq
  have va2 := (V3.perp_norm_le hk v).trans hv2
  have wb2 := (V3.perp_norm_le hk w).trans hw2
  have kap : |k.dot (v + w) - k.dot (p + q)| ≤ 32 * F.u := by
    rw [← V3.dot_sub]
    refine (V3.abs_dot_le _ _).trans ?_
    rw [k1, one_mul, show v + w - (p + q) = (v - p) + (w - q) by ext <;> simp <;> ring]
    exact (V3.norm_add_le _ _).trans (by linarith)
  have kap1 : |k.dot (v + w)| ≤ 42 / 10 := by
    have := V3.abs_dot_le k (v + w)
    have := V3.norm_add_le v w
    rw [k1, one_mul] at *
    linarith
  have kap2 : |k.dot (p + q)| ≤ 4 := by
    have := V3.abs_dot_le k (p + q)
    have := V3.norm_add_le p q
    rw [k1, one_mul] at *
    linarith
  have P1 : |(v.perp k).dot (v.perp k) - (p.perp k).dot (p.perp k)| ≤ 41 / 10 * (16 * F.u) := by
    rw [← V3.norm_mul_self, ← V3.norm_mul_self]
    refine sq_sub_le nvp ?_
    rw [abs_of_nonneg (V3.norm_nonneg _), abs_of_nonneg (V3.norm_nonneg _)]
    linarith
  have P2 : |(w.perp k).dot (w.perp k) - (q.perp k).dot (q.perp k)| ≤ 41 / 10 * (16 * F.u) := by
    rw [← V3.norm_mul_self, ← V3.norm_mul_self]
    refine sq_sub_le nwq ?_
    rw [abs_of_nonneg (V3.norm_nonneg _), abs_of_nonneg (V3.norm_nonneg _)]
    linarith
  have P3 := sq_sub_le kap (N := 82 / 10) (by linarith)
  have P4 := sq_sub_le hδd (N := 81 / 10) (by rw [abs_of_nonneg hd0]; linarith)
  have a0 := V3.norm_nonneg (p.perp k)
  have P5 : |2 * (v.perp k).norm * (w.perp k).norm - 2 * (p.perp k).norm * (q.perp k).norm| ≤ 135 * F.u := by
    rw [show 2 * (v.perp k).norm * (w.perp k).norm - 2 * (p.perp k).norm * (q.perp k).norm =
      2 * (((v.perp k).norm - (p.perp k).norm) * (w.perp k).norm + (p.perp k).norm * ((w.perp k).norm - (q.perp k).norm)) by ring, abs_mul, abs_two]
    have g := abs_add_le (((v.perp k).norm - (p.perp k).norm) * (w.perp k).norm) ((p.perp k).norm * ((w.perp k).norm - (q.perp k).norm))
    rw [abs_mul, abs_mul, abs_of_nonneg (V3.norm_nonneg (w.perp k)), abs_of_nonneg a0] at g
    have g1 := mul_le_mul nvp wb2 (V3.norm_nonneg _) (by linarith)
    have g2 := mul_le_mul ha2 nwq (abs_nonneg _) (by norm_num)
    linarith
  have ab4 : (p.perp k).norm * (q.perp k).norm ≤ 2 * 2 := mul_le_mul ha2 hb2 (V3.norm_nonneg _) (by norm_num)
  have D1 := abs_le.1 nD
  have D2 := abs_le.1 P5
  have Nlow : |d * d - k.dot (p + q) * k.dot (p + q) - ((p.perp k).dot (p.perp k) + (q.perp k).dot (q.perp k))| ≤ |N| + (29400 * F.u + 81 / 10 * f) := by
    have e : d * d - k.dot (p + q) * k.dot (p + q) - ((p.perp k).dot (p.perp k) + (q.perp k).dot (q.perp k)) = N -
        ((N - -((v.perp k).dot (v.perp k) + (w.perp k).dot (w.perp k) - (δ * δ - k.dot (v + w) * k.dot (v + w)))) +
        (-((v.perp k).dot (v.perp k) - (p.perp k).dot (p.perp k)) + -((w.perp k).dot (w.perp k) - (q.perp k).dot (q.perp k)) +
        ((δ * δ - d * d) - (k.dot (v + w) * k.dot (v + w) - k.dot (p + q) * k.dot (p + q))))) := by ring
    rw [e]
    refine (abs_sub _ _).trans (add_le_add le_rfl ((abs_add_le _ _).trans ?_))
    have g0 := abs_add_le (-((v.perp k).dot (v.perp k) - (p.perp k).dot (p.perp k)) + -((w.perp k).dot (w.perp k) - (q.perp k).dot (q.perp k)))
        ((δ * δ - d * d) - (k.dot (v + w) * k.dot (v + w) - k.dot (p + q) * k.dot (p + q)))
    have g1 := abs_add_le (-((v.perp k).dot (v.perp k) - (p.perp k).dot (p.perp k))) (-((w.perp k).dot (w.perp k) - (q.perp k).dot (q.perp k)))
    have g2 := abs_sub (δ * δ - d * d) (k.dot (v + w) * k.dot (v + w) - k.dot (p + q) * k.dot (p + q))
    rw [abs_neg, abs_neg] at g1
    linarith
  have big := one_lt_abs_div (F := F) (N := N) (D := D) (by linarith) (by linarith) (by linarith) hu0 (by linarith)
  simp only [subproblem3]
  rw [if_pos]
  · rfl
  · refine .inr ?_
    have ox : ∀ {a : Fl F} {t : ℝ}, a.val = .fin t → a = Fl.of t := fun {a t} h => by cases a; cases h; rfl
    rw [ox hN, ox hD]
    exact big

variable (hF : Spec.ExactRnd F)
include hF

theorem repS_add (a b : Fl F) : RepS (a + b) := repS_round hF _
theorem repS_sub (a b : Fl F) : RepS (a - b) := repS_round hF _
theorem repS_mul (a b : Fl F) : RepS (a * b) := repS_round hF _
theorem repS_div (a b : Fl F) : RepS (a / b) := repS_round hF _

theorem repV_add (a b : V3 (Fl F)) : RepV (a + b) := ⟨repS_add hF _ _, repS_add hF _ _, repS_add hF _ _⟩
theorem repV_sub (a b : V3 (Fl F)) : RepV (a - b) := ⟨repS_sub hF _ _, repS_sub hF _ _, repS_sub hF _ _⟩
theorem repV_sdiv (a : V3 (Fl F)) (c : Fl F) : RepV (a.sdiv c) := ⟨repS_div hF _ _, repS_div hF _ _, repS_div hF _ _⟩
theorem repV_mulVec (A : M3 (Fl F)) (v : V3 (Fl F)) : RepV (A.mulVec v) := ⟨repS_add hF _ _, repS_add hF _ _, repS_add hF _ _⟩

theorem rep_pm {σ : ℝ} (h : σ = 1 ∨ σ = -1) : Rep F σ := by
  rcases h with rfl | rfl
  · exact Rep.one
  · exact ⟨by rw [hF.neg, F.rnd_one], by rw [abs_neg]; exact Rep.one.2⟩

theorem repV_axis {k : V3 ℝ} (hk : Spec.CoordAxis k) : RepV (k.map of : V3 (Fl F)) := by
  have h1 : RepS (of 1 : Fl F) := RepS.of Rep.one
  have h2 : RepS (of (-1) : Fl F) := RepS.of (rep_pm hF (.inr rfl))
  have h0 : RepS (of 0 : Fl F) := RepS.of Rep.zero
  have h3 : RepS (of (-0) : Fl F) := by rw [neg_zero]; exact h0
  rcases hk with rfl | rfl | rfl | rfl | rfl | rfl
  · exact ⟨h1, h0, h0⟩
  · exact ⟨h0, h1, h0⟩
  · exact ⟨h0, h0, h1⟩
  · exact ⟨h2, h3, h3⟩
  · exact ⟨h3, h2, h3⟩
  · exact ⟨h3, h3, h2⟩

theorem mul_pm_of {x σ : ℝ} (hσ : σ = 1 ∨ σ = -1) (h : Rep F x) : (of x * of σ : Fl F) = of (x * σ) ∧ Rep F (x * σ) ∧ x * σ * σ = x := by
  rcases hσ with rfl | rfl
  · rw [mul_one, mul_one]; exact ⟨mul_one_of h, h, rfl⟩
  · have : Rep F (x * -1) := by rw [mul_neg_one]; exact ⟨by rw [hF.neg, h.1], by rw [abs_neg]; exact h.2⟩
    exact ⟨mul_of this.1 this.2, this, by ring⟩

/-- For the coordinate axes the rounded perpendicular part has no component along the axis. -/
theorem coord_dot {k : V3 ℝ} (hk : Spec.CoordAxis k) {v : V3 ℝ} (hv : Rep F v.x ∧ Rep F v.y ∧ Rep F v.z)
    {e : V3 ℝ} {d : ℝ} (hfin : C3 (dir (v.map of) (k.map of : V3 (Fl F))) e d) {w : ℝ} (hw0 : w ≠ 0)
    (hw : (v.map of - V3.smul ((v.map of).dot ((k.map of : V3 (Fl F)).sdiv (k.map of : V3 (Fl F)).norm))
      ((k.map of : V3 (Fl F)).sdiv (k.map of : V3 (Fl F)).norm)).norm = of w) :
    ((k.map of : V3 (Fl F)).sdiv (k.map of : V3 (Fl F)).norm).dot (dir (v.map of) (k.map of)) = of 0 := by
  obtain ⟨r1, r2, r3⟩ := hv
  obtain ⟨σ, hσ, hk⟩ : ∃ σ : ℝ, (σ = 1 ∨ σ = -1) ∧ (k = ⟨σ, 0, 0⟩ ∨ k = ⟨0, σ, 0⟩ ∨ k = ⟨0, 0, σ⟩) := by
    rcases hk with rfl | rfl | rfl | rfl | rfl | rfl
    · exact ⟨1, .inl rfl, .inl rfl⟩
    · exact ⟨1, .inl rfl, .inr (.inl rfl)⟩
    · exact ⟨1, .inl rfl, .inr (.inr rfl)⟩
    · exact ⟨-1, .inr rfl, .inl (by ext <;> simp)⟩
    · exact ⟨-1, .inr rfl, .inr (.inl (by ext <;> simp))⟩
    · exact ⟨-1, .inr rfl, .inr (.inr (by ext <;> simp))⟩
  have rσ := rep_pm hF hσ
  have σσ : (of σ * of σ : Fl F) = of 1 := by
    have := (mul_pm_of hF hσ rσ).1
    rw [this]
    rcases hσ with rfl | rfl <;> norm_num
  have σ1 : (of σ / of 1 : Fl F) = of σ := div_of one_ne_zero (by rw [div_one]; exact rσ.1) rσ.2
  have mp := fun {x : ℝ} (h : Rep F x) => mul_pm_of hF hσ h
  have kk : (k.map of : V3 (Fl F)).sdiv (k.map of : V3 (Fl F)).norm = k.map of := by
    rcases hk with rfl | rfl | rfl <;>
    simp only [V3.map, V3.norm, V3.sdiv, mul_zero_of, σσ, add_zero_of Rep.zero, add_zero_of Rep.one,
      zero_add_of Rep.one, sqrt_one_of, σ1, zero_div_of one_ne_zero]
  rw [kk] at hw ⊢
  have hdir : dir (v.map of) (k.map of : V3 (Fl F)) = (v.map of - V3.smul ((v.map of).dot (k.map of)) (k.map of)).sdiv (of w) := by
    rw [dir, kk, hw]
  rw [hdir] at hfin ⊢
  obtain ⟨⟨x, hx, -⟩, ⟨y, hy, -⟩, ⟨z, hz, -⟩⟩ := hfin
  have ox : ∀ {a : Fl F} {t : ℝ}, a.val = .fin t → a = of t := fun {a t} h => by cases a; cases h; rfl
  replace hx := ox hx
  replace hy := ox hy
  replace hz := ox hz
  generalize he : (v.map of - V3.smul ((v.map of).dot (k.map of : V3 (Fl F))) (k.map of)).sdiv (of w) = E at hx hy hz ⊢
  rcases hk with rfl | rfl | rfl
  · obtain ⟨m1, m2, m3⟩ := mp r1
    have h0 : E.x = of 0 := by
      rw [← he]
      change (of v.x - (of v.x * of σ + of v.y * of 0 + of v.z * of 0) * of σ : Fl F) / of w = of 0
      rw [m1, mul_zero_of, mul_zero_of, add_zero_of m2, add_zero_of m2, (mp m2).1, m3, sub_self_of, zero_div_of hw0]
    change (of σ * E.x + of 0 * E.y + of 0 * E.z : Fl F) = of 0
    rw [h0, hy, hz, mul_zero_of, zero_mul_of, zero_mul_of, add_zero_of Rep.zero, add_zero_of Rep.zero]
  · obtain ⟨m1, m2, m3⟩ := mp r2
    have h0 : E.y = of 0 := by
      rw [← he]
      change (of v.y - (of v.x * of 0 + of v.y * of σ + of v.z * of 0) * of σ : Fl F) / of w = of 0
      rw [m1, mul_zero_of, mul_zero_of, zero_add_of m2, add_zero_of m2, (mp m2).1, m3, sub_self_of, zero_div_of hw0]
    change (of 0 * E.x + of σ * E.y + of 0 * E.z : Fl F) = of 0
    rw [h0, hx, hz, mul_zero_of, zero_mul_of, zero_mul_of, add_zero_of Rep.zero, add_zero_of Rep.zero]
  · obtain ⟨m1, m2, m3⟩ := mp r3
    have h0 : E.z = of 0 := by
      rw [← he]
      change (of v.z - (of v.x * of 0 + of v.y * of 0 + of v.z * of σ) * of σ : Fl F) / of w = of 0
      rw [m1, mul_zero_of, mul_zero_of, add_zero_of Rep.zero, zero_add_of m2, (mp m2).1, m3, sub_self_of, zero_div_of hw0]
    change (of 0 * E.x + of 0 * E.y + of σ * E.z : Fl F) = of 0
    rw [h0, hx, hy, mul_zero_of, zero_mul_of, zero_mul_of, add_zero_of Rep.zero, add_zero_of Rep.zero]

/-- The check of `subproblem0` passes. -/
theorem coord_check {k p : V3 ℝ} (hk : Spec.CoordAxis k) (hp : p.norm ≤ 3) {s e : ℝ} (hs : 0 < s) (hs1 : s ≤ 1) (hps : s ≤ (p.perp k).norm)
    (he : 2 * e ≤ s) (hu : 280000 * F.u ≤ s) (hη : 16 * F.η ≤ F.u ^ 3) {p' : V3 (Fl F)} (hp' : Spec.VNear p' p e) (rp : RepV p') :
    ((k.map of : V3 (Fl F)).sdiv (k.map of : V3 (Fl F)).norm).dot (dir p' (k.map of)) < npEps := by
  have u0 := F.u_nonneg
  obtain ⟨v, rfl, hv⟩ := hp'
  have hv4 : v.norm ≤ 4 := by
    have := V3.norm_add_le (v - p) p
    rw [show v - p + p = v by ext <;> simp] at this
    linarith
  have hv2 := (dir_turn hk.unit hs hps hv he).1
  obtain ⟨h1, W, hW, h2⟩ := near_dir (ε := F.u) (s := s / 2) hk.unit hv4 (by linarith) (by linarith) hv2 le_rfl (by linarith) hη (VNear.of (F := F) k) (VNear.of (F := F) v)
  have hW0 : W ≠ 0 := by
    have := (_root_.abs_le.1 h2).1
    intro h
    linarith
  rw [coord_dot hF hk ⟨rp.1 _ rfl, rp.2.1 _ rfl, rp.2.2 _ rfl⟩ h1 hW0 (congrArg Fl.mk hW)]
  refine npEps_pos' ?_
  have u3 : F.u ^ 3 ≤ (1 / 280000) ^ 3 := pow_le_pow_left₀ u0 (by linarith) 3
  norm_num at u3
  linarith

/-- `subproblem1` about a coordinate axis does not raise. -/
theorem subproblem1_coord (hA : Spec.InvAcc F) {k p q : V3 ℝ} (hk : Spec.CoordAxis k) (hp : p.norm ≤ 3) {θ s e f β : ℝ} (hq : (rot k θ).mulVec p = q)
    (hs : 0 < s) (hs1 : s ≤ 1) (hps : s ≤ (p.perp k).norm) {p' q' : V3 (Fl F)} (he : 2 * e ≤ s) (hf : 2 * f ≤ s) (hu : 280000 * F.u ≤ s)
    (hu' : F.u ≤ 1 / 100000000000) (hη : 16 * F.η ≤ F.u ^ 3) (hβ : Band β (e + f) p q)
    (hp' : Spec.VNear p' p e) (hq' : Spec.VNear q' q f) (rp : RepV p') (rq : RepV q') :
    ∃ th, subproblem1 p' q' (k.map of) = .ok th ∧ Spec.AngNear th θ ((β + 315 / 100 * (e + f) + 700000 * F.u) / s) := by
  have hR := rot_isRot k hk.unit θ
  rcases subproblem1_nearE hA hk.unit hp hq hs hs1 hps he hf hu hu' hη hβ (vNear_self k F.u_nonneg) hp' hq' with ⟨-, h⟩ | h
  · refine absurd ⟨coord_check hF hk hp hs hs1 hps he hu hη hp' rp, coord_check hF hk (p := q) ?_ hs hs1 ?_ hf hu hη hq' rq⟩ h
    · rw [← hq, hR.norm_mulVec]; exact hp
    · rw [← hq, rot_perp_eq hk.unit, hR.norm_mulVec]; exact hps
  · exact h

/-- `subproblem3` about a coordinate axis does not raise, and both angles are near solutions. -/
theorem subproblem3_coord (hA : Spec.InvAcc F) {k p q : V3 ℝ} (hk : Spec.CoordAxis k) (hp : p.norm ≤ 2) (hq : q.norm ≤ 2) {d θ m f β : ℝ} (hd0 : 0 ≤ d)
    (hd : (q + (rot k θ).mulVec p).norm = d) (hm0 : 0 < m) (hm : m ≤ |q.dot (k.cross ((rot k θ).mulVec p))|)
    {p' q' : V3 (Fl F)} {d' : Fl F} (hu : F.u ≤ 1 / 100000000000) (hη : 16 * F.η ≤ F.u ^ 3) (hf : f ≤ 1 / 10) (he : 2500000 * F.u + 330 * f ≤ m ^ 2)
    (hβ : Band β (60000 * (F.u / m)) (Spec.dir p k) (Spec.dir q k))
    (hp' : Spec.VNear p' p (16 * F.u)) (hq' : Spec.VNear q' q (16 * F.u)) (hd' : d'.Near d f) :
    ∃ t1 t2 θa θb, subproblem3 p' q' (k.map of) d' = .ok [t1, t2] ∧ (q + (rot k θa).mulVec p).norm = d ∧ (q + (rot k θb).mulVec p).norm = d ∧
      Spec.AngNear t1 θa (β + (77 / 10 * f + 3200000 * F.u) / m) ∧ Spec.AngNear t2 θb (β + (77 / 10 * f + 3200000 * F.u) / m) ∧
      ∃ l : ℤ, θ = θa + l * (2 * Real.pi) ∨ θ = θb + l * (2 * Real.pi) := by
  have u0 := F.u_nonneg
  have ku : IsUnit3 k := hk.unit
  rcases subproblem3_both hA ku hp hq hd0 hd hm0 hm hu hη hf he hβ (vNear_self k u0) hp' hq' hd' with ⟨-, a, b, r, s, na, nb, h⟩ | h
  · have rate : |q.dot (k.cross ((rot k θ).mulVec p))| ≤ (q.perp k).norm * (p.perp k).norm := by
      have e : q.dot (k.cross ((rot k θ).mulVec p)) = (q.perp k).dot (k.cross (((rot k θ).mulVec p).perp k)) := by
        generalize (rot k θ).mulVec p = r
        simp [V3.perp, V3.dot]; ring
      rw [e, rot_perp_eq ku]
      refine (V3.abs_dot_le _ _).trans (mul_le_mul_of_nonneg_left ?_ (V3.norm_nonneg _))
      have := V3.norm_cross_le k ((rot k θ).mulVec (p.perp k))
      rwa [V3.norm_eq_one ku, one_mul, (rot_isRot k ku θ).norm_mulVec] at this
    have p0 : p.perp k ≠ 0 := by intro h; rw [h, V3.norm_zero, mul_zero] at rate; linarith
    have q0 : q.perp k ≠ 0 := by intro h; rw [h, V3.norm_zero, zero_mul] at rate; linarith
    have check : ∀ {x : V3 ℝ}, x.perp k ≠ 0 → ∀ {a : V3 (Fl F)} {r : Fl F}, Spec.VNear (a.sdiv r) (Spec.dir x k) (1 / 4) →
        ((k.map of : V3 (Fl F)).sdiv (k.map of : V3 (Fl F)).norm).dot (dir (a.sdiv r) (k.map of)) < npEps := by
      intro x x0 a r n
      have xu := V3.norm_eq_one (dir_unit x0)
      exact coord_check hF hk (by rw [xu]; norm_num) one_pos le_rfl (by rw [dir_perp_self ku, xu]) (by norm_num) (by linarith) hη n (repV_sdiv hF _ _)
    exact absurd ⟨check p0 na, check q0 nb⟩ h
  · exact h

/-- `subproblem2` about perpendicular coordinate axes does not raise, and both pairs are near solutions. -/
theorem subproblem2_coord (hA : Spec.InvAcc F) {k1 k2 p q : V3 ℝ} (h1 : Spec.CoordAxis k1) (h2 : Spec.CoordAxis k2) (hp : IsUnit3 p) (h12 : k1.dot k2 = 0)
    {θ1 θ2 γ e β : ℝ} (hq : (rot k1 θ1 * rot k2 θ2).mulVec p = q) (hγ0 : 1 / 1000000 ≤ γ) (hγ : γ ≤ |(k1.cross k2).dot ((rot k2 θ2).mulVec p)|)
    {p' q' : V3 (Fl F)} (hu : F.u ≤ 1 / 100000000000) (hη : 16 * F.η ≤ F.u ^ 3) (he : 60 * e + 300000 * F.u ≤ γ ^ 2) (hβ : 1 / 33554432 ≤ β)
    (hp' : Spec.VNear p' p F.u) (hq' : Spec.VNear q' q e) (rp : RepV p') (rq : RepV q') :
    ∃ x y α1 α2 β1 β2, subproblem2 p' q' (k1.map of) (k2.map of) = .ok [x, y] ∧
      (rot k1 α1 * rot k2 α2).mulVec p = q ∧ (rot k1 β1 * rot k2 β2).mulVec p = q ∧
      Spec.AngNear x.1 α1 ((β + (14 * e + 710000 * F.u) / γ) / γ) ∧ Spec.AngNear x.2 α2 ((β + (14 * e + 710000 * F.u) / γ) / γ) ∧
      Spec.AngNear y.1 β1 ((β + (14 * e + 710000 * F.u) / γ) / γ) ∧ Spec.AngNear y.2 β2 ((β + (14 * e + 710000 * F.u) / γ) / γ) := by
  have u0 := F.u_nonneg
  have γ0 : 0 < γ := by linarith
  have v1 : IsUnit3 k1 := h1.unit
  have v2 : IsUnit3 k2 := h2.unit
  have n1 : Spec.VNear (k1.map of : V3 (Fl F)) k1 F.u := vNear_self k1 u0
  have n2 : Spec.VNear (k2.map of : V3 (Fl F)) k2 F.u := vNear_self k2 u0
  set c := (rot k2 θ2).mulVec p with hc
  set g := (k1.cross k2).dot c with hg
  obtain ⟨r1, r2, r3, r4, r5, r6⟩ := sp2_real v1 v2 hp h12 hq hc hg
  obtain ⟨w, rfl, hw⟩ := hq'
  have e0 : 0 ≤ e := (V3.norm_nonneg _).trans hw
  have g1 : |g| ≤ 1 := r3.trans ((V3.perp_norm_le v1 q).trans (V3.norm_eq_one r6).le)
  have γ1 : γ ≤ 1 := hγ.trans g1
  have γ2 : γ ^ 2 ≤ γ := by rw [pow_two]; exact mul_le_of_le_one_left γ0.le γ1
  obtain ⟨c1, c2, c3, c4, m1, m2⟩ := sp2_points v1 v2 hp h12 r6 hw hγ0 hγ (by rw [abs_mul_abs_self]; exact r2) hu hη he n1 n2 hp' rfl rfl rfl rfl rfl rfl rfl rfl
  have D0 : 0 ≤ (34 / 10 * e + 900 * F.u) / γ := by positivity
  have Dγ : 2 * ((34 / 10 * e + 900 * F.u) / γ) ≤ γ := by
    rw [← mul_div_assoc, div_le_iff₀ γ0, ← pow_two]
    linarith
  have fin : ∀ {f : ℝ}, f ≤ e + F.u → (β + 315 / 100 * (f + (34 / 10 * e + 900 * F.u) / γ) + 700000 * F.u) / γ ≤ (β + (14 * e + 710000 * F.u) / γ) / γ := by
    intro f hf
    refine div_le_div_of_nonneg_right ?_ γ0.le
    have g1 : F.u ≤ F.u / γ := by rw [le_div_iff₀ γ0]; exact mul_le_of_le_one_right u0 γ1
    have g2 : e ≤ e / γ := by rw [le_div_iff₀ γ0]; exact mul_le_of_le_one_right e0 γ1
    rw [show (34 / 10 * e + 900 * F.u) / γ = 34 / 10 * (e / γ) + 900 * (F.u / γ) by ring,
      show (14 * e + 710000 * F.u) / γ = 14 * (e / γ) + 710000 * (F.u / γ) by ring]
    linarith
  have hR := ofCols_rot v1 v2 h12
  have pt : ∀ {T : ℝ}, T * T = |g| * |g| → ∀ {x : V3 (Fl F)}, RepV x → Spec.VNear x ((M3.ofCols k1 k2 (k1.cross k2)).mulVec ⟨q.dot k1, p.dot k2, T⟩) ((34 / 10 * e + 900 * F.u) / γ) →
      ∃ t1 t2 α1 α2, subproblem1 (w.map of) x (k1.map of) = .ok t1 ∧ subproblem1 p' x (k2.map of) = .ok t2 ∧ (rot k1 α1 * rot k2 α2).mulVec p = q ∧
        Spec.AngNear (-t1) α1 ((β + (14 * e + 710000 * F.u) / γ) / γ) ∧ Spec.AngNear t2 α2 ((β + (14 * e + 710000 * F.u) / γ) / γ) := by
    intro T hT x rx nx
    set cT := (M3.ofCols k1 k2 (k1.cross k2)).mulVec ⟨q.dot k1, p.dot k2, T⟩ with hcT
    have cu : IsUnit3 cT := by
      refine (hR.dot_mulVec _ _).trans ?_
      change q.dot k1 * q.dot k1 + p.dot k2 * p.dot k2 + T * T = 1
      rw [hT, abs_mul_abs_self]; exact r2
    have hb : (M3.ofCols k1 k2 (k1.cross k2)).transpose.mulVec cT = ⟨q.dot k1, p.dot k2, T⟩ := hR.transpose_mulVec_mulVec _
    have a1 : cT.dot k1 = q.dot k1 := by
      refine Eq.trans ?_ (congrArg V3.x hb)
      simp [M3.ofCols, V3.dot]; ring
    have a2 : cT.dot k2 = p.dot k2 := by
      refine Eq.trans ?_ (congrArg V3.y hb)
      simp [M3.ofCols, V3.dot]; ring
    have hpp : p.dot p = 1 := hp
    have hqq : q.dot q = 1 := r6
    have hcc : cT.dot cT = 1 := cu
    obtain ⟨α2, e2⟩ := exists_rot v2 (p := p) (q := cT) (by rw [hpp, hcc]) a2.symm
    obtain ⟨α1, e1⟩ := exists_rot v1 (p := cT) (q := q) (by rw [hqq, hcc]) a1
    have e1' : (rot k1 (-α1)).mulVec q = cT := by rw [rot_neg, ← e1, (rot_isRot k1 v1 α1).transpose_mulVec_mulVec]
    obtain ⟨t1, s1, y1⟩ := subproblem1_coord hF hA h1 (by rw [V3.norm_eq_one r6]; norm_num) e1' γ0 γ1 (hγ.trans r3) (by linarith) Dγ (by linarith) hu hη (.inl hβ)
      ⟨w, rfl, hw⟩ nx rq rx
    obtain ⟨t2, s2, y2⟩ := subproblem1_coord hF hA h2 (by rw [V3.norm_eq_one hp]; norm_num) e2 γ0 γ1 (hγ.trans r4) (by linarith) Dγ (by linarith) hu hη (.inl hβ)
      hp' nx rp rx
    exact ⟨t1, t2, α1, α2, s1, s2, by rw [← M3.mulVec_mulVec, e2, e1], AngNear.neg' (AngNear.mono' y1 (fin (by linarith))), AngNear.mono' y2 (fin (by linarith))⟩
  obtain ⟨t1, t3, α1, α2, s1, s3, hα, y1, y3⟩ := pt rfl (repV_mulVec hF _ _) m1
  obtain ⟨t2, t4, β1, β2, s2, s4, hβ', y2, y4⟩ := pt (by ring) (repV_mulVec hF _ _) m2
  rcases sp2_run (q' := w.map of) rfl rfl rfl rfl rfl rfl rfl rfl c1 c2 c3 c4 rfl rfl with ⟨-, h | h | h | h⟩ | ⟨z1, z2, z3, z4, k1, k2, k3, k4, h⟩
  · rw [s1] at h; cases h
  · rw [s2] at h; cases h
  · rw [s3] at h; cases h
  · rw [s4] at h; cases h
  · rw [s1] at k1; cases k1
    rw [s2] at k2; cases k2
    rw [s3] at k3; cases k3
    rw [s4] at k4; cases k4
    exact ⟨_, _, α1, α2, β1, β2, h, hα, hβ', y1, y3, y2, y4⟩

end Fl

/-! ## Binary64 -/

namespace B64

theorem rintEven_neg (y : ℝ) : Real.rintEven (-y) = -Real.rintEven y := by
  by_cases hi : (⌊y⌋ : ℝ) = y
  · have h1 : ⌊-y⌋ = -⌊y⌋ := by
      rw [← hi, ← Int.cast_neg, Int.floor_intCast, Int.floor_intCast]
    have c : ((-⌊y⌋ : ℤ) : ℝ) = -y := by push_cast; rw [hi]
    simp only [Real.rintEven, h1, c, hi, sub_self]
    norm_num
  · have h1 : ⌊-y⌋ = -⌊y⌋ - 1 := by
      rw [Int.floor_eq_iff]
      have a := Int.floor_le y
      have b := Int.lt_floor_add_one y
      have a' := lt_of_le_of_ne a hi
      push_cast
      constructor <;> linarith
    have c : ((-⌊y⌋ - 1 : ℤ) : ℝ) = -(⌊y⌋ : ℝ) - 1 := by push_cast; ring
    simp only [Real.rintEven, h1, c]
    have e : Even (-⌊y⌋ - 1) ↔ ¬ Even ⌊y⌋ := by
      rw [Int.even_sub, even_neg]
      simp
    by_cases h2 : y - ⌊y⌋ < 1 / 2
    · rw [if_pos h2, if_neg (by linarith), if_pos (by linarith)]
      ring
    · rw [if_neg h2]
      by_cases h3 : 1 / 2 < y - ⌊y⌋
      · rw [if_pos h3, if_pos (by linarith)]
        ring
      · rw [if_neg h3, if_neg (by linarith), if_neg (by linarith)]
        by_cases h4 : Even ⌊y⌋
        · rw [if_pos h4, if_neg (fun h => e.1 h h4)]
          ring
        · rw [if_neg h4, if_pos (e.2 h4)]
          ring

theorem rintEven_int (m : ℤ) : Real.rintEven (m : ℝ) = m := by
  simp [Real.rintEven]

theorem ulpExp_neg (x : ℝ) : ulpExp (-x) = ulpExp x := by rw [ulpExp, ulpExp, abs_neg]

theorem rnd_neg (x : ℝ) : rnd (-x) = -rnd x := by
  rw [rnd, rnd, ulpExp_neg, neg_div, rintEven_neg]
  push_cast
  ring

theorem rnd_of_int {y : ℝ} (m : ℤ) (h : y = m * 2 ^ ulpExp y) : rnd y = y := by
  have hp : (0 : ℝ) < 2 ^ ulpExp y := zpow_pos (by norm_num) _
  have : y / 2 ^ ulpExp y = m := by rw [div_eq_iff hp.ne']; exact h
  rw [rnd, this, rintEven_int]
  exact h.symm

theorem rnd_idem (x : ℝ) : rnd (rnd x) = rnd x := by
  by_cases hx : x = 0
  · rw [hx, rnd_zero, rnd_zero]
  have ha : 0 < |x| := abs_pos.2 hx
  set e := ulpExp x with he
  have e1 : Int.log 2 |x| - 52 ≤ e := le_max_left _ _
  have e2 : -1074 ≤ e := le_max_right _ _
  have hp : (0 : ℝ) < 2 ^ e := zpow_pos (by norm_num) _
  set m := Real.rintEven (x / 2 ^ e) with hm
  have hy : rnd x = m * 2 ^ e := rfl
  have c1 : |x| < 2 ^ (e + 53) := by
    have h1 : |x| < ((2 : ℕ) : ℝ) ^ (Int.log 2 |x| + 1) := Int.lt_zpow_succ_log_self (by norm_num) _
    refine lt_of_lt_of_le h1 ?_
    push_cast
    exact zpow_le_zpow_right₀ (by norm_num) (by omega)
  have c2 : |x / 2 ^ e| < 2 ^ 53 := by
    rw [abs_div, abs_of_pos hp, div_lt_iff₀ hp, mul_comm]
    rw [zpow_add₀ (by norm_num)] at c1
    exact_mod_cast c1
  have c3 : |(m : ℝ)| < 2 ^ 53 + 1 := by
    have h1 := rintEven_err (x / 2 ^ e)
    have h2 := abs_add_le ((m : ℝ) - x / 2 ^ e) (x / 2 ^ e)
    rw [sub_add_cancel] at h2
    linarith
  have c4 : |m| ≤ 2 ^ 53 := by
    have : |m| < 2 ^ 53 + 1 := by exact_mod_cast c3
    omega
  rw [hy]
  rcases c4.eq_or_lt with h | h
  · rcases abs_choice m with h' | h'
    · rw [h'] at h
      refine rnd_exact (2 ^ 52) (e + 1) (by omega) (by norm_num) (by norm_num) ?_
      rw [h, zpow_add₀ (by norm_num)]
      push_cast
      norm_num
      ring
    · rw [h'] at h
      refine rnd_exact (-2 ^ 52) (e + 1) (by omega) (by norm_num) (by norm_num) ?_
      rw [show m = -2 ^ 53 by omega, zpow_add₀ (by norm_num)]
      push_cast
      norm_num
      ring
  · by_cases m0 : m = 0
    · rw [m0, Int.cast_zero, zero_mul, rnd_zero]
    have y0 : 0 < |(m : ℝ) * 2 ^ e| := abs_pos.2 (mul_ne_zero (by exact_mod_cast m0) hp.ne')
    have c5 : |(m : ℝ) * 2 ^ e| < ((2 : ℕ) : ℝ) ^ (e + 53) := by
      rw [abs_mul, abs_of_pos hp]
      push_cast
      rw [zpow_add₀ (by norm_num), mul_comm]
      have : |(m : ℝ)| < 2 ^ 53 := by exact_mod_cast h
      exact mul_lt_mul_of_pos_left (by exact_mod_cast this) hp
    have c6 := (Int.lt_zpow_iff_log_lt (by norm_num) y0).1 c5
    have c7 : ulpExp ((m : ℝ) * 2 ^ e) ≤ e := by
      unfold ulpExp
      omega
    obtain ⟨n, hn⟩ := Int.le.dest c7
    refine rnd_of_int (m * 2 ^ n) ?_
    clear_value m e
    generalize hE : ulpExp ((m : ℝ) * 2 ^ e) = E at *
    have h2 : (2 : ℝ) ^ e = 2 ^ E * 2 ^ n := by rw [← hn, zpow_add₀ (by norm_num), zpow_natCast]
    rw [h2]
    push_cast
    ring

end B64

theorem b64_exactRnd (lib : Libm) : Spec.ExactRnd (b64 lib) := ⟨B64.rnd_idem, B64.rnd_neg⟩
