import Verif.Lemmas.FlTrackSort
import Verif.Props.RoundingIkAll
import Verif.Props.RoundingIter

/-!
# C86: `robot6_sphericalwrist_invkin` in floating point, with joint limits and last joint values

Inside the limits no solution is lost; with last joint values near a solution, this solution is returned without added turns, and the first row is near it.
-/
set_option autoImplicit false

/-- The joint vector is inside the joint limits (if there are any) by the margin `μ`.  The limits of a joint are within 4.5 of zero, or more than half a
turn away from zero on either side. -/
def Spec.InsideLimits {F : FSys} (r' : Robot (Fl F)) (q : List ℝ) (μ : ℝ) : Prop :=
  ∀ lo up, r'.lower = some lo → r'.upper = some up → ∀ (j : ℕ) (t : ℝ), q[j]? = some t → ∃ l u : ℝ, lo[j]? = some (Fl.of l) ∧ up[j]? = some (Fl.of u) ∧
    l + μ < t ∧ t + μ < u ∧ (-(9 / 2) ≤ l ∧ u ≤ 9 / 2 ∨ l < -(Real.pi + 1 / 100) ∧ Real.pi + 1 / 100 < u)

section
variable {F : FSys} {r : Robot ℝ} {h0 h1 h2 h3 h4 h5 P0 P1 P2 P3 P4 P5 P6 : V3 ℝ}

theorem Fl.normErr_eight : Fl.normErr F 8 ≤ 1000 * F.u := by
  unfold Fl.normErr Fl.moveErr
  have := F.u_nonneg
  linarith

theorem ofRobot_limits_fl {r' : Robot (Fl F)} {last : Option (List (Fl F))} {lo up : List (Fl F)} (h : (Normalizer.ofRobot r' last).limits = some (lo, up)) :
    r'.lower = some lo ∧ r'.upper = some up := by
  unfold Normalizer.ofRobot at h
  dsimp only at h
  split at h
  · rename_i l u e1 e2
    rw [if_neg (by simp)] at h
    cases h
    exact ⟨e1, e2⟩
  · cases h

theorem Spec.InsideLimits.limOk {r' : Robot (Fl F)} {q : List ℝ} {μ ν : ℝ} (h : Spec.InsideLimits r' q μ) (hν : ν ≤ μ) (last : Option (List (Fl F))) {j : ℕ} {t : ℝ}
    (ht : q[j]? = some t) : Fl.LimOk (Normalizer.ofRobot r' last) j 8 t ν := by
  intro lo up hl
  obtain ⟨e1, e2⟩ := ofRobot_limits_fl hl
  obtain ⟨l, u, a1, a2, a3, a4, a5⟩ := h lo up e1 e2 j t ht
  refine ⟨l, u, a1, a2, by linarith, by linarith, ?_⟩
  have p1 := Real.pi_gt_d2
  have p2 := Real.pi_lt_d2
  rcases a5 with ⟨b1, b2⟩ | ⟨b1, b2⟩
  · refine .inl ?_
    have : |t| ≤ 9 / 2 - μ := abs_le.2 ⟨by linarith, by linarith⟩
    linarith
  · exact .inr (by rw [max_eq_left (by linarith)]; exact ⟨b1, b2⟩)

/-- whole turns of the joints do not change the pose -/
theorem wristArm_turns (hr : Spec.WristArm r h0 h1 h2 h3 h4 h5 P0 P1 P2 P3 P4 P5 P6) (q1 q2 q3 q4 q5 q6 : ℝ) (n1 n2 n3 n4 n5 n6 : ℤ) :
    fwdkin r [q1 + n1 * (2 * Real.pi), q2 + n2 * (2 * Real.pi), q3 + n3 * (2 * Real.pi), q4 + n4 * (2 * Real.pi), q5 + n5 * (2 * Real.pi), q6 + n6 * (2 * Real.pi)] true =
      fwdkin r [q1, q2, q3, q4, q5, q6] true := by
  rw [fwdkin_chain6 hr.types hr.axes hr.links, fwdkin_chain6 hr.types hr.axes hr.links]
  simp only [rot_periodic]

/-- The numbers: what the error of `normalize` adds to the bound. -/
theorem track_num {u e ε L m δ : ℝ} (u0 : 0 ≤ u) (he : e ≤ 1000 * u) (hL : 1 ≤ L) (m0 : 0 < m) (m1 : m ≤ 1)
    (hδ : 960 / (33554432 * m ^ 3) + (1100000 * ε + 3800000000 * u) * L / m ^ 5 ≤ δ) :
    960 * (1 / 33554432 + e) / m ^ 3 + (1100000 * ε + 260000 * e + 3500000000 * u) * L / m ^ 5 ≤ δ := by
  refine le_trans ?_ hδ
  rw [mul_add, add_div, mul_one_div, div_div, add_assoc]
  refine add_le_add_right ?_ _
  have h1 : 960 * e / m ^ 3 ≤ 960000 * u * L / m ^ 5 := by
    have h5 : 0 < m ^ 5 := pow_pos m0 5
    have h3 : 0 < m ^ 3 := pow_pos m0 3
    have h53 : m ^ 5 ≤ m ^ 3 := pow_le_pow_of_le_one m0.le m1 (by norm_num)
    have hu : u ≤ u * L := le_mul_of_one_le_right u0 hL
    refine (div_le_div_of_nonneg_right (show 960 * e ≤ 960000 * u * L by linarith) h3.le).trans ?_
    exact div_le_div_of_nonneg_left (by positivity) h5 h53
  refine (add_le_add_left h1 _).trans ?_
  rw [← add_div]
  refine div_le_div_of_nonneg_right ?_ (pow_pos m0 5).le
  have : e * L ≤ 1000 * u * L := mul_le_mul_of_nonneg_right he (by linarith)
  have : 0 ≤ u * L := by positivity
  linarith

theorem track_num' {u e ε L m δ : ℝ} (u0 : 0 ≤ u) (ε0 : 0 ≤ ε) (he : e ≤ 1000 * u) (hL : 1 ≤ L) (m0 : 0 < m) (m1 : m ≤ 1)
    (hδ : 960 / (33554432 * m ^ 3) + (1100000 * ε + 3800000000 * u) * L / m ^ 5 ≤ δ) : e ≤ δ ∧ 1 / 40000 ≤ δ := by
  have h5 : 0 < m ^ 5 := pow_pos m0 5
  have h51 : m ^ 5 ≤ 1 := pow_le_one₀ m0.le m1
  have h31 : m ^ 3 ≤ 1 := pow_le_one₀ m0.le m1
  have h3 : 0 < m ^ 3 := pow_pos m0 3
  have g1 : 960 / 33554432 ≤ 960 / (33554432 * m ^ 3) := div_le_div_of_nonneg_left (by norm_num) (by positivity) (by linarith)
  have g2 : (1100000 * ε + 3800000000 * u) * L ≤ (1100000 * ε + 3800000000 * u) * L / m ^ 5 := le_div_self (by positivity) h5 h51
  have g3 : (1100000 * ε + 3800000000 * u) ≤ (1100000 * ε + 3800000000 * u) * L := le_mul_of_one_le_right (by positivity) hL
  constructor
  · linarith
  · have : 0 ≤ (1100000 * ε + 3800000000 * u) := by positivity
    linarith

theorem WristMargin.le_one (hr : Spec.WristArm r h0 h1 h2 h3 h4 h5 P0 P1 P2 P3 P4 P5 P6) {q2 q3 q5 m : ℝ} (mg : Spec.WristMargin h0 h1 h2 h3 h4 h5 P1 P2 (P3 + P4) q2 q3 q5 m) :
    m ≤ 1 := by
  refine mg.wrist.trans ((V3.abs_dot_le _ _).trans ?_)
  rw [(rot_isRot _ hr.unit4 q5).norm_mulVec, V3.norm_eq_one hr.unit5, mul_one]
  refine (V3.norm_cross_le _ _).trans ?_
  rw [V3.norm_eq_one hr.unit3, V3.norm_eq_one hr.unit4, mul_one]

theorem rowClose_of {δ δ0 : ℝ} {xs : List (Fl F)} {qs as : List ℝ} (h1 : List.Forall₂ (fun x t => x.Near t δ) xs qs) (h2 : List.Forall₂ (fun x t => |x - t| ≤ δ0) as qs) :
    Fl.RowClose xs as (δ + δ0) := by
  induction h1 generalizing as with
  | nil => cases h2; exact .nil
  | cons g _ ih =>
    rcases as with _ | ⟨s, as⟩
    · cases h2
    obtain ⟨g', h2⟩ := List.forall₂_cons.1 h2
    obtain ⟨v, hv, hvd⟩ := g
    refine .cons ⟨v, hv, ?_⟩ (ih h2)
    refine (abs_sub_le v _ s).trans (add_le_add hvd ?_)
    rw [abs_sub_comm]
    exact g'

/-- A row near a solution up to whole turns, and near the last joint values, is near the solution with these turns. -/
theorem first_near {δ δ0 κ b1 b2 b3 b4 b5 b6 q1 q2 q3 q4 q5 q6 : ℝ} {row : List (Fl F)} {a : List ℝ} (hκ : 18 / 5 * (δ + δ0) + 1 / 10000 ≤ κ) (hnear : Spec.RowNear row [b1, b2, b3, b4, b5, b6] δ)
    (hclose : Fl.RowClose row a (13 / 5 * (δ + δ0) + 1 / 10000)) (hlast : List.Forall₂ (fun x t => |x - t| ≤ δ0) a [q1, q2, q3, q4, q5, q6]) :
    ∃ n1 n2 n3 n4 n5 n6 : ℤ, List.Forall₂ (fun x t => x.Near t δ) row [b1 + n1 * (2 * Real.pi), b2 + n2 * (2 * Real.pi), b3 + n3 * (2 * Real.pi), b4 + n4 * (2 * Real.pi),
        b5 + n5 * (2 * Real.pi), b6 + n6 * (2 * Real.pi)] ∧
      List.Forall₂ (fun s t => |s - t| ≤ κ) [b1 + n1 * (2 * Real.pi), b2 + n2 * (2 * Real.pi), b3 + n3 * (2 * Real.pi), b4 + n4 * (2 * Real.pi),
        b5 + n5 * (2 * Real.pi), b6 + n6 * (2 * Real.pi)] [q1, q2, q3, q4, q5, q6] := by
  obtain _ | ⟨⟨n1, z1⟩, _ | ⟨⟨n2, z2⟩, _ | ⟨⟨n3, z3⟩, _ | ⟨⟨n4, z4⟩, _ | ⟨⟨n5, z5⟩, _ | ⟨⟨n6, z6⟩, _ | _⟩⟩⟩⟩⟩⟩ := hnear
  refine ⟨n1, n2, n3, n4, n5, n6, .cons z1 (.cons z2 (.cons z3 (.cons z4 (.cons z5 (.cons z6 .nil))))), ?_⟩
  obtain _ | ⟨w1, _ | ⟨w2, _ | ⟨w3, _ | ⟨w4, _ | ⟨w5, _ | ⟨w6, _ | _⟩⟩⟩⟩⟩⟩ := hlast
  obtain _ | ⟨g1, _ | ⟨g2, _ | ⟨g3, _ | ⟨g4, _ | ⟨g5, _ | ⟨g6, _ | _⟩⟩⟩⟩⟩⟩ := hclose
  have fin : ∀ {x : Fl F} {p s t : ℝ}, x.Near p δ → x.Near s (13 / 5 * (δ + δ0) + 1 / 10000) → |s - t| ≤ δ0 → |p - t| ≤ κ := by
    intro x p s t ⟨v, hv, h1⟩ ⟨v', hv', h2⟩ h3
    rw [hv] at hv'
    cases hv'
    rw [show p - t = -(v - p) + ((v - s) + (s - t)) by ring]
    have i1 := abs_add_le (-(v - p)) ((v - s) + (s - t))
    have i2 := abs_add_le (v - s) (s - t)
    rw [abs_neg] at i1
    linarith
  exact .cons (fin z1 g1 w1) (.cons (fin z2 g2 w2) (.cons (fin z3 g3 w3) (.cons (fin z4 g4 w4) (.cons (fin z5 g5 w5) (.cons (fin z6 g6 w6) .nil)))))

/-- C86 with joint limits, no last joint values, for arms with coordinate axes: the call does not raise, every row it returns is within `δ` of a joint
vector that reaches the pose, and every joint vector that reaches the pose and is inside the limits by `2 * δ` is within `δ` of a row, up to whole turns.
Missing: larger arms, other axes (false, `C83_robot6_false`), unusual limits, and poses near the singularities. -/
theorem C86_robot6_limits_partial (hF : Spec.InvAcc F) (hE : Spec.ExactRnd F) (hI : Spec.IntRounding F) (hr : Spec.WristArm r h0 h1 h2 h3 h4 h5 P0 P1 P2 P3 P4 P5 P6)
    (k3 : Spec.CoordAxis h3) (k4 : Spec.CoordAxis h4) (k5 : Spec.CoordAxis h5)
    (hP4 : P4 = (P4.dot h3) • h3) (hP5 : P5 = (P5.dot h5) • h5) (hl : P0.norm + P1.norm + P2.norm + (P3.norm + P4.norm) ≤ 19 / 10)
    (hl6 : P6.norm + P5.norm ≤ 1) (r' : Robot (Fl F)) (hr' : Spec.RobotNear r' r)
    (hlim : ∀ lo up, r'.lower = some lo → r'.upper = some up → lo.length = 6 ∧ up.length = 6)
    (hH' : r'.H.tail = [h1, h2, h3, h4, h5].map (V3.map Fl.of)) (c4 c5 : ℝ) (hc4 : Fl.Rep F c4) (hc5 : Fl.Rep F c5)
    (hP4' : r'.P[4]? = some ((c4 • h3).map Fl.of)) (hP5' : r'.P[5]? = some ((c5 • h5).map Fl.of))
    (T : Transform ℝ) (q1 q2 q3 q4 q5 q6 : ℝ) (hT : fwdkin r [q1, q2, q3, q4, q5, q6] true = .ok T)
    (T' : Transform (Fl F)) (ε : ℝ) (hR' : Spec.MNear T'.R T.R ε) (hp' : Spec.VNear T'.p T.p ε)
    (L : ℝ) (hL : 1 ≤ L) (hlen : T.p.norm + Spec.auxLength r ≤ L) (hbig : 5 * L ≤ F.big)
    (hu0 : 0 < F.u) (hu : F.u ≤ 1 / 100000000000) (hη : 16 * F.η ≤ F.u ^ 3) (m δ : ℝ) (hm : 1 / 1000000 ≤ m)
    (hmargin : ∀ q1 q2 q3 q4 q5 q6, fwdkin r [q1, q2, q3, q4, q5, q6] true = .ok T → Spec.WristMargin h0 h1 h2 h3 h4 h5 P1 P2 (P3 + P4) q2 q3 q5 m)
    (hreach : Spec.ReachDecided h0 h2 P0 P1 P2 (P3 + P4) (Spec.wristCentre r P5 P6 T) m)
    (hδ : 960 / (33554432 * m ^ 3) + (1100000 * ε + 3800000000 * F.u) * L / m ^ 5 ≤ δ) (hδ1 : δ ≤ 1 / 20) :
    ∃ sols, (robot6_sphericalwrist_invkin r' T').2 = .ok sols ∧
      (∀ row ∈ sols, ∃ q, fwdkin r q true = .ok T ∧ Spec.RowNear row q δ) ∧
      (∀ q1 q2 q3 q4 q5 q6, fwdkin r [q1, q2, q3, q4, q5, q6] true = .ok T → Spec.InsideLimits r' [q1, q2, q3, q4, q5, q6] (2 * δ) →
        ∃ row ∈ sols, Spec.RowNear row [q1, q2, q3, q4, q5, q6] δ) := by
  have u0 := hu0.le
  have m0 : 0 < m := by linarith
  have m1 := WristMargin.le_one hr (hmargin _ _ _ _ _ _ hT)
  have ε0 : 0 ≤ ε := by
    obtain ⟨w, -, h⟩ := hp'
    exact (V3.norm_nonneg _).trans h
  have e8 := Fl.normErr_eight (F := F)
  have hδ' := track_num u0 e8 hL m0 m1 hδ
  have e0 := Fl.normErr_nonneg (F := F) (S := 8) (by norm_num)
  obtain ⟨ed, δ9⟩ := track_num' u0 ε0 e8 hL m0 m1 hδ
  have us : Fl.Usable (Normalizer.ofRobot r' none) := by
    constructor
    · intro ls e
      cases e
    · intro lo up e j hj
      obtain ⟨e1, e2⟩ := ofRobot_limits_fl e
      obtain ⟨l1, l2⟩ := hlim lo up e1 e2
      exact ⟨lo[j], up[j], by simp [l1, hj], by simp [l2, hj]⟩
  obtain ⟨Q, rows, hfx, h, hrow⟩ := robot6_run hF hE hr k3 k4 k5 hP4 hP5 hl hl6 r' hr' (us.keeps hE hI hu (by norm_num) (by norm_num)) hH' c4 c5 hc4 hc5 hP4' hP5'
    T q1 q2 q3 q4 q5 q6 hT T' ε hR' hp' L hL hlen hbig hu0 hu hη m δ hm hmargin hreach hδ' (by linarith)
  refine ⟨rows, ?_, fun row hm => ?_, fun q1 q2 q3 q4 q5 q6 hT hins => ?_⟩
  · unfold robot6_sphericalwrist_invkin
    dsimp only
    rw [hfx]
    simp only [Except.bind_ok]
    rw [h]
    rfl
  · obtain ⟨_, _, _, _, _, _, h1, h2⟩ := hrow row hm
    exact ⟨_, h1, h2⟩
  · have qj : ∀ j < 6, [q1, q2, q3, q4, q5, q6][j]? = some ([q1, q2, q3, q4, q5, q6].getD j 0) := by
      intro j hj
      interval_cases j <;> rfl
    have fol := us.stays hE hI hu rfl (q := fun j => [q1, q2, q3, q4, q5, q6].getD j 0) (D := δ) (S := fun _ => 8) (M := 8) (by norm_num) (by norm_num) (fun _ _ => le_rfl) hδ1
      (fun j hj => hins.limOk (by linarith) _ (qj j hj))
    obtain ⟨x1, x2, x3, x4, x5, x6, hmem, y1, y2, y3, y4, y5, y6⟩ := robot6_follow hF hr hP4 hP5 hl hl6 r' hr' q1 q2 q3 q4 q5 q6 fol T hT T' ε hR' hp' L hL hlen hbig
      hu0 hu hη m (1 / 33554432) hm (hmargin _ _ _ _ _ _ hT) (.inl le_rfl) hδ' (by linarith) hfx h
    exact ⟨_, hmem, .cons y1.1 (.cons y2.1 (.cons y3.1 (.cons y4.1 (.cons y5.1 (.cons y6.1 .nil)))))⟩

/-- C86 with last joint values, for arms with coordinate axes.  The last joint values `a` are within `δ0` of the joint vector `q`, which reaches the pose
and is inside the joint limits (if any) by `2 * δ`.  The call does not raise; every row it returns is within `δ` of a joint vector that reaches the pose; one row
is within `δ` of `q`, not only up to whole turns; and the first row is within `δ` of a joint vector that reaches the pose and is within `8 * (δ + δ0)` of `q`.
Missing: larger arms, other axes (false, `C83_robot6_false`), unusual limits, and poses near the singularities. -/
theorem C86_robot6_tracks_partial (hF : Spec.InvAcc F) (hE : Spec.ExactRnd F) (hI : Spec.IntRounding F) (hr : Spec.WristArm r h0 h1 h2 h3 h4 h5 P0 P1 P2 P3 P4 P5 P6)
    (k3 : Spec.CoordAxis h3) (k4 : Spec.CoordAxis h4) (k5 : Spec.CoordAxis h5)
    (hP4 : P4 = (P4.dot h3) • h3) (hP5 : P5 = (P5.dot h5) • h5) (hl : P0.norm + P1.norm + P2.norm + (P3.norm + P4.norm) ≤ 19 / 10)
    (hl6 : P6.norm + P5.norm ≤ 1) (r' : Robot (Fl F)) (hr' : Spec.RobotNear r' r)
    (hH' : r'.H.tail = [h1, h2, h3, h4, h5].map (V3.map Fl.of)) (c4 c5 : ℝ) (hc4 : Fl.Rep F c4) (hc5 : Fl.Rep F c5)
    (hP4' : r'.P[4]? = some ((c4 • h3).map Fl.of)) (hP5' : r'.P[5]? = some ((c5 • h5).map Fl.of))
    (T : Transform ℝ) (q1 q2 q3 q4 q5 q6 : ℝ) (hT : fwdkin r [q1, q2, q3, q4, q5, q6] true = .ok T)
    (T' : Transform (Fl F)) (ε : ℝ) (hR' : Spec.MNear T'.R T.R ε) (hp' : Spec.VNear T'.p T.p ε)
    (L : ℝ) (hL : 1 ≤ L) (hlen : T.p.norm + Spec.auxLength r ≤ L) (hbig : 5 * L ≤ F.big)
    (hu0 : 0 < F.u) (hu : F.u ≤ 1 / 100000000000) (hη : 16 * F.η ≤ F.u ^ 3) (m δ : ℝ) (hm : 1 / 1000000 ≤ m)
    (hmargin : ∀ q1 q2 q3 q4 q5 q6, fwdkin r [q1, q2, q3, q4, q5, q6] true = .ok T → Spec.WristMargin h0 h1 h2 h3 h4 h5 P1 P2 (P3 + P4) q2 q3 q5 m)
    (hreach : Spec.ReachDecided h0 h2 P0 P1 P2 (P3 + P4) (Spec.wristCentre r P5 P6 T) m)
    (hδ : 960 / (33554432 * m ^ 3) + (1100000 * ε + 3800000000 * F.u) * L / m ^ 5 ≤ δ) (hδ1 : δ ≤ 1 / 20)
    (hlim : Spec.InsideLimits r' [q1, q2, q3, q4, q5, q6] (2 * δ)) (a : List ℝ) (δ0 : ℝ) (hδ0 : δ0 ≤ 1 / 2) (ha : ∀ t ∈ a, |t| ≤ 110)
    (hlast : List.Forall₂ (fun x t => |x - t| ≤ δ0) a [q1, q2, q3, q4, q5, q6]) :
    ∃ sols, (robot6_sphericalwrist_invkin r' T' (some (a.map Fl.of))).2 = .ok sols ∧
      (∀ row ∈ sols, ∃ q, fwdkin r q true = .ok T ∧ Spec.RowNear row q δ) ∧
      (∃ row ∈ sols, List.Forall₂ (fun x t => x.Near t δ) row [q1, q2, q3, q4, q5, q6]) ∧
      ∃ row p, sols.head? = some row ∧ fwdkin r p true = .ok T ∧ List.Forall₂ (fun x t => x.Near t δ) row p ∧
        List.Forall₂ (fun s t => |s - t| ≤ 8 * (δ + δ0)) p [q1, q2, q3, q4, q5, q6] := by
  have u0 := hu0.le
  have m0 : 0 < m := by linarith
  have m1 := WristMargin.le_one hr (hmargin _ _ _ _ _ _ hT)
  have ε0 : 0 ≤ ε := by
    obtain ⟨w, -, h⟩ := hp'
    exact (V3.norm_nonneg _).trans h
  have e8 := Fl.normErr_eight (F := F)
  have hδ' := track_num u0 e8 hL m0 m1 hδ
  have e0 := Fl.normErr_nonneg (F := F) (S := 8) (by norm_num)
  obtain ⟨ed, δ9⟩ := track_num' u0 ε0 e8 hL m0 m1 hδ
  have a6 : a.length = 6 := hlast.length_eq
  have qj : ∀ j < 6, [q1, q2, q3, q4, q5, q6][j]? = some ([q1, q2, q3, q4, q5, q6].getD j 0) := by
    intro j hj
    interval_cases j <;> rfl
  have aj : ∀ j < 6, ∃ t, a[j]? = some t ∧ |t| ≤ 110 ∧ |t - [q1, q2, q3, q4, q5, q6].getD j 0| ≤ δ0 := by
    intro j hj
    have hja : j < a.length := by omega
    refine ⟨a[j], by simp [hja], ha _ (List.getElem_mem _), ?_⟩
    have := List.forall₂_iff_get.1 hlast |>.2 j hja (by simpa using hj)
    have e := qj j hj
    rw [List.getElem?_eq_getElem (by simpa using hj)] at e
    rw [← Option.some.inj e]
    exact this
  have us : Fl.Usable (Normalizer.ofRobot r' (some (a.map Fl.of))) := by
    constructor
    · intro ls e j hj
      cases e
      obtain ⟨t, ht, h1, -⟩ := aj j hj
      exact ⟨t, by rw [List.getElem?_map, ht]; rfl, h1⟩
    · intro lo up e j hj
      obtain ⟨e1, e2⟩ := ofRobot_limits_fl e
      obtain ⟨l, u, a1, a2, -⟩ := hlim lo up e1 e2 j _ (qj j hj)
      exact ⟨_, _, a1, a2⟩
  obtain ⟨Q, rows, hfx, h, hrow⟩ := robot6_run hF hE hr k3 k4 k5 hP4 hP5 hl hl6 r' hr' (us.keeps hE hI hu (by norm_num) (by norm_num)) hH' c4 c5 hc4 hc5 hP4' hP5'
    T q1 q2 q3 q4 q5 q6 hT T' ε hR' hp' L hL hlen hbig hu0 hu hη m δ hm hmargin hreach hδ' (by linarith)
  have fol := us.tracks hE hI hu rfl (q := fun j => [q1, q2, q3, q4, q5, q6].getD j 0) (D := δ) (S := fun _ => 8) (M := 8) (by
      intro j hj
      obtain ⟨t, ht, -, h2⟩ := aj j hj
      exact ⟨t, by rw [List.getElem?_map, ht]; rfl, h2.trans hδ0⟩) (by norm_num) (by norm_num) (fun _ _ => le_rfl) hδ1
    (fun j hj => hlim.limOk (by linarith) _ (qj j hj))
  obtain ⟨x1, x2, x3, x4, x5, x6, hmem, y1, y2, y3, y4, y5, y6⟩ := robot6_follow hF hr hP4 hP5 hl hl6 r' hr' q1 q2 q3 q4 q5 q6 fol T hT T' ε hR' hp' L hL hlen hbig
    hu0 hu hη m (1 / 33554432) hm (hmargin _ _ _ _ _ _ hT) (.inl le_rfl) hδ' (by linarith) hfx h
  have hrow0 : List.Forall₂ (fun x t => x.Near t δ) [x1, x2, x3, x4, x5, x6] [q1, q2, q3, q4, q5, q6] := .cons y1 (.cons y2 (.cons y3 (.cons y4 (.cons y5 (.cons y6 .nil)))))
  have len6 : ∀ row ∈ rows, row.length = 6 := by
    intro row hm
    obtain ⟨_, _, _, _, _, _, -, h2⟩ := hrow row hm
    exact h2.length_eq
  obtain ⟨sols, row, hsort, hperm, hhead, hclose⟩ := Fl.sort_first hu a6 len6 hmem (rowClose_of hrow0 hlast) (by linarith)
  refine ⟨sols, ?_, fun row hm => ?_, ⟨_, hperm.mem_iff.2 hmem, hrow0⟩, row, ?_⟩
  · unfold robot6_sphericalwrist_invkin
    dsimp only
    rw [hfx]
    simp only [Except.bind_ok]
    rw [h]
    exact hsort
  · obtain ⟨_, _, _, _, _, _, h1, h2⟩ := hrow row (hperm.mem_iff.1 hm)
    exact ⟨_, h1, h2⟩
  · obtain ⟨b1, b2, b3, b4, b5, b6, hb, hnear⟩ := hrow row (hperm.mem_iff.1 (List.mem_of_mem_head? hhead))
    have δ00 : 0 ≤ δ0 := by
      obtain ⟨t, -, -, h⟩ := aj 0 (by norm_num)
      exact (abs_nonneg _).trans h
    obtain ⟨n1, n2, n3, n4, n5, n6, z, hz⟩ := first_near (κ := 8 * (δ + δ0)) (by linarith) hnear hclose hlast
    exact ⟨_, hhead, (wristArm_turns hr b1 b2 b3 b4 b5 b6 n1 n2 n3 n4 n5 n6).trans hb, z, hz⟩

end

/-- C86: in every floating-point arithmetic, for every robot, pose and last joint values, every joint vector returned by `robot6_sphericalwrist_invkin` has six
entries, each strictly inside the limits of the robot (no tolerance). -/
theorem C86_robot6_in_limits {F : FSys} (robot : Robot (Fl F)) (pose : Transform (Fl F)) (last : Option (List (Fl F))) (sols : List (List (Fl F)))
    (h : (robot6_sphericalwrist_invkin robot pose last).2 = .ok sols) (s : List (Fl F)) (hs : s ∈ sols) :
    s.length = 6 ∧ ∀ lo up, robot.lower = some lo → robot.upper = some up → ∀ (j : ℕ) (l u t : Fl F), lo[j]? = some l → up[j]? = some u → s[j]? = some t → l < t ∧ t < u := by
  unfold robot6_sphericalwrist_invkin at h
  obtain ⟨-, -, h⟩ := Except.bind_eq_ok h
  obtain ⟨rows, h1, h⟩ := Except.bind_eq_ok h
  obtain ⟨q1, q2, q3, q4, q5, q6, rfl, ⟨_, n1⟩, ⟨_, n2⟩, ⟨_, n3⟩, ⟨_, n4⟩, ⟨_, n5⟩, ⟨_, n6⟩⟩ :=
    r6Search_mem h1 ((sortByLast_mem h).mem_iff.1 hs)
  refine ⟨rfl, fun lo up hlo hup j l u t hl hu hj => ?_⟩
  have key : Spec.inLimits robot false j t := by
    match j, hj with
    | 0, hj => cases hj; exact normalize_inLimits Fl.fl_add_comm n1
    | 1, hj => cases hj; exact normalize_inLimits Fl.fl_add_comm n2
    | 2, hj => cases hj; exact normalize_inLimits Fl.fl_add_comm n3
    | 3, hj => cases hj; exact normalize_inLimits Fl.fl_add_comm n4
    | 4, hj => cases hj; exact normalize_inLimits Fl.fl_add_comm n5
    | 5, hj => cases hj; exact normalize_inLimits Fl.fl_add_comm n6
  exact key rfl lo up hlo hup l u hl hu

/-! ## A concrete arm -/

/-- The half-metre arm with joint limits of ±3 rad. -/
noncomputable def B64Wrist.limited (F : FSys) : Robot (Fl F) :=
  { B64Wrist.half' F with
    lower := some [Fl.of (-3), Fl.of (-3), Fl.of (-3), Fl.of (-3), Fl.of (-3), Fl.of (-3)]
    upper := some [Fl.of 3, Fl.of 3, Fl.of 3, Fl.of 3, Fl.of 3, Fl.of 3] }

theorem B64Wrist.limited_near (F : FSys) : Spec.RobotNear (B64Wrist.limited F) B64Wrist.half where
  types := (B64Wrist.half_near F).types
  axes := (B64Wrist.half_near F).axes
  links := (B64Wrist.half_near F).links
  flange := .none
  base := .none
  toolR := .none
  toolp := .none

theorem B64Wrist.limited_inside (F : FSys) : Spec.InsideLimits (B64Wrist.limited F) [0, 0, 0, Real.pi / 2, Real.pi / 2, 0] (2 * (1 / 50)) := by
  rintro _ _ ⟨⟩ ⟨⟩ j t ht
  have p1 := Real.pi_gt_three
  have p2 := Real.pi_lt_d2
  have hj : j < 6 := by
    by_contra h
    rw [List.getElem?_eq_none (by simpa using not_lt.1 h)] at ht
    cases ht
  refine ⟨-3, 3, ?_⟩
  interval_cases j <;> cases ht <;> exact ⟨rfl, rfl, by linarith, by linarith, .inl ⟨by norm_num, by norm_num⟩⟩

theorem B64Wrist.half_length {T : Transform ℝ} (hT : fwdkin B64Wrist.half [0, 0, 0, Real.pi / 2, Real.pi / 2, 0] true = .ok T) :
    T.p.norm + Spec.auxLength B64Wrist.half ≤ 2 := by
  rw [fwdkin_chain6 B64Wrist.half_wrist.types B64Wrist.half_wrist.axes B64Wrist.half_wrist.links 0 0 0 (Real.pi / 2) (Real.pi / 2) 0] at hT
  rw [← Except.ok.inj hT]
  simp only [rot_zero, M3.one_mulVec]
  rw [show Spec.auxLength B64Wrist.half = 0 by simp [Spec.auxLength, B64Wrist.half], add_zero, V3.norm_eq]
  refine Real.sqrt_le_iff.2 ⟨by norm_num, ?_⟩
  simp [applyAux, B64Wrist.half, rot, V3.dot]
  norm_num

/-- C86 for this arm in binary64 with a correctly rounded library, for a pose known up to 1e-12.  Without last joint values the call returns and returns the
joint vector the pose was made from; with last joint values 1/8 from it, it returns it without whole turns, and the first row is near it. -/
example : ∃ T, fwdkin B64Wrist.half [0, 0, 0, Real.pi / 2, Real.pi / 2, 0] true = .ok T ∧ ∀ (T' : Transform (Fl (b64 Libm.rounded))),
    Spec.MNear T'.R T.R (1 / 1000000000000) → Spec.VNear T'.p T.p (1 / 1000000000000) →
    (∃ sols, (robot6_sphericalwrist_invkin (B64Wrist.limited _) T').2 = .ok sols ∧
      ∃ row ∈ sols, Spec.RowNear row [0, 0, 0, Real.pi / 2, Real.pi / 2, 0] (1 / 50)) ∧
    ∃ sols, (robot6_sphericalwrist_invkin (B64Wrist.limited _) T' (some ([1 / 8, 0, 0, 3 / 2, 3 / 2, -1 / 8].map Fl.of))).2 = .ok sols ∧
      (∃ row ∈ sols, List.Forall₂ (fun x t => x.Near t (1 / 50)) row [0, 0, 0, Real.pi / 2, Real.pi / 2, 0]) ∧
      ∃ row p, sols.head? = some row ∧ fwdkin B64Wrist.half p true = .ok T ∧ List.Forall₂ (fun x t => x.Near t (1 / 50)) row p ∧
        List.Forall₂ (fun s t => |s - t| ≤ 8 * (1 / 50 + 1 / 8)) p [0, 0, 0, Real.pi / 2, Real.pi / 2, 0] := by
  obtain ⟨T, hT⟩ : ∃ T, fwdkin B64Wrist.half [0, 0, 0, Real.pi / 2, Real.pi / 2, 0] true = .ok T :=
    ⟨_, fwdkin_chain6 B64Wrist.half_wrist.types B64Wrist.half_wrist.axes B64Wrist.half_wrist.links 0 0 0 (Real.pi / 2) (Real.pi / 2) 0⟩
  refine ⟨T, hT, fun T' hR hp => ?_⟩
  have z : ∀ h : V3 ℝ, (0 : V3 ℝ) = ((0 : V3 ℝ).dot h) • h := by intro h; ext <;> simp [V3.dot]
  have nz : (⟨0, 0, 1 / 2⟩ : V3 ℝ).norm ≤ 1 / 2 := by rw [V3.norm_eq]; exact Real.sqrt_le_iff.2 ⟨by norm_num, by norm_num [V3.dot]⟩
  have nx : (⟨1 / 2, 0, 0⟩ : V3 ℝ).norm ≤ 1 / 2 := by rw [V3.norm_eq]; exact Real.sqrt_le_iff.2 ⟨by norm_num, by norm_num [V3.dot]⟩
  have z' : ∀ h : V3 ℝ, (0 : ℝ) • h = 0 := by intro h; ext <;> simp
  have p1 := Real.pi_gt_d2
  have p2 := Real.pi_lt_d2
  have big : 5 * 2 ≤ (b64 Libm.rounded).big := by have := (b64 Libm.rounded).big_ge; linarith
  have u0 : 0 < (b64 Libm.rounded).u := by rw [b64_u]; positivity
  have u1 : (b64 Libm.rounded).u ≤ 1 / 100000000000 := by rw [b64_u]; norm_num
  have hδ : 960 / (33554432 * (1 / 4 : ℝ) ^ 3) + (1100000 * (1 / 1000000000000) + 3800000000 * (b64 Libm.rounded).u) * 2 / (1 / 4) ^ 5 ≤ 1 / 50 := by rw [b64_u]; norm_num
  constructor
  · obtain ⟨sols, h, -, hall⟩ := C86_robot6_limits_partial invAcc_rounded (b64_exactRnd _) (intRounding_b64 _) B64Wrist.half_wrist (.inl rfl) (.inr (.inl rfl)) (.inl rfl) (z _) (z _)
      (by rw [V3.norm_zero]; linarith) (by rw [V3.norm_zero]; linarith) _ (B64Wrist.limited_near _) (by rintro _ _ ⟨⟩ ⟨⟩; exact ⟨rfl, rfl⟩) rfl 0 0 Fl.Rep.zero Fl.Rep.zero
      (by rw [z']; rfl) (by rw [z']; rfl) T 0 0 0 (Real.pi / 2) (Real.pi / 2) 0 hT T' _ hR hp 2 (by norm_num) (B64Wrist.half_length hT) big u0 u1 (b64_eta _) (1 / 4) (1 / 50)
      (by norm_num) (B64Wrist.half_margins hT) (B64Wrist.half_reach hT) hδ (by norm_num)
    exact ⟨sols, h, hall _ _ _ _ _ _ hT (B64Wrist.limited_inside _)⟩
  · obtain ⟨sols, h, -, h1, h2⟩ := C86_robot6_tracks_partial invAcc_rounded (b64_exactRnd _) (intRounding_b64 _) B64Wrist.half_wrist (.inl rfl) (.inr (.inl rfl)) (.inl rfl) (z _) (z _)
      (by rw [V3.norm_zero]; linarith) (by rw [V3.norm_zero]; linarith) _ (B64Wrist.limited_near _) rfl 0 0 Fl.Rep.zero Fl.Rep.zero
      (by rw [z']; rfl) (by rw [z']; rfl) T 0 0 0 (Real.pi / 2) (Real.pi / 2) 0 hT T' _ hR hp 2 (by norm_num) (B64Wrist.half_length hT) big u0 u1 (b64_eta _) (1 / 4) (1 / 50)
      (by norm_num) (B64Wrist.half_margins hT) (B64Wrist.half_reach hT) hδ (by norm_num) (B64Wrist.limited_inside _) [1 / 8, 0, 0, 3 / 2, 3 / 2, -1 / 8] (1 / 8) (by norm_num)
      (by
        intro t ht
        simp only [List.mem_cons, List.not_mem_nil, or_false] at ht
        rcases ht with rfl | rfl | rfl | rfl | rfl | rfl <;> norm_num [abs_le])
      (by
        have e : |3 / 2 - Real.pi / 2| ≤ 1 / 8 := abs_le.2 ⟨by linarith, by linarith⟩
        exact .cons (by norm_num) (.cons (by norm_num) (.cons (by norm_num) (.cons e (.cons e (.cons (by norm_num [abs_le]) .nil))))))
    exact ⟨sols, h, h1, h2⟩
