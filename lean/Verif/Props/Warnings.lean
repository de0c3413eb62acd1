import Verif.Lemmas.WarningsIk
import Verif.Props.Count
import Verif.Props.Empty

/-!
# C105: the warnings

`subproblem1`, `subproblem2` and `subproblem3` call `warnings.warn` when they find no (exact) solution.  For callers of the solvers the
warnings are the only trace of what went wrong in a subproblem.
-/
set_option autoImplicit false

/-- C105: no two of the messages have the same text, so that the text of a warning tells which comparison failed. -/
theorem C105_text_injective (a b : Warning) (h : a.text = b.text) : a = b := by
  cases a <;> cases b <;> first | rfl | (exfalso; revert h; decide)

/-- C105: every message says something. -/
theorem C105_text_ne_empty (a : Warning) : a.text ≠ "" := by cases a <;> decide

/-! ### Subproblems -/

/-- C105: a call that raises issues no warning in `subproblem1` (all number types); the only message is the one about the norms. -/
theorem C105_subproblem1_returns {α : Type} [Add α] [Sub α] [Mul α] [Div α] [Neg α] [Zero α] [One α] [LT α] [LE α]
    [DecidableLT α] [DecidableLE α] [Elem α] (p q k : V3 α) (w : Warning) (h : w ∈ (subproblem1W p q k).warns) :
    w = .norms ∧ ∃ θ, (subproblem1W p q k).out = .ok θ := by
  obtain ⟨h1, -, -, h2⟩ := sub1W_mem.1 h
  exact ⟨h1, by rw [subproblem1W_out]; exact h2⟩

/-- C105: when a rotation about the axis takes the first point to the second, `subproblem1` does not warn; hence a warning means that
there is no such rotation. -/
theorem C105_subproblem1_warned (p q k : V3 ℝ) (hk : IsUnit3 k) (w : Warning) (h : w ∈ (subproblem1W p.up q.up k.up).warns) (φ : ℝ) :
    (rot k φ).mulVec p ≠ q := by
  intro e
  refine sub1W_same ?_ h
  rw [← e, (rot_isRot k hk φ).norm_mulVec]

/-- C105 (`_partial`: see `C105_subproblem1_silent_false`).  For points off the axis, `subproblem1` warns if the lengths of the points
differ by more than a hundredth of the first one. -/
theorem C105_subproblem1_lengths_partial (p q k : V3 ℝ) (hk : IsUnit3 k) (hp : k.cross p ≠ 0) (hq : k.cross q ≠ 0) (hfar : snap ≤ (p - q).norm)
    (h : p.norm / 100 < |p.norm - q.norm|) : .norms ∈ (subproblem1W p.up q.up k.up).warns := by
  obtain ⟨θ, e, -⟩ := C23_subproblem1_least_squares p q k hk hp hq hfar
  exact sub1W_real.2 ⟨rfl, hfar, h, _, e⟩

theorem C105.tilted : (⟨3 / 5, 0, 4 / 5⟩ : V3 ℝ).norm = (V3.ex : V3 ℝ).norm := norm_eq_of_dot (by simp [V3.dot]; norm_num)

/-- C105 is false for `subproblem1`: for points of equal length at different heights it returns an angle that is not a solution, without
a warning. -/
theorem C105_subproblem1_silent_false : ∃ (p q k : V3 ℝ) (θ : ℝ), IsUnit3 k ∧ (subproblem1W p.up q.up k.up).warns = [] ∧
    (subproblem1W p.up q.up k.up).out = .ok (.fin θ) ∧ ∀ φ : ℝ, (rot k φ).mulVec p ≠ q := by
  have hz : IsUnit3 (V3.ez : V3 ℝ) := ez_unit
  obtain ⟨θ, e, -⟩ := C23_subproblem1_least_squares V3.ex ⟨3 / 5, 0, 4 / 5⟩ V3.ez hz
    (by intro h; have := congrArg V3.y h; simp at this) (by intro h; have := congrArg V3.y h; simp at this)
    (by
      rw [snap_eq, V3.norm_eq]
      apply Real.le_sqrt_of_sq_le
      simp [V3.dot]; norm_num)
  refine ⟨V3.ex, ⟨3 / 5, 0, 4 / 5⟩, V3.ez, θ, hz, ?_, by rw [subproblem1W_out]; exact e, ?_⟩
  · rw [List.eq_nil_iff_forall_not_mem]
    intro w
    exact sub1W_same C105.tilted.symm
  · intro φ h
    have := congrArg V3.z h
    simp [rot] at this
    norm_num at this

/-- C105: `subproblem2` issues one of its own two messages exactly if it returns the empty list (all number types). -/
theorem C105_subproblem2_none {α : Type} [Add α] [Sub α] [Mul α] [Div α] [Neg α] [Zero α] [One α] [LT α] [LE α]
    [DecidableLT α] [DecidableLE α] [Elem α] (p q k1 k2 : V3 α) :
    (.axes ∈ (subproblem2W p q k1 k2).warns ∨ .cones ∈ (subproblem2W p q k1 k2).warns ∨ .distance ∈ (subproblem2W p q k1 k2).warns) ↔
      (subproblem2W p q k1 k2).out = .ok [] := by
  rw [subproblem2W_out, ← sub2W_none]
  constructor
  · rintro (h | h | h) <;> exact ⟨_, h, by simp⟩
  · rintro ⟨w, h, hw⟩
    cases w
    · exact absurd rfl hw
    · exact .inl h
    · exact .inr (.inl h)
    · exact .inr (.inr h)

/-- C105 (`_partial`: the axes may not be nearly parallel, and the points may not be nearly in the plane of the axes unless they are of
unit length; see `C105_subproblem2_spurious_false`): when there are rotations about the two axes that take the first point to the
second, `subproblem2` does not warn. -/
theorem C105_subproblem2_warned_partial (p q k1 k2 : V3 ℝ) (u1 : IsUnit3 k1) (u2 : IsUnit3 k2) (hax : npEps ≤ 1 - k1.dot k2 ^ 2)
    (hd : npEps ≤ |Spec.disc p q k1 k2| ∨ (p.norm = 1 ∧ 0 ≤ Spec.disc p q k1 k2)) (w : Warning) (h : w ∈ (subproblem2W p.up q.up k1.up k2.up).warns)
    (φ1 φ2 : ℝ) : (rot k1 φ1).mulVec ((rot k2 φ2).mulVec p) ≠ q := by
  intro e
  have hpq : p.dot p = q.dot q := by rw [← e, (rot_isRot k1 u1 φ1).dot_mulVec, (rot_isRot k2 u2 φ2).dot_mulVec]
  rcases hd with hd | ⟨hd, h0⟩
  · rcases le_abs.1 hd with hd | hd
    · exact sub2W_quiet u1 u2 hax hpq (npEps_pos.le.trans hd) (.inl hd) h
    · exact (C24_subproblem2_none p q k1 k2 u1 u2 hax (by linarith)).2 φ1 φ2 e
  · exact sub2W_quiet u1 u2 hax hpq h0 (.inr hd) h

/-- C105 is false for `subproblem2`: in the tangent case it warns that the lengths differ, although the lengths are equal and there is
a solution, because the arguments of `subproblem1` are in the wrong order (lines 765 and 766). -/
theorem C105_subproblem2_spurious_false : ∃ p q k1 k2 : V3 ℝ, ∃ φ1 φ2 : ℝ, IsUnit3 k1 ∧ IsUnit3 k2 ∧ p.norm = q.norm ∧
    (rot k1 φ1).mulVec ((rot k2 φ2).mulVec p) = q ∧ .norms ∈ (subproblem2W p.up q.up k1.up k2.up).warns := by
  have u1 : IsUnit3 (V3.ex : V3 ℝ) := by simp [IsUnit3]
  have u2 : IsUnit3 (V3.ey : V3 ℝ) := ey_unit
  refine ⟨⟨0, 4, 3⟩, ⟨3, 0, 4⟩, V3.ex, V3.ey, Real.pi / 2, Real.pi / 2, u1, u2, norm_eq_of_dot (by simp [V3.dot]; norm_num),
    by ext <;> simp [rot], ?_⟩
  have hk : (V3.ex : V3 ℝ).dot V3.ey = 0 := by simp [V3.dot]
  have hd : Spec.disc (⟨0, 4, 3⟩ : V3 ℝ) ⟨3, 0, 4⟩ V3.ex V3.ey = 0 := by simp [Spec.disc, V3.dot]; norm_num
  have he := npEps_pos
  have hc : (V3.ex : V3 ℝ).cross V3.ey = V3.ez := by ext <;> simp
  rw [sub2W_eval u1 u2 _ _ (by rw [hk]; rw [npEps_real]; norm_num), hd, hc]
  simp only [abs_zero, if_pos he, lt_irrefl, if_false, Real.sqrt_zero, zero_div]
  rw [Warned.mem_bind]
  left
  have ec : Sp2.c (⟨0, 4, 3⟩ : V3 ℝ) ⟨3, 0, 4⟩ V3.ex V3.ey 0 = (5 : ℝ) • (⟨3 / 5, 4 / 5, 0⟩ : V3 ℝ) := by
    ext <;> simp [Sp2.c, Sp2.a0, Sp2.a1, V3.dot, M3.ofCols] <;> norm_num
  have uc : IsUnit3 (⟨3 / 5, 4 / 5, 0⟩ : V3 ℝ) := by simp [IsUnit3]; norm_num
  have hn : (⟨0, 4, 3⟩ : V3 ℝ).norm = 5 := by
    rw [V3.norm_eq, show (⟨0, 4, 3⟩ : V3 ℝ).dot ⟨0, 4, 3⟩ = 5 ^ 2 by simp [V3.dot]; norm_num]
    exact Real.sqrt_sq (by norm_num)
  have hfar : snap ≤ ((V3.ey : V3 ℝ) - ⟨0, 4, 3⟩).norm := by
    rw [snap_eq, V3.norm_eq]
    apply Real.le_sqrt_of_sq_le
    simp [V3.dot]; norm_num
  obtain ⟨θ, e, -⟩ := C23_subproblem1_least_squares V3.ey ⟨0, 4, 3⟩ ⟨3 / 5, 4 / 5, 0⟩ uc
    (by intro h; have := congrArg V3.z h; simp at this) (by intro h; have := congrArg V3.x h; simp at this) hfar
  refine sub1W_real.2 ⟨rfl, hfar, ?_, .fin θ, ?_⟩
  · rw [hn, V3.norm_eq_one u2]; norm_num
  · rw [ec, C23_subproblem1_axis_scale _ _ _ uc 5 (by norm_num)]; exact e

/-- C105: `subproblem3` warns exactly if no rotation gives the distance (unit axes, distances that are not negative); it has no other
message. -/
theorem C105_subproblem3 (p q k : V3 ℝ) (d : ℝ) (hk : IsUnit3 k) (hd : 0 ≤ d) (w : Warning) :
    w ∈ (subproblem3W p.up q.up k.up (.fin d)).warns ↔ w = .distance ∧ ∀ φ : ℝ, (q + (rot k φ).mulVec p).norm ≠ d := by
  rw [← sub3_empty_iff hk hd, ← sub3W_distance]
  constructor
  · intro h
    obtain rfl := sub3W_only h
    exact ⟨rfl, h⟩
  · rintro ⟨rfl, h⟩; exact h

/-- C105: `subproblem3` warns about the distance exactly if it returns the empty list (all number types). -/
theorem C105_subproblem3_none {α : Type} [Add α] [Sub α] [Mul α] [Div α] [Neg α] [Zero α] [One α] [LT α] [LE α]
    [DecidableLT α] [DecidableLE α] [Elem α] (p q k : V3 α) (d : α) :
    .distance ∈ (subproblem3W p q k d).warns ↔ (subproblem3W p q k d).out = .ok [] := by
  rw [subproblem3W_out]; exact sub3W_distance

/-- C105 is false for `subproblem4`: it returns the empty list without a warning. -/
theorem C105_subproblem4_silent_false (p q k : V3 ℝ) (d : ℝ) (hr : Spec.sp4amp p q k < d - Spec.sp4mid p q k) :
    (subproblem4W p.up q.up k.up (.fin d)).warns = [] ∧ (subproblem4W p.up q.up k.up (.fin d)).out = .ok [] ∧
    ∀ θ : ℝ, p.dot ((rot k θ).mulVec q) ≠ d := by
  obtain ⟨h1, h2⟩ := C26_subproblem4_above p q k d hr
  exact ⟨rfl, by simp only [subproblem4W, Warned.quiet_out, h1], h2⟩

/-! ### Solvers -/

/-- C105: the functions with warnings return and raise what the functions of the rest of the model return and raise (all number types). -/
theorem C105_same_outcome {α : Type} [Add α] [Sub α] [Mul α] [Div α] [Neg α] [Zero α] [One α] [LT α] [LE α]
    [DecidableLT α] [DecidableLE α] [Elem α] (robot : Robot α) (pose : Transform α) (last : Option (List α)) :
    (robot6W robot pose last).out = (robot6_sphericalwrist_invkin robot pose last).2 ∧
    (urW robot pose last).out = ur_invkin robot pose last :=
  ⟨robot6W_out robot pose last, urW_out robot pose last⟩

/-- Some turn of the first joint brings the wrist centre `W` into the plane of the arm, but there the elbow cannot reach it. -/
def Spec.elbowShort (h0 h2 P0 P1 P2 P3 W : V3 ℝ) : Prop :=
  ∃ q1 : ℝ, V3.ey.dot ((rot h0 q1).transpose.mulVec W) = V3.ey.dot (P1 + P2 + P3) ∧
    ∀ q3 : ℝ, (P2 + (rot h2 q3).mulVec P3).norm ≠ ((rot h0 q1).transpose.mulVec W - (P0 + P1)).norm

section
variable {r : Robot ℝ} {h0 h1 h2 h3 h4 h5 k P0 P1 P2 P3 P4 P5 P6 : V3 ℝ}

/-- the warnings of the call are those of the search on the corrected offsets -/
theorem robot6W_warns (hr : Spec.WristArm r h0 h1 h2 h3 h4 h5 P0 P1 P2 P3 P4 P5 P6) {T : Transform ℝ} {last : Option (List ℝ)} {w : Warning} :
    w ∈ (robot6W r.up T.up (last.map (·.map .fin))).warns ↔ P4 = (P4.dot h3) • h3 ∧ P5 = (P5.dot h5) • h5 ∧
    w ∈ (r6SearchW [h0.up, h1.up, h2.up, h3.up, h4.up, h5.up] [P0.up, P1.up, P2.up, (P3 + P4).up, 0, 0, (P6 + P5).up] (upNormalizer r last)
      (unapplyAux r T).R.up (unapplyAux r T).p.up).warns := by
  have eH : r.up.H = [h0.up, h1.up, h2.up, h3.up, h4.up, h5.up] := by
    show r.H.map V3.up = _; rw [hr.axes]; rfl
  have eP : r.up.P = [P0.up, P1.up, P2.up, P3.up, P4.up, P5.up, P6.up] := by
    show r.P.map V3.up = _; rw [hr.links]; rfl
  unfold robot6W
  simp only [unapplyAux_up]
  rw [Warned.mem_quiet_bind, eH, eP]
  constructor
  · rintro ⟨u, hu, h⟩
    rcases hfx : fixWrist [h0.up, h1.up, h2.up, h3.up, h4.up, h5.up] [P0.up, P1.up, P2.up, P3.up, P4.up, P5.up, P6.up] with ⟨P', o⟩
    rw [hfx] at h hu
    cases hu
    obtain ⟨rfl, hP4, hP5⟩ := fixWrist_ok hfx
    refine ⟨hP4, hP5, ?_⟩
    rw [Warned.mem_bind] at h
    rcases h with h | ⟨a, -, h⟩
    · exact h
    · exact absurd h Warned.not_mem_quiet
  · rintro ⟨hP4, hP5, h⟩
    refine ⟨(), by rw [fixWrist_of hP4 hP5], ?_⟩
    rw [Warned.mem_bind, fixWrist_of hP4 hP5]
    exact .inl h

/-- C105 (`_partial`: for arms whose forearm, at zero elbow angle, either continues the upper arm exactly or clearly does not).  For every
such arm with any rigid base, flange, tool and limits, with or without last joint values, and every pose: the only warning is the one
about the distance, and it means that for some turn of the first joint the wrist centre is out of reach of the elbow. -/
theorem C105_robot6_warned_partial (hr : Spec.WristArm r h0 h1 h2 h3 h4 h5 P0 P1 P2 P3 P4 P5 P6)
    (hb : Spec.dir (P3 + P4) h2 = Spec.dir P2 h2 ∨ snap ≤ (Spec.dir (P3 + P4) h2 - Spec.dir P2 h2).norm) {T : Transform ℝ} (hT : IsRot T.R)
    {last : Option (List ℝ)} {w : Warning} (h : w ∈ (robot6W r.up T.up (last.map (·.map .fin))).warns) :
    w = .distance ∧ Spec.elbowShort h0 h2 P0 P1 P2 (P3 + P4) (Spec.centreGoal r T (P6 + P5)) := by
  obtain ⟨-, -, h⟩ := (robot6W_warns hr).1 h
  obtain ⟨hB, hF, hX⟩ := hr.aux
  rw [centreGoal_eq]
  exact r6SearchW_mem hr.unit0 (pm_unit hr.par1) (pm_unit hr.par2) hr.unit3 hr.unit4 hr.unit5 hr.perp34 hr.perp45 (unapply_rot hB hF hX hT) hb h

/-- C105 (`_partial`: without limits and last joint values, away from the first axis, if the call returns).  The warning is issued
whenever for some turn of the first joint the wrist centre is out of reach of the elbow, whatever the list that is returned. -/
theorem C105_robot6_warns_partial (hr : Spec.WristArm r h0 h1 h2 h3 h4 h5 P0 P1 P2 P3 P4 P5 P6) (h0y : V3.ey.dot h0 = 0)
    (hlim : ¬ ∃ lo up, r.lower = some lo ∧ r.upper = some up) {T : Transform ℝ} (hs : h0.cross (Spec.centreGoal r T (P6 + P5)) ≠ 0)
    {sols : List (List XReal)} (ho : (robot6W r.up T.up).out = .ok sols)
    (he : Spec.elbowShort h0 h2 P0 P1 P2 (P3 + P4) (Spec.centreGoal r T (P6 + P5))) : .distance ∈ (robot6W r.up T.up).warns := by
  rw [robot6W_out] at ho
  obtain ⟨hP4, hP5, ho⟩ := robot6_search hr ho
  obtain ⟨q1, e1, e3⟩ := he
  rw [centreGoal_eq] at hs e1 e3
  refine (robot6W_warns (last := none) hr).2 ⟨hP4, hP5, ?_⟩
  rw [← r6SearchW_out] at ho
  exact r6SearchW_distance hr.unit0 h0y (pm_unit hr.par2) hlim hs ho e1 e3

/-- C105: a pose out of the lateral reach of the shoulder gives the empty list, without any warning. -/
theorem C105_robot6_silent_false (hr : Spec.WristArm r h0 h1 h2 h3 h4 h5 P0 P1 P2 P3 P4 P5 P6) (h0y : V3.ey.dot h0 = 0)
    (hP4 : P4 = (P4.dot h3) • h3) (hP5 : P5 = (P5.dot h5) • h5) {T : Transform ℝ}
    (hd : (h0.cross (Spec.centreGoal r T (P6 + P5))).norm < V3.ey.dot (P1 + P2 + (P3 + P4))) :
    (robot6W r.up T.up).warns = [] ∧ (robot6W r.up T.up).out = .ok [] := by
  rw [centreGoal_eq] at hd
  have un : IsUnit3 (-h0) := by
    have := hr.unit0; simp only [IsUnit3] at this ⊢; simpa using this
  have hn : V3.ey.dot (-h0) = 0 := by rw [V3.dot_neg, h0y, neg_zero]
  have h4' := (C26_subproblem4_above V3.ey ((unapplyAux r T).p - (unapplyAux r T).R.mulVec (P6 + P5)) (-h0) (V3.ey.dot (P1 + P2 + (P3 + P4)))
    (by rw [sp4amp_eq ey_unit un hn, sp4mid_eq un hn, sub_zero, show ∀ W : V3 ℝ, (-h0).cross W = -(h0.cross W) by intro W; ext <;> simp <;> ring,
          V3.norm_neg]; exact hd)).1
  have hw : r6SearchW [h0.up, h1.up, h2.up, h3.up, h4.up, h5.up] [P0.up, P1.up, P2.up, (P3 + P4).up, 0, 0, (P6 + P5).up] (upNormalizer r none)
      (unapplyAux r T).R.up (unapplyAux r T).p.up = ⟨[], .ok []⟩ := by
    simp only [r6SearchW, V3.up_ey, V3.up_add, V3.up_dot, M3.up_mulVec, V3.up_sub, V3.up_neg, subproblem4W]
    rw [h4']
    rfl
  constructor
  · rw [List.eq_nil_iff_forall_not_mem]
    intro w h
    have := ((robot6W_warns (last := none) hr).1 h).2.2
    rw [hw] at this
    cases this
  · rw [robot6W_out]
    refine (robot6_eval hr hP4 hP5 T none).trans ?_
    have := congrArg Warned.out hw
    rw [r6SearchW_out] at this
    rw [this]
    rfl

/-- C105: for a pose that no joint vector reaches, without limits and last joint values, the call returns the empty list, and it warns
exactly if the wrist centre is within the lateral reach of the shoulder. -/
theorem C105_robot6_unreachable_partial (hr : Spec.WristArm r h0 h1 h2 h3 h4 h5 P0 P1 P2 P3 P4 P5 P6) (h0y : V3.ey.dot h0 = 0)
    (hP4 : P4 = (P4.dot h3) • h3) (hP5 : P5 = (P5.dot h5) • h5) (hlim : ¬ ∃ lo up, r.lower = some lo ∧ r.upper = some up)
    {T : Transform ℝ} (hT : IsRot T.R) (hs : h0.cross (Spec.centreGoal r T (P6 + P5)) ≠ 0)
    (hd : -(h0.cross (Spec.centreGoal r T (P6 + P5))).norm ≤ V3.ey.dot (P1 + P2 + (P3 + P4))) (hun : Spec.unreachable r T) :
    (robot6W r.up T.up).out = .ok [] ∧
    (.distance ∈ (robot6W r.up T.up).warns ↔ V3.ey.dot (P1 + P2 + (P3 + P4)) ≤ (h0.cross (Spec.centreGoal r T (P6 + P5))).norm) := by
  have hpos := V3.norm_pos hs
  have hW : Spec.wristCentre r P5 P6 T = Spec.centreGoal r T (P6 + P5) := by rw [centreGoal_eq]; rfl
  have ho : (robot6W r.up T.up).out = .ok [] := by
    rw [robot6W_out]
    exact C32_robot6_unreachable_partial hr h0y hP4 hP5 (fun lo up a b => absurd ⟨lo, up, a, b⟩ hlim) hT (.inr ⟨by rw [hW]; exact hd, .inl (by rw [hW]; exact hpos)⟩) hun
  refine ⟨ho, ?_, ?_⟩
  · intro h
    by_contra hc
    rw [(C105_robot6_silent_false hr h0y hP4 hP5 (not_le.1 hc)).1] at h
    cases h
  · intro hle
    refine C105_robot6_warns_partial hr h0y hlim hs ho ?_
    set W := Spec.centreGoal r T (P6 + P5) with hWd
    have un : IsUnit3 (-h0) := by
      have := hr.unit0; simp only [IsUnit3] at this ⊢; simpa using this
    have hn : V3.ey.dot (-h0) = 0 := by rw [V3.dot_neg, h0y, neg_zero]
    have hamp : Spec.sp4amp V3.ey W (-h0) = (h0.cross W).norm := by
      rw [sp4amp_eq ey_unit un hn, show (-h0).cross W = -(h0.cross W) by ext <;> simp <;> ring, V3.norm_neg]
    obtain ⟨q1, -, -, e1, -⟩ := C26_subproblem4_partial V3.ey W (-h0) (V3.ey.dot (P1 + P2 + (P3 + P4))) (by rw [hamp]; exact hpos)
      (by rw [hamp, sp4mid_eq un hn, sub_zero, abs_le]; exact ⟨hd, hle⟩)
    rw [rot_neg_axis, rot_neg] at e1
    refine ⟨q1, e1, fun φ hφ => ?_⟩
    obtain ⟨c, hP0⟩ := hr.first
    have hR := rot_isRot h0 hr.unit0 q1
    have hey0 : V3.ey.dot P0 = 0 := by rw [hP0, V3.dot_hsmul, h0y, mul_zero]
    have hfix : (rot h0 q1).mulVec P0 = P0 := by rw [hP0, rot_hsmul_axis]
    obtain ⟨q2, hq2⟩ := exists_rot (pm_unit hr.par1) (p := P2 + (rot h2 φ).mulVec (P3 + P4)) (q := (rot h0 q1).transpose.mulVec W - (P0 + P1))
      (by rw [← V3.norm_mul_self, hφ, V3.norm_mul_self])
      (pm_dot hr.par1 (by rw [V3.dot_add, ey_rot_pm hr.par2, V3.dot_sub, e1]; simp only [V3.dot_add, hey0]; ring))
    apply wristCentre_unreachable hr hP4 hP5 hT hun q1 q2 φ
    rw [hW, Spec.wristAt, hq2, M3.mulVec_add, M3.mulVec_sub, M3.mulVec_add _ P0, hfix, hR.mulVec_transpose_mulVec]
    generalize (rot h0 q1).mulVec P1 = a
    ext <;> simp <;> ring

/-- the warnings of the UR solver are those of the search -/
theorem urW_warns (hr : Spec.UrChain r k P0 P1 P2 P3 P4 P5 P6) {T : Transform ℝ} {last : Option (List ℝ)} {w : Warning}
    (h : w ∈ (urW r.up T.up (last.map (·.map .fin))).warns) :
    w ∈ (urSearchW [V3.ez.up, k.up, k.up, k.up, (-V3.ez : V3 ℝ).up, k.up] [P0.up, P1.up, P2.up, P3.up, P4.up, P5.up, P6.up]
      (upNormalizer r last) (unapplyAux r T).R.up (unapplyAux r T).p.up).warns := by
  unfold urW at h
  simp only [unapplyAux_up] at h
  obtain ⟨_, -, h⟩ := Warned.mem_quiet_bind.1 h
  rw [hr.up_H, hr.up_P, Warned.mem_bind] at h
  rcases h with h | ⟨a, -, h⟩
  · exact h
  · exact absurd h Warned.not_mem_quiet

/-- C105 (`_partial`: as for `C105_robot6_warned_partial`).  For every UR arm with any rigid base, flange, tool and limits, with or without
last joint values, and every pose: the only warning is the one about the distance, and it means that for some turn of the first joint
and some turn of the three parallel joints together, the elbow cannot make up the distance that is left.  Away from the wrist
singularity these turns point the last axis as asked. -/
theorem C105_ur_warned_partial (hr : Spec.UrChain r k P0 P1 P2 P3 P4 P5 P6)
    (hb : Spec.dir P3 k = Spec.dir P2 k ∨ snap ≤ (Spec.dir P3 k - Spec.dir P2 k).norm) {T : Transform ℝ} (hT : IsRot T.R)
    {last : Option (List ℝ)} {w : Warning} (h : w ∈ (urW r.up T.up (last.map (·.map .fin))).warns) :
    w = .distance ∧ ∃ q1 q24 q5 : ℝ,
      V3.ey.dot ((rot V3.ez q1).transpose.mulVec (Spec.centreGoal r T (P6 + P5))) = V3.ey.dot (P1 + P2 + P3 + P4) ∧
      (npEps ≤ 1 - (((rot V3.ez q1).transpose * Spec.lastLinkR r T).mulVec k).dot k ^ 2 →
        ((rot k q24 * rot (-V3.ez) q5).mulVec k - ((rot V3.ez q1).transpose * Spec.lastLinkR r T).mulVec k).norm ≤ 2 * snap) ∧
      ∀ q3 : ℝ, (P2 + (rot k q3).mulVec P3).norm ≠
        (Spec.centreGoal r T (P6 + P5) - P0 - (rot V3.ez q1).mulVec P1 - (rot V3.ez q1 * rot k q24).mulVec P4).norm := by
  obtain ⟨hB, hF, hX⟩ := hr.aux
  rw [centreGoal_eq, Spec.lastLinkR, ← unapplyAux_R]
  exact urSearchW_mem hr.par (unapply_rot hB hF hX hT) hb (urW_warns hr h)

/-- C105 (`_partial`: without limits and last joint values, away from the first axis, if the call returns; for goals further away than
the links are long).  The warning is issued whenever some turn of the first joint that brings the goal into the plane of the arm leaves
it out of reach. -/
theorem C105_ur_warns_partial (hr : Spec.UrChain r k P0 P1 P2 P3 P4 P5 P6) (hlim : ¬ ∃ lo up, r.lower = some lo ∧ r.upper = some up)
    {T : Transform ℝ} (hT : IsRot T.R) (hs : V3.ez.cross (Spec.centreGoal r T (P6 + P5)) ≠ 0) {sols : List (List XReal)}
    (ho : (urW r.up T.up).out = .ok sols) {q1 : ℝ}
    (e1 : V3.ey.dot ((rot V3.ez q1).transpose.mulVec (Spec.centreGoal r T (P6 + P5))) = V3.ey.dot (P1 + P2 + P3 + P4))
    (hw : npEps ≤ 1 - (((rot V3.ez q1).transpose * Spec.lastLinkR r T).mulVec k).dot k ^ 2)
    (hf : P2.norm + P3.norm + P4.norm < (Spec.centreGoal r T (P6 + P5) - P0 - (rot V3.ez q1).mulVec P1).norm) :
    .distance ∈ (urW r.up T.up).warns := by
  obtain ⟨hB, hF, hX⟩ := hr.aux
  rw [centreGoal_eq] at hs e1 hf
  rw [Spec.lastLinkR, ← unapplyAux_R] at hw
  have ho' := ho
  rw [urW_out] at ho'
  have h1 := ur_search hr ho'
  rw [← urSearchW_out] at h1
  have h2 := urSearchW_distance hr.par (unapply_rot hB hF hX hT) hlim hs h1 e1 hw hf
  unfold urW at ho ⊢
  simp only [unapplyAux_up] at ho ⊢
  rw [Warned.bind_out] at ho
  obtain ⟨u, hu, -⟩ := Except.bind_eq_ok ho
  refine Warned.mem_quiet_bind.2 ⟨u, hu, ?_⟩
  rw [hr.up_H, hr.up_P, Warned.mem_bind]
  exact .inl h2
end

/-! ### A warning for a pose that is reached -/

/-- The small arm with the shoulder one unit in front of the first axis. -/
noncomputable def Spec.frontArm : Robot ℝ := { Spec.smallArm none none with P := [V3.ez, V3.ex, V3.ez, V3.ex, 0, 0, V3.ex] }

theorem Spec.frontArm_wrist : Spec.WristArm Spec.frontArm V3.ez V3.ey V3.ey V3.ex V3.ey V3.ex V3.ez V3.ex V3.ez V3.ex 0 0 V3.ex :=
  { Spec.smallArm_wrist none none with links := rfl }

theorem Spec.frontArm_regular : Spec.RegularArm (V3.ez : V3 ℝ) V3.ey V3.ez (V3.ex + 0) where
  upright := by simp [V3.dot]
  upper := by intro h; have := congrArg V3.x h; simp at this
  fore := by intro h; have := congrArg V3.z h; simp at this
  bend := by
    right
    have e1 : Spec.dir (V3.ex + 0 : V3 ℝ) V3.ey = V3.ex := by
      simp [Spec.dir, V3.perp, V3.dot, V3.norm_eq]; ext <;> simp
    have e2 : Spec.dir (V3.ez : V3 ℝ) V3.ey = V3.ez := by
      simp [Spec.dir, V3.perp, V3.dot, V3.norm_eq]; ext <;> simp
    rw [e1, e2, V3.norm_eq]
    simp [V3.dot]
    rw [snap_eq]
    exact Real.le_sqrt_of_sq_le (by norm_num)

theorem Spec.frontArm_conf : Spec.RegularConf (V3.ez : V3 ℝ) V3.ey V3.ey V3.ex V3.ey V3.ex V3.ex V3.ez (V3.ex + 0) 0 (-(Real.pi / 2)) 0
    (Real.pi / 2) 0 where
  shoulder := by simp only [rot_zero, M3.one_mulVec]; intro h; have := congrArg V3.y h; simp [rot] at this
  wrist := by rw [npEps_real]; simp [rot, V3.dot]; norm_num
  clear2 := .inl ⟨0, by simp⟩
  clear4 := .inl ⟨0, by simp⟩
  clear5 := by
    right
    rw [snap_eq, V3.norm_eq]
    apply Real.le_sqrt_of_sq_le
    simp [rot, V3.dot]; norm_num
  clear6 := .inl ⟨0, by simp⟩

theorem Spec.frontArm_away {T : Transform ℝ} (hT : fwdkin Spec.frontArm [0, 0, -(Real.pi / 2), 0, Real.pi / 2, 0] true = .ok T) (a b c : ℝ)
    (h : (Spec.wristAt (V3.ez : V3 ℝ) V3.ey V3.ey V3.ez V3.ex V3.ez (V3.ex + 0) a b c -
      Spec.wristAt V3.ez V3.ey V3.ey V3.ez V3.ex V3.ez (V3.ex + 0) 0 0 (-(Real.pi / 2))).norm < snap) :
    npEps ≤ Spec.wristSq Spec.frontArm T V3.ez V3.ey V3.ey V3.ex V3.ex a b c := by
  have hr := Spec.frontArm_wrist
  have z : (0 : V3 ℝ) = ((0 : V3 ℝ).dot V3.ex) • V3.ex := by ext <;> simp [V3.dot]
  obtain ⟨eR, -⟩ := wristArm_pose hr z z hT
  have e5 : (Spec.lastLinkR Spec.frontArm T).mulVec V3.ex = V3.ex := by
    rw [Spec.lastLinkR, ← unapplyAux_R, eR, rot_zero, rot_zero]
    ext <;> simp [rot]
  rw [Spec.wristSq, e5]
  have hz := V3.abs_z_le (Spec.wristAt (V3.ez : V3 ℝ) V3.ey V3.ey V3.ez V3.ex V3.ez (V3.ex + 0) a b c -
    Spec.wristAt V3.ez V3.ey V3.ey V3.ez V3.ex V3.ez (V3.ex + 0) 0 0 (-(Real.pi / 2)))
  have ez : (Spec.wristAt (V3.ez : V3 ℝ) V3.ey V3.ey V3.ez V3.ex V3.ez (V3.ex + 0) a b c -
      Spec.wristAt V3.ez V3.ey V3.ey V3.ez V3.ex V3.ez (V3.ex + 0) 0 0 (-(Real.pi / 2))).z = Real.cos b - Real.sin (b + c) - 2 := by
    rw [Real.sin_add]
    simp [Spec.wristAt, rot]; ring
  have e3 : ((rot (V3.ez : V3 ℝ) a * rot V3.ey b * rot V3.ey c).mulVec V3.ex).dot V3.ex = Real.cos a * Real.cos (b + c) := by
    rw [Real.cos_add]
    simp [rot, V3.dot]; ring
  rw [e3]
  rw [ez] at hz
  have hz' := abs_lt.1 (hz.trans_lt h)
  have hs := snap_eq
  have h1 := Real.cos_le_one b
  have h2 := Real.cos_sq_le_one a
  have h3 := Real.sin_sq_add_cos_sq (b + c)
  have h4 : Real.sin (b + c) < -(1 / 2) := by rw [hs] at hz'; linarith [hz'.1]
  have h5 : Real.cos (b + c) ^ 2 < 3 / 4 := by nlinarith
  have h6 : (Real.cos a * Real.cos (b + c)) ^ 2 ≤ Real.cos (b + c) ^ 2 := by nlinarith [sq_nonneg (Real.cos (b + c))]
  rw [npEps_real]
  norm_num
  linarith

theorem Spec.frontArm_short : Spec.elbowShort (V3.ez : V3 ℝ) V3.ey V3.ez V3.ex V3.ez (V3.ex + 0)
    (Spec.wristAt V3.ez V3.ey V3.ey V3.ez V3.ex V3.ez (V3.ex + 0) 0 0 (-(Real.pi / 2))) := by
  have ew : Spec.wristAt (V3.ez : V3 ℝ) V3.ey V3.ey V3.ez V3.ex V3.ez (V3.ex + 0) 0 0 (-(Real.pi / 2)) = ⟨1, 0, 3⟩ := by
    ext <;> simp [Spec.wristAt, rot]; norm_num
  rw [ew]
  refine ⟨Real.pi, by simp [rot, V3.dot], fun q3 h => ?_⟩
  have h2 := congrArg (fun x => x * x) h
  simp only [V3.norm_mul_self] at h2
  simp [rot, V3.dot] at h2
  nlinarith [Real.sin_sq_add_cos_sq q3, Real.neg_one_le_sin q3]

/-- C105 is false for the spherical wrist solver: a pose that is reached, and for which joint vectors are returned, still gives the
message that there is no solution (for the second turn of the first joint). -/
theorem C105_robot6_spurious_false : ∃ (r : Robot ℝ) (θ : List ℝ) (T : Transform ℝ) (s : List XReal) (sols : List (List XReal)),
    fwdkin r θ true = .ok T ∧ (robot6W r.up T.up).out = .ok sols ∧ s ∈ sols ∧ .distance ∈ (robot6W r.up T.up).warns := by
  have hr := Spec.frontArm_wrist
  obtain ⟨T, hT⟩ : ∃ T, fwdkin Spec.frontArm [0, 0, -(Real.pi / 2), 0, Real.pi / 2, 0] true = .ok T :=
    ⟨_, fwdkin_chain6 hr.types hr.axes hr.links 0 0 (-(Real.pi / 2)) 0 (Real.pi / 2) 0⟩
  have z : (0 : V3 ℝ) = ((0 : V3 ℝ).dot V3.ex) • V3.ex := by ext <;> simp [V3.dot]
  obtain ⟨sols, hs⟩ := C30_robot6_returns hr Spec.frontArm_regular z z (by rintro _ _ ⟨⟩) Spec.frontArm_conf.shoulder hT (Spec.frontArm_away hT)
  have hw : ∀ j q, Spec.withinLimits Spec.frontArm j q := by rintro j q _ _ ⟨⟩
  obtain ⟨_, _, _, _, _, _, hm⟩ := C30_robot6_complete_partial hr Spec.frontArm_regular Spec.frontArm_conf (hw _ _) (hw _ _) (hw _ _) (hw _ _)
    (hw _ _) (hw _ _) hT hs
  obtain ⟨-, ep⟩ := wristArm_pose hr z z hT
  have ho : (robot6W Spec.frontArm.up T.up).out = .ok sols := by rw [robot6W_out]; exact hs
  refine ⟨_, _, T, _, sols, hT, ho, hm, ?_⟩
  refine C105_robot6_warns_partial hr (by simp [V3.dot]) (by rintro ⟨_, _, ⟨⟩, -⟩) ?_ ho ?_
  · rw [centreGoal_eq, ep]
    intro h; have := congrArg V3.y h; simp [Spec.wristAt, rot] at this
  · rw [centreGoal_eq, ep]; exact Spec.frontArm_short

/-! ### Concrete cases -/

-- `C105_subproblem1_warned`, `C105_subproblem1_lengths_partial`: points of lengths 1 and 2
example : .norms ∈ (subproblem1W (V3.ex : V3 ℝ).up (⟨2, 0, 0⟩ : V3 ℝ).up V3.ez.up).warns := by
  have e : ((V3.ex : V3 ℝ) - ⟨2, 0, 0⟩).norm = 1 := by
    rw [V3.norm_eq]; simp [V3.dot]; norm_num
  have e2 : (⟨2, 0, 0⟩ : V3 ℝ).norm = 2 := by
    rw [V3.norm_eq, show (⟨2, 0, 0⟩ : V3 ℝ).dot ⟨2, 0, 0⟩ = 2 ^ 2 by simp [V3.dot]; norm_num]
    exact Real.sqrt_sq (by norm_num)
  refine C105_subproblem1_lengths_partial _ _ _ ez_unit (by intro h; have := congrArg V3.y h; simp at this)
    (by intro h; have := congrArg V3.y h; simp at this) (by rw [e, snap_eq]; norm_num) ?_
  rw [e2, V3.norm_eq_one (by simp [IsUnit3])]; norm_num

-- `C105_subproblem2_warned_partial`: cones that do not meet
example : (.axes ∈ (subproblem2W (V3.ey : V3 ℝ).up V3.ex.up V3.ex.up V3.ey.up).warns ∨ .cones ∈ (subproblem2W (V3.ey : V3 ℝ).up V3.ex.up V3.ex.up V3.ey.up).warns ∨
      .distance ∈ (subproblem2W (V3.ey : V3 ℝ).up V3.ex.up V3.ex.up V3.ey.up).warns) ∧
    ∀ φ1 φ2 : ℝ, (rot V3.ex φ1).mulVec ((rot V3.ey φ2).mulVec V3.ey) ≠ (V3.ex : V3 ℝ) := by
  have u1 : IsUnit3 (V3.ex : V3 ℝ) := by simp [IsUnit3]
  have hk : (V3.ex : V3 ℝ).dot V3.ey = 0 := by simp [V3.dot]
  have hd : Spec.disc (V3.ey : V3 ℝ) V3.ex V3.ex V3.ey = -1 := by simp [Spec.disc, V3.dot]
  have hax : npEps ≤ 1 - (V3.ex : V3 ℝ).dot V3.ey ^ 2 := by rw [hk]; rw [npEps_real]; norm_num
  have h := (C105_subproblem2_none (V3.ey : V3 ℝ).up V3.ex.up V3.ex.up V3.ey.up).2
    (by rw [subproblem2W_out]; exact (C24_subproblem2_none _ _ _ _ u1 ey_unit hax (by rw [hd]; rw [npEps_real]; norm_num)).1)
  refine ⟨h, fun φ1 φ2 => ?_⟩
  have hd' : npEps ≤ |Spec.disc (V3.ey : V3 ℝ) V3.ex V3.ex V3.ey| ∨ ((V3.ey : V3 ℝ).norm = 1 ∧ 0 ≤ Spec.disc (V3.ey : V3 ℝ) V3.ex V3.ex V3.ey) := by
    left; rw [hd]; rw [npEps_real]; norm_num
  rcases h with h | h | h <;> exact C105_subproblem2_warned_partial _ _ _ _ u1 ey_unit hax hd' _ h φ1 φ2

-- `C105_subproblem3`: two unit vectors never add up to length 5
example : .distance ∈ (subproblem3W (V3.ex : V3 ℝ).up V3.ex.up V3.ez.up (.fin 5)).warns := by
  rw [C105_subproblem3 _ _ _ _ ez_unit (by norm_num)]
  refine ⟨rfl, fun φ h => ?_⟩
  have n1 : (V3.ex : V3 ℝ).norm = 1 := V3.norm_eq_one (by simp [IsUnit3])
  have := V3.norm_add_le (V3.ex : V3 ℝ) ((rot V3.ez φ).mulVec V3.ex)
  rw [(rot_isRot V3.ez ez_unit φ).norm_mulVec, n1, h] at this
  norm_num at this

-- `C105_subproblem4_silent_false`: no unit vector has a coordinate of 5
example : Spec.sp4amp (V3.ey : V3 ℝ) V3.ex V3.ez < 5 - Spec.sp4mid (V3.ey : V3 ℝ) V3.ex V3.ez := by
  have hn : (V3.ey : V3 ℝ).dot V3.ez = 0 := by simp [V3.dot]
  rw [sp4amp_eq ey_unit ez_unit hn, sp4mid_eq ez_unit hn, show (V3.ez : V3 ℝ).cross V3.ex = V3.ey by ext <;> simp, V3.norm_eq_one ey_unit]
  norm_num

-- `C105_robot6_silent_false`: a wrist centre on the first axis, for the arm with the upper arm one unit to the side
example : (robot6W (Spec.sideArm none none).up (Transform.up ⟨1, ⟨1, 0, 1⟩, none, none⟩)).warns = [] ∧
    (robot6W (Spec.sideArm none none).up (Transform.up ⟨1, ⟨1, 0, 1⟩, none, none⟩)).out = .ok [] := by
  have z : (0 : V3 ℝ) = ((0 : V3 ℝ).dot V3.ex) • V3.ex := by ext <;> simp [V3.dot]
  refine C105_robot6_silent_false (Spec.sideArm_wrist none none) (by simp [V3.dot]) z z ?_
  have : Spec.centreGoal (Spec.sideArm none none) ⟨1, ⟨1, 0, 1⟩, none, none⟩ (V3.ex + 0) = ⟨0, 0, 1⟩ := by
    rw [centreGoal_eq, unapplyAux_p, unapplyAux_R]
    simp only [auxB, auxF, auxX, Spec.sideArm, Spec.smallArm]
    ext <;> simp [identityTransform]
  rw [this]
  simp [V3.dot, V3.norm_eq]

-- `C105_robot6_unreachable_partial`: a pose ten units away
example : (robot6W (Spec.smallArm none none).up Spec.farPose.up).out = .ok [] ∧
    .distance ∈ (robot6W (Spec.smallArm none none).up Spec.farPose.up).warns := by
  have z : (0 : V3 ℝ) = ((0 : V3 ℝ).dot V3.ex) • V3.ex := by ext <;> simp [V3.dot]
  have hW : Spec.centreGoal (Spec.smallArm none none) Spec.farPose (V3.ex + 0) = ⟨9, 0, 0⟩ := by
    rw [centreGoal_eq]; exact Spec.smallArm_far none none
  have hnn := V3.norm_nonneg ((V3.ez : V3 ℝ).cross ⟨9, 0, 0⟩)
  have h0 : V3.ey.dot (0 + V3.ez + (V3.ex + 0) : V3 ℝ) = 0 := by simp [V3.dot]
  obtain ⟨h1, h2⟩ := C105_robot6_unreachable_partial (Spec.smallArm_wrist none none) (by simp [V3.dot]) z z (by rintro ⟨_, _, ⟨⟩, -⟩)
    (T := Spec.farPose) IsRot.one (by rw [hW]; intro h; have := congrArg V3.y h; simp at this) (by rw [hW, h0]; linarith)
    (Spec.smallArm_far_unreachable none none)
  exact ⟨h1, h2.2 (by rw [hW, h0]; exact hnn)⟩

-- `C105_ur_warned_partial`, `C105_ur_warns_partial`: a pose ten units away
example : .distance ∈ (urW (Spec.smallUr none none).up Spec.farPose.up).warns := by
  have hW : Spec.centreGoal (Spec.smallUr none none) Spec.farPose (0 + 0) = ⟨10, 0, 0⟩ := by
    rw [centreGoal_eq]; exact Spec.smallUr_far none none
  have e : (Spec.lastLinkR (Spec.smallUr none none) Spec.farPose) = 1 := by
    simp only [Spec.lastLinkR, auxB, auxF, auxX, Spec.smallUr, Spec.farPose]
    ext <;> simp [identityTransform]
  obtain ⟨a, hs⟩ : ∃ a, Real.sin a = -1 / 10 := ⟨_, Real.sin_arcsin (by norm_num) (by norm_num)⟩
  refine C105_ur_warns_partial (Spec.smallUr_arm none none) (by rintro ⟨_, _, ⟨⟩, -⟩) (T := Spec.farPose) IsRot.one
    (by rw [hW]; intro h; have := congrArg V3.y h; simp at this) (sols := [])
    (by rw [urW_out]; exact (Spec.smallUr_far_empty none none (by rintro _ _ ⟨⟩)).1) (q1 := a) ?_ ?_ ?_
  · rw [hW]; simp [rot, V3.dot, hs]
  · have := Real.sin_sq_add_cos_sq a
    rw [hs] at this
    rw [e, npEps_real]
    simp [rot, V3.dot]
    norm_num
    linarith
  · rw [hW, V3.norm_eq_one ez_unit, V3.norm_eq_one ey_unit]
    refine lt_of_lt_of_le ?_ (V3.abs_x_le _)
    simp
    norm_num
