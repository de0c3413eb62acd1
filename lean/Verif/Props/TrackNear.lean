import Verif.Lemmas.TrackNear
import Verif.Props.Track

/-! # C71: called with nearby last joint values, the inverse kinematics stays on its branch -/
set_option autoImplicit false

/-- the row of joint values of an arm with six joints -/
def Spec.row (θ : Fin 6 → ℝ) : List ℝ := [θ 0, θ 1, θ 2, θ 3, θ 4, θ 5]

/-- Half the distance from the joint vector to other solutions, in one of joints 1, 3 and 5 (without counting whole turns): the smallest of
the sines of the three angles that vanish at the shoulder, elbow and wrist singularities. -/
noncomputable def Spec.margin6 (h0 h1 h2 h3 h4 h5 P1 P2 P3 : V3 ℝ) (θ : Fin 6 → ℝ) : ℝ :=
  min (min (Spec.shoulderSin h0 (P1 + (rot h1 (θ 1)).mulVec (P2 + (rot h2 (θ 2)).mulVec P3)))
    (Spec.elbowSin h2 P2 ((rot h2 (θ 2)).mulVec P3))) (Spec.wristSin h3 ((rot h4 (θ 4)).mulVec h5) - snap / 2)

theorem near_coord {θ x : Fin 6 → ℝ} {d : ℝ} (h : Spec.dist (Spec.row θ) (Spec.row x) < d) (hd : d ≤ 1) (j : Fin 6) :
    |θ j - x j| < Real.pi / 2 := by
  have := Real.pi_gt_three
  have key : |θ j - x j| ≤ Spec.dist (Spec.row θ) (Spec.row x) :=
    abs_le_dist (j := j) (by fin_cases j <;> rfl) (by fin_cases j <;> rfl)
  linarith

section
variable {r : Robot ℝ} {h0 h1 h2 h3 h4 h5 P0 P1 P2 P3 P4 P5 P6 : V3 ℝ} {θ x : Fin 6 → ℝ}

/-- A joint vector the property applies to: regular, and strictly inside limits of the usual kind. -/
structure Spec.Track6 (r : Robot ℝ) (h0 h1 h2 h3 h4 h5 P1 P2 P3 : V3 ℝ) (θ : Fin 6 → ℝ) : Prop where
  conf : Spec.RegularConf h0 h1 h2 h3 h4 h5 P1 P2 P3 (θ 1) (θ 2) (θ 3) (θ 4) (θ 5)
  limits : ∀ j : Fin 6, Spec.withinLimits r j (θ j)

theorem margin6_le_one : Spec.margin6 h0 h1 h2 h3 h4 h5 P1 P2 P3 θ ≤ 1 := by
  have := wristSin_le h3 ((rot h4 (θ 4)).mulVec h5)
  refine (min_le_right _ _).trans ?_
  rw [snap]
  have : 0 ≤ Real.sqrt npEps := Real.sqrt_nonneg _
  linarith

/-- the rows of the search, seen from the joint vector asked for -/
theorem robot6_rows_near (hr : Spec.WristArm r h0 h1 h2 h3 h4 h5 P0 P1 P2 P3 P4 P5 P6) (ha : Spec.RegularArm h0 h2 P2 (P3 + P4))
    (hP4 : P4 = (P4.dot h3) • h3) (hP5 : P5 = (P5.dot h5) • h5) (hc : Spec.Track6 r h0 h1 h2 h3 h4 h5 P1 P2 (P3 + P4) θ)
    (hd : Spec.dist (Spec.row θ) (Spec.row x) < Spec.margin6 h0 h1 h2 h3 h4 h5 P1 P2 (P3 + P4) θ) {T : Transform ℝ}
    (hT : fwdkin r (Spec.row θ) true = .ok T) {rows : List (List XReal)}
    (h : r6Search [h0.up, h1.up, h2.up, h3.up, h4.up, h5.up] [P0.up, P1.up, P2.up, (P3 + P4).up, 0, 0, (P6 + P5).up]
      (upNormalizer r (some (Spec.row x))) (unapplyAux r T).R.up (unapplyAux r T).p.up = .ok rows) :
    (Spec.row θ).map .fin ∈ rows ∧ ∀ s ∈ rows, ∃ a : List ℝ, s = a.map .fin ∧ a.length = (Spec.row x).length ∧
      (a = Spec.row θ ∨ ∃ (j : Nat) (u v : ℝ), a[j]? = some u ∧ (Spec.row θ)[j]? = some v ∧
        2 * Spec.dist (Spec.row θ) (Spec.row x) < |u - v|) := by
  have near := near_coord hd margin6_le_one
  have hl := hc.limits
  obtain ⟨eR, ep⟩ := wristArm_pose hr hP4 hP5 hT
  obtain ⟨c, hP0⟩ := hr.first
  have hc' := hc.conf
  have k : ∀ j : Fin 6, Keeps (upNormalizer r (some (Spec.row x))) j (θ j) (· = 0) :=
    fun j => keeps_near (x := x j) (by fin_cases j <;> rfl) (near j) (hl j)
  constructor
  · obtain ⟨n1, n3, sl, ⟨rfl, rfl⟩, he, hsub⟩ := r6Search_reach hr.unit0 hr.par1 hr.par2 hP0 ha.upright ep hc'.shoulder ha.fore ha.upper ha.bend
      (k 0) (k 2) h
    rw [eR] at he
    obtain ⟨n2, n4, n5, n6, ⟨rfl, rfl, rfl, rfl⟩, hm⟩ := r6Elbow_complete (pm_unit hr.par1) (pm_unit hr.par2) hr.unit3 hr.unit4 hr.unit5 hr.perp34
      hr.perp45 (rot_isRot h0 hr.unit0 (θ 0)) hc'.clear2 hc'.clear4 hc'.clear5 hc'.clear6 hc'.wrist (k 1) (k 3) (k 4) (k 5) he
    simpa [Spec.row] using hsub _ hm
  · intro s hs
    obtain ⟨a1, a2, a3, a4, a5, a6, rfl, g⟩ := r6Search_gap hr.unit0 hr.par1 hr.par2 hr.unit3 hr.unit4 hr.unit5 hr.perp34 hr.perp45 hP0
      ha.upright eR ep hc'.shoulder ha.fore ha.upper ha.bend hc'.clear2 hc'.clear4 hc'.clear5 hc'.clear6 hc'.wrist h hs
    refine ⟨[a1, a2, a3, a4, a5, a6], rfl, rfl, ?_⟩
    rw [Spec.margin6, lt_min_iff, lt_min_iff] at hd
    obtain ⟨⟨d1, d2⟩, d3⟩ := hd
    rcases g with g | g | g | g
    · exact .inr ⟨0, a1, θ 0, rfl, rfl, by linarith⟩
    · exact .inr ⟨2, a3, θ 2, rfl, rfl, by linarith⟩
    · exact .inr ⟨4, a5, θ 4, rfl, rfl, by linarith⟩
    · rcases g.eq_or with g | ⟨j, u, v, e1, e2, g⟩
      · exact .inl g
      · refine .inr ⟨j, u, v, e1, e2, ?_⟩
        have := Real.pi_gt_three
        have hw := wristSin_le h3 ((rot h4 (θ 4)).mulVec h5)
        have : 0 ≤ snap := Real.sqrt_nonneg _
        linarith

/-- C71 (`_partial`: the property has no regularity conditions beyond the distance from singularities, and allows all limits).  For every
arm of this geometry with any rigid base, flange and tool, every regular joint vector strictly inside limits of the usual kind and all
last joint values closer to it than `Spec.margin6`: if the call for its pose returns, the first solution is this joint vector. -/
theorem C71_robot6_near_partial (hr : Spec.WristArm r h0 h1 h2 h3 h4 h5 P0 P1 P2 P3 P4 P5 P6) (ha : Spec.RegularArm h0 h2 P2 (P3 + P4))
    (hc : Spec.Track6 r h0 h1 h2 h3 h4 h5 P1 P2 (P3 + P4) θ)
    (hd : Spec.dist (Spec.row θ) (Spec.row x) < Spec.margin6 h0 h1 h2 h3 h4 h5 P1 P2 (P3 + P4) θ) {T : Transform ℝ}
    (hT : fwdkin r (Spec.row θ) true = .ok T) {sols : List (List XReal)}
    (h : (robot6_sphericalwrist_invkin r.up T.up (some ((Spec.row x).map .fin))).2 = .ok sols) :
    sols.head? = some ((Spec.row θ).map .fin) := by
  obtain ⟨hP4, hP5, rows, h, hso⟩ := robot6_search_last (last := some (Spec.row x)) hr h
  obtain ⟨hm, hf⟩ := robot6_rows_near hr ha hP4 hP5 hc hd hT h
  exact sortByLast_nearest (l := Spec.row x) rfl hso hf hm

/-- C71: the call does return, under the conditions of `C30_robot6_returns`. -/
theorem C71_robot6_returns (hr : Spec.WristArm r h0 h1 h2 h3 h4 h5 P0 P1 P2 P3 P4 P5 P6) (ha : Spec.RegularArm h0 h2 P2 (P3 + P4))
    (hP4 : P4 = (P4.dot h3) • h3) (hP5 : P5 = (P5.dot h5) • h5) (hl : Spec.limitsSized r 6)
    (hc : Spec.Track6 r h0 h1 h2 h3 h4 h5 P1 P2 (P3 + P4) θ)
    (hd : Spec.dist (Spec.row θ) (Spec.row x) < Spec.margin6 h0 h1 h2 h3 h4 h5 P1 P2 (P3 + P4) θ) {T : Transform ℝ}
    (hT : fwdkin r (Spec.row θ) true = .ok T)
    (hns : ∀ a b c : ℝ, (Spec.wristAt h0 h1 h2 P0 P1 P2 (P3 + P4) a b c -
      Spec.wristAt h0 h1 h2 P0 P1 P2 (P3 + P4) (θ 0) (θ 1) (θ 2)).norm < snap → npEps ≤ Spec.wristSq r T h0 h1 h2 h3 h5 a b c) :
    ∃ sols, (robot6_sphericalwrist_invkin r.up T.up (some ((Spec.row x).map .fin))).2 = .ok ((Spec.row θ).map .fin :: sols) := by
  obtain ⟨rows, hrows⟩ := robot6_rows hr ha hP4 hP5 hl (last := some (Spec.row x)) (by rintro _ ⟨⟩; simp [Spec.row]) hc.conf.shoulder hT hns
  obtain ⟨hm, hf⟩ := robot6_rows_near hr ha hP4 hP5 hc hd hT hrows
  obtain ⟨sols, hs⟩ := sortByLast_total (l := Spec.row x) (List.ne_nil_of_mem hm) (by
    intro s hs
    obtain ⟨a, rfl, e, -⟩ := hf s hs
    simpa using e)
  have hcall : (robot6_sphericalwrist_invkin r.up T.up (some ((Spec.row x).map .fin))).2 = .ok sols :=
    (robot6_eval hr hP4 hP5 T (some (Spec.row x))).trans (by rw [hrows]; exact hs)
  have := C71_robot6_near_partial hr ha hc hd hT hcall
  rcases sols with _ | ⟨s, sols⟩
  · cases this
  · cases this; exact ⟨sols, hcall⟩
end

section
variable {r : Robot ℝ} {k P0 P1 P2 P3 P4 P5 P6 : V3 ℝ} {θ x : Fin 6 → ℝ}

/-- the same for UR arms, whose wrist singularity is at multiples of half a turn of joint 5 -/
noncomputable def Spec.marginUr (k P1 P2 P3 P4 : V3 ℝ) (θ : Fin 6 → ℝ) : ℝ :=
  min (min (Spec.shoulderSin V3.ez (P1 + (rot k (θ 1)).mulVec (P2 + (rot k (θ 2)).mulVec (P3 + (rot k (θ 3)).mulVec P4))))
    (Spec.elbowSin k P2 ((rot k (θ 2)).mulVec P3))) (|Real.sin (θ 4)| - snap / 2)

/-- A joint vector the property applies to, for UR arms. -/
structure Spec.TrackUr (r : Robot ℝ) (k P1 P2 P3 P4 : V3 ℝ) (θ : Fin 6 → ℝ) : Prop where
  conf : Spec.RegularUr k P1 P2 P3 P4 (θ 1) (θ 2) (θ 3) (θ 4) (θ 5)
  limit1 : Spec.withinLimits r 0 (θ 0)
  limits : Spec.urTrackLimits r (θ 1) (θ 2) (θ 3)
  half : |θ 4| ≤ Real.pi
  limit6 : Spec.withinLimits r 5 (θ 5)

theorem marginUr_le_one : Spec.marginUr k P1 P2 P3 P4 θ ≤ 1 := by
  refine (min_le_right _ _).trans ?_
  have : 0 ≤ snap := Real.sqrt_nonneg _
  have := Real.abs_sin_le_one (θ 4)
  linarith

theorem ur_rows_near (hr : Spec.UrChain r k P0 P1 P2 P3 P4 P5 P6) (hc : Spec.TrackUr r k P1 P2 P3 P4 θ)
    (hd : Spec.dist (Spec.row θ) (Spec.row x) < Spec.marginUr k P1 P2 P3 P4 θ) {T : Transform ℝ}
    (hT : fwdkin r (Spec.row θ) true = .ok T) {rows : List (List XReal)}
    (h : urSearch [V3.ez.up, k.up, k.up, k.up, (-V3.ez : V3 ℝ).up, k.up] [P0.up, P1.up, P2.up, P3.up, P4.up, P5.up, P6.up]
      (upNormalizer r (some (Spec.row x))) (unapplyAux r T).R.up (unapplyAux r T).p.up = .ok rows) :
    (Spec.row θ).map .fin ∈ rows ∧ ∀ s ∈ rows, ∃ a : List ℝ, s = a.map .fin ∧ a.length = (Spec.row x).length ∧
      (a = Spec.row θ ∨ ∃ (j : Nat) (u v : ℝ), a[j]? = some u ∧ (Spec.row θ)[j]? = some v ∧
        2 * Spec.dist (Spec.row θ) (Spec.row x) < |u - v|) := by
  have near := near_coord hd marginUr_le_one
  have hpi := Real.pi_pos
  obtain ⟨eR, ep⟩ := urArm_pose hr hT
  obtain ⟨c, hP0⟩ := hr.first
  have hc' := hc.conf
  have hw : npEps ≤ 1 - k.dot ((rot (-V3.ez) (θ 4)).mulVec k) ^ 2 := by
    rw [cos_q5 hr.par]; have := hc'.wrist; rw [Real.sin_sq] at this; exact this
  have hws : Spec.wristSin k ((rot (-V3.ez) (θ 4)).mulVec k) = |Real.sin (θ 4)| := by
    rw [Spec.wristSin, cos_q5 hr.par, ← Real.sin_sq, Real.sqrt_sq_eq_abs]
  constructor
  · obtain ⟨k2, k3, k4⟩ := keepsTo_ur_near (xs := Spec.row x) rfl rfl rfl (near 1) (near 2) (near 3) hc.limits
    obtain ⟨n1, n2, n3, n4, n5, n6, ⟨rfl, rfl, rfl, rfl, rfl⟩, hm, hb⟩ := urSearch_complete hr.par hP0 eR ep hc'.shoulder hc'.fore hc'.upper
      hc'.bend hw hc'.clear2 hc'.clear24 hc'.clear5 hc'.clear6 (keeps_near (x := x 0) rfl (near 0) hc.limit1) k2 k3 k4
      (keeps_near (x := x 5) rfl (near 5) hc.limit6) h
    have hs5 : Real.sin (θ 4) ≠ 0 := by
      intro h0
      have := hc'.wrist
      rw [h0] at this
      have := npEps_pos
      norm_num at *
      linarith
    have n5z : n5 = 0 := by
      have hne : |θ 4| ≠ Real.pi := by
        intro e
        rcases abs_eq hpi.le |>.1 e with e | e <;> exact hs5 (by rw [e]; simp)
      rw [abs_le] at hb
      have h5' : |θ 4| < Real.pi := lt_of_le_of_ne hc.half hne
      rw [abs_lt] at h5'
      have n1 : (n5 : ℝ) < 1 := by nlinarith [hb.2, h5'.1]
      have n2 : (-1 : ℝ) < n5 := by nlinarith [hb.1, h5'.2]
      have n1' : n5 < 1 := by exact_mod_cast n1
      have n2' : -1 < n5 := by exact_mod_cast n2
      omega
    subst n5z
    simpa [Spec.row] using hm
  · intro s hs
    obtain ⟨a1, a2, a3, a4, a5, a6, rfl, g⟩ := urSearch_gap hr.par hP0 eR ep hc'.shoulder hc'.fore hc'.upper hc'.bend hw hc'.clear2 hc'.clear24
      hc'.clear5 hc'.clear6 h hs
    rw [hws] at g
    refine ⟨[a1, a2, a3, a4, a5, a6], rfl, rfl, ?_⟩
    rw [Spec.marginUr, lt_min_iff, lt_min_iff] at hd
    obtain ⟨⟨d1, d2⟩, d3⟩ := hd
    rcases g with g | g | g | g
    · exact .inr ⟨0, a1, θ 0, rfl, rfl, by linarith⟩
    · exact .inr ⟨4, a5, θ 4, rfl, rfl, by linarith⟩
    · exact .inr ⟨2, a3, θ 2, rfl, rfl, by linarith⟩
    · rcases g.eq_or with g | ⟨j, u, v, e1, e2, g⟩
      · exact .inl g
      · refine .inr ⟨j, u, v, e1, e2, ?_⟩
        have := Real.pi_gt_three
        have := Real.abs_sin_le_one (θ 4)
        have : 0 ≤ snap := Real.sqrt_nonneg _
        linarith

/-- C71 for UR arms (`_partial`: as for `C67_ur_tracks_partial`). -/
theorem C71_ur_near_partial (hr : Spec.UrChain r k P0 P1 P2 P3 P4 P5 P6) (hc : Spec.TrackUr r k P1 P2 P3 P4 θ)
    (hd : Spec.dist (Spec.row θ) (Spec.row x) < Spec.marginUr k P1 P2 P3 P4 θ) {T : Transform ℝ}
    (hT : fwdkin r (Spec.row θ) true = .ok T) {sols : List (List XReal)}
    (h : ur_invkin r.up T.up (some ((Spec.row x).map .fin)) = .ok sols) : sols.head? = some ((Spec.row θ).map .fin) := by
  obtain ⟨rows, h, hso⟩ := ur_search_last (last := some (Spec.row x)) hr h
  obtain ⟨hm, hf⟩ := ur_rows_near hr hc hd hT h
  exact sortByLast_nearest (l := Spec.row x) rfl hso hf hm

/-- C71: the call does return, under the conditions of `C60_ur_returns`. -/
theorem C71_ur_returns (hr : Spec.UrChain r k P0 P1 P2 P3 P4 P5 P6) (hl : Spec.limitsSized r 6) (hc : Spec.TrackUr r k P1 P2 P3 P4 θ)
    (hd : Spec.dist (Spec.row θ) (Spec.row x) < Spec.marginUr k P1 P2 P3 P4 θ) {T : Transform ℝ}
    (hT : fwdkin r (Spec.row θ) true = .ok T)
    (hns : ∀ a : ℝ, V3.ey.dot ((rot V3.ez (a - θ 0)).transpose.mulVec (P1 + (rot k (θ 1)).mulVec (P2 + (rot k (θ 2)).mulVec
      (P3 + (rot k (θ 3)).mulVec P4)))) = V3.ey.dot (P1 + P2 + P3 + P4) → npEps ≤ Spec.urWristSq r T a) :
    ∃ sols, ur_invkin r.up T.up (some ((Spec.row x).map .fin)) = .ok ((Spec.row θ).map .fin :: sols) := by
  obtain ⟨rows, hrows⟩ := ur_rows hr hl (last := some (Spec.row x)) (by rintro _ ⟨⟩; simp [Spec.row]) hc.conf.upper hc.conf.fore hc.conf.bend
    hc.conf.shoulder hT hns
  obtain ⟨hm, hf⟩ := ur_rows_near hr hc hd hT hrows
  obtain ⟨sols, hs⟩ := sortByLast_total (l := Spec.row x) (List.ne_nil_of_mem hm) (by
    intro s hs
    obtain ⟨a, rfl, e, -⟩ := hf s hs
    simpa using e)
  have hcall : ur_invkin r.up T.up (some ((Spec.row x).map .fin)) = .ok sols :=
    (ur_eval hr T (some (Spec.row x))).trans (by rw [hrows]; exact hs)
  have := C71_ur_near_partial hr hc hd hT hcall
  rcases sols with _ | ⟨s, sols⟩
  · cases this
  · cases this; exact ⟨sols, hcall⟩
end
