import Verif.Lemmas.Complete

/-!
# Properties C29, C30, C32: `robot6_sphericalwrist_invkin`

`snap` is the coincidence tolerance `sqrt(eps)` = 2⁻²⁶ of `subproblem1`.
-/
set_option autoImplicit false

/-! ## C29 -/

/-- Six rotary joints: joint 1 about `h0`, with the first offset along it and no offset along y, joints 2 and 3 about the y axis in
either sense, and three wrist joints of which consecutive ones are perpendicular. -/
structure Spec.WristArm (r : Robot ℝ) (h0 h1 h2 h3 h4 h5 P0 P1 P2 P3 P4 P5 P6 : V3 ℝ) : Prop where
  types : r.jointType = [0, 0, 0, 0, 0, 0]
  axes : r.H = [h0, h1, h2, h3, h4, h5]
  links : r.P = [P0, P1, P2, P3, P4, P5, P6]
  unit0 : IsUnit3 h0
  unit3 : IsUnit3 h3
  unit4 : IsUnit3 h4
  unit5 : IsUnit3 h5
  par1 : h1 = V3.ey ∨ h1 = -V3.ey
  par2 : h2 = V3.ey ∨ h2 = -V3.ey
  perp34 : h3.dot h4 = 0
  perp45 : h4.dot h5 = 0
  first : ∃ c : ℝ, P0 = c • h0
  level : V3.ey.dot P0 = 0
  base : ∀ B, r.Tbase = some B → IsRot B.R
  flange : ∀ F, r.Tflange = some F → IsRot F.R
  tool : ∀ R, r.Rtool = some R → IsRot R

/-- The orientation asked of the last link of the arm when `T` is asked of the tool: base, flange and tool taken away. -/
def Spec.lastLinkR (r : Robot ℝ) (T : Transform ℝ) : M3 ℝ :=
  (auxB r).R.transpose * (T.R * (auxX r).R.transpose * (auxF r).R.transpose)

/-- Squared sine of the angle between the fourth axis, as placed by the joint values `q1 q2 q3`, and the sixth axis as asked by the pose.
It vanishes at the wrist singularity. -/
noncomputable def Spec.wristSq (r : Robot ℝ) (T : Transform ℝ) (h0 h1 h2 h3 h5 : V3 ℝ) (q1 q2 q3 : ℝ) : ℝ :=
  1 - ((rot h0 q1 * rot h1 q2 * rot h2 q3).mulVec h3).dot ((Spec.lastLinkR r T).mulVec h5) ^ 2

theorem Spec.WristArm.aux {r : Robot ℝ} {h0 h1 h2 h3 h4 h5 P0 P1 P2 P3 P4 P5 P6 : V3 ℝ}
    (h : Spec.WristArm r h0 h1 h2 h3 h4 h5 P0 P1 P2 P3 P4 P5 P6) :
    IsRot (auxB r).R ∧ IsRot (auxF r).R ∧ IsRot (auxX r).R := by
  refine ⟨?_, ?_, ?_⟩
  · unfold auxB
    rcases hB : r.Tbase with _ | B
    · exact IsRot.one
    · exact h.base B hB
  · unfold auxF
    rcases hB : r.Tflange with _ | B
    · exact IsRot.one
    · exact h.flange B hB
  · unfold auxX
    rcases hR : r.Rtool with _ | R
    · exact IsRot.one
    · rcases r.ptool with _ | p
      · exact IsRot.one
      · exact h.tool R hR

/-- C29: for every arm of this geometry with any rigid base, flange and tool, with or without limits and last joint values, every joint
vector returned consists of six finite numbers.  Unless the wrist is singular for it (the squared sine of the angle between the
forearm axis and the requested last axis is below the tolerance `eps` of the code), `fwdkin` takes it to the requested pose up to the
coincidence tolerance: `10·snap` in the rotation, and the lever arms times that in the position. -/
theorem C29_robot6_sound (r : Robot ℝ) (h0 h1 h2 h3 h4 h5 P0 P1 P2 P3 P4 P5 P6 : V3 ℝ)
    (hr : Spec.WristArm r h0 h1 h2 h3 h4 h5 P0 P1 P2 P3 P4 P5 P6) (T : Transform ℝ) (hT : IsRot T.R) (last : Option (List ℝ))
    (sols : List (List XReal)) (h : (robot6_sphericalwrist_invkin r.up T.up (last.map (·.map .fin))).2 = .ok sols)
    (s : List XReal) (hs : s ∈ sols) :
    ∃ q1 q2 q3 q4 q5 q6 : ℝ, s = [.fin q1, .fin q2, .fin q3, .fin q4, .fin q5, .fin q6] ∧
      (npEps ≤ Spec.wristSq r T h0 h1 h2 h3 h5 q1 q2 q3 →
        ∃ T', fwdkin r [q1, q2, q3, q4, q5, q6] true = .ok T' ∧
          (∀ v : V3 ℝ, (T'.R.mulVec v - T.R.mulVec v).norm ≤ 10 * snap * v.norm) ∧
          (T'.p - T.p).norm ≤ (1 + (P3 + P4).norm) * snap +
            10 * snap * ((P6 + P5).norm + (auxF r).p.norm + (auxX r).p.norm)) := by
  obtain ⟨hB, hF, hX⟩ := hr.aux
  unfold robot6_sphericalwrist_invkin at h
  simp only [unapplyAux_up] at h
  have eH : r.up.H = [h0.up, h1.up, h2.up, h3.up, h4.up, h5.up] := by
    show r.H.map V3.up = _; rw [hr.axes]; rfl
  have eP : r.up.P = [P0.up, P1.up, P2.up, P3.up, P4.up, P5.up, P6.up] := by
    show r.P.map V3.up = _; rw [hr.links]; rfl
  rw [eH, eP] at h
  rcases hfx : fixWrist [h0.up, h1.up, h2.up, h3.up, h4.up, h5.up] [P0.up, P1.up, P2.up, P3.up, P4.up, P5.up, P6.up] with ⟨P', e | u⟩
  · rw [hfx] at h; cases h
  rw [hfx] at h
  obtain ⟨rfl, hP4, hP5⟩ := fixWrist_ok hfx
  simp only [Except.bind_ok] at h
  obtain ⟨rows, h1', h⟩ := Except.bind_eq_ok h
  have hs := (sortByLast_mem h).mem_iff.1 hs
  obtain ⟨c, hc⟩ := hr.first
  have h6 : IsRot (unapplyAux r T).R := unapply_rot hB hF hX hT
  obtain ⟨q1, q2, q3, q4, q5, q6, rfl, hpos, hrot⟩ := r6Search_sound (r := r) (last := last) hr.unit0 hr.par1 hr.par2 hr.unit3 hr.unit4
    hr.unit5 hr.perp34 hr.perp45 hc hr.level h6 h1' hs
  refine ⟨q1, q2, q3, q4, q5, q6, rfl, fun hns => ⟨_, fwdkin_chain6 hr.types hr.axes hr.links q1 q2 q3 q4 q5 q6, ?_⟩⟩
  rw [Spec.wristSq, Spec.lastLinkR, ← unapplyAux_R] at hns
  have hrot := hrot hns
  set U := unapplyAux r T with hU
  have f4 : ∀ v, (rot h3 q4).mulVec (P4 + v) = P4 + (rot h3 q4).mulVec v := by
    intro v; rw [M3.mulVec_add]; congr 1
    rw [hP4, rot_hsmul_axis]
  have f5 : P5 + (rot h5 q6).mulVec P6 = (rot h5 q6).mulVec (P6 + P5) := by
    have : (rot h5 q6).mulVec P5 = P5 := by rw [hP5, rot_hsmul_axis]
    rw [M3.mulVec_add, this]; ext <;> simp <;> ring
  have hp : P0 + (rot h0 q1).mulVec (P1 + (rot h1 q2).mulVec (P2 + (rot h2 q3).mulVec (P3 + (rot h3 q4).mulVec (P4 + (rot h4 q5).mulVec
        (P5 + (rot h5 q6).mulVec P6))))) = P0 + (rot h0 q1).mulVec (P1 + (rot h1 q2).mulVec (P2 + (rot h2 q3).mulVec (P3 + P4))) +
        (rot h0 q1 * rot h1 q2 * rot h2 q3 * (rot h3 q4 * rot h4 q5) * rot h5 q6).mulVec (P6 + P5) := by
    rw [f4, f5]
    simp only [M3.mulVec_add (rot h0 q1), M3.mulVec_add (rot h1 q2), M3.mulVec_add (rot h2 q3), M3.mulVec_mulVec, M3.mul_assoc']
    generalize (rot h0 q1).mulVec P1 = a1
    generalize (rot h0 q1 * rot h1 q2).mulVec P2 = a2
    generalize (rot h0 q1 * (rot h1 q2 * rot h2 q3)).mulVec P3 = a3
    generalize (rot h0 q1 * (rot h1 q2 * rot h2 q3)).mulVec P4 = a4
    generalize (rot h0 q1 * (rot h1 q2 * (rot h2 q3 * (rot h3 q4 * (rot h4 q5 * rot h5 q6))))).mulVec (P6 + P5) = a6
    ext <;> simp <;> ring
  obtain ⟨g1, g2⟩ := aux_close (r := r) hB hF hX (T := T)
    (C := ⟨rot h0 q1 * rot h1 q2 * rot h2 q3 * (rot h3 q4 * rot h4 q5) * rot h5 q6,
      P0 + (rot h0 q1).mulVec (P1 + (rot h1 q2).mulVec (P2 + (rot h2 q3).mulVec (P3 + (rot h3 q4).mulVec (P4 + (rot h4 q5).mulVec
        (P5 + (rot h5 q6).mulVec P6))))), none, none⟩) (ε := 10 * snap)
    (δ := (1 + (P3 + P4).norm) * snap + 10 * snap * (P6 + P5).norm) hrot (by
      show (P0 + _ - U.p).norm ≤ _
      rw [hp]
      have hv := hrot (P6 + P5)
      generalize (rot h0 q1 * rot h1 q2 * rot h2 q3 * (rot h3 q4 * rot h4 q5) * rot h5 q6).mulVec (P6 + P5) = a at hv ⊢
      generalize P0 + (rot h0 q1).mulVec (P1 + (rot h1 q2).mulVec (P2 + (rot h2 q3).mulVec (P3 + P4))) = b at hpos ⊢
      generalize U.R.mulVec (P6 + P5) = d at hpos hv ⊢
      have e : b + a - U.p = (b - (U.p - d)) + (a - d) := by ext <;> simp <;> ring
      simp only [e]
      exact (V3.norm_add_le _ _).trans (add_le_add hpos hv))
  exact ⟨g1, g2.trans (le_of_eq (by ring))⟩

/-! ## C30 -/

/-- Where the first three joints put the centre of the wrist. -/
noncomputable def Spec.wristAt (h0 h1 h2 P0 P1 P2 P3 : V3 ℝ) (q1 q2 q3 : ℝ) : V3 ℝ :=
  P0 + (rot h0 q1).mulVec (P1 + (rot h1 q2).mulVec (P2 + (rot h2 q3).mulVec P3))

/-- The first axis is perpendicular to the y axis, upper arm and forearm are not along the elbow axis, and at zero elbow angle the
forearm, seen along the elbow axis, either continues the upper arm exactly or clearly does not. -/
structure Spec.RegularArm (h0 h2 P2 P3 : V3 ℝ) : Prop where
  upright : V3.ey.dot h0 = 0
  upper : h2.cross P2 ≠ 0
  fore : h2.cross P3 ≠ 0
  bend : Spec.dir P3 h2 = Spec.dir P2 h2 ∨ snap ≤ (Spec.dir P3 h2 - Spec.dir P2 h2).norm

/-- Neither the shoulder nor the wrist is singular, and joints 2, 4, 5 and 6 either do nothing or move what they move by more than the
coincidence tolerance. -/
structure Spec.RegularConf (h0 h1 h2 h3 h4 h5 P1 P2 P3 : V3 ℝ) (q2 q3 q4 q5 q6 : ℝ) : Prop where
  shoulder : h0.cross (P1 + (rot h1 q2).mulVec (P2 + (rot h2 q3).mulVec P3)) ≠ 0
  wrist : npEps ≤ 1 - h3.dot ((rot h4 q5).mulVec h5) ^ 2
  clear2 : Spec.clear h1 (P2 + (rot h2 q3).mulVec P3) q2
  clear4 : Spec.clear h3 ((rot h4 q5).mulVec h5) q4
  clear5 : Spec.clear h4 h5 q5
  clear6 : Spec.clear h5 h4 q6

section
variable {r : Robot ℝ} {h0 h1 h2 h3 h4 h5 P0 P1 P2 P3 P4 P5 P6 : V3 ℝ}

/-- the pose of the bare arm -/
theorem wristArm_pose (hr : Spec.WristArm r h0 h1 h2 h3 h4 h5 P0 P1 P2 P3 P4 P5 P6) (hP4 : P4 = (P4.dot h3) • h3)
    (hP5 : P5 = (P5.dot h5) • h5) {q1 q2 q3 q4 q5 q6 : ℝ} {T : Transform ℝ} (hT : fwdkin r [q1, q2, q3, q4, q5, q6] true = .ok T) :
    (unapplyAux r T).R = rot h0 q1 * rot h1 q2 * rot h2 q3 * (rot h3 q4 * rot h4 q5) * rot h5 q6 ∧
    (unapplyAux r T).p - (unapplyAux r T).R.mulVec (P6 + P5) = Spec.wristAt h0 h1 h2 P0 P1 P2 (P3 + P4) q1 q2 q3 := by
  obtain ⟨hB, hF, hX⟩ := hr.aux
  rw [fwdkin_chain6 hr.types hr.axes hr.links] at hT
  cases hT
  refine ⟨unapply_apply_R hB hF hX _, ?_⟩
  rw [unapply_apply_R hB hF hX, unapply_apply_p hB hF hX]
  have f4 : ∀ v, (rot h3 q4).mulVec (P4 + v) = P4 + (rot h3 q4).mulVec v := by
    intro v; rw [M3.mulVec_add]; congr 1
    rw [hP4, rot_hsmul_axis]
  have f5 : P5 + (rot h5 q6).mulVec P6 = (rot h5 q6).mulVec (P6 + P5) := by
    have : (rot h5 q6).mulVec P5 = P5 := by rw [hP5, rot_hsmul_axis]
    rw [M3.mulVec_add, this]; ext <;> simp <;> ring
  show P0 + _ - _ = _
  rw [Spec.wristAt, f4, f5]
  simp only [M3.mulVec_add (rot h0 q1), M3.mulVec_add (rot h1 q2), M3.mulVec_add (rot h2 q3), M3.mulVec_mulVec, M3.mul_assoc']
  generalize (rot h0 q1).mulVec P1 = a1
  generalize (rot h0 q1 * rot h1 q2).mulVec P2 = a2
  generalize (rot h0 q1 * (rot h1 q2 * rot h2 q3)).mulVec P3 = a3
  generalize (rot h0 q1 * (rot h1 q2 * rot h2 q3)).mulVec P4 = a4
  generalize (rot h0 q1 * (rot h1 q2 * (rot h2 q3 * (rot h3 q4 * (rot h4 q5 * rot h5 q6))))).mulVec (P6 + P5) = a6
  ext <;> simp <;> ring

/-- the call as a search on the corrected offsets -/
theorem robot6_search_last (hr : Spec.WristArm r h0 h1 h2 h3 h4 h5 P0 P1 P2 P3 P4 P5 P6) {T : Transform ℝ} {last : Option (List ℝ)}
    {sols : List (List XReal)} (h : (robot6_sphericalwrist_invkin r.up T.up (last.map (·.map .fin))).2 = .ok sols) :
    P4 = (P4.dot h3) • h3 ∧ P5 = (P5.dot h5) • h5 ∧ ∃ rows,
    r6Search [h0.up, h1.up, h2.up, h3.up, h4.up, h5.up] [P0.up, P1.up, P2.up, (P3 + P4).up, 0, 0, (P6 + P5).up] (upNormalizer r last)
      (unapplyAux r T).R.up (unapplyAux r T).p.up = .ok rows ∧ sortByLast rows (last.map (·.map .fin)) = .ok sols := by
  unfold robot6_sphericalwrist_invkin at h
  simp only [unapplyAux_up] at h
  have eH : r.up.H = [h0.up, h1.up, h2.up, h3.up, h4.up, h5.up] := by
    show r.H.map V3.up = _; rw [hr.axes]; rfl
  have eP : r.up.P = [P0.up, P1.up, P2.up, P3.up, P4.up, P5.up, P6.up] := by
    show r.P.map V3.up = _; rw [hr.links]; rfl
  rw [eH, eP] at h
  rcases hfx : fixWrist [h0.up, h1.up, h2.up, h3.up, h4.up, h5.up] [P0.up, P1.up, P2.up, P3.up, P4.up, P5.up, P6.up] with ⟨P', e | u⟩
  · rw [hfx] at h; cases h
  rw [hfx] at h
  obtain ⟨rfl, hP4, hP5⟩ := fixWrist_ok hfx
  simp only [Except.bind_ok] at h
  obtain ⟨rows, h1', h⟩ := Except.bind_eq_ok h
  exact ⟨hP4, hP5, rows, h1', h⟩

theorem robot6_search (hr : Spec.WristArm r h0 h1 h2 h3 h4 h5 P0 P1 P2 P3 P4 P5 P6) {T : Transform ℝ} {sols : List (List XReal)}
    (h : (robot6_sphericalwrist_invkin r.up T.up).2 = .ok sols) :
    P4 = (P4.dot h3) • h3 ∧ P5 = (P5.dot h5) • h5 ∧
    r6Search [h0.up, h1.up, h2.up, h3.up, h4.up, h5.up] [P0.up, P1.up, P2.up, (P3 + P4).up, 0, 0, (P6 + P5).up] (upNormalizer r none)
      (unapplyAux r T).R.up (unapplyAux r T).p.up = .ok sols := by
  obtain ⟨hP4, hP5, rows, h1', h⟩ := robot6_search_last (last := none) hr h
  cases h
  exact ⟨hP4, hP5, h1'⟩

/-- C30 (`_partial`: the property has no regularity conditions and allows last joint values; see `C30_robot6_singular_raises`,
`C30_robot6_far_limits_false` and `C28_call_prunes_false`).  For every arm of this geometry with any rigid base, flange and tool, and
every joint vector strictly inside limits of the usual kind: if the call for its pose returns, then the list contains this joint
vector up to multiples of `2π` - exactly, not just up to a tolerance. -/
theorem C30_robot6_complete_partial (hr : Spec.WristArm r h0 h1 h2 h3 h4 h5 P0 P1 P2 P3 P4 P5 P6)
    (ha : Spec.RegularArm h0 h2 P2 (P3 + P4)) {q1 q2 q3 q4 q5 q6 : ℝ}
    (hc : Spec.RegularConf h0 h1 h2 h3 h4 h5 P1 P2 (P3 + P4) q2 q3 q4 q5 q6)
    (l1 : Spec.withinLimits r 0 q1) (l2 : Spec.withinLimits r 1 q2) (l3 : Spec.withinLimits r 2 q3) (l4 : Spec.withinLimits r 3 q4)
    (l5 : Spec.withinLimits r 4 q5) (l6 : Spec.withinLimits r 5 q6) {T : Transform ℝ}
    (hT : fwdkin r [q1, q2, q3, q4, q5, q6] true = .ok T) {sols : List (List XReal)}
    (h : (robot6_sphericalwrist_invkin r.up T.up).2 = .ok sols) :
    ∃ n1 n2 n3 n4 n5 n6 : ℤ, [XReal.fin (q1 + n1 * (2 * Real.pi)), .fin (q2 + n2 * (2 * Real.pi)), .fin (q3 + n3 * (2 * Real.pi)),
      .fin (q4 + n4 * (2 * Real.pi)), .fin (q5 + n5 * (2 * Real.pi)), .fin (q6 + n6 * (2 * Real.pi))] ∈ sols := by
  obtain ⟨hP4, hP5, h⟩ := robot6_search hr h
  obtain ⟨eR, ep⟩ := wristArm_pose hr hP4 hP5 hT
  obtain ⟨c, hP0⟩ := hr.first
  obtain ⟨n1, n3, sl, -, he, hsub⟩ := r6Search_reach hr.unit0 hr.par1 hr.par2 hP0 ha.upright ep hc.shoulder ha.fore ha.upper ha.bend
    (keeps_of_within l1) (keeps_of_within l3) h
  rw [eR] at he
  obtain ⟨n2, n4, n5, n6, -, hm⟩ := r6Elbow_complete (pm_unit hr.par1) (pm_unit hr.par2) hr.unit3 hr.unit4 hr.unit5 hr.perp34 hr.perp45
    (rot_isRot h0 hr.unit0 q1) hc.clear2 hc.clear4 hc.clear5 hc.clear6 hc.wrist (keeps_of_within l2) (keeps_of_within l4)
    (keeps_of_within l5) (keeps_of_within l6) he
  exact ⟨n1, n2, n3, n4, n5, n6, hsub _ hm⟩

/-- C30: an empty list means that no regular joint vector inside the limits reaches the pose. -/
theorem C30_robot6_empty_partial (hr : Spec.WristArm r h0 h1 h2 h3 h4 h5 P0 P1 P2 P3 P4 P5 P6)
    (ha : Spec.RegularArm h0 h2 P2 (P3 + P4)) {T : Transform ℝ} (h : (robot6_sphericalwrist_invkin r.up T.up).2 = .ok [])
    (q1 q2 q3 q4 q5 q6 : ℝ) (hc : Spec.RegularConf h0 h1 h2 h3 h4 h5 P1 P2 (P3 + P4) q2 q3 q4 q5 q6)
    (l1 : Spec.withinLimits r 0 q1) (l2 : Spec.withinLimits r 1 q2) (l3 : Spec.withinLimits r 2 q3) (l4 : Spec.withinLimits r 3 q4)
    (l5 : Spec.withinLimits r 4 q5) (l6 : Spec.withinLimits r 5 q6) : fwdkin r [q1, q2, q3, q4, q5, q6] true ≠ .ok T := by
  intro hT
  obtain ⟨_, _, _, _, _, _, hm⟩ := C30_robot6_complete_partial hr ha hc l1 l2 l3 l4 l5 l6 hT h
  cases hm

/-- the search returns -/
theorem robot6_rows (hr : Spec.WristArm r h0 h1 h2 h3 h4 h5 P0 P1 P2 P3 P4 P5 P6)
    (ha : Spec.RegularArm h0 h2 P2 (P3 + P4)) (hP4 : P4 = (P4.dot h3) • h3) (hP5 : P5 = (P5.dot h5) • h5)
    (hl : Spec.limitsSized r 6) {last : Option (List ℝ)} (hs6 : Spec.lastSized last 6) {q1 q2 q3 q4 q5 q6 : ℝ}
    (hs : h0.cross (P1 + (rot h1 q2).mulVec (P2 + (rot h2 q3).mulVec (P3 + P4))) ≠ 0) {T : Transform ℝ}
    (hT : fwdkin r [q1, q2, q3, q4, q5, q6] true = .ok T)
    (hns : ∀ a b c : ℝ, (Spec.wristAt h0 h1 h2 P0 P1 P2 (P3 + P4) a b c - Spec.wristAt h0 h1 h2 P0 P1 P2 (P3 + P4) q1 q2 q3).norm < snap →
      npEps ≤ Spec.wristSq r T h0 h1 h2 h3 h5 a b c) :
    ∃ rows, r6Search [h0.up, h1.up, h2.up, h3.up, h4.up, h5.up] [P0.up, P1.up, P2.up, (P3 + P4).up, 0, 0, (P6 + P5).up]
      (upNormalizer r last) (unapplyAux r T).R.up (unapplyAux r T).p.up = .ok rows := by
  obtain ⟨eR, ep⟩ := wristArm_pose hr hP4 hP5 hT
  obtain ⟨c, hP0⟩ := hr.first
  have hR1 := rot_isRot h0 hr.unit0 q1
  have h6 : IsRot (unapplyAux r T).R := by
    rw [eR]
    exact (((hR1.mul (rot_isRot h1 (pm_unit hr.par1) q2)).mul (rot_isRot h2 (pm_unit hr.par2) q3)).mul
      ((rot_isRot h3 hr.unit3 q4).mul (rot_isRot h4 hr.unit4 q5))).mul (rot_isRot h5 hr.unit5 q6)
  set g := P1 + (rot h1 q2).mulVec (P2 + (rot h2 q3).mulVec (P3 + P4)) with hg
  have ecross : h0.cross ((unapplyAux r T).p - (unapplyAux r T).R.mulVec (P6 + P5)) = (rot h0 q1).mulVec (h0.cross g) := by
    rw [ep, Spec.wristAt, ← hg, hP0, hR1.mulVec_cross, rot_axis]
    generalize (rot h0 q1).mulVec g = x
    ext <;> simp <;> ring
  have hey : V3.ey.dot g = V3.ey.dot (P1 + P2 + (P3 + P4)) := by
    have key : ∀ (k : V3 ℝ) (q : ℝ) (v : V3 ℝ), (k = V3.ey ∨ k = -V3.ey) → V3.ey.dot ((rot k q).mulVec v) = V3.ey.dot v := by
      intro k q v hk
      have := (rot_invariants (p := v) (pm_unit hk) (φ := q) rfl).2
      rcases hk with rfl | rfl
      · rw [V3.dot_comm, ← this, V3.dot_comm]
      · rw [V3.dot_neg, V3.dot_neg, neg_inj] at this
        rw [V3.dot_comm, ← this, V3.dot_comm]
    rw [hg, V3.dot_add, key _ _ _ hr.par1, V3.dot_add, key _ _ _ hr.par2]; simp only [V3.dot_add]; ring
  refine r6Search_total (r := r) (h1 := h1) (h2 := h2) (h3 := h3) (h4 := h4) (h5 := h5) (P1 := P1) (P2 := P2)
    (P3 := P3 + P4) (P4 := 0) (P5 := 0) (P6 := P6 + P5) (p0T := (unapplyAux r T).p) (R06 := (unapplyAux r T).R)
    hr.unit0 hr.par1 hr.par2 hr.unit3 hr.unit4 hr.unit5 hr.perp34 hr.perp45 hP0 ha.upright h6 hl hs6
    (by
      rw [ecross]; intro e; apply hs
      rw [← hR1.transpose_mulVec_mulVec (h0.cross g), e]; ext <;> simp)
    (by
      rw [ecross, hR1.norm_mulVec, ← hey]
      have e1 : V3.ey.dot g = (h0.cross V3.ey).dot (h0.cross g) := by
        have u := hr.unit0
        have p := ha.upright
        simp only [IsUnit3] at u
        simp only [V3.dot] at p ⊢
        simp at p ⊢
        grind
      have e2 : (h0.cross V3.ey).norm = 1 := by
        have u := hr.unit0
        have p := ha.upright
        simp only [IsUnit3] at u
        simp only [V3.dot] at p
        rw [V3.norm_eq, V3.dot, show (h0.cross V3.ey).x * (h0.cross V3.ey).x + (h0.cross V3.ey).y * (h0.cross V3.ey).y +
          (h0.cross V3.ey).z * (h0.cross V3.ey).z = 1 by simp at p ⊢; grind, Real.sqrt_one]
      rw [e1]
      have := V3.abs_dot_le (h0.cross V3.ey) (h0.cross g)
      rwa [e2, one_mul] at this)
    ha.fore ha.upper ha.bend (by
      intro a b c hn
      have := hns a b c (by rw [← ep]; exact hn)
      rwa [Spec.wristSq, Spec.lastLinkR, ← unapplyAux_R] at this)

/-- the call as a search on the corrected offsets, when the offsets are along the axes -/
theorem robot6_eval (hr : Spec.WristArm r h0 h1 h2 h3 h4 h5 P0 P1 P2 P3 P4 P5 P6) (hP4 : P4 = (P4.dot h3) • h3) (hP5 : P5 = (P5.dot h5) • h5)
    (T : Transform ℝ) (last : Option (List ℝ)) : (robot6_sphericalwrist_invkin r.up T.up (last.map (·.map .fin))).2 =
      r6Search [h0.up, h1.up, h2.up, h3.up, h4.up, h5.up] [P0.up, P1.up, P2.up, (P3 + P4).up, 0, 0, (P6 + P5).up]
        (upNormalizer r last) (unapplyAux r T).R.up (unapplyAux r T).p.up >>= fun rows => sortByLast rows (last.map (·.map .fin)) := by
  have eH : r.up.H = [h0.up, h1.up, h2.up, h3.up, h4.up, h5.up] := by
    show r.H.map V3.up = _; rw [hr.axes]; rfl
  have eP : r.up.P = [P0.up, P1.up, P2.up, P3.up, P4.up, P5.up, P6.up] := by
    show r.P.map V3.up = _; rw [hr.links]; rfl
  unfold robot6_sphericalwrist_invkin
  simp only [unapplyAux_up]
  rw [eH, eP, fixWrist_of hP4 hP5]
  simp only [Except.bind_ok]
  rfl

/-- C30: the call does return when the offsets 4 and 5 are along the axes of joints 4 and 6, the pose is that of a joint vector away
from the shoulder singularity, and no placement of the wrist centre within the tolerance makes the wrist singular. -/
theorem C30_robot6_returns (hr : Spec.WristArm r h0 h1 h2 h3 h4 h5 P0 P1 P2 P3 P4 P5 P6)
    (ha : Spec.RegularArm h0 h2 P2 (P3 + P4)) (hP4 : P4 = (P4.dot h3) • h3) (hP5 : P5 = (P5.dot h5) • h5)
    (hl : Spec.limitsSized r 6) {q1 q2 q3 q4 q5 q6 : ℝ}
    (hs : h0.cross (P1 + (rot h1 q2).mulVec (P2 + (rot h2 q3).mulVec (P3 + P4))) ≠ 0) {T : Transform ℝ}
    (hT : fwdkin r [q1, q2, q3, q4, q5, q6] true = .ok T)
    (hns : ∀ a b c : ℝ, (Spec.wristAt h0 h1 h2 P0 P1 P2 (P3 + P4) a b c - Spec.wristAt h0 h1 h2 P0 P1 P2 (P3 + P4) q1 q2 q3).norm < snap →
      npEps ≤ Spec.wristSq r T h0 h1 h2 h3 h5 a b c) :
    ∃ sols, (robot6_sphericalwrist_invkin r.up T.up).2 = .ok sols := by
  obtain ⟨rows, h⟩ := robot6_rows hr ha hP4 hP5 hl (last := none) (by simp [Spec.lastSized]) hs hT hns
  exact ⟨rows, (robot6_eval hr hP4 hP5 T none).trans (by rw [h]; rfl)⟩

/-- C30 is false at wrist singularities: with the last axis along the fourth one, the call raises for every pose reached with these
two axes aligned (unless the shoulder is singular too, or joint 2 is too close to zero), because `subproblem2` passes the arguments of
`subproblem1` in the wrong order in the tangent case (line 765 of the toolbox). -/
theorem C30_robot6_singular_raises (hr : Spec.WristArm r h0 h1 h2 h3 h4 h5 P0 P1 P2 P3 P4 P5 P6)
    (ha : Spec.RegularArm h0 h2 P2 (P3 + P4)) (h53 : h5 = h3 ∨ h5 = -h3) {q1 q2 q3 q4 q5 q6 : ℝ}
    (hs : h0.cross (P1 + (rot h1 q2).mulVec (P2 + (rot h2 q3).mulVec (P3 + P4))) ≠ 0)
    (h2c : Spec.clear h1 (P2 + (rot h2 q3).mulVec (P3 + P4)) q2)
    (hq5 : (rot h4 q5).mulVec h5 = h3 ∨ (rot h4 q5).mulVec h5 = -h3)
    (l1 : Spec.withinLimits r 0 q1) (l2 : Spec.withinLimits r 1 q2) (l3 : Spec.withinLimits r 2 q3) {T : Transform ℝ}
    (hT : fwdkin r [q1, q2, q3, q4, q5, q6] true = .ok T) :
    ∃ e, (robot6_sphericalwrist_invkin r.up T.up).2 = .error e := by
  rcases h : (robot6_sphericalwrist_invkin r.up T.up).2 with e | sols
  · exact ⟨e, rfl⟩
  exfalso
  obtain ⟨hP4, hP5, h⟩ := robot6_search hr h
  obtain ⟨eR, ep⟩ := wristArm_pose hr hP4 hP5 hT
  obtain ⟨c, hP0⟩ := hr.first
  obtain ⟨n1, n3, sl, -, he, hsub⟩ := r6Search_reach hr.unit0 hr.par1 hr.par2 hP0 ha.upright ep hs ha.fore ha.upper ha.bend
    (keeps_of_within l1) (keeps_of_within l3) h
  have hR01 := rot_isRot h0 hr.unit0 q1
  rw [eR] at he
  simp only [r6Elbow, rot_up, rot_periodic, M3.up_mul, M3.up_transpose, M3.up_mulVec, V3.up_add] at he
  obtain ⟨t2, e2, hb2, hn2⟩ := subproblem1_exact (pm_unit hr.par1) h2c
  obtain ⟨n2, -, e2'⟩ := one_keeps (keeps_of_within l2) (by have := Real.pi_pos; linarith) hn2
  rw [e2, Except.bind_ok, e2', Except.bind_ok] at he
  simp only [rot_up, rot_periodic, M3.up_mul, M3.up_transpose, M3.up_mulVec] at he
  obtain ⟨Q45, e45, -⟩ := Except.bind_eq_ok he
  set R03 := rot h0 q1 * rot h1 q2 * rot h2 q3 with hR03
  have hr03 : IsRot R03 := (hR01.mul (rot_isRot h1 (pm_unit hr.par1) _)).mul (rot_isRot h2 (pm_unit hr.par2) _)
  have e36 : (R03.transpose * (R03 * (rot h3 q4 * rot h4 q5) * rot h5 q6)).mulVec h5 = (rot h3 q4).mulVec ((rot h4 q5).mulVec h5) := by
    rw [M3.mul_assoc' R03, ← M3.mul_assoc', hr03.orth, M3.one_mul', ← M3.mulVec_mulVec, rot_axis, M3.mulVec_mulVec]
  rw [e36] at e45
  have one : h3 = (1 : ℝ) • h3 := by ext <;> simp
  have neg : -h3 = (-1 : ℝ) • h3 := by ext <;> simp
  have hq : ∃ s' : ℝ, (s' = 1 ∨ s' = -1) ∧ (rot h3 q4).mulVec ((rot h4 q5).mulVec h5) = s' • h3 := by
    rcases hq5 with e | e
    · exact ⟨1, .inl rfl, by rw [e, rot_axis, ← one]⟩
    · exact ⟨-1, .inr rfl, by rw [e, neg, rot_hsmul_axis]⟩
  have hp : ∃ s : ℝ, (s = 1 ∨ s = -1) ∧ h5 = s • h3 := by
    rcases h53 with e | e
    · exact ⟨1, .inl rfl, by rw [e, ← one]⟩
    · exact ⟨-1, .inr rfl, by rw [e, neg]⟩
  obtain ⟨s', hs', eq⟩ := hq
  obtain ⟨s, hs, ep⟩ := hp
  rw [eq] at e45
  nth_rw 1 [ep] at e45
  rw [subproblem2_singular hr.unit3 hr.unit4 hr.perp34 hs hs'] at e45
  cases e45

/-- C30 is false at the home pose: an arm whose last axis is along the fourth one, without limits and with the wrist off the first
axis, has the solution zero for its home pose, but the call raises. -/
theorem C30_robot6_home_raises (hr : Spec.WristArm r h0 h1 h2 h3 h4 h5 P0 P1 P2 P3 P4 P5 P6)
    (ha : Spec.RegularArm h0 h2 P2 (P3 + P4)) (h53 : h5 = h3 ∨ h5 = -h3) (hs : h0.cross (P1 + (P2 + (P3 + P4))) ≠ 0)
    (hl : r.lower = none) {T : Transform ℝ} (hT : fwdkin r [0, 0, 0, 0, 0, 0] true = .ok T) :
    ∃ e, (robot6_sphericalwrist_invkin r.up T.up).2 = .error e := by
  have hw : ∀ j, Spec.withinLimits r j 0 := by intro j lo up h1; rw [hl] at h1; cases h1
  refine C30_robot6_singular_raises hr ha h53 (q2 := 0) (q3 := 0) ?_ (.inl ⟨0, by simp⟩) ?_ (hw 0) (hw 1) (hw 2) hT
  · simpa only [rot_zero, M3.one_mulVec] using hs
  · simpa only [rot_zero, M3.one_mulVec] using h53
end

/-! ### A concrete arm -/

/-- A small arm: joint 1 about z, joints 2 and 3 about y, wrist x-y-x, upper arm and forearm of length 1. -/
noncomputable def Spec.smallArm (lo up : Option (List ℝ)) : Robot ℝ :=
  { H := [V3.ez, V3.ey, V3.ey, V3.ex, V3.ey, V3.ex], P := [V3.ez, 0, V3.ez, V3.ex, 0, 0, V3.ex], jointType := [0, 0, 0, 0, 0, 0],
    lower := lo, upper := up }

theorem Spec.smallArm_wrist (lo up : Option (List ℝ)) :
    Spec.WristArm (Spec.smallArm lo up) V3.ez V3.ey V3.ey V3.ex V3.ey V3.ex V3.ez 0 V3.ez V3.ex 0 0 V3.ex where
  types := rfl
  axes := rfl
  links := rfl
  unit0 := by simp [IsUnit3]
  unit3 := by simp [IsUnit3]
  unit4 := by simp [IsUnit3]
  unit5 := by simp [IsUnit3]
  par1 := .inl rfl
  par2 := .inl rfl
  perp34 := by simp [V3.dot]
  perp45 := by simp [V3.dot]
  first := ⟨1, by ext <;> simp⟩
  level := by simp [V3.dot]
  base := by intro B h; cases h
  flange := by intro B h; cases h
  tool := by intro B h; cases h

theorem Spec.smallArm_regular : Spec.RegularArm (V3.ez : V3 ℝ) V3.ey V3.ez (V3.ex + 0) where
  upright := by simp [V3.dot]
  upper := by intro h; have := congrArg V3.x h; simp at this
  fore := by intro h; have := congrArg V3.z h; simp at this
  bend := by
    right
    have e1 : Spec.dir (V3.ex + 0 : V3 ℝ) V3.ey = V3.ex := by
      simp [Spec.dir, V3.perp, V3.dot, V3.norm_eq]; ext <;> simp
    have e2 : Spec.dir (V3.ez : V3 ℝ) V3.ey = V3.ez := by
      simp [Spec.dir, V3.perp, V3.dot, V3.norm_eq]; ext <;> simp
    rw [e1, e2, V3.norm_eq]
    simp [V3.dot]
    rw [snap_eq]
    exact Real.le_sqrt_of_sq_le (by norm_num)

-- non-vacuity of `C30_robot6_home_raises`
example : ∃ T e, fwdkin (Spec.smallArm none none) [0, 0, 0, 0, 0, 0] true = .ok T ∧
    (robot6_sphericalwrist_invkin (Spec.smallArm none none).up T.up none).2 = .error e := by
  have hr := Spec.smallArm_wrist none none
  have hT := fwdkin_chain6 hr.types hr.axes hr.links 0 0 0 0 0 0
  obtain ⟨e, he⟩ := C30_robot6_home_raises hr Spec.smallArm_regular (.inl rfl)
    (by intro h; have := congrArg V3.y h; simp at this) rfl hT
  exact ⟨_, e, hT, he⟩

/-- a regular joint vector of the small arm: the arm at home, the hand pointing along y -/
theorem Spec.smallArm_conf : Spec.RegularConf (V3.ez : V3 ℝ) V3.ey V3.ey V3.ex V3.ey V3.ex 0 V3.ez (V3.ex + 0) 0 0 (Real.pi / 2)
    (Real.pi / 2) 0 where
  shoulder := by simp only [rot_zero, M3.one_mulVec]; intro h; have := congrArg V3.y h; simp at this
  wrist := by rw [npEps_real]; simp [rot, V3.dot]; norm_num
  clear2 := .inl ⟨0, by simp⟩
  clear4 := by
    right
    rw [snap_eq, V3.norm_eq]
    apply Real.le_sqrt_of_sq_le
    simp [rot, V3.dot]; norm_num
  clear5 := by
    right
    rw [snap_eq, V3.norm_eq]
    apply Real.le_sqrt_of_sq_le
    simp [rot, V3.dot]; norm_num
  clear6 := .inl ⟨0, by simp⟩

/-- No placement of the wrist centre of the small arm makes the wrist singular for this pose. -/
theorem Spec.smallArm_away (lo up : Option (List ℝ)) (n : ℤ) {T : Transform ℝ}
    (hT : fwdkin (Spec.smallArm lo up) [n * (2 * Real.pi), 0, 0, Real.pi / 2, Real.pi / 2, 0] true = .ok T) (a b c : ℝ)
    (h : (Spec.wristAt (V3.ez : V3 ℝ) V3.ey V3.ey V3.ez 0 V3.ez (V3.ex + 0) a b c -
      Spec.wristAt V3.ez V3.ey V3.ey V3.ez 0 V3.ez (V3.ex + 0) (n * (2 * Real.pi)) 0 0).norm < snap) :
    npEps ≤ Spec.wristSq (Spec.smallArm lo up) T V3.ez V3.ey V3.ey V3.ex V3.ex a b c := by
  have hr := Spec.smallArm_wrist lo up
  have z : (0 : V3 ℝ) = ((0 : V3 ℝ).dot V3.ex) • V3.ex := by ext <;> simp [V3.dot]
  obtain ⟨eR, -⟩ := wristArm_pose hr z z hT
  have e5 : (Spec.lastLinkR (Spec.smallArm lo up) T).mulVec V3.ex = V3.ey := by
    rw [Spec.lastLinkR, ← unapplyAux_R, eR, rot_turns, rot_zero, rot_zero]
    ext <;> simp [rot]
  rw [Spec.wristSq, e5]
  have e6 : Spec.wristAt (V3.ez : V3 ℝ) V3.ey V3.ey V3.ez 0 V3.ez (V3.ex + 0) (n * (2 * Real.pi)) 0 0 = ⟨1, 0, 2⟩ := by
    rw [Spec.wristAt, rot_turns, rot_zero]
    ext <;> simp; norm_num
  rw [e6] at h
  -- components
  set A := Real.sin b + (Real.cos b * Real.cos c - Real.sin b * Real.sin c) with hA
  set U := Real.cos b * Real.cos c - Real.sin b * Real.sin c with hU
  have hx := V3.abs_x_le (Spec.wristAt (V3.ez : V3 ℝ) V3.ey V3.ey V3.ez 0 V3.ez (V3.ex + 0) a b c - ⟨1, 0, 2⟩)
  have hy := V3.abs_y_le (Spec.wristAt (V3.ez : V3 ℝ) V3.ey V3.ey V3.ez 0 V3.ez (V3.ex + 0) a b c - ⟨1, 0, 2⟩)
  have ex : (Spec.wristAt (V3.ez : V3 ℝ) V3.ey V3.ey V3.ez 0 V3.ez (V3.ex + 0) a b c - ⟨1, 0, 2⟩).x = Real.cos a * A - 1 := by
    simp [Spec.wristAt, rot, hA]; left; rw [hU]; ring
  have ey : (Spec.wristAt (V3.ez : V3 ℝ) V3.ey V3.ey V3.ez 0 V3.ez (V3.ex + 0) a b c - ⟨1, 0, 2⟩).y = Real.sin a * A := by
    simp [Spec.wristAt, rot, hA]; left; rw [hU]; ring
  have e3 : ((rot (V3.ez : V3 ℝ) a * rot V3.ey b * rot V3.ey c).mulVec V3.ex).dot V3.ey = Real.sin a * U := by
    simp [rot, V3.dot, hU]; ring
  rw [e3]
  rw [ex] at hx
  rw [ey] at hy
  have hx' := abs_lt.1 (hx.trans_lt h)
  have hy' := abs_lt.1 (hy.trans_lt h)
  have hs := snap_eq
  have hs0 := snap_pos
  have hU1 : U ^ 2 ≤ 1 := by
    rw [hU, ← Real.cos_add]; exact Real.cos_sq_le_one _
  have hca := Real.cos_sq_le_one a
  have hsa := Real.sin_sq_add_cos_sq a
  have h1 : (1 / 2 : ℝ) < Real.cos a * A := by rw [hs] at hx'; linarith [hx'.1]
  have h2 : 1 / 4 < A ^ 2 := by
    have : 1 / 4 < (Real.cos a * A) ^ 2 := by nlinarith
    nlinarith [sq_nonneg A]
  have h3 : (Real.sin a * A) ^ 2 < snap ^ 2 := by nlinarith [hy'.1, hy'.2]
  have h4 : Real.sin a ^ 2 < 4 * snap ^ 2 := by nlinarith [sq_nonneg (Real.sin a)]
  have h5 : (Real.sin a * U) ^ 2 ≤ Real.sin a ^ 2 := by nlinarith [sq_nonneg (Real.sin a)]
  rw [npEps_real]
  rw [hs] at h4
  norm_num at h4 ⊢
  linarith

/-- The small arm returns for the pose of this joint vector, whatever the limits. -/
theorem Spec.smallArm_returns (lo up : Option (List ℝ)) (hl : Spec.limitsSized (Spec.smallArm lo up) 6) (n : ℤ) {T : Transform ℝ}
    (hT : fwdkin (Spec.smallArm lo up) [n * (2 * Real.pi), 0, 0, Real.pi / 2, Real.pi / 2, 0] true = .ok T) :
    ∃ sols, (robot6_sphericalwrist_invkin (Spec.smallArm lo up).up T.up none).2 = .ok sols := by
  have z : (0 : V3 ℝ) = ((0 : V3 ℝ).dot V3.ex) • V3.ex := by ext <;> simp [V3.dot]
  exact C30_robot6_returns (Spec.smallArm_wrist lo up) Spec.smallArm_regular z z hl Spec.smallArm_conf.shoulder hT
    (Spec.smallArm_away lo up n hT)

-- non-vacuity of C29, C30 and C31: with limits of ±3, the solution is returned
example : ∃ T sols s, fwdkin (Spec.smallArm (some [-3, -3, -3, -3, -3, -3]) (some [3, 3, 3, 3, 3, 3])) [0, 0, 0, Real.pi / 2, Real.pi / 2, 0] true = .ok T ∧
    (robot6_sphericalwrist_invkin (Spec.smallArm (some [-3, -3, -3, -3, -3, -3]) (some [3, 3, 3, 3, 3, 3])).up T.up none).2 = .ok sols ∧
    s ∈ sols := by
  set lo : List ℝ := [-3, -3, -3, -3, -3, -3] with hlo
  set up : List ℝ := [3, 3, 3, 3, 3, 3] with hup
  have hr := Spec.smallArm_wrist (some lo) (some up)
  have hT := fwdkin_chain6 hr.types hr.axes hr.links 0 0 0 (Real.pi / 2) (Real.pi / 2) 0
  have p1 := Real.pi_gt_three
  have p2 := Real.pi_lt_d2
  obtain ⟨sols, hs⟩ := Spec.smallArm_returns (some lo) (some up) (by rintro _ _ ⟨⟩ ⟨⟩; simp [hlo, hup]) 0 (by rw [Int.cast_zero, zero_mul]; exact hT)
  have hw : ∀ j < 6, ∀ q : ℝ, -3 < q → q < 3 → Spec.withinLimits (Spec.smallArm (some lo) (some up)) j q := by
    rintro j hj q h1 h2 _ _ ⟨⟩ ⟨⟩
    refine ⟨-3, 3, ?_, ?_, h1, h2, .inl ⟨by linarith, by linarith⟩⟩ <;> interval_cases j <;> rfl
  obtain ⟨n1, n2, n3, n4, n5, n6, hm⟩ := C30_robot6_complete_partial hr Spec.smallArm_regular Spec.smallArm_conf (hw 0 (by norm_num) 0 (by norm_num) (by norm_num))
    (hw 1 (by norm_num) 0 (by norm_num) (by norm_num)) (hw 2 (by norm_num) 0 (by norm_num) (by norm_num))
    (hw 3 (by norm_num) _ (by linarith) (by linarith)) (hw 4 (by norm_num) _ (by linarith) (by linarith))
    (hw 5 (by norm_num) 0 (by norm_num) (by norm_num)) hT hs
  exact ⟨_, _, _, hT, hs, hm⟩

/-- C30 is false with limits far from zero: 125.6… is strictly between the limits 100 and 200 of the first joint, but the call
for the pose of this joint vector returns the empty list, since angles are only moved by one turn. -/
theorem C30_robot6_far_limits_false : ∃ (r : Robot ℝ) (θ : List ℝ) (T : Transform ℝ) (lo up : List ℝ),
    r.lower = some lo ∧ r.upper = some up ∧ List.Forall₂ (· < ·) lo θ ∧ List.Forall₂ (· < ·) θ up ∧
    fwdkin r θ true = .ok T ∧ (robot6_sphericalwrist_invkin r.up T.up).2 = .ok [] := by
  have p1 := Real.pi_gt_three
  have p2 := Real.pi_lt_d2
  set lo : List ℝ := [100, -3, -3, -3, -3, -3] with hlo
  set up : List ℝ := [200, 3, 3, 3, 3, 3] with hup
  have hr := Spec.smallArm_wrist (some lo) (some up)
  have hT := fwdkin_chain6 hr.types hr.axes hr.links ((20 : ℤ) * (2 * Real.pi)) 0 0 (Real.pi / 2) (Real.pi / 2) 0
  obtain ⟨sols, hs⟩ := Spec.smallArm_returns (some lo) (some up) (by rintro _ _ ⟨⟩ ⟨⟩; simp [hlo, hup]) 20 hT
  refine ⟨Spec.smallArm (some lo) (some up), _, _, lo, up, rfl, rfl, ?_, ?_, hT, ?_⟩
  · simp only [hlo, List.forall₂_cons, List.forall₂_nil_left_iff, and_true]
    push_cast
    refine ⟨?_, ?_, ?_, ?_, ?_, ?_⟩ <;> linarith
  · simp only [hup, List.forall₂_cons, List.forall₂_nil_right_iff, and_true]
    push_cast
    refine ⟨?_, ?_, ?_, ?_, ?_, ?_⟩ <;> linarith
  · rw [hs]
    congr 1
    rcases sols with _ | ⟨s, sols⟩
    · rfl
    exfalso
    obtain ⟨-, -, h⟩ := robot6_search hr hs
    simp only [r6Search, V3.up_ey, V3.up_add, V3.up_dot, M3.up_mulVec, V3.up_sub, V3.up_neg] at h
    obtain ⟨Q1, c1, h⟩ := Except.bind_eq_ok h
    obtain ⟨x1, m1, -⟩ := mem_forAppend h (List.mem_cons_self (a := s) (l := sols))
    obtain ⟨θ1, mθ1, n1⟩ := callS_mem c1 m1
    have hlim : (upNormalizer (Spec.smallArm (some lo) (some up)) none).limits = some (lo.map .fin, up.map .fin) := rfl
    have h0 : ∀ (x : XReal), (upNormalizer (Spec.smallArm (some lo) (some up)) none).normalize 0 θ1 = .ok (some x) →
        ∃ t, normLimits (.fin 100) (.fin 200) θ1 = some t := by
      intro x hx
      simp only [Normalizer.normalize, hlim] at hx
      simp only [hlo, hup, getI, List.map_cons, List.getElem?_cons_zero, Except.bind_ok, Except.pure_eq] at hx
      rcases hn : normLimits (XReal.fin 100) (.fin 200) θ1 with _ | t
      · rw [hn] at hx; cases hx
      · exact ⟨t, rfl⟩
    obtain ⟨t, ht⟩ := h0 _ n1
    rcases subproblem4_mem mθ1 with rfl | ⟨t1, rfl, -⟩
    · rw [normLimits_nan] at ht; cases ht
    · have hb := abs_le.1 (subproblem4_bound' mθ1)
      obtain ⟨m, m1, m2, m3⟩ := normLimits_near ht
      have m1' : (m : ℝ) ≤ 1 := by exact_mod_cast (abs_le.1 m1).2
      nlinarith [hb.2]
