import Verif.Lemmas.Ur
import Verif.Props.Robot6

/-!
# Properties C35, C36, C60: `ur_invkin`

`snap` is the coincidence tolerance `sqrt(eps)` = 2⁻²⁶ of `subproblem1`.
-/
set_option autoImplicit false

/-! ## C35 -/

/-- A UR arm: six rotary joints, joint 1 about z, joints 2, 3, 4 and 6 about `k`, which is y or -y, joint 5 about -z, the first offset
along z and the offset from joint 5 to joint 6 along `k`. -/
structure Spec.UrChain (r : Robot ℝ) (k P0 P1 P2 P3 P4 P5 P6 : V3 ℝ) : Prop where
  types : r.jointType = [0, 0, 0, 0, 0, 0]
  axes : r.H = [V3.ez, k, k, k, -V3.ez, k]
  links : r.P = [P0, P1, P2, P3, P4, P5, P6]
  par : k = V3.ey ∨ k = -V3.ey
  first : ∃ c : ℝ, P0 = c • V3.ez
  wrist : ∃ c : ℝ, P5 = c • k
  base : ∀ B, r.Tbase = some B → IsRot B.R
  flange : ∀ F, r.Tflange = some F → IsRot F.R
  tool : ∀ R, r.Rtool = some R → IsRot R

/-- Squared sine of the angle between the parallel axes, as placed by the first joint, and the last axis as asked by the pose.  It
vanishes at the wrist singularity. -/
noncomputable def Spec.urWristSq (r : Robot ℝ) (T : Transform ℝ) (q1 : ℝ) : ℝ :=
  1 - (V3.ey.dot ((rot V3.ez q1).transpose.mulVec ((Spec.lastLinkR r T).mulVec V3.ey))) ^ 2

section
variable {r : Robot ℝ} {k P0 P1 P2 P3 P4 P5 P6 : V3 ℝ}

theorem Spec.UrChain.aux (h : Spec.UrChain r k P0 P1 P2 P3 P4 P5 P6) : IsRot (auxB r).R ∧ IsRot (auxF r).R ∧ IsRot (auxX r).R := by
  refine ⟨?_, ?_, ?_⟩
  · unfold auxB
    rcases hB : r.Tbase with _ | B
    · exact IsRot.one
    · exact h.base B hB
  · unfold auxF
    rcases hB : r.Tflange with _ | B
    · exact IsRot.one
    · exact h.flange B hB
  · unfold auxX
    rcases hR : r.Rtool with _ | R
    · exact IsRot.one
    · rcases r.ptool with _ | p
      · exact IsRot.one
      · exact h.tool R hR

theorem Spec.UrChain.up_H (h : Spec.UrChain r k P0 P1 P2 P3 P4 P5 P6) :
    r.up.H = [V3.ez.up, k.up, k.up, k.up, (-V3.ez : V3 ℝ).up, k.up] := by
  show r.H.map V3.up = _; rw [h.axes]; rfl

theorem Spec.UrChain.up_P (h : Spec.UrChain r k P0 P1 P2 P3 P4 P5 P6) :
    r.up.P = [P0.up, P1.up, P2.up, P3.up, P4.up, P5.up, P6.up] := by
  show r.P.map V3.up = _; rw [h.links]; rfl

/-- the position of the bare arm, with the offsets 5 and 6 carried by the last link -/
theorem ur_chain (hP5 : ∃ c : ℝ, P5 = c • k) (q1 q2 q3 q4 q5 q6 : ℝ) :
    P0 + (rot V3.ez q1).mulVec (P1 + (rot k q2).mulVec (P2 + (rot k q3).mulVec (P3 + (rot k q4).mulVec (P4 + (rot (-V3.ez) q5).mulVec
      (P5 + (rot k q6).mulVec P6))))) =
    P0 + (rot V3.ez q1).mulVec (P1 + (rot k q2).mulVec (P2 + (rot k q3).mulVec (P3 + (rot k q4).mulVec P4))) +
      (rot V3.ez q1 * rot k q2 * rot k q3 * (rot k q4 * rot (-V3.ez) q5) * rot k q6).mulVec (P6 + P5) := by
  obtain ⟨c, hP5⟩ := hP5
  have f5 : P5 + (rot k q6).mulVec P6 = (rot k q6).mulVec (P6 + P5) := by
    have : (rot k q6).mulVec P5 = P5 := by rw [hP5, rot_hsmul_axis]
    rw [M3.mulVec_add, this]; ext <;> simp <;> ring
  rw [f5]
  simp only [M3.mulVec_add (rot V3.ez q1), M3.mulVec_add (rot k q2), M3.mulVec_add (rot k q3), M3.mulVec_add (rot k q4),
    M3.mulVec_mulVec, M3.mul_assoc']
  generalize (rot V3.ez q1).mulVec P1 = a1
  generalize (rot V3.ez q1 * rot k q2).mulVec P2 = a2
  generalize (rot V3.ez q1 * (rot k q2 * rot k q3)).mulVec P3 = a3
  generalize (rot V3.ez q1 * (rot k q2 * (rot k q3 * rot k q4))).mulVec P4 = a4
  generalize (rot V3.ez q1 * (rot k q2 * (rot k q3 * (rot k q4 * (rot (-V3.ez) q5 * rot k q6))))).mulVec (P6 + P5) = a6
  ext <;> simp <;> ring

/-- C35: for every UR arm with any rigid base, flange and tool, with or without limits and last joint values, every joint vector
returned consists of six finite numbers.  Unless the wrist is singular for it (the squared sine of the angle between the parallel axes
and the requested last axis is below the tolerance `eps` of the code), `fwdkin` takes it to the requested pose up to the coincidence
tolerance: `10·snap` in the rotation, and the lever arms times that in the position. -/
theorem C35_ur_sound (hr : Spec.UrChain r k P0 P1 P2 P3 P4 P5 P6) (T : Transform ℝ) (hT : IsRot T.R) (last : Option (List ℝ))
    (sols : List (List XReal)) (h : ur_invkin r.up T.up (last.map (·.map .fin)) = .ok sols) (s : List XReal) (hs : s ∈ sols) :
    ∃ q1 q2 q3 q4 q5 q6 : ℝ, s = [.fin q1, .fin q2, .fin q3, .fin q4, .fin q5, .fin q6] ∧
      (npEps ≤ Spec.urWristSq r T q1 →
        ∃ T', fwdkin r [q1, q2, q3, q4, q5, q6] true = .ok T' ∧
          (∀ v : V3 ℝ, (T'.R.mulVec v - T.R.mulVec v).norm ≤ 10 * snap * v.norm) ∧
          (T'.p - T.p).norm ≤ (1 + P3.norm) * snap + 10 * snap * ((P6 + P5).norm + (auxF r).p.norm + (auxX r).p.norm)) := by
  obtain ⟨hB, hF, hX⟩ := hr.aux
  obtain ⟨-, rows, h1, h⟩ := ur_invkin_ok h
  have hs := (sortByLast_mem h).mem_iff.1 hs
  rw [unapplyAux_up, hr.up_H, hr.up_P] at h1
  obtain ⟨c, hc⟩ := hr.first
  have h6 : IsRot (unapplyAux r T).R := unapply_rot hB hF hX hT
  obtain ⟨q1, q2, q3, q4, q5, q6, rfl, hpos, hrot⟩ := urSearch_sound (r := r) (last := last) hr.par hc h6 h1 hs
  refine ⟨q1, q2, q3, q4, q5, q6, rfl, fun hns => ⟨_, fwdkin_chain6 hr.types hr.axes hr.links q1 q2 q3 q4 q5 q6, ?_⟩⟩
  rw [Spec.urWristSq, Spec.lastLinkR, ← unapplyAux_R] at hns
  have hrot := hrot hns
  set U := unapplyAux r T with hU
  obtain ⟨g1, g2⟩ := aux_close (r := r) hB hF hX (T := T)
    (C := ⟨rot V3.ez q1 * rot k q2 * rot k q3 * (rot k q4 * rot (-V3.ez) q5) * rot k q6,
      P0 + (rot V3.ez q1).mulVec (P1 + (rot k q2).mulVec (P2 + (rot k q3).mulVec (P3 + (rot k q4).mulVec (P4 + (rot (-V3.ez) q5).mulVec
        (P5 + (rot k q6).mulVec P6))))), none, none⟩) (ε := 10 * snap)
    (δ := (1 + P3.norm) * snap + 10 * snap * (P6 + P5).norm) hrot (by
      show (P0 + _ - U.p).norm ≤ _
      rw [ur_chain hr.wrist]
      have hv := hrot (P6 + P5)
      generalize (rot V3.ez q1 * rot k q2 * rot k q3 * (rot k q4 * rot (-V3.ez) q5) * rot k q6).mulVec (P6 + P5) = a at hv ⊢
      generalize P0 + (rot V3.ez q1).mulVec (P1 + (rot k q2).mulVec (P2 + (rot k q3).mulVec (P3 + (rot k q4).mulVec P4))) = b at hpos ⊢
      generalize U.R.mulVec (P6 + P5) = d at hpos hv ⊢
      have e : b + a - U.p = (b - (U.p - d)) + (a - d) := by ext <;> simp <;> ring
      simp only [e]
      exact (V3.norm_add_le _ _).trans (add_le_add hpos hv))
  exact ⟨g1, g2.trans (le_of_eq (by ring))⟩

/-! ## C60 -/

/-- The shoulder and the wrist are not singular, upper arm and forearm are not along the elbow axis, at zero elbow angle the forearm,
seen along the elbow axis, either continues the upper arm exactly or clearly does not, and joints 2, 5 and 6 and the parallel joints
together either do nothing or move what they move by more than the coincidence tolerance. -/
structure Spec.RegularUr (k P1 P2 P3 P4 : V3 ℝ) (q2 q3 q4 q5 q6 : ℝ) : Prop where
  upper : k.cross P2 ≠ 0
  fore : k.cross P3 ≠ 0
  bend : Spec.dir P3 k = Spec.dir P2 k ∨ snap ≤ (Spec.dir P3 k - Spec.dir P2 k).norm
  shoulder : V3.ez.cross (P1 + (rot k q2).mulVec (P2 + (rot k q3).mulVec (P3 + (rot k q4).mulVec P4))) ≠ 0
  wrist : npEps ≤ Real.sin q5 ^ 2
  clear2 : Spec.clear k (P2 + (rot k q3).mulVec P3) q2
  clear24 : Spec.clear k ((rot (-V3.ez) q5).mulVec k) (q2 + q3 + q4)
  clear5 : Spec.clear (-V3.ez) k q5
  clear6 : Spec.clear k (-V3.ez) q6

/-- the pose of the bare arm -/
theorem urArm_pose (hr : Spec.UrChain r k P0 P1 P2 P3 P4 P5 P6) {q1 q2 q3 q4 q5 q6 : ℝ} {T : Transform ℝ}
    (hT : fwdkin r [q1, q2, q3, q4, q5, q6] true = .ok T) :
    (unapplyAux r T).R = rot V3.ez q1 * rot k (q2 + q3 + q4) * rot (-V3.ez) q5 * rot k q6 ∧
    (unapplyAux r T).p - (unapplyAux r T).R.mulVec (P6 + P5) =
      P0 + (rot V3.ez q1).mulVec (P1 + (rot k q2).mulVec (P2 + (rot k q3).mulVec (P3 + (rot k q4).mulVec P4))) := by
  obtain ⟨hB, hF, hX⟩ := hr.aux
  rw [fwdkin_chain6 hr.types hr.axes hr.links] at hT
  cases hT
  rw [unapply_apply_R hB hF hX, unapply_apply_p hB hF hX]
  constructor
  · rw [← rot_add3 (pm_unit hr.par)]; simp only [M3.mul_assoc']
  · show P0 + _ - _ = _
    rw [ur_chain hr.wrist]
    generalize (rot V3.ez q1 * rot k q2 * rot k q3 * (rot k q4 * rot (-V3.ez) q5) * rot k q6).mulVec (P6 + P5) = a
    generalize P0 + (rot V3.ez q1).mulVec (P1 + (rot k q2).mulVec (P2 + (rot k q3).mulVec (P3 + (rot k q4).mulVec P4))) = b
    ext <;> simp

theorem ur_search_last (hr : Spec.UrChain r k P0 P1 P2 P3 P4 P5 P6) {T : Transform ℝ} {last : Option (List ℝ)} {sols : List (List XReal)}
    (h : ur_invkin r.up T.up (last.map (·.map .fin)) = .ok sols) : ∃ rows,
    urSearch [V3.ez.up, k.up, k.up, k.up, (-V3.ez : V3 ℝ).up, k.up] [P0.up, P1.up, P2.up, P3.up, P4.up, P5.up, P6.up]
      (upNormalizer r last) (unapplyAux r T).R.up (unapplyAux r T).p.up = .ok rows ∧
      sortByLast rows (last.map (·.map .fin)) = .ok sols := by
  obtain ⟨-, rows, h1, h⟩ := ur_invkin_ok h
  rw [unapplyAux_up, hr.up_H, hr.up_P] at h1
  exact ⟨rows, h1, h⟩

theorem ur_search (hr : Spec.UrChain r k P0 P1 P2 P3 P4 P5 P6) {T : Transform ℝ} {sols : List (List XReal)}
    (h : ur_invkin r.up T.up = .ok sols) :
    urSearch [V3.ez.up, k.up, k.up, k.up, (-V3.ez : V3 ℝ).up, k.up] [P0.up, P1.up, P2.up, P3.up, P4.up, P5.up, P6.up]
      (upNormalizer r none) (unapplyAux r T).R.up (unapplyAux r T).p.up = .ok sols := by
  obtain ⟨rows, h1, h⟩ := ur_search_last (last := none) hr h
  cases h
  exact h1

theorem cos_q5 (s : k = V3.ey ∨ k = -V3.ey) (q : ℝ) : k.dot ((rot (-V3.ez) q).mulVec k) = Real.cos q := by
  rcases s with rfl | rfl <;> simp [rot, V3.dot]

/-- C60 (`_partial`: the property has no regularity conditions, allows all limits and last joint values; see
`C60_ur_singular_raises`, `C60_ur_limits_false` and `C28_call_prunes_false`).  For every UR arm with any rigid base, flange and tool:
if the call for the pose of a regular joint vector, with joints 1 and 6 strictly inside limits of the usual kind and the parallel
joints strictly inside limits of at most half a turn or with limits of at least one turn, returns, then the list contains this joint
vector up to multiples of `2π` - exactly, not just up to a tolerance. -/
theorem C60_ur_complete_partial (hr : Spec.UrChain r k P0 P1 P2 P3 P4 P5 P6) {q1 q2 q3 q4 q5 q6 : ℝ}
    (hc : Spec.RegularUr k P1 P2 P3 P4 q2 q3 q4 q5 q6) (l1 : Spec.withinLimits r 0 q1) (l234 : Spec.urLimits r q2 q3 q4)
    (l6 : Spec.withinLimits r 5 q6) {T : Transform ℝ} (hT : fwdkin r [q1, q2, q3, q4, q5, q6] true = .ok T) {sols : List (List XReal)}
    (h : ur_invkin r.up T.up = .ok sols) :
    ∃ n1 n2 n3 n4 n5 n6 : ℤ, [XReal.fin (q1 + n1 * (2 * Real.pi)), .fin (q2 + n2 * (2 * Real.pi)), .fin (q3 + n3 * (2 * Real.pi)),
      .fin (q4 + n4 * (2 * Real.pi)), .fin (q5 + n5 * (2 * Real.pi)), .fin (q6 + n6 * (2 * Real.pi))] ∈ sols ∧
      |q5 + n5 * (2 * Real.pi)| ≤ Real.pi := by
  obtain ⟨eR, ep⟩ := urArm_pose hr hT
  obtain ⟨c, hP0⟩ := hr.first
  obtain ⟨b2, b3, b4, k2, k3, k4⟩ := keepsTo_ur l234
  obtain ⟨n1, n2, n3, n4, n5, n6, -, hm⟩ := urSearch_complete hr.par hP0 eR ep hc.shoulder hc.fore hc.upper hc.bend
    (by rw [cos_q5 hr.par]; have := hc.wrist; rw [Real.sin_sq] at this; exact this)
    hc.clear2 hc.clear24 hc.clear5 hc.clear6 (keeps_of_within l1) k2 k3 k4 (keeps_of_within l6) (ur_search hr h)
  exact ⟨n1, n2, n3, n4, n5, n6, hm⟩

/-- C60: an empty list means that no regular joint vector inside such limits reaches the pose. -/
theorem C60_ur_empty_partial (hr : Spec.UrChain r k P0 P1 P2 P3 P4 P5 P6) {T : Transform ℝ} (h : ur_invkin r.up T.up = .ok [])
    (q1 q2 q3 q4 q5 q6 : ℝ) (hc : Spec.RegularUr k P1 P2 P3 P4 q2 q3 q4 q5 q6) (l1 : Spec.withinLimits r 0 q1)
    (l234 : Spec.urLimits r q2 q3 q4) (l6 : Spec.withinLimits r 5 q6) : fwdkin r [q1, q2, q3, q4, q5, q6] true ≠ .ok T := by
  intro hT
  obtain ⟨_, _, _, _, _, _, hm, -⟩ := C60_ur_complete_partial hr hc l1 l234 l6 hT h
  cases hm

theorem allcloseCols_self {l : List (V3 XReal)} (h : ∀ v ∈ l, iscloseD v.x v.x ∧ iscloseD v.y v.y ∧ iscloseD v.z v.z) :
    allcloseCols l l = .ok true := by
  simp only [allcloseCols, bcast, if_true, Except.bind_ok, Except.pure_eq]
  congr 1
  rw [List.all_eq_true]
  rintro ⟨a, b⟩ hab
  obtain ⟨n, h1, h2⟩ := List.getElem_of_mem hab
  rw [List.getElem_zip] at h2
  cases h2
  exact decide_eq_true (h _ (List.getElem_mem _))

/-- the axis check accepts the exact axes -/
theorem ur_axes_ok (hr : Spec.UrChain r k P0 P1 P2 P3 P4 P5 P6) : ∃ a, allcloseCols urAxesNeg r.up.H = .ok a ∧
    (a = true ∨ allcloseCols urAxesPos r.up.H = .ok true) := by
  have self : ∀ x : ℝ, iscloseD (XReal.fin x) (.fin x) := by
    intro x
    exact Or.inl ⟨le_refl x, le_refl x⟩
  have self' : ∀ v : V3 ℝ, iscloseD v.up.x v.up.x ∧ iscloseD v.up.y v.up.y ∧ iscloseD v.up.z v.up.z := fun v => ⟨self _, self _, self _⟩
  have hall : ∀ v ∈ r.up.H, iscloseD v.x v.x ∧ iscloseD v.y v.y ∧ iscloseD v.z v.z := by
    rw [hr.up_H]
    intro v hv
    simp only [List.mem_cons, List.not_mem_nil, or_false] at hv
    rcases hv with rfl | rfl | rfl | rfl | rfl | rfl <;> exact self' _
  have hk := hr.par
  rcases hk with rfl | rfl
  · have e : r.up.H = urAxesPos := by rw [hr.up_H]; simp only [V3.up_ez, V3.up_ey, V3.up_neg, urAxesPos]
    rw [e] at hall ⊢
    exact ⟨_, rfl, .inr (allcloseCols_self hall)⟩
  · have e : r.up.H = urAxesNeg := by rw [hr.up_H]; simp only [V3.up_ez, V3.up_ey, V3.up_neg, urAxesNeg]
    rw [e] at hall ⊢
    exact ⟨_, allcloseCols_self hall, .inl rfl⟩

theorem ur_eval (hr : Spec.UrChain r k P0 P1 P2 P3 P4 P5 P6) (T : Transform ℝ) (last : Option (List ℝ)) :
    ur_invkin r.up T.up (last.map (·.map .fin)) = urSearch [V3.ez.up, k.up, k.up, k.up, (-V3.ez : V3 ℝ).up, k.up]
      [P0.up, P1.up, P2.up, P3.up, P4.up, P5.up, P6.up] (upNormalizer r last) (unapplyAux r T).R.up (unapplyAux r T).p.up >>=
      fun s => sortByLast s (last.map (·.map .fin)) := by
  obtain ⟨a, e1, e2⟩ := ur_axes_ok hr
  simp only [ur_invkin, e1, Except.bind_ok, unapplyAux_up, hr.up_P]
  rcases e2 with rfl | e2
  · simp only [if_true, Except.pure_eq, Except.bind_ok, pyAssert]
    rw [hr.up_H]; rfl
  · cases a
    · simp only [Bool.false_eq_true, if_false, e2, Except.bind_ok, pyAssert, if_true]
      rw [hr.up_H]; rfl
    · simp only [if_true, Except.pure_eq, Except.bind_ok, pyAssert]
      rw [hr.up_H]; rfl

/-- the search returns -/
theorem ur_rows (hr : Spec.UrChain r k P0 P1 P2 P3 P4 P5 P6) (hl : Spec.limitsSized r 6)
    {last : Option (List ℝ)} (hs6 : Spec.lastSized last 6) {q1 q2 q3 q4 q5 q6 : ℝ}
    (hp2 : k.cross P2 ≠ 0) (hp3 : k.cross P3 ≠ 0) (hb : Spec.dir P3 k = Spec.dir P2 k ∨ snap ≤ (Spec.dir P3 k - Spec.dir P2 k).norm)
    (hs : V3.ez.cross (P1 + (rot k q2).mulVec (P2 + (rot k q3).mulVec (P3 + (rot k q4).mulVec P4))) ≠ 0) {T : Transform ℝ}
    (hT : fwdkin r [q1, q2, q3, q4, q5, q6] true = .ok T)
    (hns : ∀ a : ℝ, V3.ey.dot ((rot V3.ez (a - q1)).transpose.mulVec (P1 + (rot k q2).mulVec (P2 + (rot k q3).mulVec (P3 + (rot k q4).mulVec P4)))) =
      V3.ey.dot (P1 + P2 + P3 + P4) → npEps ≤ Spec.urWristSq r T a) : ∃ rows,
    urSearch [V3.ez.up, k.up, k.up, k.up, (-V3.ez : V3 ℝ).up, k.up] [P0.up, P1.up, P2.up, P3.up, P4.up, P5.up, P6.up]
      (upNormalizer r last) (unapplyAux r T).R.up (unapplyAux r T).p.up = .ok rows := by
  obtain ⟨eR, ep⟩ := urArm_pose hr hT
  obtain ⟨c, hP0⟩ := hr.first
  have u := pm_unit hr.par
  have hR1 := rot_isRot V3.ez ez_unit q1
  have h6 : IsRot (unapplyAux r T).R := by
    rw [eR]
    exact (((hR1.mul (rot_isRot k u _)).mul (rot_isRot _ nez_unit q5)).mul (rot_isRot k u q6))
  set g := P1 + (rot k q2).mulVec (P2 + (rot k q3).mulVec (P3 + (rot k q4).mulVec P4)) with hg
  have ecross : V3.ez.cross ((unapplyAux r T).p - (unapplyAux r T).R.mulVec (P6 + P5)) = (rot V3.ez q1).mulVec (V3.ez.cross g) := by
    rw [ep, hP0, hR1.mulVec_cross, rot_axis]
    generalize (rot V3.ez q1).mulVec g = x
    ext <;> simp
  have hey : V3.ey.dot g = V3.ey.dot (P1 + P2 + P3 + P4) := by
    rw [hg, V3.dot_add, ey_rot_pm hr.par, V3.dot_add, ey_rot_pm hr.par, V3.dot_add, ey_rot_pm hr.par]; simp only [V3.dot_add]; ring
  refine urSearch_total (r := r) (P1 := P1) (P2 := P2) (P3 := P3) (P4 := P4) (P5 := P5) (P6 := P6) hr.par hP0 h6 hl hs6
    (p0T := (unapplyAux r T).p)
    (by
      rw [ecross]; intro e; apply hs
      rw [← hR1.transpose_mulVec_mulVec (V3.ez.cross g), e]; ext <;> simp)
    (by
      rw [ecross, hR1.norm_mulVec, ← hey]
      have := V3.abs_x_le (V3.ez.cross g)
      simpa [V3.dot] using this)
    hp3 hp2 hb (by
      intro a ha
      have := hns a (by
        rw [← ha, ep]
        have e1 : rot V3.ez a = rot V3.ez q1 * rot V3.ez (a - q1) := by rw [rot_mul _ ez_unit]; congr 1; ring
        have fix : ∀ b, (rot V3.ez b).transpose.mulVec P0 = P0 := by
          intro b
          have hfix : (rot V3.ez b).mulVec P0 = P0 := by rw [hP0, rot_hsmul_axis]
          conv_lhs => rw [← hfix]
          exact (rot_isRot V3.ez ez_unit b).transpose_mulVec_mulVec P0
        rw [e1, M3.transpose_mul, ← M3.mulVec_mulVec, M3.mulVec_add (rot V3.ez q1).transpose, hR1.transpose_mulVec_mulVec, fix,
          M3.mulVec_add _ P0, fix, V3.dot_add _ P0, hP0]
        simp [V3.dot])
      rwa [Spec.urWristSq, Spec.lastLinkR, ← unapplyAux_R] at this)

/-- C60: the call does return for the pose of a joint vector away from the shoulder singularity, if no first joint value that puts the
arm in the right plane makes the wrist singular. -/
theorem C60_ur_returns (hr : Spec.UrChain r k P0 P1 P2 P3 P4 P5 P6) (hl : Spec.limitsSized r 6) {q1 q2 q3 q4 q5 q6 : ℝ}
    (hp2 : k.cross P2 ≠ 0) (hp3 : k.cross P3 ≠ 0) (hb : Spec.dir P3 k = Spec.dir P2 k ∨ snap ≤ (Spec.dir P3 k - Spec.dir P2 k).norm)
    (hs : V3.ez.cross (P1 + (rot k q2).mulVec (P2 + (rot k q3).mulVec (P3 + (rot k q4).mulVec P4))) ≠ 0) {T : Transform ℝ}
    (hT : fwdkin r [q1, q2, q3, q4, q5, q6] true = .ok T)
    (hns : ∀ a : ℝ, V3.ey.dot ((rot V3.ez (a - q1)).transpose.mulVec (P1 + (rot k q2).mulVec (P2 + (rot k q3).mulVec (P3 + (rot k q4).mulVec P4)))) =
      V3.ey.dot (P1 + P2 + P3 + P4) → npEps ≤ Spec.urWristSq r T a) : ∃ sols, ur_invkin r.up T.up = .ok sols := by
  obtain ⟨rows, h⟩ := ur_rows hr hl (last := none) (by simp [Spec.lastSized]) hp2 hp3 hb hs hT hns
  exact ⟨rows, (ur_eval hr T none).trans (by rw [h]; rfl)⟩

/-- C60 is false at wrist singularities: the call raises for every pose reached with the last axis along the parallel ones (unless
the shoulder is singular too), because `subproblem2` passes the arguments of `subproblem1` in the wrong order in the tangent case
(line 765 of the toolbox). -/
theorem C60_ur_singular_raises (hr : Spec.UrChain r k P0 P1 P2 P3 P4 P5 P6) {q1 q2 q3 q4 q5 q6 : ℝ} (hq5 : Real.sin q5 = 0)
    (hs : V3.ez.cross (P1 + (rot k q2).mulVec (P2 + (rot k q3).mulVec (P3 + (rot k q4).mulVec P4))) ≠ 0)
    (l1 : Spec.withinLimits r 0 q1) {T : Transform ℝ} (hT : fwdkin r [q1, q2, q3, q4, q5, q6] true = .ok T) :
    ∃ e, ur_invkin r.up T.up = .error e := by
  rcases h : ur_invkin r.up T.up with e | sols
  · exact ⟨e, rfl⟩
  exfalso
  obtain ⟨eR, ep⟩ := urArm_pose hr hT
  obtain ⟨c, hP0⟩ := hr.first
  have u := pm_unit hr.par
  have hR01 := rot_isRot V3.ez ez_unit q1
  obtain ⟨n1, sl, -, he, -⟩ := urSearch_reach hr.par hP0 ep hs (keeps_of_within l1) (ur_search hr h)
  simp only [urShoulder, rot_up, rot_periodic, M3.up_transpose, M3.up_mul, M3.up_mulVec] at he
  obtain ⟨Q, e2, -⟩ := Except.bind_eq_ok he
  have e16 : ((rot V3.ez q1).transpose * (unapplyAux r T).R).mulVec k = (rot k (q2 + q3 + q4) * rot (-V3.ez) q5).mulVec k := by
    rw [eR]
    simp only [M3.mul_assoc']
    rw [← M3.mul_assoc' (rot V3.ez q1).transpose, hR01.orth, M3.one_mul', ← M3.mul_assoc', ← M3.mulVec_mulVec, rot_axis]
  have hcos : Real.cos q5 = 1 ∨ Real.cos q5 = -1 := by
    have := Real.sin_sq_add_cos_sq q5
    rw [hq5] at this
    rcases mul_self_eq_one_iff.1 (show Real.cos q5 * Real.cos q5 = 1 by nlinarith) with e | e
    · exact .inl e
    · exact .inr e
  have e5 : (rot (-V3.ez) q5).mulVec k = Real.cos q5 • k := by
    rcases hr.par with rfl | rfl <;> ext <;> simp [rot, hq5]
  rw [e16, ← M3.mulVec_mulVec, e5, rot_hsmul_axis] at e2
  have one : k = (1 : ℝ) • k := by ext <;> simp
  nth_rw 1 [one] at e2
  rw [subproblem2_singular u nez_unit (by rcases hr.par with rfl | rfl <;> simp [V3.dot]) (.inl rfl) hcos] at e2
  cases e2

/-- C60 is false at the home pose: a UR arm without limits, with the wrist off the first axis, has the solution zero for its home
pose, but the call raises. -/
theorem C60_ur_home_raises (hr : Spec.UrChain r k P0 P1 P2 P3 P4 P5 P6) (hs : V3.ez.cross (P1 + (P2 + (P3 + P4))) ≠ 0)
    (hl : r.lower = none) {T : Transform ℝ} (hT : fwdkin r [0, 0, 0, 0, 0, 0] true = .ok T) :
    ∃ e, ur_invkin r.up T.up = .error e := by
  refine C60_ur_singular_raises hr Real.sin_zero ?_ (by intro lo up h1; rw [hl] at h1; cases h1) hT
  simpa only [rot_zero, M3.one_mulVec] using hs
end

/-! ### A concrete arm -/

/-- A small UR arm: upper arm and forearm of length 1, and an offset of 1 along y between joints 4 and 5. -/
noncomputable def Spec.smallUr (lo up : Option (List ℝ)) : Robot ℝ :=
  { H := [V3.ez, V3.ey, V3.ey, V3.ey, -V3.ez, V3.ey], P := [0, 0, V3.ez, V3.ez, V3.ey, 0, 0], jointType := [0, 0, 0, 0, 0, 0],
    lower := lo, upper := up }

theorem Spec.smallUr_arm (lo up : Option (List ℝ)) : Spec.UrChain (Spec.smallUr lo up) V3.ey 0 0 V3.ez V3.ez V3.ey 0 0 where
  types := rfl
  axes := rfl
  links := rfl
  par := .inl rfl
  first := ⟨0, by ext <;> simp⟩
  wrist := ⟨0, by ext <;> simp⟩
  base := by intro B h; cases h
  flange := by intro B h; cases h
  tool := by intro B h; cases h

theorem Spec.smallUr_offset : V3.ez.cross (0 + (rot V3.ey 0).mulVec (V3.ez + (rot V3.ey (Real.pi / 2)).mulVec (V3.ez + (rot V3.ey 0).mulVec V3.ey)) :
    V3 ℝ) ≠ 0 := by
  intro h; have := congrArg V3.x h; simp [rot] at this

/-- a regular joint vector of the small UR arm: elbow and wrist bent by a quarter turn -/
theorem Spec.smallUr_conf : Spec.RegularUr (V3.ey : V3 ℝ) 0 V3.ez V3.ez V3.ey 0 (Real.pi / 2) 0 (Real.pi / 2) 0 where
  upper := by intro h; have := congrArg V3.x h; simp at this
  fore := by intro h; have := congrArg V3.x h; simp at this
  bend := .inl rfl
  shoulder := Spec.smallUr_offset
  wrist := by rw [npEps_real]; simp; norm_num
  clear2 := .inl ⟨0, by simp⟩
  clear24 := by
    right
    rw [snap_eq, V3.norm_eq]
    apply Real.le_sqrt_of_sq_le
    simp [rot, V3.dot]; norm_num
  clear5 := by
    right
    rw [snap_eq, V3.norm_eq]
    apply Real.le_sqrt_of_sq_le
    simp [rot, V3.dot]; norm_num
  clear6 := .inl ⟨0, by simp⟩

/-- No first joint value makes the wrist of the small UR arm singular for this pose. -/
theorem Spec.smallUr_away (lo up : Option (List ℝ)) (n : ℤ) {T : Transform ℝ}
    (hT : fwdkin (Spec.smallUr lo up) [n * (2 * Real.pi), 0, Real.pi / 2, 0, Real.pi / 2, 0] true = .ok T) (a : ℝ) :
    npEps ≤ Spec.urWristSq (Spec.smallUr lo up) T a := by
  obtain ⟨eR, -⟩ := urArm_pose (Spec.smallUr_arm lo up) hT
  have e5 : (Spec.lastLinkR (Spec.smallUr lo up) T).mulVec V3.ey = -V3.ez := by
    rw [Spec.lastLinkR, ← unapplyAux_R, eR, rot_turns]
    ext <;> simp [rot]
  rw [Spec.urWristSq, e5, npEps_real]
  simp [rot, V3.dot]; norm_num

/-- The small UR arm returns for the pose of this joint vector, whatever the limits. -/
theorem Spec.smallUr_returns (lo up : Option (List ℝ)) (hl : Spec.limitsSized (Spec.smallUr lo up) 6) (n : ℤ) {T : Transform ℝ}
    (hT : fwdkin (Spec.smallUr lo up) [n * (2 * Real.pi), 0, Real.pi / 2, 0, Real.pi / 2, 0] true = .ok T) :
    ∃ sols, ur_invkin (Spec.smallUr lo up).up T.up none = .ok sols :=
  C60_ur_returns (Spec.smallUr_arm lo up) hl Spec.smallUr_conf.upper Spec.smallUr_conf.fore Spec.smallUr_conf.bend Spec.smallUr_offset hT
    fun a _ => Spec.smallUr_away lo up n hT a

-- non-vacuity of C35, C36 and C60: with limits of ±3, the solution is returned
example : ∃ T sols s, fwdkin (Spec.smallUr (some [-3, -3, -3, -3, -3, -3]) (some [3, 3, 3, 3, 3, 3])) [0, 0, Real.pi / 2, 0, Real.pi / 2, 0] true = .ok T ∧
    ur_invkin (Spec.smallUr (some [-3, -3, -3, -3, -3, -3]) (some [3, 3, 3, 3, 3, 3])).up T.up none = .ok sols ∧ s ∈ sols := by
  set lo : List ℝ := [-3, -3, -3, -3, -3, -3] with hlo
  set up : List ℝ := [3, 3, 3, 3, 3, 3] with hup
  have hr := Spec.smallUr_arm (some lo) (some up)
  have hT := fwdkin_chain6 hr.types hr.axes hr.links 0 0 (Real.pi / 2) 0 (Real.pi / 2) 0
  have p1 := Real.pi_gt_three
  have p2 := Real.pi_lt_d2
  obtain ⟨sols, hs⟩ := Spec.smallUr_returns (some lo) (some up) (by rintro _ _ ⟨⟩ ⟨⟩; simp [hlo, hup]) 0 (by rw [Int.cast_zero, zero_mul]; exact hT)
  have hw : ∀ j < 6, ∀ q : ℝ, -3 < q → q < 3 → Spec.withinLimits (Spec.smallUr (some lo) (some up)) j q := by
    rintro j hj q h1 h2 _ _ ⟨⟩ ⟨⟩
    refine ⟨-3, 3, ?_, ?_, h1, h2, .inl ⟨by linarith, by linarith⟩⟩ <;> interval_cases j <;> rfl
  obtain ⟨n1, n2, n3, n4, n5, n6, hm, -⟩ := C60_ur_complete_partial hr Spec.smallUr_conf (hw 0 (by norm_num) 0 (by norm_num) (by norm_num))
    (by
      rintro _ _ ⟨⟩ ⟨⟩
      left
      refine ⟨⟨-3, 3, rfl, rfl, ?_⟩, ⟨-3, 3, rfl, rfl, ?_⟩, ⟨-3, 3, rfl, rfl, ?_⟩⟩ <;> refine ⟨?_, ?_, ?_, ?_⟩ <;> linarith)
    (hw 5 (by norm_num) 0 (by norm_num) (by norm_num)) hT hs
  exact ⟨_, _, _, hT, hs, hm⟩

-- non-vacuity of `C60_ur_home_raises`
example : ∃ T e, fwdkin (Spec.smallUr none none) [0, 0, 0, 0, 0, 0] true = .ok T ∧
    ur_invkin (Spec.smallUr none none).up T.up none = .error e := by
  have hr := Spec.smallUr_arm none none
  have hT := fwdkin_chain6 hr.types hr.axes hr.links 0 0 0 0 0 0
  obtain ⟨e, he⟩ := C60_ur_home_raises hr (by intro h; have := congrArg V3.x h; simp at this) rfl hT
  exact ⟨_, e, hT, he⟩

/-- C36 is false: the value of joint 5 is not brought inside the limits, nor are solutions dropped when it is outside.  With limits of
±1 for joint 5, a joint vector is returned that `fwdkin` rejects. -/
theorem C36_ur_limits_false : ∃ (r : Robot ℝ) (T : Transform ℝ) (sols : List (List XReal)) (θ : List ℝ),
    r.lower = some [-3, -3, -3, -3, -1, -3] ∧ r.upper = some [3, 3, 3, 3, 1, 3] ∧
    ur_invkin r.up T.up = .ok sols ∧ θ.map XReal.fin ∈ sols ∧ fwdkin r θ = .error .assertion := by
  set lo : List ℝ := [-3, -3, -3, -3, -1, -3] with hlo
  set up : List ℝ := [3, 3, 3, 3, 1, 3] with hup
  have hr := Spec.smallUr_arm (some lo) (some up)
  have hT := fwdkin_chain6 hr.types hr.axes hr.links 0 0 (Real.pi / 2) 0 (Real.pi / 2) 0
  have p1 := Real.pi_gt_three
  have p2 := Real.pi_lt_d2
  obtain ⟨sols, hs⟩ := Spec.smallUr_returns (some lo) (some up) (by rintro _ _ ⟨⟩ ⟨⟩; simp [hlo, hup]) 0 (by rw [Int.cast_zero, zero_mul]; exact hT)
  have w1 : Spec.withinLimits (Spec.smallUr (some lo) (some up)) 0 0 := by
    rintro _ _ ⟨⟩ ⟨⟩
    exact ⟨-3, 3, rfl, rfl, by norm_num, by norm_num, .inl ⟨by linarith, by linarith⟩⟩
  have w6 : Spec.withinLimits (Spec.smallUr (some lo) (some up)) 5 0 := by
    rintro _ _ ⟨⟩ ⟨⟩
    exact ⟨-3, 3, rfl, rfl, by norm_num, by norm_num, .inl ⟨by linarith, by linarith⟩⟩
  obtain ⟨n1, n2, n3, n4, n5, n6, hm, h5⟩ := C60_ur_complete_partial hr Spec.smallUr_conf w1
    (by
      rintro _ _ ⟨⟩ ⟨⟩
      left
      refine ⟨⟨-3, 3, rfl, rfl, ?_⟩, ⟨-3, 3, rfl, rfl, ?_⟩, ⟨-3, 3, rfl, rfl, ?_⟩⟩ <;> refine ⟨?_, ?_, ?_, ?_⟩ <;> linarith)
    w6 hT hs
  refine ⟨_, _, _, [_, _, _, _, _, _], rfl, rfl, hs, hm, ?_⟩
  have hbig : (1 : ℝ) < Real.pi / 2 + n5 * (2 * Real.pi) ∨ Real.pi / 2 + n5 * (2 * Real.pi) < -1 := by
    rcases lt_or_ge n5 0 with hn | hn
    · right
      have : (n5 : ℝ) ≤ -1 := by exact_mod_cast Int.le_sub_one_of_lt hn
      nlinarith
    · left
      have : (0 : ℝ) ≤ n5 := by exact_mod_cast hn
      nlinarith
  rcases checkLimits_iff (Spec.smallUr (some lo) (some up)) [0 + n1 * (2 * Real.pi), 0 + n2 * (2 * Real.pi), Real.pi / 2 + n3 * (2 * Real.pi),
    0 + n4 * (2 * Real.pi), Real.pi / 2 + n5 * (2 * Real.pi), 0 + n6 * (2 * Real.pi)] lo up rfl rfl rfl rfl with ⟨-, h⟩ | ⟨h, -⟩
  · exfalso
    have := h 4 (by simp)
    simp only [hlo, hup, List.getElem_cons_succ, List.getElem_cons_zero] at this
    rcases hbig with hb | hb <;> linarith [this.1, this.2]
  · simp only [fwdkin, h]; rfl

/-- C60 is false with limits far from zero: 125.6… is strictly between the limits 100 and 200 of the first joint, but the call
for the pose of this joint vector returns the empty list, since angles are only moved by one turn. -/
theorem C60_ur_limits_false : ∃ (r : Robot ℝ) (θ : List ℝ) (T : Transform ℝ) (lo up : List ℝ),
    r.lower = some lo ∧ r.upper = some up ∧ List.Forall₂ (· < ·) lo θ ∧ List.Forall₂ (· < ·) θ up ∧
    fwdkin r θ true = .ok T ∧ ur_invkin r.up T.up = .ok [] := by
  have p1 := Real.pi_gt_three
  have p2 := Real.pi_lt_d2
  set lo : List ℝ := [100, -3, -3, -3, -3, -3] with hlo
  set up : List ℝ := [200, 3, 3, 3, 3, 3] with hup
  have hr := Spec.smallUr_arm (some lo) (some up)
  have hT := fwdkin_chain6 hr.types hr.axes hr.links ((20 : ℤ) * (2 * Real.pi)) 0 (Real.pi / 2) 0 (Real.pi / 2) 0
  obtain ⟨sols, hs⟩ := Spec.smallUr_returns (some lo) (some up) (by rintro _ _ ⟨⟩ ⟨⟩; simp [hlo, hup]) 20 hT
  refine ⟨Spec.smallUr (some lo) (some up), _, _, lo, up, rfl, rfl, ?_, ?_, hT, ?_⟩
  · simp only [hlo, List.forall₂_cons, List.forall₂_nil_left_iff, and_true]
    push_cast
    refine ⟨?_, ?_, ?_, ?_, ?_, ?_⟩ <;> linarith
  · simp only [hup, List.forall₂_cons, List.forall₂_nil_right_iff, and_true]
    push_cast
    refine ⟨?_, ?_, ?_, ?_, ?_, ?_⟩ <;> linarith
  · rw [hs]
    congr 1
    rcases sols with _ | ⟨s, sols⟩
    · rfl
    exfalso
    have h := ur_search hr hs
    simp only [urSearch, V3.up_ey, V3.up_add, V3.up_dot, M3.up_mulVec, V3.up_sub, V3.up_neg] at h
    obtain ⟨Q1, c1, h⟩ := Except.bind_eq_ok h
    obtain ⟨x1, m1, -⟩ := mem_forAppend h (List.mem_cons_self (a := s) (l := sols))
    obtain ⟨θ1, mθ1, n1⟩ := callS_mem c1 m1
    rw [normalize_limits_eval (r := Spec.smallUr (some lo) (some up)) rfl rfl (l := 100) (u := 200) rfl rfl] at n1
    have ht : normLimits (.fin 100) (.fin 200) θ1 = some x1 := by simpa using n1
    rcases subproblem4_mem mθ1 with rfl | ⟨t1, rfl, -⟩
    · rw [normLimits_nan] at ht; cases ht
    · have hb := abs_le.1 (subproblem4_bound' mθ1)
      obtain ⟨m, m1, m2, m3⟩ := normLimits_near ht
      have m1' : (m : ℝ) ≤ 1 := by exact_mod_cast (abs_le.1 m1).2
      nlinarith [hb.2]
