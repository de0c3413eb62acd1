import Verif.Lemmas.Empty
import Verif.Props.Ur
import Verif.Props.Equiv

/-!
# Property C32: poses without solution

`robot6_sphericalwrist_invkin`, `ur_invkin` and `equivalent_configurations` are documented to return an empty list when there is no
solution.
-/
set_option autoImplicit false

/-! ## With `last_joints`, an empty list is never returned -/

theorem sortByLast_ne_nil (rows : List (List XReal)) (last : List XReal) : sortByLast rows (some last) ≠ .ok [] := by
  intro h
  have hp := sortByLast_mem h
  rcases rows with _ | ⟨a, rows⟩
  · cases h
  · exact absurd hp.length_eq (by simp)

/-- C32 is false with last joint values: whatever the robot and the pose, the empty list is never returned - a call without solution
raises, since numpy cannot take the norm of the rows of an empty list. -/
theorem C32_robot6_last_never_empty (robot : Robot XReal) (pose : Transform XReal) (last : List XReal) :
    (robot6_sphericalwrist_invkin robot pose (some last)).2 ≠ .ok [] := by
  unfold robot6_sphericalwrist_invkin
  intro h
  obtain ⟨_, -, h⟩ := Except.bind_eq_ok h
  obtain ⟨rows, -, h⟩ := Except.bind_eq_ok h
  exact sortByLast_ne_nil rows last h

theorem C32_ur_last_never_empty (robot : Robot XReal) (pose : Transform XReal) (last : List XReal) :
    ur_invkin robot pose (some last) ≠ .ok [] := by
  intro h
  obtain ⟨-, rows, -, h⟩ := ur_invkin_ok h
  exact sortByLast_ne_nil rows last h

theorem C32_equiv_last_never_empty (robot : Robot XReal) (thetaV : List (List XReal)) (last : List XReal) :
    equivalent_configurations robot thetaV (some last) ≠ .ok [] := by
  intro h
  obtain ⟨rows, -, h⟩ := Except.bind_eq_ok h
  obtain ⟨_, -, h⟩ := Except.bind_eq_ok h
  exact sortByLast_ne_nil rows last h

/-- C32: without configurations there are no equivalent ones; with last joint values this raises. -/
theorem C32_equiv_empty (robot : Robot XReal) : equivalent_configurations robot [] = .ok [] ∧
    ∀ last, equivalent_configurations robot [] (some last) = .error .value :=
  ⟨rfl, fun _ => rfl⟩

/-! ## The spherical-wrist solver -/

section
variable {r : Robot ℝ} {h0 h1 h2 h3 h4 h5 P0 P1 P2 P3 P4 P5 P6 : V3 ℝ}

/-- No joint vector takes the robot to the pose. -/
def Spec.unreachable (r : Robot ℝ) (T : Transform ℝ) : Prop :=
  ∀ θ T', θ.length = r.H.length → fwdkin r θ true = .ok T' → ¬ (T'.R = T.R ∧ T'.p = T.p)

/-- where the centre of the wrist has to be -/
noncomputable def Spec.wristCentre (r : Robot ℝ) (P5 P6 : V3 ℝ) (T : Transform ℝ) : V3 ℝ :=
  (unapplyAux r T).p - (unapplyAux r T).R.mulVec (P6 + P5)

/-- the wrist centre can be reached exactly when the pose can -/
theorem wristCentre_unreachable (hr : Spec.WristArm r h0 h1 h2 h3 h4 h5 P0 P1 P2 P3 P4 P5 P6) (hP4 : P4 = (P4.dot h3) • h3)
    (hP5 : P5 = (P5.dot h5) • h5) {T : Transform ℝ} (hT : IsRot T.R) (hun : Spec.unreachable r T) (q1 q2 q3 : ℝ) :
    Spec.wristAt h0 h1 h2 P0 P1 P2 (P3 + P4) q1 q2 q3 ≠ Spec.wristCentre r P5 P6 T := by
  intro he
  obtain ⟨hB, hF, hX⟩ := hr.aux
  have h6 : IsRot (unapplyAux r T).R := unapply_rot hB hF hX hT
  have hR03 : IsRot (rot h0 q1 * rot h1 q2 * rot h2 q3) := ((rot_isRot h0 hr.unit0 _).mul (rot_isRot h1 (pm_unit hr.par1) _)).mul
    (rot_isRot h2 (pm_unit hr.par2) _)
  obtain ⟨q4, q5, q6, e⟩ := wrist_exists hr.unit3 hr.unit4 hr.unit5 hr.perp34 hr.perp45 (hR03.transpose.mul h6)
  have hT' := fwdkin_chain6 hr.types hr.axes hr.links q1 q2 q3 q4 q5 q6
  obtain ⟨eR, ep⟩ := wristArm_pose hr hP4 hP5 hT'
  refine hun _ _ (by rw [hr.axes]; rfl) hT' ?_
  have eR' : rot h0 q1 * rot h1 q2 * rot h2 q3 * (rot h3 q4 * rot h4 q5) * rot h5 q6 = (unapplyAux r T).R := by
    rw [M3.mul_assoc', e, ← M3.mul_assoc', hR03.orth', M3.one_mul']
  rw [he, Spec.wristCentre, eR, eR'] at ep
  rw [unapply_apply_p hB hF hX] at ep
  set C : Transform ℝ := ⟨rot h0 q1 * rot h1 q2 * rot h2 q3 * (rot h3 q4 * rot h4 q5) * rot h5 q6,
      P0 + (rot h0 q1).mulVec (P1 + (rot h1 q2).mulVec (P2 + (rot h2 q3).mulVec (P3 + (rot h3 q4).mulVec (P4 + (rot h4 q5).mulVec
        (P5 + (rot h5 q6).mulVec P6))))), none, none⟩ with hC
  obtain ⟨g1, g2⟩ := aux_close (r := r) hB hF hX (T := T) (C := C) (ε := 0) (δ := 0)
    (by intro v; rw [show C.R = (unapplyAux r T).R from eR', V3.norm_sub_self, zero_mul])
    (by
      have : C.p = (unapplyAux r T).p := by
        change C.p - _ = _ at ep
        generalize C.p = a at ep ⊢
        generalize (unapplyAux r T).p = b at ep ⊢
        generalize (unapplyAux r T).R.mulVec (P6 + P5) = c at ep
        rw [V3.ext_iff] at ep ⊢; simpa using ep
      rw [this, V3.norm_sub_self])
  have zero : ∀ v : V3 ℝ, v.norm ≤ 0 → v = 0 := by
    intro v hv
    by_contra h
    exact absurd (V3.norm_pos h) (not_lt.2 hv)
  have sub : ∀ a b : V3 ℝ, a - b = 0 → a = b := by
    intro a b h
    rw [V3.ext_iff] at h ⊢
    simp only [V3.sub_x, V3.sub_y, V3.sub_z, V3.zero_x, V3.zero_y, V3.zero_z, sub_eq_zero] at h
    exact h
  constructor
  · have hv : ∀ w, (applyAux r C).R.mulVec w = T.R.mulVec w := fun w => sub _ _ (zero _ (by have := g1 w; rwa [zero_mul] at this))
    have h1 := hv V3.ex
    have h2 := hv V3.ey
    have h3 := hv V3.ez
    rw [V3.ext_iff] at h1 h2 h3
    ext <;> simp at h1 h2 h3 <;> tauto
  · exact sub _ _ (zero _ (by simpa using g2))

/-- C32 (`_partial`: see `C32_robot6_last_never_empty` and `C32_robot6_near_axis_raises` for the rest).  For every arm of this geometry
whose offsets 4 and 5 are along the axes of joints 4 and 6, with any rigid base, flange and tool, and every pose that no joint vector
reaches: the call without last joint values returns the empty list, if the robot has limits, or if the wrist centre is far enough from
the first axis (or the shoulder offset is positive). -/
theorem C32_robot6_unreachable_partial (hr : Spec.WristArm r h0 h1 h2 h3 h4 h5 P0 P1 P2 P3 P4 P5 P6) (h0y : V3.ey.dot h0 = 0)
    (hP4 : P4 = (P4.dot h3) • h3) (hP5 : P5 = (P5.dot h5) • h5) (hl : Spec.limitsSized r 6) {T : Transform ℝ} (hT : IsRot T.R)
    (hsh : (∃ lo up, r.lower = some lo ∧ r.upper = some up) ∨
      -(h0.cross (Spec.wristCentre r P5 P6 T)).norm ≤ V3.ey.dot (P1 + P2 + (P3 + P4)) ∧
      (0 < (h0.cross (Spec.wristCentre r P5 P6 T)).norm ∨ 0 < V3.ey.dot (P1 + P2 + (P3 + P4))))
    (hun : Spec.unreachable r T) : (robot6_sphericalwrist_invkin r.up T.up).2 = .ok [] := by
  obtain ⟨c, hP0⟩ := hr.first
  have eH : r.up.H = [h0.up, h1.up, h2.up, h3.up, h4.up, h5.up] := by
    show r.H.map V3.up = _; rw [hr.axes]; rfl
  have eP : r.up.P = [P0.up, P1.up, P2.up, P3.up, P4.up, P5.up, P6.up] := by
    show r.P.map V3.up = _; rw [hr.links]; rfl
  unfold robot6_sphericalwrist_invkin
  simp only [unapplyAux_up]
  rw [eH, eP, fixWrist_of hP4 hP5]
  simp only [Except.bind_ok]
  show (r6Search _ _ (upNormalizer r none) (unapplyAux r T).R.up (unapplyAux r T).p.up >>= _) = _
  rw [r6Search_unreachable (P4 := 0) (P5 := 0) hr.unit0 hr.par1 hr.par2 hP0 h0y hl hsh (wristCentre_unreachable hr hP4 hP5 hT hun)]
  rfl

/-- C32 is false without limits for poses whose wrist centre is too close to the first axis, when the shoulder offset is negative (or
both vanish): `subproblem4` then returns NaN, on which `subproblem1` raises. -/
theorem C32_robot6_near_axis_raises (hr : Spec.WristArm r h0 h1 h2 h3 h4 h5 P0 P1 P2 P3 P4 P5 P6) (h0y : V3.ey.dot h0 = 0)
    (hlim : ¬ ∃ lo up, r.lower = some lo ∧ r.upper = some up) {T : Transform ℝ}
    (hb : V3.ey.dot (P1 + P2 + (P3 + P4)) < -(h0.cross (Spec.wristCentre r P5 P6 T)).norm ∨
      h0.cross (Spec.wristCentre r P5 P6 T) = 0 ∧ V3.ey.dot (P1 + P2 + (P3 + P4)) = 0) :
    ∃ e, (robot6_sphericalwrist_invkin r.up T.up).2 = .error e := by
  rcases h : (robot6_sphericalwrist_invkin r.up T.up).2 with e | sols
  · exact ⟨e, rfl⟩
  exfalso
  obtain ⟨-, -, h⟩ := robot6_search hr h
  obtain ⟨e, he⟩ := r6Search_below (r := r) (h1 := h1) (h2 := h2) (h3 := h3) (h4 := h4) (h5 := h5) (P0 := P0) (P4 := 0) (P5 := 0)
    hr.unit0 h0y hlim hb
  rw [he] at h
  cases h

/-- C32 is false with last joint values: the call raises for every pose whose wrist centre stays clearly out of reach. -/
theorem C32_robot6_last_raises (hr : Spec.WristArm r h0 h1 h2 h3 h4 h5 P0 P1 P2 P3 P4 P5 P6) {T : Transform ℝ} (hT : IsRot T.R)
    (hun : ∀ q1 q2 q3, (1 + (P3 + P4).norm) * snap <
      (Spec.wristAt h0 h1 h2 P0 P1 P2 (P3 + P4) q1 q2 q3 - Spec.wristCentre r P5 P6 T).norm) (last : List ℝ) :
    ∃ e, (robot6_sphericalwrist_invkin r.up T.up (some (last.map .fin))).2 = .error e := by
  rcases h : (robot6_sphericalwrist_invkin r.up T.up (some (last.map .fin))).2 with e | sols
  · exact ⟨e, rfl⟩
  exfalso
  rcases sols with _ | ⟨s, sols⟩
  · exact C32_robot6_last_never_empty _ _ _ h
  obtain ⟨hB, hF, hX⟩ := hr.aux
  unfold robot6_sphericalwrist_invkin at h
  simp only [unapplyAux_up] at h
  have eH : r.up.H = [h0.up, h1.up, h2.up, h3.up, h4.up, h5.up] := by
    show r.H.map V3.up = _; rw [hr.axes]; rfl
  have eP : r.up.P = [P0.up, P1.up, P2.up, P3.up, P4.up, P5.up, P6.up] := by
    show r.P.map V3.up = _; rw [hr.links]; rfl
  rw [eH, eP] at h
  rcases hfx : fixWrist [h0.up, h1.up, h2.up, h3.up, h4.up, h5.up] [P0.up, P1.up, P2.up, P3.up, P4.up, P5.up, P6.up] with ⟨P', e | u⟩
  · rw [hfx] at h; cases h
  rw [hfx] at h
  obtain ⟨rfl, hP4, hP5⟩ := fixWrist_ok hfx
  simp only [Except.bind_ok] at h
  obtain ⟨rows, h1', h⟩ := Except.bind_eq_ok h
  have hs := (sortByLast_mem h).mem_iff.1 (List.mem_cons_self (a := s) (l := sols))
  obtain ⟨c, hc⟩ := hr.first
  have h6 : IsRot (unapplyAux r T).R := unapply_rot hB hF hX hT
  obtain ⟨q1, q2, q3, q4, q5, q6, rfl, hpos, -⟩ := r6Search_sound (r := r) (last := some last) hr.unit0 hr.par1 hr.par2 hr.unit3 hr.unit4
    hr.unit5 hr.perp34 hr.perp45 hc hr.level h6 h1' hs
  exact absurd hpos (not_le.2 (hun q1 q2 q3))
end

/-! ## The UR solver -/

section
variable {r : Robot ℝ} {k P0 P1 P2 P3 P4 P5 P6 : V3 ℝ}

/-- Where the first four joints put the point where the axes of joints 4 and 5 meet. -/
noncomputable def Spec.urAt (k P0 P1 P2 P3 P4 : V3 ℝ) (q1 q2 q3 q4 : ℝ) : V3 ℝ :=
  P0 + (rot V3.ez q1).mulVec (P1 + (rot k q2).mulVec (P2 + (rot k q3).mulVec (P3 + (rot k q4).mulVec P4)))

/-- C32 (`_partial`: see `C32_ur_last_never_empty`, `C32_ur_near_axis_raises` and `C60_ur_singular_raises` for the rest).  For every UR
arm with any rigid base, flange and tool and every pose for which no joint values put the wrist in place with the last axis within
`2·snap` of the requested one: the call without last joint values returns the empty list, if no first joint value that puts the arm in
the right plane makes the wrist singular, and if the robot has limits or the wrist is far enough from the first axis (or the shoulder
offset is positive). -/
theorem C32_ur_unreachable_partial (hr : Spec.UrChain r k P0 P1 P2 P3 P4 P5 P6) (hl : Spec.limitsSized r 6) {T : Transform ℝ}
    (hT : IsRot T.R)
    (hsh : (∃ lo up, r.lower = some lo ∧ r.upper = some up) ∨
      -(V3.ez.cross (Spec.wristCentre r P5 P6 T)).norm ≤ V3.ey.dot (P1 + P2 + P3 + P4) ∧
      (0 < (V3.ez.cross (Spec.wristCentre r P5 P6 T)).norm ∨ 0 < V3.ey.dot (P1 + P2 + P3 + P4)))
    (hns : ∀ a : ℝ, V3.ey.dot ((rot V3.ez a).transpose.mulVec (Spec.wristCentre r P5 P6 T)) = V3.ey.dot (P1 + P2 + P3 + P4) →
      npEps ≤ Spec.urWristSq r T a)
    (hun : ∀ q1 q2 q3 q4 q5, Spec.urAt k P0 P1 P2 P3 P4 q1 q2 q3 q4 = Spec.wristCentre r P5 P6 T →
      2 * snap ≤ ((rot V3.ez q1 * (rot k q2 * rot k q3 * rot k q4) * rot (-V3.ez) q5).mulVec k - (Spec.lastLinkR r T).mulVec k).norm) :
    ur_invkin r.up T.up = .ok [] := by
  obtain ⟨hB, hF, hX⟩ := hr.aux
  obtain ⟨c, hP0⟩ := hr.first
  have h6 : IsRot (unapplyAux r T).R := unapply_rot hB hF hX hT
  simp only [Spec.urWristSq, Spec.lastLinkR, ← unapplyAux_R] at hns hun
  refine (ur_eval hr T none).trans ?_
  rw [urSearch_unreachable hr.par hP0 h6 hl hsh hns hun]
  rfl

/-- C32 is false without limits for poses whose wrist is too close to the first axis, when the shoulder offset is negative (or both
vanish): `subproblem4` then returns NaN, on which `subproblem1` raises. -/
theorem C32_ur_near_axis_raises (hr : Spec.UrChain r k P0 P1 P2 P3 P4 P5 P6)
    (hlim : ¬ ∃ lo up, r.lower = some lo ∧ r.upper = some up) {T : Transform ℝ}
    (hb : V3.ey.dot (P1 + P2 + P3 + P4) < -(V3.ez.cross (Spec.wristCentre r P5 P6 T)).norm ∨
      V3.ez.cross (Spec.wristCentre r P5 P6 T) = 0 ∧ V3.ey.dot (P1 + P2 + P3 + P4) = 0) :
    ∃ e, ur_invkin r.up T.up = .error e := by
  obtain ⟨e, he⟩ := urSearch_below (r := r) (P0 := P0) hr.par hlim hb
  refine ⟨e, (ur_eval hr T none).trans ?_⟩
  rw [he]; rfl

/-- C32 is false with last joint values: the call raises for every pose whose wrist stays clearly out of reach. -/
theorem C32_ur_last_raises (hr : Spec.UrChain r k P0 P1 P2 P3 P4 P5 P6) {T : Transform ℝ} (hT : IsRot T.R)
    (hun : ∀ q1 q2 q3 q4, (1 + P3.norm) * snap < (Spec.urAt k P0 P1 P2 P3 P4 q1 q2 q3 q4 - Spec.wristCentre r P5 P6 T).norm)
    (last : List ℝ) : ∃ e, ur_invkin r.up T.up (some (last.map .fin)) = .error e := by
  rcases h : ur_invkin r.up T.up (some (last.map .fin)) with e | sols
  · exact ⟨e, rfl⟩
  exfalso
  rcases sols with _ | ⟨s, sols⟩
  · exact C32_ur_last_never_empty _ _ _ h
  obtain ⟨hB, hF, hX⟩ := hr.aux
  obtain ⟨-, rows, h1, h⟩ := ur_invkin_ok h
  have hs := (sortByLast_mem h).mem_iff.1 (List.mem_cons_self (a := s) (l := sols))
  rw [unapplyAux_up, hr.up_H, hr.up_P] at h1
  obtain ⟨c, hc⟩ := hr.first
  have h6 : IsRot (unapplyAux r T).R := unapply_rot hB hF hX hT
  obtain ⟨q1, q2, q3, q4, q5, q6, rfl, hpos, -⟩ := urSearch_sound (r := r) (last := some last) hr.par hc h6 h1 hs
  exact absurd hpos (not_le.2 (hun q1 q2 q3 q4))
end

/-! ## Concrete cases -/

/-- a pose ten units away -/
noncomputable def Spec.farPose : Transform ℝ := ⟨1, ⟨10, 0, 0⟩, none, none⟩

theorem Spec.smallArm_wristAt_le (a b c : ℝ) : (Spec.wristAt (V3.ez : V3 ℝ) V3.ey V3.ey V3.ez 0 V3.ez (V3.ex + 0) a b c).x ≤ 3 := by
  have u := rot_isRot (V3.ez : V3 ℝ) ez_unit a
  have h : (Spec.wristAt (V3.ez : V3 ℝ) V3.ey V3.ey V3.ez 0 V3.ez (V3.ex + 0) a b c).x ≤ |_| := le_abs_self _
  refine h.trans ((V3.abs_x_le _).trans ?_)
  have n1 : ∀ v : V3 ℝ, IsUnit3 v → v.norm = 1 := fun v hv => by rw [V3.norm_eq, hv.dot, Real.sqrt_one]
  have z : (0 : V3 ℝ) + (rot V3.ey b).mulVec (V3.ez + (rot V3.ey c).mulVec (V3.ex + 0)) = (rot V3.ey b).mulVec (V3.ez + (rot V3.ey c).mulVec V3.ex) := by
    rw [show (V3.ex + 0 : V3 ℝ) = V3.ex by ext <;> simp]; ext <;> simp
  rw [Spec.wristAt, z]
  refine (V3.norm_add_le _ _).trans ?_
  rw [u.norm_mulVec, (rot_isRot V3.ey ey_unit b).norm_mulVec]
  have := V3.norm_add_le (V3.ez : V3 ℝ) ((rot V3.ey c).mulVec V3.ex)
  rw [(rot_isRot V3.ey ey_unit c).norm_mulVec, n1 V3.ez ez_unit, n1 V3.ex (by simp [IsUnit3])] at this
  rw [n1 V3.ez ez_unit]
  linarith

theorem Spec.smallArm_far (lo up : Option (List ℝ)) : Spec.wristCentre (Spec.smallArm lo up) 0 V3.ex Spec.farPose = ⟨9, 0, 0⟩ := by
  rw [Spec.wristCentre, unapplyAux_p, unapplyAux_R]
  simp only [auxB, auxF, auxX, Spec.smallArm, Spec.farPose]
  ext <;> simp [identityTransform]; norm_num

/-- the small arm does not reach that far -/
theorem Spec.smallArm_far_unreachable (lo up : Option (List ℝ)) : Spec.unreachable (Spec.smallArm lo up) Spec.farPose := by
  have hr := Spec.smallArm_wrist lo up
  have z : (0 : V3 ℝ) = ((0 : V3 ℝ).dot V3.ex) • V3.ex := by ext <;> simp [V3.dot]
  rintro θ T' hθ hT' ⟨eR, ep⟩
  obtain ⟨q1, q2, q3, q4, q5, q6, rfl⟩ : ∃ q1 q2 q3 q4 q5 q6, θ = [q1, q2, q3, q4, q5, q6] := by
    rcases θ with _ | ⟨q1, _ | ⟨q2, _ | ⟨q3, _ | ⟨q4, _ | ⟨q5, _ | ⟨q6, _ | ⟨q7, l⟩⟩⟩⟩⟩⟩⟩ <;> simp [Spec.smallArm] at hθ
    exact ⟨q1, q2, q3, q4, q5, q6, rfl⟩
  obtain ⟨-, e⟩ := wristArm_pose hr z z hT'
  have e' : Spec.wristCentre (Spec.smallArm lo up) 0 V3.ex Spec.farPose =
      (unapplyAux (Spec.smallArm lo up) T').p - (unapplyAux (Spec.smallArm lo up) T').R.mulVec (V3.ex + 0) := by
    rw [Spec.wristCentre, unapplyAux_p, unapplyAux_R, unapplyAux_p, unapplyAux_R, eR, ep]
  have := Spec.smallArm_wristAt_le q1 q2 q3
  rw [← e, ← e', Spec.smallArm_far] at this
  norm_num at this

-- non-vacuity of `C32_robot6_unreachable_partial` and `C32_robot6_last_raises`
example (lo up : Option (List ℝ)) (hl : Spec.limitsSized (Spec.smallArm lo up) 6) :
    (robot6_sphericalwrist_invkin (Spec.smallArm lo up).up Spec.farPose.up none).2 = .ok [] ∧
    ∀ last : List ℝ, ∃ e, (robot6_sphericalwrist_invkin (Spec.smallArm lo up).up Spec.farPose.up (some (last.map .fin))).2 = .error e := by
  have hr := Spec.smallArm_wrist lo up
  have z : (0 : V3 ℝ) = ((0 : V3 ℝ).dot V3.ex) • V3.ex := by ext <;> simp [V3.dot]
  have hx : ∀ a b c, (6 : ℝ) ≤ (Spec.wristAt (V3.ez : V3 ℝ) V3.ey V3.ey V3.ez 0 V3.ez (V3.ex + 0) a b c -
      Spec.wristCentre (Spec.smallArm lo up) 0 V3.ex Spec.farPose).norm := by
    intro a b c
    refine le_trans ?_ (V3.abs_x_le _)
    rw [Spec.smallArm_far, V3.sub_x, abs_sub_comm]
    refine le_trans ?_ (le_abs_self _)
    linarith [Spec.smallArm_wristAt_le a b c]
  constructor
  · refine C32_robot6_unreachable_partial hr (by simp [V3.dot]) z z hl IsRot.one (.inr ?_) ?_
    · rw [Spec.smallArm_far]
      have e : ((V3.ez : V3 ℝ).cross ⟨9, 0, 0⟩).norm = 9 := by
        rw [V3.norm_eq, show ((V3.ez : V3 ℝ).cross ⟨9, 0, 0⟩).dot ((V3.ez : V3 ℝ).cross ⟨9, 0, 0⟩) = 9 ^ 2 by simp [V3.dot]; norm_num]
        exact Real.sqrt_sq (by norm_num)
      rw [e]
      simp [V3.dot]
    · exact Spec.smallArm_far_unreachable lo up
  · refine fun last => C32_robot6_last_raises hr IsRot.one (fun a b c => lt_of_lt_of_le ?_ (hx a b c)) last
    have : (V3.ex + 0 : V3 ℝ).norm = 1 := by simp [V3.norm_eq, V3.dot]
    rw [this, snap_eq]; norm_num

theorem Spec.smallUr_urAt_le (a b c d : ℝ) : (Spec.urAt (V3.ey : V3 ℝ) 0 0 V3.ez V3.ez V3.ey a b c d).x ≤ 3 := by
  refine (le_abs_self _).trans ((V3.abs_x_le _).trans ?_)
  have n1 : ∀ v : V3 ℝ, IsUnit3 v → v.norm = 1 := fun v hv => by rw [V3.norm_eq, hv.dot, Real.sqrt_one]
  have z : ∀ v : V3 ℝ, 0 + v = v := fun v => by ext <;> simp
  rw [Spec.urAt, z, z, (rot_isRot V3.ez ez_unit a).norm_mulVec, (rot_isRot V3.ey ey_unit b).norm_mulVec]
  have h1 := V3.norm_add_le (V3.ez : V3 ℝ) ((rot V3.ey c).mulVec (V3.ez + (rot V3.ey d).mulVec V3.ey))
  have h2 := V3.norm_add_le (V3.ez : V3 ℝ) ((rot V3.ey d).mulVec V3.ey)
  rw [(rot_isRot V3.ey ey_unit c).norm_mulVec, n1 V3.ez ez_unit] at h1
  rw [(rot_isRot V3.ey ey_unit d).norm_mulVec, n1 V3.ez ez_unit, n1 V3.ey ey_unit] at h2
  linarith

theorem Spec.smallUr_far (lo up : Option (List ℝ)) : Spec.wristCentre (Spec.smallUr lo up) 0 0 Spec.farPose = ⟨10, 0, 0⟩ := by
  rw [Spec.wristCentre, unapplyAux_p, unapplyAux_R]
  simp only [auxB, auxF, auxX, Spec.smallUr, Spec.farPose]
  ext <;> simp [identityTransform]

/-- non-vacuity of `C32_ur_unreachable_partial` and `C32_ur_last_raises` -/
theorem Spec.smallUr_far_empty (lo up : Option (List ℝ)) (hl : Spec.limitsSized (Spec.smallUr lo up) 6) :
    ur_invkin (Spec.smallUr lo up).up Spec.farPose.up none = .ok [] ∧
    ∀ last : List ℝ, ∃ e, ur_invkin (Spec.smallUr lo up).up Spec.farPose.up (some (last.map .fin)) = .error e := by
  have hr := Spec.smallUr_arm lo up
  have hx : ∀ a b c d, (7 : ℝ) ≤ (Spec.urAt (V3.ey : V3 ℝ) 0 0 V3.ez V3.ez V3.ey a b c d -
      Spec.wristCentre (Spec.smallUr lo up) 0 0 Spec.farPose).norm := by
    intro a b c d
    refine le_trans ?_ (V3.abs_x_le _)
    rw [Spec.smallUr_far, V3.sub_x, abs_sub_comm]
    refine le_trans ?_ (le_abs_self _)
    linarith [Spec.smallUr_urAt_le a b c d]
  constructor
  · refine C32_ur_unreachable_partial hr hl IsRot.one (.inr ?_) ?_ ?_
    · rw [Spec.smallUr_far]
      have := V3.norm_nonneg ((V3.ez : V3 ℝ).cross ⟨10, 0, 0⟩)
      have e : V3.ey.dot (0 + V3.ez + V3.ez + V3.ey : V3 ℝ) = 1 := by simp [V3.dot]
      rw [e]
      exact ⟨by linarith, .inr one_pos⟩
    · intro a ha
      rw [Spec.smallUr_far] at ha
      have e : (Spec.lastLinkR (Spec.smallUr lo up) Spec.farPose).mulVec V3.ey = V3.ey := by
        simp only [Spec.lastLinkR, auxB, auxF, auxX, Spec.smallUr, Spec.farPose]
        ext <;> simp [identityTransform]
      rw [Spec.urWristSq, e, npEps_real]
      simp [rot, V3.dot] at ha ⊢
      have := Real.sin_sq_add_cos_sq a
      have hs : Real.sin a ^ 2 = 1 / 100 := by
        have : Real.sin a = -1 / 10 := by linarith
        rw [this]; norm_num
      have : 1 - Real.cos a ^ 2 = 1 / 100 := by linarith
      rw [this]; norm_num
    · intro q1 q2 q3 q4 q5 h
      have := hx q1 q2 q3 q4
      rw [h, V3.norm_sub_self] at this
      norm_num at this
  · refine fun last => C32_ur_last_raises hr IsRot.one (fun a b c d => lt_of_lt_of_le ?_ (hx a b c d)) last
    have : (V3.ez : V3 ℝ).norm = 1 := by simp [V3.norm_eq, V3.dot]
    rw [this, snap_eq]; norm_num

-- non-vacuity of `C32_robot6_near_axis_raises`: a pose above the base, far out of reach, for the arm without limits
example : ∃ e, (robot6_sphericalwrist_invkin (Spec.smallArm none none).up (Transform.up ⟨1, ⟨1, 0, 50⟩, none, none⟩) none).2 = .error e := by
  refine C32_robot6_near_axis_raises (Spec.smallArm_wrist none none) (by simp [V3.dot]) (by rintro ⟨_, _, ⟨⟩, _⟩) (.inr ⟨?_, ?_⟩)
  · have : Spec.wristCentre (Spec.smallArm none none) 0 V3.ex ⟨1, ⟨1, 0, 50⟩, none, none⟩ = ⟨0, 0, 50⟩ := by
      rw [Spec.wristCentre, unapplyAux_p, unapplyAux_R]
      simp only [auxB, auxF, auxX, Spec.smallArm]
      ext <;> simp [identityTransform]
    rw [this]
    ext <;> simp
  · simp [V3.dot]

/-- the small UR arm with the offset to the other side -/
noncomputable def Spec.leftUr : Robot ℝ :=
  { H := [V3.ez, V3.ey, V3.ey, V3.ey, -V3.ez, V3.ey], P := [0, 0, V3.ez, V3.ez, -V3.ey, 0, 0], jointType := [0, 0, 0, 0, 0, 0] }

-- non-vacuity of `C32_ur_near_axis_raises`: a pose above the base, far out of reach, for an arm without limits
example : ∃ e, ur_invkin Spec.leftUr.up (Transform.up ⟨1, ⟨0, 0, 50⟩, none, none⟩) none = .error e := by
  have hr : Spec.UrChain Spec.leftUr V3.ey 0 0 V3.ez V3.ez (-V3.ey) 0 0 :=
    { types := rfl, axes := rfl, links := rfl, par := .inl rfl, first := ⟨0, by ext <;> simp⟩, wrist := ⟨0, by ext <;> simp⟩,
      base := by intro B h; cases h
      flange := by intro B h; cases h
      tool := by intro B h; cases h }
  refine C32_ur_near_axis_raises hr (by rintro ⟨_, _, ⟨⟩, _⟩) (.inl ?_)
  have : V3.ez.cross (Spec.wristCentre Spec.leftUr 0 0 ⟨1, ⟨0, 0, 50⟩, none, none⟩) = 0 := by
    rw [Spec.wristCentre, unapplyAux_p, unapplyAux_R]
    simp only [auxB, auxF, auxX, Spec.leftUr]
    ext <;> simp [identityTransform]
  rw [this]
  simp [V3.dot, V3.norm_eq]
