import Verif.Props.SolverOutcome
import Verif.Props.Perturb

/-! # Property C55 continued: all robots that the OPW parameter extraction accepts -/
set_option autoImplicit false

theorem V3.norm_le_sum (a : V3 ℝ) : a.norm ≤ |a.x| + |a.y| + |a.z| := by
  have h := V3.norm_add_le (⟨a.x, a.y, 0⟩ : V3 ℝ) ⟨0, 0, a.z⟩
  rw [show (⟨a.x, a.y, 0⟩ + ⟨0, 0, a.z⟩ : V3 ℝ) = a by ext <;> simp] at h
  have := norm_xy_le a.x a.y
  rw [norm_axis_z] at h
  linarith

/-- What straightening makes of the state depends only on the upper arm and the offsets. -/
theorem straighten_congr {s t : OpwState ℝ} (h2 : s.p2 = t.p2) (h3 : s.p3 = t.p3) (ho1 : s.o1 = t.o1) (ho2 : s.o2 = t.o2) :
    s.straighten.p2 = t.straighten.p2 ∧ s.straighten.p3 = t.straighten.p3 ∧ s.straighten.o1 = t.straighten.o1 ∧
      s.straighten.o2 = t.straighten.o2 := by
  unfold OpwState.straighten
  rw [h2, ho1, ho2]
  split_ifs
  · exact ⟨h2, h3, ho1, ho2⟩
  · exact ⟨rfl, h3, rfl, rfl⟩

/-- The parameters computed from a bent state of the real arm are those of the exact arm. -/
theorem params_exact {f : OpwState ℝ → OpwState ℝ} (hf : f = OpwState.bend2 ∨ f = OpwState.bend3)
    {p0 p1 p2 p3 p4 p5 p6 h0 h1 h2 h3 h4 h5 : V3 ℝ} {q : OpwParams ℝ}
    (hq : (f ⟨p2, p3, p4, p5, p6, h2, h3, h4, h5, 0, 0⟩).straighten.params p0 p1 h0 h1 = .ok q) (hs : (0 : ℤ) ∉ q.signs) :
    ∃ s0 s1 s2 s3 s4 s5 : ℤ, ∃ s : OpwState ℝ, (∀ s ∈ [s0, s1, s2, s3, s4, s5], s = 1 ∨ s = -1) ∧
      OpwGood p2 p3 p4.x p5.x p6.x (-(Real.pi / 2)) s2 s3 s4 s5 s ∧ iscloseD s.p2.x 0 ∧
      s.params ⟨0, 0, p0.z⟩ p1 ((s0 : ℝ) • V3.ez) ((s1 : ℝ) • V3.ey) = .ok q ∧
      s0 = axisSign h0 V3.ez ∧ s1 = axisSign h1 V3.ey ∧
      (s2 = axisSign h2 V3.ey ∨ s2 = axisSign ⟨-h2.z, h2.y, h2.x⟩ V3.ey) ∧ s3 = axisSign ⟨-h3.z, h3.y, h3.x⟩ V3.ez ∧
      s4 = axisSign ⟨-h4.z, h4.y, h4.x⟩ V3.ey ∧ s5 = axisSign ⟨-h5.z, h5.y, h5.x⟩ V3.ez := by
  set S := f ⟨p2, p3, p4, p5, p6, h2, h3, h4, h5, 0, 0⟩ with hS
  have pm : ∀ h e : V3 ℝ, axisSign h e ≠ 0 → axisSign h e = 1 ∨ axisSign h e = -1 := by
    intro h e; unfold axisSign; split_ifs <;> simp
  unfold OpwState.params at hq
  simp only [pyAssert_bind_ok] at hq
  obtain ⟨_, _, _, hq⟩ := hq
  cases hq
  obtain ⟨w4, w5, w6, w2', w3', w4', w5'⟩ := straighten_wrist S
  have b4 : S.p4 = ⟨-p4.z, p4.y, p4.x⟩ := by rcases hf with rfl | rfl <;> exact bend_mulVec _
  have b5 : S.p5 = ⟨-p5.z, p5.y, p5.x⟩ := by rcases hf with rfl | rfl <;> exact bend_mulVec _
  have b6 : S.p6 = ⟨-p6.z, p6.y, p6.x⟩ := by rcases hf with rfl | rfl <;> exact bend_mulVec _
  have c3 : S.h3 = ⟨-h3.z, h3.y, h3.x⟩ := by rcases hf with rfl | rfl <;> exact bend_mulVec _
  have c4 : S.h4 = ⟨-h4.z, h4.y, h4.x⟩ := by rcases hf with rfl | rfl <;> exact bend_mulVec _
  have c5 : S.h5 = ⟨-h5.z, h5.y, h5.x⟩ := by rcases hf with rfl | rfl <;> exact bend_mulVec _
  have c2 : S.h2 = h2 ∨ S.h2 = ⟨-h2.z, h2.y, h2.x⟩ := by
    rcases hf with rfl | rfl
    · exact Or.inr (bend_mulVec _)
    · exact Or.inl rfl
  simp only [List.mem_cons, List.not_mem_nil, or_false, not_or] at hs
  obtain ⟨k0, k1, k2, k3, k4, k5⟩ := hs
  have hpm : ∀ s ∈ [axisSign h0 V3.ez, axisSign h1 V3.ey, axisSign S.straighten.h2 V3.ey, axisSign S.straighten.h3 V3.ez,
      axisSign S.straighten.h4 V3.ey, axisSign S.straighten.h5 V3.ez], s = 1 ∨ s = -1 := by
    simp only [List.mem_cons, List.not_mem_nil, or_false, forall_eq_or_imp, forall_eq]
    exact ⟨pm _ _ (Ne.symm k0), pm _ _ (Ne.symm k1), pm _ _ (Ne.symm k2), pm _ _ (Ne.symm k3), pm _ _ (Ne.symm k4), pm _ _ (Ne.symm k5)⟩
  set E := f ⟨p2, p3, ⟨p4.x, 0, 0⟩, ⟨p5.x, 0, 0⟩, ⟨p6.x, 0, 0⟩, (axisSign S.straighten.h2 V3.ey : ℝ) • V3.ey,
    (axisSign S.straighten.h3 V3.ez : ℝ) • V3.ex, (axisSign S.straighten.h4 V3.ey : ℝ) • V3.ey,
    (axisSign S.straighten.h5 V3.ez : ℝ) • V3.ex, 0, 0⟩ with hE
  have good : OpwGood p2 p3 p4.x p5.x p6.x (-(Real.pi / 2)) (axisSign S.straighten.h2 V3.ey) (axisSign S.straighten.h3 V3.ez)
      (axisSign S.straighten.h4 V3.ey) (axisSign S.straighten.h5 V3.ez) E := by
    rcases hf with rfl | rfl
    · exact bend2_good ..
    · exact bend3_good ..
  obtain ⟨hg, hc⟩ := straighten_good good
  obtain ⟨g2, g3, g4, g5⟩ : E.straighten.p2 = S.straighten.p2 ∧ E.straighten.p3 = S.straighten.p3 ∧ E.straighten.o1 = S.straighten.o1 ∧
      E.straighten.o2 = S.straighten.o2 := by
    apply straighten_congr <;> rcases hf with rfl | rfl <;> rfl
  refine ⟨_, _, _, _, _, _, E.straighten, hpm, hg, hc, ?_, rfl, rfl, ?_, ?_, ?_, ?_⟩
  · rw [params_good (z0 := p0.z) (p1 := p1) hpm hg hc, g2, g3, g4, g5]
    simp only [w4, w5, w6, b4, b5, b6, List.map_cons, List.map_nil]
  · rw [w2']; rcases c2 with c2 | c2 <;> rw [c2]
    · exact Or.inl rfl
    · exact Or.inr rfl
  · rw [w3', c3]
  · rw [w4', c4]
  · rw [w5', c5]

/-- An axis whose sign has been determined is within the tolerance of the signed coordinate axis. -/
theorem axisSign_near {h e : V3 ℝ} {s : ℤ} (hs : s = axisSign h e) (h0 : s = 1 ∨ s = -1) : Spec.Near3 h ((s : ℝ) • e) := by
  unfold axisSign at hs
  split_ifs at hs with h1 h2
  · subst hs
    rw [show ((1 : ℤ) : ℝ) • e = e by ext <;> simp]
    exact (allclose3_near _ _).1 h1
  · subst hs
    rw [show ((-1 : ℤ) : ℝ) • e = -e by ext <;> simp]
    exact (allclose3_near _ _).1 h2
  · rcases h0 with rfl | rfl <;> simp at hs

theorem near3_norm {h v : V3 ℝ} (hn : Spec.Near3 h v) (hv : |v.x| + |v.y| + |v.z| ≤ 1) : (h - v).norm ≤ 11 / 10 ^ 6 := by
  obtain ⟨a, b, c⟩ := hn
  unfold Spec.Near at a b c
  have := V3.norm_le_sum (h - v)
  simp only [V3.sub_x, V3.sub_y, V3.sub_z] at this
  norm_num at a b c ⊢
  linarith

theorem sum_axis {s : ℤ} (h : s = 1 ∨ s = -1) {e : V3 ℝ} (he : e = V3.ex ∨ e = V3.ey ∨ e = V3.ez) :
    |((s : ℝ) • e).x| + |((s : ℝ) • e).y| + |((s : ℝ) • e).z| ≤ 1 := by
  rcases h with rfl | rfl <;> rcases he with rfl | rfl | rfl <;> simp

theorem norm_turned (v : V3 ℝ) : (⟨-v.z, v.y, v.x⟩ : V3 ℝ).norm = v.norm := by
  rw [V3.norm_eq, V3.norm_eq]; congr 1; simp only [V3.dot]; ring

/-- The flange frame is near the quarter turn. -/
theorem flange_near {A : M3 ℝ} (h : Spec.NearM (1 / 10 ^ 8) A ⟨0, 0, 1, 0, 1, 0, -1, 0, 0⟩) :
    OpLe (A - rot V3.ey (Real.pi / 2)) (11 / 10 ^ 6) := by
  have e0 : rot V3.ey (Real.pi / 2) = (⟨0, 0, 1, 0, 1, 0, -1, 0, 0⟩ : M3 ℝ) := by rw [← flange_lit]; exact flangeM
  rw [e0]
  simp only [Spec.NearM, M3.toList, List.zip_cons_cons, List.zip_nil_right, List.mem_cons, List.not_mem_nil, or_false,
    forall_eq_or_imp, forall_eq] at h
  obtain ⟨a00, a01, a02, a10, a11, a12, a20, a21, a22⟩ := h
  norm_num at a00 a01 a02 a10 a11 a12 a20 a21 a22
  have o1 : OpLe (⟨A.a00, A.a01, 0, A.a10, 0, A.a12, 0, A.a21, A.a22⟩ : M3 ℝ) (3 * (1 / 10 ^ 8)) := by
    apply OpLe.of_entries <;> norm_num <;> assumption
  have o2 : OpLe (⟨0, 0, A.a02 - 1, 0, A.a11 - 1, 0, A.a20 + 1, 0, 0⟩ : M3 ℝ) (1001 / 10 ^ 8) := by
    intro v
    rw [V3.norm_eq, Real.sqrt_le_left (mul_nonneg (by norm_num) v.norm_nonneg), mul_pow, V3.norm_sq]
    have sq : ∀ {x : ℝ}, |x| ≤ 1001 / 10 ^ 8 → x ^ 2 ≤ (1001 / 10 ^ 8) ^ 2 := fun h => sq_le_sq' (abs_le.1 h).1 (abs_le.1 h).2
    have q1 := mul_le_mul_of_nonneg_right (sq (a02.trans (by norm_num))) (sq_nonneg v.z)
    have q2 := mul_le_mul_of_nonneg_right (sq (a11.trans (by norm_num))) (sq_nonneg v.y)
    have q3 := mul_le_mul_of_nonneg_right (sq (a20.trans (by norm_num))) (sq_nonneg v.x)
    simp only [V3.dot, M3.mulVec]
    nlinarith
  refine OpLe.mono (show OpLe (A - ⟨0, 0, 1, 0, 1, 0, -1, 0, 0⟩) (3 * (1 / 10 ^ 8) + 1001 / 10 ^ 8) from ?_) (by norm_num)
  have := o1.add o2
  rwa [show (⟨A.a00, A.a01, 0, A.a10, 0, A.a12, 0, A.a21, A.a22⟩ : M3 ℝ) + ⟨0, 0, A.a02 - 1, 0, A.a11 - 1, 0, A.a20 + 1, 0, 0⟩ =
    A - ⟨0, 0, 1, 0, 1, 0, -1, 0, 0⟩ by ext <;> simp] at this

/-- C55 for all robots that are accepted and whose forearm is horizontal at zero, not only those with exact axes: if no sign correction
is zero, then for every joint vector the orientation computed by the OPW solver's own forward kinematics is within 1/1000 of the robot's
(every vector is turned to places that far apart, relative to its length), and the position within 1/1000 of the total length of the
links plus the rounding.  Missing: zero sign corrections (`C55_sign_zero_false`) and vertical forearms (`C55_vertical_false`). -/
theorem C55_accepted_partial (robot : Robot ℝ) (ht : robot.jointType = [0, 0, 0, 0, 0, 0]) (h0 h1 h2 h3 h4 h5 : V3 ℝ)
    (hH : robot.H = [h0, h1, h2, h3, h4, h5]) (hx : Spec.Along h5 V3.ex) (q : OpwParams ℝ) (hq : robotToOpw robot = .ok q)
    (hs : (0 : ℤ) ∉ q.signs) (t0 t1 t2 t3 t4 t5 : ℝ) :
    ∃ T, Spec.flangePose robot [t0, t1, t2, t3, t4, t5] = .ok T ∧
      (∀ v : V3 ℝ, (T.R.mulVec v - (Spec.opwForward q [t0, t1, t2, t3, t4, t5]).R.mulVec v).norm ≤ 1 / 10 ^ 3 * v.norm) ∧
      (T.p - (Spec.opwForward q [t0, t1, t2, t3, t4, t5]).p).norm ≤
        5 / 10 ^ 6 + 1 / 10 ^ 8 * (|q.c2| + |q.a2| + |q.c3| + |q.c4|) + 1 / 10 ^ 3 * (robot.P.map V3.norm).sum := by
  obtain ⟨h0', h1', h2', h3', h4', h5', p0, p1, p2, p3, p4, p5, p6, F, hH', hP, hF, hFR, hFp, a0, a1, a2, a4, a35, ⟨p0x, p0y⟩, hwr⟩ :=
    (opw_ok_iff robot (by rw [hH, ht]; rfl)).1 ⟨q, hq⟩
  rw [hH] at hH'
  simp only [List.cons.injEq, and_true] at hH'
  obtain ⟨rfl, rfl, rfl, rfl, rfl, rfl⟩ := hH'
  replace hwr : ∀ p ∈ [p4, p5, p6], |p.y| ≤ 1 / 10 ^ 8 ∧ |p.z| ≤ 1 / 10 ^ 8 := by
    rcases hwr with h | h
    · exact h.2
    · exact absurd h.1 (along_exclusive hx)
  -- the state after bending
  have hq' := hq
  unfold robotToOpw at hq'
  rw [hH, hP, hF] at hq'
  simp only [pyAssert_bind_ok] at hq'
  obtain ⟨_, _, _, _, _, _, _, _, _, hq'⟩ := hq'
  obtain ⟨f, hf, hb⟩ : ∃ f, (f = OpwState.bend2 ∨ f = OpwState.bend3) ∧
      OpwState.bend (⟨p2, p3, p4, p5, p6, h2, h3, h4, h5, 0, 0⟩ : OpwState ℝ) = f ⟨p2, p3, p4, p5, p6, h2, h3, h4, h5, 0, 0⟩ := by
    unfold OpwState.bend
    rw [if_pos ((axisSign_along _ _).2 hx)]
    split_ifs
    · exact ⟨_, Or.inl rfl, rfl⟩
    · exact ⟨_, Or.inr rfl, rfl⟩
    · exact ⟨_, Or.inl rfl, rfl⟩
  rw [hb] at hq'
  obtain ⟨s0, s1, s2, s3, s4, s5, s, hpm, hg, hc, hpar, e0, e1, e2, e3, e4, e5⟩ := params_exact hf hq' hs
  obtain ⟨k0, k1, k2, k3, k4, k5⟩ : (s0 = 1 ∨ s0 = -1) ∧ (s1 = 1 ∨ s1 = -1) ∧ (s2 = 1 ∨ s2 = -1) ∧ (s3 = 1 ∨ s3 = -1) ∧
      (s4 = 1 ∨ s4 = -1) ∧ (s5 = 1 ∨ s5 = -1) := by simpa using hpm
  -- the exact arm
  let r : Robot ℝ := { robot with
    H := [(s0 : ℝ) • V3.ez, (s1 : ℝ) • V3.ey, (s2 : ℝ) • V3.ey, (s3 : ℝ) • V3.ex, (s4 : ℝ) • V3.ey, (s5 : ℝ) • V3.ex]
    P := [⟨0, 0, p0.z⟩, p1, p2, p3, p4.x • V3.ex, p5.x • V3.ex, p6.x • V3.ex]
    Tflange := some ⟨rot V3.ey (Real.pi / 2), 0, F.parent, F.child⟩
    Tbase := none
    Rtool := none
    ptool := none }
  have harm : Spec.OpwArm r V3.ex s0 s1 s2 s3 s4 s5 p0.z p1 p2 p3 p4.x p5.x p6.x := ⟨ht, hpm, rfl, rfl, _, _, rfl⟩
  obtain ⟨p, hp, H⟩ := opw_close harm (by rw [neg_neg, rot_ey_mulVec]; ext <;> simp) hg hc
  rw [hpar] at hp
  cases hp
  obtain ⟨T0, R, hT0, hR, _, b1, b2⟩ := H t0 t1 t2 t3 t4 t5
  rw [M3.mul_assoc', rot_mul _ unit_ey, neg_add_cancel, rot_zero, M3.mul_one'] at hR
  rw [← hR] at b1
  -- the distance of the two arms
  have turned : ∀ {h e : V3 ℝ} {s : ℤ}, s = 1 ∨ s = -1 → (h - (s : ℝ) • e).norm = (⟨-h.z, h.y, h.x⟩ - (s : ℝ) • (⟨-e.z, e.y, e.x⟩ : V3 ℝ) : V3 ℝ).norm := by
    intro h e s _
    rw [← norm_turned (h - (s : ℝ) • e)]
    congr 1; ext <;> simp; ring
  have n0 := near3_norm (axisSign_near e0 k0) (sum_axis k0 (by simp))
  have n1 := near3_norm (axisSign_near e1 k1) (sum_axis k1 (by simp))
  have n2 : (h2 - (s2 : ℝ) • V3.ey).norm ≤ 11 / 10 ^ 6 := by
    rcases e2 with e2 | e2
    · exact near3_norm (axisSign_near e2 k2) (sum_axis k2 (by simp))
    · rw [turned k2]
      have := near3_norm (axisSign_near e2 k2) (sum_axis k2 (by simp))
      convert this using 4
      ext <;> simp
  have n3 : (h3 - (s3 : ℝ) • V3.ex).norm ≤ 11 / 10 ^ 6 := by
    rw [turned k3]
    have := near3_norm (axisSign_near e3 k3) (sum_axis k3 (by simp))
    convert this using 4
    ext <;> simp
  have n4 : (h4 - (s4 : ℝ) • V3.ey).norm ≤ 11 / 10 ^ 6 := by
    rw [turned k4]
    have := near3_norm (axisSign_near e4 k4) (sum_axis k4 (by simp))
    convert this using 4
    ext <;> simp
  have n5 : (h5 - (s5 : ℝ) • V3.ex).norm ≤ 11 / 10 ^ 6 := by
    rw [turned k5]
    have := near3_norm (axisSign_near e5 k5) (sum_axis k5 (by simp))
    convert this using 4
    ext <;> simp
  have m0 : (p0 - (⟨0, 0, p0.z⟩ : V3 ℝ)).norm ≤ 3 / 10 ^ 8 := by
    have := V3.norm_le_sum (p0 - (⟨0, 0, p0.z⟩ : V3 ℝ))
    simp only [V3.sub_x, V3.sub_y, V3.sub_z, sub_zero, sub_self, abs_zero, add_zero] at this
    norm_num at p0x p0y ⊢
    linarith
  have mw : ∀ p ∈ [p4, p5, p6], (p - p.x • V3.ex).norm ≤ 3 / 10 ^ 8 := by
    intro p hp
    obtain ⟨hy, hz⟩ := hwr p hp
    rw [show p - p.x • V3.ex = ⟨0, p.y, p.z⟩ by ext <;> simp]
    have := V3.norm_le_sum (⟨0, p.y, p.z⟩ : V3 ℝ)
    simp only [abs_zero, zero_add] at this
    norm_num at hy hz ⊢
    linarith
  have mz : ∀ p : V3 ℝ, (p - p).norm ≤ 3 / 10 ^ 8 := by
    intro p
    rw [show p - p = 0 by ext <;> simp, V3.norm_zero]; norm_num
  have mF : (F.p - (0 : V3 ℝ)).norm ≤ 3 / 10 ^ 8 := by
    obtain ⟨a, b, c⟩ := hFp
    simp only [Spec.Near, V3.zero_x, V3.zero_y, V3.zero_z, sub_zero, abs_zero, mul_zero, add_zero] at a b c
    have := V3.norm_le_sum F.p
    rw [show F.p - (0 : V3 ℝ) = F.p by ext <;> simp]
    norm_num at a b c ⊢
    linarith
  have near : Spec.RobotsNear (11 / 10 ^ 6) (3 / 10 ^ 8) r { robot with Tbase := none, Rtool := none, ptool := none } := by
    refine ⟨rfl, ?_, ?_, ?_, Option.Rel.none, Option.Rel.none, Option.Rel.none⟩
    · show List.Forall₂ _ _ robot.H
      rw [hH]
      exact .cons n0 (.cons n1 (.cons n2 (.cons n3 (.cons n4 (.cons n5 .nil)))))
    · show List.Forall₂ _ _ robot.P
      rw [hP]
      exact .cons m0 (.cons (mz _) (.cons (mz _) (.cons (mz _) (.cons (mw p4 (by simp)) (.cons (mw p5 (by simp)) (.cons (mw p6 (by simp)) .nil))))))
    · show Option.Rel _ _ robot.Tflange
      rw [hF]
      exact Option.Rel.some ⟨opLe_sub_iff.1 (flange_near hFR), mF⟩
  have unit : ∀ {s : ℤ} {e : V3 ℝ}, s = 1 ∨ s = -1 → IsUnit3 e → IsUnit3 ((s : ℝ) • e) := by
    intro s e hs he
    unfold IsUnit3 at he ⊢
    rcases hs with rfl | rfl <;> simpa using he
  have wf : r.WF := by
    refine ⟨rfl, (by show robot.jointType.length = 6; rw [ht]; rfl), ?_, ?_, (fun B h => nomatch h), ?_, (fun B h => nomatch h), ⟨fun _ => rfl, fun _ => rfl⟩⟩
    · show ∀ t ∈ robot.jointType, t < 4
      rw [ht]; simp
    · intro h hm
      simp only [r, List.mem_cons, List.not_mem_nil, or_false] at hm
      rcases hm with rfl | rfl | rfl | rfl | rfl | rfl
      · exact unit k0 unit_ez
      · exact unit k1 unit_ey
      · exact unit k2 unit_ey
      · exact unit k3 unit_ex
      · exact unit k4 unit_ey
      · exact unit k5 unit_ex
    · intro G hG
      cases hG
      exact rot_isRot _ unit_ey _
  have hT0' : fwdkin r [t0, t1, t2, t3, t4, t5] true = .ok T0 := hT0
  obtain ⟨T, hT, c1, c2⟩ := C99_pose (11 / 10 ^ 6) (3 / 10 ^ 8) (by norm_num) (by norm_num) (by norm_num) r _ wf near _ T0 hT0'
  have hlen : r.jointType.length = 6 := by show robot.jointType.length = 6; rw [ht]; rfl
  have hsl : Spec.slides r.jointType [t0, t1, t2, t3, t4, t5] = 0 := by
    show Spec.slides robot.jointType _ = 0
    rw [ht]; simp [Spec.slides]
  have hreach : Spec.reach r [t0, t1, t2, t3, t4, t5] ≤ (robot.P.map V3.norm).sum := by
    have : Spec.reach r [t0, t1, t2, t3, t4, t5] = (⟨0, 0, p0.z⟩ : V3 ℝ).norm + (p1.norm + (p2.norm + (p3.norm + ((p4.x • V3.ex : V3 ℝ).norm +
        ((p5.x • V3.ex : V3 ℝ).norm + (p6.x • V3.ex : V3 ℝ).norm))))) := by
      show _ + Spec.travel robot.jointType _ _ + _ + _ + _ = _
      rw [ht]
      simp [Spec.travel, r, V3.norm_zero]
    rw [this, hP]
    have ax : ∀ p : V3 ℝ, (p.x • V3.ex : V3 ℝ).norm ≤ p.norm := by
      intro p
      rw [V3.norm_hsmul, V3.norm_eq_one unit_ex, mul_one]
      exact V3.abs_x_le p
    have az : (⟨0, 0, p0.z⟩ : V3 ℝ).norm ≤ p0.norm := by
      rw [norm_axis_z]; exact V3.abs_z_le p0
    have g4 := ax p4
    have g5 := ax p5
    have g6 := ax p6
    simp only [List.map_cons, List.map_nil, List.sum_cons, List.sum_nil, add_zero]
    linarith
  have hsum0 : 0 ≤ (robot.P.map V3.norm).sum := List.sum_nonneg (by simp only [List.mem_map]; rintro x ⟨p, _, rfl⟩; exact p.norm_nonneg)
  have cc : ((1 + 7 * (11 / 10 ^ 6)) ^ 9 : ℝ) ≤ 1 + 7 / 10 ^ 4 := by norm_num
  have cc1 : (1 : ℝ) ≤ (1 + 7 * (11 / 10 ^ 6)) ^ 9 := by norm_num
  rw [hlen] at c1 c2
  rw [hsl] at c2
  refine ⟨T, hT, fun v => ?_, ?_⟩
  · have i1 := c1 v
    have i2 := b1 v
    have i3 := V3.norm_add_le (T.R.mulVec v - T0.R.mulVec v) (T0.R.mulVec v - (Spec.opwForward q [t0, t1, t2, t3, t4, t5]).R.mulVec v)
    rw [show T.R.mulVec v - T0.R.mulVec v + (T0.R.mulVec v - (Spec.opwForward q [t0, t1, t2, t3, t4, t5]).R.mulVec v) =
      T.R.mulVec v - (Spec.opwForward q [t0, t1, t2, t3, t4, t5]).R.mulVec v by ext <;> simp] at i3
    have i4 : (((1 + 7 * (11 / 10 ^ 6)) ^ (6 + 3) : ℝ) - 1) * v.norm ≤ 7 / 10 ^ 4 * v.norm :=
      mul_le_mul_of_nonneg_right (by linarith) v.norm_nonneg
    have := v.norm_nonneg
    norm_num at i1 i2 i4 ⊢
    linarith
  · have i3 := V3.norm_add_le (T.p - T0.p) (T0.p - (Spec.opwForward q [t0, t1, t2, t3, t4, t5]).p)
    rw [show T.p - T0.p + (T0.p - (Spec.opwForward q [t0, t1, t2, t3, t4, t5]).p) =
      T.p - (Spec.opwForward q [t0, t1, t2, t3, t4, t5]).p by ext <;> simp] at i3
    have j1 : (((1 + 7 * (11 / 10 ^ 6)) ^ (6 + 3) : ℝ) - 1) * Spec.reach r [t0, t1, t2, t3, t4, t5] ≤ 7 / 10 ^ 4 * (robot.P.map V3.norm).sum :=
      (mul_le_mul_of_nonneg_left hreach (by linarith)).trans (mul_le_mul_of_nonneg_right (by linarith) hsum0)
    have j2 : ((1 + 7 * (11 / 10 ^ 6)) ^ (6 + 3) : ℝ) * (0 * (11 / 10 ^ 6) + (((6 : ℕ) : ℝ) + 4) * (3 / 10 ^ 8)) ≤ 4 / 10 ^ 7 := by norm_num
    have j3 := c2.trans (add_le_add j1 j2)
    have := i3.trans (add_le_add j3 b2)
    refine this.trans ?_
    have : 7 / 10 ^ 4 * (robot.P.map V3.norm).sum ≤ 1 / 10 ^ 3 * (robot.P.map V3.norm).sum := mul_le_mul_of_nonneg_right (by norm_num) hsum0
    linarith

/-- An arm like `exAbb` whose fourth and sixth axes are not quite along x, by 2 and 1 parts in 10⁸. -/
noncomputable def exSkew : Robot ℝ := { exAbb with H := [V3.ez, V3.ey, V3.ey, ⟨1, 2 / 10 ^ 8, 0⟩, V3.ey, ⟨1, 1 / 10 ^ 8, 0⟩] }

theorem near_of {a b : ℝ} (h : a = b) : Spec.Near a b := by
  unfold Spec.Near; rw [h, sub_self, abs_zero]; positivity

theorem near3_self (v : V3 ℝ) : Spec.Near3 v v := ⟨near_of rfl, near_of rfl, near_of rfl⟩

theorem exSkew_accepts : Spec.OpwAccepts exSkew := by
  refine ⟨_, _, _, _, _, _, _, _, _, _, _, _, _, _, rfl, rfl, rfl, ?_, near3_self 0, Or.inl (near3_self _), Or.inl (near3_self _),
    Or.inl (near3_self _), Or.inl (near3_self _), Or.inl ⟨near_of rfl, ?_, near_of rfl⟩, ?_, Or.inl ⟨Or.inl ⟨near_of rfl, ?_, near_of rfl⟩, ?_⟩⟩
  · have e0 : rot V3.ey (Real.pi / 2) = (⟨0, 0, 1, 0, 1, 0, -1, 0, 0⟩ : M3 ℝ) := by rw [← flange_lit]; exact flangeM
    show Spec.NearM _ (rot V3.ey (Real.pi / 2)) _
    rw [e0]
    simp only [Spec.NearM, M3.toList, List.zip_cons_cons, List.zip_nil_right, List.mem_cons, List.not_mem_nil, or_false,
      forall_eq_or_imp, forall_eq]
    norm_num
  · unfold Spec.Near; norm_num [abs_of_pos]
  · norm_num
  · unfold Spec.Near; norm_num [abs_of_pos]
  · norm_num

/-- C55 fails for some arms with nearly horizontal forearm: the fourth axis is compared with the sixth when the robot is checked, but
with the x axis when its sign is determined, so a robot can be accepted and get the sign correction 0; the solver then ignores the
joint, and at zero or at half a turn of this joint some unit vector is turned to directions at distance at least 1 apart. -/
theorem C55_sign_zero_false : ∃ (robot : Robot ℝ) (q : OpwParams ℝ), robot.jointType = [0, 0, 0, 0, 0, 0] ∧
    (∀ h ∈ robot.H, iscloseD h.norm 1) ∧ robotToOpw robot = .ok q ∧ q.signs = [1, 1, 1, 0, 1, 1] ∧
    ∃ t T, (t = 0 ∨ t = Real.pi) ∧ Spec.flangePose robot [0, 0, 0, t, 0, 0] = .ok T ∧
      ∃ v : V3 ℝ, v.norm = 1 ∧ 1 ≤ (T.R.mulVec v - (Spec.opwForward q [0, 0, 0, t, 0, 0]).R.mulVec v).norm := by
  obtain ⟨q, hq⟩ := (opw_ok_iff exSkew rfl).2 exSkew_accepts
  have hx : Spec.Along (⟨1, 1 / 10 ^ 8, 0⟩ : V3 ℝ) V3.ex := by
    left
    refine ⟨near_of rfl, ?_, near_of rfl⟩
    unfold Spec.Near; norm_num [abs_of_pos]
  have hsig : q.signs = [1, 1, 1, 0, 1, 1] := by
    have hq' := hq
    unfold robotToOpw exSkew exAbb at hq'
    simp only [pyAssert_bind_ok] at hq'
    obtain ⟨_, _, _, _, _, _, _, _, _, hq'⟩ := hq'
    rw [show ∀ s : OpwState ℝ, Spec.Along s.h5 V3.ex → s.bend = if Elem.abs s.p2.z < Elem.abs s.p2.x then s.bend2
      else if Elem.abs (s.p3.z + s.p4.z) < Elem.abs (s.p3.x + s.p4.x) then s.bend3 else s.bend2 from fun s hs => by
        unfold OpwState.bend; rw [if_pos ((axisSign_along _ _).2 hs)]] at hq'
    swap
    · exact hx
    have hb : ¬ ((Elem.abs (0.448 : ℝ) : ℝ) < Elem.abs (0 : ℝ)) := by
      show ¬ (|(0.448 : ℝ)| < |(0 : ℝ)|)
      norm_num
    have hb' : (Elem.abs ((0.042 : ℝ) + 0) : ℝ) < Elem.abs ((0 : ℝ) + 0.451) := by
      show |(0.042 : ℝ) + 0| < |(0 : ℝ) + 0.451|
      norm_num
    rw [if_neg hb, if_pos hb'] at hq'
    unfold OpwState.params at hq'
    simp only [pyAssert_bind_ok] at hq'
    obtain ⟨_, _, _, hq'⟩ := hq'
    cases hq'
    simp only [(straighten_wrist _).2.2.2.1, (straighten_wrist _).2.2.2.2.1, (straighten_wrist _).2.2.2.2.2.1, (straighten_wrist _).2.2.2.2.2.2,
      OpwState.bend3, bend_mulVec]
    have one : ∀ h e : V3 ℝ, Spec.Near3 h e → axisSign h e = 1 := by
      intro h e hn; unfold axisSign; rw [if_pos ((allclose3_near _ _).2 hn)]
    have hy : Spec.Near3 (⟨-V3.ey.z, V3.ey.y, V3.ey.x⟩ : V3 ℝ) V3.ey := ⟨near_of (by simp), near_of rfl, near_of rfl⟩
    have h5 : Spec.Near3 (⟨-0, 1 / 10 ^ 8, 1⟩ : V3 ℝ) V3.ez := by
      refine ⟨near_of (by simp), ?_, near_of rfl⟩
      unfold Spec.Near; norm_num [abs_of_pos]
    have h3 : axisSign (⟨-0, 2 / 10 ^ 8, 1⟩ : V3 ℝ) V3.ez = 0 := by
      by_contra h
      rcases (axisSign_along _ _).1 h with ⟨_, hy, _⟩ | ⟨_, hy, _⟩
      · simp only [Spec.Near, V3.ez] at hy; norm_num [abs_of_pos] at hy
      · simp only [Spec.Near, V3.ez, V3.neg_y] at hy; norm_num [abs_of_pos] at hy
    rw [one _ _ (near3_self _), one _ _ (near3_self _), one _ _ hy, one _ _ h5, h3]
  have hindep : ∀ t : ℝ, Spec.opwForward q [0, 0, 0, t, 0, 0] = Spec.opwForward q [0, 0, 0, 0, 0, 0] := by
    intro t
    simp only [Spec.opwForward, hsig, List.getD_cons_zero, List.getD_cons_succ, Int.cast_zero, mul_zero, zero_mul]
  have e0 : rot V3.ey (Real.pi / 2) = (⟨0, 0, 1, 0, 1, 0, -1, 0, 0⟩ : M3 ℝ) := by rw [← flange_lit]; exact flangeM
  obtain ⟨A, hA, hAR, _⟩ := fwdkin_six exSkew _ _ _ _ _ _ _ _ _ _ _ _ _ _ rfl rfl none none rfl rfl 0 0 0 0 0 0
  obtain ⟨B, hB, hBR, _⟩ := fwdkin_six exSkew _ _ _ _ _ _ _ _ _ _ _ _ _ _ rfl rfl none none rfl rfl 0 0 0 Real.pi 0 0
  simp only [rot_zero, M3.one_mul', M3.mul_one', e0] at hAR hBR
  have hAv : A.R.mulVec ⟨-1, 0, 0⟩ = V3.ez := by
    rw [hAR]; ext <;> simp
  have hBv : B.R.mulVec ⟨-1, 0, 0⟩ = ⟨0, 0, -1 - 8 / 10 ^ 16⟩ := by
    rw [hBR, ← M3.mulVec_mulVec, show (⟨0, 0, 1, 0, 1, 0, -1, 0, 0⟩ : M3 ℝ).mulVec ⟨-1, 0, 0⟩ = V3.ez by ext <;> simp]
    ext <;> simp [rot] <;> norm_num
  set w := (Spec.opwForward q [0, 0, 0, 0, 0, 0]).R.mulVec ⟨-1, 0, 0⟩ with hw
  have nv : (⟨-1, 0, 0⟩ : V3 ℝ).norm = 1 := by rw [norm_axis_x]; simp
  have far : 1 ≤ (A.R.mulVec ⟨-1, 0, 0⟩ - w).norm ∨ 1 ≤ (B.R.mulVec ⟨-1, 0, 0⟩ - w).norm := by
    by_contra h
    push Not at h
    rw [hAv, hBv] at h
    have tri := V3.norm_sub_le (V3.ez - w) ((⟨0, 0, -1 - 8 / 10 ^ 16⟩ : V3 ℝ) - w)
    rw [show V3.ez - w - ((⟨0, 0, -1 - 8 / 10 ^ 16⟩ : V3 ℝ) - w) = ⟨0, 0, 2 + 8 / 10 ^ 16⟩ by ext <;> simp; ring, norm_axis_z] at tri
    norm_num [abs_of_pos] at tri
    linarith [h.1, h.2]
  have unitish : ∀ h ∈ exSkew.H, iscloseD h.norm 1 := by
    have n1 : ∀ y : ℝ, 0 ≤ y → y ≤ 1 / 10 ^ 6 → iscloseD (⟨1, y, 0⟩ : V3 ℝ).norm 1 := by
      intro y h0 h1
      rw [iscloseD_near]
      unfold Spec.Near
      have a : (⟨1, y, 0⟩ : V3 ℝ).norm ≤ 1 + y := by
        have := norm_xy_le 1 y
        rwa [abs_one, abs_of_nonneg h0] at this
      have b : (1 : ℝ) ≤ (⟨1, y, 0⟩ : V3 ℝ).norm := by
        have := V3.abs_x_le (⟨1, y, 0⟩ : V3 ℝ)
        simpa using this
      rw [abs_of_nonneg (by linarith), abs_one]
      norm_num at h1 ⊢
      linarith
    have n2 : ∀ h : V3 ℝ, IsUnit3 h → iscloseD h.norm 1 := fun h hh => by rw [V3.norm_eq_one hh]; exact iscloseD_self 1
    intro h hm
    simp only [exSkew, List.mem_cons, List.not_mem_nil, or_false] at hm
    rcases hm with rfl | rfl | rfl | rfl | rfl | rfl
    · exact n2 _ unit_ez
    · exact n2 _ unit_ey
    · exact n2 _ unit_ey
    · exact n1 _ (by norm_num) (by norm_num)
    · exact n2 _ unit_ey
    · exact n1 _ (by norm_num) (by norm_num)
  refine ⟨exSkew, q, rfl, unitish, hq, hsig, ?_⟩
  rcases far with h | h
  · exact ⟨0, A, Or.inl rfl, hA, _, nv, h⟩
  · refine ⟨Real.pi, B, Or.inr rfl, hB, _, nv, ?_⟩
    rw [hindep]
    exact h

/-- C55 fails for every arm whose first joint slides instead of turning: the joint types are only counted, so the arm is accepted with
the same parameters, but after moving the first joint by `π` some unit vector is turned to directions at distance at least 1 apart. -/
theorem C55_sliding_false (robot : Robot ℝ) (s0 s1 s2 s3 s4 s5 : ℤ) (z0 : ℝ) (p1 p2 p3 : V3 ℝ) (x4 x5 x6 : ℝ)
    (h : Spec.OpwArm robot V3.ex s0 s1 s2 s3 s4 s5 z0 p1 p2 p3 x4 x5 x6) :
    ∃ q T, robotToOpw { robot with jointType := [1, 0, 0, 0, 0, 0] } = .ok q ∧
      Spec.flangePose { robot with jointType := [1, 0, 0, 0, 0, 0] } [Real.pi, 0, 0, 0, 0, 0] = .ok T ∧
      ∃ v : V3 ℝ, v.norm = 1 ∧ 1 ≤ (T.R.mulVec v - (Spec.opwForward q [Real.pi, 0, 0, 0, 0, 0]).R.mulVec v).norm := by
  obtain ⟨q, hq, H⟩ := C55_opw_partial robot s0 s1 s2 s3 s4 s5 z0 p1 p2 p3 x4 x5 x6 h
  obtain ⟨T0, hT0, b1, _⟩ := H Real.pi 0 0 0 0 0
  have k0 : s0 = 1 ∨ s0 = -1 := h.signs s0 (by simp)
  have same : robotToOpw { robot with jointType := [1, 0, 0, 0, 0, 0] } = robotToOpw robot := by
    unfold robotToOpw; rw [h.types]; rfl
  obtain ⟨pa, ch, hF⟩ := h.flange
  obtain ⟨A, hA, hAR, _⟩ := fwdkin_six robot _ _ _ _ _ _ _ _ _ _ _ _ _ _ h.axes h.links pa ch hF h.types Real.pi 0 0 0 0 0
  have e1 : T0 = A := by
    have : Except.ok T0 = (Except.ok A : Except PyErr (Transform ℝ)) := hT0.symm.trans hA
    cases this; rfl
  subst e1
  have hT : ∃ T, Spec.flangePose { robot with jointType := [1, 0, 0, 0, 0, 0] } [Real.pi, 0, 0, 0, 0, 0] = .ok T ∧ T.R = rot V3.ey (Real.pi / 2) := by
    unfold Spec.flangePose
    rcases robot with ⟨H, P, jt, lo, up, ve, ac, M, Rt, pt, jn, rl, tl, Tf, Tb, ef⟩
    have hax := h.axes
    have hli := h.links
    simp only at hax hli hF
    subst hax hli hF
    refine ⟨_, rfl, ?_⟩
    simp only [applyAux, fwdStep_rotary (t := 0) (Or.inl rfl), Transform.mul_R, M3.one_mul', rot_zero, M3.mul_one']
    rw [fwdStep_prismatic (Or.inl rfl), M3.one_mul']
  obtain ⟨T, hT, hTR⟩ := hT
  refine ⟨q, T, same.trans hq, hT, ⟨0, 0, 1⟩, by rw [norm_axis_z]; simp, ?_⟩
  have e0 : rot V3.ey (Real.pi / 2) = (⟨0, 0, 1, 0, 1, 0, -1, 0, 0⟩ : M3 ℝ) := by rw [← flange_lit]; exact flangeM
  have hTv : T.R.mulVec ⟨0, 0, 1⟩ = V3.ex := by rw [hTR, e0]; ext <;> simp
  have hAv : T0.R.mulVec ⟨0, 0, 1⟩ = -V3.ex := by
    rw [hAR]
    simp only [rot_zero, M3.mul_one', e0]
    rw [← M3.mulVec_mulVec, show (⟨0, 0, 1, 0, 1, 0, -1, 0, 0⟩ : M3 ℝ).mulVec ⟨0, 0, 1⟩ = V3.ex by ext <;> simp, rot_sign k0, rot_ez_mulVec]
    rcases k0 with rfl | rfl <;> ext <;> simp
  have b := b1 ⟨0, 0, 1⟩
  rw [hAv, norm_axis_z] at b
  rw [hTv]
  set w := (Spec.opwForward q [Real.pi, 0, 0, 0, 0, 0]).R.mulVec ⟨0, 0, 1⟩
  have tri := V3.norm_sub_le (V3.ex - w) (-V3.ex - w)
  rw [show V3.ex - w - (-V3.ex - w) = (⟨2, 0, 0⟩ : V3 ℝ) by ext <;> simp; ring, norm_axis_x] at tri
  norm_num at tri b
  linarith

/-- C55: for an upper arm that is vertical at zero, of length `|l|`, the parameter `c2` is this length; only if the arm points down and the
forearm reaches further forward than up or down it is the negative of it (the bend is then put into the third joint). -/
theorem C55_upper_arm (robot : Robot ℝ) (s0 s1 s2 s3 s4 s5 : ℤ) (z0 : ℝ) (p1 p3 : V3 ℝ) (y l x4 x5 x6 : ℝ) (hl : 1 / 10 ^ 8 < |l|)
    (h : Spec.OpwArm robot V3.ex s0 s1 s2 s3 s4 s5 z0 p1 ⟨0, y, l⟩ p3 x4 x5 x6) :
    ∃ q, robotToOpw robot = .ok q ∧ q.c2 = npRound 6 (if l < 0 ∧ |p3.z| < |p3.x + x4| then l else |l|) := by
  obtain ⟨q, hq, _⟩ := C55_opw_partial robot s0 s1 s2 s3 s4 s5 z0 p1 _ p3 x4 x5 x6 h
  refine ⟨q, hq, ?_⟩
  rw [robotToOpw_arm h (Or.inl rfl)] at hq
  have k5 : s5 = 1 ∨ s5 = -1 := h.signs s5 (by simp)
  unfold OpwState.params at hq
  simp only [pyAssert_bind_ok] at hq
  obtain ⟨_, _, _, hq⟩ := hq
  cases hq
  simp only
  congr 1
  unfold OpwState.bend
  rw [if_pos (by simp only [axisSign_eq k5 not_close_ex]; exact pm_ne_zero k5)]
  have c1 : ¬ ((Elem.abs l : ℝ) < Elem.abs (0 : ℝ)) := by
    show ¬ (|l| < |(0 : ℝ)|)
    rw [abs_zero]; exact not_lt.2 (abs_nonneg l)
  rw [if_neg c1]
  have c2 : ((Elem.abs (p3.z + (x4 • V3.ex : V3 ℝ).z) : ℝ) < Elem.abs (p3.x + (x4 • V3.ex : V3 ℝ).x)) ↔ |p3.z| < |p3.x + x4| := by
    show |p3.z + (x4 • V3.ex : V3 ℝ).z| < |p3.x + (x4 • V3.ex : V3 ℝ).x| ↔ _
    simp
  have len : ∀ s : OpwState ℝ, ¬ iscloseD s.p2.x 0 → s.straighten.p2.z = Real.sqrt (s.p2.z * s.p2.z + s.p2.x * s.p2.x) := by
    intro s hc
    unfold OpwState.straighten
    rw [if_neg hc]
    simp only
    rw [rot_ey_mulVec]
    obtain ⟨h1, h2⟩ := polar_arg s.p2.z s.p2.x
    show -Real.sin (-Complex.arg ⟨s.p2.z, s.p2.x⟩) * s.p2.x + Real.cos (-Complex.arg ⟨s.p2.z, s.p2.x⟩) * s.p2.z = _
    rw [Real.cos_neg, Real.sin_neg, neg_neg]
    generalize Complex.arg ⟨s.p2.z, s.p2.x⟩ = φ at h1 h2 ⊢
    have sc := Real.sin_sq_add_cos_sq φ
    have hk : Real.sqrt (s.p2.z * s.p2.z + s.p2.x * s.p2.x) * (Real.sin φ ^ 2 + Real.cos φ ^ 2) =
      Real.sqrt (s.p2.z * s.p2.z + s.p2.x * s.p2.x) := by rw [sc, mul_one]
    rw [← hk]
    generalize Real.sqrt (s.p2.z * s.p2.z + s.p2.x * s.p2.x) = k at h1 h2 ⊢
    rw [← h1, ← h2]; ring
  by_cases hc : |p3.z| < |p3.x + x4|
  · rw [if_pos (c2.2 hc)]
    have : (OpwState.bend3 (⟨⟨0, y, l⟩, p3, x4 • V3.ex, x5 • V3.ex, x6 • V3.ex, (s2 : ℝ) • V3.ey, (s3 : ℝ) • V3.ex, (s4 : ℝ) • V3.ey,
        (s5 : ℝ) • V3.ex, 0, 0⟩ : OpwState ℝ)).straighten.p2.z = l := by
      unfold OpwState.straighten
      rw [if_pos (by exact iscloseD_self 0)]
      rfl
    rw [this]
    by_cases l0 : l < 0
    · rw [if_pos ⟨l0, hc⟩]
    · rw [if_neg (fun h => l0 h.1), abs_of_nonneg (not_lt.1 l0)]
  · rw [if_neg (fun h => hc (c2.1 h)), if_neg (fun h => hc h.2), len]
    · simp only [OpwState.bend2, bend_mulVec]
      rw [mul_zero, zero_add, neg_mul_neg, Real.sqrt_mul_self_eq_abs]
    · simp only [OpwState.bend2, bend_mulVec]
      rw [near_zero, abs_neg]
      exact not_le.2 hl

/-- A robot that meets the hypotheses of `C98_opw` and is accepted, although its axes are not exact. -/
example : exSkew.H.length = exSkew.jointType.length ∧ exSkew.P.length = exSkew.jointType.length + 1 ∧ Spec.OpwAccepts exSkew :=
  ⟨rfl, rfl, exSkew_accepts⟩

/-- C55: the sign corrections found for an arm with exact axes and a horizontal forearm are the signs of its axes; none is zero. -/
theorem C55_signs (robot : Robot ℝ) (s0 s1 s2 s3 s4 s5 : ℤ) (z0 : ℝ) (p1 p2 p3 : V3 ℝ) (x4 x5 x6 : ℝ)
    (h : Spec.OpwArm robot V3.ex s0 s1 s2 s3 s4 s5 z0 p1 p2 p3 x4 x5 x6) :
    ∃ q, robotToOpw robot = .ok q ∧ q.signs = [s0, s1, s2, s3, s4, s5] ∧ (0 : ℤ) ∉ q.signs := by
  have k5 : s5 = 1 ∨ s5 = -1 := h.signs s5 (by simp)
  have hex : ∀ x : ℝ, x • (V3.ex : V3 ℝ) = ⟨x, 0, 0⟩ := by intro x; ext <;> simp
  obtain ⟨hg, hc⟩ := straighten_good (bend_good p2 p3 x4 x5 x6 s2 s3 s4 s5 k5)
  have e := robotToOpw_arm h (Or.inl rfl)
  rw [hex x4, hex x5, hex x6, params_good h.signs hg hc] at e
  refine ⟨_, e, rfl, fun h0 => ?_⟩
  rcases h.signs 0 h0 with h | h <;> omega

/-- A robot that meets the hypotheses of `C55_accepted_partial`: parameters are found and no sign is zero. -/
example : Spec.Along V3.ex V3.ex ∧ ∃ q, robotToOpw exAbb = .ok q ∧ (0 : ℤ) ∉ q.signs := by
  obtain ⟨q, hq, _, h0⟩ := C55_signs _ _ _ _ _ _ _ _ _ _ _ _ _ _ exAbb_arm
  exact ⟨Or.inl (near3_self _), q, hq, h0⟩

/-- Arms that meet the hypotheses of `C55_sliding_false` and of `C55_upper_arm`. -/
example : Spec.OpwArm exAbb V3.ex 1 1 1 1 1 1 0.3991 ⟨0, 0, 0⟩ ⟨0, 0, 0.448⟩ ⟨0, 0, 0.042⟩ 0.451 0.082 0 ∧ 1 / 10 ^ 8 < |(0.448 : ℝ)| :=
  ⟨exAbb_arm, by norm_num [abs_of_pos]⟩

/-- `C99_pose` for two descriptions of an arm that differ in two axes, by less than three parts in 10⁸. -/
example : exAbb.WF ∧ Spec.RobotsNear (3 / 10 ^ 8) 0 exAbb exSkew := by
  have z : ∀ v : V3 ℝ, (v - v).norm ≤ 0 := fun v => by rw [show v - v = 0 by ext <;> simp, V3.norm_zero]
  have e : ∀ (v : V3 ℝ), (v - v).norm ≤ 3 / 10 ^ 8 := fun v => (z v).trans (by norm_num)
  have y : ∀ a : ℝ, 0 ≤ a → a ≤ 3 / 10 ^ 8 → ((⟨1, a, 0⟩ : V3 ℝ) - V3.ex).norm ≤ 3 / 10 ^ 8 := fun a h0 h1 => by
    rw [show (⟨1, a, 0⟩ : V3 ℝ) - V3.ex = ⟨0, a, 0⟩ by ext <;> simp]
    refine (norm_xy_le 0 a).trans ?_
    rw [abs_zero, zero_add, abs_of_nonneg h0]; exact h1
  refine ⟨?_, rfl, ?_, ?_, Option.Rel.some ⟨fun v => ?_, z _⟩, Option.Rel.none, Option.Rel.none, Option.Rel.none⟩
  · refine ⟨rfl, rfl, (by simp [exAbb]), ?_, (fun B h => by cases h), fun F h => ?_, (fun R h => by cases h), ⟨fun _ => rfl, fun _ => rfl⟩⟩
    · intro v hv
      simp only [exAbb, List.mem_cons, List.not_mem_nil, or_false] at hv
      rcases hv with rfl | rfl | rfl | rfl | rfl | rfl
      exacts [unit_ez, unit_ey, unit_ey, unit_ex, unit_ey, unit_ex]
    · cases h; exact rot_isRot _ unit_ey _
  · exact .cons (e _) (.cons (e _) (.cons (e _) (.cons (y _ (by norm_num) (by norm_num)) (.cons (e _) (.cons (y _ (by norm_num) (by norm_num)) .nil)))))
  · exact .cons (z _) (.cons (z _) (.cons (z _) (.cons (z _) (.cons (z _) (.cons (z _) (.cons (z _) .nil))))))
  · exact (z _).trans (mul_nonneg (by norm_num) v.norm_nonneg)
