import Verif.Lemmas.FlSub2
import Verif.Lemmas.FlIter
import Verif.Lemmas.FlKeeps
import Verif.Lemmas.Lip
import Verif.Lemmas.Complete
import Verif.Props.RoundingSubE

/-! # Rounding error along the search of `robot6_sphericalwrist_invkin` -/
set_option autoImplicit false

namespace Fl
variable {F : FSys}

/-- `rot` of a stored axis and an angle known up to `d` and whole turns. -/
theorem rot_angE {k : V3 ℝ} (hk : IsUnit3 k) {k' : V3 (Fl F)} (hkk : Spec.VNear k' k F.u) {th : Fl F} {θ d : ℝ} (hth : Spec.AngNear th θ d) :
    Spec.MNear (rot k' th) (rot k θ) (d + 189 * F.u) := by
  obtain ⟨n, v, hv, h⟩ := hth
  have e : th = of v := congrArg Fl.mk hv
  subst e
  obtain ⟨C, hC, h1⟩ := mNear_iff.1 (rot_near hk hkk ((near_of v).mono F.u_nonneg))
  refine mNear_iff.2 ⟨C, hC, ?_⟩
  have h2 := rot_angle_lip hk v (θ + n * (2 * Real.pi))
  rw [rot_periodic] at h2
  have h3 := h1.add (h2.mono h)
  rw [show C - rot k v + (rot k v - rot k θ) = C - rot k θ by ext <;> simp] at h3
  exact h3.mono (by linarith)

/-- A product of rotations with bounds that are easy to add up. -/
theorem MNear.mulE {A B : M3 (Fl F)} {R S : M3 ℝ} {a b : ℝ} (hA : Spec.MNear A R a) (hB : Spec.MNear B S b) (hR : IsRot R) (hS : IsRot S)
    (ha : a ≤ 1 / 16) (hb : b ≤ 1 / 16) : Spec.MNear (A * B) (R * S) (a + 17 / 16 * b + 45 * F.u) := by
  have b0 : 0 ≤ b := (mNear_iff.1 hB).elim fun _ h => h.2.nonneg
  refine MNear.mono (MNear.mul hA hB hR hS ha hb) ?_
  have := mul_le_mul_of_nonneg_right ha b0
  linarith

/-- A computed rotation of a stored unit vector. -/
theorem MNear.mulUnit {A : M3 (Fl F)} {R : M3 ℝ} {w : V3 (Fl F)} {v : V3 ℝ} {a : ℝ} (hA : Spec.MNear A R a) (hw : Spec.VNear w v F.u)
    (hR : IsRot R) (ha : a ≤ 1 / 16) (hv : IsUnit3 v) : Spec.VNear (A.mulVec w) (R.mulVec v) (a + 32 * F.u) := by
  have u0 := F.u_nonneg
  have u1 := F.u_le
  have b := F.big_ge
  have η := F.η_le
  have n := V3.norm_eq_one hv
  refine VNear.mono (MNear.mulVec (s := 1) hA hw hR ha n.le (by linarith) one_pos (by linarith) (by linarith)) ?_
  rw [n]
  have := mul_le_mul_of_nonneg_right ha u0
  linarith

/-! ## The innermost loop: joint 6 -/

theorem r6Last_near (hF : Spec.InvAcc F) {N : Normalizer (Fl F)} {q : ℕ → ℝ} {A : ℕ → Fl F → ℝ → Prop} {D e : ℝ} (hN : Follows N q A (fun _ => 8) D e) {h3 h4 h5 : V3 ℝ} (u3 : IsUnit3 h3) (u4 : IsUnit3 h4) (u5 : IsUnit3 h5) (h45 : h4.dot h5 = 0)
    {R03 R06 : M3 ℝ} {q4 q5 q6 : ℝ} (e6 : q 5 = q6) (hr : IsRot R03) (hR : R06 = R03 * (rot h3 q4 * rot h4 q5) * rot h5 q6)
    {h3' h4' h5' : V3 (Fl F)} {R03' R06' : M3 (Fl F)} {x1 x2 x3 x4 x5 : Fl F} {e03 er a f β : ℝ}
    (hu : F.u ≤ 1 / 100000000000) (hη : 16 * F.η ≤ F.u ^ 3)
    (n3 : Spec.VNear h3' h3 F.u) (n4 : Spec.VNear h4' h4 F.u) (n5 : Spec.VNear h5' h5 F.u)
    (r03 : Spec.MNear R03' R03 e03) (r06 : Spec.MNear R06' R06 er) (a4 : Spec.AngNear x4 q4 a) (a5 : Spec.AngNear x5 q5 a)
    (hf : e03 + 17 / 16 * er + 16 / 7 * a + 600 * F.u ≤ f) (hf1 : f ≤ 1 / 16)
    (hβ : Band β (F.u + f) h4 ((rot h5 q6).mulVec h4)) {a6 : ℝ} (ha6 : β + 315 / 100 * (F.u + f) + 700000 * F.u + e ≤ a6) (ha6' : a6 ≤ D)
    {sols : List (List (Fl F))} (h : r6Last N h3' h4' h5' R06' R03' x1 x2 x3 x4 x5 = .ok sols) :
    ∃ x6, sols = [[x1, x2, x3, x4, x5, x6]] ∧ A 5 x6 a6 := by
  have u0 := F.u_nonneg
  have e0 : 0 ≤ e03 := (mNear_iff.1 r03).elim fun _ h => h.2.nonneg
  have er0 : 0 ≤ er := (mNear_iff.1 r06).elim fun _ h => h.2.nonneg
  have a0 : 0 ≤ a := by
    obtain ⟨n, v, -, h⟩ := a4
    exact (abs_nonneg _).trans h
  have i4 := rot_isRot h3 u3 q4
  have i5 := rot_isRot h4 u4 q5
  have i6 := rot_isRot h5 u5 q6
  have i06 : IsRot R06 := by rw [hR]; exact (hr.mul (i4.mul i5)).mul i6
  have g1 := MNear.mulE (rot_angE u3 n3 a4) (rot_angE u4 n4 a5) i4 i5 (by linarith) (by linarith)
  have g2 := MNear.mulE r03 g1 hr (i4.mul i5) (by linarith) (by linarith)
  have g3 := MNear.mulE (MNear.transpose g2) r06 (hr.mul (i4.mul i5)).transpose i06 (by linarith) (by linarith)
  have e' : (R03 * (rot h3 q4 * rot h4 q5)).transpose * R06 = rot h5 q6 := by
    rw [hR, ← M3.mul_assoc', (hr.mul (i4.mul i5)).orth, M3.one_mul']
  rw [e'] at g3
  have g4 := VNear.mono (e := f) (MNear.mulUnit g3 n4 i6 (by linarith) u4) (by linarith)
  have hp : 1 ≤ (h4.perp h5).norm := by
    have : h4.perp h5 = h4 := by
      rw [V3.perp, h45]; ext <;> simp
    rw [this, V3.norm_eq_one u4]
  simp only [r6Last] at h
  rcases subproblem1_nearE hF u5 (by rw [V3.norm_eq_one u4]; norm_num) (rfl : (rot h5 q6).mulVec h4 = _) one_pos le_rfl hp (by linarith) (by linarith)
    (by linarith) hu hη hβ n5 n4 g4 with ⟨hs, -⟩ | ⟨th, hs, ht⟩
  · rw [hs] at h; cases h
  · have n0 := hN.nonneg
    rw [hs, Except.bind_ok] at h
    rw [div_one] at ht
    obtain ⟨o, ho, h⟩ := Except.bind_eq_ok h
    obtain ⟨y, rfl, hy⟩ := hN.one (j := 5) (by norm_num) ⟨fun v hv => (subproblem1_le hF hs hv).trans (by norm_num), fun hE => subproblem1_rep hE hs⟩ (by rw [e6]; exact ht) (by linarith) ho
    cases h
    exact ⟨y, rfl, hN.mono hy ha6⟩

/-! ## The loop over the elbow angle: joints 2, 4, 5 and 6 -/

/-- Where the elbow puts the wrist centre. -/
theorem elbow_near {h2 P2 P3 : V3 ℝ} (u2 : IsUnit3 h2) (hl : P2.norm + P3.norm ≤ 19 / 10) {q3 a3 : ℝ} {h2' P2' P3' : V3 (Fl F)} {x3 : Fl F}
    (hu : F.u ≤ 1 / 100000000000) (ha3 : a3 ≤ 1 / 17) (n2 : Spec.VNear h2' h2 F.u) (p2 : Spec.VNear P2' P2 (16 * F.u)) (p3 : Spec.VNear P3' P3 (16 * F.u))
    (hx3 : Spec.AngNear x3 q3 a3) : Spec.VNear (P2' + (rot h2' x3).mulVec P3') (P2 + (rot h2 q3).mulVec P3) (2 * a3 + 500 * F.u) := by
  have u0 := F.u_nonneg
  have b := F.big_ge
  have η := F.η_le
  have a0 : 0 ≤ a3 := by
    obtain ⟨n, v, -, h⟩ := hx3
    exact (abs_nonneg _).trans h
  have m2 := P2.norm_nonneg
  have m3 := P3.norm_nonneg
  have i3 := rot_isRot h2 u2 q3
  have g1 := MNear.mulVec (s := 2) (rot_angE u2 n2 hx3) p3 i3 (by linarith) (by linarith) (by linarith) two_pos (by linarith) (by linarith)
  have k1 : (a3 + 189 * F.u) * P3.norm ≤ (a3 + 189 * F.u) * (19 / 10) := mul_le_mul_of_nonneg_left (by linarith) (by linarith)
  have k2 : (1 + (a3 + 189 * F.u)) * (16 * F.u) ≤ 11 / 10 * (16 * F.u) := mul_le_mul_of_nonneg_right (by linarith) (by linarith)
  have g2 := VNear.mono (e := 19 / 10 * a3 + 440 * F.u) g1 (by linarith)
  have nn := V3.norm_add_le P2 ((rot h2 q3).mulVec P3)
  rw [i3.norm_mulVec] at nn
  exact VNear.mono (VNear.add (s := 2) p2 g2 two_pos (by linarith) (by linarith) (by linarith)) (by linarith)

theorem r6Elbow_near (hF : Spec.InvAcc F) {N : Normalizer (Fl F)} {q : ℕ → ℝ} {A : ℕ → Fl F → ℝ → Prop} {D e : ℝ} (hN : Follows N q A (fun _ => 8) D e) {h1 h2 h3 h4 h5 P2 P3 : V3 ℝ} (u1 : IsUnit3 h1) (u2 : IsUnit3 h2) (u3 : IsUnit3 h3) (u4 : IsUnit3 h4)
    (u5 : IsUnit3 h5) (h34 : h3.dot h4 = 0) (h45 : h4.dot h5 = 0) (hl : P2.norm + P3.norm ≤ 19 / 10)
    {R01 R06 : M3 ℝ} {q2 q3 q4 q5 q6 : ℝ} (e2 : q 1 = q2) (e4' : q 3 = q4) (e5 : q 4 = q5) (e6 : q 5 = q6) (hr : IsRot R01) (hR : R06 = R01 * rot h1 q2 * rot h2 q3 * (rot h3 q4 * rot h4 q5) * rot h5 q6)
    {h1' h2' h3' h4' h5' P2' P3' p26' : V3 (Fl F)} {R01' R06' : M3 (Fl F)} {x1 x3 : Fl F} {e01 er e26 e4 a2 a3 a4 f s2 γ β : ℝ}
    (hu : F.u ≤ 1 / 100000000000) (hη : 16 * F.η ≤ F.u ^ 3)
    (n1 : Spec.VNear h1' h1 F.u) (n2 : Spec.VNear h2' h2 F.u) (n3 : Spec.VNear h3' h3 F.u) (n4 : Spec.VNear h4' h4 F.u) (n5 : Spec.VNear h5' h5 F.u)
    (p2 : Spec.VNear P2' P2 (16 * F.u)) (p3 : Spec.VNear P3' P3 (16 * F.u))
    (r01 : Spec.MNear R01' R01 e01) (r06 : Spec.MNear R06' R06 er) (hx3 : Spec.AngNear x3 q3 a3)
    (hp26 : Spec.VNear p26' ((rot h1 q2).mulVec (P2 + (rot h2 q3).mulVec P3)) e26)
    -- joint 2
    (hs1 : s2 ≤ 1) (hs : s2 ≤ ((P2 + (rot h2 q3).mulVec P3).perp h1).norm) (hs3 : 4 * a3 + 1000 * F.u ≤ s2) (hs26 : 2 * e26 ≤ s2) (hsu : 280000 * F.u ≤ s2)
    (hs0 : 0 < s2) (hβ2 : Band β (2 * a3 + 500 * F.u + e26) (P2 + (rot h2 q3).mulVec P3) ((rot h1 q2).mulVec (P2 + (rot h2 q3).mulVec P3)))
    (ha2 : (β + 315 / 100 * (2 * a3 + 500 * F.u + e26) + 700000 * F.u) / s2 + e ≤ a2)
    -- joints 4 and 5
    (he4 : e01 + 17 / 16 * (a2 + a3 + er) + 600 * F.u ≤ e4) (hγ0 : 1 / 1000000 ≤ γ) (hγ : γ ≤ |(h3.cross h4).dot ((rot h4 q5).mulVec h5)|)
    (hγe : 60 * e4 + 300000 * F.u ≤ γ ^ 2) (hβ4 : Band β (e4 + (34 / 10 * e4 + 900 * F.u) / γ) ((rot h3 q4 * rot h4 q5).mulVec h5) ((rot h4 q5).mulVec h5))
    (hβ5 : Band β (F.u + (34 / 10 * e4 + 900 * F.u) / γ) h5 ((rot h4 q5).mulVec h5)) (ha4 : (β + (14 * e4 + 710000 * F.u) / γ) / γ + e ≤ a4)
    -- joint 6
    (hf : e4 + 16 / 7 * a4 + 500 * F.u ≤ f) (hf1 : f ≤ 1 / 16) (hβ6 : Band β (F.u + f) h4 ((rot h5 q6).mulVec h4))
    {a6 : ℝ} (ha6 : β + 315 / 100 * (F.u + f) + 700000 * F.u + e ≤ a6) (ha6' : a6 ≤ D) {sols : List (List (Fl F))}
    (h : r6Elbow N h1' h2' h3' h4' h5' P2' P3' R06' R01' p26' x1 x3 = .ok sols) :
    ∃ x2 x4 x5 x6, [x1, x2, x3, x4, x5, x6] ∈ sols ∧ A 1 x2 a2 ∧ A 3 x4 a4 ∧ A 4 x5 a4 ∧ A 5 x6 a6 := by
  have u0 := F.u_nonneg
  have e0 : 0 ≤ e01 := (mNear_iff.1 r01).elim fun _ h => h.2.nonneg
  have er0 : 0 ≤ er := (mNear_iff.1 r06).elim fun _ h => h.2.nonneg
  have e260 : 0 ≤ e26 := by
    obtain ⟨w, -, h⟩ := hp26
    exact (V3.norm_nonneg _).trans h
  have a30 : 0 ≤ a3 := by
    obtain ⟨n, v, -, h⟩ := hx3
    exact (abs_nonneg _).trans h
  have β0 := hβ2.nonneg
  have n0 := hN.nonneg
  have a20 : 0 ≤ a2 := le_trans (by positivity) ha2
  have γ0 : 0 < γ := by linarith
  have e40 : 0 ≤ e4 := by linarith
  have a40 : 0 ≤ a4 := le_trans (by positivity) ha4
  have γ1 : γ ≤ 1 := by
    refine hγ.trans ((V3.abs_dot_le _ _).trans ?_)
    rw [(rot_isRot _ u4 q5).norm_mulVec, V3.norm_eq_one u5, mul_one]
    refine (V3.norm_cross_le _ _).trans ?_
    rw [V3.norm_eq_one u3, V3.norm_eq_one u4, mul_one]
  have γsq : γ ^ 2 ≤ 1 := pow_le_one₀ γ0.le γ1
  have i2 := rot_isRot h1 u1 q2
  have i3 := rot_isRot h2 u2 q3
  have i4 := rot_isRot h3 u3 q4
  have i5 := rot_isRot h4 u4 q5
  have i6 := rot_isRot h5 u5 q6
  have i06 : IsRot R06 := by rw [hR]; exact ((((hr.mul i2).mul i3).mul (i4.mul i5))).mul i6
  have a3s : a3 ≤ 1 / 17 := by linarith
  have g1 := elbow_near u2 hl hu a3s n2 p2 p3 hx3
  have nx : (P2 + (rot h2 q3).mulVec P3).norm ≤ 3 := by
    have := V3.norm_add_le P2 ((rot h2 q3).mulVec P3)
    rw [i3.norm_mulVec] at this
    linarith
  simp only [r6Elbow] at h
  rcases subproblem1_nearE hF u1 nx (rfl : (rot h1 q2).mulVec _ = _) hs0 hs1 hs (by linarith) hs26 hsu hu hη hβ2 n1 g1 hp26 with ⟨h', -⟩ | ⟨t2, h', ht2⟩
  · rw [h'] at h; cases h
  rw [h', Except.bind_ok] at h
  obtain ⟨o, ho, h⟩ := Except.bind_eq_ok h
  obtain ⟨x2, rfl, hx2⟩ := hN.one (j := 1) (by norm_num) ⟨fun v hv => (subproblem1_le hF h' hv).trans (by norm_num), fun hE => subproblem1_rep hE h'⟩ (by rw [e2]; exact ht2) (by linarith) ho
  simp only at h
  have hA2 := hN.mono hx2 ha2
  have hx2' := hN.ang hA2
  rw [e2] at hx2'
  have g2 := MNear.mulE (MNear.mulE r01 (rot_angE u1 n1 hx2') hr i2 (by linarith) (by linarith)) (rot_angE u2 n2 hx3) (hr.mul i2) i3 (by linarith) (by linarith)
  have g3 := MNear.mulE (MNear.transpose g2) r06 ((hr.mul i2).mul i3).transpose i06 (by linarith) (by linarith)
  have e1 : (R01 * rot h1 q2 * rot h2 q3).transpose * R06 = (rot h3 q4 * rot h4 q5) * rot h5 q6 := by
    rw [hR, M3.mul_assoc' (R01 * rot h1 q2 * rot h2 q3), ← M3.mul_assoc', ((hr.mul i2).mul i3).orth, M3.one_mul']
  rw [e1] at g3
  have g4 := VNear.mono (e := e4) (MNear.mulUnit g3 n5 ((i4.mul i5).mul i6) (by linarith) u5) (by linarith)
  have e2' : ((rot h3 q4 * rot h4 q5) * rot h5 q6).mulVec h5 = (rot h3 q4 * rot h4 q5).mulVec h5 := by
    rw [← M3.mulVec_mulVec, rot_axis]
  rw [e2'] at g4
  obtain ⟨Q45, h45', h⟩ := Except.bind_eq_ok h
  rcases subproblem2_nearE hF u3 u4 u5 h34 rfl hγ0 hγ hu hη hγe hβ4 hβ5 n3 n4 n5 g4 with hs2 | ⟨x, y, hs2, hxy⟩
  · rw [hs2] at h45'; cases h45'
  rw [hs2] at h45'; cases h45'
  obtain ⟨Q45, hQ, h⟩ := Except.bind_eq_ok h
  have sz : ∀ z ∈ [x, y], Made 8 z.1 ∧ Made 8 z.2 := fun z hz =>
    ⟨⟨fun v hv => (subproblem2_le hF hs2 hz hv).trans (by norm_num), fun hE => (subproblem2_rep hE hs2 hz).1⟩,
      fun v hv => (subproblem2_le2 hF hs2 hz hv).trans (by norm_num), fun hE => (subproblem2_rep hE hs2 hz).2⟩
  have key : ∀ z : Fl F × Fl F, z ∈ [x, y] → Spec.AngNear z.1 q4 ((β + (14 * e4 + 710000 * F.u) / γ) / γ) →
      Spec.AngNear z.2 q5 ((β + (14 * e4 + 710000 * F.u) / γ) / γ) →
      ∃ x2 x4 x5 x6, [x1, x2, x3, x4, x5, x6] ∈ sols ∧ A 1 x2 a2 ∧ A 3 x4 a4 ∧ A 4 x5 a4 ∧ A 5 x6 a6 := by
    intro z hz z1 z2
    obtain ⟨x4, x5, hm, y4, y5⟩ := hN.callV (i := 3) (j := 4) (by norm_num) (by norm_num) hz (sz z hz).1 (sz z hz).2 (by rw [e4']; exact z1)
      (by rw [e5]; exact z2) (by linarith) hQ
    have y4 := hN.mono y4 ha4
    have y5 := hN.mono y5 ha4
    have z4 := hN.ang y4
    have z5 := hN.ang y5
    rw [e4'] at z4
    rw [e5] at z5
    obtain ⟨sl, hsl, hsub⟩ := forAppend_mem h hm
    obtain ⟨x6, rfl, hx6⟩ := r6Last_near hF hN u3 u4 u5 h45 e6 ((hr.mul i2).mul i3) hR hu hη n3 n4 n5 g2 r06 z4 z5 (f := f) (by linarith) hf1 hβ6 ha6 ha6' hsl
    exact ⟨x2, x4, x5, x6, hsub _ (by simp), hA2, y4, y5, hx6⟩
  rcases hxy with ⟨z1, z2⟩ | ⟨z1, z2⟩
  · exact key x (by simp) z1 z2
  · exact key y (by simp) z1 z2

/-! ## The loop over the shoulder angle: joint 3 -/

theorem VNear.neg {w : V3 (Fl F)} {v : V3 ℝ} {d : ℝ} (h : Spec.VNear w v d) : Spec.VNear (-w) (-v) d := by
  obtain ⟨x, rfl, h⟩ := h
  refine ⟨-x, rfl, ?_⟩
  rw [show -x - -v = -(x - v) by ext <;> simp <;> ring, V3.norm_neg]
  exact h

/-- Norm of a computed vector. -/
theorem VNear.norm {w : V3 (Fl F)} {v : V3 ℝ} {d : ℝ} (h : Spec.VNear w v d) (hv : v.norm + d ≤ 5 / 2) (hη : 16 * F.η ≤ F.u ^ 3) :
    w.norm.Near v.norm (d + 100 * F.u) := by
  have u0 := F.u_nonneg
  obtain ⟨x, rfl, h⟩ := h
  have h1 := V3.norm_add_le (x - v) v
  rw [show x - v + v = x by ext <;> simp] at h1
  obtain ⟨z, hz, hzx⟩ := near_norm3 (F := F) (v := x) (v' := x.map Fl.of) (e := 0) (N := 5 / 2) ⟨near_of x.x, near_of x.y, near_of x.z⟩ (by linarith) (by norm_num) hη
  refine ⟨z, hz, ?_⟩
  rw [show z - v.norm = (z - x.norm) + (x.norm - v.norm) by ring]
  have h3 := (V3.norm_sub_rev x v).trans h
  refine (abs_add_le _ _).trans ?_
  linarith

/-- The wrist centre seen from the shoulder. -/
theorem p26_near {h0 P0 P1 g v : V3 ℝ} (u0' : IsUnit3 h0) {q1 a1 ev : ℝ} (hv : v = (rot h0 q1).mulVec (P0 + P1 + g)) (hvn : v.norm ≤ 19 / 10)
    (hl : P0.norm + P1.norm ≤ 19 / 10) (hg : g.norm ≤ 19 / 10)
    {h0' P0' P1' v' : V3 (Fl F)} {x1 : Fl F} (hu : F.u ≤ 1 / 100000000000) (ha1 : a1 ≤ 1 / 30) (hev : ev ≤ 1 / 20) (n0 : Spec.VNear h0' h0 F.u)
    (p0 : Spec.VNear P0' P0 (16 * F.u)) (p1 : Spec.VNear P1' P1 (16 * F.u)) (hx1 : Spec.AngNear x1 q1 a1) (hv' : Spec.VNear v' v ev) :
    Spec.VNear ((rot h0' x1).transpose.mulVec v' - (P0' + P1')) g (2 * a1 + 17 / 16 * ev + 500 * F.u) := by
  have u0 := F.u_nonneg
  have b := F.big_ge
  have η := F.η_le
  have a0 : 0 ≤ a1 := by
    obtain ⟨n, w, -, h⟩ := hx1
    exact (abs_nonneg _).trans h
  have ev0 : 0 ≤ ev := by
    obtain ⟨w, -, h⟩ := hv'
    exact (V3.norm_nonneg _).trans h
  have i1 := rot_isRot h0 u0' q1
  have g1 := MNear.mulVec (s := 2) (MNear.transpose (rot_angE u0' n0 hx1)) hv' i1.transpose (by linarith) (by linarith) (by linarith) two_pos
    (by linarith) (by linarith)
  have e1 : (rot h0 q1).transpose.mulVec v = P0 + P1 + g := by rw [hv, i1.transpose_mulVec_mulVec]
  rw [e1] at g1
  have k1 : (a1 + 189 * F.u) * v.norm ≤ (a1 + 189 * F.u) * (19 / 10) := mul_le_mul_of_nonneg_left hvn (by linarith)
  have k2 : (1 + (a1 + 189 * F.u)) * ev ≤ 17 / 16 * ev := mul_le_mul_of_nonneg_right (by linarith) ev0
  have g2 := VNear.mono (e := 19 / 10 * a1 + 17 / 16 * ev + 425 * F.u) g1 (by linarith)
  have n01 := V3.norm_add_le P0 P1
  have g3 := VNear.add (s := 2) p0 p1 two_pos (by linarith) (by linarith) (by linarith)
  have e2 : P0 + P1 + g - (P0 + P1) = g := by ext <;> simp
  have g4 := VNear.sub (s := 2) g2 g3 two_pos (by rw [e2]; linarith) (by linarith) (by linarith)
  rw [e2] at g4
  exact VNear.mono g4 (by linarith)

/-- The errors of the earlier joints are below that of the last. -/
theorem levels_le {u β e a1 a2 a3 a4 a6 D e26 e4 er f m3 s2 γ : ℝ} (u0 : 0 ≤ u) (β0 : 0 ≤ β) (n0 : 0 ≤ e) (a10 : 0 ≤ a1) (er0 : 0 ≤ er) (e260 : 0 ≤ e26)
    (hm0 : 0 < m3) (ha3 : β + (77 / 10 * e26 + 3300000 * u) / m3 + e ≤ a3) (hs0 : 0 < s2)
    (ha2 : (β + 315 / 100 * (2 * a3 + 500 * u + e26) + 700000 * u) / s2 + e ≤ a2) (he4 : a1 + 17 / 16 * (a2 + a3 + er) + 800 * u ≤ e4) (hγ0 : 1 / 1000000 ≤ γ)
    (ha4 : (β + (14 * e4 + 710000 * u) / γ) / γ + e ≤ a4) (hf : e4 + 16 / 7 * a4 + 500 * u ≤ f) (ha6 : β + 315 / 100 * (u + f) + 700000 * u + e ≤ a6)
    (ha6' : a6 ≤ D) : a1 ≤ D ∧ a3 ≤ D := by
  have γ0 : 0 < γ := by linarith
  have h1 : 0 ≤ (77 / 10 * e26 + 3300000 * u) / m3 := by positivity
  have a30 : 0 ≤ a3 := by linarith
  have h2 : 0 ≤ (β + 315 / 100 * (2 * a3 + 500 * u + e26) + 700000 * u) / s2 := by positivity
  have a20 : 0 ≤ a2 := by linarith
  have e40 : 0 ≤ e4 := by linarith
  have h3 : 0 ≤ (β + (14 * e4 + 710000 * u) / γ) / γ := by positivity
  exact ⟨by linarith, by linarith⟩

theorem r6Shoulder_near (hF : Spec.InvAcc F) {N : Normalizer (Fl F)} {q : ℕ → ℝ} {A : ℕ → Fl F → ℝ → Prop} {D e : ℝ} (hN : Follows N q A (fun _ => 8) D e) {h0 h1 h2 h3 h4 h5 P0 P1 P2 P3 v : V3 ℝ} (u0' : IsUnit3 h0) (u1 : IsUnit3 h1) (u2 : IsUnit3 h2)
    (u3 : IsUnit3 h3) (u4 : IsUnit3 h4) (u5 : IsUnit3 h5) (h34 : h3.dot h4 = 0) (h45 : h4.dot h5 = 0) (hl : P2.norm + P3.norm ≤ 19 / 10)
    (hl0 : P0.norm + P1.norm ≤ 19 / 10) (hvn : v.norm ≤ 19 / 10)
    {R06 : M3 ℝ} {q1 q2 q3 q4 q5 q6 : ℝ} (e2 : q 1 = q2) (e3 : q 2 = q3) (e4' : q 3 = q4) (e5 : q 4 = q5) (e6 : q 5 = q6)
    (hR : R06 = rot h0 q1 * rot h1 q2 * rot h2 q3 * (rot h3 q4 * rot h4 q5) * rot h5 q6)
    (hv : v = (rot h0 q1).mulVec (P0 + P1 + (rot h1 q2).mulVec (P2 + (rot h2 q3).mulVec P3)))
    {h0' h1' h2' h3' h4' h5' P0' P1' P2' P3' P6' p0T' : V3 (Fl F)} {R06' : M3 (Fl F)} {x1 : Fl F} {ev er e26 e4 a1 a2 a3 a4 f m3 s2 γ β : ℝ}
    (hu : F.u ≤ 1 / 100000000000) (hη : 16 * F.η ≤ F.u ^ 3)
    (n0 : Spec.VNear h0' h0 F.u) (n1 : Spec.VNear h1' h1 F.u) (n2 : Spec.VNear h2' h2 F.u) (n3 : Spec.VNear h3' h3 F.u) (n4 : Spec.VNear h4' h4 F.u)
    (n5 : Spec.VNear h5' h5 F.u) (p0 : Spec.VNear P0' P0 (16 * F.u)) (p1 : Spec.VNear P1' P1 (16 * F.u))
    (p2 : Spec.VNear P2' P2 (16 * F.u)) (p3 : Spec.VNear P3' P3 (16 * F.u))
    (r06 : Spec.MNear R06' R06 er) (hx1 : Spec.AngNear x1 q1 a1) (hv' : Spec.VNear (p0T' - R06'.mulVec P6') v ev)
    (he26 : 2 * a1 + 17 / 16 * ev + 500 * F.u ≤ e26)
    -- joint 3
    (hm0 : 0 < m3) (hm : m3 ≤ |P2.dot (h2.cross ((rot h2 q3).mulVec P3))|) (hm3 : 2600000 * F.u + 330 * e26 ≤ m3 ^ 2)
    (hβ3 : Band β (60000 * (F.u / m3)) (Spec.dir P3 h2) (Spec.dir P2 h2)) (ha3 : β + (77 / 10 * e26 + 3300000 * F.u) / m3 + e ≤ a3)
    -- joint 2
    (hs1 : s2 ≤ 1) (hs : s2 ≤ ((P2 + (rot h2 q3).mulVec P3).perp h1).norm) (hs3 : 4 * a3 + 1000 * F.u ≤ s2) (hs26 : 2 * e26 ≤ s2) (hsu : 280000 * F.u ≤ s2)
    (hs0 : 0 < s2) (hβ2 : Band β (2 * a3 + 500 * F.u + e26) (P2 + (rot h2 q3).mulVec P3) ((rot h1 q2).mulVec (P2 + (rot h2 q3).mulVec P3)))
    (ha2 : (β + 315 / 100 * (2 * a3 + 500 * F.u + e26) + 700000 * F.u) / s2 + e ≤ a2)
    -- joints 4 and 5
    (he4 : a1 + 17 / 16 * (a2 + a3 + er) + 800 * F.u ≤ e4) (hγ0 : 1 / 1000000 ≤ γ) (hγ : γ ≤ |(h3.cross h4).dot ((rot h4 q5).mulVec h5)|)
    (hγe : 60 * e4 + 300000 * F.u ≤ γ ^ 2) (hβ4 : Band β (e4 + (34 / 10 * e4 + 900 * F.u) / γ) ((rot h3 q4 * rot h4 q5).mulVec h5) ((rot h4 q5).mulVec h5))
    (hβ5 : Band β (F.u + (34 / 10 * e4 + 900 * F.u) / γ) h5 ((rot h4 q5).mulVec h5)) (ha4 : (β + (14 * e4 + 710000 * F.u) / γ) / γ + e ≤ a4)
    -- joint 6
    (hf : e4 + 16 / 7 * a4 + 500 * F.u ≤ f) (hf1 : f ≤ 1 / 16) (hβ6 : Band β (F.u + f) h4 ((rot h5 q6).mulVec h4))
    {a6 : ℝ} (ha6 : β + 315 / 100 * (F.u + f) + 700000 * F.u + e ≤ a6) (ha6' : a6 ≤ D) {sols : List (List (Fl F))}
    (h : r6Shoulder N h0' h1' h2' h3' h4' h5' P0' P1' P2' P3' P6' R06' p0T' x1 = .ok sols) :
    ∃ x2 x3 x4 x5 x6, [x1, x2, x3, x4, x5, x6] ∈ sols ∧ A 1 x2 a2 ∧ A 2 x3 a3 ∧ A 3 x4 a4 ∧ A 4 x5 a4 ∧ A 5 x6 a6 := by
  have u0 := F.u_nonneg
  have β0 := hβ2.nonneg
  have a10 : 0 ≤ a1 := by
    obtain ⟨n, w, -, h⟩ := hx1
    exact (abs_nonneg _).trans h
  have er0 : 0 ≤ er := (mNear_iff.1 r06).elim fun _ h => h.2.nonneg
  have ev0 : 0 ≤ ev := by
    obtain ⟨w, -, h⟩ := hv'
    exact (V3.norm_nonneg _).trans h
  have e260 : 0 ≤ e26 := by linarith
  have i1 := rot_isRot h0 u0' q1
  have i2 := rot_isRot h1 u1 q2
  have i3 := rot_isRot h2 u2 q3
  have nx : (P2 + (rot h2 q3).mulVec P3).norm ≤ 19 / 10 := by
    have := V3.norm_add_le P2 ((rot h2 q3).mulVec P3)
    rw [i3.norm_mulVec] at this
    linarith
  have m2 := P2.norm_nonneg
  have m3' := P3.norm_nonneg
  have mle : m3 ≤ 4 := by
    refine hm.trans ((V3.abs_dot_le _ _).trans ?_)
    have c1 := V3.norm_cross_le h2 ((rot h2 q3).mulVec P3)
    rw [V3.norm_eq_one u2, one_mul, i3.norm_mulVec] at c1
    calc P2.norm * _ ≤ 2 * 2 := mul_le_mul (by linarith) (by linarith) (V3.norm_nonneg _) (by norm_num)
      _ = 4 := by norm_num
  have msq : m3 ^ 2 ≤ 16 := by nlinarith
  have e26s : e26 ≤ 1 / 20 := by linarith
  have g1 := VNear.mono (p26_near u0' hv hvn hl0 (by rw [i2.norm_mulVec]; exact nx) hu (by linarith) (by linarith) n0 p0 p1 hx1 hv') he26
  have g2 := VNear.norm g1 (by rw [i2.norm_mulVec]; linarith) hη
  simp only [r6Shoulder] at h
  obtain ⟨Q3, hQ3, h⟩ := Except.bind_eq_ok h
  obtain ⟨K3, hK3, h⟩ := Except.bind_eq_ok h
  have n0' := hN.nonneg
  have a3D := (levels_le u0 β0 n0' a10 er0 e260 hm0 ha3 hs0 ha2 he4 hγ0 ha4 hf ha6 ha6').2
  have key : ∀ x3 ∈ Q3, Spec.AngNear x3 q3 (β + (77 / 10 * (e26 + 100 * F.u) + 3200000 * F.u) / m3) →
      ∃ x2 x3 x4 x5 x6, [x1, x2, x3, x4, x5, x6] ∈ sols ∧ A 1 x2 a2 ∧ A 2 x3 a3 ∧ A 3 x4 a4 ∧ A 4 x5 a4 ∧ A 5 x6 a6 := by
    intro x3 hx3 hn
    have hd : β + (77 / 10 * (e26 + 100 * F.u) + 3200000 * F.u) / m3 + e ≤ a3 :=
      le_trans (add_le_add_left (add_le_add le_rfl (div_le_div_of_nonneg_right (by linarith) hm0.le)) _) ha3
    obtain ⟨y3, hy3, hA3⟩ := hN.callS (j := 2) (by norm_num) hx3 ⟨fun v hv => (subproblem3_le hF hQ3 hx3 hv).trans (by norm_num), fun hE => subproblem3_rep hE hQ3 hx3⟩ (by rw [e3]; exact hn) (by linarith only [hd, a3D, n0']) hK3
    have hA3 := hN.mono hA3 hd
    have hn := hN.ang hA3
    rw [e3] at hn
    obtain ⟨sl, hsl, hsub⟩ := forAppend_mem h hy3
    obtain ⟨x2, x4, x5, x6, hmem, y2, y4, y5, y6⟩ := r6Elbow_near hF hN u1 u2 u3 u4 u5 h34 h45 hl e2 e4' e5 e6 i1 hR hu hη n1 n2 n3 n4 n5 p2 p3 (rot_angE u0' n0 hx1) r06 hn g1
      hs1 hs hs3 hs26 hsu hs0 hβ2 ha2 (e4 := e4) (by linarith) hγ0 hγ hγe hβ4 hβ5 ha4 hf hf1 hβ6 ha6 ha6' hsl
    exact ⟨x2, y3, x4, x5, x6, hsub _ hmem, y2, hA3, y4, y5, y6⟩
  rcases subproblem3_nearE (f := e26 + 100 * F.u) hF u2 (by linarith) (by linarith) (V3.norm_nonneg _) (by rw [i2.norm_mulVec]) hm0 hm hu hη (by linarith) (by linarith) hβ3 n2 p3 p2 g2
    with h3 | ⟨t1, t2, h3, ht⟩
  · rw [h3] at hQ3; cases hQ3
  · rw [h3] at hQ3; cases hQ3
    rcases ht with ht | ht
    · exact key t1 (by simp) ht
    · exact key t2 (by simp) ht

/-! ## The search: joint 1 -/

/-- The displacement along y that the shoulder angle has to produce. -/
theorem d1_near {P1 P2 P3 : V3 ℝ} (hl : P1.norm + P2.norm + P3.norm ≤ 19 / 10) {P1' P2' P3' : V3 (Fl F)} (hu : F.u ≤ 1 / 100000000000)
    (p1 : Spec.VNear P1' P1 (16 * F.u)) (p2 : Spec.VNear P2' P2 (16 * F.u)) (p3 : Spec.VNear P3' P3 (16 * F.u)) :
    ((V3.ey : V3 (Fl F)).dot (P1' + P2' + P3')).Near ((V3.ey : V3 ℝ).dot (P1 + P2 + P3)) (100 * F.u) := by
  have u0 := F.u_nonneg
  have b := F.big_ge
  have η := F.η_le
  have m1 := P1.norm_nonneg
  have m2 := P2.norm_nonneg
  have m3 := P3.norm_nonneg
  have n12 := V3.norm_add_le P1 P2
  have n123 := V3.norm_add_le (P1 + P2) P3
  have g1 := VNear.add (s := 2) p1 p2 two_pos (by linarith) (by linarith) (by linarith)
  obtain ⟨w, hw, hd⟩ := VNear.add (s := 2) g1 p3 two_pos (by linarith) (by linarith) (by linarith)
  rw [hw]
  have nw := V3.norm_add_le (w - (P1 + P2 + P3)) (P1 + P2 + P3)
  rw [show w - (P1 + P2 + P3) + (P1 + P2 + P3) = w by ext <;> simp] at nw
  have nw2 : w.norm ≤ 17 / 16 * 2 := by linarith
  obtain ⟨z, hz, hzd⟩ := near_dot3 (F := F) (s := 2) two_pos (by linarith) (by linarith) (a₁ := 0) (a₂ := 1) (a₃ := 0) (by norm_num) (by norm_num) (by norm_num)
    ((V3.abs_x_le w).trans nw2) ((V3.abs_y_le w).trans nw2) ((V3.abs_z_le w).trans nw2)
  refine ⟨z, hz, ?_⟩
  have hy := (V3.abs_y_le (w - (P1 + P2 + P3))).trans hd
  have e : (V3.ey : V3 ℝ).dot (P1 + P2 + P3) = (P1 + P2 + P3).y := by simp [V3.dot]
  rw [e, show z - (P1 + P2 + P3).y = (z - (0 * w.x + 1 * w.y + 0 * w.z)) + (w - (P1 + P2 + P3)).y by simp]
  refine (abs_add_le _ _).trans ?_
  linarith

/-- The height of the wrist centre does not depend on joints 2 and 3. -/
theorem level_sum {h1 h2 : V3 ℝ} (s1 : h1 = V3.ey ∨ h1 = -V3.ey) (s2 : h2 = V3.ey ∨ h2 = -V3.ey) (P2 P3 : V3 ℝ) (q2 q3 : ℝ) :
    V3.ey.dot ((rot h1 q2).mulVec (P2 + (rot h2 q3).mulVec P3)) = V3.ey.dot P2 + V3.ey.dot P3 := by
  have key : ∀ (k : V3 ℝ) (q : ℝ) (v : V3 ℝ), (k = V3.ey ∨ k = -V3.ey) → V3.ey.dot ((rot k q).mulVec v) = V3.ey.dot v := by
    intro k q v hk
    have := (rot_invariants (p := v) (pm_unit hk) (φ := q) rfl).2
    rcases hk with rfl | rfl
    · rw [V3.dot_comm, ← this, V3.dot_comm]
    · rw [V3.dot_neg, V3.dot_neg, neg_inj] at this
      rw [V3.dot_comm, ← this, V3.dot_comm]
  rw [key h1 q2 _ s1, V3.dot_add, key h2 q3 _ s2]

theorem split_first {h0 P0 : V3 ℝ} {c : ℝ} (hP0 : P0 = c • h0) (P1 g : V3 ℝ) (q : ℝ) : (rot h0 q).mulVec (P0 + P1 + g) = P0 + (rot h0 q).mulVec (P1 + g) := by
  rw [M3.mulVec_add (rot h0 q) (P0 + P1), M3.mulVec_add (rot h0 q) P0, M3.mulVec_add (rot h0 q) P1, hP0, rot_hsmul_axis]
  generalize (rot h0 q).mulVec P1 = a
  generalize (rot h0 q).mulVec g = b
  ext <;> simp <;> ring

theorem r6Search_near (hF : Spec.InvAcc F) {N : Normalizer (Fl F)} {q : ℕ → ℝ} {A : ℕ → Fl F → ℝ → Prop} {D e : ℝ} (hN : Follows N q A (fun _ => 8) D e) {h0 h1 h2 h3 h4 h5 P0 P1 P2 P3 P6 p0T : V3 ℝ} (u0' : IsUnit3 h0) (s1 : h1 = V3.ey ∨ h1 = -V3.ey)
    (s2' : h2 = V3.ey ∨ h2 = -V3.ey) (u3 : IsUnit3 h3) (u4 : IsUnit3 h4) (u5 : IsUnit3 h5) (h34 : h3.dot h4 = 0) (h45 : h4.dot h5 = 0)
    {c : ℝ} (hP0 : P0 = c • h0) (hlev : V3.ey.dot P0 = 0) (hl : P0.norm + P1.norm + P2.norm + P3.norm ≤ 19 / 10) (hl6 : P6.norm ≤ 1)
    {R06 : M3 ℝ} {q1 q2 q3 q4 q5 q6 : ℝ} (e1 : q 0 = q1) (e2 : q 1 = q2) (e3 : q 2 = q3) (e4' : q 3 = q4) (e5 : q 4 = q5) (e6 : q 5 = q6)
    (hR : R06 = rot h0 q1 * rot h1 q2 * rot h2 q3 * (rot h3 q4 * rot h4 q5) * rot h5 q6)
    (hp : p0T - R06.mulVec P6 = P0 + (rot h0 q1).mulVec (P1 + (rot h1 q2).mulVec (P2 + (rot h2 q3).mulVec P3)))
    {h0' h1' h2' h3' h4' h5' P0' P1' P2' P3' P4' P5' P6' p0T' : V3 (Fl F)} {R06' : M3 (Fl F)} {ep ev er e26 e4 a1 a2 a3 a4 f m1 m3 s2 γ β : ℝ}
    (hu : F.u ≤ 1 / 100000000000) (hη : 16 * F.η ≤ F.u ^ 3)
    (n0 : Spec.VNear h0' h0 F.u) (n1 : Spec.VNear h1' h1 F.u) (n2 : Spec.VNear h2' h2 F.u) (n3 : Spec.VNear h3' h3 F.u) (n4 : Spec.VNear h4' h4 F.u)
    (n5 : Spec.VNear h5' h5 F.u) (p0 : Spec.VNear P0' P0 (16 * F.u)) (p1 : Spec.VNear P1' P1 (16 * F.u))
    (p2 : Spec.VNear P2' P2 (16 * F.u)) (p3 : Spec.VNear P3' P3 (16 * F.u)) (p6 : Spec.VNear P6' P6 (16 * F.u))
    (r06 : Spec.MNear R06' R06 er) (hp' : Spec.VNear p0T' p0T ep)
    -- joint 1
    (hev : ep + er + 120 * F.u ≤ ev) (hm10 : 0 < m1)
    (hm1 : m1 ≤ |V3.ey.dot (h0.cross (P1 + (rot h1 q2).mulVec (P2 + (rot h2 q3).mulVec P3)))|)
    (hm1e : 150 * (ev + 900 * F.u) ≤ m1 ^ 2) (ha1 : 17 * (ev + 900 * F.u) / m1 + e ≤ a1)
    (he26 : 2 * a1 + 17 / 16 * ev + 500 * F.u ≤ e26)
    -- joint 3
    (hm0 : 0 < m3) (hm : m3 ≤ |P2.dot (h2.cross ((rot h2 q3).mulVec P3))|) (hm3 : 2600000 * F.u + 330 * e26 ≤ m3 ^ 2)
    (hβ3 : Band β (60000 * (F.u / m3)) (Spec.dir P3 h2) (Spec.dir P2 h2)) (ha3 : β + (77 / 10 * e26 + 3300000 * F.u) / m3 + e ≤ a3)
    -- joint 2
    (hs1 : s2 ≤ 1) (hs : s2 ≤ ((P2 + (rot h2 q3).mulVec P3).perp h1).norm) (hs3 : 4 * a3 + 1000 * F.u ≤ s2) (hs26 : 2 * e26 ≤ s2) (hsu : 280000 * F.u ≤ s2)
    (hs0 : 0 < s2) (hβ2 : Band β (2 * a3 + 500 * F.u + e26) (P2 + (rot h2 q3).mulVec P3) ((rot h1 q2).mulVec (P2 + (rot h2 q3).mulVec P3)))
    (ha2 : (β + 315 / 100 * (2 * a3 + 500 * F.u + e26) + 700000 * F.u) / s2 + e ≤ a2)
    -- joints 4 and 5
    (he4 : a1 + 17 / 16 * (a2 + a3 + er) + 800 * F.u ≤ e4) (hγ0 : 1 / 1000000 ≤ γ) (hγ : γ ≤ |(h3.cross h4).dot ((rot h4 q5).mulVec h5)|)
    (hγe : 60 * e4 + 300000 * F.u ≤ γ ^ 2) (hβ4 : Band β (e4 + (34 / 10 * e4 + 900 * F.u) / γ) ((rot h3 q4 * rot h4 q5).mulVec h5) ((rot h4 q5).mulVec h5))
    (hβ5 : Band β (F.u + (34 / 10 * e4 + 900 * F.u) / γ) h5 ((rot h4 q5).mulVec h5)) (ha4 : (β + (14 * e4 + 710000 * F.u) / γ) / γ + e ≤ a4)
    -- joint 6
    (hf : e4 + 16 / 7 * a4 + 500 * F.u ≤ f) (hf1 : f ≤ 1 / 16) (hβ6 : Band β (F.u + f) h4 ((rot h5 q6).mulVec h4))
    {a6 : ℝ} (ha6 : β + 315 / 100 * (F.u + f) + 700000 * F.u + e ≤ a6) (ha6' : a6 ≤ D) {sols : List (List (Fl F))}
    (h : r6Search [h0', h1', h2', h3', h4', h5'] [P0', P1', P2', P3', P4', P5', P6'] N R06' p0T' = .ok sols) :
    ∃ x1 x2 x3 x4 x5 x6, [x1, x2, x3, x4, x5, x6] ∈ sols ∧ A 0 x1 a1 ∧ A 1 x2 a2 ∧ A 2 x3 a3 ∧ A 3 x4 a4 ∧ A 4 x5 a4 ∧ A 5 x6 a6 := by
  have u0 := F.u_nonneg
  have b := F.big_ge
  have η := F.η_le
  have u1 := pm_unit s1
  have u2 := pm_unit s2'
  have i1 := rot_isRot h0 u0' q1
  have i2 := rot_isRot h1 u1 q2
  have i3 := rot_isRot h2 u2 q3
  have i06 : IsRot R06 := by
    rw [hR]
    exact (((i1.mul i2).mul i3).mul ((rot_isRot h3 u3 q4).mul (rot_isRot h4 u4 q5))).mul (rot_isRot h5 u5 q6)
  have l0 := P0.norm_nonneg
  have l1 := P1.norm_nonneg
  have l2 := P2.norm_nonneg
  have l3 := P3.norm_nonneg
  have er0 : 0 ≤ er := (mNear_iff.1 r06).elim fun _ h => h.2.nonneg
  have ep0 : 0 ≤ ep := by
    obtain ⟨w, -, h⟩ := hp'
    exact (V3.norm_nonneg _).trans h
  set g := (rot h1 q2).mulVec (P2 + (rot h2 q3).mulVec P3) with hg
  have ng : g.norm ≤ P2.norm + P3.norm := by
    have := V3.norm_add_le P2 ((rot h2 q3).mulVec P3)
    rw [i3.norm_mulVec] at this
    rw [hg, i2.norm_mulVec]
    exact this
  set w := P0 + P1 + g with hw
  set v := p0T - R06.mulVec P6 with hv0
  have hv : v = (rot h0 q1).mulVec w := by rw [hp, hw, split_first hP0]
  have nw : w.norm ≤ 19 / 10 := by
    have h1 := V3.norm_add_le (P0 + P1) g
    have h2 := V3.norm_add_le P0 P1
    rw [← hw] at h1
    linarith
  have nv : v.norm ≤ 19 / 10 := by rw [hv, i1.norm_mulVec]; exact nw
  have hd : V3.ey.dot (P1 + P2 + P3) = V3.ey.dot w := by
    have e1 : V3.ey.dot g = V3.ey.dot P2 + V3.ey.dot P3 := level_sum s1 s2' P2 P3 q2 q3
    rw [hw, V3.dot_add, V3.dot_add, V3.dot_add, V3.dot_add, e1, hlev]; ring
  -- the wrist centre
  have evs : ev ≤ 1 / 16 := by
    have c1 := V3.norm_cross_le h0 (P1 + g)
    rw [V3.norm_eq_one u0', one_mul] at c1
    have c2 := V3.norm_add_le P1 g
    have c3 := V3.abs_dot_le V3.ey (h0.cross (P1 + g))
    rw [V3.norm_ey, one_mul] at c3
    have h2 : m1 ≤ 2 := by linarith only [hm1, c1, c2, c3, hl, ng, l0]
    have h4 := pow_le_pow_left₀ hm10.le h2 2
    linarith only [h4, hm1e, u0]
  have ers : er ≤ 1 / 16 := by linarith only [evs, hev, ep0, u0]
  have eps : ep ≤ 1 / 16 := by linarith only [evs, hev, er0, u0]
  have g1 := MNear.mulVec (s := 1) r06 p6 i06 (by linarith only [ers]) hl6 (by linarith only [hu]) one_pos (by linarith only [η, u0]) (by linarith only [b])
  have k1 : er * P6.norm ≤ er * 1 := mul_le_mul_of_nonneg_left hl6 er0
  have k2 : (1 + er) * (16 * F.u) ≤ 17 / 16 * (16 * F.u) := mul_le_mul_of_nonneg_right (by linarith only [ers]) (by linarith only [u0])
  have g2 := VNear.mono (e := er + 50 * F.u) g1 (by linarith only [k1, k2, u0])
  have g3 := VNear.mono (e := ev) (VNear.sub (s := 2) hp' g2 two_pos (by rw [← hv0]; linarith) (by linarith) (by linarith)) (by linarith)
  have g4 := d1_near (by linarith) hu p1 p2 p3
  rw [hd] at g4
  have un : IsUnit3 (-h0) := by
    have := u0'; simp only [IsUnit3] at this ⊢; simpa using this
  have hback : (rot (-h0) q1).mulVec v = w := by rw [rot_neg_axis, rot_neg, hv, i1.transpose_mulVec_mulVec]
  have hcr : (-h0).cross w = -(h0.cross (P1 + g)) := by rw [hw, hP0]; ext <;> simp <;> ring
  obtain ⟨t, t', θ', hq, ht, -, -, -⟩ := C74_subproblem4_split_partial hF (-h0) V3.ey v un ey_unit nv (V3.ey.dot w) q1 (by rw [hback]) m1 hm10
    (by rw [hback, hcr, V3.dot_neg, abs_neg]; exact hm1) (-h0') (V3.ey.map Fl.of) _ _ ev (100 * F.u) (by linarith) (by linarith) (by linarith) (by linarith) hη
    (VNear.neg n0) (Fl.vNear_self V3.ey u0) g3 g4
  have n0' := hN.nonneg
  have hd1 : 17 * (ev + 100 * F.u + 800 * F.u) / m1 + e ≤ a1 := le_trans (add_le_add_left (div_le_div_of_nonneg_right (by linarith only [u0]) hm10.le) _) ha1
  have hd0 : 0 ≤ 17 * (ev + 100 * F.u + 800 * F.u) / m1 := div_nonneg (by linarith only [u0, hev, ep0, er0]) hm10.le
  have a10 : 0 ≤ a1 := by linarith only [hd0, hd1, n0']
  have a1D := (levels_le u0 hβ2.nonneg n0' a10 er0 (by linarith only [a10, he26, hev, ep0, er0, u0]) hm0 ha3 hs0 ha2 he4 hγ0 ha4 hf ha6 ha6').1
  have hd2 : 17 * (ev + 100 * F.u + 800 * F.u) / m1 ≤ D := by linarith only [hd1, n0', a1D]
  simp only [r6Search] at h
  obtain ⟨K1, hK1, h⟩ := Except.bind_eq_ok h
  have hmem : t ∈ subproblem4 V3.ey (p0T' - R06'.mulVec P6') (-h0') (V3.ey.dot (P1' + P2' + P3')) := by
    have e : subproblem4 V3.ey (p0T' - R06'.mulVec P6') (-h0') (V3.ey.dot (P1' + P2' + P3')) = [t, t'] ∨
        subproblem4 V3.ey (p0T' - R06'.mulVec P6') (-h0') (V3.ey.dot (P1' + P2' + P3')) = [t', t] := hq
    rcases e with e | e <;> (rw [e]; simp)
  obtain ⟨y1, hy1, hA1⟩ := hN.callS (j := 0) (by norm_num) hmem ⟨fun v hv => subproblem4_le hF hmem hv, fun hE => subproblem4_rep hE hmem⟩ (by rw [e1]; exact ht) hd2 hK1
  have hA1 := hN.mono hA1 hd1
  have hx1 := hN.ang hA1
  rw [e1] at hx1
  obtain ⟨sl, hsl, hsub⟩ := forAppend_mem h hy1
  obtain ⟨x2, x3, x4, x5, x6, hm6, y2, y3, y4, y5, y6⟩ := r6Shoulder_near hF hN u0' u1 u2 u3 u4 u5 h34 h45 (by linarith) (by linarith) nv e2 e3 e4' e5 e6 hR hv hu hη n0 n1 n2 n3 n4 n5
    p0 p1 p2 p3 r06 hx1 g3 he26 hm0 hm hm3 hβ3 ha3 hs1 hs hs3 hs26 hsu hs0 hβ2 ha2 he4 hγ0 hγ hγe hβ4 hβ5 ha4 hf hf1 hβ6 ha6 ha6' hsl
  exact ⟨y1, x2, x3, x4, x5, x6, hsub _ hm6, hA1, y2, y3, y4, y5, y6⟩

/-! ## Corrections of the offsets, and base, flange and tool -/

/-- One correction: the column is zero, or it is added to the other column. -/
theorem moveColumn_near {H L L' : List (V3 (Fl F))} {src ax dst : Nat} {a' b' : V3 (Fl F)} {a b : V3 ℝ} (ea : L[src]? = some a') (eb : L[dst]? = some b')
    (na : Spec.VNear a' a (F.u * a.norm)) (nb : Spec.VNear b' b (F.u * b.norm)) (hl : b.norm + a.norm ≤ 2) (hu : F.u ≤ 1 / 100000000000)
    (h : moveColumn H L src ax dst = (L', .ok ())) :
    (L' = L ∧ a = 0) ∨ ∃ c', L' = (L.set dst c').set src 0 ∧ Spec.VNear c' (b + a) (16 * F.u) := by
  have u0 := F.u_nonneg
  have bg := F.big_ge
  have η := F.η_le
  simp only [moveColumn, ea, eb] at h
  split_ifs at h with c1
  · cases h
    left
    refine ⟨rfl, ?_⟩
    obtain ⟨w, rfl, hw⟩ := na
    have z : ∀ x : ℝ, feq (Fl.of x : Fl F) 0 → x = 0 := fun x h => (XReal.feq_fin x 0).1 h
    obtain ⟨c1, c2, c3⟩ := c1
    have w0 : w = 0 := by ext <;> [exact z _ c1; exact z _ c2; exact z _ c3]
    rw [w0, show (0 : V3 ℝ) - a = -a by ext <;> simp, V3.norm_neg] at hw
    have : a.norm = 0 := by nlinarith [a.norm_nonneg]
    exact V3.norm_eq_zero.1 this
  · split at h
    · cases h
    · split_ifs at h with c2
      · cases h
        right
        refine ⟨_, rfl, ?_⟩
        have n1 := V3.norm_add_le b a
        have k1 := mul_le_mul_of_nonneg_left hl u0
        have g := VNear.add (s := 2) nb na two_pos (by linarith) (by linarith) (by linarith)
        exact VNear.mono g (by linarith)
      · cases h

theorem VNear.weaken {v' : V3 (Fl F)} {v : V3 ℝ} (h : Spec.VNear v' v (F.u * v.norm)) (hl : v.norm ≤ 16) : Spec.VNear v' v (16 * F.u) :=
  VNear.mono h (by have := mul_le_mul_of_nonneg_left hl F.u_nonneg; linarith)

theorem fixWrist_near {H : List (V3 (Fl F))} {P0' P1' P2' P3' P4' P5' P6' : V3 (Fl F)} {P3 P4 P5 P6 : V3 ℝ}
    (p3 : Spec.VNear P3' P3 (F.u * P3.norm)) (p4 : Spec.VNear P4' P4 (F.u * P4.norm)) (p5 : Spec.VNear P5' P5 (F.u * P5.norm))
    (p6 : Spec.VNear P6' P6 (F.u * P6.norm)) (l3 : P3.norm + P4.norm ≤ 2) (l6 : P6.norm + P5.norm ≤ 2) (hu : F.u ≤ 1 / 100000000000)
    {L : List (V3 (Fl F))} (h : fixWrist H [P0', P1', P2', P3', P4', P5', P6'] = (L, .ok ())) :
    ∃ Q3 Q4 Q5 Q6, L = [P0', P1', P2', Q3, Q4, Q5, Q6] ∧ Spec.VNear Q3 (P3 + P4) (16 * F.u) ∧ Spec.VNear Q6 (P6 + P5) (16 * F.u) := by
  have a0 : ∀ a : V3 ℝ, a + 0 = a := by intro a; ext <;> simp
  have i3 := P3.norm_nonneg
  have i4 := P4.norm_nonneg
  have i5 := P5.norm_nonneg
  have i6 := P6.norm_nonneg
  unfold fixWrist at h
  rcases hm : moveColumn H [P0', P1', P2', P3', P4', P5', P6'] 4 3 3 with ⟨L1, e | u⟩
  · rw [hm] at h; cases h
  rw [hm] at h
  have h' : moveColumn H L1 5 5 6 = (L, .ok ()) := h
  obtain ⟨Q3, Q4, rfl, n3⟩ : ∃ Q3 Q4, L1 = [P0', P1', P2', Q3, Q4, P5', P6'] ∧ Spec.VNear Q3 (P3 + P4) (16 * F.u) := by
    rcases moveColumn_near rfl rfl p4 p3 l3 hu hm with ⟨rfl, z⟩ | ⟨c, rfl, hc⟩
    · exact ⟨P3', P4', rfl, by rw [z, a0]; exact VNear.weaken p3 (by linarith)⟩
    · exact ⟨c, 0, rfl, hc⟩
  rcases moveColumn_near rfl rfl p5 p6 l6 hu h' with ⟨rfl, z⟩ | ⟨c, rfl, hc⟩
  · exact ⟨Q3, Q4, P5', P6', rfl, n3, by rw [z, a0]; exact VNear.weaken p6 (by linarith)⟩
  · exact ⟨Q3, Q4, 0, c, rfl, n3, hc⟩

/-- `unapply_robot_aux_transforms` of a pose known up to `ε`. -/
theorem unapply_near {robot' : Robot (Fl F)} {robot : Robot ℝ} {T' : Transform (Fl F)} {T : Transform ℝ} {L ε : ℝ}
    (hF : Option.Rel Spec.TNear robot'.Tflange robot.Tflange) (hB : Option.Rel Spec.TNear robot'.Tbase robot.Tbase)
    (hX : Option.Rel Spec.TNear (toolT robot'.Rtool robot'.ptool) (toolT robot.Rtool robot.ptool)) (rT : IsRot T.R)
    (hR : Spec.MNear T'.R T.R ε) (hp : Spec.VNear T'.p T.p ε)
    (hl : T.p.norm + optLen robot.Tflange + optLen (toolT robot.Rtool robot.ptool) + optLen robot.Tbase ≤ L) (hL : 1 ≤ L)
    (hbig : 5 * L ≤ F.big) (hu0 : 0 < F.u) (hu : F.u ≤ 1 / 100000000000) (hε : ε ≤ 1 / 100) :
    Spec.MNear (unapplyAux robot' T').R (unapplyAux robot T).R (17 / 16 * ε + 146 * F.u) ∧
    Spec.VNear (unapplyAux robot' T').p (unapplyAux robot T).p (17 / 16 * ε + 17 / 8 * (ε * L) + 270 * (F.u * L)) := by
  have uL : F.u ≤ F.u * L := le_mul_of_one_le_right hu0.le hL
  have hη : F.η ≤ F.u * L := F.η_le.trans uL
  have h0 : 0 < L := by linarith
  have ε0 : 0 ≤ ε := by
    obtain ⟨w, -, h⟩ := hp
    exact (V3.norm_nonneg _).trans h
  rw [unapplyAux_eq, unapplyAux_eq]
  have nf := optLen_nonneg robot.Tflange
  have nx := optLen_nonneg (toolT robot.Rtool robot.ptool)
  have nb := optLen_nonneg robot.Tbase
  have nT := T.p.norm_nonneg
  generalize robot.Tflange = A at *
  generalize robot.Tbase = B at *
  generalize toolT robot.Rtool robot.ptool = X at *
  generalize robot'.Tflange = A' at *
  generalize robot'.Tbase = B' at *
  generalize toolT robot'.Rtool robot'.ptool = X' at *
  have tn : ∀ {B' : Option (Transform (Fl F))} {B : Option (Transform ℝ)}, Option.Rel Spec.TNear B' B → optLen B ≤ L →
      Option.Rel (TN L 1 33) (B'.map Transform.inv) (B.map Transform.inv) ∧ optLen (B.map Transform.inv) = optLen B := by
    intro B' B h hl
    cases h with
    | none => exact ⟨.none, rfl⟩
    | @some B' B h =>
      have t := TN.of_near h hl
      exact ⟨.some ((t.inv h0 hη hbig (by linarith) (by linarith)).mono h0.le le_rfl (by norm_num)), norm_inv_p t.rot⟩
  obtain ⟨f2, f3⟩ := tn hF (by linarith)
  obtain ⟨x2, x3⟩ := tn hX (by linarith)
  obtain ⟨b2, b3⟩ := tn hB (by linarith)
  have e1 : ε / F.u * F.u = ε := div_mul_cancel₀ _ hu0.ne'
  have e2 : ε / (F.u * L) * (F.u * L) = ε := div_mul_cancel₀ _ (mul_pos hu0 h0).ne'
  have e3 : ε / (F.u * L) * F.u ≤ ε := by
    conv_rhs => rw [← e2]
    exact mul_le_mul_of_nonneg_left uL (by positivity)
  have p1 : 0 ≤ ε / F.u := by positivity
  have p2 : 0 ≤ ε / (F.u * L) := by positivity
  have i3 : TNL L T.p.norm (ε / F.u) (ε / (F.u * L)) T' T := ⟨⟨rT, by linarith, by rwa [e1], by rwa [e2]⟩, le_rfl⟩
  generalize ε / F.u = a at *
  generalize ε / (F.u * L) = c at *
  have i4 := i3.right x2 (a' := a + 47) (c' := a + c + 71) h0 hη hbig (by linarith) (by linarith) (by nlinarith) (by linarith) (by linarith) (by linarith)
    p1 (by norm_num) (by norm_num)
  have i5 := i4.right f2 (a' := a + 94) (c' := 2 * a + c + 189) h0 hη hbig (by nlinarith) (by linarith) (by nlinarith) (by linarith) (by linarith) (by linarith)
    (by linarith) (by norm_num) (by norm_num)
  have i6 := i5.left b2 (a' := 17 / 16 * a + 146) (c' := 17 / 8 * a + 17 / 16 * c + 270) h0 hη hbig (by nlinarith) (by linarith) (by nlinarith) (by linarith)
    (by linarith) (by linarith) (by linarith) (by norm_num) (by linarith) (by norm_num)
  refine ⟨MNear.mono i6.tn.R (by linarith), VNear.mono i6.tn.p ?_⟩
  have e4 : a * (F.u * L) = ε * L := by rw [← mul_assoc, e1]
  linarith

/-- The errors of the joints one after the other, as multiples of `W` (data and rounding) and `B` (early returns). -/
theorem ik_budget {B W u m δ ev er : ℝ} (hm0 : 0 < m) (hm1 : m ≤ 1) (B0 : 0 ≤ B) (u0 : 0 ≤ u) (er0 : 0 ≤ er) (her : er ≤ ev)
    (hW : ev + 12900 * u ≤ W) (hδ : 960 * B / m ^ 3 + 256000 * W / m ^ 5 ≤ δ) (hδ1 : δ ≤ 1 / 5) :
    ∃ a1 e26 a3 a2 e4 a4 f, 150 * (ev + 900 * u) ≤ m ^ 2 ∧ 17 * (ev + 900 * u) / m ≤ a1 ∧ 2 * a1 + 17 / 16 * ev + 500 * u ≤ e26 ∧
      2600000 * u + 330 * e26 ≤ m ^ 2 ∧ B + (77 / 10 * e26 + 3300000 * u) / m ≤ a3 ∧ 4 * a3 + 1000 * u ≤ m ∧ 2 * e26 ≤ m ∧ 280000 * u ≤ m ∧
      (B + 315 / 100 * (2 * a3 + 500 * u + e26) + 700000 * u) / m ≤ a2 ∧ a1 + 17 / 16 * (a2 + a3 + er) + 800 * u ≤ e4 ∧
      60 * e4 + 300000 * u ≤ m ^ 2 ∧ (B + (14 * e4 + 710000 * u) / m) / m ≤ a4 ∧ e4 + 16 / 7 * a4 + 500 * u ≤ f ∧ f ≤ 1 / 16 ∧
      60000 * (u / m) ≤ δ ∧ 2 * a3 + 500 * u + e26 ≤ δ ∧ e4 + (34 / 10 * e4 + 900 * u) / m ≤ δ ∧ u + (34 / 10 * e4 + 900 * u) / m ≤ δ ∧ u + f ≤ δ ∧
      a1 ≤ δ ∧ a2 ≤ δ ∧ a3 ≤ δ ∧ a4 ≤ δ ∧ B + 315 / 100 * (u + f) + 700000 * u ≤ δ := by
  have W0 : 0 ≤ W := by linarith
  have x5 : W / m ^ 5 * m = W / m ^ 4 := by field_simp
  have x4 : W / m ^ 4 * m = W / m ^ 3 := by field_simp
  have x3 : W / m ^ 3 * m = W / m ^ 2 := by field_simp
  have x2 : W / m ^ 2 * m = W / m := by field_simp
  have x1 : W / m * m = W := by field_simp
  have b3 : B / m ^ 3 * m = B / m ^ 2 := by field_simp
  have b2 : B / m ^ 2 * m = B / m := by field_simp
  have b1 : B / m * m = B := by field_simp
  have v1 : u / m * m = u := by field_simp
  rw [mul_div_assoc, mul_div_assoc] at hδ
  have X5 : 0 ≤ W / m ^ 5 := by positivity
  have X4 : 0 ≤ W / m ^ 4 := by positivity
  have X3 : 0 ≤ W / m ^ 3 := by positivity
  have X2 : 0 ≤ W / m ^ 2 := by positivity
  have X1 : 0 ≤ W / m := by positivity
  have B3 : 0 ≤ B / m ^ 3 := by positivity
  have B2 : 0 ≤ B / m ^ 2 := by positivity
  have B1 : 0 ≤ B / m := by positivity
  have V1 : 0 ≤ u / m := by positivity
  have key : ∀ {a b : ℝ}, 0 ≤ a → a * m = b → b ≤ a := fun h e => by rw [← e]; exact mul_le_of_le_one_right h hm1
  have l5 := key X5 x5
  have l4 := key X4 x4
  have l3 := key X3 x3
  have l2 := key X2 x2
  have l1 := key X1 x1
  have c3 := key B3 b3
  have c2 := key B2 b2
  have c1 := key B1 b1
  have d1 := key V1 v1
  have q1 : 960 * (B / m ^ 2) + 256000 * (W / m ^ 4) ≤ 1 / 5 * m := by
    rw [← b3, ← x5]
    nlinarith
  have q2 : 960 * (B / m) + 256000 * (W / m ^ 3) ≤ 1 / 5 * m ^ 2 := by
    rw [← b2, ← x4]
    nlinarith
  have uW : 12900 * (u / m) ≤ W / m := by
    rw [← mul_div_assoc]
    exact div_le_div_of_nonneg_right (by linarith) hm0.le
  generalize W / m ^ 5 = Y5 at *
  generalize W / m ^ 4 = Y4 at *
  generalize W / m ^ 3 = Y3 at *
  generalize W / m ^ 2 = Y2 at *
  generalize W / m = Y1 at *
  generalize B / m ^ 3 = D3 at *
  generalize B / m ^ 2 = D2 at *
  generalize B / m = D1 at *
  generalize u / m = U1 at *
  refine ⟨17 * (Y1 - 12000 * U1), 36 * Y1 - 432000 * u, B + 2772 / 10 * Y2, 73 / 10 * D1 + 1914 * Y3, 9 * D1 + 2350 * Y3, 127 * D3 + 32956 * Y5,
    300 * D3 + 79000 * Y5, by linarith, ?_, by linarith, by linarith, ?_, by linarith, by linarith, by linarith, ?_, by linarith, by linarith, ?_,
    by linarith, by linarith, by linarith, by linarith, ?_, ?_, by linarith, by linarith, by linarith, by linarith, by linarith, by linarith⟩
  · rw [div_le_iff₀ hm0]; linarith
  · have : (77 / 10 * (36 * Y1 - 432000 * u) + 3300000 * u) / m ≤ 2772 / 10 * Y2 := by rw [div_le_iff₀ hm0]; linarith
    linarith
  · rw [div_le_iff₀ hm0]; linarith
  · have : (14 * (9 * D1 + 2350 * Y3) + 710000 * u) / m ≤ 126 * D2 + 32956 * Y4 := by rw [div_le_iff₀ hm0]; linarith
    rw [div_le_iff₀ hm0]; linarith
  · have : (34 / 10 * (9 * D1 + 2350 * Y3) + 900 * u) / m ≤ 31 * D2 + 8000 * Y4 := by rw [div_le_iff₀ hm0]; linarith
    linarith
  · have : (34 / 10 * (9 * D1 + 2350 * Y3) + 900 * u) / m ≤ 31 * D2 + 8000 * Y4 := by rw [div_le_iff₀ hm0]; linarith
    linarith

/-- The same with an error `e` added to each angle. -/
theorem ik_budget_e {B e W u m δ ev er : ℝ} (hm0 : 0 < m) (hm1 : m ≤ 1) (B0 : 0 ≤ B) (e0 : 0 ≤ e) (u0 : 0 ≤ u) (er0 : 0 ≤ er) (her : er ≤ ev)
    (hW : ev + e + 12900 * u ≤ W) (hδ : 960 * (B + e) / m ^ 3 + 256000 * W / m ^ 5 ≤ δ) (hδ1 : δ ≤ 1 / 5) :
    ∃ a1 e26 a3 a2 e4 a4 f, 150 * (ev + 900 * u) ≤ m ^ 2 ∧ 17 * (ev + 900 * u) / m + e ≤ a1 ∧ 2 * a1 + 17 / 16 * ev + 500 * u ≤ e26 ∧
      2600000 * u + 330 * e26 ≤ m ^ 2 ∧ B + (77 / 10 * e26 + 3300000 * u) / m + e ≤ a3 ∧ 4 * a3 + 1000 * u ≤ m ∧ 2 * e26 ≤ m ∧ 280000 * u ≤ m ∧
      (B + 315 / 100 * (2 * a3 + 500 * u + e26) + 700000 * u) / m + e ≤ a2 ∧ a1 + 17 / 16 * (a2 + a3 + er) + 800 * u ≤ e4 ∧
      60 * e4 + 300000 * u ≤ m ^ 2 ∧ (B + (14 * e4 + 710000 * u) / m) / m + e ≤ a4 ∧ e4 + 16 / 7 * a4 + 500 * u ≤ f ∧ f ≤ 1 / 16 ∧
      60000 * (u / m) ≤ δ ∧ 2 * a3 + 500 * u + e26 ≤ δ ∧ e4 + (34 / 10 * e4 + 900 * u) / m ≤ δ ∧ u + (34 / 10 * e4 + 900 * u) / m ≤ δ ∧ u + f ≤ δ ∧
      a1 ≤ δ ∧ a2 ≤ δ ∧ a3 ≤ δ ∧ a4 ≤ δ ∧ B + 315 / 100 * (u + f) + 700000 * u + e ≤ δ := by
  obtain ⟨a1, e26, a3, a2, e4, a4, f, b1, b2, b3, b4, b5, b6, b7, b8, b9, b10, b11, b12, b13, b14, c1, c2, c4, c5, c7, d1, d2, d3, d4, d6⟩ :=
    ik_budget (B := B + e) (ev := ev + e) hm0 hm1 (by linarith) u0 er0 (by linarith) hW hδ hδ1
  have em : e ≤ e / m := le_div_self e0 hm0 hm1
  refine ⟨a1, e26, a3, a2, e4, a4, f, by linarith, le_trans ?_ b2, by linarith, b4, by linarith, b6, b7, b8, le_trans ?_ b9, b10, b11, le_trans ?_ b12, b13, b14,
    c1, c2, c4, c5, c7, d1, d2, d3, d4, by linarith⟩
  · rw [show 17 * (ev + e + 900 * u) / m = 17 * (ev + 900 * u) / m + 17 * (e / m) by ring]
    linarith
  · rw [show (B + e + 315 / 100 * (2 * a3 + 500 * u + e26) + 700000 * u) / m = (B + 315 / 100 * (2 * a3 + 500 * u + e26) + 700000 * u) / m + e / m by ring]
    linarith
  · rw [show (B + e + (14 * e4 + 710000 * u) / m) / m = (B + (14 * e4 + 710000 * u) / m) / m + e / m by ring]
    linarith

end Fl
