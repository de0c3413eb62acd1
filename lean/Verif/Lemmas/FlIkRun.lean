import Verif.Lemmas.FlIk
import Verif.Lemmas.FlAxis

/-!
# The spherical wrist solver returns, and returns solutions only

For coordinate axes the loops of `robot6_sphericalwrist_invkin` never raise, and every row is near an exact solution.
-/
set_option autoImplicit false

theorem forAppend_run {β γ : Type} {f : β → Except PyErr (List γ)} {l : List β} {Q : γ → Prop} (h : ∀ x ∈ l, ∃ s, f x = .ok s ∧ ∀ r ∈ s, Q r) :
    ∃ s, forAppend l f = .ok s ∧ ∀ r ∈ s, Q r := by
  obtain ⟨s, hs⟩ := exists_forAppend_ok (f := f) (l := l) fun a ha => (h a ha).imp fun _ h => h.1
  refine ⟨s, hs, fun r hr => ?_⟩
  obtain ⟨a, ha, t, ht, hrt⟩ := mem_forAppend hs hr
  obtain ⟨t', ht', h'⟩ := h a ha
  rw [ht'] at ht; cases ht
  exact h' r hrt

/-- The last rotation, once the first two put the last axis in place. -/
theorem last_exists {h3 h4 h5 : V3 ℝ} (u3 : IsUnit3 h3) (u4 : IsUnit3 h4) (u5 : IsUnit3 h5) (h45 : h4.dot h5 = 0) {A : M3 ℝ} (hA : IsRot A) {q4 q5 : ℝ}
    (h : (rot h3 q4 * rot h4 q5).mulVec h5 = A.mulVec h5) : ∃ q6, rot h3 q4 * rot h4 q5 * rot h5 q6 = A := by
  have hC : IsRot (rot h3 q4 * rot h4 q5) := (rot_isRot h3 u3 _).mul (rot_isRot h4 u4 _)
  have hB : IsRot ((rot h3 q4 * rot h4 q5).transpose * A) := hC.transpose.mul hA
  have hB5 : ((rot h3 q4 * rot h4 q5).transpose * A).mulVec h5 = h5 := by
    rw [← M3.mulVec_mulVec, ← h, hC.transpose_mulVec_mulVec]
  obtain ⟨q6, e6⟩ := exists_rot u5 (p := h4) (q := ((rot h3 q4 * rot h4 q5).transpose * A).mulVec h4) (by rw [hB.dot_mulVec])
    (by conv_rhs => rw [← hB5]
        rw [hB.dot_mulVec])
  refine ⟨q6, ?_⟩
  have : rot h5 q6 = (rot h3 q4 * rot h4 q5).transpose * A :=
    rot_ext_of_two (rot_isRot h5 u5 _) hB u4 u5 h45 e6 (by rw [rot_axis, hB5])
  rw [this, ← M3.mul_assoc', hC.orth', M3.one_mul']

namespace Fl
variable {F : FSys}

theorem r6Last_run (hA : Spec.InvAcc F) (hF : Spec.ExactRnd F) {N : Normalizer (Fl F)} {e : ℝ} (hN : Keeps N 8 e) {h3 h4 h5 : V3 ℝ} (u3 : Spec.CoordAxis h3) (u4 : Spec.CoordAxis h4) (u5 : Spec.CoordAxis h5)
    (h45 : h4.dot h5 = 0)
    {R03 R06 : M3 ℝ} {q4 q5 q6 : ℝ} (hr : IsRot R03) (hR : R06 = R03 * (rot h3 q4 * rot h4 q5) * rot h5 q6)
    {R03' R06' : M3 (Fl F)} {x1 x2 x3 x4 x5 : Fl F} {e03 er a f β : ℝ}
    (hu : F.u ≤ 1 / 100000000000) (hη : 16 * F.η ≤ F.u ^ 3)
    (r03 : Spec.MNear R03' R03 e03) (r06 : Spec.MNear R06' R06 er) (a4 : Spec.AngNear x4 q4 a) (a5 : Spec.AngNear x5 q5 a)
    (hf : e03 + 17 / 16 * er + 16 / 7 * a + 600 * F.u ≤ f) (hf1 : f ≤ 1 / 16) (hβ : 1 / 33554432 ≤ β)
    {a6 : ℝ} (ha6 : β + 315 / 100 * (F.u + f) + 700000 * F.u + e ≤ a6) :
    ∃ s, r6Last N (h3.map of) (h4.map of) (h5.map of) R06' R03' x1 x2 x3 x4 x5 = .ok s ∧
      ∀ row ∈ s, ∃ x6, row = [x1, x2, x3, x4, x5, x6] ∧ Spec.AngNear x6 q6 a6 := by
  have u0 := F.u_nonneg
  have n3 : Spec.VNear (h3.map of : V3 (Fl F)) h3 F.u := vNear_self h3 u0
  have n4 : Spec.VNear (h4.map of : V3 (Fl F)) h4 F.u := vNear_self h4 u0
  have e0 : 0 ≤ e03 := (mNear_iff.1 r03).elim fun _ h => h.2.nonneg
  have er0 : 0 ≤ er := (mNear_iff.1 r06).elim fun _ h => h.2.nonneg
  have a0 : 0 ≤ a := by
    obtain ⟨n, v, -, h⟩ := a4
    exact (abs_nonneg _).trans h
  have i4 := rot_isRot h3 u3.unit q4
  have i5 := rot_isRot h4 u4.unit q5
  have i6 := rot_isRot h5 u5.unit q6
  have i06 : IsRot R06 := by rw [hR]; exact (hr.mul (i4.mul i5)).mul i6
  have g1 := MNear.mulE (rot_angE u3.unit n3 a4) (rot_angE u4.unit n4 a5) i4 i5 (by linarith) (by linarith)
  have g2 := MNear.mulE r03 g1 hr (i4.mul i5) (by linarith) (by linarith)
  have g3 := MNear.mulE (MNear.transpose g2) r06 (hr.mul (i4.mul i5)).transpose i06 (by linarith) (by linarith)
  have e' : (R03 * (rot h3 q4 * rot h4 q5)).transpose * R06 = rot h5 q6 := by
    rw [hR, ← M3.mul_assoc', (hr.mul (i4.mul i5)).orth, M3.one_mul']
  rw [e'] at g3
  have g4 := VNear.mono (e := f) (MNear.mulUnit g3 n4 i6 (by linarith) u4.unit) (by linarith)
  have hp : 1 ≤ (h4.perp h5).norm := by
    have : h4.perp h5 = h4 := by
      rw [V3.perp, h45]; ext <;> simp
    rw [this, V3.norm_eq_one u4.unit]
  obtain ⟨th, hs, ht⟩ := subproblem1_coord hF hA u5 (by rw [V3.norm_eq_one u4.unit]; norm_num) (rfl : (rot h5 q6).mulVec h4 = _) one_pos le_rfl hp (by linarith) (by linarith)
    (by linarith) hu hη (.inl hβ) n4 g4 (repV_axis hF u4) (repV_mulVec hF _ _)
  rw [div_one] at ht
  obtain ⟨o, ho, hy⟩ := hN.one (j := 5) (by norm_num) ⟨ht.fin, fun v hv => (subproblem1_le hA hs hv).trans (by norm_num), subproblem1_rep hF hs⟩
  simp only [r6Last]
  rw [hs, Except.bind_ok, ho, Except.bind_ok]
  cases o with
  | none => exact ⟨[], rfl, by simp⟩
  | some y =>
    refine ⟨_, rfl, fun row hrow => ?_⟩
    rw [List.mem_singleton] at hrow
    exact ⟨y, hrow, AngNear.mono' (hy y rfl ht) ha6⟩

theorem r6Elbow_run (hA : Spec.InvAcc F) (hF : Spec.ExactRnd F) {N : Normalizer (Fl F)} {e : ℝ} (hN : Keeps N 8 e) {h1 h2 h3 h4 h5 P2 P3 : V3 ℝ} (u1 : Spec.CoordAxis h1) (u2 : Spec.CoordAxis h2)
    (u3 : Spec.CoordAxis h3) (u4 : Spec.CoordAxis h4)
    (u5 : Spec.CoordAxis h5) (h34 : h3.dot h4 = 0) (h45 : h4.dot h5 = 0) (hl : P2.norm + P3.norm ≤ 19 / 10)
    {R01 R06 : M3 ℝ} {q2 q3 q4 q5 q6 : ℝ} (hr : IsRot R01) (hR : R06 = R01 * rot h1 q2 * rot h2 q3 * (rot h3 q4 * rot h4 q5) * rot h5 q6)
    {P2' P3' p26' : V3 (Fl F)} {R01' R06' : M3 (Fl F)} {x1 x3 : Fl F} {e01 er e26 e4 a2 a3 a4 f s2 γ β : ℝ}
    (hu : F.u ≤ 1 / 100000000000) (hη : 16 * F.η ≤ F.u ^ 3)
    (p2 : Spec.VNear P2' P2 (16 * F.u)) (p3 : Spec.VNear P3' P3 (16 * F.u))
    (r01 : Spec.MNear R01' R01 e01) (r06 : Spec.MNear R06' R06 er) (hx3 : Spec.AngNear x3 q3 a3)
    (hp26 : Spec.VNear p26' ((rot h1 q2).mulVec (P2 + (rot h2 q3).mulVec P3)) e26) (rp26 : RepV p26') (hβ : 1 / 33554432 ≤ β)
    -- joint 2
    (hs1 : s2 ≤ 1) (hs : s2 ≤ ((P2 + (rot h2 q3).mulVec P3).perp h1).norm) (hs3 : 4 * a3 + 1000 * F.u ≤ s2) (hs26 : 2 * e26 ≤ s2) (hsu : 280000 * F.u ≤ s2)
    (hs0 : 0 < s2) (ha2 : (β + 315 / 100 * (2 * a3 + 500 * F.u + e26) + 700000 * F.u) / s2 + e ≤ a2)
    -- joints 4 and 5
    (he4 : e01 + 17 / 16 * (a2 + a3 + er) + 600 * F.u ≤ e4) (hγ0 : 1 / 1000000 ≤ γ) (hγ : γ ≤ |(h3.cross h4).dot ((rot h4 q5).mulVec h5)|)
    (hγe : 60 * e4 + 300000 * F.u ≤ γ ^ 2) (ha4 : (β + (14 * e4 + 710000 * F.u) / γ) / γ + e ≤ a4)
    -- joint 6
    (hf : e4 + 16 / 7 * a4 + 500 * F.u ≤ f) (hf1 : f ≤ 1 / 16)
    {a6 : ℝ} (ha6 : β + 315 / 100 * (F.u + f) + 700000 * F.u + e ≤ a6) :
    ∃ sols, r6Elbow N (h1.map of) (h2.map of) (h3.map of) (h4.map of) (h5.map of) P2' P3' R06' R01' p26' x1 x3 = .ok sols ∧
    ∀ row ∈ sols, ∃ x2 x4 x5 x6 b4 b5 b6, row = [x1, x2, x3, x4, x5, x6] ∧ R06 = R01 * rot h1 q2 * rot h2 q3 * (rot h3 b4 * rot h4 b5) * rot h5 b6 ∧
      Spec.AngNear x2 q2 a2 ∧ Spec.AngNear x4 b4 a4 ∧ Spec.AngNear x5 b5 a4 ∧
      Spec.AngNear x6 b6 a6 := by
  have u0 := F.u_nonneg
  have n1 : Spec.VNear (h1.map of : V3 (Fl F)) h1 F.u := vNear_self h1 u0
  have n2 : Spec.VNear (h2.map of : V3 (Fl F)) h2 F.u := vNear_self h2 u0
  have n5 : Spec.VNear (h5.map of : V3 (Fl F)) h5 F.u := vNear_self h5 u0
  have e0 : 0 ≤ e01 := (mNear_iff.1 r01).elim fun _ h => h.2.nonneg
  have er0 : 0 ≤ er := (mNear_iff.1 r06).elim fun _ h => h.2.nonneg
  have e260 : 0 ≤ e26 := by
    obtain ⟨w, -, h⟩ := hp26
    exact (V3.norm_nonneg _).trans h
  have a30 : 0 ≤ a3 := by
    obtain ⟨n, v, -, h⟩ := hx3
    exact (abs_nonneg _).trans h
  have β0 : 0 ≤ β := by linarith
  have en := hN.nonneg
  have a20 : 0 ≤ a2 := le_trans (by positivity) ha2
  have γ0 : 0 < γ := by linarith
  have e40 : 0 ≤ e4 := by linarith
  have a40 : 0 ≤ a4 := le_trans (by positivity) ha4
  have i2 := rot_isRot h1 u1.unit q2
  have i3 := rot_isRot h2 u2.unit q3
  have i4 := rot_isRot h3 u3.unit q4
  have i5 := rot_isRot h4 u4.unit q5
  have i6 := rot_isRot h5 u5.unit q6
  have i06 : IsRot R06 := by rw [hR]; exact ((((hr.mul i2).mul i3).mul (i4.mul i5))).mul i6
  have a3s : a3 ≤ 1 / 17 := by linarith
  have g1 := elbow_near u2.unit hl hu a3s n2 p2 p3 hx3
  have nx : (P2 + (rot h2 q3).mulVec P3).norm ≤ 3 := by
    have := V3.norm_add_le P2 ((rot h2 q3).mulVec P3)
    rw [i3.norm_mulVec] at this
    linarith
  obtain ⟨t2, h', ht2⟩ := subproblem1_coord hF hA u1 nx (rfl : (rot h1 q2).mulVec _ = _) hs0 hs1 hs (by linarith) hs26 hsu hu hη (.inl hβ) g1 hp26 (repV_add hF _ _) rp26
  obtain ⟨o, ho, hsame⟩ := hN.one (j := 1) (by norm_num) ⟨ht2.fin, fun v hv => (subproblem1_le hA h' hv).trans (by norm_num), subproblem1_rep hF h'⟩
  simp only [r6Elbow]
  rw [h', Except.bind_ok, ho, Except.bind_ok]
  cases o with
  | none => exact ⟨[], rfl, by simp⟩
  | some x2 =>
  simp only
  have hx2' := AngNear.mono' (hsame x2 rfl ht2) ha2
  have g2 := MNear.mulE (MNear.mulE r01 (rot_angE u1.unit n1 hx2') hr i2 (by linarith) (by linarith)) (rot_angE u2.unit n2 hx3) (hr.mul i2) i3 (by linarith) (by linarith)
  have g3 := MNear.mulE (MNear.transpose g2) r06 ((hr.mul i2).mul i3).transpose i06 (by linarith) (by linarith)
  have e1 : (R01 * rot h1 q2 * rot h2 q3).transpose * R06 = (rot h3 q4 * rot h4 q5) * rot h5 q6 := by
    rw [hR, M3.mul_assoc' (R01 * rot h1 q2 * rot h2 q3), ← M3.mul_assoc', ((hr.mul i2).mul i3).orth, M3.one_mul']
  have g4 := VNear.mono (e := e4) (MNear.mulUnit g3 n5 (((hr.mul i2).mul i3).transpose.mul i06) (by linarith) u5.unit) (by linarith)
  have e2 : ((R01 * rot h1 q2 * rot h2 q3).transpose * R06).mulVec h5 = (rot h3 q4 * rot h4 q5).mulVec h5 := by
    rw [e1, ← M3.mulVec_mulVec, rot_axis]
  obtain ⟨x, y, α1, α2, β1, β2, hs2, k1, k2, z1, z2, z3, z4⟩ := subproblem2_coord hF hA u3 u4 u5.unit h34 e2.symm hγ0 hγ hu hη hγe hβ n5 g4 (repV_axis hF u5) (repV_mulVec hF _ _)
  have gd : ∀ z ∈ [x, y], Good 8 z.1 ∧ Good 8 z.2 := by
    intro z hz
    have r := subproblem2_rep hF hs2 hz
    have f1 : (∃ v, z.1.val = .fin v) ∧ ∃ v, z.2.val = .fin v := by
      rw [List.mem_cons, List.mem_singleton] at hz
      rcases hz with rfl | rfl
      · exact ⟨z1.fin, z2.fin⟩
      · exact ⟨z3.fin, z4.fin⟩
    exact ⟨⟨f1.1, fun v hv => (subproblem2_le hA hs2 hz hv).trans (by norm_num), r.1⟩, ⟨f1.2, fun v hv => (subproblem2_le2 hA hs2 hz hv).trans (by norm_num), r.2⟩⟩
  obtain ⟨Q, hQ, hQ'⟩ := hN.callV (i := 3) (j := 4) (by norm_num) (by norm_num) gd
  rw [hs2, Except.bind_ok, hQ, Except.bind_ok]
  have key : ∀ (y4 y5 : Fl F) (b4 b5 : ℝ), (rot h3 b4 * rot h4 b5).mulVec h5 = ((R01 * rot h1 q2 * rot h2 q3).transpose * R06).mulVec h5 →
      Spec.AngNear y4 b4 a4 → Spec.AngNear y5 b5 a4 → ∃ s, r6Last N (h3.map of) (h4.map of) (h5.map of) R06'
        ((R01' * rot (h1.map of) x2) * rot (h2.map of) x3) x1 x2 x3 y4 y5 = .ok s ∧
      ∀ row ∈ s, ∃ x2 x4 x5 x6 b4 b5 b6, row = [x1, x2, x3, x4, x5, x6] ∧ R06 = R01 * rot h1 q2 * rot h2 q3 * (rot h3 b4 * rot h4 b5) * rot h5 b6 ∧
      Spec.AngNear x2 q2 a2 ∧ Spec.AngNear x4 b4 a4 ∧ Spec.AngNear x5 b5 a4 ∧ Spec.AngNear x6 b6 a6 := by
    intro y4 y5 b4 b5 hb z1 z2
    obtain ⟨b6, hb6⟩ := last_exists u3.unit u4.unit u5.unit h45 (((hr.mul i2).mul i3).transpose.mul i06) hb
    have hR' : R06 = R01 * rot h1 q2 * rot h2 q3 * (rot h3 b4 * rot h4 b5) * rot h5 b6 := by
      rw [M3.mul_assoc' (R01 * rot h1 q2 * rot h2 q3), hb6, ← M3.mul_assoc', ((hr.mul i2).mul i3).orth', M3.one_mul']
    obtain ⟨s, h6, hx6⟩ := r6Last_run hA hF hN u3 u4 u5 h45 ((hr.mul i2).mul i3) hR' hu hη g2 r06 z1 z2 (f := f) (by linarith) hf1 hβ ha6 (x1 := x1) (x2 := x2) (x3 := x3)
    refine ⟨_, h6, fun row hrow => ?_⟩
    obtain ⟨x6, hrow, hx6⟩ := hx6 row hrow
    exact ⟨x2, y4, y5, x6, b4, b5, b6, hrow, hR', hx2', z1, z2, hx6⟩
  refine forAppend_run fun t ht => ?_
  obtain ⟨w, hw, y4, y5, rfl, s4, s5⟩ := hQ' t ht
  rw [List.mem_cons, List.mem_singleton] at hw
  rcases hw with rfl | rfl
  · exact key y4 y5 α1 α2 k1 (AngNear.mono' (s4 z1) ha4) (AngNear.mono' (s5 z2) ha4)
  · exact key y4 y5 β1 β2 k2 (AngNear.mono' (s4 z3) ha4) (AngNear.mono' (s5 z4) ha4)

/-- A point at the right height and distance is reached by the elbow angle and some angle of joint 2. -/
theorem joint2_exists {h1 h2 P2 P3 g : V3 ℝ} (s1 : h1 = V3.ey ∨ h1 = -V3.ey) (s2 : h2 = V3.ey ∨ h2 = -V3.ey) {q3 : ℝ}
    (hy : V3.ey.dot g = V3.ey.dot (P2 + P3)) (hn : (P2 + (rot h2 q3).mulVec P3).norm = g.norm) :
    ∃ q2, g = (rot h1 q2).mulVec (P2 + (rot h2 q3).mulVec P3) := by
  have e : V3.ey.dot (P2 + (rot h2 q3).mulVec P3) = V3.ey.dot g := by
    have := (rot_invariants (p := P3) (pm_unit s2) (φ := q3) rfl).2
    have h3 : V3.ey.dot ((rot h2 q3).mulVec P3) = V3.ey.dot P3 := by
      rcases s2 with rfl | rfl
      · rw [V3.dot_comm, ← this, V3.dot_comm]
      · rw [V3.dot_neg, V3.dot_neg, neg_inj] at this
        rw [V3.dot_comm, ← this, V3.dot_comm]
    rw [hy, V3.dot_add, V3.dot_add, h3]
  obtain ⟨q2, h⟩ := exists_rot (pm_unit s1) (p := P2 + (rot h2 q3).mulVec P3) (q := g) (by rw [← V3.norm_sq, ← V3.norm_sq, hn]) (by
    rcases s1 with rfl | rfl
    · rw [V3.dot_comm, e, V3.dot_comm]
    · rw [V3.dot_neg, V3.dot_neg, V3.dot_comm, e, V3.dot_comm])
  exact ⟨q2, h.symm⟩

theorem coord_pm {k : V3 ℝ} (s : k = V3.ey ∨ k = -V3.ey) : Spec.CoordAxis k := by
  rcases s with h | h
  · exact .inr (.inl h)
  · exact .inr (.inr (.inr (.inr (.inl h))))
/-- Norm of a computed vector, longer ones. -/
theorem VNear.norm4 {w : V3 (Fl F)} {v : V3 ℝ} {d : ℝ} (h : Spec.VNear w v d) (hv : v.norm + d ≤ 4) (hη : 16 * F.η ≤ F.u ^ 3) :
    w.norm.Near v.norm (d + 200 * F.u) := by
  have u0 := F.u_nonneg
  obtain ⟨x, rfl, h⟩ := h
  have h1 := V3.norm_add_le (x - v) v
  rw [show x - v + v = x by ext <;> simp] at h1
  obtain ⟨z, hz, hzx⟩ := near_norm3 (F := F) (v := x) (v' := x.map Fl.of) (e := 0) (N := 4) ⟨near_of x.x, near_of x.y, near_of x.z⟩ (by linarith) (by norm_num) hη
  refine ⟨z, hz, ?_⟩
  rw [show z - v.norm = (z - x.norm) + (x.norm - v.norm) by ring]
  have h3 := (V3.norm_sub_rev x v).trans h
  refine (abs_add_le _ _).trans ?_
  linarith

/-- The wrist centre seen from the shoulder, also when it is far away. -/
theorem p26_far {h0 P0 P1 g v : V3 ℝ} (u0' : IsUnit3 h0) {q1 a1 ev : ℝ} (hv : v = (rot h0 q1).mulVec (P0 + P1 + g)) (hvn : v.norm ≤ 19 / 10)
    (hl : P0.norm + P1.norm ≤ 19 / 10)
    {h0' P0' P1' v' : V3 (Fl F)} {x1 : Fl F} (hu : F.u ≤ 1 / 100000000000) (ha1 : a1 ≤ 1 / 30) (hev : ev ≤ 1 / 20) (n0 : Spec.VNear h0' h0 F.u)
    (p0 : Spec.VNear P0' P0 (16 * F.u)) (p1 : Spec.VNear P1' P1 (16 * F.u)) (hx1 : Spec.AngNear x1 q1 a1) (hv' : Spec.VNear v' v ev) :
    Spec.VNear ((rot h0' x1).transpose.mulVec v' - (P0' + P1')) g (2 * a1 + 17 / 16 * ev + 600 * F.u) ∧ g.norm ≤ 38 / 10 := by
  have u0 := F.u_nonneg
  have b := F.big_ge
  have η := F.η_le
  have a0 : 0 ≤ a1 := by
    obtain ⟨n, w, -, h⟩ := hx1
    exact (abs_nonneg _).trans h
  have ev0 : 0 ≤ ev := by
    obtain ⟨w, -, h⟩ := hv'
    exact (V3.norm_nonneg _).trans h
  have i1 := rot_isRot h0 u0' q1
  have g1 := MNear.mulVec (s := 2) (MNear.transpose (rot_angE u0' n0 hx1)) hv' i1.transpose (by linarith) (by linarith) (by linarith) two_pos
    (by linarith) (by linarith)
  have e1 : (rot h0 q1).transpose.mulVec v = P0 + P1 + g := by rw [hv, i1.transpose_mulVec_mulVec]
  rw [e1] at g1
  have k1 : (a1 + 189 * F.u) * v.norm ≤ (a1 + 189 * F.u) * (19 / 10) := mul_le_mul_of_nonneg_left hvn (by linarith)
  have k2 : (1 + (a1 + 189 * F.u)) * ev ≤ 17 / 16 * ev := mul_le_mul_of_nonneg_right (by linarith) ev0
  have g2 := VNear.mono (e := 19 / 10 * a1 + 17 / 16 * ev + 425 * F.u) g1 (by linarith)
  have n01 := V3.norm_add_le P0 P1
  have g3 := VNear.add (s := 2) p0 p1 two_pos (by linarith) (by linarith) (by linarith)
  have e2 : P0 + P1 + g - (P0 + P1) = g := by ext <;> simp
  have gn : g.norm ≤ 38 / 10 := by
    have h1 : (P0 + P1 + g).norm = v.norm := by rw [hv, i1.norm_mulVec]
    have h2 := V3.norm_add_le (P0 + P1 + g) (-(P0 + P1))
    rw [V3.norm_neg, show P0 + P1 + g + -(P0 + P1) = g by ext <;> simp <;> ring] at h2
    linarith
  have g4 := VNear.sub (s := 4) g2 g3 (by norm_num) (by rw [e2]; linarith) (by linarith) (by linarith)
  rw [e2] at g4
  exact ⟨VNear.mono g4 (by linarith), gn⟩

theorem r6Shoulder_run (hA : Spec.InvAcc F) (hF : Spec.ExactRnd F) {N : Normalizer (Fl F)} {e : ℝ} (hN : Keeps N 8 e) {h0 h1 h2 h3 h4 h5 P0 P1 P2 P3 v g : V3 ℝ} (u0' : IsUnit3 h0)
    (s1 : h1 = V3.ey ∨ h1 = -V3.ey) (s2' : h2 = V3.ey ∨ h2 = -V3.ey) (u3 : Spec.CoordAxis h3) (u4 : Spec.CoordAxis h4) (u5 : Spec.CoordAxis h5)
    (h34 : h3.dot h4 = 0) (h45 : h4.dot h5 = 0) (hl : P2.norm + P3.norm ≤ 19 / 10)
    (hl0 : P0.norm + P1.norm ≤ 19 / 10) (hvn : v.norm ≤ 19 / 10)
    {R06 : M3 ℝ} (i06 : IsRot R06) {q1 : ℝ} (hv : v = (rot h0 q1).mulVec (P0 + P1 + g)) (hy : V3.ey.dot g = V3.ey.dot (P2 + P3))
    {h0' P0' P1' P2' P3' P6' p0T' : V3 (Fl F)} {R06' : M3 (Fl F)} {x1 : Fl F} {ev er e26 e4 a1 a2 a3 a4 f m3 s2 γ β : ℝ}
    (hu0 : 0 < F.u) (hu : F.u ≤ 1 / 100000000000) (hη : 16 * F.η ≤ F.u ^ 3)
    (n0 : Spec.VNear h0' h0 F.u) (p0 : Spec.VNear P0' P0 (16 * F.u)) (p1 : Spec.VNear P1' P1 (16 * F.u))
    (p2 : Spec.VNear P2' P2 (16 * F.u)) (p3 : Spec.VNear P3' P3 (16 * F.u))
    (r06 : Spec.MNear R06' R06 er) (hx1 : Spec.AngNear x1 q1 a1) (hv' : Spec.VNear (p0T' - R06'.mulVec P6') v ev)
    (he26 : 2 * a1 + 17 / 16 * ev + 500 * F.u ≤ e26) (hβ : 1 / 33554432 ≤ β)
    (hall : ∀ q2 q3 q4 q5 q6, g = (rot h1 q2).mulVec (P2 + (rot h2 q3).mulVec P3) →
      R06 = rot h0 q1 * rot h1 q2 * rot h2 q3 * (rot h3 q4 * rot h4 q5) * rot h5 q6 →
      m3 ≤ |P2.dot (h2.cross ((rot h2 q3).mulVec P3))| ∧ s2 ≤ ((P2 + (rot h2 q3).mulVec P3).perp h1).norm ∧ γ ≤ |(h3.cross h4).dot ((rot h4 q5).mulVec h5)|)
    (hreach : (∃ q2 q3, g = (rot h1 q2).mulVec (P2 + (rot h2 q3).mulVec P3)) ∨
      2 * (P3.perp h2).norm * (P2.perp h2).norm + m3 ^ 2 ≤
        |g.norm * g.norm - h2.dot (P3 + P2) * h2.dot (P3 + P2) - ((P3.perp h2).dot (P3.perp h2) + (P2.perp h2).dot (P2.perp h2))|)
    -- joint 3
    (hm0 : 0 < m3) (hm1 : m3 ≤ 1) (hm3 : 2600000 * F.u + 330 * e26 ≤ m3 ^ 2) (hab : m3 ≤ (P3.perp h2).norm * (P2.perp h2).norm)
    (ha3 : β + (77 / 10 * e26 + 3300000 * F.u) / m3 + e ≤ a3)
    -- joint 2
    (hs1 : s2 ≤ 1) (hs3 : 4 * a3 + 1000 * F.u ≤ s2) (hs26 : 2 * e26 ≤ s2) (hsu : 280000 * F.u ≤ s2)
    (hs0 : 0 < s2) (ha2 : (β + 315 / 100 * (2 * a3 + 500 * F.u + e26) + 700000 * F.u) / s2 + e ≤ a2)
    -- joints 4 and 5
    (he4 : a1 + 17 / 16 * (a2 + a3 + er) + 800 * F.u ≤ e4) (hγ0 : 1 / 1000000 ≤ γ)
    (hγe : 60 * e4 + 300000 * F.u ≤ γ ^ 2) (ha4 : (β + (14 * e4 + 710000 * F.u) / γ) / γ + e ≤ a4)
    -- joint 6
    (hf : e4 + 16 / 7 * a4 + 500 * F.u ≤ f) (hf1 : f ≤ 1 / 16)
    {a6 : ℝ} (ha6 : β + 315 / 100 * (F.u + f) + 700000 * F.u + e ≤ a6) :
    ∃ sols, r6Shoulder N h0' (h1.map of) (h2.map of) (h3.map of) (h4.map of) (h5.map of) P0' P1' P2' P3' P6' R06' p0T' x1 = .ok sols ∧
    ∀ row ∈ sols, ∃ x2 x3 x4 x5 x6 q2 q3 q4 q5 q6, row = [x1, x2, x3, x4, x5, x6] ∧ g = (rot h1 q2).mulVec (P2 + (rot h2 q3).mulVec P3) ∧
      R06 = rot h0 q1 * rot h1 q2 * rot h2 q3 * (rot h3 q4 * rot h4 q5) * rot h5 q6 ∧ Spec.AngNear x2 q2 a2 ∧ Spec.AngNear x3 q3 a3 ∧ Spec.AngNear x4 q4 a4 ∧
      Spec.AngNear x5 q5 a4 ∧ Spec.AngNear x6 q6 a6 := by
  have u0 := F.u_nonneg
  have β0 : 0 ≤ β := by linarith
  have u1 := coord_pm s1
  have u2 := coord_pm s2'
  have n2 : Spec.VNear (h2.map of : V3 (Fl F)) h2 F.u := vNear_self h2 u0
  have a10 : 0 ≤ a1 := by
    obtain ⟨n, w, -, h⟩ := hx1
    exact (abs_nonneg _).trans h
  have ev0 : 0 ≤ ev := by
    obtain ⟨w, -, h⟩ := hv'
    exact (V3.norm_nonneg _).trans h
  have en := hN.nonneg
  have e260 : 0 ≤ e26 := by linarith
  have i1 := rot_isRot h0 u0' q1
  have m2 := P2.norm_nonneg
  have m3' := P3.norm_nonneg
  have msq : m3 ^ 2 ≤ 1 := by nlinarith
  have msq' : m3 ^ 2 ≤ m3 := by nlinarith
  have e26s : e26 ≤ 1 / 20 := by linarith
  simp only [r6Shoulder]
  rcases hreach with ⟨q2, q3, hg⟩ | hfar
  · have exists6 : ∀ q2 q3, ∃ q4 q5 q6, R06 = rot h0 q1 * rot h1 q2 * rot h2 q3 * (rot h3 q4 * rot h4 q5) * rot h5 q6 := by
      intro q2 q3
      have i03 := (i1.mul (rot_isRot h1 u1.unit q2)).mul (rot_isRot h2 u2.unit q3)
      obtain ⟨q4, q5, q6, e⟩ := wrist_exists u3.unit u4.unit u5.unit h34 h45 (i03.transpose.mul i06)
      exact ⟨q4, q5, q6, by rw [M3.mul_assoc' (rot h0 q1 * rot h1 q2 * rot h2 q3), e, ← M3.mul_assoc', i03.orth', M3.one_mul']⟩
    have i2 := rot_isRot h1 u1.unit q2
    have i3 := rot_isRot h2 u2.unit q3
    have gn : g.norm = (P2 + (rot h2 q3).mulVec P3).norm := by rw [hg, i2.norm_mulVec]
    have nx : g.norm ≤ 19 / 10 := by
      have := V3.norm_add_le P2 ((rot h2 q3).mulVec P3)
      rw [i3.norm_mulVec] at this
      linarith
    have g1 := VNear.mono (p26_near u0' hv hvn hl0 nx hu (by linarith) (by linarith) n0 p0 p1 hx1 hv') he26
    have g2 := VNear.norm g1 (by linarith) hη
    obtain ⟨q4, q5, q6, hR⟩ := exists6 q2 q3
    have hm := (hall q2 q3 q4 q5 q6 hg hR).1
    obtain ⟨t1, t2, θa, θb, h3', ea, eb, ya, yb, -⟩ := subproblem3_coord (f := e26 + 100 * F.u) hF hA u2 (by linarith) (by linarith) (V3.norm_nonneg g) gn.symm hm0 hm hu hη
      (by linarith) (by linarith) (.inl hβ) p3 p2 g2
    have hd : β + (77 / 10 * (e26 + 100 * F.u) + 3200000 * F.u) / m3 + e ≤ a3 :=
      le_trans (add_le_add_left (add_le_add le_rfl (div_le_div_of_nonneg_right (by linarith) hm0.le)) _) ha3
    have gd : ∀ t ∈ [t1, t2], Good 8 t := fun t ht => ⟨by
      rw [List.mem_cons, List.mem_singleton] at ht
      rcases ht with rfl | rfl
      · exact ya.fin
      · exact yb.fin, fun v hv => (subproblem3_le hA h3' ht hv).trans (by norm_num), subproblem3_rep hF h3' ht⟩
    obtain ⟨K3, hK3, hK3'⟩ := hN.callS (j := 2) (by norm_num) gd
    rw [h3', Except.bind_ok, hK3, Except.bind_ok]
    have key : ∀ x3 θ, (P2 + (rot h2 θ).mulVec P3).norm = g.norm → Spec.AngNear x3 θ a3 → ∃ s,
        r6Elbow N (h1.map of) (h2.map of) (h3.map of) (h4.map of) (h5.map of) P2' P3' R06' (rot h0' x1)
          ((rot h0' x1).transpose.mulVec (p0T' - R06'.mulVec P6') - (P0' + P1')) x1 x3 = .ok s ∧
        ∀ row ∈ s, ∃ x2 x3 x4 x5 x6 q2 q3 q4 q5 q6, row = [x1, x2, x3, x4, x5, x6] ∧ g = (rot h1 q2).mulVec (P2 + (rot h2 q3).mulVec P3) ∧
          R06 = rot h0 q1 * rot h1 q2 * rot h2 q3 * (rot h3 q4 * rot h4 q5) * rot h5 q6 ∧ Spec.AngNear x2 q2 a2 ∧ Spec.AngNear x3 q3 a3 ∧ Spec.AngNear x4 q4 a4 ∧
          Spec.AngNear x5 q5 a4 ∧ Spec.AngNear x6 q6 a6 := by
      intro x3 θ hθ hn
      obtain ⟨b2, hb⟩ := joint2_exists s1 s2' hy hθ
      obtain ⟨b4, b5, b6, hR'⟩ := exists6 b2 θ
      obtain ⟨-, k2, k3⟩ := hall b2 θ b4 b5 b6 hb hR'
      rw [hb] at g1
      obtain ⟨s, hs, hs'⟩ := r6Elbow_run hA hF hN u1 u2 u3 u4 u5 h34 h45 hl i1 hR' hu hη p2 p3 (rot_angE u0' n0 hx1) r06 hn g1 (repV_sub hF _ _) hβ hs1 k2 hs3 hs26 hsu hs0 ha2
        (e4 := e4) (by linarith) hγ0 k3 hγe ha4 hf hf1 ha6 (x1 := x1)
      refine ⟨s, hs, fun row hrow => ?_⟩
      obtain ⟨x2, x4, x5, x6, c4, c5, c6, hr, hR'', y2, y4, y5, y6⟩ := hs' row hrow
      exact ⟨x2, x3, x4, x5, x6, b2, θ, c4, c5, c6, hr, hb, hR'', y2, hn, y4, y5, y6⟩
    refine forAppend_run fun t ht => ?_
    obtain ⟨w, hw, hs⟩ := hK3' t ht
    rw [List.mem_cons, List.mem_singleton] at hw
    rcases hw with rfl | rfl
    · exact key _ θa ea (AngNear.mono' (hs ya) hd)
    · exact key _ θb eb (AngNear.mono' (hs yb) hd)
  · obtain ⟨g1, gn⟩ := p26_far u0' hv hvn hl0 hu (by linarith) (by linarith) n0 p0 p1 hx1 hv'
    have g1 := VNear.mono (e := e26 + 100 * F.u) g1 (by linarith)
    have g2 := VNear.norm4 g1 (by linarith) hη
    rw [subproblem3_far u2.unit (by linarith) (by linarith) (V3.norm_nonneg g) (by linarith) hab (by linarith) (f := e26 + 100 * F.u + 200 * F.u)
      (le_trans (by linarith) hfar) hu0 hu hη (by linarith) n2 p3 p2 g2, Except.bind_ok]
    obtain ⟨K3, hK3, hK3'⟩ := hN.callS (j := 2) (l := []) (by norm_num) (by simp)
    rw [hK3, Except.bind_ok]
    exact forAppend_run fun t ht => by
      obtain ⟨w, hw, -⟩ := hK3' t ht
      cases hw

theorem r6Search_run (hA : Spec.InvAcc F) (hF : Spec.ExactRnd F) {N : Normalizer (Fl F)} {e : ℝ} (hN : Keeps N 8 e) {h0 h1 h2 h3 h4 h5 P0 P1 P2 P3 P6 p0T : V3 ℝ} (u0' : IsUnit3 h0) (s1 : h1 = V3.ey ∨ h1 = -V3.ey)
    (s2' : h2 = V3.ey ∨ h2 = -V3.ey) (u3 : Spec.CoordAxis h3) (u4 : Spec.CoordAxis h4) (u5 : Spec.CoordAxis h5) (h34 : h3.dot h4 = 0) (h45 : h4.dot h5 = 0)
    {c : ℝ} (hP0 : P0 = c • h0) (hlev : V3.ey.dot P0 = 0) (hl : P0.norm + P1.norm + P2.norm + P3.norm ≤ 19 / 10) (hl6 : P6.norm ≤ 1)
    {R06 : M3 ℝ} {q1 q2 q3 q4 q5 q6 : ℝ} (hR : R06 = rot h0 q1 * rot h1 q2 * rot h2 q3 * (rot h3 q4 * rot h4 q5) * rot h5 q6)
    (hp : p0T - R06.mulVec P6 = P0 + (rot h0 q1).mulVec (P1 + (rot h1 q2).mulVec (P2 + (rot h2 q3).mulVec P3)))
    {h0' P0' P1' P2' P3' P4' P5' P6' p0T' : V3 (Fl F)} {R06' : M3 (Fl F)} {ep ev er e26 e4 a1 a2 a3 a4 f m β : ℝ}
    (hu0 : 0 < F.u) (hu : F.u ≤ 1 / 100000000000) (hη : 16 * F.η ≤ F.u ^ 3) (hβ : 1 / 33554432 ≤ β)
    (n0 : Spec.VNear h0' h0 F.u) (p0 : Spec.VNear P0' P0 (16 * F.u)) (p1 : Spec.VNear P1' P1 (16 * F.u))
    (p2 : Spec.VNear P2' P2 (16 * F.u)) (p3 : Spec.VNear P3' P3 (16 * F.u)) (p6 : Spec.VNear P6' P6 (16 * F.u))
    (r06 : Spec.MNear R06' R06 er) (hp' : Spec.VNear p0T' p0T ep) (hm0 : 1 / 1000000 ≤ m) (hm1 : m ≤ 1)
    (hall : ∀ q1 q2 q3 q4 q5 q6, p0T - R06.mulVec P6 = P0 + (rot h0 q1).mulVec (P1 + (rot h1 q2).mulVec (P2 + (rot h2 q3).mulVec P3)) →
      R06 = rot h0 q1 * rot h1 q2 * rot h2 q3 * (rot h3 q4 * rot h4 q5) * rot h5 q6 →
      m ≤ |V3.ey.dot (h0.cross (P1 + (rot h1 q2).mulVec (P2 + (rot h2 q3).mulVec P3)))| ∧
      m ≤ |P2.dot (h2.cross ((rot h2 q3).mulVec P3))| ∧ m ≤ ((P2 + (rot h2 q3).mulVec P3).perp h1).norm ∧ m ≤ |(h3.cross h4).dot ((rot h4 q5).mulVec h5)|)
    (hreach : ∀ q1 g, p0T - R06.mulVec P6 = P0 + (rot h0 q1).mulVec (P1 + g) → V3.ey.dot g = V3.ey.dot (P2 + P3) →
      (∃ q2 q3, g = (rot h1 q2).mulVec (P2 + (rot h2 q3).mulVec P3)) ∨
      2 * (P3.perp h2).norm * (P2.perp h2).norm + m ^ 2 ≤
        |g.norm * g.norm - h2.dot (P3 + P2) * h2.dot (P3 + P2) - ((P3.perp h2).dot (P3.perp h2) + (P2.perp h2).dot (P2.perp h2))|)
    -- joint 1
    (hev : ep + er + 120 * F.u ≤ ev)
    (hm1e : 150 * (ev + 900 * F.u) ≤ m ^ 2) (ha1 : 17 * (ev + 900 * F.u) / m + e ≤ a1)
    (he26 : 2 * a1 + 17 / 16 * ev + 500 * F.u ≤ e26)
    -- joint 3
    (hm3 : 2600000 * F.u + 330 * e26 ≤ m ^ 2) (ha3 : β + (77 / 10 * e26 + 3300000 * F.u) / m + e ≤ a3)
    -- joint 2
    (hs3 : 4 * a3 + 1000 * F.u ≤ m) (hs26 : 2 * e26 ≤ m) (hsu : 280000 * F.u ≤ m)
    (ha2 : (β + 315 / 100 * (2 * a3 + 500 * F.u + e26) + 700000 * F.u) / m + e ≤ a2)
    -- joints 4 and 5
    (he4 : a1 + 17 / 16 * (a2 + a3 + er) + 800 * F.u ≤ e4)
    (hγe : 60 * e4 + 300000 * F.u ≤ m ^ 2) (ha4 : (β + (14 * e4 + 710000 * F.u) / m) / m + e ≤ a4)
    -- joint 6
    (hf : e4 + 16 / 7 * a4 + 500 * F.u ≤ f) (hf1 : f ≤ 1 / 16)
    {a6 : ℝ} (ha6 : β + 315 / 100 * (F.u + f) + 700000 * F.u + e ≤ a6) :
    ∃ sols, r6Search [h0', h1.map of, h2.map of, h3.map of, h4.map of, h5.map of] [P0', P1', P2', P3', P4', P5', P6'] N R06' p0T' = .ok sols ∧
    ∀ row ∈ sols, ∃ x1 x2 x3 x4 x5 x6 q1 q2 q3 q4 q5 q6, row = [x1, x2, x3, x4, x5, x6] ∧
      p0T - R06.mulVec P6 = P0 + (rot h0 q1).mulVec (P1 + (rot h1 q2).mulVec (P2 + (rot h2 q3).mulVec P3)) ∧
      R06 = rot h0 q1 * rot h1 q2 * rot h2 q3 * (rot h3 q4 * rot h4 q5) * rot h5 q6 ∧ Spec.AngNear x1 q1 a1 ∧ Spec.AngNear x2 q2 a2 ∧ Spec.AngNear x3 q3 a3 ∧
      Spec.AngNear x4 q4 a4 ∧ Spec.AngNear x5 q5 a4 ∧ Spec.AngNear x6 q6 a6 := by
  have u0 := F.u_nonneg
  have b := F.big_ge
  have η := F.η_le
  have mpos : 0 < m := by linarith
  have u1 := pm_unit s1
  have u2 := pm_unit s2'
  have i1 := rot_isRot h0 u0' q1
  have i2 := rot_isRot h1 u1 q2
  have i3 := rot_isRot h2 u2 q3
  have i06 : IsRot R06 := by
    rw [hR]
    exact (((i1.mul i2).mul i3).mul ((rot_isRot h3 u3.unit q4).mul (rot_isRot h4 u4.unit q5))).mul (rot_isRot h5 u5.unit q6)
  have l0 := P0.norm_nonneg
  have l1 := P1.norm_nonneg
  have l2 := P2.norm_nonneg
  have l3 := P3.norm_nonneg
  have er0 : 0 ≤ er := (mNear_iff.1 r06).elim fun _ h => h.2.nonneg
  have ep0 : 0 ≤ ep := by
    obtain ⟨w, -, h⟩ := hp'
    exact (V3.norm_nonneg _).trans h
  obtain ⟨k1, k3, -, -⟩ := hall q1 q2 q3 q4 q5 q6 hp hR
  have hab : m ≤ (P3.perp h2).norm * (P2.perp h2).norm := by
    refine k3.trans ?_
    have e : P2.dot (h2.cross ((rot h2 q3).mulVec P3)) = (P2.perp h2).dot (h2.cross (((rot h2 q3).mulVec P3).perp h2)) := by
      generalize (rot h2 q3).mulVec P3 = r
      simp [V3.perp, V3.dot]; ring
    rw [e, rot_perp_eq u2, mul_comm]
    refine (V3.abs_dot_le _ _).trans (mul_le_mul_of_nonneg_left ?_ (V3.norm_nonneg _))
    have := V3.norm_cross_le h2 ((rot h2 q3).mulVec (P3.perp h2))
    rwa [V3.norm_eq_one u2, one_mul, i3.norm_mulVec] at this
  set g := (rot h1 q2).mulVec (P2 + (rot h2 q3).mulVec P3) with hg
  have ng : g.norm ≤ P2.norm + P3.norm := by
    have := V3.norm_add_le P2 ((rot h2 q3).mulVec P3)
    rw [i3.norm_mulVec] at this
    rw [hg, i2.norm_mulVec]
    exact this
  set w := P0 + P1 + g with hw
  set v := p0T - R06.mulVec P6 with hv0
  have split : ∀ q g, (rot h0 q).mulVec (P0 + P1 + g) = P0 + (rot h0 q).mulVec (P1 + g) := fun q g => split_first hP0 P1 g q
  have hv : v = (rot h0 q1).mulVec w := by rw [hp, hw, split]
  have nw : w.norm ≤ 19 / 10 := by
    have h1 := V3.norm_add_le (P0 + P1) g
    have h2 := V3.norm_add_le P0 P1
    rw [← hw] at h1
    linarith
  have nv : v.norm ≤ 19 / 10 := by rw [hv, i1.norm_mulVec]; exact nw
  have e1 : V3.ey.dot g = V3.ey.dot P2 + V3.ey.dot P3 := level_sum s1 s2' P2 P3 q2 q3
  have hd : V3.ey.dot (P1 + P2 + P3) = V3.ey.dot w := by
    rw [hw, V3.dot_add, V3.dot_add, V3.dot_add, V3.dot_add, e1, hlev]; ring
  have msq : m ^ 2 ≤ 1 := by nlinarith
  have evs : ev ≤ 1 / 16 := by linarith
  have g1 := MNear.mulVec (s := 1) r06 p6 i06 (by linarith) hl6 (by linarith) one_pos (by linarith) (by linarith)
  have c1 : er * P6.norm ≤ er * 1 := mul_le_mul_of_nonneg_left hl6 er0
  have c2 : (1 + er) * (16 * F.u) ≤ 17 / 16 * (16 * F.u) := mul_le_mul_of_nonneg_right (by linarith) (by linarith)
  have g2 := VNear.mono (e := er + 50 * F.u) g1 (by linarith)
  have g3 := VNear.mono (e := ev) (VNear.sub (s := 2) hp' g2 two_pos (by rw [← hv0]; linarith) (by linarith) (by linarith)) (by linarith)
  have g4 := d1_near (by linarith) hu p1 p2 p3
  rw [hd] at g4
  have un : IsUnit3 (-h0) := by
    have := u0'; simp only [IsUnit3] at this ⊢; simpa using this
  have hback : (rot (-h0) q1).mulVec v = w := by rw [rot_neg_axis, rot_neg, hv, i1.transpose_mulVec_mulVec]
  have hcr : (-h0).cross w = -(h0.cross (P1 + g)) := by rw [hw, hP0]; ext <;> simp <;> ring
  obtain ⟨t, t', θ', hq, ht, ht', hθ', -⟩ := C74_subproblem4_split_partial hA (-h0) V3.ey v un ey_unit nv (V3.ey.dot w) q1 (by rw [hback]) m mpos
    (by rw [hback, hcr, V3.dot_neg, abs_neg]; exact k1) (-h0') (V3.ey.map Fl.of) _ _ ev (100 * F.u) (by linarith) (by linarith) (by linarith) (by linarith) hη
    (VNear.neg n0) (Fl.vNear_self V3.ey u0) g3 g4
  have hd1 : 17 * (ev + 100 * F.u + 800 * F.u) / m + e ≤ a1 := le_trans (add_le_add_left (div_le_div_of_nonneg_right (by linarith only [u0]) mpos.le) _) ha1
  have key : ∀ x θ, Spec.AngNear x θ a1 → V3.ey.dot ((rot (-h0) θ).mulVec v) = V3.ey.dot w → ∃ s, r6Shoulder N h0' (h1.map of) (h2.map of) (h3.map of)
      (h4.map of) (h5.map of) P0' P1' P2' P3' P6' R06' p0T' x = .ok s ∧ ∀ row ∈ s, ∃ x1 x2 x3 x4 x5 x6 q1 q2 q3 q4 q5 q6, row = [x1, x2, x3, x4, x5, x6] ∧
      v = P0 + (rot h0 q1).mulVec (P1 + (rot h1 q2).mulVec (P2 + (rot h2 q3).mulVec P3)) ∧
      R06 = rot h0 q1 * rot h1 q2 * rot h2 q3 * (rot h3 q4 * rot h4 q5) * rot h5 q6 ∧ Spec.AngNear x1 q1 a1 ∧ Spec.AngNear x2 q2 a2 ∧ Spec.AngNear x3 q3 a3 ∧
      Spec.AngNear x4 q4 a4 ∧ Spec.AngNear x5 q5 a4 ∧ Spec.AngNear x6 q6 a6 := by
    intro x θ hx hθ
    set z := (rot (-h0) θ).mulVec v - (P0 + P1) with hz
    have hz' : (rot (-h0) θ).mulVec v = P0 + P1 + z := by rw [hz]; ext <;> simp
    have hvz : v = (rot h0 θ).mulVec (P0 + P1 + z) := by
      rw [← hz', rot_neg_axis, rot_neg, (rot_isRot h0 u0' θ).mulVec_transpose_mulVec]
    have hvz' : v = P0 + (rot h0 θ).mulVec (P1 + z) := by rw [← split]; exact hvz
    have hyz : V3.ey.dot z = V3.ey.dot (P2 + P3) := by
      rw [hz', ← hd, V3.dot_add, V3.dot_add, V3.dot_add, V3.dot_add, hlev] at hθ
      rw [V3.dot_add]; linarith
    obtain ⟨s, hs, hs'⟩ := r6Shoulder_run hA hF hN u0' s1 s2' u3 u4 u5 h34 h45 (by linarith) (by linarith) nv i06 hvz hyz hu0 hu hη n0 p0 p1 p2 p3 r06 hx g3 he26 hβ
      (m3 := m) (s2 := m) (γ := m) (fun b2 b3 b4 b5 b6 hb hRb => (hall θ b2 b3 b4 b5 b6 (by rw [← hb]; exact hvz') hRb).2) (hreach θ z hvz' hyz) mpos hm1 hm3 hab ha3
      hm1 hs3 hs26 hsu mpos ha2 he4 hm0 hγe ha4 hf hf1 ha6
    refine ⟨s, hs, fun row hrow => ?_⟩
    obtain ⟨x2, x3, x4, x5, x6, b2, b3, b4, b5, b6, hr, hb, hRb, y2, y3, y4, y5, y6⟩ := hs' row hrow
    exact ⟨x, x2, x3, x4, x5, x6, θ, b2, b3, b4, b5, b6, hr, by rw [← hb]; exact hvz', hRb, hx, y2, y3, y4, y5, y6⟩
  have hq' : subproblem4 V3.ey (p0T' - R06'.mulVec P6') (-h0') (V3.ey.dot (P1' + P2' + P3')) = [t, t'] ∨
      subproblem4 V3.ey (p0T' - R06'.mulVec P6') (-h0') (V3.ey.dot (P1' + P2' + P3')) = [t', t] := hq
  have two : ∀ s ∈ subproblem4 V3.ey (p0T' - R06'.mulVec P6') (-h0') (V3.ey.dot (P1' + P2' + P3')), s = t ∨ s = t' := by
    intro s hs
    rcases hq' with e | e <;> (rw [e] at hs; simp at hs; tauto)
  simp only [r6Search]
  obtain ⟨K1, hK1, hK1'⟩ := hN.callS (j := 0) (l := subproblem4 V3.ey (p0T' - R06'.mulVec P6') (-h0') (V3.ey.dot (P1' + P2' + P3'))) (by norm_num) fun s hs => ⟨by
    rcases two s hs with rfl | rfl
    · exact ht.fin
    · exact ht'.fin, fun v hv => subproblem4_le hA hs hv, subproblem4_rep hF hs⟩
  rw [hK1, Except.bind_ok]
  refine forAppend_run fun s hs => ?_
  obtain ⟨w, hw, hsame⟩ := hK1' s hs
  rcases two w hw with rfl | rfl
  · exact key _ q1 (AngNear.mono' (hsame ht) hd1) (by rw [hback])
  · exact key _ θ' (AngNear.mono' (hsame ht') hd1) hθ'

/-! ## The check of the wrist offsets -/

theorem coord_along (hF : Spec.ExactRnd F) {k : V3 ℝ} (hk : Spec.CoordAxis k) {c : ℝ} (hc : Rep F c) :
    isZeroV (((c • k).map of : V3 (Fl F)) - V3.smul (((c • k).map of : V3 (Fl F)).dot (k.map of)) (k.map of)) := by
  obtain ⟨σ, hσ, hk⟩ : ∃ σ : ℝ, (σ = 1 ∨ σ = -1) ∧ (k = ⟨σ, 0, 0⟩ ∨ k = ⟨0, σ, 0⟩ ∨ k = ⟨0, 0, σ⟩) := by
    rcases hk with rfl | rfl | rfl | rfl | rfl | rfl
    · exact ⟨1, .inl rfl, .inl rfl⟩
    · exact ⟨1, .inl rfl, .inr (.inl rfl)⟩
    · exact ⟨1, .inl rfl, .inr (.inr rfl)⟩
    · exact ⟨-1, .inr rfl, .inl (by ext <;> simp)⟩
    · exact ⟨-1, .inr rfl, .inr (.inl (by ext <;> simp))⟩
    · exact ⟨-1, .inr rfl, .inr (.inr (by ext <;> simp))⟩
  obtain ⟨m1, m2, m3⟩ := mul_pm_of hF hσ hc
  obtain ⟨m4, m5, m6⟩ := mul_pm_of hF hσ m2
  rw [m3] at m4
  have z : feq (of 0 : Fl F) 0 := (XReal.feq_fin 0 0).2 rfl
  rcases hk with rfl | rfl | rfl
  · have e : ((c • (⟨σ, 0, 0⟩ : V3 ℝ)).map of : V3 (Fl F)) = ⟨of (c * σ), of 0, of 0⟩ := by
      change (⟨of (c * σ), of (c * 0), of (c * 0)⟩ : V3 (Fl F)) = _
      rw [mul_zero]
    rw [e]
    change feq (of (c * σ) - (of (c * σ) * of σ + of 0 * of 0 + of 0 * of 0) * of σ : Fl F) 0 ∧
      feq (of 0 - (of (c * σ) * of σ + of 0 * of 0 + of 0 * of 0) * of 0 : Fl F) 0 ∧ feq (of 0 - (of (c * σ) * of σ + of 0 * of 0 + of 0 * of 0) * of 0 : Fl F) 0
    rw [m4, mul_zero_of, add_zero_of hc, add_zero_of hc, m1, mul_zero_of, sub_self_of, sub_self_of]
    exact ⟨z, z, z⟩
  · have e : ((c • (⟨0, σ, 0⟩ : V3 ℝ)).map of : V3 (Fl F)) = ⟨of 0, of (c * σ), of 0⟩ := by
      change (⟨of (c * 0), of (c * σ), of (c * 0)⟩ : V3 (Fl F)) = _
      rw [mul_zero]
    rw [e]
    change feq (of 0 - (of 0 * of 0 + of (c * σ) * of σ + of 0 * of 0) * of 0 : Fl F) 0 ∧
      feq (of (c * σ) - (of 0 * of 0 + of (c * σ) * of σ + of 0 * of 0) * of σ : Fl F) 0 ∧ feq (of 0 - (of 0 * of 0 + of (c * σ) * of σ + of 0 * of 0) * of 0 : Fl F) 0
    rw [m4, mul_zero_of, zero_add_of hc, add_zero_of hc, m1, mul_zero_of, sub_self_of, sub_self_of]
    exact ⟨z, z, z⟩
  · have e : ((c • (⟨0, 0, σ⟩ : V3 ℝ)).map of : V3 (Fl F)) = ⟨of 0, of 0, of (c * σ)⟩ := by
      change (⟨of (c * 0), of (c * 0), of (c * σ)⟩ : V3 (Fl F)) = _
      rw [mul_zero]
    rw [e]
    change feq (of 0 - (of 0 * of 0 + of 0 * of 0 + of (c * σ) * of σ) * of 0 : Fl F) 0 ∧
      feq (of 0 - (of 0 * of 0 + of 0 * of 0 + of (c * σ) * of σ) * of 0 : Fl F) 0 ∧ feq (of (c * σ) - (of 0 * of 0 + of 0 * of 0 + of (c * σ) * of σ) * of σ : Fl F) 0
    rw [m4, mul_zero_of, add_zero_of Rep.zero, zero_add_of hc, m1, mul_zero_of, sub_self_of, sub_self_of]
    exact ⟨z, z, z⟩

theorem moveColumn_coord (hF : Spec.ExactRnd F) {H L : List (V3 (Fl F))} {src ax dst : Nat} {k : V3 ℝ} (hk : Spec.CoordAxis k) {c : ℝ} (hc : Rep F c)
    (ha : L[src]? = some ((c • k).map of)) (hax : H[ax]? = some (k.map of)) (hd : ∃ b, L[dst]? = some b) :
    ∃ L', moveColumn H L src ax dst = (L', .ok ()) ∧ (L' = L ∨ ∃ b, L' = (L.set dst b).set src 0) := by
  obtain ⟨b, hb⟩ := hd
  simp only [moveColumn, ha, hax, hb, if_pos (coord_along hF hk hc)]
  split_ifs
  · exact ⟨L, rfl, .inl rfl⟩
  · exact ⟨_, rfl, .inr ⟨_, rfl⟩⟩

theorem fixWrist_coord (hF : Spec.ExactRnd F) {h0' h1' h2' h4' P0' P1' P2' P3' P6' : V3 (Fl F)} {h3 h5 : V3 ℝ} (u3 : Spec.CoordAxis h3) (u5 : Spec.CoordAxis h5)
    {c4 c5 : ℝ} (hc4 : Rep F c4) (hc5 : Rep F c5) :
    ∃ L, fixWrist [h0', h1', h2', h3.map of, h4', h5.map of] [P0', P1', P2', P3', (c4 • h3).map of, (c5 • h5).map of, P6'] = (L, .ok ()) := by
  obtain ⟨L, h, hL⟩ := moveColumn_coord (H := [h0', h1', h2', h3.map of, h4', h5.map of]) (L := [P0', P1', P2', P3', (c4 • h3).map of, (c5 • h5).map of, P6'])
    (src := 4) (ax := 3) (dst := 3) hF u3 hc4 rfl rfl ⟨_, rfl⟩
  unfold fixWrist
  rw [h]
  obtain ⟨L', h', -⟩ := moveColumn_coord (H := [h0', h1', h2', h3.map of, h4', h5.map of]) (L := L) (src := 5) (ax := 5) (dst := 6) hF u5 hc5
    (by rcases hL with rfl | ⟨b, rfl⟩ <;> rfl) rfl (by rcases hL with rfl | ⟨b, rfl⟩ <;> exact ⟨P6', rfl⟩)
  exact ⟨L', h'⟩

end Fl
