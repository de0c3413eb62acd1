import Verif.Lemmas.FlIkRun
import Verif.Props.RoundingIk
import Verif.Props.Empty

/-!
# C83: `robot6_sphericalwrist_invkin` in floating point returns all solutions and only solutions

For arms whose axes 2 to 6 are coordinate axes (or their negatives), away from the singularities.
-/
set_option autoImplicit false

/-- Every angle of joint 1 that turns the wrist centre `c` to the height along y where joints 2 and 3 keep it either brings it to a distance the elbow
can produce, or out of reach of the elbow by a margin. -/
def Spec.ReachDecided (h0 h2 P0 P1 P2 P3 c : V3 ℝ) (m : ℝ) : Prop :=
  ∀ q1 g, c = P0 + (rot h0 q1).mulVec (P1 + g) → V3.ey.dot g = V3.ey.dot (P2 + P3) →
    (∃ q3, (P2 + (rot h2 q3).mulVec P3).norm = g.norm) ∨
    ((h2.cross P2).norm + (h2.cross P3).norm) ^ 2 + m ^ 2 ≤ (h2.cross g).norm ^ 2 ∨
    (h2.cross g).norm ^ 2 + m ^ 2 ≤ ((h2.cross P2).norm - (h2.cross P3).norm) ^ 2

/-- The joint values agree with `q` up to `δ` and whole turns. -/
def Spec.RowNear {F : FSys} (row : List (Fl F)) (q : List ℝ) (δ : ℝ) : Prop := List.Forall₂ (fun x t => Spec.AngNear x t δ) row q

section
variable {F : FSys} {r : Robot ℝ} {h0 h1 h2 h3 h4 h5 P0 P1 P2 P3 P4 P5 P6 : V3 ℝ}

/-- joint values that place the wrist centre and turn the hand as the pose asks reach the pose -/
theorem wristArm_reach (hr : Spec.WristArm r h0 h1 h2 h3 h4 h5 P0 P1 P2 P3 P4 P5 P6) (hP4 : P4 = (P4.dot h3) • h3)
    (hP5 : P5 = (P5.dot h5) • h5) {p : List ℝ} {p1 p2 p3 p4 p5 p6 : ℝ} {T : Transform ℝ} (hp : p = [p1, p2, p3, p4, p5, p6]) (hT : fwdkin r p true = .ok T)
    {q1 q2 q3 q4 q5 q6 : ℝ} (eR : (unapplyAux r T).R = rot h0 q1 * rot h1 q2 * rot h2 q3 * (rot h3 q4 * rot h4 q5) * rot h5 q6)
    (ep : Spec.wristCentre r P5 P6 T = Spec.wristAt h0 h1 h2 P0 P1 P2 (P3 + P4) q1 q2 q3) : fwdkin r [q1, q2, q3, q4, q5, q6] true = .ok T := by
  subst hp
  obtain ⟨hB, hF, hX⟩ := hr.aux
  have hT' := fwdkin_chain6 hr.types hr.axes hr.links q1 q2 q3 q4 q5 q6
  obtain ⟨eR', ep'⟩ := wristArm_pose hr hP4 hP5 hT'
  have h0 := fwdkin_chain6 hr.types hr.axes hr.links p1 p2 p3 p4 p5 p6
  rw [hT']
  rw [h0, Except.ok.injEq] at hT
  generalize hC : (⟨_, _, none, none⟩ : Transform ℝ) = C at hT
  have en : C.parent = none ∧ C.child = none := by rw [← hC]; exact ⟨rfl, rfl⟩
  clear hC h0
  subst hT
  rw [unapply_apply_R hB hF hX] at eR
  rw [Spec.wristCentre, unapply_apply_R hB hF hX, unapply_apply_p hB hF hX] at ep
  rw [unapply_apply_R hB hF hX, unapply_apply_p hB hF hX] at ep'
  obtain ⟨R, x, a, b⟩ := C
  obtain ⟨rfl, rfl⟩ := en
  simp only at eR ep ep'
  rw [← eR] at ep' ⊢
  generalize P0 + (rot _ q1).mulVec (P1 + (rot h1 q2).mulVec (P2 + (rot h2 q3).mulVec (P3 + (rot h3 q4).mulVec (P4 + (rot h4 q5).mulVec
        (P5 + (rot h5 q6).mulVec P6))))) = y at *
  have : y = x := by
    rw [← ep] at ep'
    rw [V3.ext_iff] at ep' ⊢
    simpa using ep'
  rw [this]

theorem elbow_decided {h1 h2 P2 P3 g : V3 ℝ} {m : ℝ} (s1 : h1 = V3.ey ∨ h1 = -V3.ey) (s2 : h2 = V3.ey ∨ h2 = -V3.ey) (hy : V3.ey.dot g = V3.ey.dot (P2 + P3))
    (h : (∃ q3, (P2 + (rot h2 q3).mulVec P3).norm = g.norm) ∨
      ((h2.cross P2).norm + (h2.cross P3).norm) ^ 2 + m ^ 2 ≤ (h2.cross g).norm ^ 2 ∨
      (h2.cross g).norm ^ 2 + m ^ 2 ≤ ((h2.cross P2).norm - (h2.cross P3).norm) ^ 2) :
    (∃ q2 q3, g = (rot h1 q2).mulVec (P2 + (rot h2 q3).mulVec P3)) ∨
    2 * (P3.perp h2).norm * (P2.perp h2).norm + m ^ 2 ≤
      |g.norm * g.norm - h2.dot (P3 + P2) * h2.dot (P3 + P2) - ((P3.perp h2).dot (P3.perp h2) + (P2.perp h2).dot (P2.perp h2))| := by
  rcases h with ⟨q3, h⟩ | h
  · obtain ⟨q2, h⟩ := Fl.joint2_exists s1 s2 hy h
    exact .inl ⟨q2, q3, h⟩
  · right
    have hk := pm_unit s2
    have hgk : g.dot h2 = h2.dot (P3 + P2) := by
      have : h2.dot g = h2.dot (P2 + P3) := by
        rcases s2 with rfl | rfl
        · exact hy
        · rw [V3.neg_dot, V3.neg_dot, hy]
      rw [V3.dot_comm, this]; simp [V3.dot]; ring
    have e1 := V3.perp_dot_self (p := g) hk
    rw [hgk, ← V3.norm_sq, V3.perp_norm hk, ← V3.norm_sq g] at e1
    rw [← V3.norm_sq (P3.perp h2), ← V3.norm_sq (P2.perp h2), V3.perp_norm hk, V3.perp_norm hk]
    generalize (h2.cross P2).norm = x at *
    generalize (h2.cross P3).norm = y at *
    generalize (h2.cross g).norm = w at *
    rcases h with h | h
    · exact le_abs.2 (.inl (by linarith [sq g.norm]))
    · exact le_abs.2 (.inr (by linarith [sq g.norm]))

/-- For any normalizer that keeps angles: the search returns, and returns solutions only. -/
theorem robot6_run (hF : Spec.InvAcc F) (hE : Spec.ExactRnd F) (hr : Spec.WristArm r h0 h1 h2 h3 h4 h5 P0 P1 P2 P3 P4 P5 P6)
    (k3 : Spec.CoordAxis h3) (k4 : Spec.CoordAxis h4) (k5 : Spec.CoordAxis h5)
    (hP4 : P4 = (P4.dot h3) • h3) (hP5 : P5 = (P5.dot h5) • h5) (hl : P0.norm + P1.norm + P2.norm + (P3.norm + P4.norm) ≤ 19 / 10)
    (hl6 : P6.norm + P5.norm ≤ 1) (r' : Robot (Fl F)) (hr' : Spec.RobotNear r' r)
    {last : Option (List (Fl F))} {e : ℝ} (hN : Fl.Keeps (Normalizer.ofRobot r' last) 8 e)
    (hH' : r'.H.tail = [h1, h2, h3, h4, h5].map (V3.map Fl.of)) (c4 c5 : ℝ) (hc4 : Fl.Rep F c4) (hc5 : Fl.Rep F c5)
    (hP4' : r'.P[4]? = some ((c4 • h3).map Fl.of)) (hP5' : r'.P[5]? = some ((c5 • h5).map Fl.of))
    (T : Transform ℝ) (q1 q2 q3 q4 q5 q6 : ℝ) (hT : fwdkin r [q1, q2, q3, q4, q5, q6] true = .ok T)
    (T' : Transform (Fl F)) (ε : ℝ) (hR' : Spec.MNear T'.R T.R ε) (hp' : Spec.VNear T'.p T.p ε)
    (L : ℝ) (hL : 1 ≤ L) (hlen : T.p.norm + Spec.auxLength r ≤ L) (hbig : 5 * L ≤ F.big)
    (hu0 : 0 < F.u) (hu : F.u ≤ 1 / 100000000000) (hη : 16 * F.η ≤ F.u ^ 3) (m δ : ℝ) (hm : 1 / 1000000 ≤ m)
    (hmargin : ∀ q1 q2 q3 q4 q5 q6, fwdkin r [q1, q2, q3, q4, q5, q6] true = .ok T → Spec.WristMargin h0 h1 h2 h3 h4 h5 P1 P2 (P3 + P4) q2 q3 q5 m)
    (hreach : Spec.ReachDecided h0 h2 P0 P1 P2 (P3 + P4) (Spec.wristCentre r P5 P6 T) m)
    (hδ : 960 * (1 / 33554432 + e) / m ^ 3 + (1100000 * ε + 260000 * e + 3500000000 * F.u) * L / m ^ 5 ≤ δ) (hδ1 : δ ≤ 1 / 5) :
    ∃ Q sols, fixWrist r'.H r'.P = (Q, .ok ()) ∧ r6Search r'.H Q (Normalizer.ofRobot r' last) (unapplyAux r' T').R (unapplyAux r' T').p = .ok sols ∧
      ∀ row ∈ sols, ∃ q1 q2 q3 q4 q5 q6, fwdkin r [q1, q2, q3, q4, q5, q6] true = .ok T ∧ Spec.RowNear row [q1, q2, q3, q4, q5, q6] δ := by
  have m0 : 0 < m := by linarith
  have mg := hmargin _ _ _ _ _ _ hT
  have ε0 : 0 ≤ ε := by
    obtain ⟨w, -, h⟩ := hp'
    exact (V3.norm_nonneg _).trans h
  have m1 : m ≤ 1 := by
    refine mg.wrist.trans ((V3.abs_dot_le _ _).trans ?_)
    rw [(rot_isRot _ hr.unit4 q5).norm_mulVec, V3.norm_eq_one hr.unit5, mul_one]
    refine (V3.norm_cross_le _ _).trans ?_
    rw [V3.norm_eq_one hr.unit3, V3.norm_eq_one hr.unit4, mul_one]
  have e0 := hN.nonneg
  have εL : ε ≤ ε * L := le_mul_of_one_le_right ε0 hL
  have eL : e ≤ e * L := le_mul_of_one_le_right e0 hL
  have uL : F.u ≤ F.u * L := le_mul_of_one_le_right hu0.le hL
  have hεs : ε ≤ 1 / 100 := by
    have t1 : 0 ≤ 960 * (1 / 33554432 + e) / m ^ 3 := by positivity
    have t2 : (1100000 * ε + 260000 * e + 3500000000 * F.u) * L ≤ (1100000 * ε + 260000 * e + 3500000000 * F.u) * L / m ^ 5 :=
      le_div_self (by positivity) (by positivity) (pow_le_one₀ m0.le m1)
    have t3 : (1100000 * ε + 260000 * e + 3500000000 * F.u) * L ≤ 1 / 5 := by linarith
    have t4 : 0 ≤ F.u * L := by linarith
    have t5 : 0 ≤ e * L := by positivity
    linarith
  -- base, flange and tool
  have lX : Fl.optLen (toolT r.Rtool r.ptool) ≤ (r.ptool.map V3.norm).getD 0 := by
    cases r.Rtool <;> cases r.ptool <;> simp [Fl.optLen, toolT, V3.norm_nonneg]
  have hlen' : T.p.norm + Fl.optLen r.Tflange + Fl.optLen (toolT r.Rtool r.ptool) + Fl.optLen r.Tbase ≤ L := by
    rw [Spec.auxLength] at hlen
    change T.p.norm + (r.Tflange.map (·.p.norm)).getD 0 + _ + (r.Tbase.map (·.p.norm)).getD 0 ≤ L
    linarith
  obtain ⟨gR, gp⟩ := Fl.unapply_near hr'.flange hr'.base hr'.tool (hr.pose_rot hT) hR' hp' hlen' hL hbig hu0 hu hεs
  obtain ⟨eR, ep⟩ := wristArm_pose hr hP4 hP5 hT
  -- the stored arm
  have na := hr'.axes
  have nl := hr'.links
  rw [hr.axes] at na
  rw [hr.links] at nl
  generalize hM : Normalizer.ofRobot r' last = N at *
  generalize unapplyAux r' T' = U at *
  generalize r'.H = H' at *
  generalize r'.P = L' at *
  obtain _ | ⟨⟨-, n0⟩, _ | ⟨⟨-, n1⟩, _ | ⟨⟨-, n2⟩, _ | ⟨⟨-, n3⟩, _ | ⟨⟨-, n4⟩, _ | ⟨⟨-, n5⟩, _ | _⟩⟩⟩⟩⟩⟩ := na
  obtain _ | ⟨p0, _ | ⟨p1, _ | ⟨p2, _ | ⟨p3, _ | ⟨p4, _ | ⟨p5, _ | ⟨p6, _ | _⟩⟩⟩⟩⟩⟩⟩ := nl
  simp only [List.tail_cons, List.map_cons, List.map_nil, List.cons.injEq, and_true] at hH'
  obtain ⟨rfl, rfl, rfl, rfl, rfl⟩ := hH'
  simp only [List.getElem?_cons_succ, List.getElem?_cons_zero, Option.some.injEq] at hP4' hP5'
  subst hP4' hP5'
  have i0 := P0.norm_nonneg
  have i1 := P1.norm_nonneg
  have i2 := P2.norm_nonneg
  have i3 := P3.norm_nonneg
  have i4 := P4.norm_nonneg
  have i5 := P5.norm_nonneg
  have i6 := P6.norm_nonneg
  have i34 := V3.norm_add_le P3 P4
  have i65 := V3.norm_add_le P6 P5
  rename_i H0 Q0 Q1 Q2 Q3 Q6
  obtain ⟨Q, hfx⟩ := Fl.fixWrist_coord hE k3 k5 hc4 hc5 (h0' := H0) (h1' := h1.map Fl.of) (h2' := h2.map Fl.of) (h4' := h4.map Fl.of) (P0' := Q0) (P1' := Q1)
    (P2' := Q2) (P3' := Q3) (P6' := Q6)
  rw [hfx]
  obtain ⟨Q3, Q4, Q5, Q6, rfl, c3, c6⟩ := Fl.fixWrist_near p3 p4 p5 p6 (by linarith) (by linarith) hu hfx
  -- the errors
  obtain ⟨a1, e26, a3, a2, e4, a4, f, b1, b2, b3, b4, b5, b6, b7, b8, b9, b10, b11, b12, b13, b14, -, -, -, -, -, d1, d2, d3, d4, d6⟩ :=
    Fl.ik_budget_e (B := 1 / 33554432) (e := e) (W := 17 / 4 * (ε * L) + e * L + 13500 * (F.u * L)) (u := F.u) (δ := δ) (er := 17 / 16 * ε + 146 * F.u)
      (ev := 17 / 4 * (ε * L) + 540 * (F.u * L)) m0 m1 (by norm_num) e0 hu0.le (by linarith) (by linarith) (by linarith) (by
        refine le_trans (add_le_add_right (div_le_div_of_nonneg_right ?_ (pow_pos m0 5).le) _) hδ
        have : 0 ≤ ε * L := by linarith
        have : 0 ≤ F.u * L := by linarith
        have : 0 ≤ e * L := by linarith
        linarith) hδ1
  obtain ⟨c, hc⟩ := hr.first
  obtain ⟨rows, hrows, hrow⟩ := Fl.r6Search_run hF hE hN hr.unit0 hr.par1 hr.par2 k3 k4 k5 hr.perp34 hr.perp45
    hc hr.level (by linarith) (by linarith) eR ep hu0 hu hη (β := 1 / 33554432) le_rfl n0 (Fl.VNear.weaken p0 (by linarith)) (Fl.VNear.weaken p1 (by linarith))
    (Fl.VNear.weaken p2 (by linarith)) c3 c6 gR gp hm m1
    (fun b1 b2 b3 b4 b5 b6 hb hRb => by
      have g := hmargin b1 b2 b3 b4 b5 b6 (wristArm_reach hr hP4 hP5 rfl hT hRb hb)
      exact ⟨g.shoulder, g.elbow, by rw [V3.perp_norm (pm_unit hr.par1)]; exact g.radius, g.wrist⟩)
    (fun q1 g hb hy => elbow_decided hr.par1 hr.par2 hy (hreach q1 g hb hy))
    (ev := 17 / 4 * (ε * L) + 540 * (F.u * L)) (by linarith) b1 b2 b3 b4 b5 b6 b7 b8 b9 b10 b11 b12 b13 b14 d6 (P4' := Q4) (P5' := Q5)
  refine ⟨_, rows, rfl, hrows, fun row hmem => ?_⟩
  obtain ⟨x1, x2, x3, x4, x5, x6, b1, b2, b3, b4, b5, b6, rfl, hb, hRb, y1, y2, y3, y4, y5, y6⟩ := hrow row hmem
  exact ⟨_, _, _, _, _, _, wristArm_reach hr hP4 hP5 rfl hT hRb hb, .cons (Fl.AngNear.mono' y1 d1) (.cons (Fl.AngNear.mono' y2 d2) (.cons (Fl.AngNear.mono' y3 d3)
    (.cons (Fl.AngNear.mono' y4 d4) (.cons (Fl.AngNear.mono' y5 d4) (.cons y6 .nil)))))⟩

/-- C83 for arms with coordinate axes: the axes of joints 2 to 6 are coordinate axes or their negatives, stored exactly; the offsets along joints 4 and
6 are stored along the axes.  If every joint vector that reaches the pose has margins of at least `m`, and no shoulder angle leaves the wrist centre at
the border of the reach of the elbow, the call does not raise, every row it returns is within `δ` of a joint vector that reaches the pose, and every joint
vector that reaches the pose is within `δ` of a row.  Missing: joint limits, larger arms, other axes (false, `C83_robot6_false`), and poses near the
singularities. -/
theorem C83_robot6_coord_partial (hF : Spec.InvAcc F) (hE : Spec.ExactRnd F) (hr : Spec.WristArm r h0 h1 h2 h3 h4 h5 P0 P1 P2 P3 P4 P5 P6)
    (k3 : Spec.CoordAxis h3) (k4 : Spec.CoordAxis h4) (k5 : Spec.CoordAxis h5)
    (hP4 : P4 = (P4.dot h3) • h3) (hP5 : P5 = (P5.dot h5) • h5) (hl : P0.norm + P1.norm + P2.norm + (P3.norm + P4.norm) ≤ 19 / 10)
    (hl6 : P6.norm + P5.norm ≤ 1) (r' : Robot (Fl F)) (hr' : Spec.RobotNear r' r) (hlim : r'.lower = none ∨ r'.upper = none)
    (hH' : r'.H.tail = [h1, h2, h3, h4, h5].map (V3.map Fl.of)) (c4 c5 : ℝ) (hc4 : Fl.Rep F c4) (hc5 : Fl.Rep F c5)
    (hP4' : r'.P[4]? = some ((c4 • h3).map Fl.of)) (hP5' : r'.P[5]? = some ((c5 • h5).map Fl.of))
    (T : Transform ℝ) (q1 q2 q3 q4 q5 q6 : ℝ) (hT : fwdkin r [q1, q2, q3, q4, q5, q6] true = .ok T)
    (T' : Transform (Fl F)) (ε : ℝ) (hR' : Spec.MNear T'.R T.R ε) (hp' : Spec.VNear T'.p T.p ε)
    (L : ℝ) (hL : 1 ≤ L) (hlen : T.p.norm + Spec.auxLength r ≤ L) (hbig : 5 * L ≤ F.big)
    (hu0 : 0 < F.u) (hu : F.u ≤ 1 / 100000000000) (hη : 16 * F.η ≤ F.u ^ 3) (m δ : ℝ) (hm : 1 / 1000000 ≤ m)
    (hmargin : ∀ q1 q2 q3 q4 q5 q6, fwdkin r [q1, q2, q3, q4, q5, q6] true = .ok T → Spec.WristMargin h0 h1 h2 h3 h4 h5 P1 P2 (P3 + P4) q2 q3 q5 m)
    (hreach : Spec.ReachDecided h0 h2 P0 P1 P2 (P3 + P4) (Spec.wristCentre r P5 P6 T) m)
    (hδ : 960 / (33554432 * m ^ 3) + (1100000 * ε + 3500000000 * F.u) * L / m ^ 5 ≤ δ) (hδ1 : δ ≤ 1 / 5) :
    ∃ sols, (robot6_sphericalwrist_invkin r' T').2 = .ok sols ∧
      (∀ row ∈ sols, ∃ q, fwdkin r q true = .ok T ∧ Spec.RowNear row q δ) ∧
      (∀ q1 q2 q3 q4 q5 q6, fwdkin r [q1, q2, q3, q4, q5, q6] true = .ok T → ∃ row ∈ sols, Spec.RowNear row [q1, q2, q3, q4, q5, q6] δ) := by
  have m0 : 0 < m := by linarith
  have hδ' : 960 * (1 / 33554432) / m ^ 3 + (1100000 * ε + 3500000000 * F.u) * L / m ^ 5 ≤ δ := by
    rwa [mul_one_div, div_div]
  suffices h : ∃ sols, (robot6_sphericalwrist_invkin r' T').2 = .ok sols ∧ (∀ row ∈ sols, ∃ q, fwdkin r q true = .ok T ∧ Spec.RowNear row q δ) by
    obtain ⟨sols, h, hs⟩ := h
    refine ⟨sols, h, hs, fun q1 q2 q3 q4 q5 q6 hT => ?_⟩
    obtain ⟨x1, x2, x3, x4, x5, x6, hmem, y1, y2, y3, y4, y5, y6⟩ := C83_robot6_rounding_partial hF hr hP4 hP5 hl hl6 r' hr' hlim q1 q2 q3 q4 q5 q6 T hT T' ε hR' hp'
      L hL hlen hbig hu0 hu hη m (1 / 33554432) δ hm (hmargin _ _ _ _ _ _ hT) (.inl le_rfl) hδ' hδ1 sols h
    exact ⟨_, hmem, .cons y1 (.cons y2 (.cons y3 (.cons y4 (.cons y5 (.cons y6 .nil)))))⟩
  have hN : Normalizer.ofRobot r' none = ⟨none, none⟩ := by
    unfold Normalizer.ofRobot
    rcases hlim with e | e
    · rw [e]
    · rw [e]; cases r'.lower <;> rfl
  obtain ⟨Q, rows, hfx, h, hrow⟩ := robot6_run hF hE hr k3 k4 k5 hP4 hP5 hl hl6 r' hr' (last := none) (e := 0) (by rw [hN]; exact Fl.Keeps.free _) hH' c4 c5 hc4 hc5 hP4' hP5'
    T q1 q2 q3 q4 q5 q6 hT T' ε hR' hp' L hL hlen hbig hu0 hu hη m δ hm hmargin hreach (by rwa [add_zero, mul_zero, add_zero]) hδ1
  refine ⟨rows, ?_, fun row hm => by
    obtain ⟨_, _, _, _, _, _, h1, h2⟩ := hrow row hm
    exact ⟨_, h1, h2⟩⟩
  unfold robot6_sphericalwrist_invkin
  dsimp only
  rw [hfx]
  simp only [Except.bind_ok]
  rw [h]
  rfl

end

/-- every solution for the pose of the half-metre arm with level forearm and hand along y has margins of at least 1/4 -/
theorem B64Wrist.half_margins {T : Transform ℝ} (hT : fwdkin B64Wrist.half [0, 0, 0, Real.pi / 2, Real.pi / 2, 0] true = .ok T) (q1 q2 q3 q4 q5 q6 : ℝ)
    (h : fwdkin B64Wrist.half [q1, q2, q3, q4, q5, q6] true = .ok T) :
    Spec.WristMargin V3.ez V3.ey V3.ey V3.ex V3.ey V3.ex 0 ⟨0, 0, 1 / 2⟩ (⟨1 / 2, 0, 0⟩ + 0) q2 q3 q5 (1 / 4) := by
  have z : ∀ h : V3 ℝ, (0 : V3 ℝ) = ((0 : V3 ℝ).dot h) • h := by intro h; ext <;> simp [V3.dot]
  obtain ⟨e1, e2⟩ := wristArm_pose B64Wrist.half_wrist (z _) (z _) hT
  obtain ⟨f1, f2⟩ := wristArm_pose B64Wrist.half_wrist (z _) (z _) h
  rw [e2] at f2
  rw [e1] at f1
  have f3 := congrArg (fun M => M.mulVec V3.ex) f1
  simp only [← M3.mulVec_mulVec, rot_zero, M3.one_mulVec] at f3
  rw [rot_axis V3.ex q6] at f3
  simp [Spec.wristAt, rot, V3.ext_iff] at f2 f3
  have p1 := Real.sin_sq_add_cos_sq q1
  have p2 := Real.sin_sq_add_cos_sq q2
  have p3 := Real.sin_sq_add_cos_sq q3
  have p5 := Real.sin_sq_add_cos_sq q5
  obtain ⟨g1, g2, g3⟩ := f2
  obtain ⟨k1, -, k3⟩ := f3
  have s1 : Real.sin q1 = 0 := g2.resolve_right fun h => by rw [h] at g1; norm_num at g1
  rw [s1] at p1 k1
  have c1 : Real.cos q1 ≠ 0 := fun h => by rw [h] at p1; norm_num at p1
  simp only [zero_mul, neg_zero, add_zero] at k1
  have k1' := (mul_eq_zero.1 k1.symm).resolve_left c1
  have ha : (Real.cos q2 * (Real.cos q3 * 2⁻¹) + Real.sin q2 * (2⁻¹ + -(Real.sin q3 * 2⁻¹))) ^ 2 = 1 / 4 := by
    have := congrArg (· ^ 2) g1
    simp only [mul_pow] at this
    rw [show Real.cos q1 ^ 2 = 1 by linarith, one_mul] at this
    rw [← this]; norm_num
  have s3 : Real.sin q3 = 0 := by
    have hb := congrArg (fun x : ℝ => x ^ 2) g3
    beta_reduce at hb
    linear_combination (1 / 2) * p3 * (Real.sin q2 ^ 2 + Real.cos q2 ^ 2) + (1 - Real.sin q3) * p2 - 2 * ha + 2 * hb
  have c3 : Real.cos q3 ^ 2 = 1 := by rw [s3] at p3; linarith
  have c5 : Real.cos q5 = 0 := by
    rw [s3] at k1' k3
    have : Real.cos q3 * Real.cos q5 = 0 := by
      linear_combination Real.cos q2 * k1' + Real.sin q2 * k3 - Real.cos q3 * Real.cos q5 * p2
    rcases mul_eq_zero.1 this with h | h
    · rw [h] at c3; norm_num at c3
    · exact h
  have s5 : Real.sin q5 ^ 2 = 1 := by rw [c5] at p5; linarith
  constructor
  · have : V3.ey.dot (V3.ez.cross (0 + (rot V3.ey q2).mulVec (⟨0, 0, 1 / 2⟩ + (rot V3.ey q3).mulVec (⟨1 / 2, 0, 0⟩ + 0)))) =
        Real.cos q2 * (Real.cos q3 * 2⁻¹) + Real.sin q2 * (2⁻¹ + -(Real.sin q3 * 2⁻¹)) := by simp [rot, V3.dot]
    rw [this]
    refine abs_le_of_sq_le_sq' ?_ (abs_nonneg _) |>.2
    rw [sq_abs, ha]; norm_num
  · have : (⟨0, 0, 1 / 2⟩ : V3 ℝ).dot (V3.ey.cross ((rot V3.ey q3).mulVec (⟨1 / 2, 0, 0⟩ + 0))) = -(Real.cos q3 / 4) := by simp [rot, V3.dot]; ring
    rw [this]
    refine abs_le_of_sq_le_sq' ?_ (abs_nonneg _) |>.2
    rw [sq_abs, neg_sq, div_pow (Real.cos q3), c3]; norm_num
  · rw [V3.norm_eq]
    apply Real.le_sqrt_of_sq_le
    simp [rot, V3.dot, s3]
    nlinarith
  · have : (V3.ex.cross V3.ey : V3 ℝ).dot ((rot V3.ey q5).mulVec V3.ex) = -Real.sin q5 := by simp [rot, V3.dot]
    rw [this]
    refine abs_le_of_sq_le_sq' ?_ (abs_nonneg _) |>.2
    rw [sq_abs, neg_sq, s5]; norm_num

/-- both shoulder angles leave the wrist centre of this pose at a distance the elbow can produce -/
theorem B64Wrist.half_reach {T : Transform ℝ} (hT : fwdkin B64Wrist.half [0, 0, 0, Real.pi / 2, Real.pi / 2, 0] true = .ok T) :
    Spec.ReachDecided V3.ez V3.ey ⟨0, 0, 1 / 2⟩ 0 ⟨0, 0, 1 / 2⟩ (⟨1 / 2, 0, 0⟩ + 0) (Spec.wristCentre B64Wrist.half 0 ⟨1 / 2, 0, 0⟩ T) (1 / 4) := by
  intro q1 g hb _
  have z : ∀ h : V3 ℝ, (0 : V3 ℝ) = ((0 : V3 ℝ).dot h) • h := by intro h; ext <;> simp [V3.dot]
  obtain ⟨-, e2⟩ := wristArm_pose B64Wrist.half_wrist (z _) (z _) hT
  rw [Spec.wristCentre, e2] at hb
  refine .inl ⟨0, ?_⟩
  have e : (⟨0, 0, 1 / 2⟩ + (⟨1 / 2, 0, 0⟩ + 0) : V3 ℝ) = (rot V3.ez q1).mulVec g := by
    simp only [Spec.wristAt, rot_zero, M3.one_mulVec, V3.ext_iff] at hb ⊢
    simpa using hb
  rw [rot_zero, M3.one_mulVec, e, (rot_isRot _ (by simp [IsUnit3]) _).norm_mulVec]

/-- C83 for the concrete arm in binary64 with a correctly rounded library: for a pose known up to 1e-12 the call returns, returns only solutions up to
1/50, and returns each. -/
example : ∃ T, fwdkin B64Wrist.half [0, 0, 0, Real.pi / 2, Real.pi / 2, 0] true = .ok T ∧ ∀ (T' : Transform (Fl (b64 Libm.rounded))),
    Spec.MNear T'.R T.R (1 / 1000000000000) → Spec.VNear T'.p T.p (1 / 1000000000000) →
    ∃ sols, (robot6_sphericalwrist_invkin (B64Wrist.half' _) T' none).2 = .ok sols ∧
      (∀ row ∈ sols, ∃ q, fwdkin B64Wrist.half q true = .ok T ∧ Spec.RowNear row q (1 / 50)) ∧
      (∀ q1 q2 q3 q4 q5 q6, fwdkin B64Wrist.half [q1, q2, q3, q4, q5, q6] true = .ok T →
        ∃ row ∈ sols, Spec.RowNear row [q1, q2, q3, q4, q5, q6] (1 / 50)) := by
  have hT := fwdkin_chain6 B64Wrist.half_wrist.types B64Wrist.half_wrist.axes B64Wrist.half_wrist.links 0 0 0 (Real.pi / 2) (Real.pi / 2) 0
  refine ⟨_, hT, fun T' hR hp => ?_⟩
  have z : ∀ h : V3 ℝ, (0 : V3 ℝ) = ((0 : V3 ℝ).dot h) • h := by intro h; ext <;> simp [V3.dot]
  have nz : (⟨0, 0, 1 / 2⟩ : V3 ℝ).norm ≤ 1 / 2 := by rw [V3.norm_eq]; exact Real.sqrt_le_iff.2 ⟨by norm_num, by norm_num [V3.dot]⟩
  have nx : (⟨1 / 2, 0, 0⟩ : V3 ℝ).norm ≤ 1 / 2 := by rw [V3.norm_eq]; exact Real.sqrt_le_iff.2 ⟨by norm_num, by norm_num [V3.dot]⟩
  have z' : ∀ h : V3 ℝ, (0 : ℝ) • h = 0 := by intro h; ext <;> simp
  refine C83_robot6_coord_partial invAcc_rounded (b64_exactRnd _) B64Wrist.half_wrist (.inl rfl) (.inr (.inl rfl)) (.inl rfl) (z _) (z _)
    (by rw [V3.norm_zero]; linarith) (by rw [V3.norm_zero]; linarith) _
    (B64Wrist.half_near _) (.inl rfl) rfl 0 0 Fl.Rep.zero Fl.Rep.zero (by rw [z']; rfl) (by rw [z']; rfl) _ 0 0 0 (Real.pi / 2) (Real.pi / 2) 0 hT T' _ hR hp
    2 (by norm_num) ?_ ?_ ?_ ?_ (b64_eta _) (1 / 4) (1 / 50) (by norm_num) (B64Wrist.half_margins hT) (B64Wrist.half_reach hT) ?_ (by norm_num)
  · simp only [rot_zero, M3.one_mulVec]
    rw [show Spec.auxLength B64Wrist.half = 0 by simp [Spec.auxLength, B64Wrist.half], add_zero, V3.norm_eq]
    refine Real.sqrt_le_iff.2 ⟨by norm_num, ?_⟩
    simp [applyAux, B64Wrist.half, rot, V3.dot]
    norm_num
  · have := (b64 Libm.rounded).big_ge; linarith
  · rw [b64_u]; positivity
  · rw [b64_u]; norm_num
  · rw [b64_u]; norm_num
