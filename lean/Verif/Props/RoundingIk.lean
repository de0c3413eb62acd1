import Verif.Lemmas.FlIk
import Verif.Props.Robot6
import Verif.Props.RoundingTransform

/-!
# C83: `robot6_sphericalwrist_invkin` with rounding

For a pose that some joint vector reaches, the solver computed with rounding returns this joint vector, up to an error proportional to the error of
the pose and the unit roundoff, and growing with the closeness to the singularities of the arm.

False as it stands: the inner subproblems may raise (C73, C81, C82).
-/
set_option autoImplicit false

/-- The quantities the solver divides by are at least `m`: how far joint 1 moves the wrist centre along y, how far joint 3 changes its distance from
the shoulder, its distance from the axis of joint 2, and the sine of the angle of joint 5. -/
structure Spec.WristMargin (h0 h1 h2 h3 h4 h5 P1 P2 P3 : V3 ℝ) (q2 q3 q5 m : ℝ) : Prop where
  shoulder : m ≤ |V3.ey.dot (h0.cross (P1 + (rot h1 q2).mulVec (P2 + (rot h2 q3).mulVec P3)))|
  elbow : m ≤ |P2.dot (h2.cross ((rot h2 q3).mulVec P3))|
  radius : m ≤ (h1.cross (P2 + (rot h2 q3).mulVec P3)).norm
  wrist : m ≤ |(h3.cross h4).dot ((rot h4 q5).mulVec h5)|

/-- `p` and `q` coincide or are more than the tolerance of `subproblem1` apart, by `δ`. -/
def Spec.apart (δ : ℝ) (p q : V3 ℝ) : Prop := p = q ∨ 1 / 50000000 + δ ≤ (p - q).norm

/-- Joints 2, 4, 5 and 6 do not move what they move, or clearly do, and at zero elbow angle the forearm, seen along the elbow axis, either continues
the upper arm exactly or clearly does not. -/
structure Spec.WristApart (h1 h2 h3 h4 h5 P2 P3 : V3 ℝ) (q2 q3 q4 q5 q6 δ : ℝ) : Prop where
  joint2 : Spec.apart δ (P2 + (rot h2 q3).mulVec P3) ((rot h1 q2).mulVec (P2 + (rot h2 q3).mulVec P3))
  joint3 : Spec.apart δ (Spec.dir P3 h2) (Spec.dir P2 h2)
  joint4 : Spec.apart δ ((rot h3 q4 * rot h4 q5).mulVec h5) ((rot h4 q5).mulVec h5)
  joint5 : Spec.apart δ h5 ((rot h4 q5).mulVec h5)
  joint6 : Spec.apart δ h4 ((rot h5 q6).mulVec h4)

/-- The lengths of the offsets of base, flange and tool together. -/
noncomputable def Spec.auxLength (r : Robot ℝ) : ℝ :=
  (r.Tflange.map (·.p.norm)).getD 0 + (r.ptool.map V3.norm).getD 0 + (r.Tbase.map (·.p.norm)).getD 0

theorem Spec.RobotNear.tool {F : FSys} {robot' : Robot (Fl F)} {robot : Robot ℝ} (hrobot : Spec.RobotNear robot' robot) :
    Option.Rel Spec.TNear (toolT robot'.Rtool robot'.ptool) (toolT robot.Rtool robot.ptool) := by
  have h1 := hrobot.toolR
  have h2 := hrobot.toolp
  generalize robot.Rtool = R at *
  generalize robot'.Rtool = R' at *
  generalize robot.ptool = p at *
  generalize robot'.ptool = p' at *
  cases h1 with
  | none => cases h2 <;> exact .none
  | some h1 =>
    cases h2 with
    | none => exact .none
    | some h2 => exact .some ⟨h1.1, h1.2, h2⟩

section
variable {F : FSys} {r : Robot ℝ} {h0 h1 h2 h3 h4 h5 P0 P1 P2 P3 P4 P5 P6 : V3 ℝ}

theorem Spec.WristArm.pose_rot (hr : Spec.WristArm r h0 h1 h2 h3 h4 h5 P0 P1 P2 P3 P4 P5 P6) {q1 q2 q3 q4 q5 q6 : ℝ} {T : Transform ℝ}
    (hT : fwdkin r [q1, q2, q3, q4, q5, q6] true = .ok T) : IsRot T.R := by
  obtain ⟨hB, hF, hX⟩ := hr.aux
  rw [fwdkin_chain6 hr.types hr.axes hr.links] at hT
  cases hT
  rw [applyAux_R]
  exact hB.mul (((((((rot_isRot _ hr.unit0 q1).mul (rot_isRot _ (pm_unit hr.par1) q2)).mul (rot_isRot _ (pm_unit hr.par2) q3)).mul
    ((rot_isRot _ hr.unit3 q4).mul (rot_isRot _ hr.unit4 q5))).mul (rot_isRot _ hr.unit5 q6)).mul hF).mul hX)

/-- For any normalizer that follows the joint vector: if the search returns, it returns this joint vector up to `δ`. -/
theorem robot6_follow (hF : Spec.InvAcc F) (hr : Spec.WristArm r h0 h1 h2 h3 h4 h5 P0 P1 P2 P3 P4 P5 P6)
    (hP4 : P4 = (P4.dot h3) • h3) (hP5 : P5 = (P5.dot h5) • h5) (hl : P0.norm + P1.norm + P2.norm + (P3.norm + P4.norm) ≤ 19 / 10)
    (hl6 : P6.norm + P5.norm ≤ 1) (r' : Robot (Fl F)) (hr' : Spec.RobotNear r' r)
    {last : Option (List (Fl F))} {A : ℕ → Fl F → ℝ → Prop} {e δ : ℝ} (q1 q2 q3 q4 q5 q6 : ℝ)
    (hN : Fl.Follows (Normalizer.ofRobot r' last) (fun j => [q1, q2, q3, q4, q5, q6].getD j 0) A (fun _ => 8) δ e) (T : Transform ℝ) (hT : fwdkin r [q1, q2, q3, q4, q5, q6] true = .ok T)
    (T' : Transform (Fl F)) (ε : ℝ) (hR' : Spec.MNear T'.R T.R ε) (hp' : Spec.VNear T'.p T.p ε)
    (L : ℝ) (hL : 1 ≤ L) (hlen : T.p.norm + Spec.auxLength r ≤ L) (hbig : 5 * L ≤ F.big)
    (hu0 : 0 < F.u) (hu : F.u ≤ 1 / 100000000000) (hη : 16 * F.η ≤ F.u ^ 3)
    (m β : ℝ) (hm : 1 / 1000000 ≤ m) (hmargin : Spec.WristMargin h0 h1 h2 h3 h4 h5 P1 P2 (P3 + P4) q2 q3 q5 m)
    (hβ : 1 / 33554432 ≤ β ∨ 0 ≤ β ∧ Spec.WristApart h1 h2 h3 h4 h5 P2 (P3 + P4) q2 q3 q4 q5 q6 δ)
    (hδ : 960 * (β + e) / m ^ 3 + (1100000 * ε + 260000 * e + 3500000000 * F.u) * L / m ^ 5 ≤ δ) (hδ1 : δ ≤ 1 / 5)
    {Q : List (V3 (Fl F))} (hfx : fixWrist r'.H r'.P = (Q, .ok ())) {sols : List (List (Fl F))}
    (h : r6Search r'.H Q (Normalizer.ofRobot r' last) (unapplyAux r' T').R (unapplyAux r' T').p = .ok sols) :
    ∃ x1 x2 x3 x4 x5 x6, [x1, x2, x3, x4, x5, x6] ∈ sols ∧ A 0 x1 δ ∧ A 1 x2 δ ∧ A 2 x3 δ ∧ A 3 x4 δ ∧ A 4 x5 δ ∧ A 5 x6 δ := by
  have m0 : 0 < m := by linarith
  have β0 : 0 ≤ β := by
    rcases hβ with h | h
    · linarith
    · exact h.1
  have ε0 : 0 ≤ ε := by
    obtain ⟨w, -, h⟩ := hp'
    exact (V3.norm_nonneg _).trans h
  have m1 : m ≤ 1 := by
    refine hmargin.wrist.trans ((V3.abs_dot_le _ _).trans ?_)
    rw [(rot_isRot _ hr.unit4 q5).norm_mulVec, V3.norm_eq_one hr.unit5, mul_one]
    refine (V3.norm_cross_le _ _).trans ?_
    rw [V3.norm_eq_one hr.unit3, V3.norm_eq_one hr.unit4, mul_one]
  have e0 := hN.nonneg
  have εL : ε ≤ ε * L := le_mul_of_one_le_right ε0 hL
  have eL : e ≤ e * L := le_mul_of_one_le_right e0 hL
  have uL : F.u ≤ F.u * L := le_mul_of_one_le_right hu0.le hL
  have hεs : ε ≤ 1 / 100 := by
    have t1 : 0 ≤ 960 * (β + e) / m ^ 3 := by positivity
    have t2 : (1100000 * ε + 260000 * e + 3500000000 * F.u) * L ≤ (1100000 * ε + 260000 * e + 3500000000 * F.u) * L / m ^ 5 :=
      le_div_self (by positivity) (by positivity) (pow_le_one₀ m0.le m1)
    have t3 : (1100000 * ε + 260000 * e + 3500000000 * F.u) * L ≤ 1 / 5 := by linarith
    have t4 : 0 ≤ F.u * L := by linarith
    have t5 : 0 ≤ e * L := by positivity
    linarith
  -- base, flange and tool
  have lX : Fl.optLen (toolT r.Rtool r.ptool) ≤ (r.ptool.map V3.norm).getD 0 := by
    cases r.Rtool <;> cases r.ptool <;> simp [Fl.optLen, toolT, V3.norm_nonneg]
  have hlen' : T.p.norm + Fl.optLen r.Tflange + Fl.optLen (toolT r.Rtool r.ptool) + Fl.optLen r.Tbase ≤ L := by
    rw [Spec.auxLength] at hlen
    change T.p.norm + (r.Tflange.map (·.p.norm)).getD 0 + _ + (r.Tbase.map (·.p.norm)).getD 0 ≤ L
    linarith
  obtain ⟨gR, gp⟩ := Fl.unapply_near hr'.flange hr'.base hr'.tool (hr.pose_rot hT) hR' hp' hlen' hL hbig hu0 hu hεs
  obtain ⟨eR, ep⟩ := wristArm_pose hr hP4 hP5 hT
  -- the stored arm
  have na := hr'.axes
  have nl := hr'.links
  rw [hr.axes] at na
  rw [hr.links] at nl
  generalize hM : Normalizer.ofRobot r' last = N at *
  generalize unapplyAux r' T' = U at *
  generalize r'.H = H' at *
  generalize r'.P = L' at *
  obtain _ | ⟨⟨-, n0⟩, _ | ⟨⟨-, n1⟩, _ | ⟨⟨-, n2⟩, _ | ⟨⟨-, n3⟩, _ | ⟨⟨-, n4⟩, _ | ⟨⟨-, n5⟩, _ | _⟩⟩⟩⟩⟩⟩ := na
  obtain _ | ⟨p0, _ | ⟨p1, _ | ⟨p2, _ | ⟨p3, _ | ⟨p4, _ | ⟨p5, _ | ⟨p6, _ | _⟩⟩⟩⟩⟩⟩⟩ := nl
  have i0 := P0.norm_nonneg
  have i1 := P1.norm_nonneg
  have i2 := P2.norm_nonneg
  have i3 := P3.norm_nonneg
  have i4 := P4.norm_nonneg
  have i5 := P5.norm_nonneg
  have i6 := P6.norm_nonneg
  have i34 := V3.norm_add_le P3 P4
  have i65 := V3.norm_add_le P6 P5
  obtain ⟨Q3, Q4, Q5, Q6, rfl, c3, c6⟩ := Fl.fixWrist_near p3 p4 p5 p6 (by linarith) (by linarith) hu hfx
  -- the errors
  obtain ⟨a1, e26, a3, a2, e4, a4, f, b1, b2, b3, b4, b5, b6, b7, b8, b9, b10, b11, b12, b13, b14, c1, c2, c4, c5, c7, d1, d2, d3, d4, d6⟩ :=
    Fl.ik_budget_e (B := β) (e := e) (W := 17 / 4 * (ε * L) + e * L + 13500 * (F.u * L)) (u := F.u) (δ := δ) (er := 17 / 16 * ε + 146 * F.u)
      (ev := 17 / 4 * (ε * L) + 540 * (F.u * L)) m0 m1 β0 e0 hu0.le (by linarith) (by linarith) (by linarith) (by
        refine le_trans (add_le_add_right (div_le_div_of_nonneg_right ?_ (pow_pos m0 5).le) _) hδ
        have : 0 ≤ ε * L := by linarith
        have : 0 ≤ F.u * L := by linarith
        have : 0 ≤ e * L := by linarith
        linarith) hδ1
  have band : ∀ {e : ℝ} {p q : V3 ℝ}, e ≤ δ → (Spec.WristApart h1 h2 h3 h4 h5 P2 (P3 + P4) q2 q3 q4 q5 q6 δ → Spec.apart δ p q) → Fl.Band β e p q := by
    intro e p q he g
    rcases hβ with h | ⟨h, h'⟩
    · exact .inl h
    · exact .inr ⟨h, (g h').imp id fun h => by linarith⟩
  obtain ⟨c, hc⟩ := hr.first
  obtain ⟨x1, x2, x3, x4, x5, x6, hm6, y1, y2, y3, y4, y5, y6⟩ := Fl.r6Search_near hF hN hr.unit0 hr.par1 hr.par2 hr.unit3 hr.unit4 hr.unit5 hr.perp34 hr.perp45
    hc hr.level (by linarith) (by linarith) rfl rfl rfl rfl rfl rfl eR ep hu hη n0 n1 n2 n3 n4 n5 (Fl.VNear.weaken p0 (by linarith)) (Fl.VNear.weaken p1 (by linarith))
    (Fl.VNear.weaken p2 (by linarith)) c3 c6 gR gp (ev := 17 / 4 * (ε * L) + 540 * (F.u * L)) (by linarith) m0 hmargin.shoulder b1 b2 b3 m0 hmargin.elbow b4
    (band c1 fun g => g.joint3) b5 m1 (by rw [V3.perp_norm (pm_unit hr.par1)]; exact hmargin.radius) b6 b7 b8 m0 (band c2 fun g => g.joint2) b9 b10 hm hmargin.wrist b11
    (band c4 fun g => g.joint4) (band c5 fun g => g.joint5) b12 b13 b14 (band c7 fun g => g.joint6) d6 le_rfl h
  exact ⟨x1, x2, x3, x4, x5, x6, hm6, hN.mono y1 d1, hN.mono y2 d2, hN.mono y3 d3, hN.mono y4 d4, hN.mono y5 d4, y6⟩

/-- C83, the part that holds: for a stored arm without joint limits, with offsets of total length at most 1.9 up to the wrist and at most 1 beyond
it, and a pose known up to `ε` that the joint values `q1 ... q6` reach with all margins at least `m`: if the call returns, the list contains these
joint values up to `δ` and whole turns.  `β` is what the early returns of `subproblem1` may add: `2⁻²⁵`, or nothing if no joint moves what it moves
by about the threshold.  `L` bounds the position of the pose together with the offsets of base, flange and tool.  Missing: that it does not raise,
joint limits, larger arms, and configurations so close to a singularity that `m⁵` is of the order of the errors. -/
theorem C83_robot6_rounding_partial (hF : Spec.InvAcc F) (hr : Spec.WristArm r h0 h1 h2 h3 h4 h5 P0 P1 P2 P3 P4 P5 P6)
    (hP4 : P4 = (P4.dot h3) • h3) (hP5 : P5 = (P5.dot h5) • h5) (hl : P0.norm + P1.norm + P2.norm + (P3.norm + P4.norm) ≤ 19 / 10)
    (hl6 : P6.norm + P5.norm ≤ 1) (r' : Robot (Fl F)) (hr' : Spec.RobotNear r' r) (hlim : r'.lower = none ∨ r'.upper = none)
    (q1 q2 q3 q4 q5 q6 : ℝ) (T : Transform ℝ) (hT : fwdkin r [q1, q2, q3, q4, q5, q6] true = .ok T)
    (T' : Transform (Fl F)) (ε : ℝ) (hR' : Spec.MNear T'.R T.R ε) (hp' : Spec.VNear T'.p T.p ε)
    (L : ℝ) (hL : 1 ≤ L) (hlen : T.p.norm + Spec.auxLength r ≤ L) (hbig : 5 * L ≤ F.big)
    (hu0 : 0 < F.u) (hu : F.u ≤ 1 / 100000000000) (hη : 16 * F.η ≤ F.u ^ 3)
    (m β δ : ℝ) (hm : 1 / 1000000 ≤ m) (hmargin : Spec.WristMargin h0 h1 h2 h3 h4 h5 P1 P2 (P3 + P4) q2 q3 q5 m)
    (hβ : 1 / 33554432 ≤ β ∨ 0 ≤ β ∧ Spec.WristApart h1 h2 h3 h4 h5 P2 (P3 + P4) q2 q3 q4 q5 q6 δ)
    (hδ : 960 * β / m ^ 3 + (1100000 * ε + 3500000000 * F.u) * L / m ^ 5 ≤ δ) (hδ1 : δ ≤ 1 / 5)
    (sols : List (List (Fl F))) (h : (robot6_sphericalwrist_invkin r' T').2 = .ok sols) :
    ∃ x1 x2 x3 x4 x5 x6, [x1, x2, x3, x4, x5, x6] ∈ sols ∧ Spec.AngNear x1 q1 δ ∧ Spec.AngNear x2 q2 δ ∧ Spec.AngNear x3 q3 δ ∧
      Spec.AngNear x4 q4 δ ∧ Spec.AngNear x5 q5 δ ∧ Spec.AngNear x6 q6 δ := by
  unfold robot6_sphericalwrist_invkin at h
  dsimp only at h
  rcases hfx : fixWrist r'.H r'.P with ⟨Q, e | u⟩
  · rw [hfx] at h; cases h
  rw [hfx] at h
  simp only [Except.bind_ok] at h
  obtain ⟨rows, h, h'⟩ := Except.bind_eq_ok h
  cases h'
  have hN : Normalizer.ofRobot r' none = ⟨none, none⟩ := by
    unfold Normalizer.ofRobot
    rcases hlim with e | e
    · rw [e]
    · rw [e]; cases r'.lower <;> rfl
  exact robot6_follow hF hr hP4 hP5 hl hl6 r' hr' (last := none) q1 q2 q3 q4 q5 q6 (by rw [hN]; exact Fl.Follows.free _ _ _) T hT T' ε hR' hp' L hL hlen hbig hu0 hu hη m β
    hm hmargin hβ (by rwa [add_zero, mul_zero, add_zero]) hδ1 hfx h

end

/-! ## The check of the wrist offsets with rounding -/

namespace B64Wrist
variable (lib : Libm)

/-- 5/13 and 12/13 as stored in binary64 -/
noncomputable def a : ℝ := 6928614811339225 * 2⁻¹ ^ 54
noncomputable def b : ℝ := 8314337773607070 * 2⁻¹ ^ 53

/-- An arm whose forearm axis is tilted by the angle with sine 5/13, and whose fourth offset is along this axis. -/
noncomputable def arm : Robot ℝ :=
  { H := [V3.ez, V3.ey, V3.ey, ⟨5 / 13, 0, 12 / 13⟩, V3.ey, ⟨5 / 13, 0, 12 / 13⟩]
    P := [V3.ez, 0, V3.ez, V3.ex, ⟨5 / 13, 0, 12 / 13⟩, 0, V3.ex]
    jointType := [0, 0, 0, 0, 0, 0], lower := none, upper := none }

/-- The same arm in binary64, every number rounded to the nearest. -/
noncomputable def stored : Robot (Fl (b64 lib)) :=
  { H := [V3.ez, V3.ey, V3.ey, ⟨.of a, 0, .of b⟩, V3.ey, ⟨.of a, 0, .of b⟩]
    P := [V3.ez, 0, V3.ez, V3.ex, ⟨.of a, 0, .of b⟩, 0, V3.ex]
    jointType := [0, 0, 0, 0, 0, 0], lower := none, upper := none }

theorem arm_wrist : Spec.WristArm arm V3.ez V3.ey V3.ey ⟨5 / 13, 0, 12 / 13⟩ V3.ey ⟨5 / 13, 0, 12 / 13⟩ V3.ez 0 V3.ez V3.ex ⟨5 / 13, 0, 12 / 13⟩ 0 V3.ex where
  types := rfl
  axes := rfl
  links := rfl
  unit0 := by simp [IsUnit3]
  unit3 := by norm_num [IsUnit3]
  unit4 := by simp [IsUnit3]
  unit5 := by norm_num [IsUnit3]
  par1 := .inl rfl
  par2 := .inl rfl
  perp34 := by simp [V3.dot]
  perp45 := by simp [V3.dot]
  first := ⟨1, by ext <;> simp⟩
  level := by simp [V3.dot]
  base := by intro B h; cases h
  flange := by intro B h; cases h
  tool := by intro B h; cases h

theorem stored_near : Spec.RobotNear (stored lib) arm where
  types := rfl
  axes := by
    have e : ∀ v : V3 ℝ, IsUnit3 v → IsUnit3 v ∧ Spec.VNear (F := b64 lib) (v.map Fl.of) v (b64 lib).u := fun v h => ⟨h, Fl.vNear_self v (b64 lib).u_nonneg⟩
    have h : IsUnit3 (⟨5 / 13, 0, 12 / 13⟩ : V3 ℝ) ∧ Spec.VNear (F := b64 lib) ⟨.of a, 0, .of b⟩ ⟨5 / 13, 0, 12 / 13⟩ (b64 lib).u := by
      refine ⟨by norm_num [IsUnit3], ⟨a, 0, b⟩, rfl, ?_⟩
      rw [V3.norm_eq, b64_u]
      exact Real.sqrt_le_iff.2 ⟨by norm_num, by norm_num [V3.dot, a, b]⟩
    exact .cons (e V3.ez (by simp [IsUnit3])) (.cons (e V3.ey (by simp [IsUnit3])) (.cons (e V3.ey (by simp [IsUnit3])) (.cons h
      (.cons (e V3.ey (by simp [IsUnit3])) (.cons h .nil)))))
  links := by
    have e : ∀ v : V3 ℝ, Spec.VNear (F := b64 lib) (v.map Fl.of) v ((b64 lib).u * v.norm) := fun v =>
      Fl.vNear_self v (mul_nonneg (b64 lib).u_nonneg (V3.norm_nonneg _))
    have h : Spec.VNear (F := b64 lib) ⟨.of a, 0, .of b⟩ ⟨5 / 13, 0, 12 / 13⟩ ((b64 lib).u * (⟨5 / 13, 0, 12 / 13⟩ : V3 ℝ).norm) := by
      rw [V3.norm_eq_one (show IsUnit3 _ by norm_num [IsUnit3]), mul_one]
      refine ⟨⟨a, 0, b⟩, rfl, ?_⟩
      rw [V3.norm_eq, b64_u]
      exact Real.sqrt_le_iff.2 ⟨by norm_num, by norm_num [V3.dot, a, b]⟩
    exact .cons (e V3.ez) (.cons (e 0) (.cons (e V3.ez) (.cons (e V3.ex) (.cons h (.cons (e 0) (.cons (e V3.ex) .nil))))))
  flange := .none
  base := .none
  toolR := .none
  toolp := .none

theorem dot_rounded : (⟨.of a, 0, .of b⟩ : V3 (Fl (b64 lib))).dot ⟨.of a, 0, .of b⟩ = .of (1 + 2⁻¹ ^ 52) := by
  have R0 : Fl.Rep (b64 lib) 0 := Fl.Rep.zero
  have m1 : (Fl.of a * Fl.of a : Fl (b64 lib)) = .of (5329703701030173 * 2⁻¹ ^ 55) := Fl.mul_of (by
    change B64.rnd _ = _
    rw [B64.rnd_eq 5329703701030173 (-55) (by norm_num)]
    · norm_num
    all_goals norm_num [a, abs_of_pos]) (B64Sub.sb lib (by norm_num [_root_.abs_le]))
  have R1 : Fl.Rep (b64 lib) (5329703701030173 * 2⁻¹ ^ 55) :=
    ⟨B64Sub.ex lib 5329703701030173 (-55) (by norm_num) (by norm_num) (by norm_num) (by norm_num) (by norm_num), B64Sub.sb lib (by norm_num [_root_.abs_le])⟩
  have m2 : (Fl.of b * Fl.of b : Fl (b64 lib)) = .of (7674773329483450 * 2⁻¹ ^ 53) := Fl.mul_of (by
    change B64.rnd _ = _
    rw [B64.rnd_eq 7674773329483450 (-53) (by norm_num)]
    · norm_num
    all_goals norm_num [b, abs_of_pos]) (B64Sub.sb lib (by norm_num [_root_.abs_le]))
  have s : (Fl.of (5329703701030173 * 2⁻¹ ^ 55) + Fl.of (7674773329483450 * 2⁻¹ ^ 53) : Fl (b64 lib)) = .of (1 + 2⁻¹ ^ 52) := Fl.add_of (by
    change B64.rnd _ = _
    rw [B64.rnd_eq (2 ^ 52 + 1) (-52) (by norm_num)]
    · norm_num
    all_goals norm_num [abs_of_pos]) (B64Sub.sb lib (by norm_num [_root_.abs_le]))
  change (.of a * .of a + .of 0 * .of 0 + .of b * .of b : Fl (b64 lib)) = _
  rw [m1, m2, Fl.mul_zero_of, Fl.add_zero_of R1, s]

theorem not_zero : ¬ isZeroV ((⟨.of a, 0, .of b⟩ : V3 (Fl (b64 lib))) - V3.smul ((⟨.of a, 0, .of b⟩ : V3 (Fl (b64 lib))).dot ⟨.of a, 0, .of b⟩) ⟨.of a, 0, .of b⟩) := by
  rw [dot_rounded]
  rintro ⟨h, -, -⟩
  have m1 : (Fl.of (1 + 2⁻¹ ^ 52) * Fl.of a : Fl (b64 lib)) = .of (6928614811339227 * 2⁻¹ ^ 54) := Fl.mul_of (by
    change B64.rnd _ = _
    rw [B64.rnd_eq 6928614811339227 (-54) (by norm_num)]
    · norm_num
    all_goals norm_num [a, abs_of_pos]) (B64Sub.sb lib (by norm_num [_root_.abs_le]))
  have s : (Fl.of a - Fl.of (6928614811339227 * 2⁻¹ ^ 54) : Fl (b64 lib)) = .of (-(2⁻¹ ^ 53)) :=
    Fl.sub_of (B64Sub.ex lib (-(2 ^ 52)) (-105) (by norm_num) (by norm_num) (by norm_num) (by norm_num [a]) (by norm_num)) (B64Sub.sb lib (by norm_num [_root_.abs_le]))
  change feq (.of a - .of (1 + 2⁻¹ ^ 52) * .of a : Fl (b64 lib)) (.of 0) at h
  rw [m1, s] at h
  have := (XReal.feq_fin _ _).1 h
  norm_num at this

end B64Wrist

/-- C83 is false: the check that the fourth offset is along the axis of joint 4 compares with exactly zero.  An arm with a tilted forearm satisfies the
condition, but once its axis and offset are stored in binary64 the call raises AssertionError for every pose. -/
theorem C83_robot6_false (lib : Libm) :
    Spec.WristArm B64Wrist.arm V3.ez V3.ey V3.ey ⟨5 / 13, 0, 12 / 13⟩ V3.ey ⟨5 / 13, 0, 12 / 13⟩ V3.ez 0 V3.ez V3.ex ⟨5 / 13, 0, 12 / 13⟩ 0 V3.ex ∧
    (⟨5 / 13, 0, 12 / 13⟩ : V3 ℝ) = ((⟨5 / 13, 0, 12 / 13⟩ : V3 ℝ).dot ⟨5 / 13, 0, 12 / 13⟩) • ⟨5 / 13, 0, 12 / 13⟩ ∧
    Spec.RobotNear (B64Wrist.stored lib) B64Wrist.arm ∧
    ∀ T' last, (robot6_sphericalwrist_invkin (B64Wrist.stored lib) T' last).2 = .error .assertion := by
  refine ⟨B64Wrist.arm_wrist, by ext <;> norm_num [V3.dot], B64Wrist.stored_near lib, fun T' last => ?_⟩
  have h1 : ¬ isZeroV (⟨.of B64Wrist.a, 0, .of B64Wrist.b⟩ : V3 (Fl (b64 lib))) := by
    rintro ⟨h, -, -⟩
    have : B64Wrist.a = 0 := (XReal.feq_fin _ _).1 h
    norm_num [B64Wrist.a] at this
  have hm : moveColumn (B64Wrist.stored lib).H (B64Wrist.stored lib).P 4 3 3 = ((B64Wrist.stored lib).P, .error .assertion) := by
    simp only [moveColumn, B64Wrist.stored, List.getElem?_cons_succ, List.getElem?_cons_zero, if_neg h1, if_neg (B64Wrist.not_zero lib)]
  simp only [robot6_sphericalwrist_invkin, fixWrist, hm]
  rfl

/-! ## A concrete arm -/

namespace B64Wrist

/-- An arm with links of half a metre. -/
noncomputable def half : Robot ℝ :=
  { H := [V3.ez, V3.ey, V3.ey, V3.ex, V3.ey, V3.ex], P := [⟨0, 0, 1 / 2⟩, 0, ⟨0, 0, 1 / 2⟩, ⟨1 / 2, 0, 0⟩, 0, 0, ⟨1 / 2, 0, 0⟩],
    jointType := [0, 0, 0, 0, 0, 0], lower := none, upper := none }

theorem half_wrist : Spec.WristArm half V3.ez V3.ey V3.ey V3.ex V3.ey V3.ex ⟨0, 0, 1 / 2⟩ 0 ⟨0, 0, 1 / 2⟩ ⟨1 / 2, 0, 0⟩ 0 0 ⟨1 / 2, 0, 0⟩ where
  types := rfl
  axes := rfl
  links := rfl
  unit0 := by simp [IsUnit3]
  unit3 := by simp [IsUnit3]
  unit4 := by simp [IsUnit3]
  unit5 := by simp [IsUnit3]
  par1 := .inl rfl
  par2 := .inl rfl
  perp34 := by simp [V3.dot]
  perp45 := by simp [V3.dot]
  first := ⟨1 / 2, by ext <;> simp⟩
  level := by simp [V3.dot]
  base := by intro B h; cases h
  flange := by intro B h; cases h
  tool := by intro B h; cases h

/-- Forearm level, hand pointing along y: all margins are at least 1/4. -/
theorem half_margin : Spec.WristMargin V3.ez V3.ey V3.ey V3.ex V3.ey V3.ex 0 ⟨0, 0, 1 / 2⟩ (⟨1 / 2, 0, 0⟩ + 0) 0 0 (Real.pi / 2) (1 / 4) where
  shoulder := by simp [rot, V3.dot]; norm_num
  elbow := by simp [rot, V3.dot]; norm_num [abs_of_pos, abs_mul]
  radius := by rw [V3.norm_eq]; apply Real.le_sqrt_of_sq_le; simp [rot, V3.dot]; norm_num
  wrist := by simp [rot, V3.dot]; norm_num

theorem half_apart {δ : ℝ} (h0 : 0 ≤ δ) (h1 : δ ≤ 1 / 5) :
    Spec.WristApart V3.ey V3.ey V3.ex V3.ey V3.ex ⟨0, 0, 1 / 2⟩ (⟨1 / 2, 0, 0⟩ + 0) 0 0 (Real.pi / 2) (Real.pi / 2) 0 δ where
  joint2 := .inl (by simp only [rot_zero, M3.one_mulVec])
  joint3 := by
    right
    have n : Real.sqrt (2⁻¹ * 2⁻¹) = 2⁻¹ := Real.sqrt_mul_self (by norm_num)
    have e1 : Spec.dir (⟨1 / 2, 0, 0⟩ + 0 : V3 ℝ) V3.ey = V3.ex := by
      simp [Spec.dir, V3.perp, V3.dot, V3.norm_eq, n]; ext <;> simp
    have e2 : Spec.dir (⟨0, 0, 1 / 2⟩ : V3 ℝ) V3.ey = V3.ez := by
      simp [Spec.dir, V3.perp, V3.dot, V3.norm_eq, n]; ext <;> simp
    rw [e1, e2, V3.norm_eq]
    apply Real.le_sqrt_of_sq_le
    simp [V3.dot]; nlinarith
  joint4 := by
    right
    rw [← M3.mulVec_mulVec, V3.norm_eq]
    apply Real.le_sqrt_of_sq_le
    simp [rot, V3.dot]; nlinarith
  joint5 := by
    right
    rw [V3.norm_eq]
    apply Real.le_sqrt_of_sq_le
    simp [rot, V3.dot]; nlinarith
  joint6 := .inl (by rw [rot_zero, M3.one_mulVec])

end B64Wrist

/-- The arm stored exactly: all its numbers are representable. -/
noncomputable def B64Wrist.half' (F : FSys) : Robot (Fl F) :=
  { H := B64Wrist.half.H.map (V3.map Fl.of), P := B64Wrist.half.P.map (V3.map Fl.of), jointType := [0, 0, 0, 0, 0, 0], lower := none, upper := none }

theorem B64Wrist.half_near (F : FSys) : Spec.RobotNear (B64Wrist.half' F) B64Wrist.half where
  types := rfl
  axes := by
    have e : ∀ v : V3 ℝ, IsUnit3 v → IsUnit3 v ∧ Spec.VNear (F := F) (v.map Fl.of) v F.u := fun v h => ⟨h, Fl.vNear_self v F.u_nonneg⟩
    exact .cons (e V3.ez (by simp [IsUnit3])) (.cons (e V3.ey (by simp [IsUnit3])) (.cons (e V3.ey (by simp [IsUnit3])) (.cons (e V3.ex (by simp [IsUnit3]))
      (.cons (e V3.ey (by simp [IsUnit3])) (.cons (e V3.ex (by simp [IsUnit3])) .nil)))))
  links := by
    have e : ∀ v : V3 ℝ, Spec.VNear (F := F) (v.map Fl.of) v (F.u * v.norm) := fun v => Fl.vNear_self v (mul_nonneg F.u_nonneg (V3.norm_nonneg _))
    exact .cons (e _) (.cons (e _) (.cons (e _) (.cons (e _) (.cons (e _) (.cons (e _) (.cons (e _) .nil))))))
  flange := .none
  base := .none
  toolR := .none
  toolp := .none

/-- C83 for the concrete arm: a pose known up to 1e-12, computed in binary64 with a correctly rounded library. -/
example : ∃ T, fwdkin B64Wrist.half [0, 0, 0, Real.pi / 2, Real.pi / 2, 0] true = .ok T ∧ ∀ (T' : Transform (Fl (b64 Libm.rounded))),
    Spec.MNear T'.R T.R (1 / 1000000000000) → Spec.VNear T'.p T.p (1 / 1000000000000) → ∀ sols,
    (robot6_sphericalwrist_invkin (B64Wrist.half' _) T' none).2 = .ok sols →
    ∃ x1 x2 x3 x4 x5 x6, [x1, x2, x3, x4, x5, x6] ∈ sols ∧ Spec.AngNear x1 0 (1 / 100) ∧ Spec.AngNear x2 0 (1 / 100) ∧ Spec.AngNear x3 0 (1 / 100) ∧
      Spec.AngNear x4 (Real.pi / 2) (1 / 100) ∧ Spec.AngNear x5 (Real.pi / 2) (1 / 100) ∧ Spec.AngNear x6 0 (1 / 100) := by
  have hT := fwdkin_chain6 B64Wrist.half_wrist.types B64Wrist.half_wrist.axes B64Wrist.half_wrist.links 0 0 0 (Real.pi / 2) (Real.pi / 2) 0
  refine ⟨_, hT, fun T' hR hp sols h => ?_⟩
  have z : ∀ h : V3 ℝ, (0 : V3 ℝ) = ((0 : V3 ℝ).dot h) • h := by intro h; ext <;> simp [V3.dot]
  have nz : (⟨0, 0, 1 / 2⟩ : V3 ℝ).norm ≤ 1 / 2 := by rw [V3.norm_eq]; exact Real.sqrt_le_iff.2 ⟨by norm_num, by norm_num [V3.dot]⟩
  have nx : (⟨1 / 2, 0, 0⟩ : V3 ℝ).norm ≤ 1 / 2 := by rw [V3.norm_eq]; exact Real.sqrt_le_iff.2 ⟨by norm_num, by norm_num [V3.dot]⟩
  refine C83_robot6_rounding_partial invAcc_rounded B64Wrist.half_wrist (z _) (z _) (by rw [V3.norm_zero]; linarith) (by rw [V3.norm_zero]; linarith) _
    (B64Wrist.half_near _) (.inl rfl) 0 0 0 (Real.pi / 2) (Real.pi / 2) 0 _ hT T' _ hR hp 2 (by norm_num) ?_ ?_ ?_ ?_ (b64_eta _) (1 / 4) 0 (1 / 100) (by norm_num)
    B64Wrist.half_margin (.inr ⟨le_rfl, B64Wrist.half_apart (by norm_num) (by norm_num)⟩) ?_ (by norm_num) sols h
  · simp only [rot_zero, M3.one_mulVec]
    rw [show Spec.auxLength B64Wrist.half = 0 by simp [Spec.auxLength, B64Wrist.half], add_zero, V3.norm_eq]
    refine Real.sqrt_le_iff.2 ⟨by norm_num, ?_⟩
    simp [applyAux, B64Wrist.half, rot, V3.dot]
    norm_num
  · have := (b64 Libm.rounded).big_ge; linarith
  · rw [b64_u]; positivity
  · rw [b64_u]; norm_num
  · rw [b64_u]; norm_num
