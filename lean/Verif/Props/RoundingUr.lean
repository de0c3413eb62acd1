import Verif.Lemmas.FlUr
import Verif.Props.RoundingIkAll
import Verif.Props.Ur

/-!
# C84: `ur_invkin` in floating point returns all solutions and only solutions

For arms with the exact UR axes, away from the singularities.
-/
set_option autoImplicit false

/-- Every angle `q1` of joint 1, `q24` of the three parallel joints together, and `q5`, `q6` of the last two joints that turn the hand as `R` asks and bring
the wrist centre `c` to its height along y has margins at the shoulder and at the wrist, and what is left to span for upper arm and forearm, `g`, is at a
distance the elbow can produce, or out of reach by a margin. -/
def Spec.UrDecided (k P0 P1 P2 P3 P4 : V3 ℝ) (R : M3 ℝ) (c : V3 ℝ) (m : ℝ) : Prop :=
  ∀ q1 q24 q5 q6 g, R = rot V3.ez q1 * rot k q24 * rot (-V3.ez) q5 * rot k q6 → c = P0 + (rot V3.ez q1).mulVec (P1 + (g + (rot k q24).mulVec P4)) →
    V3.ey.dot g = V3.ey.dot (P2 + P3) →
    m ≤ |V3.ey.dot (V3.ez.cross (P1 + (g + (rot k q24).mulVec P4)))| ∧ m ≤ |Real.sin q5| ∧
    ((∃ q3, (P2 + (rot k q3).mulVec P3).norm = g.norm) ∨
      ((k.cross P2).norm + (k.cross P3).norm) ^ 2 + m ^ 2 ≤ (k.cross g).norm ^ 2 ∨
      (k.cross g).norm ^ 2 + m ^ 2 ≤ ((k.cross P2).norm - (k.cross P3).norm) ^ 2)

/-- The elbow is not stretched and the wrist centre is not on the axis of joint 2, by margins. -/
structure Spec.UrMargin (k P2 P3 : V3 ℝ) (q3 m : ℝ) : Prop where
  elbow : m ≤ |P2.dot (k.cross ((rot k q3).mulVec P3))|
  radius : m ≤ (k.cross (P2 + (rot k q3).mulVec P3)).norm

/-- The errors of the angles of `ur_invkin`, from the outermost loop to the innermost. -/
theorem Fl.ur_budget {B W u e m δ ev er : ℝ} (hm0 : 0 < m) (hm1 : m ≤ 1) (B0 : 0 ≤ B) (u0 : 0 ≤ u) (he0 : 0 ≤ e) (er0 : 0 ≤ er) (her : er ≤ ev)
    (hW : ev + 12900 * u + e ≤ W) (hδ : 160 * B / m ^ 3 + 45000 * W / m ^ 5 ≤ δ) (hδ1 : δ ≤ 1 / 5) :
    ∃ a1 e4 a4 e26 a3 a2 f, 150 * (ev + 950 * u) ≤ m ^ 2 ∧ 17 * (ev + 950 * u) / m + e ≤ a1 ∧ a1 ≤ 1 / 40 ∧ a1 + 17 / 16 * er + 300 * u ≤ e4 ∧
      60 * e4 + 300000 * u ≤ m ^ 2 ∧ (B + (14 * e4 + 710000 * u) / m) / m ≤ a4 ∧ a4 ≤ 1 / 40 ∧ ev + 2 * a1 + 21 / 10 * a4 + 1500 * u ≤ e26 ∧
      2600000 * u + 330 * e26 ≤ m ^ 2 ∧ B + (77 / 10 * e26 + 3300000 * u) / m + e ≤ a3 ∧ a3 ≤ 1 / 17 ∧ 4 * a3 + 1000 * u ≤ m ∧
      4 * a1 + 17 / 8 * e26 + 1000 * u ≤ m ∧ 280000 * u ≤ m ∧ (B + 315 / 100 * (2 * a3 + 2 * a1 + 17 / 16 * e26) + 704000 * u) / m + e ≤ a2 ∧
      a1 + 17 / 8 * a4 + 17 / 16 * er + 1100 * u ≤ f ∧ f ≤ 1 / 16 ∧
      a1 ≤ δ ∧ a2 ≤ δ ∧ a3 ≤ δ ∧ a4 + a2 + a3 + 602 * u + e ≤ δ ∧ a4 ≤ δ ∧ B + 315 / 100 * (u + f) + 700000 * u + e ≤ δ := by
  have W0 : 0 ≤ W := by linarith
  have x5 : W / m ^ 5 * m = W / m ^ 4 := by field_simp
  have x4 : W / m ^ 4 * m = W / m ^ 3 := by field_simp
  have x3 : W / m ^ 3 * m = W / m ^ 2 := by field_simp
  have x2 : W / m ^ 2 * m = W / m := by field_simp
  have x1 : W / m * m = W := by field_simp
  have b3 : B / m ^ 3 * m = B / m ^ 2 := by field_simp
  have b2 : B / m ^ 2 * m = B / m := by field_simp
  have b1 : B / m * m = B := by field_simp
  have v1 : u / m * m = u := by field_simp
  rw [mul_div_assoc, mul_div_assoc] at hδ
  have X5 : 0 ≤ W / m ^ 5 := by positivity
  have X4 : 0 ≤ W / m ^ 4 := by positivity
  have X3 : 0 ≤ W / m ^ 3 := by positivity
  have X2 : 0 ≤ W / m ^ 2 := by positivity
  have X1 : 0 ≤ W / m := by positivity
  have B3 : 0 ≤ B / m ^ 3 := by positivity
  have B2 : 0 ≤ B / m ^ 2 := by positivity
  have B1 : 0 ≤ B / m := by positivity
  have V1 : 0 ≤ u / m := by positivity
  have key : ∀ {x y : ℝ}, 0 ≤ x → x * m = y → y ≤ x := by
    intro x y hx h
    rw [← h]
    exact mul_le_of_le_one_right hx hm1
  have l5 := key X5 x5
  have l4 := key X4 x4
  have l3 := key X3 x3
  have l2 := key X2 x2
  have l1 := key X1 x1
  have c3 := key B3 b3
  have c2 := key B2 b2
  have c1 := key B1 b1
  have d1 := key V1 v1
  have q1 : 160 * (B / m ^ 2) + 45000 * (W / m ^ 4) ≤ 1 / 5 * m := by
    rw [← b3, ← x5]
    nlinarith
  have q2 : 160 * (B / m) + 45000 * (W / m ^ 3) ≤ 1 / 5 * m ^ 2 := by
    rw [← b2, ← x4]
    nlinarith
  have uW : 12900 * (u / m) ≤ W / m := by
    rw [← mul_div_assoc]
    exact div_le_div_of_nonneg_right (by linarith) hm0.le
  have msq : m ^ 2 ≤ 1 := pow_le_one₀ hm0.le hm1
  have em : e * m ≤ e := mul_le_of_le_one_right he0 hm1
  generalize W / m ^ 5 = Y5 at *
  generalize W / m ^ 4 = Y4 at *
  generalize W / m ^ 3 = Y3 at *
  generalize W / m ^ 2 = Y2 at *
  generalize W / m = Y1 at *
  generalize B / m ^ 3 = D3 at *
  generalize B / m ^ 2 = D2 at *
  generalize B / m = D1 at *
  generalize u / m = U1 at *
  refine ⟨17 * (Y1 - 11950 * U1), 181 / 10 * Y1 - 51000 * u, D1 + 254 * Y3, 21 / 10 * D1 + 569 * Y3 - 404000 * u, B + 162 / 10 * D2 + 4410 * Y4,
    117 * D3 + 29900 * Y5, 22 / 10 * D1 + 570 * Y3, by linarith, ?_, by linarith, by linarith, by linarith, ?_, by linarith, by linarith, by linarith, ?_,
    by linarith, by linarith, by linarith, by linarith, ?_, by linarith, by linarith, by linarith, by linarith, by linarith, by linarith, by linarith, by linarith⟩
  · rw [← le_sub_iff_add_le, div_le_iff₀ hm0]; linarith
  · have : (14 * (181 / 10 * Y1 - 51000 * u) + 710000 * u) / m ≤ 254 * Y2 := by rw [div_le_iff₀ hm0]; linarith
    rw [div_le_iff₀ hm0]; linarith
  · have : (77 / 10 * (21 / 10 * D1 + 569 * Y3 - 404000 * u) + 3300000 * u) / m ≤ 162 / 10 * D2 + 4400 * Y4 := by rw [div_le_iff₀ hm0]; linarith
    linarith
  · rw [← le_sub_iff_add_le, div_le_iff₀ hm0]; linarith

section
variable {F : FSys} {r : Robot ℝ} {k P0 P1 P2 P3 P4 P5 P6 : V3 ℝ}

theorem Spec.UrChain.pose_rot (hr : Spec.UrChain r k P0 P1 P2 P3 P4 P5 P6) {q1 q2 q3 q4 q5 q6 : ℝ} {T : Transform ℝ}
    (hT : fwdkin r [q1, q2, q3, q4, q5, q6] true = .ok T) : IsRot T.R := by
  obtain ⟨hB, hF, hX⟩ := hr.aux
  have uk := pm_unit hr.par
  rw [fwdkin_chain6 hr.types hr.axes hr.links] at hT
  cases hT
  rw [applyAux_R]
  exact hB.mul (((((((rot_isRot _ ez_unit q1).mul (rot_isRot _ uk q2)).mul (rot_isRot _ uk q3)).mul
    ((rot_isRot _ uk q4).mul (rot_isRot _ nez_unit q5))).mul (rot_isRot _ uk q6)).mul hF).mul hX)

/-- the position of the wrist centre, with the offset of the hand apart -/
theorem ur_apart (hk : IsUnit3 k) (q2 q3 q4 : ℝ) : (rot k q2).mulVec (P2 + (rot k q3).mulVec (P3 + (rot k q4).mulVec P4)) =
    (rot k q2).mulVec (P2 + (rot k q3).mulVec P3) + (rot k (q2 + q3 + q4)).mulVec P4 := by
  rw [← rot_add3 hk, M3.mul_assoc', ← M3.mulVec_mulVec, ← M3.mulVec_mulVec, M3.mulVec_add (rot k q3), ← M3.mulVec_add (rot k q2)]
  congr 1
  ext <;> simp <;> ring

/-- joint values that place the wrist centre and turn the hand as the pose asks reach the pose -/
theorem urArm_reach (hr : Spec.UrChain r k P0 P1 P2 P3 P4 P5 P6) {p : List ℝ} {p1 p2 p3 p4 p5 p6 : ℝ} {T : Transform ℝ} (hp : p = [p1, p2, p3, p4, p5, p6])
    (hT : fwdkin r p true = .ok T) {q1 q2 q3 q4 q5 q6 : ℝ} (eR : (unapplyAux r T).R = rot V3.ez q1 * rot k (q2 + q3 + q4) * rot (-V3.ez) q5 * rot k q6)
    (ep : Spec.wristCentre r P5 P6 T = P0 + (rot V3.ez q1).mulVec (P1 + ((rot k q2).mulVec (P2 + (rot k q3).mulVec P3) + (rot k (q2 + q3 + q4)).mulVec P4))) :
    fwdkin r [q1, q2, q3, q4, q5, q6] true = .ok T := by
  subst hp
  rw [← ur_apart (pm_unit hr.par)] at ep
  obtain ⟨hB, hF, hX⟩ := hr.aux
  have hT' := fwdkin_chain6 hr.types hr.axes hr.links q1 q2 q3 q4 q5 q6
  obtain ⟨eR', ep'⟩ := urArm_pose hr hT'
  have h0 := fwdkin_chain6 hr.types hr.axes hr.links p1 p2 p3 p4 p5 p6
  rw [hT']
  rw [h0, Except.ok.injEq] at hT
  generalize hC : (⟨_, _, none, none⟩ : Transform ℝ) = C at hT
  have en : C.parent = none ∧ C.child = none := by rw [← hC]; exact ⟨rfl, rfl⟩
  clear hC h0
  subst hT
  rw [unapply_apply_R hB hF hX] at eR
  rw [Spec.wristCentre, unapply_apply_R hB hF hX, unapply_apply_p hB hF hX] at ep
  rw [unapply_apply_R hB hF hX, unapply_apply_p hB hF hX] at ep'
  rw [unapply_apply_R hB hF hX] at eR'
  obtain ⟨R, x, a, b⟩ := C
  obtain ⟨rfl, rfl⟩ := en
  simp only at eR ep ep' eR'
  rw [← eR] at eR'
  rw [eR'] at ep' ⊢
  generalize P0 + (rot _ q1).mulVec (P1 + (rot k q2).mulVec (P2 + (rot k q3).mulVec (P3 + (rot k q4).mulVec (P4 + (rot (-V3.ez) q5).mulVec
        (P5 + (rot k q6).mulVec P6))))) = y at *
  have : y = x := by
    rw [← ep] at ep'
    rw [V3.ext_iff] at ep' ⊢
    simpa using ep'
  rw [this]

/-- the axis check accepts the exact axes -/
theorem ur_axes_fl (s : k = V3.ey ∨ k = -V3.ey) : ∃ a, allcloseCols urAxesNeg ([V3.ez, k, k, k, -V3.ez, k].map (V3.map (Fl.of (F := F)))) = .ok a ∧
    (a = true ∨ allcloseCols urAxesPos ([V3.ez, k, k, k, -V3.ez, k].map (V3.map (Fl.of (F := F)))) = .ok true) := by
  have self : ∀ x : ℝ, iscloseD (Fl.of x : Fl F) (Fl.of x) := fun x => .inl ((XReal.feq_fin x x).2 rfl)
  have hall : ∀ l : List (V3 ℝ), allcloseCols (l.map (V3.map (Fl.of (F := F)))) (l.map (V3.map Fl.of)) = .ok true := by
    intro l
    simp only [allcloseCols, bcast, if_true, Except.bind_ok, Except.pure_eq]
    congr 1
    rw [List.all_eq_true]
    rintro ⟨a, b⟩ hab
    obtain ⟨n, h1, h2⟩ := List.getElem_of_mem hab
    rw [List.getElem_zip] at h2
    cases h2
    rw [List.getElem_map]
    exact decide_eq_true ⟨self _, self _, self _⟩
  have z0 : (-(0 : Fl F)) = Fl.of 0 := by change (⟨-XReal.fin 0⟩ : Fl F) = _; rw [show -XReal.fin 0 = XReal.fin (-0) from rfl, neg_zero]; rfl
  have z1 : (-(1 : Fl F)) = Fl.of (-1) := rfl
  have ny : (-V3.ey : V3 (Fl F)) = (-V3.ey : V3 ℝ).map Fl.of := by
    ext
    · change -(0 : Fl F) = Fl.of (-0); rw [z0, neg_zero]
    · rfl
    · change -(0 : Fl F) = Fl.of (-0); rw [z0, neg_zero]
  have nz : (-V3.ez : V3 (Fl F)) = (-V3.ez : V3 ℝ).map Fl.of := by
    ext
    · change -(0 : Fl F) = Fl.of (-0); rw [z0, neg_zero]
    · change -(0 : Fl F) = Fl.of (-0); rw [z0, neg_zero]
    · rfl
  rcases s with rfl | rfl
  · refine ⟨_, rfl, .inr ?_⟩
    have : (urAxesPos : List (V3 (Fl F))) = [V3.ez, V3.ey, V3.ey, V3.ey, -V3.ez, V3.ey].map (V3.map Fl.of) := by
      rw [urAxesPos, nz]; rfl
    rw [this]
    exact hall _
  · refine ⟨true, ?_, .inl rfl⟩
    have : (urAxesNeg : List (V3 (Fl F))) = [V3.ez, -V3.ey, -V3.ey, -V3.ey, -V3.ez, -V3.ey].map (V3.map Fl.of) := by
      rw [urAxesNeg, nz, ny]; rfl
    rw [this]
    exact hall _

/-- every solution solves the equations of the search -/
theorem ur_solve (hr : Spec.UrChain r k P0 P1 P2 P3 P4 P5 P6) {q1 q2 q3 q4 q5 q6 : ℝ} {T : Transform ℝ} (hT : fwdkin r [q1, q2, q3, q4, q5, q6] true = .ok T) :
    (unapplyAux r T).R = rot V3.ez q1 * rot k (q2 + q3 + q4) * rot (-V3.ez) q5 * rot k q6 ∧ Spec.wristCentre r P5 P6 T =
      P0 + (rot V3.ez q1).mulVec (P1 + ((rot k q2).mulVec (P2 + (rot k q3).mulVec P3) + (rot k (q2 + q3 + q4)).mulVec P4)) := by
  obtain ⟨eR, ep⟩ := urArm_pose hr hT
  rw [← ur_apart (pm_unit hr.par)]
  exact ⟨eR, ep⟩

theorem ur_level (s : k = V3.ey ∨ k = -V3.ey) (q2 q3 : ℝ) : V3.ey.dot ((rot k q2).mulVec (P2 + (rot k q3).mulVec P3)) = V3.ey.dot (P2 + P3) := by
  rcases s with rfl | rfl <;> simp [rot, V3.dot]

/-- with the exact axes, the call runs the search and sorts -/
theorem ur_invkin_search {r' : Robot (Fl F)} (s : k = V3.ey ∨ k = -V3.ey) {last : Option (List (Fl F))}
    (hH' : r'.H = [V3.ez, k, k, k, -V3.ez, k].map (V3.map Fl.of)) {T' : Transform (Fl F)} {rows : List (List (Fl F))}
    (h : urSearch ([V3.ez, k, k, k, -V3.ez, k].map (V3.map Fl.of)) r'.P (Normalizer.ofRobot r' last) (unapplyAux r' T').R (unapplyAux r' T').p = .ok rows) :
    ur_invkin r' T' last = sortByLast rows last := by
  obtain ⟨a, ha, ha'⟩ := ur_axes_fl (F := F) s
  unfold ur_invkin
  rw [hH', ha, Except.bind_ok]
  rcases ha' with rfl | e
  · rw [if_pos rfl, Except.pure_eq, Except.bind_ok, h]
    rfl
  · rw [e]
    cases a <;> simp only [if_true, Except.pure_eq, Except.bind_ok, pyAssert, h, Bool.false_eq_true, if_false]

/-- `ur_invkin` for a normalizer that keeps angles up to `e`: it returns near solutions only, and a row for every solution the normalizer follows. -/
theorem ur_run (hF : Spec.InvAcc F) (hE : Spec.ExactRnd F) (hr : Spec.UrChain r k P0 P1 P2 P3 P4 P5 P6)
    (hl : P0.norm + P1.norm + P2.norm + P3.norm + P4.norm ≤ 19 / 10) (hl6 : P6.norm + P5.norm ≤ 1)
    (r' : Robot (Fl F)) (hr' : Spec.RobotNear r' r) {last : Option (List (Fl F))} {S V e : ℝ} (hN : Fl.Keeps (Normalizer.ofRobot r' last) S e)
    (hB : Fl.Bounded (Normalizer.ofRobot r' last) (13 / 2) V) (hSV : 2 * V + 33 / 10 ≤ S) (hS8 : 8 ≤ S) (hS : S ≤ 300) (hH' : r'.H = r.H.map (V3.map Fl.of))
    (T : Transform ℝ) (q1 q2 q3 q4 q5 q6 : ℝ) (hT : fwdkin r [q1, q2, q3, q4, q5, q6] true = .ok T)
    (T' : Transform (Fl F)) (ε : ℝ) (hR' : Spec.MNear T'.R T.R ε) (hp' : Spec.VNear T'.p T.p ε)
    (L : ℝ) (hL : 1 ≤ L) (hlen : T.p.norm + Spec.auxLength r ≤ L) (hbig : 5 * L ≤ F.big)
    (hu0 : 0 < F.u) (hu : F.u ≤ 1 / 100000000000) (hη : 16 * F.η ≤ F.u ^ 3) (m δ : ℝ) (hm : 1 / 1000000 ≤ m)
    (hmargin : ∀ q1 q2 q3 q4 q5 q6, fwdkin r [q1, q2, q3, q4, q5, q6] true = .ok T → Spec.UrMargin k P2 P3 q3 m)
    (hdec : Spec.UrDecided k P0 P1 P2 P3 P4 (unapplyAux r T).R (Spec.wristCentre r P5 P6 T) m)
    (hδ : 160 / (33554432 * m ^ 3) + (200000 * ε + 45000 * e + 610000000 * F.u) * L / m ^ 5 ≤ δ) (hδ1 : δ ≤ 1 / 5) :
    ∃ rows, ur_invkin r' T' last = sortByLast rows last ∧
      (∀ row ∈ rows, ∃ p1 p2 p3 p4 p5 p6, fwdkin r [p1, p2, p3, p4, p5, p6] true = .ok T ∧ Spec.RowNear row [p1, p2, p3, p4, p5, p6] δ) ∧
      ∀ {q : ℕ → ℝ} {A : ℕ → Fl F → ℝ → Prop} {W : ℕ → ℝ}, Fl.UrFollows (Normalizer.ofRobot r' last) q A W δ e → fwdkin r [q 0, q 1, q 2, q 3, q 4, q 5] true = .ok T →
        ∃ x1 x2 x3 x4 x5 x6, [x1, x2, x3, x4, x5, x6] ∈ rows ∧ A 0 x1 δ ∧ A 1 x2 δ ∧ A 2 x3 δ ∧ A 3 x4 δ ∧ Spec.AngNear x5 (q 4) δ ∧ Fl.Sz (16 / 5) x5 ∧ A 5 x6 δ := by
  have m0 : 0 < m := by linarith
  have e0 := hN.nonneg
  have uk := pm_unit hr.par
  have hδ' : 160 * (1 / 33554432) / m ^ 3 + (200000 * ε + 45000 * e + 610000000 * F.u) * L / m ^ 5 ≤ δ := by
    rwa [mul_one_div, div_div]
  have ε0 : 0 ≤ ε := by
    obtain ⟨w, -, h⟩ := hp'
    exact (V3.norm_nonneg _).trans h
  obtain ⟨eR, ep⟩ := ur_solve hr hT
  have m1 : m ≤ 1 := (hdec _ _ _ _ _ eR ep (ur_level hr.par _ _)).2.1.trans (Real.abs_sin_le_one q5)
  have εL : ε ≤ ε * L := le_mul_of_one_le_right ε0 hL
  have eL : e ≤ e * L := le_mul_of_one_le_right e0 hL
  have uL : F.u ≤ F.u * L := le_mul_of_one_le_right hu0.le hL
  have hεs : ε ≤ 1 / 100 := by
    have t1 : 0 ≤ 160 * (1 / 33554432) / m ^ 3 := by positivity
    have t2 : (200000 * ε + 45000 * e + 610000000 * F.u) * L ≤ (200000 * ε + 45000 * e + 610000000 * F.u) * L / m ^ 5 :=
      le_div_self (by positivity) (by positivity) (pow_le_one₀ m0.le m1)
    have t3 : (200000 * ε + 45000 * e + 610000000 * F.u) * L ≤ 1 / 5 := by linarith
    have t4 : 0 ≤ F.u * L := by linarith
    linarith
  -- base, flange and tool
  have lX : Fl.optLen (toolT r.Rtool r.ptool) ≤ (r.ptool.map V3.norm).getD 0 := by
    cases r.Rtool <;> cases r.ptool <;> simp [Fl.optLen, toolT, V3.norm_nonneg]
  have hlen' : T.p.norm + Fl.optLen r.Tflange + Fl.optLen (toolT r.Rtool r.ptool) + Fl.optLen r.Tbase ≤ L := by
    rw [Spec.auxLength] at hlen
    change T.p.norm + (r.Tflange.map (·.p.norm)).getD 0 + _ + (r.Tbase.map (·.p.norm)).getD 0 ≤ L
    linarith
  obtain ⟨gR, gp⟩ := Fl.unapply_near hr'.flange hr'.base hr'.tool (hr.pose_rot hT) hR' hp' hlen' hL hbig hu0 hu hεs
  -- the stored arm
  have nl := hr'.links
  rw [hr.links] at nl
  have hrun := fun rows => ur_invkin_search (rows := rows) (T' := T') (last := last) hr.par (hH'.trans (by rw [hr.axes]))
  generalize unapplyAux r' T' = U' at *
  generalize r'.P = L' at *
  obtain _ | ⟨p0, _ | ⟨p1, _ | ⟨p2, _ | ⟨p3, _ | ⟨p4, _ | ⟨p5, _ | ⟨p6, _ | _⟩⟩⟩⟩⟩⟩⟩ := nl
  have i0 := P0.norm_nonneg
  have i1 := P1.norm_nonneg
  have i2 := P2.norm_nonneg
  have i3 := P3.norm_nonneg
  have i4 := P4.norm_nonneg
  have i5 := P5.norm_nonneg
  have i6 := P6.norm_nonneg
  rename_i Q0 Q1 Q2 Q3 Q4 Q5 Q6
  -- the errors
  obtain ⟨a1, e4, a4, e26, a3, a2, f, b1, b2, b3, b4, b5, b6, b7, b8, b9, b10, b11, b12, b13, b14, b15, b16, b17, d1, d2, d3, d4, d5, d6⟩ :=
    Fl.ur_budget (B := 1 / 33554432) (W := 17 / 4 * (ε * L) + 13500 * (F.u * L) + e * L) (u := F.u) (e := e) (δ := δ) (er := 17 / 16 * ε + 146 * F.u)
      (ev := 17 / 4 * (ε * L) + 540 * (F.u * L)) m0 m1 (by norm_num) hu0.le e0 (by linarith) (by linarith) (by linarith) (by
        refine le_trans (add_le_add_right (div_le_div_of_nonneg_right ?_ (pow_pos m0 5).le) _) hδ'
        have : 0 ≤ ε * L := by linarith
        have : 0 ≤ F.u * L := by linarith
        have : 0 ≤ e * L := by linarith
        linarith) hδ1
  have n0 : Spec.VNear Q0 P0 (16 * F.u) := Fl.VNear.weaken p0 (by linarith)
  have n1 : Spec.VNear Q1 P1 (16 * F.u) := Fl.VNear.weaken p1 (by linarith)
  have n2 : Spec.VNear Q2 P2 (16 * F.u) := Fl.VNear.weaken p2 (by linarith)
  have n3 : Spec.VNear Q3 P3 (16 * F.u) := Fl.VNear.weaken p3 (by linarith)
  have n4 : Spec.VNear Q4 P4 (16 * F.u) := Fl.VNear.weaken p4 (by linarith)
  have n5 : Spec.VNear Q5 P5 (16 * F.u) := Fl.VNear.weaken p5 (by linarith)
  have n6 : Spec.VNear Q6 P6 (16 * F.u) := Fl.VNear.weaken p6 (by linarith)
  obtain ⟨c, hc⟩ := hr.first
  obtain ⟨rows, hrows, hrow, hcol⟩ := Fl.urSearch_run hF hE hN hB hSV hS8 hS hr.par hc hl hl6 eR ep hu0 hu hη (β := 1 / 33554432) le_rfl n0
    n1 n2 n3 n4
    n5 n6 gR gp (m := m)
    (fun q1 q24 q5 q6 g hRb hpb hyb => by
      obtain ⟨x1, x2, x3⟩ := hdec q1 q24 q5 q6 g hRb hpb hyb
      refine ⟨x1, x2, elbow_decided hr.par hr.par hyb x3, fun q2 q3 hg => ?_⟩
      have g := hmargin q1 q2 q3 (q24 - q2 - q3) q5 q6 (urArm_reach hr rfl hT (by rw [show q2 + q3 + (q24 - q2 - q3) = q24 by ring]; exact hRb)
        (by rw [show q2 + q3 + (q24 - q2 - q3) = q24 by ring, ← hg]; exact hpb))
      exact ⟨g.elbow, by rw [V3.perp_norm uk]; exact g.radius⟩)
    hm m1 (ev := 17 / 4 * (ε * L) + 540 * (F.u * L)) (by linarith) b1 b2 b3 b4 b5 b6 b7 b8 b9 b10 b11 b12 b13 b14 b15 d4 b16 b17 d6
  refine ⟨rows, hrun rows hrows, fun row hmem => ?_, fun {q A W} hf h => ?_⟩
  · obtain ⟨x1, x2, x3, x4, x5, x6, b1, b2, b3, b4, b5, b6, rfl, hRb, hb, y1, y2, y3, y4, y5, y6⟩ := hrow row hmem
    exact ⟨_, _, _, _, _, _, urArm_reach hr rfl hT hRb hb, .cons (Fl.AngNear.mono' y1 d1) (.cons (Fl.AngNear.mono' y2 d2) (.cons (Fl.AngNear.mono' y3 d3)
      (.cons y4 (.cons (Fl.AngNear.mono' y5 d5) (.cons y6 .nil)))))⟩
  · obtain ⟨hRb, hb⟩ := ur_solve hr h
    obtain ⟨x1, x2, x3, x4, x5, x6, hmem, y1, y2, y3, y4, y5, z5, y6⟩ := hcol hf hRb hb d1 d2 d3 le_rfl le_rfl
    exact ⟨x1, x2, x3, x4, x5, x6, hmem, hf.mono y1 d1, hf.mono y2 d2, hf.mono y3 d3, y4, Fl.AngNear.mono' y5 d5, z5, y6⟩

/-- **C84.** `ur_invkin` in floating point, for an arm with the axes of the UR robots stored exactly and no joint limits, and a pose `T'` near one the arm
reaches (`T`): if every solution for `T` is away from the singularities by `m` and every candidate for the shoulder, the wrist and the parallel joints is
decided by `m`, then the call returns, every row it returns is near joint values that reach `T` exactly, and near every joint values that reach `T` it
returns a row. -/
theorem C84_ur_rounding (hF : Spec.InvAcc F) (hE : Spec.ExactRnd F) (hr : Spec.UrChain r k P0 P1 P2 P3 P4 P5 P6)
    (hl : P0.norm + P1.norm + P2.norm + P3.norm + P4.norm ≤ 19 / 10) (hl6 : P6.norm + P5.norm ≤ 1)
    (r' : Robot (Fl F)) (hr' : Spec.RobotNear r' r) (hlim : r'.lower = none ∨ r'.upper = none) (hH' : r'.H = r.H.map (V3.map Fl.of))
    (T : Transform ℝ) (q1 q2 q3 q4 q5 q6 : ℝ) (hT : fwdkin r [q1, q2, q3, q4, q5, q6] true = .ok T)
    (T' : Transform (Fl F)) (ε : ℝ) (hR' : Spec.MNear T'.R T.R ε) (hp' : Spec.VNear T'.p T.p ε)
    (L : ℝ) (hL : 1 ≤ L) (hlen : T.p.norm + Spec.auxLength r ≤ L) (hbig : 5 * L ≤ F.big)
    (hu0 : 0 < F.u) (hu : F.u ≤ 1 / 100000000000) (hη : 16 * F.η ≤ F.u ^ 3) (m δ : ℝ) (hm : 1 / 1000000 ≤ m)
    (hmargin : ∀ q1 q2 q3 q4 q5 q6, fwdkin r [q1, q2, q3, q4, q5, q6] true = .ok T → Spec.UrMargin k P2 P3 q3 m)
    (hdec : Spec.UrDecided k P0 P1 P2 P3 P4 (unapplyAux r T).R (Spec.wristCentre r P5 P6 T) m)
    (hδ : 160 / (33554432 * m ^ 3) + (200000 * ε + 610000000 * F.u) * L / m ^ 5 ≤ δ) (hδ1 : δ ≤ 1 / 5) :
    ∃ sols, ur_invkin r' T' = .ok sols ∧
      (∀ row ∈ sols, ∃ q, fwdkin r q true = .ok T ∧ Spec.RowNear row q δ) ∧
      (∀ q1 q2 q3 q4 q5 q6, fwdkin r [q1, q2, q3, q4, q5, q6] true = .ok T → ∃ row ∈ sols, Spec.RowNear row [q1, q2, q3, q4, q5, q6] δ) := by
  have hN : Normalizer.ofRobot r' none = ⟨none, none⟩ := by
    unfold Normalizer.ofRobot
    rcases hlim with e | e
    · rw [e]
    · rw [e]; cases r'.lower <;> rfl
  obtain ⟨rows, h, hrow, hcol⟩ := ur_run hF hE hr hl hl6 r' hr' (last := none) (S := 20) (V := 13 / 2) (e := 0) (by rw [hN]; exact Fl.Keeps.free _) (by rw [hN]; exact Fl.Bounded.free _)
    (by norm_num) (by norm_num) (by norm_num) hH' T q1 q2 q3 q4 q5 q6 hT T' ε hR' hp' L hL hlen hbig hu0 hu hη m δ hm hmargin hdec (by rw [mul_zero, add_zero]; exact hδ) hδ1
  refine ⟨rows, h, fun row hmem => ?_, fun q1 q2 q3 q4 q5 q6 h => ?_⟩
  · obtain ⟨_, _, _, _, _, _, h1, h2⟩ := hrow row hmem
    exact ⟨_, h1, h2⟩
  · obtain ⟨x1, x2, x3, x4, x5, x6, hmem, y1, y2, y3, y4, y5, -, y6⟩ := hcol (q := fun j => [q1, q2, q3, q4, q5, q6].getD j 0) (by rw [hN]; exact Fl.UrFollows.free _ _ hu) h
    exact ⟨_, hmem, .cons y1.1 (.cons y2.1 (.cons y3.1 (.cons y4.1 (.cons y5 (.cons y6.1 .nil)))))⟩

end

namespace B64Ur

/-- An arm with the axes of the UR robots, links of half a metre and no offset of the hand. -/
noncomputable def half : Robot ℝ :=
  { H := [V3.ez, V3.ey, V3.ey, V3.ey, -V3.ez, V3.ey], P := [0, 0, ⟨0, 0, 1 / 2⟩, ⟨0, 0, 1 / 2⟩, ⟨0, 1 / 2, 0⟩, 0, 0]
    jointType := [0, 0, 0, 0, 0, 0], lower := none, upper := none }

theorem half_chain : Spec.UrChain half V3.ey 0 0 ⟨0, 0, 1 / 2⟩ ⟨0, 0, 1 / 2⟩ ⟨0, 1 / 2, 0⟩ 0 0 where
  types := rfl
  axes := rfl
  links := rfl
  par := .inl rfl
  first := ⟨0, by ext <;> simp⟩
  wrist := ⟨0, by ext <;> simp⟩
  base := by intro B h; cases h
  flange := by intro B h; cases h
  tool := by intro B h; cases h

/-- The arm stored exactly: all its numbers are representable. -/
noncomputable def half' (F : FSys) : Robot (Fl F) :=
  { H := half.H.map (V3.map Fl.of), P := half.P.map (V3.map Fl.of), jointType := [0, 0, 0, 0, 0, 0], lower := none, upper := none }

theorem half_near (F : FSys) : Spec.RobotNear (half' F) half where
  types := rfl
  axes := by
    have e : ∀ v : V3 ℝ, IsUnit3 v → IsUnit3 v ∧ Spec.VNear (F := F) (v.map Fl.of) v F.u := fun v h => ⟨h, Fl.vNear_self v F.u_nonneg⟩
    exact .cons (e V3.ez (by simp [IsUnit3])) (.cons (e V3.ey (by simp [IsUnit3])) (.cons (e V3.ey (by simp [IsUnit3])) (.cons (e V3.ey (by simp [IsUnit3]))
      (.cons (e (-V3.ez) (by simp [IsUnit3])) (.cons (e V3.ey (by simp [IsUnit3])) .nil)))))
  links := by
    have e : ∀ v : V3 ℝ, Spec.VNear (F := F) (v.map Fl.of) v (F.u * v.norm) := fun v => Fl.vNear_self v (mul_nonneg F.u_nonneg (V3.norm_nonneg _))
    exact .cons (e _) (.cons (e _) (.cons (e _) (.cons (e _) (.cons (e _) (.cons (e _) (.cons (e _) .nil))))))
  flange := .none
  base := .none
  toolR := .none
  toolp := .none

variable {T : Transform ℝ} (hT : fwdkin half [0, 0, Real.pi / 2, 0, Real.pi / 2, 0] true = .ok T)
include hT

theorem half_pose : (unapplyAux half T).R.mulVec V3.ey = -V3.ez ∧ Spec.wristCentre half 0 0 T = ⟨1 / 2, 1 / 2, 1 / 2⟩ := by
  obtain ⟨h1, h2⟩ := ur_solve half_chain hT
  rw [h1, h2]
  constructor <;> ext <;> simp [rot]

/-- every candidate for the shoulder and the wrist, with what it leaves to upper arm and forearm -/
theorem half_solved {q1 q24 q5 q6 : ℝ} {g : V3 ℝ} (hR : (unapplyAux half T).R = rot V3.ez q1 * rot V3.ey q24 * rot (-V3.ez) q5 * rot V3.ey q6)
    (hc : Spec.wristCentre half 0 0 T = 0 + (rot V3.ez q1).mulVec (0 + (g + (rot V3.ey q24).mulVec ⟨0, 1 / 2, 0⟩))) (hy : g.y = 0) :
    g.x ^ 2 = 1 / 4 ∧ g.z = 1 / 2 ∧ Real.sin q5 ^ 2 = 1 := by
  obtain ⟨p1, p2⟩ := half_pose hT
  rw [p2] at hc
  rw [hR] at p1
  simp only [← M3.mulVec_mulVec] at p1
  rw [rot_axis V3.ey q6] at p1
  have s1 := Real.sin_sq_add_cos_sq q1
  have s5 := Real.sin_sq_add_cos_sq q5
  simp [rot, V3.ext_iff, hy] at hc p1
  obtain ⟨c1, c2, c3⟩ := hc
  obtain ⟨d1, d2, d3⟩ := p1
  have e5 : Real.cos q5 = 0 := by linear_combination -Real.sin q1 * d1 + Real.cos q1 * d2 - Real.cos q5 * s1
  rw [e5] at s5
  refine ⟨?_, by rw [← c3]; norm_num, by linarith⟩
  have t1 := congrArg (fun x : ℝ => x ^ 2) c1
  have t2 := congrArg (fun x : ℝ => x ^ 2) c2
  beta_reduce at t1 t2
  linear_combination -(g.x ^ 2 + 1 / 4) * s1 - t1 - t2

theorem half_decided : Spec.UrDecided V3.ey 0 0 ⟨0, 0, 1 / 2⟩ ⟨0, 0, 1 / 2⟩ ⟨0, 1 / 2, 0⟩ (unapplyAux half T).R (Spec.wristCentre half 0 0 T) (1 / 4) := by
  intro q1 q24 q5 q6 g hR hc hy
  have hy : g.y = 0 := by simpa [V3.dot] using hy
  obtain ⟨h1, h2, h3⟩ := half_solved hT hR hc hy
  refine ⟨?_, ?_, .inl ⟨Real.pi / 2, ?_⟩⟩
  · have : V3.ey.dot (V3.ez.cross (0 + (g + (rot V3.ey q24).mulVec ⟨0, 1 / 2, 0⟩))) = g.x := by simp [rot, V3.dot]
    rw [this]
    refine abs_le_of_sq_le_sq' ?_ (abs_nonneg _) |>.2
    rw [sq_abs, h1]; norm_num
  · refine abs_le_of_sq_le_sq' ?_ (abs_nonneg _) |>.2
    rw [sq_abs, h3]; norm_num
  · rw [V3.norm_eq, V3.norm_eq]
    congr 1
    simp [rot, V3.dot, hy, h2]
    linarith

theorem half_margins (q1 q2 q3 q4 q5 q6 : ℝ) (h : fwdkin half [q1, q2, q3, q4, q5, q6] true = .ok T) :
    Spec.UrMargin V3.ey ⟨0, 0, 1 / 2⟩ ⟨0, 0, 1 / 2⟩ q3 (1 / 4) := by
  obtain ⟨hR, hc⟩ := ur_solve half_chain h
  obtain ⟨h1, h2, -⟩ := half_solved hT hR hc (by simp [rot])
  have s2 := Real.sin_sq_add_cos_sq q2
  have s3 := Real.sin_sq_add_cos_sq q3
  simp [rot] at h1 h2
  have e3 : Real.cos q3 = 0 := by
    have t2 := congrArg (fun x : ℝ => x ^ 2) h2
    beta_reduce at t2
    linear_combination 2 * h1 + 2 * t2 - (Real.sin q3 ^ 2 + (1 + Real.cos q3) ^ 2) / 2 * s2 - 1 / 2 * s3
  rw [e3] at s3
  constructor
  · have : (⟨0, 0, 1 / 2⟩ : V3 ℝ).dot (V3.ey.cross ((rot V3.ey q3).mulVec ⟨0, 0, 1 / 2⟩)) = -(Real.sin q3 / 4) := by simp [rot, V3.dot]; ring
    rw [this]
    refine abs_le_of_sq_le_sq' ?_ (abs_nonneg _) |>.2
    rw [sq_abs, neg_sq, div_pow]; linarith
  · rw [V3.norm_eq]
    apply Real.le_sqrt_of_sq_le
    simp [rot, V3.dot, e3]
    nlinarith

omit hT

/-- C84 for the concrete arm in binary64 with a correctly rounded library: for a pose known up to 1e-12 the call returns, returns only solutions up to
1/500, and returns each. -/
example : ∃ T, fwdkin half [0, 0, Real.pi / 2, 0, Real.pi / 2, 0] true = .ok T ∧ ∀ (T' : Transform (Fl (b64 Libm.rounded))),
    Spec.MNear T'.R T.R (1 / 1000000000000) → Spec.VNear T'.p T.p (1 / 1000000000000) →
    ∃ sols, ur_invkin (half' _) T' none = .ok sols ∧
      (∀ row ∈ sols, ∃ q, fwdkin half q true = .ok T ∧ Spec.RowNear row q (1 / 500)) ∧
      (∀ q1 q2 q3 q4 q5 q6, fwdkin half [q1, q2, q3, q4, q5, q6] true = .ok T →
        ∃ row ∈ sols, Spec.RowNear row [q1, q2, q3, q4, q5, q6] (1 / 500)) := by
  have hT := fwdkin_chain6 half_chain.types half_chain.axes half_chain.links 0 0 (Real.pi / 2) 0 (Real.pi / 2) 0
  refine ⟨_, hT, fun T' hR hp => ?_⟩
  have nz : (⟨0, 0, 1 / 2⟩ : V3 ℝ).norm ≤ 1 / 2 := by rw [V3.norm_eq]; exact Real.sqrt_le_iff.2 ⟨by norm_num, by norm_num [V3.dot]⟩
  have ny : (⟨0, 1 / 2, 0⟩ : V3 ℝ).norm ≤ 1 / 2 := by rw [V3.norm_eq]; exact Real.sqrt_le_iff.2 ⟨by norm_num, by norm_num [V3.dot]⟩
  refine C84_ur_rounding invAcc_rounded (b64_exactRnd _) half_chain (by rw [V3.norm_zero]; linarith) (by rw [V3.norm_zero]; norm_num) _
    (half_near _) (.inl rfl) rfl _ 0 0 (Real.pi / 2) 0 (Real.pi / 2) 0 hT T' _ hR hp
    2 (by norm_num) ?_ ?_ ?_ ?_ (b64_eta _) (1 / 4) (1 / 500) (by norm_num) (half_margins hT) (half_decided hT) ?_ (by norm_num)
  · simp only [rot_zero, M3.one_mulVec]
    rw [show Spec.auxLength half = 0 by simp [Spec.auxLength, half], add_zero, V3.norm_eq]
    refine Real.sqrt_le_iff.2 ⟨by norm_num, ?_⟩
    simp [applyAux, half, rot, V3.dot]
    norm_num
  · have := (b64 Libm.rounded).big_ge; linarith
  · rw [b64_u]; positivity
  · rw [b64_u]; norm_num
  · rw [b64_u]; norm_num

end B64Ur
