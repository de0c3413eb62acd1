import Verif.Lemmas.FlTrans
import Verif.Lemmas.B64
import Verif.Props.TransformProps

/-! # Property C69: the laws of `Transform` hold up to `==` in floating-point arithmetic -/
set_option autoImplicit false

/-- A number within range of binary64. -/
theorem range_le_big (lib : Libm) {y : ℝ} (h : |y| ≤ 2 ^ 40) : |y| ≤ (b64 lib).big := by
  have h1 : (2 : ℝ) ^ 40 ≤ 2 ^ 1023 := pow_le_pow_right₀ (by norm_num) (by norm_num)
  have h2 : (1 : ℝ) ≤ 2 - 2⁻¹ ^ 52 := by norm_num
  have h3 : (1 : ℝ) * 2 ^ 1023 ≤ (2 - 2⁻¹ ^ 52) * 2 ^ 1023 := mul_le_mul_of_nonneg_right h2 (by positivity)
  rw [one_mul] at h3
  exact (h.trans h1).trans h3

/-- The transform with every entry rounded to binary64. -/
noncomputable def b64Transform (lib : Libm) (T : Transform ℝ) : Transform (Fl (b64 lib)) :=
  ⟨T.R.map (fun x => .of (B64.rnd x)), T.p.map (fun x => .of (B64.rnd x)), none, none⟩

/-- The transform of the counterexample of C69: a rotation with sine 12/13, far out. -/
noncomputable def farT : Transform ℝ := ⟨⟨5/13, -12/13, 0, 12/13, 5/13, 0, 0, 0, 1⟩, ⟨2 ^ 30, 0, 0⟩, none, none⟩

noncomputable def farc : ℝ := 6928614811339225 * 2⁻¹ ^ 54
noncomputable def fars : ℝ := 8314337773607070 * 2⁻¹ ^ 53

theorem far_entries : B64.rnd (5/13) = farc ∧ B64.rnd (12/13) = fars ∧ B64.rnd (-12/13) = -fars ∧ B64.rnd 1 = 1 ∧ B64.rnd (2 ^ 30) = 2 ^ 30 := by
  refine ⟨?_, ?_, ?_, ?_, ?_⟩
  · rw [B64.rnd_eq 6928614811339225 (-54) (by norm_num)]
    · norm_num [farc]
    all_goals norm_num [abs_of_pos]
  · rw [B64.rnd_eq 8314337773607070 (-53) (by norm_num)]
    · norm_num [fars]
    all_goals norm_num [abs_of_pos]
  · rw [B64.rnd_eq (-8314337773607070) (-53) (by norm_num)]
    · norm_num [fars]
    all_goals norm_num [abs_of_pos, abs_of_neg]
  · rw [B64.rnd_exact (2 ^ 52) (-52)] <;> norm_num
  · rw [B64.rnd_exact (2 ^ 52) (-22)] <;> norm_num

theorem far_x (lib : Libm) : (b64Transform lib farT * (b64Transform lib farT).inv).p.x = .of (-2⁻¹ ^ 22) := by
  have sb {y : ℝ} (h : |y| ≤ 2 ^ 40) := range_le_big lib h
  obtain ⟨e1, e2, e3, e4, e5⟩ := far_entries
  have e0 := B64.rnd_zero
  have h0 : (Fl.of 0 * Fl.of 0 : Fl (b64 lib)) = .of 0 :=
    Fl.mul_of (by rw [mul_zero]; exact B64.rnd_zero) (sb (by norm_num))
  have hz : (Fl.of 0 + Fl.of 0 : Fl (b64 lib)) = .of 0 := Fl.add_of (by rw [add_zero]; exact B64.rnd_zero) (sb (by norm_num))
  have n0 : (-Fl.of 0 : Fl (b64 lib)) = .of 0 := by
    change Fl.of (-0) = _
    rw [neg_zero]
  have n1 : ∀ x, (-Fl.of x : Fl (b64 lib)) = .of (-x) := fun x => rfl
  have z : ∀ x, (Fl.of x * Fl.of 0 : Fl (b64 lib)) = .of 0 := fun x =>
    Fl.mul_of (by rw [mul_zero]; exact B64.rnd_zero) (sb (by norm_num))
  have z' : (Fl.of 0 * Fl.of (2 ^ 30) : Fl (b64 lib)) = .of 0 :=
    Fl.mul_of (by rw [zero_mul]; exact B64.rnd_zero) (sb (by norm_num))
  have c1 : B64.rnd (farc * 2 ^ 30) = farc * 2 ^ 30 := by
    rw [B64.rnd_exact 6928614811339225 (-24)] <;> norm_num [farc]
  have s1 : B64.rnd (-fars * 2 ^ 30) = -fars * 2 ^ 30 := by
    rw [B64.rnd_exact (-8314337773607070) (-23)] <;> norm_num [fars]
  have hc : (Fl.of farc * Fl.of (2 ^ 30) : Fl (b64 lib)) = .of (farc * 2 ^ 30) := Fl.mul_of c1 (sb (by norm_num [farc, abs_le]))
  have hc' : (Fl.of (farc * 2 ^ 30) + Fl.of 0 : Fl (b64 lib)) = .of (farc * 2 ^ 30) :=
    Fl.add_of (by rw [add_zero]; exact c1) (sb (by norm_num [farc, abs_le]))
  have hs : (Fl.of (-fars) * Fl.of (2 ^ 30) : Fl (b64 lib)) = .of (-fars * 2 ^ 30) := Fl.mul_of s1 (sb (by norm_num [fars, abs_le]))
  have hs' : (Fl.of (-fars * 2 ^ 30) + Fl.of 0 : Fl (b64 lib)) = .of (-fars * 2 ^ 30) :=
    Fl.add_of (by rw [add_zero]; exact s1) (sb (by norm_num [fars, abs_le]))
  have hcc : (Fl.of farc * Fl.of (-(farc * 2 ^ 30)) : Fl (b64 lib)) = .of (-5329703701030173 * 2⁻¹ ^ 25) :=
    Fl.mul_of (by
      change B64.rnd _ = _
      rw [B64.rnd_eq (-5329703701030173) (-25) (by norm_num)]
      · norm_num
      all_goals norm_num [farc, abs_of_pos, abs_of_neg]) (sb (by norm_num [abs_le]))
  have hss : (Fl.of (-fars) * Fl.of (-(-fars * 2 ^ 30)) : Fl (b64 lib)) = .of (-7674773329483450 * 2⁻¹ ^ 23) :=
    Fl.mul_of (by
      change B64.rnd _ = _
      rw [B64.rnd_eq (-7674773329483450) (-23) (by norm_num)]
      · norm_num
      all_goals norm_num [fars, abs_of_pos, abs_of_neg]) (sb (by norm_num [abs_le]))
  have ha : (Fl.of (-5329703701030173 * 2⁻¹ ^ 25) + Fl.of (-7674773329483450 * 2⁻¹ ^ 23) : Fl (b64 lib)) = .of (-(2 ^ 30 + 2⁻¹ ^ 22)) :=
    Fl.add_of (by
      change B64.rnd _ = _
      rw [B64.rnd_eq (-(2 ^ 52 + 1)) (-22) (by norm_num)]
      · norm_num
      all_goals norm_num [abs_of_pos, abs_of_neg]) (sb (by norm_num [abs_le]))
  have h4 : (Fl.of (-(2 ^ 30 + 2⁻¹ ^ 22)) + Fl.of 0 : Fl (b64 lib)) = .of (-(2 ^ 30 + 2⁻¹ ^ 22)) :=
    Fl.add_of (by
      change B64.rnd _ = _
      rw [B64.rnd_exact (-(2 ^ 52 + 1)) (-22)] <;> norm_num) (sb (by norm_num [abs_le]))
  have h5 : (Fl.of (2 ^ 30) + Fl.of (-(2 ^ 30 + 2⁻¹ ^ 22)) : Fl (b64 lib)) = .of (-2⁻¹ ^ 22) :=
    Fl.add_of (by
      change B64.rnd _ = _
      rw [B64.rnd_exact (-2 ^ 52) (-74)] <;> norm_num) (sb (by norm_num [abs_le]))
  have hT : b64Transform lib farT =
      ⟨⟨.of farc, .of (-fars), .of 0, .of fars, .of farc, .of 0, .of 0, .of 0, .of 1⟩, ⟨.of (2 ^ 30), .of 0, .of 0⟩, none, none⟩ := by
    simp only [b64Transform, farT, M3.map, V3.map, e0, e1, e2, e3, e4, e5]
  rw [hT]
  change Fl.of (2 ^ 30) + (Fl.of farc * -(Fl.of farc * Fl.of (2 ^ 30) + Fl.of fars * Fl.of 0 + Fl.of 0 * Fl.of 0) +
    Fl.of (-fars) * -(Fl.of (-fars) * Fl.of (2 ^ 30) + Fl.of farc * Fl.of 0 + Fl.of 0 * Fl.of 0) +
    Fl.of 0 * -(Fl.of 0 * Fl.of (2 ^ 30) + Fl.of 0 * Fl.of 0 + Fl.of 1 * Fl.of 0)) = _
  simp only [h0, hz, z', z, n0]
  rw [hc, hc', hc', hs, hs', hs', n1, n1, hcc, hss, ha, h4, h5]

theorem far_eval (lib : Libm) : (b64Transform lib farT * (b64Transform lib farT).inv).eq identityTransform = false := by
  have hx := far_x lib
  generalize b64Transform lib farT * (b64Transform lib farT).inv = T at *
  rw [Bool.eq_false_iff]
  intro h
  have h' : isclose T.p.x (Fl.of 0) (lit (1 / 1000000)) (lit (1 / 100000000)) := by
    simp only [Transform.eq, Transform.allIsclose, M3.toList, V3.toList, List.zip_cons_cons, List.zip_nil_right, List.all_cons, List.all_nil,
      Bool.and_true, Bool.and_eq_true, decide_eq_true_eq] at h
    exact h.2.1
  rw [hx] at h'
  have z : (Fl.of 0 : Fl (b64 lib)).Near 0 0 := ⟨0, rfl, by simp⟩
  have x : (Fl.of (-2⁻¹ ^ 22) : Fl (b64 lib)).Near (-2⁻¹ ^ 22) 0 := ⟨_, rfl, by simp⟩
  have hu : (b64 lib).u = 2⁻¹ ^ 50 := rfl
  have hη := (b64 lib).η_le
  have η0 := (b64 lib).η_nonneg
  have big := (b64 lib).big_ge
  rw [hu] at hη
  have u50 : (2⁻¹ : ℝ) ^ 50 ≤ 1 / 1000000000000000 := by norm_num
  have u22 : (2⁻¹ : ℝ) ^ 22 ≥ 2 / 10000000 := by norm_num
  have u22' : (2⁻¹ : ℝ) ^ 22 ≤ 1 := by norm_num
  rcases h' with h' | h'
  · have : (-2⁻¹ ^ 22 : ℝ) = 0 := (XReal.feq_fin _ _).1 h'
    linarith
  · have l := (x.sub z (f := 1 / 100000000) (by
      rw [sub_zero, abs_neg, abs_of_pos (by positivity), hu]
      nlinarith) (by rw [sub_zero, abs_neg, abs_of_pos (by positivity)]; linarith)).abs
    rw [sub_zero, abs_neg, abs_of_pos (by positivity)] at l
    have la := Fl.near_lit_abs (F := b64 lib) (1 / 100000000) (by norm_num [abs_of_pos])
    have lr := Fl.near_lit_abs (F := b64 lib) (1 / 1000000) (by norm_num [abs_of_pos])
    have qa : |((1 / 100000000 : ℚ) : ℝ)| = 1 / 100000000 := by norm_num [abs_of_pos]
    have qr : |((1 / 1000000 : ℚ) : ℝ)| = 1 / 1000000 := by norm_num [abs_of_pos]
    rw [qa, hu] at la
    rw [qr, hu] at lr
    have m := lr.mul z.abs (f := 1 / 100000000) (by
      rw [qr, hu, abs_zero, mul_zero, abs_zero]
      linarith) (by rw [abs_zero, mul_zero, abs_zero]; linarith)
    have s := la.add m (f := 5 / 100000000) (by
      rw [abs_zero, mul_zero, add_zero, qa, hu]
      nlinarith) (by rw [abs_zero, mul_zero, add_zero, qa]; linarith)
    rw [abs_zero, mul_zero, add_zero] at s
    obtain ⟨v, hv, kv⟩ := l
    obtain ⟨w, hw, kw⟩ := s
    have le : v ≤ w := by
      change (Elem.abs _ : Fl (b64 lib)).val ≤ (_ : Fl (b64 lib)).val at h'
      rw [hv, hw, XReal.fin_le] at h'
      exact h'
    rw [_root_.abs_le] at kv kw
    have : ((1 / 100000000 : ℚ) : ℝ) = 1 / 100000000 := by norm_num
    rw [this] at kw
    linarith
section
variable {F : FSys}

/-- C69: two transforms computed in floating-point arithmetic that are within `4.5e-9` of the same rigid transform (the positions, and the images of
unit vectors) compare equal with `==`, in either order, as long as the position is within `1 / (3e10 u)` of the origin. -/
theorem C69_eq_of_near (A' B' : Transform (Fl F)) (T : Transform ℝ) (hT : T.IsRigid) (ε δ L : ℝ)
    (hA : Spec.MNear A'.R T.R ε) (hAp : Spec.VNear A'.p T.p ε) (hB : Spec.MNear B'.R T.R δ) (hBp : Spec.VNear B'.p T.p δ)
    (h : ε + δ ≤ 9 / 1000000000) (hL : 1 ≤ L) (hp : T.p.norm ≤ L) (hu : 30000000000 * (F.u * L) ≤ 1) (hbig : 2 * L ≤ F.big) :
    A'.eq B' = true ∧ B'.eq A' = true :=
  ⟨Fl.eq_near hT hA hAp hB hBp h hL hp hu hbig, Fl.eq_near hT hB hBp hA hAp (by linarith) hL hp hu hbig⟩

/-- C69: composition is associative up to `==`. -/
theorem C69_mul_assoc_partial (A' B' C' : Transform (Fl F)) (A B C : Transform ℝ) (hA : Spec.TNear A' A) (hB : Spec.TNear B' B) (hC : Spec.TNear C' C)
    (L : ℝ) (hL : 1 ≤ L) (hl : A.p.norm + B.p.norm + C.p.norm ≤ L) (hu : 100000000000 * (F.u * L) ≤ 1) (hbig : 5 * L ≤ F.big) :
    (A' * B' * C').eq (A' * (B' * C')) = true := by
  have uL : F.u ≤ F.u * L := le_mul_of_one_le_right F.u_nonneg hL
  have hη : F.η ≤ F.u * L := F.η_le.trans uL
  have h0 : 0 < L := by linarith
  have nA := A.p.norm_nonneg
  have nB := B.p.norm_nonneg
  have nC := C.p.norm_nonneg
  have a := Fl.TN.of_near hA (L := L) (by linarith)
  have b := Fl.TN.of_near hB (L := L) (by linarith)
  have c := Fl.TN.of_near hC (L := L) (by linarith)
  have lab := Fl.norm_mul_p (B := B) a.rot
  have lbc := Fl.norm_mul_p (B := C) b.rot
  have ab := a.mul b h0 hη hbig (by linarith) (by linarith) (by linarith) (by linarith)
  have bc := b.mul c h0 hη hbig (by linarith) (by linarith) (by linarith) (by linarith)
  have labc := Fl.norm_mul_p (B := C) ab.rot
  have labc' := Fl.norm_mul_p (B := B * C) a.rot
  have l := ab.mul c h0 hη hbig (by linarith) (by linarith) (by linarith) (by linarith)
  have r := a.mul bc h0 hη hbig (by linarith) (by linarith) (by linarith) (by linarith)
  rw [C13_mul_assoc] at l
  exact l.eq r hL hbig 700 200 (by norm_num) (by norm_num) (by norm_num) hu

/-- C69: a transform times its inverse, in either order, is the identity up to `==`. -/
theorem C69_mul_inv_partial (T' : Transform (Fl F)) (T : Transform ℝ) (hT : Spec.TNear T' T)
    (L : ℝ) (hL : 1 ≤ L) (hl : T.p.norm ≤ L) (hu : 100000000000 * (F.u * L) ≤ 1) (hbig : 5 * L ≤ F.big) :
    (T' * T'.inv).eq identityTransform = true ∧ (T'.inv * T').eq identityTransform = true := by
  have uL : F.u ≤ F.u * L := le_mul_of_one_le_right F.u_nonneg hL
  have hη : F.η ≤ F.u * L := F.η_le.trans uL
  have h0 : 0 < L := by linarith
  have t := Fl.TN.of_near hT hl
  have i := t.inv h0 hη hbig (by linarith) (by linarith)
  obtain ⟨⟨e1, e2⟩, e3, e4⟩ := C13_inv T t.rot
  have z : (0 : V3 ℝ).norm ≤ L := by rw [V3.norm_zero]; linarith
  have one : Fl.TN L 0 0 (identityTransform : Transform (Fl F)) identityTransform :=
    ⟨IsRot.one, z, ⟨1, rfl, by intro v; simp [identityTransform, V3.norm_zero]⟩, ⟨0, rfl, by
      rw [show (0 : V3 ℝ) - (identityTransform : Transform ℝ).p = 0 by ext <;> simp [identityTransform], V3.norm_zero]; simp⟩⟩
  have l := (t.mul i h0 hη hbig (by linarith) (by linarith) (by rw [e2]; exact z) (by linarith)).congr e1 e2
  have r := (i.mul t h0 hη hbig (by linarith) (by linarith) (by rw [e4]; exact z) (by linarith)).congr e3 e4
  exact ⟨l.eq one hL hbig 700 200 (by norm_num) (by norm_num) (by norm_num) hu, r.eq one hL hbig 700 200 (by norm_num) (by norm_num) (by norm_num) hu⟩

/-- C69: inverting twice gives the transform back up to `==`, and the inverse of a product is the product of the inverses in opposite
order. -/
theorem C69_inv_partial (A' B' : Transform (Fl F)) (A B : Transform ℝ) (hA : Spec.TNear A' A) (hB : Spec.TNear B' B)
    (L : ℝ) (hL : 1 ≤ L) (hl : A.p.norm + B.p.norm ≤ L) (hu : 100000000000 * (F.u * L) ≤ 1) (hbig : 5 * L ≤ F.big) :
    A'.inv.inv.eq A' = true ∧ (A' * B').inv.eq (B'.inv * A'.inv) = true := by
  have uL : F.u ≤ F.u * L := le_mul_of_one_le_right F.u_nonneg hL
  have hη : F.η ≤ F.u * L := F.η_le.trans uL
  have h0 : 0 < L := by linarith
  have nA := A.p.norm_nonneg
  have nB := B.p.norm_nonneg
  have a := Fl.TN.of_near hA (L := L) (by linarith)
  have b := Fl.TN.of_near hB (L := L) (by linarith)
  have ai := a.inv h0 hη hbig (by linarith) (by linarith)
  have bi := b.inv h0 hη hbig (by linarith) (by linarith)
  have aii := ai.inv h0 hη hbig (by linarith) (by linarith)
  have e : A.inv.inv.p = A.p := by
    have := a.rot.orth'
    change -(A.R.transpose.transpose.mulVec (-(A.R.transpose.mulVec A.p))) = A.p
    rw [M3.mulVec_neg, M3.mulVec_mulVec, show A.R.transpose.transpose = A.R from rfl, this]
    ext <;> simp
  have lab := Fl.norm_mul_p (B := B) a.rot
  have ab := a.mul b h0 hη hbig (by linarith) (by linarith) (by linarith) (by linarith)
  have l := ab.inv h0 hη hbig (by linarith) (by linarith)
  have lba := Fl.norm_mul_p (A := B.inv) (B := A.inv) bi.rot
  rw [Fl.norm_inv_p a.rot, Fl.norm_inv_p b.rot] at lba
  have r := bi.mul ai h0 hη hbig (by linarith) (by linarith) (by linarith) (by linarith)
  have e2 : (A * B).inv.R = (B.inv * A.inv).R ∧ (A * B).inv.p = (B.inv * A.inv).p := by
    constructor
    · ext <;> simp [Transform.inv] <;> ring
    · have hb := b.rot.orth
      have := a.rot.orth
      simp only [Transform.inv, Transform.mul_p, Transform.mul_R]
      rw [show (A.R * B.R).transpose = B.R.transpose * A.R.transpose by ext <;> simp <;> ring]
      rw [← M3.mulVec_mulVec, M3.mulVec_add, M3.mulVec_mulVec A.R.transpose A.R, this, M3.one_mulVec, M3.mulVec_add, M3.mulVec_neg]
      ext <;> simp <;> ring
  exact ⟨(aii.congr (S := A) rfl e).eq a hL hbig 700 200 (by norm_num) (by norm_num) (by norm_num) hu, (l.congr e2.1 e2.2).eq r hL hbig 700 200 (by norm_num) (by norm_num) (by norm_num) hu⟩

/-- C69: `unapply_robot_aux_transforms` undoes `apply_robot_aux_transforms` up to `==`, for all presence combinations of tool, flange and base. -/
theorem C69_unapply_apply_partial (robot' : Robot (Fl F)) (robot : Robot ℝ) (hrobot : Spec.RobotNear robot' robot) (T' : Transform (Fl F)) (T : Transform ℝ)
    (hT : Spec.TNear T' T) (L : ℝ) (hL : 1 ≤ L)
    (hl : T.p.norm + 2 * ((robot.Tflange.map (·.p.norm)).getD 0 + (robot.ptool.map V3.norm).getD 0 + (robot.Tbase.map (·.p.norm)).getD 0) ≤ L)
    (hu : 100000000000 * (F.u * L) ≤ 1) (hbig : 5 * L ≤ F.big) :
    (unapplyAux robot' (applyAux robot' T')).eq T' = true := by
  have hB := hrobot.base
  have hF := hrobot.flange
  have hX : Option.Rel Spec.TNear (toolT robot'.Rtool robot'.ptool) (toolT robot.Rtool robot.ptool) := by
    have h1 := hrobot.toolR
    have h2 := hrobot.toolp
    generalize robot.Rtool = R at *
    generalize robot'.Rtool = R' at *
    generalize robot.ptool = p at *
    generalize robot'.ptool = p' at *
    cases h1 with
    | none => cases h2 <;> exact .none
    | some h1 =>
      cases h2 with
      | none => exact .none
      | some h2 => exact .some ⟨h1.1, h1.2, h2⟩
  have lX : Fl.optLen (toolT robot.Rtool robot.ptool) ≤ (robot.ptool.map V3.norm).getD 0 := by
    cases robot.Rtool <;> cases robot.ptool <;> simp [Fl.optLen, toolT, V3.norm_nonneg]
  have hl' : T.p.norm + 2 * Fl.optLen robot.Tflange + 2 * Fl.optLen (toolT robot.Rtool robot.ptool) + 2 * Fl.optLen robot.Tbase ≤ L := by
    have h1 : Fl.optLen robot.Tflange = (robot.Tflange.map (·.p.norm)).getD 0 := rfl
    have h2 : Fl.optLen robot.Tbase = (robot.Tbase.map (·.p.norm)).getD 0 := rfl
    rw [h1, h2]
    linarith
  have main := Fl.unapply_apply_near hF hB hX hT hl' hL hbig hu
  have rigid : AuxRigid robot := by
    constructor
    · intro B h
      have h1 := hrobot.base
      rw [h] at h1
      generalize robot'.Tbase = x at h1
      cases h1 with
      | some h => exact h.1
    · intro B h
      have h1 := hrobot.flange
      rw [h] at h1
      generalize robot'.Tflange = x at h1
      cases h1 with
      | some h => exact h.1
    · intro R h
      have h1 := hrobot.toolR
      rw [h] at h1
      generalize robot'.Rtool = x at h1
      cases h1 with
      | some h => exact h.1
  obtain ⟨e1, e2⟩ := C21_unapply_apply robot rigid T
  have t : Fl.TN L 1 1 T' T := Fl.TN.of_near hT (by
    have := Fl.optLen_nonneg robot.Tflange
    have := Fl.optLen_nonneg robot.Tbase
    have := Fl.optLen_nonneg (toolT robot.Rtool robot.ptool)
    linarith)
  exact (main.congr e1 e2).eq t hL hbig 800 100 (by norm_num) (by norm_num) (by norm_num) hu

end

/-- C69 (counterexample): farther out the laws fail.  In binary64 a rotation with sine 12/13 and a position `2^30` from the origin, every entry rounded
to nearest: the transform times its inverse is not the identity up to `==`. -/
theorem C69_far_false (lib : Libm) : ∃ T : Transform ℝ, IsRot T.R ∧
    (b64Transform lib T * (b64Transform lib T).inv).eq identityTransform = false := by
  refine ⟨farT, ?_, far_eval lib⟩
  constructor
  · ext <;> simp [farT] <;> norm_num
  · simp [farT, M3.det]
    norm_num

/-- C69: the transforms of the theorems above include every rigid transform with its entries rounded to binary64, unless the position is so close to the origin
that its components underflow. -/
theorem C69_stored (lib : Libm) (T : Transform ℝ) (hT : IsRot T.R) (hp : T.p = 0 ∨ 2⁻¹ ^ 1000 ≤ T.p.norm) : Spec.TNear (b64Transform lib T) T := by
  have tiny : (2⁻¹ : ℝ) ^ 1075 ≤ 2⁻¹ ^ 53 * 2⁻¹ ^ 1000 := by
    rw [← pow_add]
    exact pow_le_pow_of_le_one (by norm_num) (by norm_num) (by norm_num)
  have one : (2⁻¹ : ℝ) ^ 1000 ≤ 1 := pow_le_one₀ (by norm_num) (by norm_num)
  have pos : (0 : ℝ) ≤ 2⁻¹ ^ 1000 := by positivity
  generalize (2⁻¹ : ℝ) ^ 1000 = t at *
  have err : ∀ x M : ℝ, |x| ≤ M → t ≤ M → |B64.rnd x - x| ≤ 2⁻¹ ^ 52 * M := fun x M h1 h2 => by
    have h3 := B64.rnd_err x
    generalize (2⁻¹ : ℝ) ^ 1075 = s at *
    have h4 : (2⁻¹ : ℝ) ^ 53 * |x| ≤ 2⁻¹ ^ 53 * M := mul_le_mul_of_nonneg_left h1 (by positivity)
    have h5 : (2⁻¹ : ℝ) ^ 53 * t ≤ 2⁻¹ ^ 53 * M := mul_le_mul_of_nonneg_left h2 (by positivity)
    have h6 : (2⁻¹ : ℝ) ^ 52 = 2⁻¹ ^ 53 + 2⁻¹ ^ 53 := by norm_num
    rw [h6]
    linarith
  obtain ⟨⟨r00, r10, r20⟩, ⟨r01, r11, r21⟩, r02, r12, r22⟩ := hT.opLe.entries
  refine ⟨hT, Fl.mNear_iff.2 ⟨T.R.map B64.rnd, rfl, ?_⟩, ⟨T.p.map B64.rnd, rfl, ?_⟩⟩
  · refine OpLe.mono (OpLe.of_entries (d := 2⁻¹ ^ 52 * 1) (err _ _ r00 one) (err _ _ r01 one) (err _ _ r02 one) (err _ _ r10 one) (err _ _ r11 one)
      (err _ _ r12 one) (err _ _ r20 one) (err _ _ r21 one) (err _ _ r22 one)) ?_
    change _ ≤ (2⁻¹ : ℝ) ^ 50
    norm_num
  · rcases hp with hp | hp
    · rw [hp, show (0 : V3 ℝ).map B64.rnd - 0 = 0 by ext <;> simp [V3.map, B64.rnd_zero], V3.norm_zero]
      exact mul_nonneg (b64 lib).u_nonneg le_rfl
    · have hx := err _ _ (V3.abs_x_le T.p) hp
      have hy := err _ _ (V3.abs_y_le T.p) hp
      have hz := err _ _ (V3.abs_z_le T.p) hp
      refine (V3.norm_le_of_entries hx hy hz).trans ?_
      change _ ≤ (2⁻¹ : ℝ) ^ 50 * T.p.norm
      have := T.p.norm_nonneg
      have h6 : (2⁻¹ : ℝ) ^ 50 = 4 * 2⁻¹ ^ 52 := by norm_num
      have : 0 ≤ (2⁻¹ : ℝ) ^ 52 * T.p.norm := mul_nonneg (pow_nonneg (by norm_num) _) T.p.norm_nonneg
      rw [h6]
      linarith

/-- A rotation whose entries are not binary64 numbers, two meters up. -/
noncomputable def exT : Transform ℝ := ⟨⟨3/5, -4/5, 0, 4/5, 3/5, 0, 0, 0, 1⟩, ⟨0, 0, 21/10⟩, none, none⟩

theorem exT_near (lib : Libm) : Spec.TNear (b64Transform lib exT) exT ∧ exT.p.norm = 21/10 := by
  have n : exT.p.norm = 21/10 := by
    rw [V3.norm_eq, show exT.p.dot exT.p = (21/10) ^ 2 by simp [exT, V3.dot]; norm_num]
    exact Real.sqrt_sq (by norm_num)
  have one : (2⁻¹ : ℝ) ^ 1000 ≤ 1 := pow_le_one₀ (by norm_num) (by norm_num)
  refine ⟨C69_stored lib exT ?_ (.inr (by rw [n]; exact one.trans (by norm_num))), n⟩
  constructor
  · ext <;> simp [exT] <;> norm_num
  · simp [exT, M3.det]
    norm_num

theorem b64_room (lib : Libm) : 100000000000 * ((b64 lib).u * 10) ≤ 1 ∧ 5 * 10 ≤ (b64 lib).big := by
  constructor
  · change 100000000000 * ((2⁻¹ : ℝ) ^ 50 * 10) ≤ 1
    norm_num
  · have := (b64 lib).big_ge
    linarith

/-- the hypotheses of all theorems above hold for these -/
example (lib : Libm) : (b64Transform lib exT * b64Transform lib exT * b64Transform lib exT).eq
      (b64Transform lib exT * (b64Transform lib exT * b64Transform lib exT)) = true ∧
    (b64Transform lib exT * (b64Transform lib exT).inv).eq identityTransform = true ∧
    (b64Transform lib exT).inv.inv.eq (b64Transform lib exT) = true := by
  obtain ⟨h, n⟩ := exT_near lib
  obtain ⟨r1, r2⟩ := b64_room lib
  exact ⟨C69_mul_assoc_partial _ _ _ _ _ _ h h h 10 (by norm_num) (by rw [n]; norm_num) r1 r2,
    (C69_mul_inv_partial _ _ h 10 (by norm_num) (by rw [n]; norm_num) r1 r2).1,
    (C69_inv_partial _ _ _ _ h h 10 (by norm_num) (by rw [n]; norm_num) r1 r2).1⟩

/-- a robot with base, flange and tool -/
example (lib : Libm) : (unapplyAux ({
          H := []
          P := []
          jointType := []
          Tbase := some (b64Transform lib exT)
          Tflange := some (b64Transform lib exT)
          Rtool := some (b64Transform lib exT).R
          ptool := some 0 } : Robot (Fl (b64 lib))) (applyAux ({
          H := []
          P := []
          jointType := []
          Tbase := some (b64Transform lib exT)
          Tflange := some (b64Transform lib exT)
          Rtool := some (b64Transform lib exT).R
          ptool := some 0 } : Robot (Fl (b64 lib))) (b64Transform lib exT))).eq (b64Transform lib exT) = true := by
  obtain ⟨h, n⟩ := exT_near lib
  refine C69_unapply_apply_partial _ {
          H := []
          P := []
          jointType := []
          Tbase := some exT
          Tflange := some exT
          Rtool := some exT.R
          ptool := some 0 } ⟨rfl, .nil, .nil, .some h, .some h, .some ⟨h.1, h.2.1⟩, .some ⟨0, rfl, ?_⟩⟩ _ _ h 20 (by norm_num) ?_ ?_ ?_
  · simp only [Option.map_some, Option.getD_some, n, V3.norm_zero]
    norm_num
  · change 100000000000 * ((2⁻¹ : ℝ) ^ 50 * 20) ≤ 1
    norm_num
  · have := (b64 lib).big_ge
    linarith
  · rw [show (0 : V3 ℝ) - 0 = 0 by ext <;> simp, V3.norm_zero, mul_zero]
