import Verif.Lemmas.FlJac

/-! # Rounding error of `Transform` operations and comparison -/
set_option autoImplicit false

/-- The transpose has the same norm. -/
theorem OpLe.transpose {A : M3 ℝ} {e : ℝ} (h : OpLe A e) : OpLe A.transpose e := fun v => by
  have h1 := h (A.transpose.mulVec v)
  have e0 := h.nonneg
  set w := A.transpose.mulVec v with hw
  have h2 : w.dot w = v.dot (A.mulVec w) := by
    rw [hw]
    simp [V3.dot]
    ring
  have h3 := V3.abs_dot_le v (A.mulVec w)
  rw [← h2] at h3
  have h4 : w.norm * w.norm = w.dot w := by rw [V3.norm_eq, Real.mul_self_sqrt (by simp only [V3.dot]; nlinarith [sq_nonneg w.x, sq_nonneg w.y, sq_nonneg w.z])]
  have h5 := le_abs_self (w.dot w)
  have nv := v.norm_nonneg
  have nw := w.norm_nonneg
  by_cases h0 : w.norm = 0
  · rw [h0]; positivity
  have hpos : 0 < w.norm := lt_of_le_of_ne nw (Ne.symm h0)
  have h6 : v.norm * (A.mulVec w).norm ≤ v.norm * (e * w.norm) := mul_le_mul_of_nonneg_left h1 nv
  have h7 : w.norm * w.norm ≤ e * v.norm * w.norm := by linarith
  exact le_of_mul_le_mul_right h7 hpos

namespace Fl
variable {F : FSys}

theorem near_lit_abs (q : ℚ) (hq : |(q : ℝ)| ≤ 1) : (lit q : Fl F).Near (q : ℝ) (F.u * |(q : ℝ)| + F.η) := by
  have h := near_round (F := F) (w := (q : ℝ)) (x := q) (d := 0) (e := F.u * |(q : ℝ)| + F.η) (by simp) (by linarith) (by
    have := F.big_ge
    have := F.u_le
    have := F.u_nonneg
    have := F.η_le
    nlinarith)
  exact h

theorem Near.abs {a : Fl F} {x e : ℝ} (h : a.Near x e) : (Elem.abs a).Near |x| e := by
  obtain ⟨v, hv, h⟩ := h
  exact ⟨|v|, show Elem.abs a.val = _ by rw [hv]; rfl, (abs_abs_sub_abs_le _ _).trans h⟩

theorem near_le {a b : Fl F} {x y d e : ℝ} (ha : a.Near x d) (hb : b.Near y e) (h : x + d + e ≤ y) : a ≤ b := by
  obtain ⟨v, hv, h1⟩ := ha
  obtain ⟨w, hw, h2⟩ := hb
  change a.val ≤ b.val
  rw [hv, hw, XReal.fin_le]
  rw [_root_.abs_le] at h1 h2
  linarith

/-- `np.isclose` in floating-point arithmetic: numbers within `9e-9` compare as close. -/
theorem isclose_near {a b : Fl F} {x d e M : ℝ} {r : ℚ} (ha : a.Near x d) (hb : b.Near x e) (hde : d + e ≤ 9 / 1000000000)
    (hM : 1 ≤ M) (hx : |x| ≤ M) (hu : 30000000000 * (F.u * M) ≤ 1) (hbig : 2 * M ≤ F.big) (hr0 : 0 ≤ r) (hr : r ≤ 1 / 100000) :
    isclose a b (lit r) (lit (1 / 100000000)) := by
  right
  have hu0 := F.u_nonneg
  have hu1 := F.u_le
  have η0 := F.η_nonneg
  have ηu := F.η_le
  have d0 := ha.nonneg
  have e0 := hb.nonneg
  have big := F.big_ge
  have rr0 : (0 : ℝ) ≤ (r : ℝ) := by exact_mod_cast hr0
  have rr : (r : ℝ) ≤ 1 / 100000 := by
    have := (Rat.cast_le (K := ℝ)).2 hr
    push_cast at this
    exact this
  have ar : |(r : ℝ)| = r := abs_of_nonneg rr0
  have ux : F.u * |x| ≤ F.u * M := mul_le_mul_of_nonneg_left hx hu0
  have uM : F.u ≤ F.u * M := le_mul_of_one_le_right hu0 hM
  have xa := abs_nonneg x
  have l := (ha.sub hb (f := 92 / 10000000000) (by
      rw [sub_self, abs_zero, zero_add]
      have : F.u * (d + e) ≤ F.u * 1 := mul_le_mul_of_nonneg_left (by linarith) hu0
      linarith) (by rw [sub_self, abs_zero]; linarith)).abs
  rw [sub_self, abs_zero] at l
  have lr := near_lit_abs (F := F) r (by rw [ar]; linarith)
  rw [ar] at lr
  have ur : F.u * (r : ℝ) ≤ F.u := by nlinarith
  have lr' := lr.mono (e := 2 * F.u) (by linarith)
  have la := near_lit_abs (F := F) (1 / 100000000) (by norm_num [abs_of_pos])
  have la' : (lit (1 / 100000000) : Fl F).Near (1 / 100000000) (2 * F.u) := by
    have h2 : |((1 / 100000000 : ℚ) : ℝ)| ≤ 1 := by norm_num [abs_of_pos]
    have := la.mono (e := 2 * F.u) (by nlinarith)
    convert this using 1
    norm_num
  have m := lr'.mul hb.abs (f := 4 * (F.u * M) + 1 / 10000000000) (by
      rw [abs_abs, abs_mul, ar, abs_abs]
      have h1 : (r : ℝ) * e ≤ 1 / 100000 * (9 / 1000000000) := mul_le_mul rr (by linarith) e0 (by norm_num)
      have h2 : 2 * F.u * e ≤ F.u * M := by nlinarith
      have h3 : (r : ℝ) * |x| ≤ 1 / 100000 * M := mul_le_mul rr hx xa (by norm_num)
      have h4 : F.u * ((r : ℝ) * |x|) ≤ F.u * (1 / 100000 * M) := mul_le_mul_of_nonneg_left h3 hu0
      have h5 : F.u * ((r : ℝ) * e + |x| * (2 * F.u) + 2 * F.u * e) ≤ 1 / 1024 * ((r : ℝ) * e + |x| * (2 * F.u) + 2 * F.u * e) :=
        mul_le_mul_of_nonneg_right hu1 (by positivity)
      rw [mul_add F.u]
      nlinarith) (by
      rw [abs_mul, ar, abs_abs]
      nlinarith)
  have s := la'.add m (f := 12 * (F.u * M) + 1 / 5000000000) (by
      have h3 : (r : ℝ) * |x| ≤ 1 / 100000 * M := mul_le_mul rr hx xa (by norm_num)
      have h4 : F.u * ((r : ℝ) * |x|) ≤ F.u * (1 / 100000 * M) := mul_le_mul_of_nonneg_left h3 hu0
      rw [abs_of_nonneg (by positivity)]
      have h5 : F.u * (2 * F.u + (4 * (F.u * M) + 1 / 10000000000)) ≤ F.u * 1 := mul_le_mul_of_nonneg_left (by nlinarith) hu0
      rw [mul_add F.u, mul_add F.u]
      nlinarith) (by
      rw [abs_of_nonneg (by positivity)]
      have h3 : (r : ℝ) * |x| ≤ 1 / 100000 * M := mul_le_mul rr hx xa (by norm_num)
      nlinarith)
  have hp : 0 ≤ (r : ℝ) * |x| := by positivity
  exact near_le l s (by linarith)

/-- A computed transform near a rigid one whose position is within `L` of the origin. -/
structure TN (L a c : ℝ) (T' : Transform (Fl F)) (T : Transform ℝ) : Prop where
  rot : IsRot T.R
  len : T.p.norm ≤ L
  R : Spec.MNear T'.R T.R (a * F.u)
  p : Spec.VNear T'.p T.p (c * (F.u * L))

theorem TN.inv {L a c : ℝ} {T' : Transform (Fl F)} {T : Transform ℝ} (h : TN L a c T' T) (h0 : 0 < L) (hη : F.η ≤ F.u * L) (hbig : 5 * L ≤ F.big)
    (ha : a * F.u ≤ 1 / 16) (hc : c * F.u ≤ 1 / 16) : TN L a (a + 17 / 16 * c + 30) T'.inv T.inv := by
  obtain ⟨r, l, R, p⟩ := h
  have uL : 0 ≤ F.u * L := mul_nonneg F.u_nonneg h0.le
  have rt := r.transpose
  obtain ⟨C, hC, hCR⟩ := mNear_iff.1 R
  have Rt : Spec.MNear T'.R.transpose T.R.transpose (a * F.u) := by
    refine mNear_iff.2 ⟨C.transpose, by rw [hC]; rfl, ?_⟩
    rw [show C.transpose - T.R.transpose = (C - T.R).transpose by ext <;> simp]
    exact hCR.transpose
  have a0 := hCR.nonneg
  have m := MNear.mulVec Rt p rt ha l (by nlinarith) h0 hη hbig
  have c0 : 0 ≤ c * (F.u * L) := by
    obtain ⟨w, -, hw⟩ := p
    exact (V3.norm_nonneg _).trans hw
  refine ⟨rt, ?_, Rt, ?_⟩
  · rw [show T.inv.p = -(T.R.transpose.mulVec T.p) from rfl, V3.norm_neg, rt.norm_mulVec]
    exact l
  · obtain ⟨w, hw, hwn⟩ := m
    refine ⟨-w, ?_, ?_⟩
    · rw [show T'.inv.p = -(T'.R.transpose.mulVec T'.p) from rfl, hw]
      rfl
    · rw [show T.inv.p = -(T.R.transpose.mulVec T.p) from rfl, show -w - -(T.R.transpose.mulVec T.p) = -(w - T.R.transpose.mulVec T.p) by ext <;> simp <;> ring,
        V3.norm_neg]
      refine hwn.trans ?_
      have h1 : a * F.u * T.p.norm ≤ a * F.u * L := mul_le_mul_of_nonneg_left l a0
      have h2 : a * F.u * (c * (F.u * L)) ≤ 1 / 16 * (c * (F.u * L)) := mul_le_mul_of_nonneg_right ha c0
      linarith

theorem TN.mul {L a b c d : ℝ} {A' B' : Transform (Fl F)} {A B : Transform ℝ} (hA : TN L a c A' A) (hB : TN L b d B' B) (h0 : 0 < L)
    (hη : F.η ≤ F.u * L) (hbig : 5 * L ≤ F.big) (ha : a * F.u ≤ 1 / 16) (hb : b * F.u ≤ 1 / 16) (hl : (A * B).p.norm ≤ L)
    (hc : (a + c + 17 / 16 * d + 30) * F.u ≤ 1 / 16) :
    TN L (a + 17 / 16 * b + 45) (a + c + 17 / 16 * d + 35) (A' * B') (A * B) := by
  obtain ⟨rA, lA, RA, pA⟩ := hA
  obtain ⟨rB, lB, RB, pB⟩ := hB
  have hu := F.u_nonneg
  have uL : 0 ≤ F.u * L := mul_nonneg hu h0.le
  have a0 : 0 ≤ a * F.u := (mNear_iff.1 RA).elim fun _ h => h.2.nonneg
  have b0 : 0 ≤ b * F.u := (mNear_iff.1 RB).elim fun _ h => h.2.nonneg
  have c0 : 0 ≤ c * (F.u * L) := by
    obtain ⟨w, -, hw⟩ := pA
    exact (V3.norm_nonneg _).trans hw
  have d0 : 0 ≤ d * (F.u * L) := by
    obtain ⟨w, -, hw⟩ := pB
    exact (V3.norm_nonneg _).trans hw
  have hcL : (a + c + 17 / 16 * d + 30) * F.u * L ≤ 1 / 16 * L := mul_le_mul_of_nonneg_right hc h0.le
  have aL : 0 ≤ a * F.u * L := by positivity
  refine ⟨rA.mul rB, hl, MNear.mono (MNear.mul RA RB rA rB ha hb) ?_, ?_⟩
  · have : a * F.u * (b * F.u) ≤ 1 / 16 * (b * F.u) := mul_le_mul_of_nonneg_right ha b0
    linarith
  · have m := MNear.mulVec RA pB rA ha lB (by linarith) h0 hη hbig
    have h1 : a * F.u * B.p.norm ≤ a * F.u * L := mul_le_mul_of_nonneg_left lB a0
    have h2 : a * F.u * (d * (F.u * L)) ≤ 1 / 16 * (d * (F.u * L)) := mul_le_mul_of_nonneg_right ha d0
    have m' := VNear.mono m (e := a * F.u * L + 17 / 16 * (d * (F.u * L)) + 30 * (F.u * L)) (by linarith)
    have hl' : (A.p + A.R.mulVec B.p).norm ≤ L := hl
    have s := VNear.add (s := L) pA m' h0 (by linarith) hη hbig
    exact VNear.mono s (by linarith)

/-- Two computed transforms near the same rigid one compare as equal. -/
theorem eq_near {L ε δ : ℝ} {A' B' : Transform (Fl F)} {T : Transform ℝ} (rA : IsRot T.R) (RA : Spec.MNear A'.R T.R ε) (pA : Spec.VNear A'.p T.p ε)
    (RB : Spec.MNear B'.R T.R δ) (pB : Spec.VNear B'.p T.p δ) (h : ε + δ ≤ 9 / 1000000000) (hL : 1 ≤ L) (lA : T.p.norm ≤ L)
    (hu : 30000000000 * (F.u * L) ≤ 1) (hbig : 2 * L ≤ F.big) : A'.eq B' = true := by
  obtain ⟨⟨r00, r10, r20⟩, ⟨r01, r11, r21⟩, r02, r12, r22⟩ := rA.opLe.entries
  have qx := (V3.abs_x_le T.p).trans lA
  have qy := (V3.abs_y_le T.p).trans lA
  have qz := (V3.abs_z_le T.p).trans lA
  obtain ⟨px, py, pz⟩ := VNear.entries pA
  obtain ⟨sx, sy, sz⟩ := VNear.entries pB
  have ent : ∀ {M : M3 (Fl F)} {e : ℝ}, Spec.MNear M T.R e → (M.a00.Near T.R.a00 e ∧ M.a01.Near T.R.a01 e ∧ M.a02.Near T.R.a02 e) ∧
      (M.a10.Near T.R.a10 e ∧ M.a11.Near T.R.a11 e ∧ M.a12.Near T.R.a12 e) ∧ M.a20.Near T.R.a20 e ∧ M.a21.Near T.R.a21 e ∧ M.a22.Near T.R.a22 e := by
    intro M e h
    obtain ⟨C, rfl, hC⟩ := mNear_iff.1 h
    obtain ⟨⟨c00, c10, c20⟩, ⟨c01, c11, c21⟩, c02, c12, c22⟩ := hC.entries
    exact ⟨⟨⟨_, rfl, c00⟩, ⟨_, rfl, c01⟩, ⟨_, rfl, c02⟩⟩, ⟨⟨_, rfl, c10⟩, ⟨_, rfl, c11⟩, ⟨_, rfl, c12⟩⟩, ⟨_, rfl, c20⟩, ⟨_, rfl, c21⟩, ⟨_, rfl, c22⟩⟩
  obtain ⟨⟨A00, A01, A02⟩, ⟨A10, A11, A12⟩, A20, A21, A22⟩ := ent RA
  obtain ⟨⟨B00, B01, B02⟩, ⟨B10, B11, B12⟩, B20, B21, B22⟩ := ent RB
  have cp : ∀ {x' y' : Fl F} {x : ℝ}, x'.Near x ε → y'.Near x δ → |x| ≤ L →
      isclose x' y' (lit (1 / 1000000)) (lit (1 / 100000000)) := fun h1 h2 h3 =>
    isclose_near h1 h2 h hL h3 hu hbig (by norm_num) (by norm_num)
  have cr : ∀ {x' y' : Fl F} {x : ℝ}, x'.Near x ε → y'.Near x δ → |x| ≤ 1 →
      isclose x' y' (lit (1 / 1000000)) (lit (1 / 100000000)) := fun h1 h2 h3 => cp h1 h2 (h3.trans hL)
  simp only [Transform.eq, Transform.allIsclose, M3.toList, V3.toList, List.zip_cons_cons, List.zip_nil_right, List.all_cons, List.all_nil, Bool.and_true,
    Bool.and_eq_true, decide_eq_true_eq]
  exact ⟨⟨cr A00 B00 r00, cr A01 B01 r01, cr A02 B02 r02, cr A10 B10 r10, cr A11 B11 r11, cr A12 B12 r12, cr A20 B20 r20, cr A21 B21 r21, cr A22 B22 r22⟩,
    cp px sx qx, cp py sy qy, cp pz sz qz⟩

theorem TN.eq {L a b c d : ℝ} {A' B' : Transform (Fl F)} {T : Transform ℝ} (hA : TN L a c A' T) (hB : TN L b d B' T) (hL : 1 ≤ L)
    (hbig : 5 * L ≤ F.big) (e f : ℝ) (hef : e + f ≤ 900 ∧ 0 ≤ e ∧ 0 ≤ f) (hac : a ≤ e ∧ c ≤ e) (hbd : b ≤ f ∧ d ≤ f)
    (hu : 100000000000 * (F.u * L) ≤ 1) : A'.eq B' = true := by
  obtain ⟨h0, h1, h2⟩ := hef
  have hu0 := F.u_nonneg
  have uL : F.u ≤ F.u * L := le_mul_of_one_le_right hu0 hL
  have uL0 : 0 ≤ F.u * L := hu0.trans uL
  have key : ∀ {a e : ℝ}, 0 ≤ e → a ≤ e → a * F.u ≤ e * (F.u * L) := fun h1 h2 =>
    (mul_le_mul_of_nonneg_right h2 hu0).trans (mul_le_mul_of_nonneg_left uL h1)
  refine eq_near hA.rot (MNear.mono hA.R (key h1 hac.1)) (VNear.mono hA.p (mul_le_mul_of_nonneg_right hac.2 uL0))
    (MNear.mono hB.R (key h2 hbd.1)) (VNear.mono hB.p (mul_le_mul_of_nonneg_right hbd.2 uL0)) ?_ hL hA.len (by linarith) (by linarith)
  have : (e + f) * (F.u * L) ≤ 900 * (F.u * L) := mul_le_mul_of_nonneg_right h0 uL0
  linarith

theorem TN.mono {L a b c d : ℝ} {T' : Transform (Fl F)} {T : Transform ℝ} (h : TN L a c T' T) (hL : 0 ≤ L) (hab : a ≤ b) (hcd : c ≤ d) :
    TN L b d T' T :=
  ⟨h.rot, h.len, MNear.mono h.R (mul_le_mul_of_nonneg_right hab F.u_nonneg),
    VNear.mono h.p (mul_le_mul_of_nonneg_right hcd (mul_nonneg F.u_nonneg hL))⟩

theorem TN.congr {L a c : ℝ} {T' : Transform (Fl F)} {T S : Transform ℝ} (h : TN L a c T' T) (hR : T.R = S.R) (hp : T.p = S.p) : TN L a c T' S :=
  ⟨hR ▸ h.rot, hp ▸ h.len, hR ▸ h.R, hp ▸ h.p⟩

theorem TN.of_near {L : ℝ} {T' : Transform (Fl F)} {T : Transform ℝ} (h : Spec.TNear T' T) (hL : T.p.norm ≤ L) : TN L 1 1 T' T := by
  obtain ⟨r, R, p⟩ := h
  refine ⟨r, hL, by rwa [one_mul], VNear.mono p ?_⟩
  rw [one_mul]
  exact mul_le_mul_of_nonneg_left hL F.u_nonneg

theorem norm_mul_p {A B : Transform ℝ} (hA : IsRot A.R) : (A * B).p.norm ≤ A.p.norm + B.p.norm := by
  have := V3.norm_add_le A.p (A.R.mulVec B.p)
  rwa [hA.norm_mulVec] at this

theorem norm_inv_p {A : Transform ℝ} (hA : IsRot A.R) : A.inv.p.norm = A.p.norm := by
  rw [show A.inv.p = -(A.R.transpose.mulVec A.p) from rfl, V3.norm_neg, hA.transpose.norm_mulVec]

end Fl

section
variable {α : Type} [Add α] [Sub α] [Mul α] [Div α] [Neg α] [Zero α] [One α] [LT α] [LE α]
  [DecidableLT α] [DecidableLE α] [Elem α]

/-- The tool as a transform, when there is one. -/
def toolT (R : Option (M3 α)) (p : Option (V3 α)) : Option (Transform α) := match R, p with
  | some R, some p => some ⟨R, p, none, none⟩
  | _, _ => none

theorem optTool_eq (R : Option (M3 α)) (p : Option (V3 α)) (T : Transform α) : optTool R p T = optRight (toolT R p) T := by
  cases R <;> cases p <;> rfl

theorem unapplyAux_eq (robot : Robot α) (T : Transform α) :
    unapplyAux robot T = optLeft (robot.Tbase.map Transform.inv) (optRight (robot.Tflange.map Transform.inv)
      (optRight ((toolT robot.Rtool robot.ptool).map Transform.inv) T)) := by
  simp only [unapplyAux, optLeft, optRight, toolT]
  cases robot.Tbase <;> cases robot.Rtool <;> cases robot.ptool <;> cases robot.Tflange <;> rfl

end

namespace Fl
variable {F : FSys}

/-- Length of the position of an optional transform. -/
noncomputable def optLen (B : Option (Transform ℝ)) : ℝ := (B.map (·.p.norm)).getD 0

theorem optLen_nonneg (B : Option (Transform ℝ)) : 0 ≤ optLen B := by cases B <;> simp [optLen, V3.norm_nonneg]

/-- A transform near a rigid one with a position of length at most `ℓ`. -/
structure TNL (L ℓ a c : ℝ) (T' : Transform (Fl F)) (T : Transform ℝ) : Prop where
  tn : TN L a c T' T
  short : T.p.norm ≤ ℓ

theorem TNL.right {L ℓ a c b d a' c' : ℝ} {T' : Transform (Fl F)} {T : Transform ℝ} {B' : Option (Transform (Fl F))} {B : Option (Transform ℝ)}
    (h : TNL L ℓ a c T' T) (hB : Option.Rel (TN L b d) B' B) (h0 : 0 < L) (hη : F.η ≤ F.u * L) (hbig : 5 * L ≤ F.big)
    (ha : a * F.u ≤ 1 / 16) (hb : b * F.u ≤ 1 / 16) (hc : (a + c + 17 / 16 * d + 30) * F.u ≤ 1 / 16) (hl : ℓ + optLen B ≤ L)
    (ha' : a + 17 / 16 * b + 45 ≤ a') (hc' : a + c + 17 / 16 * d + 35 ≤ c') (a0 : 0 ≤ a) (b0 : 0 ≤ b) (d0 : 0 ≤ d) :
    TNL L (ℓ + optLen B) a' c' (optRight B' T') (optRight B T) := by
  obtain ⟨h, hs⟩ := h
  cases hB with
  | none =>
    refine ⟨h.mono h0.le (by linarith) (by linarith), ?_⟩
    simpa [optLen, optRight] using hs
  | @some B' B hB =>
    have hn := (norm_mul_p (B := B) h.rot).trans (add_le_add_left hs _)
    exact ⟨(h.mul hB h0 hη hbig ha hb (hn.trans hl) hc).mono h0.le ha' hc', hn⟩

theorem TNL.left {L ℓ a c b d a' c' : ℝ} {T' : Transform (Fl F)} {T : Transform ℝ} {B' : Option (Transform (Fl F))} {B : Option (Transform ℝ)}
    (h : TNL L ℓ a c T' T) (hB : Option.Rel (TN L b d) B' B) (h0 : 0 < L) (hη : F.η ≤ F.u * L) (hbig : 5 * L ≤ F.big)
    (ha : a * F.u ≤ 1 / 16) (hb : b * F.u ≤ 1 / 16) (hc : (b + d + 17 / 16 * c + 30) * F.u ≤ 1 / 16) (hl : ℓ + optLen B ≤ L)
    (ha' : b + 17 / 16 * a + 45 ≤ a') (hc' : b + d + 17 / 16 * c + 35 ≤ c') (a0 : 0 ≤ a) (b0 : 0 ≤ b) (c0 : 0 ≤ c) (d0 : 0 ≤ d) :
    TNL L (ℓ + optLen B) a' c' (optLeft B' T') (optLeft B T) := by
  obtain ⟨h, hs⟩ := h
  cases hB with
  | none =>
    refine ⟨h.mono h0.le (by linarith) (by linarith), ?_⟩
    simpa [optLen, optLeft] using hs
  | @some B' B hB =>
    have hn : (B * T).p.norm ≤ ℓ + B.p.norm := (norm_mul_p (B := T) hB.rot).trans (by linarith)
    exact ⟨(hB.mul h h0 hη hbig hb ha (hn.trans hl) hc).mono h0.le ha' hc', hn⟩

/-- `unapply_robot_aux_transforms` after `apply_robot_aux_transforms`. -/
theorem unapply_apply_near {robot' : Robot (Fl F)} {robot : Robot ℝ} {T' : Transform (Fl F)} {T : Transform ℝ} {L : ℝ}
    (hF : Option.Rel Spec.TNear robot'.Tflange robot.Tflange) (hB : Option.Rel Spec.TNear robot'.Tbase robot.Tbase)
    (hX : Option.Rel Spec.TNear (toolT robot'.Rtool robot'.ptool) (toolT robot.Rtool robot.ptool)) (hT : Spec.TNear T' T)
    (hl : T.p.norm + 2 * optLen robot.Tflange + 2 * optLen (toolT robot.Rtool robot.ptool) + 2 * optLen robot.Tbase ≤ L) (hL : 1 ≤ L)
    (hbig : 5 * L ≤ F.big) (hu : 100000000000 * (F.u * L) ≤ 1) :
    TN L 303 762 (unapplyAux robot' (applyAux robot' T')) (unapplyAux robot (applyAux robot T)) := by
  have hu0 := F.u_nonneg
  have uL : F.u ≤ F.u * L := le_mul_of_one_le_right hu0 hL
  have hη : F.η ≤ F.u * L := F.η_le.trans uL
  have h0 : 0 < L := by linarith
  have small : F.u ≤ 1 / 100000000000 := by linarith
  rw [applyAux_eq, applyAux_eq, unapplyAux_eq, unapplyAux_eq, optTool_eq, optTool_eq]
  have nf := optLen_nonneg robot.Tflange
  have nx := optLen_nonneg (toolT robot.Rtool robot.ptool)
  have nb := optLen_nonneg robot.Tbase
  have nT := T.p.norm_nonneg
  generalize robot.Tflange = A at *
  generalize robot.Tbase = B at *
  generalize toolT robot.Rtool robot.ptool = X at *
  generalize robot'.Tflange = A' at *
  generalize robot'.Tbase = B' at *
  generalize toolT robot'.Rtool robot'.ptool = X' at *
  have tn : ∀ {B' : Option (Transform (Fl F))} {B : Option (Transform ℝ)}, Option.Rel Spec.TNear B' B → optLen B ≤ L →
      Option.Rel (TN L 1 1) B' B ∧ Option.Rel (TN L 1 33) (B'.map Transform.inv) (B.map Transform.inv) ∧ optLen (B.map Transform.inv) = optLen B := by
    intro B' B h hl
    cases h with
    | none => exact ⟨.none, .none, rfl⟩
    | @some B' B h =>
      have t := TN.of_near h hl
      exact ⟨.some t, .some ((t.inv h0 hη hbig (by linarith) (by linarith)).mono h0.le le_rfl (by norm_num)), norm_inv_p t.rot⟩
  obtain ⟨f1, f2, f3⟩ := tn hF (by linarith)
  obtain ⟨x1, x2, x3⟩ := tn hX (by linarith)
  obtain ⟨b1, b2, b3⟩ := tn hB (by linarith)
  have i0 : TNL L T.p.norm 1 1 T' T := ⟨TN.of_near hT (by linarith), le_rfl⟩
  have i1 := i0.right f1 (a' := 48) (c' := 39) h0 hη hbig (by linarith) (by linarith) (by linarith) (by linarith) (by norm_num) (by norm_num)
    (by norm_num) (by norm_num) (by norm_num)
  have i2 := i1.right x1 (a' := 95) (c' := 124) h0 hη hbig (by linarith) (by linarith) (by linarith) (by linarith) (by norm_num) (by norm_num)
    (by norm_num) (by norm_num) (by norm_num)
  have i3 := i2.left b1 (a' := 147) (c' := 169) h0 hη hbig (by linarith) (by linarith) (by linarith) (by linarith) (by norm_num) (by norm_num)
    (by norm_num) (by norm_num) (by norm_num) (by norm_num)
  have i4 := i3.right x2 (a' := 194) (c' := 387) h0 hη hbig (by linarith) (by linarith) (by linarith) (by linarith) (by norm_num) (by norm_num)
    (by norm_num) (by norm_num) (by norm_num)
  have i5 := i4.right f2 (a' := 241) (c' := 652) h0 hη hbig (by linarith) (by linarith) (by linarith) (by linarith) (by norm_num) (by norm_num)
    (by norm_num) (by norm_num) (by norm_num)
  have i6 := i5.left b2 (a' := 303) (c' := 762) h0 hη hbig (by linarith) (by linarith) (by linarith) (by linarith) (by norm_num) (by norm_num)
    (by norm_num) (by norm_num) (by norm_num) (by norm_num)
  exact i6.tn

end Fl
