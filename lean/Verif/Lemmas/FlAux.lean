import Verif.Lemmas.FlKin
import Verif.Lemmas.ListM

/-! # Rounding error of the auxiliary transforms -/
set_option autoImplicit false

section
variable {α : Type} [Add α] [Sub α] [Mul α] [Div α] [Neg α] [Zero α] [One α] [LT α] [LE α]
  [DecidableLT α] [DecidableLE α] [Elem α]

def optRight (B : Option (Transform α)) (T : Transform α) : Transform α := match B with
  | some B => T * B
  | none => T
def optLeft (B : Option (Transform α)) (T : Transform α) : Transform α := match B with
  | some B => B * T
  | none => T
def optTool (R : Option (M3 α)) (p : Option (V3 α)) (T : Transform α) : Transform α := match R, p with
  | some R, some p => T * ⟨R, p, none, none⟩
  | _, _ => T

theorem applyAux_eq (robot : Robot α) (T : Transform α) :
    applyAux robot T = optLeft robot.Tbase (optTool robot.Rtool robot.ptool (optRight robot.Tflange T)) := by
  simp only [applyAux, optLeft, optTool, optRight]
  cases robot.Tbase <;> cases robot.Rtool <;> cases robot.ptool <;> cases robot.Tflange <;> rfl

end

namespace Fl
variable {F : FSys}

/-- Invariant of the composition of transforms: after `k` of them, total length `ℓ`. -/
structure Inv (L : ℝ) (T' : Transform (Fl F)) (T : Transform ℝ) (k ℓ : ℝ) : Prop where
  rot : IsRot T.R
  len : T.p.norm ≤ ℓ
  nearR : Spec.MNear T'.R T.R (256 * k * F.u)
  nearp : Spec.VNear T'.p T.p (F.u * L + 256 * k * F.u * ℓ + 81 * k * (F.u * L))

theorem Inv.mono {L : ℝ} (h0 : 0 < L) {T' : Transform (Fl F)} {T : Transform ℝ} {k k' ℓ : ℝ} (h : Inv L T' T k ℓ) (hk : k ≤ k') (hℓ : 0 ≤ ℓ) :
    Inv L T' T k' ℓ := by
  have hu := F.u_nonneg
  have e1 : k * F.u ≤ k' * F.u := mul_le_mul_of_nonneg_right hk hu
  have e2 : k * F.u * ℓ ≤ k' * F.u * ℓ := mul_le_mul_of_nonneg_right e1 hℓ
  have e3 : k * (F.u * L) ≤ k' * (F.u * L) := mul_le_mul_of_nonneg_right hk (by positivity)
  exact ⟨h.rot, h.len, MNear.mono h.nearR (by linarith), VNear.mono h.nearp (by linarith)⟩

theorem Inv.bounds {L k ℓ : ℝ} (h0 : 0 < L) (hk : 0 ≤ k) (hℓL : ℓ ≤ L) (hu : 5408 * (k + 1) * F.u ≤ 1) :
    256 * k * F.u + 256 * F.u ≤ 1 / 16 ∧ F.u * L + 256 * (k + 1) * F.u * ℓ + 81 * (k + 1) * (F.u * L) ≤ L / 16 := by
  have hu0 := F.u_nonneg
  have ku : 0 ≤ k * F.u := by positivity
  have e1 : (k + 1) * F.u * ℓ ≤ (k + 1) * F.u * L := mul_le_mul_of_nonneg_left hℓL (by positivity)
  have e2 : 5408 * (k + 1) * F.u * L ≤ 1 * L := mul_le_mul_of_nonneg_right hu h0.le
  have e3 : 0 ≤ k * F.u * L := by positivity
  constructor
  · linarith
  · nlinarith

/-- Composition on the right (flange, tool). -/
theorem Inv.mul {L : ℝ} (h0 : 0 < L) (hη : F.η ≤ F.u * L) (hbig : 5 * L ≤ F.big) {T' B' : Transform (Fl F)} {T B : Transform ℝ} {k ℓ : ℝ}
    (h : Inv L T' T k ℓ) (hB : Spec.TNear B' B) (hk : 0 ≤ k) (hu : 5408 * (k + 1) * F.u ≤ 1) (hℓ : ℓ + B.p.norm ≤ L) :
    Inv L (T' * B') (T * B) (k + 1) (ℓ + B.p.norm) := by
  obtain ⟨rB, nB, pB⟩ := hB
  obtain ⟨rT, lT, nT, pT⟩ := h
  have hu0 := F.u_nonneg
  have hu1 := F.u_le
  have nl := B.p.norm_nonneg
  have ℓ0 : 0 ≤ ℓ := T.p.norm_nonneg.trans lT
  obtain ⟨b1, b2⟩ := Inv.bounds (F := F) h0 hk hℓ hu
  have ku : 0 ≤ k * F.u := by positivity
  have uL : 0 ≤ F.u * L := by positivity
  have kuL : 0 ≤ k * (F.u * L) := by positivity
  have kul : 0 ≤ k * F.u * B.p.norm := by positivity
  have ull : 0 ≤ F.u * B.p.norm := by positivity
  have uℓ : 0 ≤ F.u * ℓ := by positivity
  refine ⟨rT.mul rB, ?_, ?_, ?_⟩
  · refine (V3.norm_add_le T.p (T.R.mulVec B.p)).trans ?_
    rw [rT.norm_mulVec]
    linarith
  · refine MNear.mono (MNear.mul nT nB rT rB (by linarith) (by linarith)) ?_
    nlinarith
  · refine VNear.mono (link_near nT pT pB rT (by linarith) (by linarith) h0 hη hbig ?_) ?_
    · nlinarith
    · nlinarith

/-- Composition on the left (base). -/
theorem Inv.lmul {L : ℝ} (h0 : 0 < L) (hη : F.η ≤ F.u * L) (hbig : 5 * L ≤ F.big) {T' B' : Transform (Fl F)} {T B : Transform ℝ} {k ℓ : ℝ}
    (h : Inv L T' T k ℓ) (hB : Spec.TNear B' B) (hk : 0 ≤ k) (hu : 5408 * (k + 1) * F.u ≤ 1) (hℓ : ℓ + B.p.norm ≤ L) :
    Inv L (B' * T') (B * T) (k + 1) (ℓ + B.p.norm) := by
  obtain ⟨rB, nB, pB⟩ := hB
  obtain ⟨rT, lT, nT, pT⟩ := h
  have hu0 := F.u_nonneg
  have hu1 := F.u_le
  have nl := B.p.norm_nonneg
  have ℓ0 : 0 ≤ ℓ := T.p.norm_nonneg.trans lT
  obtain ⟨b1, b2⟩ := Inv.bounds (F := F) h0 hk hℓ hu
  have ku : 0 ≤ k * F.u := by positivity
  have uL : 0 ≤ F.u * L := by positivity
  have kuL : 0 ≤ k * (F.u * L) := by positivity
  have kul : 0 ≤ k * F.u * B.p.norm := by positivity
  have ull : 0 ≤ F.u * B.p.norm := by positivity
  have uℓ : 0 ≤ F.u * ℓ := by positivity
  have hlen : (B.p + B.R.mulVec T.p).norm ≤ ℓ + B.p.norm := by
    refine (V3.norm_add_le B.p (B.R.mulVec T.p)).trans ?_
    rw [rB.norm_mulVec]
    linarith
  refine ⟨rB.mul rT, hlen, ?_, ?_⟩
  · refine MNear.mono (MNear.mul nB nT rB rT (by linarith) (by linarith)) ?_
    nlinarith
  · set f := F.u * L + 256 * k * F.u * ℓ + 81 * k * (F.u * L) with hf
    have fle : f + 256 * F.u * ℓ + 81 * (F.u * L) ≤ L / 16 := by rw [hf]; nlinarith
    have f0 : 0 ≤ f := by rw [hf]; positivity
    have m := MNear.mulVec (s := L) nB pT rB (by linarith) (by linarith) (by linarith) h0 hη hbig
    have uf : F.u * f ≤ F.u * L := mul_le_mul_of_nonneg_left (by linarith) hu0
    have uT : F.u * T.p.norm ≤ F.u * L := mul_le_mul_of_nonneg_left (by linarith) hu0
    have uB : F.u * B.p.norm ≤ F.u * L := mul_le_mul_of_nonneg_left (by linarith) hu0
    have m' := VNear.mono m (e := f + 32 * (F.u * L)) (by linarith)
    have s := VNear.add (s := L) pB m' h0 (by linarith) hη hbig
    refine VNear.mono s ?_
    nlinarith

theorem Inv.right {L : ℝ} (h0 : 0 < L) (hη : F.η ≤ F.u * L) (hbig : 5 * L ≤ F.big) {T' : Transform (Fl F)} {T : Transform ℝ} {k ℓ : ℝ}
    (h : Inv L T' T k ℓ) {B' : Option (Transform (Fl F))} {B : Option (Transform ℝ)} (hB : Option.Rel Spec.TNear B' B) (hk : 0 ≤ k)
    (hu : 5408 * (k + 1) * F.u ≤ 1) (hℓ : ℓ + (B.map (·.p.norm)).getD 0 ≤ L) :
    Inv L (optRight B' T') (optRight B T) (k + 1)
      (ℓ + (B.map (·.p.norm)).getD 0) := by
  cases hB with
  | none =>
    simp only [Option.map_none, Option.getD_none, add_zero] at hℓ ⊢
    exact h.mono h0 (by linarith) (T.p.norm_nonneg.trans h.len)
  | some hB => exact h.mul h0 hη hbig hB hk hu hℓ

theorem Inv.left {L : ℝ} (h0 : 0 < L) (hη : F.η ≤ F.u * L) (hbig : 5 * L ≤ F.big) {T' : Transform (Fl F)} {T : Transform ℝ} {k ℓ : ℝ}
    (h : Inv L T' T k ℓ) {B' : Option (Transform (Fl F))} {B : Option (Transform ℝ)} (hB : Option.Rel Spec.TNear B' B) (hk : 0 ≤ k)
    (hu : 5408 * (k + 1) * F.u ≤ 1) (hℓ : ℓ + (B.map (·.p.norm)).getD 0 ≤ L) :
    Inv L (optLeft B' T') (optLeft B T) (k + 1)
      (ℓ + (B.map (·.p.norm)).getD 0) := by
  cases hB with
  | none =>
    simp only [Option.map_none, Option.getD_none, add_zero] at hℓ ⊢
    exact h.mono h0 (by linarith) (T.p.norm_nonneg.trans h.len)
  | some hB => exact h.lmul h0 hη hbig hB hk hu hℓ

theorem Inv.tool {L : ℝ} (h0 : 0 < L) (hη : F.η ≤ F.u * L) (hbig : 5 * L ≤ F.big) {T' : Transform (Fl F)} {T : Transform ℝ} {k ℓ : ℝ}
    (h : Inv L T' T k ℓ) {R' : Option (M3 (Fl F))} {R : Option (M3 ℝ)} {p' : Option (V3 (Fl F))} {p : Option (V3 ℝ)}
    (hR : Option.Rel (fun R' R => IsRot R ∧ Spec.MNear R' R F.u) R' R) (hp : Option.Rel (fun p' p => Spec.VNear p' p (F.u * p.norm)) p' p)
    (hk : 0 ≤ k) (hu : 5408 * (k + 1) * F.u ≤ 1) (hℓ : ℓ + (p.map V3.norm).getD 0 ≤ L) :
    Inv L (optTool R' p' T') (optTool R p T) (k + 1) (ℓ + (p.map V3.norm).getD 0) := by
  have hT := T.p.norm_nonneg.trans h.len
  cases hp with
  | none =>
    simp only [Option.map_none, Option.getD_none, add_zero] at hℓ ⊢
    cases hR <;> exact h.mono h0 (by linarith) hT
  | @some p' p hp =>
    cases hR with
    | none =>
      have := h.mono (k' := k + 1) h0 (by linarith) hT
      simp only [Option.map_some, Option.getD_some] at hℓ ⊢
      have np := p.norm_nonneg
      refine ⟨this.rot, this.len.trans (by linarith), this.nearR, VNear.mono this.nearp ?_⟩
      have hu0 := F.u_nonneg
      have : 0 ≤ (k + 1) * F.u * p.norm := by positivity
      nlinarith
    | some hR => exact h.mul (B' := ⟨_, _, none, none⟩) (B := ⟨_, _, none, none⟩) h0 hη hbig ⟨hR.1, hR.2, hp⟩ hk hu hℓ

end Fl
