import Verif.Lemmas.FlData
import Verif.Lemmas.FlAux

/-! # Forward kinematics in floating-point arithmetic of a robot with auxiliary transforms whose data are known up to `e` -/
set_option autoImplicit false

namespace Spec
variable {F : FSys}

/-- A transform whose entries are stored with relative error `e`. -/
def TNearE (e : ℝ) (T' : Transform (Fl F)) (T : Transform ℝ) : Prop :=
  IsRot T.R ∧ MNear T'.R T.R e ∧ VNear T'.p T.p (e * T.p.norm)

/-- `robot'` stores the real robot `robot` with relative error `e`: `RobotNear` is the case `e = u`. -/
structure RobotNearE (e : ℝ) (robot' : Robot (Fl F)) (robot : Robot ℝ) : Prop where
  types : robot'.jointType = robot.jointType
  axes : List.Forall₂ (fun h' h => IsUnit3 h ∧ VNear h' h e) robot'.H robot.H
  links : List.Forall₂ (fun P' P => VNear P' P (e * P.norm)) robot'.P robot.P
  flange : Option.Rel (TNearE e) robot'.Tflange robot.Tflange
  base : Option.Rel (TNearE e) robot'.Tbase robot.Tbase
  toolR : Option.Rel (fun R' R => IsRot R ∧ MNear R' R e) robot'.Rtool robot.Rtool
  toolp : Option.Rel (fun p' p => VNear p' p (e * p.norm)) robot'.ptool robot.ptool

end Spec

namespace Fl
variable {F : FSys}

/-- Invariant of the composition of transforms: after `k` of them, total length `ℓ`. -/
structure InvE (e L : ℝ) (T' : Transform (Fl F)) (T : Transform ℝ) (k ℓ : ℝ) : Prop where
  rot : IsRot T.R
  len : T.p.norm ≤ ℓ
  nearR : Spec.MNear T'.R T.R (280 * k * e)
  nearp : Spec.VNear T'.p T.p (e * L + 280 * k * e * ℓ + 81 * k * (e * L))

theorem InvE.mono {e L : ℝ} (he : F.u ≤ e) (h0 : 0 < L) {T' : Transform (Fl F)} {T : Transform ℝ} {k k' ℓ : ℝ} (h : InvE e L T' T k ℓ) (hk : k ≤ k') (hℓ : 0 ≤ ℓ) :
    InvE e L T' T k' ℓ := by
  have hu := F.u_nonneg.trans he
  have e1 : k * e ≤ k' * e := mul_le_mul_of_nonneg_right hk hu
  have e2 : k * e * ℓ ≤ k' * e * ℓ := mul_le_mul_of_nonneg_right e1 hℓ
  have e3 : k * (e * L) ≤ k' * (e * L) := mul_le_mul_of_nonneg_right hk (by positivity)
  exact ⟨h.rot, h.len, MNear.mono h.nearR (by linarith), VNear.mono h.nearp (by linarith)⟩

theorem InvE.bounds {e L k ℓ : ℝ} (he : F.u ≤ e) (h0 : 0 < L) (hk : 0 ≤ k) (hℓL : ℓ ≤ L) (hu : 6000 * (k + 1) * e ≤ 1) :
    280 * k * e + 280 * e ≤ 1 / 16 ∧ e * L + 280 * (k + 1) * e * ℓ + 81 * (k + 1) * (e * L) ≤ L / 16 := by
  have hu0 := F.u_nonneg.trans he
  have ku : 0 ≤ k * e := by positivity
  have e1 : (k + 1) * e * ℓ ≤ (k + 1) * e * L := mul_le_mul_of_nonneg_left hℓL (by positivity)
  have e2 : 6000 * (k + 1) * e * L ≤ 1 * L := mul_le_mul_of_nonneg_right hu h0.le
  have e3 : 0 ≤ k * e * L := by positivity
  constructor
  · linarith
  · nlinarith

/-- Composition on the right (flange, tool). -/
theorem InvE.mul {e L : ℝ} (he : F.u ≤ e) (h0 : 0 < L) (hη : F.η ≤ F.u * L) (hbig : 5 * L ≤ F.big) {T' B' : Transform (Fl F)} {T B : Transform ℝ} {k ℓ : ℝ}
    (h : InvE e L T' T k ℓ) (hB : (Spec.TNearE e) B' B) (hk : 0 ≤ k) (hu : 6000 * (k + 1) * e ≤ 1) (hℓ : ℓ + B.p.norm ≤ L) :
    InvE e L (T' * B') (T * B) (k + 1) (ℓ + B.p.norm) := by
  obtain ⟨rB, nB, pB⟩ := hB
  obtain ⟨rT, lT, nT, pT⟩ := h
  have hu0 := F.u_nonneg.trans he
  have nl := B.p.norm_nonneg
  have ℓ0 : 0 ≤ ℓ := T.p.norm_nonneg.trans lT
  obtain ⟨b1, b2⟩ := InvE.bounds (F := F) he h0 hk hℓ hu
  have ku : 0 ≤ k * e := by positivity
  have uL : 0 ≤ e * L := by positivity
  have kuL : 0 ≤ k * (e * L) := by positivity
  have kul : 0 ≤ k * e * B.p.norm := by positivity
  have ull : 0 ≤ e * B.p.norm := by positivity
  have eB : e * B.p.norm ≤ e * L := mul_le_mul_of_nonneg_left (by linarith) hu0
  have uℓ : 0 ≤ e * ℓ := by positivity
  refine ⟨rT.mul rB, ?_, ?_, ?_⟩
  · refine (V3.norm_add_le T.p (T.R.mulVec B.p)).trans ?_
    rw [rT.norm_mulVec]
    linarith
  · refine MNear.mono (MNear.mul nT nB rT rB (by linarith) (by linarith)) ?_
    nlinarith
  · refine VNear.mono (link_dat nT pT (VNear.mono pB eB) rT (by linarith) (by linarith) h0 he (by linarith) hη hbig ?_) ?_
    · nlinarith
    · nlinarith

/-- Composition on the left (base). -/
theorem InvE.lmul {e L : ℝ} (he : F.u ≤ e) (h0 : 0 < L) (hη : F.η ≤ F.u * L) (hbig : 5 * L ≤ F.big) {T' B' : Transform (Fl F)} {T B : Transform ℝ} {k ℓ : ℝ}
    (h : InvE e L T' T k ℓ) (hB : (Spec.TNearE e) B' B) (hk : 0 ≤ k) (hu : 6000 * (k + 1) * e ≤ 1) (hℓ : ℓ + B.p.norm ≤ L) :
    InvE e L (B' * T') (B * T) (k + 1) (ℓ + B.p.norm) := by
  obtain ⟨rB, nB, pB⟩ := hB
  obtain ⟨rT, lT, nT, pT⟩ := h
  have hu0 := F.u_nonneg.trans he
  have nl := B.p.norm_nonneg
  have ℓ0 : 0 ≤ ℓ := T.p.norm_nonneg.trans lT
  obtain ⟨b1, b2⟩ := InvE.bounds (F := F) he h0 hk hℓ hu
  have ku : 0 ≤ k * e := by positivity
  have uL : 0 ≤ e * L := by positivity
  have kuL : 0 ≤ k * (e * L) := by positivity
  have kul : 0 ≤ k * e * B.p.norm := by positivity
  have ull : 0 ≤ e * B.p.norm := by positivity
  have eB : e * B.p.norm ≤ e * L := mul_le_mul_of_nonneg_left (by linarith) hu0
  have uℓ : 0 ≤ e * ℓ := by positivity
  have hlen : (B.p + B.R.mulVec T.p).norm ≤ ℓ + B.p.norm := by
    refine (V3.norm_add_le B.p (B.R.mulVec T.p)).trans ?_
    rw [rB.norm_mulVec]
    linarith
  refine ⟨rB.mul rT, hlen, ?_, ?_⟩
  · refine MNear.mono (MNear.mul nB nT rB rT (by linarith) (by linarith)) ?_
    nlinarith
  · set f := e * L + 280 * k * e * ℓ + 81 * k * (e * L) with hf
    have fle : f + 280 * e * ℓ + 81 * (e * L) ≤ L / 16 := by rw [hf]; nlinarith
    have f0 : 0 ≤ f := by rw [hf]; positivity
    have m := MNear.mulVec (s := L) nB pT rB (by linarith) (by linarith) (by linarith) h0 hη hbig
    have uf : e * f ≤ e * L := mul_le_mul_of_nonneg_left (by linarith) hu0
    have uT : e * T.p.norm ≤ e * L := mul_le_mul_of_nonneg_left (by linarith) hu0
    have uB : e * B.p.norm ≤ e * L := mul_le_mul_of_nonneg_left (by linarith) hu0
    have uu : F.u * L ≤ e * L := mul_le_mul_of_nonneg_right he h0.le
    have m' := VNear.mono m (e := f + 32 * (e * L)) (by linarith)
    have s := VNear.add (s := L) pB m' h0 (by linarith) hη hbig
    refine VNear.mono s ?_
    nlinarith

theorem InvE.right {e L : ℝ} (he : F.u ≤ e) (h0 : 0 < L) (hη : F.η ≤ F.u * L) (hbig : 5 * L ≤ F.big) {T' : Transform (Fl F)} {T : Transform ℝ} {k ℓ : ℝ}
    (h : InvE e L T' T k ℓ) {B' : Option (Transform (Fl F))} {B : Option (Transform ℝ)} (hB : Option.Rel (Spec.TNearE e) B' B) (hk : 0 ≤ k)
    (hu : 6000 * (k + 1) * e ≤ 1) (hℓ : ℓ + (B.map (·.p.norm)).getD 0 ≤ L) :
    InvE e L (optRight B' T') (optRight B T) (k + 1)
      (ℓ + (B.map (·.p.norm)).getD 0) := by
  cases hB with
  | none =>
    simp only [Option.map_none, Option.getD_none, add_zero] at hℓ ⊢
    exact h.mono he h0 (by linarith) (T.p.norm_nonneg.trans h.len)
  | some hB => exact h.mul he h0 hη hbig hB hk hu hℓ

theorem InvE.left {e L : ℝ} (he : F.u ≤ e) (h0 : 0 < L) (hη : F.η ≤ F.u * L) (hbig : 5 * L ≤ F.big) {T' : Transform (Fl F)} {T : Transform ℝ} {k ℓ : ℝ}
    (h : InvE e L T' T k ℓ) {B' : Option (Transform (Fl F))} {B : Option (Transform ℝ)} (hB : Option.Rel (Spec.TNearE e) B' B) (hk : 0 ≤ k)
    (hu : 6000 * (k + 1) * e ≤ 1) (hℓ : ℓ + (B.map (·.p.norm)).getD 0 ≤ L) :
    InvE e L (optLeft B' T') (optLeft B T) (k + 1)
      (ℓ + (B.map (·.p.norm)).getD 0) := by
  cases hB with
  | none =>
    simp only [Option.map_none, Option.getD_none, add_zero] at hℓ ⊢
    exact h.mono he h0 (by linarith) (T.p.norm_nonneg.trans h.len)
  | some hB => exact h.lmul he h0 hη hbig hB hk hu hℓ

theorem InvE.tool {e L : ℝ} (he : F.u ≤ e) (h0 : 0 < L) (hη : F.η ≤ F.u * L) (hbig : 5 * L ≤ F.big) {T' : Transform (Fl F)} {T : Transform ℝ} {k ℓ : ℝ}
    (h : InvE e L T' T k ℓ) {R' : Option (M3 (Fl F))} {R : Option (M3 ℝ)} {p' : Option (V3 (Fl F))} {p : Option (V3 ℝ)}
    (hR : Option.Rel (fun R' R => IsRot R ∧ Spec.MNear R' R e) R' R) (hp : Option.Rel (fun p' p => Spec.VNear p' p (e * p.norm)) p' p)
    (hk : 0 ≤ k) (hu : 6000 * (k + 1) * e ≤ 1) (hℓ : ℓ + (p.map V3.norm).getD 0 ≤ L) :
    InvE e L (optTool R' p' T') (optTool R p T) (k + 1) (ℓ + (p.map V3.norm).getD 0) := by
  have hT := T.p.norm_nonneg.trans h.len
  cases hp with
  | none =>
    simp only [Option.map_none, Option.getD_none, add_zero] at hℓ ⊢
    cases hR <;> exact h.mono he h0 (by linarith) hT
  | @some p' p hp =>
    cases hR with
    | none =>
      have := h.mono (k' := k + 1) he h0 (by linarith) hT
      simp only [Option.map_some, Option.getD_some] at hℓ ⊢
      have np := p.norm_nonneg
      refine ⟨this.rot, this.len.trans (by linarith), this.nearR, VNear.mono this.nearp ?_⟩
      have hu0 := F.u_nonneg.trans he
      have : 0 ≤ (k + 1) * e * p.norm := by positivity
      nlinarith
    | some hR => exact h.mul (B' := ⟨_, _, none, none⟩) (B := ⟨_, _, none, none⟩) he h0 hη hbig ⟨hR.1, hR.2, hp⟩ hk hu hℓ


theorem forall₂_mem_right {β γ : Type} {R : β → γ → Prop} {p : γ → Prop} : ∀ {l : List β} {m : List γ}, List.Forall₂ R l m → (∀ x ∈ m, p x) →
    List.Forall₂ (fun a b => R a b ∧ p b) l m
  | _, _, .nil, _ => .nil
  | _, _, .cons h t, hp => .cons ⟨h, hp _ (by simp)⟩ (forall₂_mem_right t fun x hx => hp x (by simp [hx]))

/-- Every link is at most as long as the travel of the joints. -/
theorem norm_le_travel : ∀ (ts : List Nat) (Ps : List (V3 ℝ)) (xs : List ℝ), Ps.length ≤ ts.length → ts.length ≤ xs.length →
    ∀ P ∈ Ps, P.norm ≤ Spec.travel ts Ps xs
  | [], Ps, _, h, _ => by
    have : Ps = [] := List.length_eq_zero_iff.1 (by simpa using h)
    simp [this]
  | _ :: _, [], _, _, _ => by simp
  | _ :: _, _ :: _, [], _, h => by simp at h
  | t :: ts, P :: Ps, x :: xs, h, h' => by
    have ih := norm_le_travel ts Ps xs (by simpa using h) (by simpa using h')
    have nt := travel_nonneg ts Ps xs
    have nP := P.norm_nonneg
    have n0 : 0 ≤ (if t = 1 ∨ t = 3 then |x| else 0) := by split_ifs <;> positivity
    intro Q hQ
    simp only [Spec.travel]
    rcases List.mem_cons.1 hQ with rfl | hQ
    · linarith
    · have := ih Q hQ
      linarith

theorem fwdLoop_length {α : Type} [Add α] [Sub α] [Mul α] [Div α] [Neg α] [Zero α] [One α] [LT α] [LE α]
    [DecidableLT α] [DecidableLE α] [Elem α] : ∀ (ts : List Nat) (hs Ps : List (V3 α)) (xs : List α) (s s' : M3 α × V3 α),
    fwdLoop ts hs Ps xs s = .ok s' → ts.length ≤ xs.length
  | [], _, _, _, _, _, _ => by simp
  | _ :: _, [], _, _, _, _, h => by cases h
  | _ :: _, _ :: _, [], _, _, _, h => by cases h
  | _ :: _, _ :: _, _ :: _, [], _, _, h => by cases h
  | t :: ts, h :: hs, P :: Ps, x :: xs, s, s', hl => by
    simpa using fwdLoop_length ts hs Ps xs _ _ hl

/-- `fwdkin` of a robot whose data are known up to `e`. -/
theorem fwdkin_data {e L : ℝ} (he : F.u ≤ e) (robot : Robot ℝ) (robot' : Robot (Fl F)) (θ : List ℝ) (θ' : List (Fl F))
    (hrobot : Spec.RobotNearE e robot' robot) (hlen : robot.P.length ≤ robot.jointType.length + 1) (hθ : Spec.AnglesNear robot.jointType θ' θ)
    (T : Transform ℝ) (hT : fwdkin robot θ true = .ok T)
    (h0 : 0 < L) (hL : Spec.reach robot θ ≤ L) (hη : F.η ≤ F.u * L) (hbig : 5 * L ≤ F.big)
    (hn : 6000 * (robot.jointType.length + 3) * e ≤ 1) :
    ∃ T', fwdkin robot' θ' true = .ok T' ∧ Spec.MNear T'.R T.R (280 * (robot.jointType.length + 3) * e) ∧
      Spec.VNear T'.p T.p (362 * (robot.jointType.length + 3) * e * L) ∧ IsRot T.R ∧ T.p.norm ≤ L := by
  obtain ⟨ht, hH, hP, hF, hB, hRt, hpt⟩ := hrobot
  set n : ℝ := (robot.jointType.length : ℝ) with hnn
  have n0 : 0 ≤ n := Nat.cast_nonneg _
  have hu := F.u_nonneg.trans he
  have nu : 0 ≤ n * e := by positivity
  simp only [fwdkin, checkLimits, if_true, Except.bind_ok] at hT ⊢
  simp only [Spec.reach] at hL
  generalize robot.P = Ps at hT hL hP hlen
  generalize robot'.P = Ps' at hP ⊢
  obtain _ | ⟨P0, Ps⟩ := Ps
  · cases hT
  obtain _ | ⟨hP0, hP⟩ := hP
  rename_i P0' Ps'
  obtain ⟨⟨Rn, pn⟩, hloop, hT⟩ := Except.bind_eq_ok hT
  cases hT
  simp only [List.head?_cons, Option.map_some, Option.getD_some, List.tail_cons] at hL
  have nF : 0 ≤ (robot.Tflange.map (·.p.norm)).getD 0 := by cases robot.Tflange <;> simp [V3.norm_nonneg]
  have nX : 0 ≤ (robot.ptool.map V3.norm).getD 0 := by cases robot.ptool <;> simp [V3.norm_nonneg]
  have nB : 0 ≤ (robot.Tbase.map (·.p.norm)).getD 0 := by cases robot.Tbase <;> simp [V3.norm_nonneg]
  have nP := P0.norm_nonneg
  have nt := travel_nonneg robot.jointType Ps θ
  have inTravel := norm_le_travel robot.jointType Ps θ (by simpa using hlen) (fwdLoop_length _ _ _ _ _ _ hloop)
  set ℓ := Spec.travel robot.jointType Ps θ with hℓ
  have one : Spec.MNear (1 : M3 (Fl F)) 1 0 := ⟨1, rfl, by intro v; simp [V3.norm_zero]⟩
  have uP : e * P0.norm ≤ e * L := mul_le_mul_of_nonneg_left (by linarith) hu
  have uL : 0 ≤ e * L := by positivity
  have hP2 : List.Forall₂ (fun P' P => Spec.VNear P' P (e * L)) Ps' Ps := by

    refine List.Forall₂.imp (R := fun P' P => Spec.VNear P' P (e * P.norm) ∧ P.norm ≤ ℓ) (fun P' P h => VNear.mono h.1 ?_) ?_
    · exact mul_le_mul_of_nonneg_left (by linarith [h.2]) hu
    · exact forall₂_mem_right hP inTravel
  have lb := InvE.bounds (F := F) (k := n) (ℓ := ℓ) he h0 n0 (by linarith) (by linarith)
  have nuℓ : 0 ≤ n * e * ℓ := by positivity
  have nuL : 0 ≤ n * (e * L) := by positivity
  have uℓ : 0 ≤ e * ℓ := by positivity
  obtain ⟨Rn', pn', k1, k2, k3, k4, k5⟩ := fwdLoop_dat (F := F) h0 he hη hbig robot.jointType robot.H Ps θ _ _ _ 1 P0 1 P0' 0 (e * P0.norm) Rn pn
    hloop hH hP2 hθ one hP0 IsRot.one (by rw [zero_add]; linarith) (by linarith) (by
      rw [zero_add, ← hℓ, ← hnn]
      nlinarith [lb.2])
  rw [← hnn, ← hℓ, zero_add] at k3
  rw [← hnn, zero_add] at k2
  rw [← hℓ] at k5
  dsimp only
  rw [ht, k1]
  refine ⟨_, rfl, ?_⟩
  have i0 : InvE e L (⟨Rn', pn', none, none⟩ : Transform (Fl F)) ⟨Rn, pn, none, none⟩ n (P0.norm + ℓ) :=
    ⟨k4, k5, k2, VNear.mono k3 (by nlinarith)⟩
  have final : ∃ ℓ', ℓ' ≤ L ∧ InvE e L (applyAux robot' ⟨Rn', pn', none, none⟩) (applyAux robot ⟨Rn, pn, none, none⟩) (n + 3) ℓ' := by
    have i1 := InvE.right he h0 hη hbig i0 hF n0 (by linarith) (by linarith)
    have i2 := InvE.tool he h0 hη hbig i1 hRt hpt (by linarith) (by linarith) (by linarith)
    have i3 := InvE.left he h0 hη hbig i2 hB (by linarith) (by linarith) (by linarith)
    rw [applyAux_eq, applyAux_eq]
    exact ⟨_, by linarith, i3.mono (k' := n + 3) he h0 (by linarith) (by linarith)⟩
  obtain ⟨ℓ', hℓ', hi⟩ := final
  refine ⟨hi.nearR, VNear.mono hi.nearp ?_, hi.rot, hi.len.trans hℓ'⟩
  have : (n + 3) * e * ℓ' ≤ (n + 3) * e * L := mul_le_mul_of_nonneg_left hℓ' (by positivity)
  nlinarith

end Fl
