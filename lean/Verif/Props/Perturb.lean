import Verif.Lemmas.Perturb

/-! # Property C99: small errors in the geometry of a robot give small errors of the pose -/
set_option autoImplicit false

/-- Two poses: no vector is turned to places further apart than `δ` times its length, and the positions are within `ε`. -/
def Spec.PoseNear (δ ε : ℝ) (T T' : Transform ℝ) : Prop :=
  (∀ v, (T'.R.mulVec v - T.R.mulVec v).norm ≤ δ * v.norm) ∧ (T'.p - T.p).norm ≤ ε

/-- Two descriptions of the same robot: the same joint types; axes and rotations (of flange, tool and base) within `δ`; links and
translations within `ε`.  The axes of the second need not have length one. -/
structure Spec.RobotsNear (δ ε : ℝ) (r r' : Robot ℝ) : Prop where
  types : r'.jointType = r.jointType
  axes : List.Forall₂ (fun h h' : V3 ℝ => (h' - h).norm ≤ δ) r.H r'.H
  links : List.Forall₂ (fun p p' : V3 ℝ => (p' - p).norm ≤ ε) r.P r'.P
  flange : Option.Rel (Spec.PoseNear δ ε) r.Tflange r'.Tflange
  base : Option.Rel (Spec.PoseNear δ ε) r.Tbase r'.Tbase
  toolR : Option.Rel (fun R R' : M3 ℝ => ∀ v, (R'.mulVec v - R.mulVec v).norm ≤ δ * v.norm) r.Rtool r'.Rtool
  toolp : Option.Rel (fun p p' : V3 ℝ => (p' - p).norm ≤ ε) r.ptool r'.ptool

theorem opLe_sub_iff {A B : M3 ℝ} {e : ℝ} : OpLe (B - A) e ↔ ∀ v, (B.mulVec v - A.mulVec v).norm ≤ e * v.norm := by
  refine forall_congr' fun v => ?_
  rw [show (B - A).mulVec v = B.mulVec v - A.mulVec v by ext <;> simp <;> ring]

theorem poseNear_near {δ ε : ℝ} (d0 : 0 ≤ δ) {T T' : Transform ℝ} (h : Spec.PoseNear δ ε T T') (hT : IsRot T.R) :
    Near (1 + 7 * δ) T.p.norm ε (T.R, T.p) (T'.R, T'.p) := by
  have e0 : 0 ≤ ε := (V3.norm_nonneg _).trans h.2
  have n0 := T.p.norm_nonneg
  refine ⟨hT, le_refl _, (opLe_sub_iff.2 h.1).mono (by linarith), h.2.trans ?_⟩
  have j2 : 0 ≤ 7 * δ * T.p.norm := by positivity
  have j3 : 0 ≤ 7 * δ * ε := by positivity
  show ε ≤ (1 + 7 * δ - 1) * T.p.norm + (1 + 7 * δ) * ε
  linarith

/-- C99: if the geometry of a robot is known up to errors `δ` of the axes and rotations and `ε` of the lengths, the pose of a chain of
`n` joints at any joint vector is known up to `c - 1` in orientation and `(c - 1)` times the reach of the robot plus `c` times the sum of
the errors of the lengths (`n + 1` links, flange, tool, base, and `δ` for each unit of displacement of a sliding joint) in position, where
`c = (1 + 7 δ) ^ (n + 3)`; and it is computed for the one description if it is for the other. -/
theorem C99_pose (δ ε : ℝ) (d0 : 0 ≤ δ) (h1 : δ ≤ 1) (e0 : 0 ≤ ε) (r r' : Robot ℝ) (hw : r.WF) (hr : Spec.RobotsNear δ ε r r')
    (θ : List ℝ) (T : Transform ℝ) (hT : fwdkin r θ true = .ok T) :
    ∃ T', fwdkin r' θ true = .ok T' ∧
      Spec.PoseNear ((1 + 7 * δ) ^ (r.jointType.length + 3) - 1)
        (((1 + 7 * δ) ^ (r.jointType.length + 3) - 1) * Spec.reach r θ +
          (1 + 7 * δ) ^ (r.jointType.length + 3) * (Spec.slides r.jointType θ * δ + (r.jointType.length + 4) * ε)) T T' := by
  unfold fwdkin at hT ⊢
  obtain ⟨u, -, hT⟩ := Except.bind_eq_ok hT
  have hlinks := hr.links
  have hP : Spec.reach r θ = (r.P.head?.map V3.norm).getD 0 + Spec.travel r.jointType r.P.tail θ + (r.Tflange.map (·.p.norm)).getD 0 +
    (r.ptool.map V3.norm).getD 0 + (r.Tbase.map (·.p.norm)).getD 0 := rfl
  rw [hP]
  generalize r.P = Ps at hT hlinks ⊢
  obtain _ | ⟨P0, Ps⟩ := Ps
  · cases hT
  generalize r'.P = Ps' at hlinks ⊢
  cases hlinks with | @cons _ P0' _ Ps' hP0 hPs =>
  obtain ⟨⟨Rn, pn⟩, hT', hT⟩ := Except.bind_eq_ok hT
  cases hT
  have hopO : OpLe ((1 : M3 ℝ) - 1) 0 := fun v => by
    rw [show ((1 : M3 ℝ) - 1).mulVec v = 0 by ext <;> simp, V3.norm_zero, zero_mul]
  have start : Near 1 P0.norm ε ((1 : M3 ℝ), P0) ((1 : M3 ℝ), P0') :=
    ⟨IsRot.one, le_refl _, hopO.mono (by linarith), by simpa using hP0⟩
  obtain ⟨⟨Sn, qn⟩, hU, hn⟩ := fwdLoop_near h1 d0 e0 r.jointType r.H r'.H Ps Ps' θ _ _ _ 1 P0.norm ε hw.unit hr.axes hPs hT' start e0
  rw [one_mul] at hn
  have chk : checkLimits r' θ true = .ok () := rfl
  rw [chk, Except.bind_ok, hr.types]
  simp only []
  rw [hU]
  refine ⟨_, rfl, ?_⟩
  simp only [List.tail_cons, List.head?_cons, Option.map_some, Option.getD_some]
  have sl := mul_nonneg (slides_nonneg r.jointType θ) d0
  have en : 0 ≤ (r.jointType.length : ℝ) * ε := by positivity
  have c1 : 1 ≤ 1 + 7 * δ := by linarith
  generalize hs : Spec.slides r.jointType θ * δ = s at *
  generalize hk : (r.jointType.length : ℝ) = k at *
  generalize hm : P0.norm + Spec.travel r.jointType Ps θ = m at *
  -- multiplication on the right by a pair of nearby places, or by nothing
  have right : ∀ {B B' : Option (Transform ℝ)} {x m s : ℝ} {T T' : Transform ℝ}, Option.Rel (Spec.PoseNear δ ε) B B' →
      (∀ F, B = some F → IsRot F.R) → Near x m s (T.R, T.p) (T'.R, T'.p) → 0 ≤ s →
      Near (x * (1 + 7 * δ)) (m + (B.map (·.p.norm)).getD 0) (s + ε) ((optRight B T).R, (optRight B T).p) ((optRight B' T').R, (optRight B' T').p) := by
    intro B B' x m s T T' hB hrot hn hs
    cases hB with
    | none =>
      have x1 : 1 ≤ x := by linarith [hn.R.nonneg]
      refine hn.mono ?_ (by simp) (by linarith) hs
      nlinarith
    | some h => exact hn.comp (poseNear_near d0 h (hrot _ rfl)) hs e0
  have s1 := right hr.flange hw.flange (T := ⟨Rn, pn, none, none⟩) (T' := ⟨Sn, qn, none, none⟩) hn (by positivity)
  rw [applyAux_eq, applyAux_eq]
  generalize optRight r.Tflange ⟨Rn, pn, none, none⟩ = T1 at s1 ⊢
  generalize optRight r'.Tflange ⟨Sn, qn, none, none⟩ = U1 at s1 ⊢
  generalize m + (r.Tflange.map (·.p.norm)).getD 0 = m1 at s1 ⊢
  have s2 : Near ((1 + 7 * δ) ^ r.jointType.length * (1 + 7 * δ) * (1 + 7 * δ)) (m1 + (r.ptool.map V3.norm).getD 0)
      (ε + (s + k * ε) + ε + ε)
      ((optTool r.Rtool r.ptool T1).R, (optTool r.Rtool r.ptool T1).p) ((optTool r'.Rtool r'.ptool U1).R, (optTool r'.Rtool r'.ptool U1).p) := by
    have hR := hr.toolR
    have hp := hr.toolp
    have hb := hw.toolBoth
    have ht := hw.tool
    generalize r.Rtool = A at *
    generalize r'.Rtool = A' at *
    generalize r.ptool = b at *
    generalize r'.ptool = b' at *
    cases hR with
    | none =>
      rw [hb.1 rfl] at hp ⊢
      cases hp
      have := right (B := none) (B' := none) Option.Rel.none (fun F h => by cases h) s1 (by positivity)
      simpa [optRight, optTool] using this
    | @some A A' hA =>
      cases hp with
      | none => exact absurd (hb.2 rfl) (by simp)
      | @some b b' hb' =>
        exact right (B := some ⟨A, b, none, none⟩) (B' := some ⟨A', b', none, none⟩) (Option.Rel.some ⟨hA, hb'⟩)
          (fun F h => by cases h; exact ht A rfl) s1 (by positivity)
  generalize optTool r.Rtool r.ptool T1 = T2 at s2 ⊢
  generalize optTool r'.Rtool r'.ptool U1 = U2 at s2 ⊢
  generalize m1 + (r.ptool.map V3.norm).getD 0 = m2 at s2 ⊢
  have s3 : Near ((1 + 7 * δ) ^ (r.jointType.length + 3)) (m2 + (r.Tbase.map (·.p.norm)).getD 0) (s + (k + 4) * ε)
      ((optLeft r.Tbase T2).R, (optLeft r.Tbase T2).p) ((optLeft r'.Tbase U2).R, (optLeft r'.Tbase U2).p) := by
    have hB := hr.base
    have hb := hw.base
    generalize r.Tbase = B at *
    generalize r'.Tbase = B' at *
    have e1 : (1 + 7 * δ) ^ (r.jointType.length + 3) = (1 + 7 * δ) * ((1 + 7 * δ) ^ r.jointType.length * (1 + 7 * δ) * (1 + 7 * δ)) := by
      ring
    have e2 : s + (k + 4) * ε = ε + (ε + (s + k * ε) + ε + ε) := by ring
    have x1 : 1 ≤ (1 + 7 * δ) ^ r.jointType.length * (1 + 7 * δ) * (1 + 7 * δ) := by linarith [s2.R.nonneg]
    rw [e1, e2]
    cases hB with
    | none =>
      refine s2.mono ?_ (by simp) (by linarith) (by positivity)
      nlinarith
    | @some B B' h =>
      have := (poseNear_near d0 h (hb _ rfl)).comp s2 e0 (by positivity)
      rw [add_comm m2]
      exact this
  exact ⟨opLe_sub_iff.1 s3.R, s3.p⟩
