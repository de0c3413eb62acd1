import Verif.Lemmas.Lip
import Verif.Lemmas.Trig

/-! # Property C75: nearby joint values give nearby poses -/
set_option autoImplicit false

/-- C75: for joint vectors `θ` and `φ` the orientations differ by at most the total difference `A` of the turning joints (every vector `v` is
moved to places at most `A |v|` apart), and the positions by at most `A` times the length of the arm at `θ`, plus the total difference of
the sliding joints.  Chains of any length, all joint types, with tool, flange and base. -/
theorem C75_fwdkin_lipschitz (robot : Robot ℝ) (hw : robot.WF) (θ φ : List ℝ) (b c : Bool) (T U : Transform ℝ)
    (hT : fwdkin robot θ b = .ok T) (hU : fwdkin robot φ c = .ok U) :
    (∀ v, (U.R.mulVec v - T.R.mulVec v).norm ≤ Spec.turnDiff robot.jointType θ φ * v.norm) ∧
      (U.p - T.p).norm ≤ Spec.turnDiff robot.jointType θ φ * Spec.arm robot θ + Spec.slideDiff robot.jointType θ φ := by
  unfold fwdkin at hT hU
  obtain ⟨-, -, hT⟩ := Except.bind_eq_ok hT
  obtain ⟨-, -, hU⟩ := Except.bind_eq_ok hU
  unfold Spec.arm
  generalize robot.P = Ps at hT hU ⊢
  obtain _ | ⟨P0, Ps⟩ := Ps
  · cases hT
  obtain ⟨⟨Rn, pn⟩, hT', hT⟩ := Except.bind_eq_ok hT
  cases hT
  obtain ⟨⟨Sn, qn⟩, hU', hU⟩ := Except.bind_eq_ok hU
  cases hU
  have o0 : OpLe ((1 : M3 ℝ) - 1) 0 := fun v => by
    rw [show ((1 : M3 ℝ) - 1).mulVec v = 0 by ext <;> simp, V3.norm_zero, zero_mul]
  obtain ⟨rR, rS, hR, hp⟩ := fwdLoop_lip robot.jointType robot.H Ps θ φ 1 1 P0 P0 0 0 Rn Sn pn qn hw.unit hT' hU' IsRot.one IsRot.one o0
    (by rw [show P0 - P0 = 0 by ext <;> simp, V3.norm_zero])
  rw [zero_add] at hR hp
  rw [zero_add] at hp
  simp only [List.tail_cons]
  have A0 := turnDiff_nonneg robot.jointType θ φ
  generalize Spec.turnDiff robot.jointType θ φ = A at *
  generalize Spec.slideDiff robot.jointType θ φ = B at *
  generalize Spec.travel robot.jointType Ps θ = ℓ at *
  -- multiplication on the right, then on the left
  have right : ∀ {T U V : Transform ℝ} {m : ℝ}, OpLe (U.R - T.R) A → (U.p - T.p).norm ≤ A * m + B → IsRot V.R →
      OpLe ((U * V).R - (T * V).R) A ∧ ((U * V).p - (T * V).p).norm ≤ A * (m + V.p.norm) + B := by
    intro T U V m h1 h2 hV
    refine ⟨?_, (link_lip (P := V.p) h1 h2).trans (by linarith)⟩
    show OpLe (U.R * V.R - T.R * V.R) A
    rw [show U.R * V.R - T.R * V.R = (U.R - T.R) * V.R by ext <;> simp <;> ring]
    exact (h1.mul hV.opLe A0).mono (by linarith)
  have left : ∀ {T U V : Transform ℝ} {m : ℝ}, OpLe (U.R - T.R) A → (U.p - T.p).norm ≤ m → IsRot V.R →
      OpLe ((V * U).R - (V * T).R) A ∧ ((V * U).p - (V * T).p).norm ≤ m := by
    intro T U V m h1 h2 hV
    constructor
    · show OpLe (V.R * U.R - V.R * T.R) A
      rw [show V.R * U.R - V.R * T.R = V.R * (U.R - T.R) by ext <;> simp <;> ring]
      exact (hV.opLe.mul h1 zero_le_one).mono (by linarith)
    · show (V.p + V.R.mulVec U.p - (V.p + V.R.mulVec T.p)).norm ≤ m
      rw [show V.p + V.R.mulVec U.p - (V.p + V.R.mulVec T.p) = V.R.mulVec (U.p - T.p) by ext <;> simp <;> ring, hV.norm_mulVec]
      exact h2
  rw [applyAux_eq, applyAux_eq]
  have s1 : OpLe ((optRight robot.Tflange ⟨Sn, qn, none, none⟩).R - (optRight robot.Tflange ⟨Rn, pn, none, none⟩).R) A ∧
      ((optRight robot.Tflange ⟨Sn, qn, none, none⟩).p - (optRight robot.Tflange ⟨Rn, pn, none, none⟩).p).norm ≤
        A * (ℓ + (robot.Tflange.map (·.p.norm)).getD 0) + B := by
    cases hF : robot.Tflange with
    | none => exact ⟨hR, by simpa [optRight] using hp⟩
    | some F => exact right hR hp (hw.flange F hF)
  generalize optRight robot.Tflange ⟨Sn, qn, none, none⟩ = U1 at s1 ⊢
  generalize optRight robot.Tflange ⟨Rn, pn, none, none⟩ = T1 at s1 ⊢
  generalize ℓ + (robot.Tflange.map (·.p.norm)).getD 0 = m at s1 ⊢
  have s2 : OpLe ((optTool robot.Rtool robot.ptool U1).R - (optTool robot.Rtool robot.ptool T1).R) A ∧
      ((optTool robot.Rtool robot.ptool U1).p - (optTool robot.Rtool robot.ptool T1).p).norm ≤ A * (m + (robot.ptool.map V3.norm).getD 0) + B := by
    cases hx : robot.ptool with
    | none =>
      rw [hw.toolBoth.2 hx]
      exact ⟨s1.1, by simpa [optTool] using s1.2⟩
    | some x =>
      cases hr : robot.Rtool with
      | none => rw [hw.toolBoth.1 hr] at hx; cases hx
      | some r => exact right (V := ⟨r, x, none, none⟩) s1.1 s1.2 (hw.tool r hr)
  generalize optTool robot.Rtool robot.ptool U1 = U2 at s2 ⊢
  generalize optTool robot.Rtool robot.ptool T1 = T2 at s2 ⊢
  have s3 : OpLe ((optLeft robot.Tbase U2).R - (optLeft robot.Tbase T2).R) A ∧
      ((optLeft robot.Tbase U2).p - (optLeft robot.Tbase T2).p).norm ≤ A * (m + (robot.ptool.map V3.norm).getD 0) + B := by
    cases hB : robot.Tbase with
    | none => exact s2
    | some V => exact left s2.1 s2.2 (hw.base V hB)
  refine ⟨fun v => ?_, s3.2⟩
  have := s3.1 v
  rwa [show ∀ A B : M3 ℝ, (A - B).mulVec v = A.mulVec v - B.mulVec v by intro A B; ext <;> simp <;> ring] at this

/-- C75: the position never lies further from the origin than the reach of the robot. -/
theorem C75_fwdkin_reach (robot : Robot ℝ) (hw : robot.WF) (θ : List ℝ) (b : Bool) (T : Transform ℝ) (hT : fwdkin robot θ b = .ok T) :
    T.p.norm ≤ Spec.reach robot θ := by
  unfold fwdkin at hT
  obtain ⟨-, -, hT⟩ := Except.bind_eq_ok hT
  unfold Spec.reach
  generalize robot.P = Ps at hT ⊢
  obtain _ | ⟨P0, Ps⟩ := Ps
  · cases hT
  obtain ⟨⟨Rn, pn⟩, hT', hT⟩ := Except.bind_eq_ok hT
  cases hT
  have loop : ∀ (ts : List Nat) (hs Ps : List (V3 ℝ)) (θ : List ℝ) (R : M3 ℝ) (p : V3 ℝ) (Rn : M3 ℝ) (pn : V3 ℝ), (∀ h ∈ hs, IsUnit3 h) →
      fwdLoop ts hs Ps θ (R, p) = .ok (Rn, pn) → IsRot R → IsRot Rn ∧ pn.norm ≤ p.norm + Spec.travel ts Ps θ := by
    intro ts
    induction ts with
    | nil => intro hs Ps θ R p Rn pn _ h hR; cases h; exact ⟨hR, by simp [Spec.travel]⟩
    | cons t ts ih =>
      intro hs Ps θ R p Rn pn hH h hR
      obtain _ | ⟨k, hs⟩ := hs
      · cases h
      obtain _ | ⟨P, Ps⟩ := Ps
      · cases h
      obtain _ | ⟨x, θ⟩ := θ
      · cases h
      have hk := hH k (by simp)
      have key : IsRot (fwdStep t k P x (R, p)).1 ∧ (fwdStep t k P x (R, p)).2.norm ≤ p.norm + ((if t = 1 ∨ t = 3 then |x| else 0) + P.norm) := by
        simp only [fwdStep]
        by_cases h02 : t = 0 ∨ t = 2
        · have h13 : ¬ (t = 1 ∨ t = 3) := by omega
          have hR' := hR.mul (rot_isRot k hk x)
          simp only [if_neg h13, if_pos h02, zero_add]
          have := V3.norm_add_le p ((R * rot k x).mulVec P)
          rw [hR'.norm_mulVec] at this
          exact ⟨hR', this⟩
        · simp only [if_neg h02]
          by_cases h13 : t = 1 ∨ t = 3
          · simp only [if_pos h13]
            have i1 := V3.norm_add_le (p + V3.smul x (R.mulVec k)) (R.mulVec P)
            have i2 := V3.norm_add_le p (V3.smul x (R.mulVec k))
            rw [V3.smul_def, V3.norm_hsmul, hR.norm_mulVec, V3.norm_eq_one hk] at i2
            rw [V3.smul_def, hR.norm_mulVec] at i1
            rw [V3.smul_def]
            exact ⟨hR, by linarith⟩
          · simp only [if_neg h13, zero_add]
            have := V3.norm_add_le p (R.mulVec P)
            rw [hR.norm_mulVec] at this
            exact ⟨hR, this⟩
      obtain ⟨r1, r2⟩ := ih hs Ps θ (fwdStep t k P x (R, p)).1 (fwdStep t k P x (R, p)).2 Rn pn (fun g hg => hH g (by simp [hg])) h key.1
      exact ⟨r1, r2.trans (by have := key.2; simp only [Spec.travel]; linarith)⟩
  obtain ⟨rR, hp⟩ := loop robot.jointType robot.H Ps θ 1 P0 Rn pn hw.unit hT' IsRot.one
  simp only [List.tail_cons, List.head?_cons, Option.map_some, Option.getD_some]
  have mulp : ∀ {T V : Transform ℝ}, IsRot T.R → (T * V).p.norm ≤ T.p.norm + V.p.norm := by
    intro T V h
    have := V3.norm_add_le T.p (T.R.mulVec V.p)
    rwa [h.norm_mulVec] at this
  rw [applyAux_eq]
  have s1 : IsRot (optRight robot.Tflange ⟨Rn, pn, none, none⟩).R ∧
      (optRight robot.Tflange ⟨Rn, pn, none, none⟩).p.norm ≤ pn.norm + (robot.Tflange.map (·.p.norm)).getD 0 := by
    cases hF : robot.Tflange with
    | none => exact ⟨rR, by simp [optRight]⟩
    | some F => exact ⟨rR.mul (hw.flange F hF), mulp (T := ⟨Rn, pn, none, none⟩) rR⟩
  generalize optRight robot.Tflange ⟨Rn, pn, none, none⟩ = T1 at s1 ⊢
  have s2 : (optTool robot.Rtool robot.ptool T1).p.norm ≤ T1.p.norm + (robot.ptool.map V3.norm).getD 0 := by
    cases hx : robot.ptool with
    | none => rw [hw.toolBoth.2 hx]; simp [optTool]
    | some x =>
      cases hr : robot.Rtool with
      | none => rw [hw.toolBoth.1 hr] at hx; cases hx
      | some r => exact mulp (T := T1) (V := ⟨r, x, none, none⟩) s1.1
  generalize optTool robot.Rtool robot.ptool T1 = T2 at s2 ⊢
  have s3 : (optLeft robot.Tbase T2).p.norm ≤ T2.p.norm + (robot.Tbase.map (·.p.norm)).getD 0 := by
    cases hB : robot.Tbase with
    | none => simp [optLeft]
    | some V =>
      have := mulp (T := V) (V := T2) (hw.base V hB)
      simpa [optLeft, add_comm] using this
  linarith [s1.2]

/-- C75: the bound of the position cannot be improved by any constant factor: for one turning joint with a link of length 1 it is
reached in the limit of small angles (the position moves by `2 |sin (x/2)|`, the bound is `|x|`). -/
theorem C75_lipschitz_sharp (c : ℝ) (hc : c < 1) : ∃ (robot : Robot ℝ) (x : ℝ) (T U : Transform ℝ), robot.WF ∧
    fwdkin robot [0] true = .ok T ∧ fwdkin robot [x] true = .ok U ∧
    c * (Spec.turnDiff robot.jointType [0] [x] * Spec.arm robot [0]) < (U.p - T.p).norm := by
  set robot : Robot ℝ := { H := [⟨0, 0, 1⟩], P := [⟨0, 0, 0⟩, ⟨1, 0, 0⟩], jointType := [0] } with hr
  have hw : robot.WF := ⟨rfl, rfl, by simp [hr], by simp [hr, IsUnit3], by simp [hr], by simp [hr], by simp [hr], by simp [hr]⟩
  set x := min 1 (1 - c) with hx
  have x0 : 0 < x := lt_min one_pos (by linarith)
  have x1 : x ≤ 1 := min_le_left _ _
  have xc : x ≤ 1 - c := min_le_right _ _
  have f : ∀ y : ℝ, fwdkin robot [y] true = .ok ⟨rot ⟨0, 0, 1⟩ y, (rot ⟨0, 0, 1⟩ y).mulVec ⟨1, 0, 0⟩, none, none⟩ := by
    intro y
    simp only [fwdkin, checkLimits, if_true, Except.bind_ok, hr, fwdLoop, fwdStep, true_or, applyAux, Except.pure_eq]
    congr 2 <;> ext <;> simp
  refine ⟨robot, x, _, _, hw, f 0, f x, ?_⟩
  have ht : Spec.turnDiff robot.jointType [0] [x] = x := by simp [Spec.turnDiff, hr, abs_of_pos x0]
  have ha : Spec.arm robot [0] = 1 := by
    have : (⟨1, 0, 0⟩ : V3 ℝ).norm = 1 := V3.norm_ex
    simp [Spec.arm, Spec.travel, hr, this]
  rw [ht, ha]
  refine lt_of_lt_of_le ?_ (V3.abs_y_le _)
  have e : ((rot ⟨0, 0, 1⟩ x).mulVec ⟨1, 0, 0⟩ - (rot ⟨0, 0, 1⟩ 0).mulVec ⟨1, 0, 0⟩ : V3 ℝ).y = Real.sin x := by simp [rot]
  rw [e]
  refine lt_of_lt_of_le ?_ (le_abs_self _)
  have := Real.sin_gt_sub_cube x0
  have h2 : x ^ 2 ≤ x := by nlinarith
  have h3 : x * x ^ 2 ≤ x * (1 - c) := mul_le_mul_of_nonneg_left (by linarith) x0.le
  have h4 : 0 < x * (1 - c) := mul_pos x0 (by linarith)
  nlinarith

/-- Non-vacuity of C75: a robot with a turning and a sliding joint, a tool and a base; the first joint moves by 0.1 rad, the second by 0.2. -/
example : ∃ (robot : Robot ℝ) (T U : Transform ℝ), robot.WF ∧ fwdkin robot [0, 1] true = .ok T ∧ fwdkin robot [1/10, 6/5] true = .ok U ∧
    (U.p - T.p).norm ≤ 1/10 * 4 + 1/5 := by
  set robot : Robot ℝ := {
    H := [⟨0, 0, 1⟩, ⟨1, 0, 0⟩]
    P := [⟨0, 0, 5⟩, ⟨1, 0, 0⟩, ⟨0, 1, 0⟩]
    jointType := [0, 1]
    Rtool := some 1
    ptool := some ⟨0, 0, 1⟩
    Tbase := some ⟨⟨0, -1, 0, 1, 0, 0, 0, 0, 1⟩, ⟨7, 0, 0⟩, none, none⟩ } with hr
  have hw : robot.WF := ⟨rfl, rfl, by simp [hr], by simp [hr, IsUnit3], by
    rintro B hB
    simp only [hr, Option.some.injEq] at hB
    subst hB
    exact ⟨by ext <;> simp, by norm_num [M3.det]⟩, by simp [hr], by simp [hr, IsRot.one], by simp [hr]⟩
  obtain ⟨T, hT⟩ := fwdkin_ok (robot := robot) ⟨rfl, rfl⟩ (θ := [0, 1]) rfl
  obtain ⟨U, hU⟩ := fwdkin_ok (robot := robot) ⟨rfl, rfl⟩ (θ := [1/10, 6/5]) rfl
  refine ⟨robot, T, U, hw, hT, hU, (C75_fwdkin_lipschitz robot hw _ _ _ _ T U hT hU).2.trans (le_of_eq ?_)⟩
  have nx : (⟨1, 0, 0⟩ : V3 ℝ).norm = 1 := V3.norm_ex
  have ny : (⟨0, 1, 0⟩ : V3 ℝ).norm = 1 := V3.norm_ey
  have nz : (⟨0, 0, 1⟩ : V3 ℝ).norm = 1 := V3.norm_ez
  simp only [Spec.turnDiff, Spec.slideDiff, Spec.arm, Spec.travel, hr, nx, ny, nz, List.tail_cons, Option.map_none, Option.map_some, Option.getD_none, Option.getD_some]
  norm_num [abs_of_nonneg]
