import Verif.Props.Urdf

/-!
# The axes and places of the joints of a URDF chain when all joints are at zero
-/
set_option autoImplicit false

namespace Spec

/-- the tip frame of a chain seen from its root, all joints at zero -/
noncomputable def zeroAct (js : List (UJoint ℝ)) (v : V3 ℝ) : V3 ℝ := js.foldr (fun j x => originAct j.origin x) v

/-- axis and place of every moving joint of a chain, seen from where `f` takes the frame of its root, all joints at zero -/
noncomputable def zeroJoints : (V3 ℝ → V3 ℝ) → List (UJoint ℝ) → List (V3 ℝ × V3 ℝ)
  | _, [] => []
  | f, j :: js =>
    let g := fun v => f (originAct j.origin v)
    if j.jointType = "fixed" then zeroJoints g js
    else (g (j.axis.getD 0) - g 0, g 0) :: zeroJoints g js

/-- the steps from `c` through the given places to `t` -/
def steps (c : V3 ℝ) : List (V3 ℝ) → V3 ℝ → List (V3 ℝ)
  | [], t => [t - c]
  | x :: xs, t => (x - c) :: steps x xs t

end Spec

theorem urdfLoop_zero (u : Urdf ℝ) (js : List (UJoint ℝ)) (s s' : UState ℝ) (h : urdfLoop u js s = .ok s') (f : V3 ℝ → V3 ℝ) (c : V3 ℝ)
    (hf : ∀ v, f v = c + s.p + s.R.mulVec v) :
    s'.H = s.H ++ (Spec.zeroJoints f js).map Prod.fst ∧
      s'.P ++ [s'.p] = s.P ++ Spec.steps c ((Spec.zeroJoints f js).map Prod.snd) (f (Spec.zeroAct js 0)) ∧
      ∀ v, f (Spec.zeroAct js v) = f (Spec.zeroAct js 0) + s'.R.mulVec v := by
  induction js generalizing s f c with
  | nil =>
    cases h
    refine ⟨by simp [Spec.zeroJoints], ?_, fun v => ?_⟩
    · simp [Spec.zeroJoints, Spec.steps, Spec.zeroAct, hf]
    · simp [Spec.zeroAct, hf]
  | cons j js ih =>
    obtain ⟨s1, h1, h⟩ := Except.bind_eq_ok h
    have hg : ∀ v, f (Spec.originAct j.origin v) = c + (applyOrigin j.origin s.p s.R).1 + (applyOrigin j.origin s.p s.R).2.mulVec v := by
      intro v
      rw [hf, add_assoc, add_assoc, applyOrigin_act]
    obtain ⟨m, hm, ⟨hfx, rfl⟩ | ⟨hfx, a, ha, rfl⟩⟩ := urdfStep_ok h1
    · obtain ⟨e1, e2, e3⟩ := ih _ h (fun v => f (Spec.originAct j.origin v)) c hg
      have e : Spec.zeroJoints f (j :: js) = Spec.zeroJoints (fun v => f (Spec.originAct j.origin v)) js := by
        simp [Spec.zeroJoints, hfx]
      rw [e]
      exact ⟨e1, e2, e3⟩
    · have hne : j.jointType ≠ "fixed" := by rcases hfx with hf | hf <;> rw [hf] <;> decide
      have h0 : f (Spec.originAct j.origin 0) = c + (applyOrigin j.origin s.p s.R).1 := by rw [hg]; simp
      obtain ⟨e1, e2, e3⟩ := ih _ h (fun v => f (Spec.originAct j.origin v)) (c + (applyOrigin j.origin s.p s.R).1)
        (fun v => by rw [hg]; simp)
      have e : Spec.zeroJoints f (j :: js) = (f (Spec.originAct j.origin a) - f (Spec.originAct j.origin 0), f (Spec.originAct j.origin 0)) ::
          Spec.zeroJoints (fun v => f (Spec.originAct j.origin v)) js := by
        simp [Spec.zeroJoints, hne, ha]
      rw [e]
      refine ⟨?_, ?_, e3⟩
      · rw [e1, hg a, h0]
        simp
      · rw [e2, List.map_cons, Spec.steps, h0]
        simp [Spec.zeroAct]

theorem loaded_zero {u : Urdf ℝ} {root tip : Option String} {fuel : Nat} {r : Robot ℝ} (L : Loaded u root tip fuel r) :
    r.H = (Spec.zeroJoints id L.js).map Prod.fst ∧
      r.P = Spec.steps 0 ((Spec.zeroJoints id L.js).map Prod.snd) (Spec.zeroAct L.js 0) ∧ r.Tbase = none ∧ r.Tflange = none ∧
      ∃ R, r.Rtool = some R ∧ r.ptool = some 0 ∧ IsRot R ∧ ∀ v, Spec.zeroAct L.js v = Spec.zeroAct L.js 0 + R.mulVec v := by
  obtain ⟨rt, t, tips, js, last, link, s, _, _, _, chain, _, loop, _, robot_eq, _⟩ := L
  obtain ⟨hR, -⟩ := urdfLoop_act u js _ _ loop IsRot.one
  obtain ⟨e1, e2, e3⟩ := urdfLoop_zero u js _ _ loop id 0 (fun v => by simp)
  have htool : urdfTool s.R = (some s.R, some 0) := by unfold urdfTool; rw [hR.not_close_zero]; rfl
  refine ⟨?_, ?_, ?_, ?_, s.R, ?_, ?_, hR, e3⟩
  · exact (congrArg Robot.H robot_eq).trans (by simpa using e1)
  · exact (congrArg Robot.P robot_eq).trans (by simpa using e2)
  · rw [robot_eq]
  · rw [robot_eq]
  · rw [robot_eq, htool]
  · rw [robot_eq, htool]

theorem loaded_limits {u : Urdf ℝ} {root tip : Option String} {fuel : Nat} {r : Robot ℝ} (L : Loaded u root tip fuel r) (lo up : List ℝ)
    (hlo : List.Forall₂ (Spec.givesLimit ULimit.lower) (Spec.moving L.js) lo)
    (hup : List.Forall₂ (Spec.givesLimit ULimit.upper) (Spec.moving L.js) up) : r.lower = some lo ∧ r.upper = some up := by
  obtain ⟨rt, t, tips, js, last, link, s, _, _, _, chain, _, loop, _, robot_eq, _⟩ := L
  have A := urdfLoop_adds js _ _ loop
  have h1 := A.lower
  have h2 := A.upper
  simp only [List.nil_append] at h1 h2
  have e1 : noneIn s.lower = some lo := by
    rw [h1, noneIn_map]
    exact hlo.imp fun j x h => (limit_bind _ _ _).2 h
  have e2 : noneIn s.upper = some up := by
    rw [h2, noneIn_map]
    exact hup.imp fun j x h => (limit_bind _ _ _).2 h
  have e : limitPair s.lower s.upper = (some lo, some up) := by unfold limitPair; rw [e1, e2]
  exact ⟨by rw [robot_eq, e], by rw [robot_eq, e]⟩

theorem loaded_types {u : Urdf ℝ} {root tip : Option String} {fuel : Nat} {r : Robot ℝ} (L : Loaded u root tip fuel r) :
    r.jointType = (Spec.moving L.js).map typeNo := by
  obtain ⟨rt, t, tips, js, last, link, s, _, _, _, chain, _, loop, _, robot_eq, _⟩ := L
  exact (congrArg Robot.jointType robot_eq).trans (by simpa using (urdfLoop_adds js _ _ loop).ty)
