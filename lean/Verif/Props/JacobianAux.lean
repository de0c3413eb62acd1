import Verif.Props.Rotation
import Verif.Props.Jacobian
import Verif.Lemmas.Taylor

/-!
# Property C94: what a tool, a flange and a base do to the Jacobian

The specification is the change of reference point of rigid-body kinematics, written with `screw_matrix` and the
positions `fwdkin` returns, and a rotation of the coordinates; nothing of `robotjacobian` appears in it.
-/
set_option autoImplicit false

namespace Spec

/-- The robot `r` carrying another flange and another tool (rotation and position, both or neither). -/
def withTool {α : Type} (r : Robot α) (F : Option (Transform α)) (tool : Option (M3 α × V3 α)) : Robot α :=
  { r with Tflange := F, Rtool := tool.map Prod.fst, ptool := tool.map Prod.snd }

/-- The robot `r` standing on another base. -/
def onBase {α : Type} (r : Robot α) (B : Option (Transform α)) : Robot α := { r with Tbase := B }

/-- The joint torques that hold a wrench (moment, force) acting at the tool: its power with each column. -/
def torques (J : List (V6 ℝ)) (w : V6 ℝ) : List ℝ := J.map fun c => c.top.dot w.top + c.bot.dot w.bot

/-- A column in the coordinates of the frame whose rotation is `R`. -/
def seenFrom (R : M3 ℝ) (c : V6 ℝ) : V6 ℝ := ⟨R.transpose.mulVec c.top, R.transpose.mulVec c.bot⟩

end Spec

open Spec

/-- The tool point of `robotjacobian`, without the base. -/
def toolPoint (F : Option (Transform ℝ)) (tool : Option (M3 ℝ × V3 ℝ)) (R : M3 ℝ) (p : V3 ℝ) : V3 ℝ :=
  let p1 := match F with
    | some F => p + R.mulVec F.p
    | none => p
  match tool with
    | some t => p1 + (R * (match F with | some F => F.R | none => 1)).mulVec t.2
    | none => p1

/-- The first loop of `robotjacobian` succeeds where that of `fwdkin` does. -/
theorem jacLoop_of_fwd : ∀ (ts : List Nat) (hs Ps : List (V3 ℝ)) (θ : List ℝ) (Rp : M3 ℝ × V3 ℝ) (Rn : M3 ℝ) (pn : V3 ℝ),
    fwdLoop ts hs Ps θ Rp = .ok (Rn, pn) → ∃ fs, jacLoop ts hs Ps θ Rp = .ok (fs, Rn, pn) := by
  intro ts
  induction ts with
  | nil => intro hs Ps θ Rp Rn pn h; cases h; exact ⟨_, rfl⟩
  | cons t ts ih =>
    intro hs Ps θ Rp Rn pn h
    obtain _ | ⟨k, hs⟩ := hs
    · cases h
    obtain _ | ⟨P, Ps⟩ := Ps
    · cases h
    obtain _ | ⟨x, θ⟩ := θ
    · cases h
    obtain ⟨fs, hf⟩ := ih hs Ps θ _ Rn pn h
    exact ⟨_, by simp only [jacLoop, hf]; rfl⟩

/-- Columns for another tool point. -/
theorem jacCols_point (x y : V3 ℝ) : ∀ (n : Nat) (fs : List (JointFrame ℝ)), fs.length ≤ n →
    jacCols y fs = (jacCols x fs).map (List.map fun c => (screwMatrix (y - x)).transpose.mulVec c) := by
  intro n
  induction n with
  | zero => intro fs h; obtain rfl : fs = [] := by simpa using h
            rfl
  | succ n ih =>
    intro fs h
    have hz : ∀ v : V3 ℝ, (screwMatrix (y - x)).transpose.mulVec ⟨0, v⟩ = ⟨0, v⟩ := fun v => by
      rw [C12_screw_twist]; apply V6.ext <;> ext <;> simp
    have hh : ∀ f : JointFrame ℝ, (screwMatrix (y - x)).transpose.mulVec ⟨f.h, (hat f.h).mulVec (x - f.pO)⟩
        = ⟨f.h, (hat f.h).mulVec (y - f.pO)⟩ := fun f => by
      rw [C12_screw_twist, hat_mulVec, hat_mulVec]; apply V6.ext <;> ext <;> simp <;> ring
    obtain _ | ⟨f, fs⟩ := fs
    · rfl
    have hl : fs.length ≤ n := by simpa using h
    rw [jacCols.eq_def, jacCols.eq_def (x)]
    simp only
    split_ifs with h0 h1 h3
    · rw [ih fs hl]
      cases jacCols x fs with
      | error e => rfl
      | ok l => exact congrArg Except.ok (by simp [hh])
    · rw [ih fs hl]
      cases jacCols x fs with
      | error e => rfl
      | ok l => exact congrArg Except.ok (by simp [hz])
    · obtain _ | ⟨a, _ | ⟨g, fs'⟩⟩ := fs
      · rfl
      · rfl
      · simp only
        rw [ih fs' (by simp at hl; omega)]
        cases jacCols x fs' with
        | error e => rfl
        | ok l => exact congrArg Except.ok (by simp [hz, hh])
    · rw [ih fs hl]
      cases jacCols x fs with
      | error e => rfl
      | ok l => exact congrArg Except.ok (by simp [hz])

/-- `robotjacobian` of a robot with flange `F` and tool `tool`, when the loop succeeds. -/
theorem robotjacobian_withTool (r : Robot ℝ) (F : Option (Transform ℝ)) (tool : Option (M3 ℝ × V3 ℝ)) (θ : List ℝ)
    (ig : Bool) (P0 : V3 ℝ) (Ps : List (V3 ℝ)) (hP : r.P = P0 :: Ps) (hc : checkLimits r θ ig = .ok ())
    (fs : List (JointFrame ℝ)) (R : M3 ℝ) (p : V3 ℝ) (hj : jacLoop r.jointType r.H Ps θ (1, P0) = .ok (fs, R, p)) :
    robotjacobian (withTool r F tool) θ ig = (jacCols (toolPoint F tool R p) fs).map fun J =>
      match r.Tbase with
      | none => J
      | some B => J.map fun c => ⟨B.R.mulVec c.top, B.R.mulVec c.bot⟩ := by
  have hc' : checkLimits (withTool r F tool) θ ig = .ok () := hc
  obtain _ | F := F <;> obtain _ | t := tool <;>
  · simp only [robotjacobian]
    rw [hc']
    simp only [withTool, hP, hj, bind, Except.bind, toolPoint, Option.map]
    cases jacCols _ fs with
    | error e => rfl
    | ok l => cases r.Tbase <;> rfl

/-- `fwdkin` of a robot with flange `F` and tool `tool`: the position. -/
theorem fwdkin_withTool (r : Robot ℝ) (F : Option (Transform ℝ)) (tool : Option (M3 ℝ × V3 ℝ)) (θ : List ℝ)
    (ig : Bool) (P0 : V3 ℝ) (Ps : List (V3 ℝ)) (hP : r.P = P0 :: Ps) (R : M3 ℝ) (p : V3 ℝ)
    (hj : fwdLoop r.jointType r.H Ps θ (1, P0) = .ok (R, p)) (T : Transform ℝ)
    (hT : fwdkin (withTool r F tool) θ ig = .ok T) :
    T.p = match r.Tbase with
      | none => toolPoint F tool R p
      | some B => B.p + B.R.mulVec (toolPoint F tool R p) := by
  simp only [fwdkin] at hT
  obtain ⟨_, _, hT⟩ := Except.bind_eq_ok hT
  simp only [withTool, hP, hj, Except.bind_ok] at hT
  cases hT
  obtain _ | F := F <;> obtain _ | t := tool <;> cases r.Tbase <;>
    simp [applyAux, toolPoint, Transform.mul_p, Transform.mul_R] <;> try (ext <;> simp <;> ring)

/-- C94: two robots that differ in flange and tool only have Jacobians that differ by the change of reference point
from the one tool to the other: each column is carried along by `screw_matrix`, transposed, of the displacement between
the two positions `fwdkin` returns; and if one raises, the other raises the same exception.  For all joint types,
mobile bases included, and all joint values within the limits. -/
theorem C94_tool (r : Robot ℝ) (hB : ∀ B, r.Tbase = some B → IsRot B.R) (F F' : Option (Transform ℝ))
    (tool tool' : Option (M3 ℝ × V3 ℝ)) (θ : List ℝ) (ig : Bool) (T T' : Transform ℝ)
    (hT : fwdkin (withTool r F tool) θ ig = .ok T) (hT' : fwdkin (withTool r F' tool') θ ig = .ok T') :
    robotjacobian (withTool r F' tool') θ ig
      = (robotjacobian (withTool r F tool) θ ig).map
          (List.map fun c => (screwMatrix (T'.p - T.p)).transpose.mulVec c) := by
  have hT0 := hT
  simp only [fwdkin] at hT
  obtain ⟨_, hc, hT⟩ := Except.bind_eq_ok hT
  have hc : checkLimits r θ ig = .ok () := hc
  obtain ⟨P0, Ps, hP⟩ : ∃ P0 Ps, r.P = P0 :: Ps := by
    cases h : r.P with
    | nil => simp [withTool, h] at hT
    | cons a b => exact ⟨a, b, rfl⟩
  simp only [withTool, hP] at hT
  obtain ⟨⟨R, p⟩, hl, _⟩ := Except.bind_eq_ok hT
  obtain ⟨fs, hj⟩ := jacLoop_of_fwd _ _ _ _ _ _ _ hl
  rw [robotjacobian_withTool r F tool θ ig P0 Ps hP hc fs R p hj,
    robotjacobian_withTool r F' tool' θ ig P0 Ps hP hc fs R p hj,
    jacCols_point (toolPoint F tool R p) (toolPoint F' tool' R p) _ fs le_rfl]
  have e := fwdkin_withTool r F tool θ ig P0 Ps hP R p hl T hT0
  have e' := fwdkin_withTool r F' tool' θ ig P0 Ps hP R p hl T' hT'
  cases jacCols (toolPoint F tool R p) fs with
  | error e => rfl
  | ok l =>
    refine congrArg Except.ok ?_
    cases hb : r.Tbase with
    | none => rw [hb] at e e'; simp only at e e'; simp [e, e']
    | some B =>
      rw [hb] at e e'; simp only at e e'
      simp only [List.map_map]
      refine List.map_congr_left fun c _ => ?_
      simp only [Function.comp_def]
      obtain ⟨w, v⟩ := c
      rw [C12_screw_twist, C12_screw_twist, e, e']
      apply V6.ext
      · rfl
      · have h := (hB B hb).mulVec_cross w (toolPoint F' tool' R p - toolPoint F tool R p)
        have h2 : B.p + B.R.mulVec (toolPoint F' tool' R p) - (B.p + B.R.mulVec (toolPoint F tool R p))
            = B.R.mulVec (toolPoint F' tool' R p - toolPoint F tool R p) := by ext <;> simp <;> ring
        simp only
        rw [h2, ← h]
        ext <;> simp <;> ring

/-- C94: the same wrench needs the same joint torques, whichever tool it is referred to. -/
theorem C94_torques (r : Robot ℝ) (hB : ∀ B, r.Tbase = some B → IsRot B.R) (F F' : Option (Transform ℝ))
    (tool tool' : Option (M3 ℝ × V3 ℝ)) (θ : List ℝ) (ig : Bool) (T T' : Transform ℝ) (J J' : List (V6 ℝ))
    (hT : fwdkin (withTool r F tool) θ ig = .ok T) (hT' : fwdkin (withTool r F' tool') θ ig = .ok T')
    (hJ : robotjacobian (withTool r F tool) θ ig = .ok J) (hJ' : robotjacobian (withTool r F' tool') θ ig = .ok J')
    (w : V6 ℝ) : torques J' w = torques J ((screwMatrix (T'.p - T.p)).mulVec w) := by
  have h := C94_tool r hB F F' tool tool' θ ig T T' hT hT'
  rw [hJ, hJ'] at h
  obtain rfl := Except.ok.inj h
  simp only [torques, List.map_map]
  refine List.map_congr_left fun c _ => ?_
  exact C12_screw_power _ c w

/-- C94: the Jacobian in the coordinates of the tool does not depend on where and how the robot stands, and neither
does the exception raised. -/
theorem C94_base (r : Robot ℝ) (B B' : Option (Transform ℝ)) (hB : ∀ X, B = some X → IsRot X.R)
    (hB' : ∀ X, B' = some X → IsRot X.R) (θ : List ℝ) (ig : Bool) (T T' : Transform ℝ)
    (hT : fwdkin (onBase r B) θ ig = .ok T) (hT' : fwdkin (onBase r B') θ ig = .ok T') :
    (robotjacobian (onBase r B') θ ig).map (List.map (seenFrom T'.R))
      = (robotjacobian (onBase r B) θ ig).map (List.map (seenFrom T.R)) := by
  suffices h : ∀ (C : Option (Transform ℝ)) (hC : ∀ X, C = some X → IsRot X.R) (T T0 : Transform ℝ),
      fwdkin (onBase r C) θ ig = .ok T → fwdkin (onBase r none) θ ig = .ok T0 →
      (robotjacobian (onBase r C) θ ig).map (List.map (seenFrom T.R))
        = (robotjacobian (onBase r none) θ ig).map (List.map (seenFrom T0.R)) by
    have h0 : ∃ T0, fwdkin (onBase r none) θ ig = .ok T0 := by
      simp only [fwdkin] at hT ⊢
      obtain ⟨_, hc, hT⟩ := Except.bind_eq_ok hT
      have hc : checkLimits (onBase r none) θ ig = .ok () := hc
      rw [hc, Except.bind_ok]
      simp only [onBase] at hT ⊢
      cases hP : r.P with
      | nil => rw [hP] at hT; cases hT
      | cons P0 Ps =>
        rw [hP] at hT
        obtain ⟨⟨R, p⟩, hl, _⟩ := Except.bind_eq_ok hT
        exact ⟨_, by simp only [hl, Except.bind_ok]; rfl⟩
    obtain ⟨T0, h0⟩ := h0
    rw [h B hB T T0 hT h0, h B' hB' T' T0 hT' h0]
  intro C hC T T0 hT hT0
  obtain _ | X := C
  · rw [hT] at hT0; cases hT0; rfl
  have hX := hC X rfl
  have hR : T.R = X.R * T0.R := by
    simp only [fwdkin] at hT hT0
    obtain ⟨_, _, hT⟩ := Except.bind_eq_ok hT
    obtain ⟨_, _, hT0⟩ := Except.bind_eq_ok hT0
    simp only [onBase] at hT hT0
    cases hP : r.P with
    | nil => rw [hP] at hT; cases hT
    | cons P0 Ps =>
      rw [hP] at hT hT0
      obtain ⟨⟨R, p⟩, hl, hT⟩ := Except.bind_eq_ok hT
      simp only [hl, Except.bind_ok] at hT0
      cases hT; cases hT0
      rfl
  have hJ : robotjacobian (onBase r (some X)) θ ig
      = (robotjacobian (onBase r none) θ ig).map (List.map fun c => ⟨X.R.mulVec c.top, X.R.mulVec c.bot⟩) := by
    simp only [robotjacobian]
    have e : checkLimits (onBase r (some X)) θ ig = checkLimits (onBase r none) θ ig := rfl
    rw [e]
    cases checkLimits (onBase r none) θ ig with
    | error e => rfl
    | ok u =>
      simp only [onBase, Except.bind_ok]
      cases r.P with
      | nil => rfl
      | cons P0 Ps =>
        simp only
        cases jacLoop r.jointType r.H Ps θ (1, P0) with
        | error e => rfl
        | ok x =>
          obtain ⟨fs, R, p⟩ := x
          simp only [Except.bind_ok]
          cases jacCols _ fs <;> rfl
  rw [hJ]
  have hv : ∀ v : V3 ℝ, (X.R * T0.R).transpose.mulVec (X.R.mulVec v) = T0.R.transpose.mulVec v := fun v => by
    rw [M3.transpose_mul, ← M3.mulVec_mulVec, hX.transpose_mulVec_mulVec]
  cases robotjacobian (onBase r none) θ ig with
  | error e => rfl
  | ok l =>
    refine congrArg Except.ok ?_
    rw [List.map_map]
    refine List.map_congr_left fun c _ => ?_
    simp only [Function.comp_def, seenFrom, hR, hv]

/-! A concrete case: one joint about `z` and a tool one unit along `x`, which sweeps along `y`; without the tool the
end point does not move. -/

private noncomputable def pin : Robot ℝ := { H := [V3.ez], P := [0, 0], jointType := [0] }

example : fwdkin (withTool pin none (some (1, V3.ex))) [0] true = .ok ⟨1, V3.ex, none, none⟩ ∧
    fwdkin (withTool pin none none) [0] true = .ok ⟨1, 0, none, none⟩ ∧
    robotjacobian (withTool pin none none) [0] true = .ok [⟨V3.ez, 0⟩] ∧
    robotjacobian (withTool pin none (some (1, V3.ex))) [0] true = .ok [⟨V3.ez, V3.ey⟩] := by
  have hr : rot (V3.ez : V3 ℝ) 0 = 1 := by ext <;> simp [rot, hat, V3.ez]
  refine ⟨?_, ?_, ?_, ?_⟩
  all_goals simp [fwdkin, robotjacobian, withTool, pin, checkLimits, fwdLoop, jacLoop, jacCols, fwdStep, applyAux, hr, bind, Except.bind,
    pure, Except.pure]
  · ext <;> simp [V3.ez, V3.ex, V3.ey]
  · ext <;> simp [V3.ez, V3.ex, V3.ey]

/-- A base, turned by a half turn about `z`, for `C94_base`. -/
example : IsRot (rot (V3.ez : V3 ℝ) Real.pi) ∧ ∃ T T', fwdkin (onBase pin none) [0] true = .ok T ∧
    fwdkin (onBase pin (some ⟨rot V3.ez Real.pi, V3.ex, none, none⟩)) [0] true = .ok T' ∧ T.p ≠ T'.p := by
  refine ⟨rot_isRot _ (by simp [IsUnit3, V3.ez, V3.dot]) _, _, _, rfl, rfl, fun h => ?_⟩
  have := congrArg V3.x h
  simp [applyAux, onBase, pin, V3.ex] at this
