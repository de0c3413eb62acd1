import Verif.Props.JacobianAux
import Verif.Props.InvkinMisc
import Verif.Props.Iter
import Verif.Props.Ur
import Verif.Props.TransformProps

/-!
# Property C95: inverse kinematics does not depend on where the robot stands nor on what it carries

The analytic solvers give for a robot with base, flange and tool what they give for the bare robot and the pose of its
bare end; the iterative solver does not see the base.
-/
set_option autoImplicit false

namespace Spec

/-- The robot without base, flange and tool. -/
def bare {α : Type} (r : Robot α) : Robot α := { r with Tbase := none, Tflange := none, Rtool := none, ptool := none }

/-- Where the end of a robot on the base `B` is, when the end of the same robot without base is at `T`. -/
def moved (B : Option (Transform ℝ)) (T : Transform ℝ) : Transform ℝ :=
  match B with
  | none => T
  | some X => ⟨X.R * T.R, X.p + X.R.mulVec T.p, none, none⟩

/-- Where the tool of a robot is, when the end of the bare robot is at `T`: on the base `B`, with flange `F` and tool
(`Rt`, `pt`). -/
def carried (B F : Option (Transform ℝ)) (tool : Option (M3 ℝ × V3 ℝ)) (T : Transform ℝ) : Transform ℝ :=
  let T1 : Transform ℝ := match F with
    | none => T
    | some X => ⟨T.R * X.R, T.p + T.R.mulVec X.p, none, none⟩
  let T2 : Transform ℝ := match tool with
    | none => T1
    | some X => ⟨T1.R * X.1, T1.p + T1.R.mulVec X.2, none, none⟩
  moved B T2

end Spec

open Spec

/-- `robot6_sphericalwrist_invkin` sees the auxiliary transforms through the pose only. -/
theorem robot6_samePose (r r' : Robot ℝ) (hH : r'.H = r.H) (hP : r'.P = r.P) (hl : r'.lower = r.lower)
    (hu : r'.upper = r.upper) (T T' : Transform ℝ) (h : SamePose (unapplyAux r' T') (unapplyAux r T))
    (last : Option (List XReal)) :
    (robot6_sphericalwrist_invkin r'.up T'.up last).2 = (robot6_sphericalwrist_invkin r.up T.up last).2 := by
  have eN : Normalizer.ofRobot r'.up last = Normalizer.ofRobot r.up last := by
    simp only [Normalizer.ofRobot, Robot.up, hl, hu]
  have eH : r'.up.H = r.up.H := by simp only [Robot.up, hH]
  have eP : r'.up.P = r.up.P := by simp only [Robot.up, hP]
  have eR : (unapplyAux r' T').up.R = (unapplyAux r T).up.R := congrArg M3.up h.1
  have ep : (unapplyAux r' T').up.p = (unapplyAux r T).up.p := congrArg V3.up h.2
  simp only [robot6_sphericalwrist_invkin, unapplyAux_up, eN, eH, eP, eR, ep]

theorem ur_samePose (r r' : Robot ℝ) (hH : r'.H = r.H) (hP : r'.P = r.P) (hl : r'.lower = r.lower)
    (hu : r'.upper = r.upper) (T T' : Transform ℝ) (h : SamePose (unapplyAux r' T') (unapplyAux r T))
    (last : Option (List XReal)) : ur_invkin r'.up T'.up last = ur_invkin r.up T.up last := by
  have eN : Normalizer.ofRobot r'.up last = Normalizer.ofRobot r.up last := by
    simp only [Normalizer.ofRobot, Robot.up, hl, hu]
  have eH : r'.up.H = r.up.H := by simp only [Robot.up, hH]
  have eP : r'.up.P = r.up.P := by simp only [Robot.up, hP]
  have eR : (unapplyAux r' T').up.R = (unapplyAux r T).up.R := congrArg M3.up h.1
  have ep : (unapplyAux r' T').up.p = (unapplyAux r T).up.p := congrArg V3.up h.2
  simp only [ur_invkin, unapplyAux_up, eN, eH, eP, eR, ep]

theorem unapply_carried (r : Robot ℝ) (B F : Option (Transform ℝ)) (tool : Option (M3 ℝ × V3 ℝ))
    (hB : ∀ X, B = some X → IsRot X.R) (hF : ∀ X, F = some X → IsRot X.R) (ht : ∀ X, tool = some X → IsRot X.1)
    (T : Transform ℝ) :
    SamePose (unapplyAux (onBase (withTool r F tool) B) (carried B F tool T)) (unapplyAux (bare r) T) := by
  have hr : AuxRigid (onBase (withTool r F tool) B) := by
    refine ⟨fun X h => hB X h, fun X h => hF X h, fun R h => ?_⟩
    obtain _ | X := tool
    · cases h
    · cases h; exact ht X rfl
  have h := C21_unapply_apply _ hr T
  have e : SamePose (applyAux (onBase (withTool r F tool) B) T) (carried B F tool T) := by
    obtain _ | F := F <;> obtain _ | t := tool <;> obtain _ | B := B <;>
      exact ⟨rfl, rfl⟩
  have e2 : unapplyAux (bare r) T = T := rfl
  rw [e2]
  obtain ⟨a, b⟩ := e
  obtain ⟨c, d⟩ := h
  have cong : ∀ S S' : Transform ℝ, S.R = S'.R → S.p = S'.p → SamePose (unapplyAux (onBase (withTool r F tool) B) S)
      (unapplyAux (onBase (withTool r F tool) B) S') := by
    intro S S' h1 h2
    obtain _ | F := F <;> obtain _ | t := tool <;> obtain _ | B := B <;>
      simp [SamePose, unapplyAux, onBase, withTool, h1, h2]
  obtain ⟨g, k⟩ := cong _ _ a b
  exact ⟨g ▸ c, k ▸ d⟩

/-- C95: for the pose of the tool of a robot with base, flange and tool, `robot6_sphericalwrist_invkin` returns the very
list, or raises the very exception, that it does for the bare robot and the pose of its end. -/
theorem C95_robot6 (r : Robot ℝ) (B F : Option (Transform ℝ)) (tool : Option (M3 ℝ × V3 ℝ))
    (hB : ∀ X, B = some X → IsRot X.R) (hF : ∀ X, F = some X → IsRot X.R) (ht : ∀ X, tool = some X → IsRot X.1)
    (T : Transform ℝ) (last : Option (List XReal)) :
    (robot6_sphericalwrist_invkin (onBase (withTool r F tool) B).up (carried B F tool T).up last).2
      = (robot6_sphericalwrist_invkin (bare r).up T.up last).2 :=
  robot6_samePose (bare r) (onBase (withTool r F tool) B) rfl rfl rfl rfl _ _ (unapply_carried r B F tool hB hF ht T) last

/-- C95: the same for `ur_invkin`. -/
theorem C95_ur (r : Robot ℝ) (B F : Option (Transform ℝ)) (tool : Option (M3 ℝ × V3 ℝ))
    (hB : ∀ X, B = some X → IsRot X.R) (hF : ∀ X, F = some X → IsRot X.R) (ht : ∀ X, tool = some X → IsRot X.1)
    (T : Transform ℝ) (last : Option (List XReal)) :
    ur_invkin (onBase (withTool r F tool) B).up (carried B F tool T).up last = ur_invkin (bare r).up T.up last :=
  ur_samePose (bare r) (onBase (withTool r F tool) B) rfl rfl rfl rfl _ _ (unapply_carried r B F tool hB hF ht T) last

/-! ## The iterative solver -/

/-- `fwdkin` on a base. -/
theorem fwdkin_onBase (r : Robot ℝ) (X : Transform ℝ) (q : List ℝ) (ig : Bool) :
    fwdkin (onBase r (some X)) q ig = (fwdkin (onBase r none) q ig).map (X * ·) := by
  simp only [fwdkin]
  have e : checkLimits (onBase r (some X)) q ig = checkLimits (onBase r none) q ig := rfl
  rw [e]
  cases checkLimits (onBase r none) q ig with
  | error e => rfl
  | ok u =>
    simp only [onBase, Except.bind_ok]
    cases r.P with
    | nil => rfl
    | cons P0 Ps =>
      simp only
      cases fwdLoop r.jointType r.H Ps q (1, P0) with
      | error e => rfl
      | ok x => rfl

/-- One pass through the loop is the same on every base. -/
theorem iterBody_onBase (pinv : Pinv XReal) (r : Robot ℝ) (X : Transform ℝ) (hX : IsRot X.R) (T : Transform ℝ)
    (Kp KR : M3 ℝ) (q : List ℝ) :
    iterBody pinv (onBase r (some X)).up (moved (some X) T).up Kp.up KR.up (q.map .fin)
      = iterBody pinv (onBase r none).up T.up Kp.up KR.up (q.map .fin) := by
  simp only [iterBody, fwdkin_up, robotjacobian_up]
  have hf := fwdkin_onBase r X q true
  cases h0 : fwdkin (onBase r none) q true with
  | error e => rw [h0] at hf; rw [hf]; rfl
  | ok C =>
    rw [h0] at hf
    have hf : fwdkin (onBase r (some X)) q true = .ok (X * C) := hf
    have hj := C94_base r none (some X) (by rintro _ ⟨⟩) (by rintro _ ⟨⟩; exact hX) q true C (X * C) h0 hf
    rw [hf]
    have eER : (moved (some X) T).up.R.transpose * (X * C).up.R = T.up.R.transpose * C.up.R := by
      show (X.R * T.R).up.transpose * (X.R * C.R).up = T.R.up.transpose * C.R.up
      rw [M3.up_transpose, M3.up_transpose, M3.up_mul, M3.up_mul, M3.transpose_mul, M3.mul_assoc',
        ← M3.mul_assoc' X.R.transpose, hX.orth, M3.one_mul']
    have eEP : (X * C).up.R.transpose.mulVec ((X * C).up.p - (moved (some X) T).up.p)
        = C.up.R.transpose.mulVec (C.up.p - T.up.p) := by
      show (X.R * C.R).up.transpose.mulVec ((X.p + X.R.mulVec C.p).up - (X.p + X.R.mulVec T.p).up)
        = C.R.up.transpose.mulVec (C.p.up - T.p.up)
      rw [M3.up_transpose, M3.up_transpose, V3.up_sub, V3.up_sub, M3.up_mulVec, M3.up_mulVec]
      have : X.p + X.R.mulVec C.p - (X.p + X.R.mulVec T.p) = X.R.mulVec (C.p - T.p) := by ext <;> simp <;> ring
      rw [this, M3.transpose_mul, ← M3.mulVec_mulVec, hX.transpose_mulVec_mulVec]
    simp only [Except.map, Except.bind_ok, eER, eEP]
    cases hJ0 : robotjacobian (onBase r none) q true with
    | error e =>
      rw [hJ0] at hj
      cases hJ1 : robotjacobian (onBase r (some X)) q true with
      | error e' => rw [hJ1] at hj; cases hj; rfl
      | ok J => rw [hJ1] at hj; cases hj
    | ok J0 =>
      rw [hJ0] at hj
      cases hJ1 : robotjacobian (onBase r (some X)) q true with
      | error e' => rw [hJ1] at hj; cases hj
      | ok J =>
        rw [hJ1] at hj
        have hj : J.map (seenFrom (X * C).R) = J0.map (seenFrom C.R) := Except.ok.inj hj
        have key : ∀ (L : List (V6 ℝ)) (S : Transform ℝ),
            (L.map V6.up).map (fun c => (⟨S.up.R.transpose.mulVec c.top, S.up.R.transpose.mulVec c.bot⟩ : V6 XReal))
              = (L.map (seenFrom S.R)).map V6.up := by
          intro L S
          rw [List.map_map, List.map_map]
          refine List.map_congr_left fun c _ => ?_
          show V6.mk (S.R.up.transpose.mulVec c.top.up) (S.R.up.transpose.mulVec c.bot.up) = V6.mk (V3.up _) (V3.up _)
          rw [M3.up_transpose, M3.up_mulVec, M3.up_mulVec]
          rfl
        simp only [Except.map, Except.bind_ok, key, hj]

/-- C95: `iterative_invkin` goes through the same joint vectors, and returns the same or raises the same exception, for a
robot on a base and the pose moved along with the base, whatever the base, the gains, the tolerance and the number of
steps.  (`pinv` is `np.linalg.pinv`, of which only finite entries are required.) -/
theorem C95_iterative (pinv : Pinv XReal) (hpinv : Spec.finitePinv pinv) (r : Robot ℝ) (hw : (onBase r none).WF)
    (B : Option (Transform ℝ)) (hB : ∀ X, B = some X → IsRot X.R) (T : Transform ℝ) (hT : IsRot T.R) (Kp KR : M3 ℝ)
    (tol : XReal) (maxSteps : Int) (seed : List ℝ) :
    iterative_invkin pinv (onBase r B).up (moved B T).up (seed.map .fin) maxSteps Kp.up KR.up tol
      = iterative_invkin pinv (onBase r none).up T.up (seed.map .fin) maxSteps Kp.up KR.up tol := by
  obtain _ | X := B
  · rfl
  have hX := hB X rfl
  have hloop : ∀ (fuel : Nat) (q : List ℝ), q.length = r.H.length →
      iterLoop pinv (onBase r (some X)).up (moved (some X) T).up Kp.up KR.up tol fuel (q.map .fin)
        = iterLoop pinv (onBase r none).up T.up Kp.up KR.up tol fuel (q.map .fin) := by
    intro fuel
    induction fuel with
    | zero => intro q _; rfl
    | succ fuel ih =>
      intro q lq
      simp only [iterLoop]
      rw [iterBody_onBase pinv r X hX T Kp KR q]
      cases hb : iterBody pinv (onBase r none).up T.up Kp.up KR.up (q.map .fin) with
      | error e => rfl
      | ok st =>
        simp only [Except.bind_ok]
        obtain ⟨C, hC, hR⟩ := fwdkin_rigid (onBase r none) hw q lq
        obtain ⟨k, θ, δ, _, _, _, _, hδ⟩ := iterBody_eval pinv hpinv (onBase r none) T C Kp KR q hC hR hT st hb
        split_ifs with h1 h2
        · rfl
        · rw [hδ, zipWith_fin]
          refine ih _ ?_
          rw [hδ] at h2
          simp at h2
          simp [h2, lq]
        · rfl
  have e1 : (onBase r (some X)).up.jointType.length = (onBase r none).up.jointType.length := rfl
  have e2 : Normalizer.ofRobot (onBase r (some X)).up (some (seed.map .fin)) true
      = Normalizer.ofRobot (onBase r none).up (some (seed.map .fin)) true := rfl
  simp only [iterative_invkin, e1, e2]
  by_cases hl : (seed.map XReal.fin).length = (onBase r none).up.jointType.length
  · have l : seed.length = r.H.length := by
      have := hl.trans hw.joints
      rwa [List.length_map] at this
    rw [hloop _ _ l]
  · rw [if_neg hl, if_neg hl]

/-! Concrete cases: the two-joint arm in the plane, on a base turned by a half turn, and a bare UR arm with a tool. -/

private noncomputable def planar : Robot ℝ :=
  { H := [V3.ez, V3.ez], P := [0, V3.ex, V3.ex], jointType := [0, 0] }

example : (onBase planar none).WF ∧ IsRot (rot (V3.ez : V3 ℝ) Real.pi) ∧ Spec.finitePinv (fun _ => .ok []) ∧
    (moved (some ⟨rot V3.ez Real.pi, V3.ex, none, none⟩) ⟨1, 0, none, none⟩).p ≠ 0 := by
  refine ⟨⟨rfl, rfl, by simp [onBase, planar], by simp [onBase, planar, IsUnit3], by simp [onBase], by simp [onBase, planar],
    by simp [onBase, planar], by simp [onBase, planar]⟩, rot_isRot _ (by simp [IsUnit3]) _, ?_, fun h => ?_⟩
  · rintro _ _ ⟨⟩ _ ⟨⟩
  · have := congrArg V3.x h
    simp [moved] at this

example (lo up : Option (List ℝ)) (T : Transform ℝ) :
    ur_invkin (withTool (Spec.smallUr lo up) none (some (rot V3.ez Real.pi, V3.ex))).up
        (⟨T.R * rot V3.ez Real.pi, T.p + T.R.mulVec V3.ex, none, none⟩ : Transform ℝ).up
      = ur_invkin (Spec.smallUr lo up).up T.up :=
  C95_ur (Spec.smallUr lo up) none none (some (rot V3.ez Real.pi, V3.ex)) (by rintro _ ⟨⟩) (by rintro _ ⟨⟩)
    (by rintro _ ⟨⟩; exact rot_isRot _ (by simp [IsUnit3]) _) T none
