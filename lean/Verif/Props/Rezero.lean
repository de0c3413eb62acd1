import Verif.Props.Kinematics
import Verif.Lemmas.Opw

/-!
# Property C114: the choice of the zero position of a robot does not matter

`Spec.rezero` writes down the description (axes, offsets, limits, flange) of the same mechanism when the joint values are counted from the
configuration `c` instead of from zero: each axis and each offset is given as it stands at `c`, a prismatic joint adds the travel it has
made to the offset behind it, the flange is turned along, and the limits are lowered by `c`.
-/
set_option autoImplicit false

/-- The orientation behind a joint at value `c`, `S` being the orientation in front of it. -/
noncomputable def Spec.turnedBehind (t : Nat) (h : V3 ℝ) (c : ℝ) (S : M3 ℝ) : M3 ℝ := if IsRotary t then S * rot h c else S

/-- The axes as they stand at the configuration `cs`. -/
noncomputable def Spec.rezeroH : List Nat → List (V3 ℝ) → List ℝ → M3 ℝ → List (V3 ℝ)
  | t :: ts, h :: hs, c :: cs, S => S.mulVec h :: Spec.rezeroH ts hs cs (Spec.turnedBehind t h c S)
  | _, _, _, _ => []

/-- The offsets behind the joints as they stand at the configuration `cs`. -/
noncomputable def Spec.rezeroP : List Nat → List (V3 ℝ) → List (V3 ℝ) → List ℝ → M3 ℝ → List (V3 ℝ)
  | t :: ts, h :: hs, P :: Ps, c :: cs, S =>
    (Spec.turnedBehind t h c S).mulVec (if IsRotary t then P else P + c • h) :: Spec.rezeroP ts hs Ps cs (Spec.turnedBehind t h c S)
  | _, _, _, _, _ => []

/-- The orientation behind the last joint at the configuration `cs`. -/
noncomputable def Spec.rezeroS : List Nat → List (V3 ℝ) → List ℝ → M3 ℝ → M3 ℝ
  | t :: ts, h :: hs, c :: cs, S => Spec.rezeroS ts hs cs (Spec.turnedBehind t h c S)
  | _, _, _, S => S

/-- The same mechanism with the joint values counted from `c`. -/
noncomputable def Spec.rezero (r : Robot ℝ) (c : List ℝ) : Robot ℝ :=
  let S := Spec.rezeroS r.jointType r.H c 1
  let F := r.Tflange.getD ⟨1, 0, none, none⟩
  { r with
    H := Spec.rezeroH r.jointType r.H c 1
    P := match r.P with
      | [] => []
      | P0 :: Ps => P0 :: Spec.rezeroP r.jointType r.H Ps c 1
    lower := r.lower.map fun l => List.zipWith (· - ·) l c
    upper := r.upper.map fun u => List.zipWith (· - ·) u c
    Tflange := some ⟨S * F.R, S.mulVec F.p, F.parent, F.child⟩ }

/-! ## Helper lemmas -/

namespace RezeroL

theorem turned_rot {t : Nat} {h : V3 ℝ} (hh : IsUnit3 h) {c : ℝ} {S : M3 ℝ} (hS : IsRot S) : IsRot (Spec.turnedBehind t h c S) := by
  unfold Spec.turnedBehind
  split_ifs
  · exact hS.mul (rot_isRot h hh c)
  · exact hS

theorem turned_axis (t : Nat) (h : V3 ℝ) (c : ℝ) (S : M3 ℝ) : (Spec.turnedBehind t h c S).mulVec h = S.mulVec h := by
  unfold Spec.turnedBehind
  split_ifs
  · rw [← M3.mulVec_mulVec, rot_axis]
  · rfl

theorem unit_turn {S : M3 ℝ} (hS : IsRot S) {h : V3 ℝ} (hh : IsUnit3 h) : IsUnit3 (S.mulVec h) := by
  have e : (S.mulVec h).dot (S.mulVec h) = h.dot h := by
    have := hS.transpose_mulVec_mulVec h
    have h2 : (S.mulVec h).dot (S.mulVec h) = h.dot (S.transpose.mulVec (S.mulVec h)) := by simp [V3.dot]; ring
    rw [h2, this]
  unfold IsUnit3 at *
  simpa [V3.dot] using e.trans (by simpa [V3.dot] using hh)

theorem step (t : Nat) (ht : t < 4) (h P : V3 ℝ) (hh : IsUnit3 h) (c x : ℝ) (S R : M3 ℝ) (hS : IsRot S) (p : V3 ℝ) :
    fwdStep t h P (c + x) (R * S, p) =
      ((fwdStep t (S.mulVec h) ((Spec.turnedBehind t h c S).mulVec (if IsRotary t then P else P + c • h)) x (R, p)).1 * Spec.turnedBehind t h c S,
        (fwdStep t (S.mulVec h) ((Spec.turnedBehind t h c S).mulVec (if IsRotary t then P else P + c • h)) x (R, p)).2) := by
  by_cases hr : IsRotary t
  · rw [fwdStep_rotary hr, fwdStep_rotary hr]
    have e : R * S * rot h (c + x) = R * rot (S.mulVec h) x * Spec.turnedBehind t h c S := by
      rw [rot_conj hS, Spec.turnedBehind, if_pos hr, add_comm c x, ← rot_mul h hh]
      simp only [M3.mul_assoc']
      rw [← M3.mul_assoc' S.transpose S, hS.orth, M3.one_mul']
    dsimp only
    rw [e, if_pos hr, M3.mulVec_mulVec]
  · have hp : IsPrismatic t := by unfold IsRotary at hr; unfold IsPrismatic; omega
    rw [fwdStep_prismatic hp, fwdStep_prismatic hp]
    simp only [Spec.turnedBehind, if_neg hr, Prod.mk.injEq, true_and]
    rw [M3.mulVec_mulVec, M3.mulVec_mulVec]
    generalize R * S = A
    ext <;> simp <;> ring

theorem fwd (ts : List Nat) (hs Ps : List (V3 ℝ)) (cs xs : List ℝ) (lh : hs.length = ts.length) (lP : Ps.length = ts.length)
    (lc : cs.length = ts.length) (lx : xs.length = ts.length) (hu : ∀ h ∈ hs, IsUnit3 h) (ht : ∀ t ∈ ts, t < 4)
    (S R : M3 ℝ) (hS : IsRot S) (p : V3 ℝ) :
    ∃ R' p', fwdLoop ts (Spec.rezeroH ts hs cs S) (Spec.rezeroP ts hs Ps cs S) xs (R, p) = .ok (R', p') ∧
      fwdLoop ts hs Ps (List.zipWith (· + ·) cs xs) (R * S, p) = .ok (R' * Spec.rezeroS ts hs cs S, p') := by
  induction ts generalizing hs Ps cs xs S R p with
  | nil => exact ⟨R, p, rfl, by simp [fwdLoop, Spec.rezeroS]⟩
  | cons t ts ih =>
    obtain _ | ⟨h, hs⟩ := hs
    · simp at lh
    obtain _ | ⟨P, Ps⟩ := Ps
    · simp at lP
    obtain _ | ⟨c, cs⟩ := cs
    · simp at lc
    obtain _ | ⟨x, xs⟩ := xs
    · simp at lx
    have hh := hu h (by simp)
    simp only [Spec.rezeroH, Spec.rezeroP, Spec.rezeroS, List.zipWith_cons_cons, fwdLoop]
    rw [step t (ht t (by simp)) h P hh c x S R hS p]
    exact ih hs Ps cs xs (by simpa using lh) (by simpa using lP) (by simpa using lc) (by simpa using lx)
      (fun y hy => hu y (by simp [hy])) (fun y hy => ht y (by simp [hy])) _ _ (turned_rot hh hS) _

/-- Frames that differ at most in the joint value. -/
def SameFrames : List (JointFrame ℝ) → List (JointFrame ℝ) → Prop
  | [], [] => True
  | f :: fs, g :: gs => f.ty = g.ty ∧ f.pO = g.pO ∧ f.h = g.h ∧ SameFrames fs gs
  | _, _ => False

theorem jac (ts : List Nat) (hs Ps : List (V3 ℝ)) (cs xs : List ℝ) (lh : hs.length = ts.length) (lP : Ps.length = ts.length)
    (lc : cs.length = ts.length) (lx : xs.length = ts.length) (hu : ∀ h ∈ hs, IsUnit3 h) (ht : ∀ t ∈ ts, t < 4)
    (S R : M3 ℝ) (hS : IsRot S) (p : V3 ℝ) :
    ∃ fs gs R' p', jacLoop ts (Spec.rezeroH ts hs cs S) (Spec.rezeroP ts hs Ps cs S) xs (R, p) = .ok (fs, R', p') ∧
      jacLoop ts hs Ps (List.zipWith (· + ·) cs xs) (R * S, p) = .ok (gs, R' * Spec.rezeroS ts hs cs S, p') ∧
      SameFrames gs fs ∧ fs.map (·.ty) = ts := by
  induction ts generalizing hs Ps cs xs S R p with
  | nil => exact ⟨[], [], R, p, rfl, by simp [jacLoop, Spec.rezeroS], trivial, rfl⟩
  | cons t ts ih =>
    obtain _ | ⟨h, hs⟩ := hs
    · simp at lh
    obtain _ | ⟨P, Ps⟩ := Ps
    · simp at lP
    obtain _ | ⟨c, cs⟩ := cs
    · simp at lc
    obtain _ | ⟨x, xs⟩ := xs
    · simp at lx
    have hh := hu h (by simp)
    simp only [Spec.rezeroH, Spec.rezeroP, Spec.rezeroS, List.zipWith_cons_cons, jacLoop]
    rw [step t (ht t (by simp)) h P hh c x S R hS p]
    obtain ⟨fs, gs, R', p', e1, e2, e3, e4⟩ := ih hs Ps cs xs (by simpa using lh) (by simpa using lP) (by simpa using lc) (by simpa using lx)
      (fun y hy => hu y (by simp [hy])) (fun y hy => ht y (by simp [hy])) (Spec.turnedBehind t h c S)
      (fwdStep t (S.mulVec h) ((Spec.turnedBehind t h c S).mulVec (if IsRotary t then P else P + c • h)) x (R, p)).1 (turned_rot hh hS)
      (fwdStep t (S.mulVec h) ((Spec.turnedBehind t h c S).mulVec (if IsRotary t then P else P + c • h)) x (R, p)).2
    refine ⟨_, _, R', p', by rw [e1]; rfl, by rw [e2]; rfl, ?_, by simp [e4]⟩
    simp only [SameFrames]
    refine ⟨trivial, trivial, ?_, e3⟩
    rw [← M3.mulVec_mulVec, turned_axis]

theorem cols (q : V3 ℝ) (gs fs : List (JointFrame ℝ)) (h : SameFrames gs fs) (ht : ∀ f ∈ fs, f.ty ≠ 3) :
    jacCols q gs = jacCols q fs := by
  induction gs generalizing fs with
  | nil =>
    obtain _ | ⟨f, fs⟩ := fs
    · rfl
    · exact h.elim
  | cons g gs ih =>
    obtain _ | ⟨f, fs⟩ := fs
    · exact h.elim
    obtain ⟨h1, h2, h3, h4⟩ := h
    have e := ih fs h4 fun y hy => ht y (by simp [hy])
    have n3 := ht f (by simp)
    unfold jacCols
    rw [h1, h2, h3, e]
    simp [n3]

theorem add_mulVec_zero (p : V3 ℝ) (A : M3 ℝ) : p + A.mulVec 0 = p := by ext <;> simp

theorem lower_iff (l c x : List ℝ) (lc : c.length = l.length) (lx : x.length = l.length) :
    ((List.zipWith (· + ·) c x).zip l).all (fun tl => decide (tl.2 ≤ tl.1)) =
      (x.zip (List.zipWith (· - ·) l c)).all (fun tl => decide (tl.2 ≤ tl.1)) := by
  induction l generalizing c x with
  | nil => simp
  | cons a l ih =>
    obtain _ | ⟨c, cs⟩ := c
    · simp at lc
    obtain _ | ⟨x, xs⟩ := x
    · simp at lx
    simp only [List.zipWith_cons_cons, List.zip_cons_cons, List.all_cons]
    rw [ih cs xs (by simpa using lc) (by simpa using lx)]
    congr 1
    exact decide_eq_decide.2 (by constructor <;> intro h <;> linarith)

theorem upper_iff (l c x : List ℝ) (lc : c.length = l.length) (lx : x.length = l.length) :
    ((List.zipWith (· + ·) c x).zip l).all (fun tl => decide (tl.1 ≤ tl.2)) =
      (x.zip (List.zipWith (· - ·) l c)).all (fun tl => decide (tl.1 ≤ tl.2)) := by
  induction l generalizing c x with
  | nil => simp
  | cons a l ih =>
    obtain _ | ⟨c, cs⟩ := c
    · simp at lc
    obtain _ | ⟨x, xs⟩ := x
    · simp at lx
    simp only [List.zipWith_cons_cons, List.zip_cons_cons, List.all_cons]
    rw [ih cs xs (by simpa using lc) (by simpa using lx)]
    congr 1
    exact decide_eq_decide.2 (by constructor <;> intro h <;> linarith)

theorem limits (r : Robot ℝ) (c x : List ℝ) (ig : Bool) (hl : ∀ l, r.lower = some l → l.length = c.length)
    (hu : ∀ u, r.upper = some u → u.length = c.length) (lx : x.length = c.length) :
    checkLimits r (List.zipWith (· + ·) c x) ig = checkLimits (Spec.rezero r c) x ig := by
  unfold checkLimits Spec.rezero
  split_ifs
  · rfl
  rcases e1 : r.lower with _ | l
  · rfl
  rcases e2 : r.upper with _ | u
  · rfl
  have l1 := hl l e1
  have l2 := hu u e2
  simp only [Option.map_some, bcast, List.length_zipWith, l1, l2, lx, min_self, if_true]
  simp only [bind, Except.bind]
  rw [lower_iff l c x l1.symm (by omega), upper_iff u c x l2.symm (by omega)]

end RezeroL

open RezeroL

/-! ## Theorems -/

/-- **C114.** The robot described from the configuration `c` reaches at `x` the pose, and passes or fails the limit check exactly as, the
robot itself at `c + x`. -/
theorem C114_fwdkin (r : Robot ℝ) (wf : r.WF) (c x : List ℝ) (lc : c.length = r.H.length) (lx : x.length = r.H.length)
    (hl : ∀ l, r.lower = some l → l.length = r.H.length) (hu : ∀ u, r.upper = some u → u.length = r.H.length) (ig : Bool) :
    fwdkin (Spec.rezero r c) x ig = fwdkin r (List.zipWith (· + ·) c x) ig := by
  unfold fwdkin
  rw [limits r c x ig (by rw [lc]; exact hl) (by rw [lc]; exact hu) (by omega)]
  congr 1
  funext _
  have lp := wf.columns
  rcases hP : r.P with _ | ⟨P0, Ps⟩
  · simp [hP] at lp
  obtain ⟨R', p', e1, e2⟩ := fwd r.jointType r.H Ps c x wf.joints.symm (by rw [wf.joints]; simpa [hP] using lp)
    (by rw [lc, wf.joints]) (by rw [lx, wf.joints]) wf.unit wf.types 1 1 IsRot.one P0
  rw [M3.one_mul'] at e2
  have a : (Spec.rezero r c).P = P0 :: Spec.rezeroP r.jointType r.H Ps c 1 := by simp [Spec.rezero, hP]
  rw [a]
  simp only
  rw [show (Spec.rezero r c).jointType = r.jointType from rfl, show (Spec.rezero r c).H = Spec.rezeroH r.jointType r.H c 1 from rfl, e1, e2]
  show Except.ok _ = Except.ok _
  congr 1
  unfold applyAux Spec.rezero
  generalize Spec.rezeroS r.jointType r.H c 1 = S
  rcases r.Tflange with _ | F <;> rcases r.Rtool with _ | Rt <;> rcases r.ptool with _ | pt <;> rcases r.Tbase with _ | B <;>
    simp only [Option.getD_none, Option.getD_some] <;>
    ext1 <;> simp [M3.mul_assoc', M3.mulVec_mulVec]

/-- **C114.** The two robots have the same Jacobian as well, when no joint is of the mobile type 3. -/
theorem C114_jacobian (r : Robot ℝ) (wf : r.WF) (ht : ∀ t ∈ r.jointType, t ≠ 3) (c x : List ℝ) (lc : c.length = r.H.length)
    (lx : x.length = r.H.length) (hl : ∀ l, r.lower = some l → l.length = r.H.length)
    (hu : ∀ u, r.upper = some u → u.length = r.H.length) (ig : Bool) :
    robotjacobian (Spec.rezero r c) x ig = robotjacobian r (List.zipWith (· + ·) c x) ig := by
  unfold robotjacobian
  rw [limits r c x ig (by rw [lc]; exact hl) (by rw [lc]; exact hu) (by omega)]
  congr 1
  funext _
  have lp := wf.columns
  rcases hP : r.P with _ | ⟨P0, Ps⟩
  · simp [hP] at lp
  obtain ⟨fs, gs, R', p', e1, e2, e3, e4⟩ := jac r.jointType r.H Ps c x wf.joints.symm (by rw [wf.joints]; simpa [hP] using lp)
    (by rw [lc, wf.joints]) (by rw [lx, wf.joints]) wf.unit wf.types 1 1 IsRot.one P0
  rw [M3.one_mul'] at e2
  have a : (Spec.rezero r c).P = P0 :: Spec.rezeroP r.jointType r.H Ps c 1 := by simp [Spec.rezero, hP]
  have h3 : ∀ f ∈ fs, f.ty ≠ 3 := fun f hf => ht f.ty (by rw [← e4]; exact List.mem_map_of_mem hf)
  rw [a]
  simp only
  rw [show (Spec.rezero r c).jointType = r.jointType from rfl, show (Spec.rezero r c).H = Spec.rezeroH r.jointType r.H c 1 from rfl, e1, e2]
  simp only [bind, Except.bind]
  rw [cols _ gs fs e3 h3]
  unfold Spec.rezero
  generalize Spec.rezeroS r.jointType r.H c 1 = S
  rcases r.Tflange with _ | F <;> rcases r.ptool with _ | pt <;>
    simp only [Option.getD_none, Option.getD_some, M3.mul_assoc', M3.mulVec_mulVec, M3.mul_one', add_mulVec_zero] <;> rfl

/-- **C114.** The new description is one of a robot again: as many joints, unit axes, rotations for frames. -/
theorem C114_wf (r : Robot ℝ) (wf : r.WF) (c : List ℝ) (lc : c.length = r.H.length) : (Spec.rezero r c).WF := by
  have key : ∀ (ts : List Nat) (hs : List (V3 ℝ)) (cs : List ℝ) (S : M3 ℝ), hs.length = ts.length → cs.length = ts.length →
      (∀ h ∈ hs, IsUnit3 h) → IsRot S → (Spec.rezeroH ts hs cs S).length = ts.length ∧ (∀ h ∈ Spec.rezeroH ts hs cs S, IsUnit3 h) ∧
        IsRot (Spec.rezeroS ts hs cs S) ∧ ∀ Ps : List (V3 ℝ), Ps.length = ts.length → (Spec.rezeroP ts hs Ps cs S).length = ts.length := by
    intro ts
    induction ts with
    | nil => intro hs cs S _ _ _ hS; exact ⟨rfl, by simp [Spec.rezeroH], hS, fun _ _ => rfl⟩
    | cons t ts ih =>
      intro hs cs S l1 l2 hu hS
      obtain _ | ⟨h, hs⟩ := hs
      · simp at l1
      obtain _ | ⟨c, cs⟩ := cs
      · simp at l2
      have hh := hu h (by simp)
      obtain ⟨i1, i2, i3, i4⟩ := ih hs cs (Spec.turnedBehind t h c S) (by simpa using l1) (by simpa using l2) (fun y hy => hu y (by simp [hy]))
        (turned_rot hh hS)
      refine ⟨by simp [Spec.rezeroH, i1], ?_, i3, fun Ps lP => ?_⟩
      · intro y hy
        rcases List.mem_cons.1 hy with e | e
        · rw [e]; exact unit_turn hS hh
        · exact i2 y e
      · obtain _ | ⟨P, Ps⟩ := Ps
        · simp at lP
        · simp [Spec.rezeroP, i4 Ps (by simpa using lP)]
  obtain ⟨k1, k2, k3, k4⟩ := key r.jointType r.H c 1 wf.joints.symm (by rw [lc, wf.joints]) wf.unit IsRot.one
  have lp := wf.columns
  refine ⟨?_, by simp only [Spec.rezero]; rw [k1], wf.types, k2, wf.base, ?_, wf.tool, wf.toolBoth⟩
  · rcases hP : r.P with _ | ⟨P0, Ps⟩
    · simp [hP] at lp
    · simp only [Spec.rezero, hP, List.length_cons]
      rw [k1, k4 Ps (by rw [wf.joints]; simpa [hP] using lp)]
  · intro F hF
    simp only [Spec.rezero, Option.some.injEq] at hF
    subst hF
    refine k3.mul ?_
    rcases e : r.Tflange with _ | F
    · exact IsRot.one
    · exact wf.flange F e

/-- **C114.** So a target has the same joint solutions, counted from `c`. -/
theorem C114_solutions (r : Robot ℝ) (wf : r.WF) (c q : List ℝ) (lc : c.length = r.H.length) (lq : q.length = r.H.length)
    (hl : ∀ l, r.lower = some l → l.length = r.H.length) (hu : ∀ u, r.upper = some u → u.length = r.H.length) (ig : Bool) (T : Transform ℝ) :
    fwdkin r q ig = .ok T ↔ fwdkin (Spec.rezero r c) (List.zipWith (· - ·) q c) ig = .ok T := by
  rw [C114_fwdkin r wf c _ lc (by simp [lc, lq]) hl hu ig]
  have e : ∀ (c q : List ℝ), c.length = q.length → List.zipWith (· + ·) c (List.zipWith (· - ·) q c) = q := by
    intro c
    induction c with
    | nil => intro q h; rw [List.length_nil] at h; rw [List.length_eq_zero_iff.1 h.symm]; rfl
    | cons a c ih =>
      intro q h
      obtain _ | ⟨b, q⟩ := q
      · simp at h
      · simp [ih q (by simpa using h)]
  rw [e c q (by omega)]

/-- A robot with a revolute and a prismatic joint and limits, described from a configuration away from zero: the axis of the second joint
turns. -/
example : ∃ (r : Robot ℝ) (c : List ℝ), r.WF ∧ c.length = r.H.length ∧ (∀ t ∈ r.jointType, t ≠ 3) ∧
    (∀ l, r.lower = some l → l.length = r.H.length) ∧ (∀ u, r.upper = some u → u.length = r.H.length) ∧
    (Spec.rezero r c).H = [⟨0, 0, 1⟩, ⟨0, 1, 0⟩] ∧ r.H = [⟨0, 0, 1⟩, ⟨1, 0, 0⟩] ∧
    (Spec.rezero r c).P = [0, ⟨0, 2, 0⟩, ⟨-3, 5, 0⟩] ∧ r.P = [0, ⟨2, 0, 0⟩, ⟨0, 3, 0⟩] ∧
    (Spec.rezero r c).upper = some [Real.pi - Real.pi / 2, 4] := by
  refine ⟨{ H := [⟨0, 0, 1⟩, ⟨1, 0, 0⟩], P := [0, ⟨2, 0, 0⟩, ⟨0, 3, 0⟩], jointType := [0, 1], lower := some [-Real.pi, 0], upper := some [Real.pi, 9] },
    [Real.pi / 2, 5], ?_, rfl, by simp, by simp, by simp, ?_, rfl, ?_, rfl, ?_⟩
  · refine ⟨rfl, rfl, by simp, ?_, by simp, by simp, by simp, by simp⟩
    intro h hh
    simp only [List.mem_cons, List.not_mem_nil, or_false] at hh
    rcases hh with rfl | rfl <;> simp [IsUnit3]
  · have : IsRotary 0 := Or.inl rfl
    simp only [Spec.rezero, Spec.rezeroH, Spec.turnedBehind, if_pos this, List.cons.injEq, and_true]
    constructor <;> ext <;> simp [rot]
  · have : IsRotary 0 := Or.inl rfl
    have h1 : ¬ IsRotary 1 := by unfold IsRotary; omega
    simp only [Spec.rezero, Spec.rezeroP, Spec.turnedBehind, if_pos this, if_neg h1, List.cons.injEq, and_true, true_and]
    constructor <;> ext <;> simp [rot]
  · simp only [Spec.rezero, Option.map_some, List.zipWith_cons_cons, List.zipWith_nil_left]
    norm_num
