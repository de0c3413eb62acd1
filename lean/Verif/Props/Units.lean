import Verif.Lemmas.Scale
import Verif.Props.Ur
import Verif.Props.Jacobian

/-!
# Property C97: the unit of length

The specification multiplies every length of a robot by the same number, as a change of units does.
-/
set_option autoImplicit false

namespace Spec

/-- Joint values or limits in the new unit: those of sliding joints are lengths. -/
def jointUnits (s : ℝ) : List Nat → List ℝ → List ℝ
  | t :: ts, x :: xs => (if t = 1 ∨ t = 3 then s * x else x) :: jointUnits s ts xs
  | _, xs => xs

/-- A pose in the new unit. -/
noncomputable def poseUnits (s : ℝ) (T : Transform ℝ) : Transform ℝ := ⟨T.R, s • T.p, T.parent, T.child⟩

/-- A robot in the new unit. -/
noncomputable def robotUnits (s : ℝ) (r : Robot ℝ) : Robot ℝ :=
  { r with P := r.P.map (s • ·), ptool := r.ptool.map (s • ·), Tflange := r.Tflange.map (poseUnits s),
           Tbase := r.Tbase.map (poseUnits s), lower := r.lower.map (jointUnits s r.jointType),
           upper := r.upper.map (jointUnits s r.jointType) }

/-- A column of a Jacobian in the new unit: velocities per angle are lengths, velocities per length and rates of turn are
not. -/
noncomputable def columnUnits (s : ℝ) (t : Nat) (c : V6 ℝ) : V6 ℝ := if t = 1 then c else ⟨c.top, s • c.bot⟩

/-- The columns of a Jacobian by the kind of motion: a mobile base (3, 3, 2) has a column for moving ahead and one for turning. -/
def columnTypes : List Nat → List Nat
  | [] => []
  | t :: ts => if t = 3 then
      match ts with
      | _ :: _ :: ts' => 1 :: 0 :: columnTypes ts'
      | _ => []
    else t :: columnTypes ts

/-- The third joint of every mobile base is not a sliding joint. -/
def BasesTurn : List Nat → Prop
  | [] => True
  | t :: ts => if t = 3 then
      match ts with
      | _ :: g :: ts' => g ≠ 1 ∧ g ≠ 3 ∧ BasesTurn ts'
      | _ => True
    else BasesTurn ts

end Spec

open Spec

theorem jointUnits_length (s : ℝ) : ∀ (ts : List Nat) (xs : List ℝ), (jointUnits s ts xs).length = xs.length
  | [], xs => by cases xs <;> rfl
  | _ :: _, [] => rfl
  | _ :: ts, _ :: xs => congrArg (· + 1) (jointUnits_length s ts xs)

theorem applyAux_units (s : ℝ) (r : Robot ℝ) (T : Transform ℝ) : applyAux (robotUnits s r) (poseUnits s T) = poseUnits s (applyAux r T) := by
  have hm : ∀ A B : Transform ℝ, poseUnits s A * poseUnits s B = poseUnits s (A * B) := fun A B => by
    show Transform.mk _ (s • A.p + A.R.mulVec (s • B.p)) _ _ = Transform.mk _ (s • (A.p + A.R.mulVec B.p)) _ _
    rw [M3.mulVec_hsmul]; congr 1; ext <;> simp <;> ring
  have hm' : ∀ (A : Transform ℝ) (R p), poseUnits s A * (⟨R, s • p, none, none⟩ : Transform ℝ) = poseUnits s (A * ⟨R, p, none, none⟩) :=
    fun A R p => hm A ⟨R, p, none, none⟩
  unfold applyAux robotUnits
  rcases r.Tflange with _ | F <;> rcases r.Rtool with _ | R <;> rcases r.ptool with _ | p <;> rcases r.Tbase with _ | B <;>
    simp only [Option.map_none, Option.map_some, hm, hm']

theorem unapplyAux_units (s : ℝ) (r : Robot ℝ) (T : Transform ℝ) :
    unapplyAux (robotUnits s r) (poseUnits s T) = poseUnits s (unapplyAux r T) := by
  have hm : ∀ A B : Transform ℝ, poseUnits s A * poseUnits s B = poseUnits s (A * B) := fun A B => by
    show Transform.mk _ (s • A.p + A.R.mulVec (s • B.p)) _ _ = Transform.mk _ (s • (A.p + A.R.mulVec B.p)) _ _
    rw [M3.mulVec_hsmul]; congr 1; ext <;> simp <;> ring
  have hi : ∀ A : Transform ℝ, (poseUnits s A).inv = poseUnits s A.inv := fun A => by
    show Transform.mk _ (-(A.R.transpose.mulVec (s • A.p))) _ _ = Transform.mk _ (s • -(A.R.transpose.mulVec A.p)) _ _
    rw [M3.mulVec_hsmul]; congr 1; ext <;> simp
  have hi' : ∀ (R p), Transform.inv (⟨R, s • p, none, none⟩ : Transform ℝ) = poseUnits s (Transform.inv ⟨R, p, none, none⟩) :=
    fun R p => hi ⟨R, p, none, none⟩
  unfold unapplyAux robotUnits
  rcases r.Tflange with _ | F <;> rcases r.Rtool with _ | R <;> rcases r.ptool with _ | p <;> rcases r.Tbase with _ | B <;>
    simp only [Option.map_none, Option.map_some, hm, hi, hi']

theorem fwdStep_units (s : ℝ) (t : Nat) (h P : V3 ℝ) (x : ℝ) (R : M3 ℝ) (p : V3 ℝ) :
    fwdStep t h (s • P) (if t = 1 ∨ t = 3 then s * x else x) (R, s • p) =
      ((fwdStep t h P x (R, p)).1, s • (fwdStep t h P x (R, p)).2) := by
  unfold fwdStep
  by_cases h0 : t = 0 ∨ t = 2
  · have h1 : ¬ (t = 1 ∨ t = 3) := by omega
    simp only [if_neg h1, if_pos h0, M3.mulVec_hsmul]
    refine Prod.ext rfl ?_
    ext <;> simp <;> ring
  · simp only [if_neg h0]
    by_cases h1 : t = 1 ∨ t = 3
    · simp only [if_pos h1, M3.mulVec_hsmul]
      refine Prod.ext rfl ?_
      ext <;> simp <;> ring
    · simp only [if_neg h1, M3.mulVec_hsmul]
      refine Prod.ext rfl ?_
      ext <;> simp <;> ring

theorem fwdLoop_units (s : ℝ) : ∀ (ts : List Nat) (hs Ps : List (V3 ℝ)) (θ : List ℝ) (R : M3 ℝ) (p : V3 ℝ),
    fwdLoop ts hs (Ps.map (s • ·)) (jointUnits s ts θ) (R, s • p) = (fwdLoop ts hs Ps θ (R, p)).map fun x => (x.1, s • x.2) := by
  intro ts
  induction ts with
  | nil => intros; rfl
  | cons t ts ih =>
    intro hs Ps θ R p
    obtain _ | ⟨k, hs⟩ := hs
    · rfl
    obtain _ | ⟨P, Ps⟩ := Ps
    · rfl
    obtain _ | ⟨x, θ⟩ := θ
    · rfl
    simp only [List.map_cons, jointUnits, fwdLoop]
    rw [fwdStep_units, ih]

theorem jacLoop_units (s : ℝ) : ∀ (ts : List Nat) (hs Ps : List (V3 ℝ)) (θ : List ℝ) (R : M3 ℝ) (p : V3 ℝ),
    jacLoop ts hs (Ps.map (s • ·)) (jointUnits s ts θ) (R, s • p) = (jacLoop ts hs Ps θ (R, p)).map fun x =>
      (x.1.map (fun f => ⟨f.ty, s • f.pO, f.h, if f.ty = 1 ∨ f.ty = 3 then s * f.th else f.th⟩), x.2.1, s • x.2.2) := by
  intro ts
  induction ts with
  | nil => intros; rfl
  | cons t ts ih =>
    intro hs Ps θ R p
    obtain _ | ⟨k, hs⟩ := hs
    · rfl
    obtain _ | ⟨P, Ps⟩ := Ps
    · rfl
    obtain _ | ⟨x, θ⟩ := θ
    · rfl
    simp only [List.map_cons, jointUnits, jacLoop]
    rw [fwdStep_units, ih]
    rcases jacLoop ts hs Ps θ (fwdStep t k P x (R, p)) with e | y
    · rfl
    · rfl

theorem allLe_units {s : ℝ} (hs : 0 < s) : ∀ (ts : List Nat) (xs ys : List ℝ),
    ((jointUnits s ts xs).zip (jointUnits s ts ys)).all (fun ab => decide (ab.1 ≤ ab.2)) = (xs.zip ys).all fun ab => decide (ab.1 ≤ ab.2)
  | [], xs, ys => by cases xs <;> cases ys <;> rfl
  | _ :: _, [], ys => by cases ys <;> rfl
  | _ :: _, _ :: _, [] => rfl
  | t :: ts, x :: xs, y :: ys => by
    simp only [jointUnits, List.zip_cons_cons, List.all_cons, allLe_units hs ts xs ys]
    congr 2
    split_ifs
    · simp [hs]
    · rfl

theorem checkLimits_units {s : ℝ} (hs : 0 < s) (r : Robot ℝ) (hl : ∀ l, r.lower = some l → l.length = r.jointType.length)
    (hu : ∀ l, r.upper = some l → l.length = r.jointType.length) (θ : List ℝ) (hθ : θ.length = r.jointType.length) (ig : Bool) :
    checkLimits (robotUnits s r) (jointUnits s r.jointType θ) ig = checkLimits r θ ig := by
  have hsw : ∀ (a b : List ℝ), (a.zip b).all (fun tl => decide (tl.2 ≤ tl.1)) = (b.zip a).all (fun tl => decide (tl.1 ≤ tl.2)) := by
    intro a b
    rw [← List.zip_swap, List.all_map]; rfl
  unfold checkLimits robotUnits
  rcases hlo : r.lower with _ | l <;> rcases hup : r.upper with _ | u <;> simp only [Option.map_none, Option.map_some]
  have e1 := hl l hlo
  have e2 := hu u hup
  simp only [bcast, jointUnits_length, hθ, e1, e2, if_true, Except.bind_ok, hsw, allLe_units hs]

/-- C97: forward kinematics of the robot in the new unit gives the pose in the new unit, and raises when it did. -/
theorem C97_fwdkin {s : ℝ} (hs : 0 < s) (r : Robot ℝ) (hl : ∀ l, r.lower = some l → l.length = r.jointType.length)
    (hu : ∀ l, r.upper = some l → l.length = r.jointType.length) (θ : List ℝ) (hθ : θ.length = r.jointType.length) (ig : Bool) :
    fwdkin (robotUnits s r) (jointUnits s r.jointType θ) ig = (fwdkin r θ ig).map (poseUnits s) := by
  unfold fwdkin
  rw [checkLimits_units hs r hl hu θ hθ]
  rcases checkLimits r θ ig with e | u
  · rfl
  simp only [Except.bind_ok]
  rw [show (robotUnits s r).P = r.P.map (s • ·) from rfl]
  rcases r.P with _ | ⟨P0, Ps⟩
  · rfl
  have h := fwdLoop_units s r.jointType r.H Ps θ 1 P0
  rw [show (robotUnits s r).jointType = r.jointType from rfl, show (robotUnits s r).H = r.H from rfl]
  simp only [List.map_cons]
  rw [h]
  rcases fwdLoop r.jointType r.H Ps θ (1, P0) with e | ⟨R, p⟩
  · rfl
  · exact congrArg Except.ok (applyAux_units s r ⟨R, p, none, none⟩)


theorem jacCols_units {s : ℝ} (x : V3 ℝ) (n : Nat) : ∀ (fs : List (JointFrame ℝ)), fs.length ≤ n → BasesTurn (fs.map (·.ty)) →
    jacCols (s • x) (fs.map fun f => ⟨f.ty, s • f.pO, f.h, if f.ty = 1 ∨ f.ty = 3 then s * f.th else f.th⟩) =
      (jacCols x fs).map fun J => List.zipWith (columnUnits s) (columnTypes (fs.map (·.ty))) J := by
  induction n with
  | zero => intro fs h _; obtain rfl := List.length_eq_zero_iff.1 (Nat.le_zero.1 h); rfl
  | succ n ih =>
  intro fs hl h
  obtain _ | ⟨f, fs⟩ := fs
  · rfl
  rw [List.map_cons, BasesTurn.eq_def] at h
  rw [List.map_cons, List.map_cons, jacCols.eq_def, jacCols.eq_def x, columnTypes.eq_def]
  simp only [List.length_cons] at hl
  by_cases h0 : f.ty = 0
  · simp only [h0, if_true, if_neg (show ¬ (0 : Nat) = 3 by decide)] at h ⊢
    rw [ih fs (by omega) h]
    rcases jacCols x fs with e | J
    · rfl
    · refine congrArg Except.ok ?_
      simp only [List.zipWith_cons_cons, columnUnits]
      congr 1
      apply V6.ext <;> ext <;> simp <;> ring
  by_cases h1 : f.ty = 1
  · simp only [h1, if_true, if_neg one_ne_zero, if_neg (show ¬ (1 : Nat) = 3 by decide)] at h ⊢
    rw [ih fs (by omega) h]
    rcases jacCols x fs with e | J
    · rfl
    · rfl
  by_cases h3 : f.ty = 3
  · simp only [h3, if_true, if_neg (show ¬ (3 : Nat) = 0 by decide), if_neg (show ¬ (3 : Nat) = 1 by decide)] at h ⊢
    obtain _ | ⟨a, fs⟩ := fs
    · rfl
    obtain _ | ⟨g, fs⟩ := fs
    · rfl
    simp only [List.map_cons, List.length_cons] at h hl ⊢
    obtain ⟨g1, g3, h⟩ := h
    rw [ih fs (by omega) h]
    rcases jacCols x fs with e | J
    · rfl
    · refine congrArg Except.ok ?_
      simp only [List.zipWith_cons_cons, columnUnits, if_true, if_neg (show ¬ (0 : Nat) = 1 by decide)]
      rw [if_neg (by simp [g1, g3])]
      congr 2
      apply V6.ext <;> ext <;> simp <;> ring
  · simp only [h0, h1, h3, if_false] at h ⊢
    rw [ih fs (by omega) h]
    rcases jacCols x fs with e | J
    · rfl
    · refine congrArg Except.ok ?_
      simp only [List.zipWith_cons_cons, columnUnits, if_neg h1]
      congr 1
      apply V6.ext <;> ext <;> simp

theorem jacLoop_types : ∀ (ts : List Nat) (hs Ps : List (V3 ℝ)) (θ : List ℝ) (Rp : M3 ℝ × V3 ℝ) (fs : List (JointFrame ℝ)) (X : M3 ℝ × V3 ℝ),
    jacLoop ts hs Ps θ Rp = .ok (fs, X) → fs.map (·.ty) = ts := by
  intro ts
  induction ts with
  | nil => intro hs Ps θ Rp fs X h; cases h; rfl
  | cons t ts ih =>
    intro hs Ps θ Rp fs X h
    obtain _ | ⟨k, hs⟩ := hs
    · cases h
    obtain _ | ⟨P, Ps⟩ := Ps
    · cases h
    obtain _ | ⟨x, θ⟩ := θ
    · cases h
    simp only [jacLoop] at h
    obtain ⟨⟨gs, Y⟩, h1, h⟩ := Except.bind_eq_ok h
    cases h
    simp [ih _ _ _ _ _ _ h1]

/-- C97: the Jacobian of the robot in the new unit is that of the robot, with velocities per angle in the new unit, and the call
raises when it did. -/
theorem C97_jacobian {s : ℝ} (hs : 0 < s) (r : Robot ℝ) (ht : BasesTurn r.jointType)
    (hl : ∀ l, r.lower = some l → l.length = r.jointType.length) (hu : ∀ l, r.upper = some l → l.length = r.jointType.length)
    (θ : List ℝ) (hθ : θ.length = r.jointType.length) (ig : Bool) :
    robotjacobian (robotUnits s r) (jointUnits s r.jointType θ) ig =
      (robotjacobian r θ ig).map fun J => List.zipWith (columnUnits s) (columnTypes r.jointType) J := by
  unfold robotjacobian
  rw [checkLimits_units hs r hl hu θ hθ]
  rcases checkLimits r θ ig with e | u
  · rfl
  simp only [Except.bind_ok]
  rw [show (robotUnits s r).P = r.P.map (s • ·) from rfl]
  rcases r.P with _ | ⟨P0, Ps⟩
  · rfl
  have h := jacLoop_units s r.jointType r.H Ps θ 1 P0
  rw [show (robotUnits s r).jointType = r.jointType from rfl, show (robotUnits s r).H = r.H from rfl]
  simp only [List.map_cons]
  rw [h]
  rcases hj : jacLoop r.jointType r.H Ps θ (1, P0) with e | ⟨fs, R, p⟩
  · rfl
  have hty := jacLoop_types _ _ _ _ _ _ _ hj
  have hc := fun x => jacCols_units (s := s) x fs.length fs le_rfl (by rw [hty]; exact ht)
  rw [hty] at hc
  have hB : ∀ (B : M3 ℝ) (ts : List Nat) (J : List (V6 ℝ)),
      (List.zipWith (columnUnits s) ts J).map (fun c => (⟨B.mulVec c.top, B.mulVec c.bot⟩ : V6 ℝ)) =
        List.zipWith (columnUnits s) ts (J.map fun c => ⟨B.mulVec c.top, B.mulVec c.bot⟩) := by
    intro B ts J
    rw [List.map_zipWith, List.zipWith_map_right]
    congr 1
    funext t c
    unfold columnUnits
    split_ifs
    · rfl
    · simp only [M3.mulVec_hsmul]
  have hadd : ∀ a b : V3 ℝ, s • a + s • b = s • (a + b) := fun a b => by ext <;> simp <;> ring
  unfold robotUnits
  rcases r.Tflange with _ | F <;> rcases r.ptool with _ | pt <;> rcases r.Tbase with _ | B <;>
  · simp only [Option.map_none, Option.map_some, Except.map, Except.bind_ok, poseUnits, M3.mulVec_hsmul, hadd, hc]
    rcases jacCols _ fs with e | J
    · rfl
    · first
      | rfl
      | exact congrArg Except.ok (hB _ _ _)

/-- C97: without a mobile base there is one column per joint, and the condition holds. -/
theorem C97_columns (ts : List Nat) (h : ∀ t ∈ ts, t ≠ 3) : columnTypes ts = ts ∧ BasesTurn ts := by
  induction ts with
  | nil => exact ⟨rfl, trivial⟩
  | cons t ts ih =>
    obtain ⟨h1, h2⟩ := ih fun a ha => h a (List.mem_cons_of_mem _ ha)
    rw [columnTypes.eq_def, BasesTurn.eq_def]
    simp only [if_neg (h t List.mem_cons_self), h1]
    exact ⟨trivial, h2⟩

/-- An arm of two joints on a mobile base meets the condition. -/
example : BasesTurn [3, 3, 2, 0, 1] ∧ columnTypes [3, 3, 2, 0, 1] = [1, 0, 0, 1] := by simp [BasesTurn, columnTypes]

/-! ## The subproblems -/

/-- C97: `subproblem3` and `subproblem4` do not depend on the unit, for all arguments. -/
theorem C97_subproblem3 {s : ℝ} (hs : 0 < s) (p q k : V3 ℝ) (d : ℝ) :
    subproblem3 (s • p).up (s • q).up k.up (.fin (s * d)) = subproblem3 p.up q.up k.up (.fin d) :=
  subproblem3_sc hs p.up q.up k.up (.fin d)

theorem C97_subproblem4 {s : ℝ} (hs : 0 < s) (p q k : V3 ℝ) (d : ℝ) :
    subproblem4 p.up (s • q).up k.up (.fin (s * d)) = subproblem4 p.up q.up k.up (.fin d) :=
  subproblem4_sc hs p.up q.up k.up (.fin d)

theorem tol_of_far {s : ℝ} {v : V3 XReal} (h : v.norm = .nan ∨ ∃ w : V3 ℝ, v = w.up ∧ snap ≤ w.norm ∧ snap ≤ s * w.norm) :
    (XReal.sc s v.norm < Elem.sqrt npEps) ↔ (v.norm < Elem.sqrt npEps) := by
  rw [XReal.npEps_fin, XReal.sqrt_fin npEps_pos.le, ← snap_def]
  rcases h with h | ⟨w, rfl, h1, h2⟩
  · rw [h]; rfl
  · rw [V3.up_norm, XReal.sc_fin, XReal.fin_lt, XReal.fin_lt]
    exact ⟨fun h => absurd h (not_lt.2 h2), fun h => absurd h (not_lt.2 h1)⟩

/-- C97: `subproblem1` does not, if the points are further apart than its coincidence tolerance in both units. -/
theorem C97_subproblem1_partial {s : ℝ} (hs : 0 < s) (p q k : V3 ℝ) (h1 : snap ≤ (p - q).norm) (h2 : snap ≤ s * (p - q).norm) :
    subproblem1 (s • p).up (s • q).up k.up = subproblem1 p.up q.up k.up :=
  subproblem1_sc hs p.up q.up k.up (tol_of_far (.inr ⟨p - q, V3.up_sub p q, h1, h2⟩))

/-- C97 is false for `subproblem1`: the rotation by a right angle of a vector of 2⁻³⁰ units of length is answered by the angle 0. -/
theorem C97_subproblem1_false : ∃ (s : ℝ) (p q k : V3 ℝ), 0 < s ∧ IsUnit3 k ∧ (rot k (Real.pi / 2)).mulVec p = q ∧
    subproblem1 p.up q.up k.up = .ok (.fin (Real.pi / 2)) ∧ subproblem1 (s • p).up (s • q).up k.up = .ok (.fin 0) := by
  have hk : IsUnit3 (V3.ez : V3 ℝ) := by simp [IsUnit3]
  have hq : (rot (V3.ez : V3 ℝ) (Real.pi / 2)).mulVec V3.ex = V3.ey := by ext <;> simp [rot]
  have hn : ((V3.ex : V3 ℝ) - V3.ey).norm = Real.sqrt 2 := by rw [V3.norm_eq]; congr 1; simp [V3.dot]; norm_num
  refine ⟨1 / 2 ^ 30, V3.ex, V3.ey, V3.ez, by norm_num, hk, hq, ?_, ?_⟩
  · have h2 : 1 ≤ Real.sqrt 2 := Real.one_le_sqrt.2 (by norm_num)
    obtain ⟨θ, hθ, -⟩ := C23_subproblem1 V3.ex V3.ey V3.ez hk (Real.pi / 2) hq
    rw [hθ, C23_subproblem1_unique V3.ex V3.ey V3.ez hk (by intro h; have := congrArg V3.y h; simp at this)
      (by rw [hn, snap_eq]; linarith) θ hθ (Real.pi / 2) ⟨by linarith [Real.pi_pos], by linarith [Real.pi_pos]⟩ hq]
  · refine subproblem1_snap _ ?_
    rw [← smul_sub, V3.norm_hsmul, hn, snap_eq]
    have h2 : Real.sqrt 2 ≤ 2 := Real.sqrt_le_iff.2 (by norm_num)
    rw [abs_of_pos (by norm_num)]
    norm_num
    linarith

/-! ## The solvers -/

theorem jointUnits_rotary (s : ℝ) : ∀ (ts : List Nat) (xs : List ℝ), (∀ t ∈ ts, t = 0) → jointUnits s ts xs = xs
  | [], xs, _ => by cases xs <;> rfl
  | _ :: _, [], _ => rfl
  | t :: ts, x :: xs, h => by
    have h0 := h t List.mem_cons_self
    subst h0
    simp [jointUnits, jointUnits_rotary s ts xs fun t ht => h t (List.mem_cons_of_mem _ ht)]

theorem normalizer_units (s : ℝ) (r : Robot ℝ) (ht : ∀ t ∈ r.jointType, t = 0) (last : Option (List XReal)) :
    Normalizer.ofRobot (robotUnits s r).up last = Normalizer.ofRobot r.up last := by
  have e : jointUnits s r.jointType = id := funext fun xs => jointUnits_rotary s _ xs ht
  simp only [Normalizer.ofRobot, Robot.up, robotUnits, e, Option.map_id, id]

theorem norm_nan_of {v : V3 XReal} (h : v.x = .nan) : v.norm = .nan := by
  simp [V3.norm, h]

section
variable {r : Robot ℝ} {h0 h1 h2 h3 h4 h5 P0 P1 P2 P3 P4 P5 P6 : V3 ℝ}

/-- C97: `robot6_sphericalwrist_invkin` returns the same list, or raises the same exception, in every unit of length in which no
joint vector with the second joint at zero puts the wrist centre within 2⁻²⁶ units of where the pose asks for it.  For all limits
and last joint values. -/
theorem C97_robot6_partial {s : ℝ} (hs : 0 < s) (ht : ∀ t ∈ r.jointType, t = 0) (hH : r.H = [h0, h1, h2, h3, h4, h5])
    (hP : r.P = [P0, P1, P2, P3, P4, P5, P6]) (hu : IsUnit3 h0) (h00 : ∃ c : ℝ, P0 = c • h0) (T : Transform ℝ)
    (hfar : ∀ q1 q3 : ℝ, snap ≤ min 1 s * (Spec.wristAt h0 h1 h2 P0 P1 P2 (P3 + P4) q1 0 q3 -
      ((unapplyAux r T).p - (unapplyAux r T).R.mulVec (P6 + P5))).norm) (last : Option (List XReal)) :
    (robot6_sphericalwrist_invkin (robotUnits s r).up (poseUnits s T).up last).2 = (robot6_sphericalwrist_invkin r.up T.up last).2 := by
  have eH : (robotUnits s r).up.H = r.up.H := rfl
  have eP : (robotUnits s r).up.P = r.up.P.map (V3.sc s) := by
    show (r.P.map (s • ·)).map V3.up = (r.P.map V3.up).map (V3.sc s)
    rw [List.map_map, List.map_map]; rfl
  have eR : (poseUnits s (unapplyAux r T)).up.R = (unapplyAux r T).up.R := rfl
  have ep : (poseUnits s (unapplyAux r T)).up.p = (unapplyAux r T).up.p.sc s := rfl
  have fH : r.up.H = [h0.up, h1.up, h2.up, h3.up, h4.up, h5.up] := by show r.H.map V3.up = _; rw [hH]; rfl
  have fP : r.up.P = [P0.up, P1.up, P2.up, P3.up, P4.up, P5.up, P6.up] := by show r.P.map V3.up = _; rw [hP]; rfl
  simp only [robot6_sphericalwrist_invkin, unapplyAux_up, unapplyAux_units, normalizer_units s r ht, eH, eP, fixWrist_sc hs, eR, ep]
  rw [fH, fP]
  rcases hfx : fixWrist [h0.up, h1.up, h2.up, h3.up, h4.up, h5.up] [P0.up, P1.up, P2.up, P3.up, P4.up, P5.up, P6.up] with ⟨P', e | u⟩
  · rfl
  obtain ⟨rfl, hP4, hP5⟩ := fixWrist_ok hfx
  simp only [Except.bind_ok, List.map_cons, List.map_nil]
  rw [r6Search_sc hs]
  intro q1 q3
  apply tol_of_far
  by_cases f3 : ∃ a, q3 = .fin a
  · by_cases f1 : ∃ a, q1 = .fin a
    · obtain ⟨q3, rfl⟩ := f3
      obtain ⟨q1, rfl⟩ := f1
      right
      set E := unapplyAux r T
      refine ⟨P2 + (rot h2 q3).mulVec (P3 + P4) - ((rot h0 q1).transpose.mulVec (E.p - E.R.mulVec (P6 + P5)) - (P0 + P1)), ?_, ?_⟩
      · show P2.up + (rot h2.up (.fin q3)).mulVec (P3 + P4).up - ((rot h0.up (.fin q1)).transpose.mulVec (E.p.up - E.R.up.mulVec (P6 + P5).up)
          - (P0.up + P1.up)) = _
        simp only [rot_up, M3.up_transpose, M3.up_mulVec, V3.up_add, V3.up_sub]
      · have h := hfar q1 q3
        have hr := rot_isRot h0 hu q1
        obtain ⟨c, hc⟩ := h00
        have hfix : (rot h0 q1).mulVec P0 = P0 := by rw [hc, rot_hsmul_axis]
        have e : (rot h0 q1).mulVec (P2 + (rot h2 q3).mulVec (P3 + P4) - ((rot h0 q1).transpose.mulVec (E.p - E.R.mulVec (P6 + P5)) - (P0 + P1)))
            = Spec.wristAt h0 h1 h2 P0 P1 P2 (P3 + P4) q1 0 q3 - (E.p - E.R.mulVec (P6 + P5)) := by
          rw [M3.mulVec_sub, M3.mulVec_sub, hr.mulVec_transpose_mulVec, M3.mulVec_add _ P0 P1, hfix, Spec.wristAt, rot_zero, M3.one_mulVec,
            M3.mulVec_add _ P1]
          ext <;> simp <;> ring
        rw [← e, hr.norm_mulVec] at h
        have hn := V3.norm_nonneg (P2 + (rot h2 q3).mulVec (P3 + P4) - ((rot h0 q1).transpose.mulVec (E.p - E.R.mulVec (P6 + P5)) - (P0 + P1)))
        exact ⟨h.trans (by nlinarith [min_le_left 1 s]), h.trans (mul_le_mul_of_nonneg_right (min_le_right 1 s) hn)⟩
    · left
      apply norm_nan_of
      rw [rot_nonfin h0.up (fun a ha => f1 ⟨a, ha⟩)]
      simp [M3.mulVec, M3.transpose]
  · left
    apply norm_nan_of
    rw [rot_nonfin h2.up (fun a ha => f3 ⟨a, ha⟩)]
    simp [M3.mulVec]

end

/-- C97: the same for `ur_invkin`, with the point where the fifth joint is. -/
theorem C97_ur_partial {r : Robot ℝ} {k P0 P1 P2 P3 P4 P5 P6 : V3 ℝ} (hr : Spec.UrChain r k P0 P1 P2 P3 P4 P5 P6) {s : ℝ} (hs : 0 < s)
    (T : Transform ℝ) (hfar : ∀ q1 q3 q4 : ℝ, snap ≤ min 1 s * (P0 + (rot V3.ez q1).mulVec (P1 + P2 + (rot k q3).mulVec
      (P3 + (rot k q4).mulVec P4)) - ((unapplyAux r T).p - (unapplyAux r T).R.mulVec (P6 + P5))).norm) (last : Option (List XReal)) :
    ur_invkin (robotUnits s r).up (poseUnits s T).up last = ur_invkin r.up T.up last := by
  have ht : ∀ t ∈ r.jointType, t = 0 := by rw [hr.types]; simp
  have eH : (robotUnits s r).up.H = r.up.H := rfl
  have eP : (robotUnits s r).up.P = r.up.P.map (V3.sc s) := by
    show (r.P.map (s • ·)).map V3.up = (r.P.map V3.up).map (V3.sc s)
    rw [List.map_map, List.map_map]; rfl
  have eR : (poseUnits s (unapplyAux r T)).up.R = (unapplyAux r T).up.R := rfl
  have ep : (poseUnits s (unapplyAux r T)).up.p = (unapplyAux r T).up.p.sc s := rfl
  have fH : r.up.H = [V3.ez.up, k.up, k.up, k.up, (-V3.ez : V3 ℝ).up, k.up] := by show r.H.map V3.up = _; rw [hr.axes]; rfl
  have fP : r.up.P = [P0.up, P1.up, P2.up, P3.up, P4.up, P5.up, P6.up] := by show r.P.map V3.up = _; rw [hr.links]; rfl
  simp only [ur_invkin, unapplyAux_up, unapplyAux_units, normalizer_units s r ht, eH, eP, eR, ep]
  rw [fP, fH]
  simp only [List.map_cons, List.map_nil]
  rw [urSearch_sc hs]
  intro q1 q24 q3
  apply tol_of_far
  by_cases f1 : ∃ a, q1 = .fin a
  · by_cases f3 : ∃ a, q3 = .fin a
    · by_cases f24 : ∃ a, q24 = .fin a
      · obtain ⟨q3, rfl⟩ := f3
        obtain ⟨q1, rfl⟩ := f1
        obtain ⟨q24, rfl⟩ := f24
        right
        set E := unapplyAux r T
        refine ⟨P2 + (rot k q3).mulVec P3 - (rot V3.ez q1).transpose.mulVec (E.p - E.R.mulVec (P6 + P5) - P0 -
          (rot V3.ez q1).mulVec P1 - (rot V3.ez q1 * rot k q24).mulVec P4), ?_, ?_⟩
        · show P2.up + (rot k.up (.fin q3)).mulVec P3.up - (rot V3.ez.up (.fin q1)).transpose.mulVec (E.p.up - E.R.up.mulVec (P6.up + P5.up)
            - P0.up - (rot V3.ez.up (.fin q1)).mulVec P1.up - (rot V3.ez.up (.fin q1) * rot k.up (.fin q24)).mulVec P4.up) = _
          simp only [rot_up, M3.up_mul, M3.up_transpose, M3.up_mulVec, V3.up_add, V3.up_sub]
        · have h := hfar q1 q3 (q24 - q3)
          have hrot := rot_isRot (V3.ez : V3 ℝ) (by simp [IsUnit3]) q1
          have hk : IsUnit3 k := pm_unit hr.par
          have h24 : (rot k q3).mulVec ((rot k (q24 - q3)).mulVec P4) = (rot k q24).mulVec P4 := by
            rw [M3.mulVec_mulVec, rot_mul k hk]
            congr 2; ring
          have e : (rot V3.ez q1).mulVec (P2 + (rot k q3).mulVec P3 - (rot V3.ez q1).transpose.mulVec (E.p - E.R.mulVec (P6 + P5) - P0 -
              (rot V3.ez q1).mulVec P1 - (rot V3.ez q1 * rot k q24).mulVec P4)) = P0 + (rot V3.ez q1).mulVec (P1 + P2 + (rot k q3).mulVec
              (P3 + (rot k (q24 - q3)).mulVec P4)) - (E.p - E.R.mulVec (P6 + P5)) := by
            rw [M3.mulVec_sub, hrot.mulVec_transpose_mulVec, M3.mulVec_add (rot k q3), h24, ← M3.mulVec_mulVec]
            simp only [M3.mulVec_add (rot V3.ez q1)]
            ext <;> simp <;> ring
          rw [← e, hrot.norm_mulVec] at h
          have hn := V3.norm_nonneg (P2 + (rot k q3).mulVec P3 - (rot V3.ez q1).transpose.mulVec (E.p - E.R.mulVec (P6 + P5) - P0 -
            (rot V3.ez q1).mulVec P1 - (rot V3.ez q1 * rot k q24).mulVec P4))
          exact ⟨h.trans (by nlinarith [min_le_left 1 s]), h.trans (mul_le_mul_of_nonneg_right (min_le_right 1 s) hn)⟩
      · left
        apply norm_nan_of
        rw [rot_nonfin k.up (q := q24) (fun a ha => f24 ⟨a, ha⟩)]
        simp [M3.mulVec]
    · left
      apply norm_nan_of
      rw [rot_nonfin k.up (q := q3) (fun a ha => f3 ⟨a, ha⟩)]
      simp [M3.mulVec]
  · left
    apply norm_nan_of
    rw [rot_nonfin V3.ez.up (fun a ha => f1 ⟨a, ha⟩)]
    simp [M3.mulVec, M3.transpose]

/-! ## The solver depends on the unit -/

/-- Without limits and last joint values, the second entry of a row is what `subproblem1` gave. -/
theorem r6_second {N : Normalizer XReal} (hN : ∀ j q, N.one j q = .ok (some q)) {h0 h1 h2 h3 h4 h5 P0 P1 P2 P3 P4 P5 P6 p0T : V3 XReal}
    {R06 : M3 XReal} {sols : List (List XReal)}
    (h : r6Search [h0, h1, h2, h3, h4, h5] [P0, P1, P2, P3, P4, P5, P6] N R06 p0T = .ok sols) {row : List XReal} (hrow : row ∈ sols) :
    ∃ q1 q2 q3 q4 q5 q6, row = [q1, q2, q3, q4, q5, q6] ∧ subproblem1 (P2 + (rot h2 q3).mulVec P3)
      ((rot h0 q1).transpose.mulVec (p0T - R06.mulVec P6) - (P0 + P1)) h1 = .ok q2 := by
  simp only [r6Search] at h
  obtain ⟨Q1, c1, h⟩ := Except.bind_eq_ok h
  obtain ⟨q1, m1, sl1, h, hrow⟩ := mem_forAppend h hrow
  simp only [r6Shoulder] at h
  obtain ⟨Q3, e3, h⟩ := Except.bind_eq_ok h
  obtain ⟨Q3', c3, h⟩ := Except.bind_eq_ok h
  obtain ⟨q3, m3, sl3, h, hrow⟩ := mem_forAppend h hrow
  simp only [r6Elbow] at h
  obtain ⟨q2, e2, h⟩ := Except.bind_eq_ok h
  rw [hN] at h
  simp only [Except.bind_ok] at h
  obtain ⟨Q45, e45, h⟩ := Except.bind_eq_ok h
  obtain ⟨Q45', c45, h⟩ := Except.bind_eq_ok h
  obtain ⟨t, m45, s45, h, hrow⟩ := mem_forAppend h hrow
  rcases t with _ | ⟨q4, _ | ⟨q5, _ | ⟨_, _⟩⟩⟩
  · cases h
  · cases h
  · simp only [r6Last] at h
    obtain ⟨q6, e6, h⟩ := Except.bind_eq_ok h
    rw [hN] at h
    cases h
    rw [List.mem_singleton] at hrow
    exact ⟨q1, q2, q3, q4, q5, q6, hrow, e2⟩
  · cases h

theorem Spec.smallArm_conf2 : Spec.RegularConf (V3.ez : V3 ℝ) V3.ey V3.ey V3.ex V3.ey V3.ex 0 V3.ez (V3.ex + 0) (Real.pi / 2) (-Real.pi)
    (Real.pi / 2) (Real.pi / 2) (Real.pi / 2) where
  shoulder := by intro h; have := congrArg V3.y h; simp [rot] at this
  wrist := by rw [npEps_real]; simp [rot, V3.dot]; norm_num
  clear2 := by
    right
    rw [snap_eq, V3.norm_eq]
    apply Real.le_sqrt_of_sq_le
    simp [rot, V3.dot]; norm_num
  clear4 := by
    right
    rw [snap_eq, V3.norm_eq]
    apply Real.le_sqrt_of_sq_le
    simp [rot, V3.dot]; norm_num
  clear5 := by
    right
    rw [snap_eq, V3.norm_eq]
    apply Real.le_sqrt_of_sq_le
    simp [rot, V3.dot]; norm_num
  clear6 := by
    right
    rw [snap_eq, V3.norm_eq]
    apply Real.le_sqrt_of_sq_le
    simp [rot, V3.dot]; norm_num

theorem one_free {r : Robot ℝ} (hl : r.lower = none) (j : Nat) (q : XReal) : (Normalizer.ofRobot r.up none).one j q = .ok (some q) := by
  simp [Normalizer.one, Normalizer.callS, Normalizer.normalize, Normalizer.ofRobot, Robot.up, hl]

/-- C97 is false for `robot6_sphericalwrist_invkin`: there is an arm and a pose for which the call answers with joint vectors, and with
others when lengths are counted in a larger unit. -/
theorem C97_robot6_false : ∃ (s : ℝ) (T : Transform ℝ) (sols : List (List XReal)), 0 < s ∧
    (robot6_sphericalwrist_invkin (Spec.smallArm none none).up T.up none).2 = .ok sols ∧
    (robot6_sphericalwrist_invkin (robotUnits s (Spec.smallArm none none)).up (poseUnits s T).up none).2 ≠ .ok sols := by
  set r := Spec.smallArm none none with hrdef
  have hr := Spec.smallArm_wrist none none
  have hT := fwdkin_chain6 hr.types hr.axes hr.links 0 0 0 (Real.pi / 2) (Real.pi / 2) 0
  have hT2 := fwdkin_chain6 hr.types hr.axes hr.links 0 (Real.pi / 2) (-Real.pi) (Real.pi / 2) (Real.pi / 2) (Real.pi / 2)
  have z : (0 : V3 ℝ) = ((0 : V3 ℝ).dot V3.ex) • V3.ex := by ext <;> simp [V3.dot]
  obtain ⟨eR, ep⟩ := wristArm_pose hr z z hT
  obtain ⟨sols, hs⟩ := Spec.smallArm_returns none none (by rintro _ _ ⟨⟩) 0 (by rw [Int.cast_zero, zero_mul]; exact hT)
  have hw : ∀ j q, Spec.withinLimits r j q := by rintro j q _ _ ⟨⟩
  have e12 : ∀ A B : Transform ℝ, A.R = B.R → A.p = B.p → A.parent = none → B.parent = none → A.child = none → B.child = none → A = B := by
    rintro ⟨R, p, a, b⟩ ⟨R', p', a', b'⟩ rfl rfl h1 h2 h3 h4
    simp only at h1 h2 h3 h4; subst h1 h2 h3 h4; rfl
  have e : fwdkin r [0, Real.pi / 2, -Real.pi, Real.pi / 2, Real.pi / 2, Real.pi / 2] true =
      fwdkin r [0, 0, 0, Real.pi / 2, Real.pi / 2, 0] true := by
    rw [hT, hT2]
    exact congrArg Except.ok (e12 _ _ (by ext <;> simp [applyAux, Spec.smallArm, rot]) (by ext <;> simp [applyAux, Spec.smallArm, rot])
      rfl rfl rfl rfl)
  obtain ⟨n1, n2, n3, n4, n5, n6, hm⟩ := C30_robot6_complete_partial hr Spec.smallArm_regular Spec.smallArm_conf2 (hw _ _) (hw _ _) (hw _ _)
    (hw _ _) (hw _ _) (hw _ _) (e.trans hT) hs
  set T := applyAux (Spec.smallArm none none) _ with hTdef
  refine ⟨1 / 2 ^ 30, T, sols, by norm_num, hs, fun h => ?_⟩
  have hS : (0 : ℝ) < 1 / 2 ^ 30 := by norm_num
  set S : ℝ := 1 / 2 ^ 30 with hSdef
  have eH : (robotUnits S r).up.H = [V3.ez.up, V3.ey.up, V3.ey.up, V3.ex.up, V3.ey.up, V3.ex.up] := rfl
  have eP : (robotUnits S r).up.P = [(S • V3.ez : V3 ℝ).up, (S • 0 : V3 ℝ).up, (S • V3.ez : V3 ℝ).up, (S • V3.ex : V3 ℝ).up, (S • 0 : V3 ℝ).up,
    (S • 0 : V3 ℝ).up, (S • V3.ex : V3 ℝ).up] := rfl
  simp only [robot6_sphericalwrist_invkin, unapplyAux_up, unapplyAux_units] at h
  rw [eH, eP, smul_zero, fixWrist_of z z] at h
  simp only [Except.bind_ok] at h
  obtain ⟨rows, h1, h2⟩ := Except.bind_eq_ok h
  have hm' := (sortByLast_mem h2).mem_iff.1 hm
  obtain ⟨q1, q2, q3, q4, q5, q6, hq, hsub⟩ := r6_second (one_free rfl) h1 hm'
  simp only [List.cons.injEq] at hq
  obtain ⟨rfl, rfl, rfl, -⟩ := hq
  set U := unapplyAux r T with hU
  have eT : U.p - U.R.mulVec V3.ex = ⟨1, 0, 2⟩ := by
    have e := ep
    rw [show (V3.ex + 0 : V3 ℝ) = V3.ex from by ext <;> simp] at e
    rw [hU]
    refine e.trans ?_
    rw [Spec.wristAt, rot_zero, rot_zero]
    ext <;> simp
    norm_num
  rw [show (poseUnits S U).up.R = U.R.up from rfl, show (poseUnits S U).up.p = (S • U.p).up from rfl] at hsub
  simp only [rot_up, M3.up_transpose, M3.up_mulVec, V3.up_add, V3.up_sub] at hsub
  set q1 := 0 + (n1 : ℝ) * (2 * Real.pi)
  set q3 := -Real.pi + (n3 : ℝ) * (2 * Real.pi)
  have e1 : (S • V3.ez + (rot V3.ey q3).mulVec (S • V3.ex + 0) - ((rot V3.ez q1).transpose.mulVec (S • U.p - U.R.mulVec (S • V3.ex + 0)) -
      (S • V3.ez + 0)) : V3 ℝ) = S • (V3.ez + (rot V3.ey q3).mulVec V3.ex - ((rot V3.ez q1).transpose.mulVec (⟨1, 0, 2⟩ : V3 ℝ) - V3.ez)) := by
    rw [← eT]
    ext <;> simp <;> ring
  have hlt : (S • V3.ez + (rot V3.ey q3).mulVec (S • V3.ex + 0) - ((rot V3.ez q1).transpose.mulVec (S • U.p - U.R.mulVec (S • V3.ex + 0)) -
      (S • V3.ez + 0)) : V3 ℝ).norm < snap := by
    rw [e1, V3.norm_hsmul, abs_of_pos hS]
    have n0 : (V3.ez : V3 ℝ).norm = 1 := V3.norm_eq_one (by simp [IsUnit3])
    have n1' : (V3.ex : V3 ℝ).norm = 1 := V3.norm_eq_one (by simp [IsUnit3])
    have n2' : (⟨1, 0, 2⟩ : V3 ℝ).norm ≤ 3 := by
      rw [V3.norm_eq]; exact Real.sqrt_le_iff.2 ⟨by norm_num, by simp [V3.dot]; norm_num⟩
    have r1 := (rot_isRot (V3.ey : V3 ℝ) (by simp [IsUnit3]) q3).norm_mulVec V3.ex
    have r2 := (rot_isRot (V3.ez : V3 ℝ) (by simp [IsUnit3]) q1).transpose.norm_mulVec ⟨1, 0, 2⟩
    have t1 := V3.norm_sub_le (V3.ez + (rot V3.ey q3).mulVec V3.ex) ((rot V3.ez q1).transpose.mulVec (⟨1, 0, 2⟩ : V3 ℝ) - V3.ez)
    have t2 := V3.norm_add_le V3.ez ((rot V3.ey q3).mulVec V3.ex)
    have t3 := V3.norm_sub_le ((rot V3.ez q1).transpose.mulVec (⟨1, 0, 2⟩ : V3 ℝ)) V3.ez
    rw [snap_eq, hSdef]
    have : (V3.ez + (rot V3.ey q3).mulVec V3.ex - ((rot V3.ez q1).transpose.mulVec (⟨1, 0, 2⟩ : V3 ℝ) - V3.ez)).norm ≤ 6 := by linarith
    norm_num
    linarith
  rw [subproblem1_snap _ hlt] at hsub
  have h0 : (0 : ℝ) = Real.pi / 2 + n2 * (2 * Real.pi) := by simpa using hsub
  have h4 : Real.pi * (1 + 4 * n2) = 0 := by linarith
  rcases mul_eq_zero.1 h4 with h5 | h5
  · exact Real.pi_ne_zero h5
  · have : (1 + 4 * n2 : ℤ) = 0 := by exact_mod_cast h5
    omega

/-! ## Concrete cases -/

-- a robot with a sliding and a rotary joint, in millimetres instead of metres
example : fwdkin (robotUnits 1000 { H := [V3.ez, V3.ex], P := [0, V3.ez, V3.ey], jointType := [1, 0] }) (jointUnits 1000 [1, 0] [2, 1]) =
    (fwdkin (α := ℝ) { H := [V3.ez, V3.ex], P := [0, V3.ez, V3.ey], jointType := [1, 0] } [2, 1]).map (poseUnits 1000) :=
  C97_fwdkin (by norm_num) { H := [V3.ez, V3.ex], P := [0, V3.ez, V3.ey], jointType := [1, 0] } (by simp) (by simp) _ rfl _

example : jointUnits 1000 [1, 0] [2, 1] = [2000, 1] := by simp [jointUnits]; norm_num

-- the small arm reaching out horizontally, in millimetres instead of metres
example (last : Option (List XReal)) :
    (robot6_sphericalwrist_invkin (robotUnits 1000 (Spec.smallArm none none)).up (poseUnits 1000 ⟨1, ⟨3, 0, 1⟩, none, none⟩).up last).2 =
      (robot6_sphericalwrist_invkin (Spec.smallArm none none).up (Transform.up ⟨1, ⟨3, 0, 1⟩, none, none⟩) last).2 := by
  have hr := Spec.smallArm_wrist none none
  refine C97_robot6_partial (by norm_num) (by simp [Spec.smallArm]) hr.axes hr.links hr.unit0 hr.first _ (fun q1 q3 => ?_) last
  rw [show min (1 : ℝ) 1000 = 1 by norm_num, one_mul, snap_eq, V3.norm_eq]
  apply Real.le_sqrt_of_sq_le
  simp [Spec.wristAt, unapplyAux, Spec.smallArm, rot, V3.dot]
  have h1 := Real.sin_sq_add_cos_sq q1
  have h3 := Real.sin_sq_add_cos_sq q3
  nlinarith [sq_nonneg (Real.cos q1 - Real.cos q3), sq_nonneg (Real.cos q1 + Real.cos q3), sq_nonneg (Real.sin q3 - 1), sq_nonneg (Real.sin q1)]

-- the small UR arm reaching down
example (last : Option (List XReal)) :
    ur_invkin (robotUnits 1000 (Spec.smallUr none none)).up (poseUnits 1000 ⟨1, ⟨-1, 1, -1⟩, none, none⟩).up last =
      ur_invkin (Spec.smallUr none none).up (Transform.up ⟨1, ⟨-1, 1, -1⟩, none, none⟩) last := by
  refine C97_ur_partial (Spec.smallUr_arm none none) (by norm_num) _ (fun q1 q3 q4 => ?_) last
  rw [show min (1 : ℝ) 1000 = 1 by norm_num, one_mul, snap_eq, V3.norm_eq]
  apply Real.le_sqrt_of_sq_le
  simp [unapplyAux, Spec.smallUr, rot, V3.dot]
  have h3 := Real.neg_one_le_cos q3
  have hz : 1 ≤ (1 + Real.cos q3 + 1) * (1 + Real.cos q3 + 1) := by nlinarith
  have h1 := mul_self_nonneg (Real.cos q1 * Real.sin q3 + -Real.sin q1 + 1)
  have h2 := mul_self_nonneg (Real.sin q1 * Real.sin q3 + Real.cos q1 - 1)
  have h4 : ((67108864 : ℝ) ^ 2)⁻¹ ≤ 1 := by norm_num
  linarith
