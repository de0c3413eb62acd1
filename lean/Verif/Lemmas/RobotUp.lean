import Verif.Lemmas.Up
import Verif.Lemmas.ListM

/-! # Robots and transforms with finite entries, run on `XReal` -/
set_option autoImplicit false

def Transform.up (T : Transform ℝ) : Transform XReal := ⟨T.R.up, T.p.up, T.parent, T.child⟩

/-- A robot with finite entries as a robot over `XReal`.  `M` and `effortLimit` play no role in kinematics and are dropped. -/
def Robot.up (r : Robot ℝ) : Robot XReal :=
  { H := r.H.map V3.up, P := r.P.map V3.up, jointType := r.jointType,
    lower := r.lower.map (·.map .fin), upper := r.upper.map (·.map .fin), vel := r.vel.map (·.map .fin),
    acc := r.acc.map (·.map .fin), Rtool := r.Rtool.map M3.up, ptool := r.ptool.map V3.up, jointNames := r.jointNames,
    rootLink := r.rootLink, tipLink := r.tipLink, Tflange := r.Tflange.map Transform.up, Tbase := r.Tbase.map Transform.up }

theorem Transform.up_mul (A B : Transform ℝ) : A.up * B.up = (A * B).up := by
  show _ = Transform.mk (A.R * B.R).up (A.p + A.R.mulVec B.p).up A.parent B.child
  have h1 : A.R.up * B.R.up = (A.R * B.R).up := M3.up_mul _ _
  have h2 : A.p.up + A.R.up.mulVec B.p.up = (A.p + A.R.mulVec B.p).up := by rw [M3.up_mulVec, V3.up_add]
  rw [← h1, ← h2]; rfl

theorem Transform.up_inv (A : Transform ℝ) : A.up.inv = A.inv.up := by
  have h : -(A.R.up.transpose.mulVec A.p.up) = (-(A.R.transpose.mulVec A.p)).up := by
    rw [M3.up_transpose, M3.up_mulVec, V3.up_neg]
  show _ = Transform.mk A.R.transpose.up (-(A.R.transpose.mulVec A.p)).up A.child A.parent
  rw [← h]; rfl

theorem applyAux_up (r : Robot ℝ) (T : Transform ℝ) : applyAux r.up T.up = (applyAux r T).up := by
  unfold applyAux Robot.up
  rcases r.Tflange with _ | F <;> rcases r.Rtool with _ | R <;> rcases r.ptool with _ | p <;> rcases r.Tbase with _ | B <;>
    simp only [Option.map_none, Option.map_some] <;> simp only [← Transform.up_mul] <;> rfl

theorem unapplyAux_up (r : Robot ℝ) (T : Transform ℝ) : unapplyAux r.up T.up = (unapplyAux r T).up := by
  unfold unapplyAux Robot.up
  rcases r.Tflange with _ | F <;> rcases r.Rtool with _ | R <;> rcases r.ptool with _ | p <;> rcases r.Tbase with _ | B <;>
    simp only [Option.map_none, Option.map_some] <;> simp only [← Transform.up_mul, ← Transform.up_inv] <;> rfl

theorem fwdStep_up (t : Nat) (h P : V3 ℝ) (θ : ℝ) (R : M3 ℝ) (p : V3 ℝ) :
    fwdStep t h.up P.up (.fin θ) (R.up, p.up) = ((fwdStep t h P θ (R, p)).1.up, (fwdStep t h P θ (R, p)).2.up) := by
  unfold fwdStep
  simp only [rot_up, M3.up_mul, M3.up_mulVec, V3.up_add, V3.up_smul]
  split_ifs <;> rfl

theorem fwdLoop_up (ts : List Nat) (hs Ps : List (V3 ℝ)) (θs : List ℝ) (R : M3 ℝ) (p : V3 ℝ) :
    fwdLoop ts (hs.map V3.up) (Ps.map V3.up) (θs.map .fin) (R.up, p.up) =
      (fwdLoop ts hs Ps θs (R, p)).map fun x => (x.1.up, x.2.up) := by
  induction ts generalizing hs Ps θs R p with
  | nil => rfl
  | cons t ts ih =>
    obtain _ | ⟨h, hs⟩ := hs
    · rfl
    obtain _ | ⟨P, Ps⟩ := Ps
    · rfl
    obtain _ | ⟨θ, θs⟩ := θs
    · rfl
    simp only [List.map_cons, fwdLoop]
    rw [fwdStep_up, ih]

/-- forward kinematics of a robot with finite entries -/
theorem fwdkin_up (r : Robot ℝ) (θ : List ℝ) : fwdkin r.up (θ.map .fin) true = (fwdkin r θ true).map Transform.up := by
  have hP : r.up.P = r.P.map V3.up := rfl
  simp only [fwdkin, checkLimits, if_true, hP]
  rcases r.P with _ | ⟨P0, Ps⟩
  · rfl
  · simp only [List.map_cons, Except.bind_ok]
    have := fwdLoop_up r.jointType r.H Ps θ 1 P0
    rw [M3.up_one, show r.up.jointType = r.jointType from rfl, show r.up.H = r.H.map V3.up from rfl, this]
    rcases fwdLoop r.jointType r.H Ps θ (1, P0) with e | ⟨R, p⟩
    · rfl
    · exact congrArg Except.ok (applyAux_up r ⟨R, p, none, none⟩)

/-! ## Jacobian -/

def V6.up (v : V6 ℝ) : V6 XReal := ⟨v.top.up, v.bot.up⟩

def JointFrame.up (f : JointFrame ℝ) : JointFrame XReal := ⟨f.ty, f.pO.up, f.h.up, .fin f.th⟩

theorem jacLoop_up (ts : List Nat) (hs Ps : List (V3 ℝ)) (θs : List ℝ) (R : M3 ℝ) (p : V3 ℝ) :
    jacLoop ts (hs.map V3.up) (Ps.map V3.up) (θs.map .fin) (R.up, p.up) =
      (jacLoop ts hs Ps θs (R, p)).map fun x => (x.1.map JointFrame.up, x.2.1.up, x.2.2.up) := by
  induction ts generalizing hs Ps θs R p with
  | nil => rfl
  | cons t ts ih =>
    obtain _ | ⟨h, hs⟩ := hs
    · rfl
    obtain _ | ⟨P, Ps⟩ := Ps
    · rfl
    obtain _ | ⟨θ, θs⟩ := θs
    · rfl
    simp only [List.map_cons, jacLoop]
    rw [fwdStep_up, ih]
    rcases jacLoop ts hs Ps θs (fwdStep t h P θ (R, p)) with e | ⟨fs, R', p'⟩
    · rfl
    · simp only [M3.up_mulVec]; rfl

theorem jacCols_up (pOT : V3 ℝ) (fs : List (JointFrame ℝ)) :
    jacCols pOT.up (fs.map JointFrame.up) = (jacCols pOT fs).map (·.map V6.up) := by
  have z : (0 : V3 XReal) = (0 : V3 ℝ).up := rfl
  fun_induction jacCols pOT fs with
  | case1 => rfl
  | case2 f fs h ih =>
    have h' : f.up.ty = 0 := h
    rw [List.map_cons, jacCols.eq_def]; simp only [if_pos h', ih]
    rcases jacCols pOT fs with e | l
    · rfl
    · show Except.ok _ = Except.ok _
      simp only [JointFrame.up, hat_up, V3.up_sub, M3.up_mulVec]; rfl
  | case3 f fs h0 h ih =>
    have h0' : ¬ f.up.ty = 0 := h0
    have h' : f.up.ty = 1 := h
    rw [List.map_cons, jacCols.eq_def]; simp only [if_neg h0', if_pos h', ih]
    rcases jacCols pOT fs with e | l
    · rfl
    · rfl
  | case4 f h0 h1 h f' g fs ih =>
    have h0' : ¬ f.up.ty = 0 := h0
    have h1' : ¬ f.up.ty = 1 := h1
    have h' : f.up.ty = 3 := h
    simp only [List.map_cons, jacCols, if_neg h0', if_neg h1', if_pos h', ih]
    rcases jacCols pOT fs with e | l
    · rfl
    · show Except.ok _ = Except.ok _
      simp only [JointFrame.up, hat_up, V3.up_sub, M3.up_mulVec, rot_up]; rfl
  | case5 f fs h0 h1 h hn =>
    have h0' : ¬ f.up.ty = 0 := h0
    have h1' : ¬ f.up.ty = 1 := h1
    have h' : f.up.ty = 3 := h
    obtain _ | ⟨g, fs⟩ := fs
    · simp only [List.map_cons, List.map_nil, jacCols, if_neg h0', if_neg h1', if_pos h']; rfl
    obtain _ | ⟨g', fs⟩ := fs
    · simp only [List.map_cons, List.map_nil, jacCols, if_neg h0', if_neg h1', if_pos h']; rfl
    · exact absurd rfl (hn g g' fs)
  | case6 f fs h0 h1 h ih =>
    have h0' : ¬ f.up.ty = 0 := h0
    have h1' : ¬ f.up.ty = 1 := h1
    have h' : ¬ f.up.ty = 3 := h
    rw [List.map_cons, jacCols.eq_def]; simp only [if_neg h0', if_neg h1', if_neg h', ih]
    rcases jacCols pOT fs with e | l
    · rfl
    · rfl

/-- Jacobian of a robot with finite entries -/
theorem robotjacobian_up (r : Robot ℝ) (θ : List ℝ) :
    robotjacobian r.up (θ.map .fin) true = (robotjacobian r θ true).map (·.map V6.up) := by
  have hP : r.up.P = r.P.map V3.up := rfl
  simp only [robotjacobian, checkLimits, if_true, hP]
  rcases r.P with _ | ⟨P0, Ps⟩
  · rfl
  · simp only [List.map_cons, Except.bind_ok]
    have := jacLoop_up r.jointType r.H Ps θ 1 P0
    rw [M3.up_one, show r.up.jointType = r.jointType from rfl, show r.up.H = r.H.map V3.up from rfl, this]
    rcases jacLoop r.jointType r.H Ps θ (1, P0) with e | ⟨fs, R, p⟩
    · rfl
    · show (jacCols _ _ >>= _) = _
      unfold Robot.up
      rcases r.Tflange with _ | F <;> rcases r.ptool with _ | pt <;> rcases r.Tbase with _ | B <;>
        simp only [Option.map_none, Option.map_some, Transform.up, M3.up_one, M3.up_mul, M3.up_mulVec, V3.up_add, jacCols_up,
          bind, Except.bind, Except.map, pure, Except.pure] <;>
        (rcases jacCols _ fs with e | l <;> simp [V6.up, M3.up_mulVec])
