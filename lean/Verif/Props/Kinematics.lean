import Verif.Lemmas.Kin
import Verif.Lemmas.Up
import Mathlib.Data.List.Forall2

/-!
# Properties C17, C18, C19, C20, C22: forward kinematics and the Jacobian
-/
set_option autoImplicit false

/-- A robot whose chain is well formed, with exactly unit axes, and rigid auxiliary transforms. -/
structure Robot.WF (robot : Robot ℝ) : Prop where
  columns : robot.P.length = robot.H.length + 1
  joints : robot.jointType.length = robot.H.length
  types : ∀ t ∈ robot.jointType, t < 4
  unit : ∀ h ∈ robot.H, IsUnit3 h
  base : ∀ B, robot.Tbase = some B → IsRot B.R
  flange : ∀ F, robot.Tflange = some F → IsRot F.R
  tool : ∀ R, robot.Rtool = some R → IsRot R
  toolBoth : robot.Rtool = none ↔ robot.ptool = none

/-! ## C17 -/

/-- What one joint does to a point: turn it about the axis through the origin (types 0 and 2) by Rodrigues' formula,
or shift it along the axis. -/
noncomputable def Spec.jointMove (t : Nat) (h : V3 ℝ) (θ : ℝ) (v : V3 ℝ) : V3 ℝ :=
  if t = 0 ∨ t = 2 then Real.cos θ • v + Real.sin θ • h.cross v + ((1 - Real.cos θ) * h.dot v) • h
  else v + θ • h

/-- The chain as a map on points, from the last link back to the first: each joint moves what comes after it, shifted by
its column of `P`. -/
noncomputable def Spec.chain : List Nat → List (V3 ℝ) → List (V3 ℝ) → List ℝ → V3 ℝ → V3 ℝ
  | t :: ts, h :: hs, P :: Ps, θ :: θs, v => Spec.jointMove t h θ (P + Spec.chain ts hs Ps θs v)
  | _, _, _, _, v => v

theorem fwdStep_act (t : Nat) (ht : t < 4) (h P : V3 ℝ) (hh : IsUnit3 h) (θ : ℝ) (R : M3 ℝ) (p v : V3 ℝ) :
    (fwdStep t h P θ (R, p)).2 + (fwdStep t h P θ (R, p)).1.mulVec v = p + R.mulVec (Spec.jointMove t h θ (P + v)) := by
  unfold Spec.jointMove
  by_cases hr : IsRotary t
  · rw [fwdStep_rotary hr, if_pos hr]
    dsimp only
    rw [add_assoc, ← M3.mulVec_add, ← M3.mulVec_mulVec, rot_mulVec h hh]
  · rw [fwdStep_prismatic (by unfold IsRotary at hr; unfold IsPrismatic; omega), if_neg hr]
    ext <;> simp <;> ring

theorem fwdLoop_act (ts : List Nat) (hs Ps : List (V3 ℝ)) (θs : List ℝ) (lh : hs.length = ts.length)
    (lP : Ps.length = ts.length) (lθ : θs.length = ts.length) (hu : ∀ h ∈ hs, IsUnit3 h) (ht : ∀ t ∈ ts, t < 4)
    (R : M3 ℝ) (p : V3 ℝ) (hR : IsRot R) :
    ∃ R' p', fwdLoop ts hs Ps θs (R, p) = .ok (R', p') ∧ IsRot R' ∧
      ∀ v, p' + R'.mulVec v = p + R.mulVec (Spec.chain ts hs Ps θs v) := by
  induction ts generalizing hs Ps θs R p with
  | nil => exact ⟨R, p, rfl, hR, fun v => by simp [Spec.chain]⟩
  | cons t ts ih =>
    obtain _ | ⟨h, hs⟩ := hs
    · simp at lh
    obtain _ | ⟨P, Ps⟩ := Ps
    · simp at lP
    obtain _ | ⟨θ, θs⟩ := θs
    · simp at lθ
    have hh := hu h (by simp)
    have hR1 : IsRot (fwdStep t h P θ (R, p)).1 := by
      by_cases hr : IsRotary t
      · rw [fwdStep_rotary hr]; exact hR.mul (rot_isRot h hh θ)
      · rw [fwdStep_prismatic (by have := ht t (by simp); unfold IsRotary at hr; unfold IsPrismatic; omega)]; exact hR
    obtain ⟨R', p', e1, e2, e3⟩ := ih hs Ps θs (by simpa using lh) (by simpa using lP) (by simpa using lθ)
      (fun x hx => hu x (by simp [hx])) (fun x hx => ht x (by simp [hx])) (fwdStep t h P θ (R, p)).1
      (fwdStep t h P θ (R, p)).2 hR1
    refine ⟨R', p', ?_, e2, fun v => ?_⟩
    · simp only [fwdLoop]; exact e1
    · rw [e3, fwdStep_act t (ht t (by simp)) h P hh]; rfl

theorem auxB_rot {robot : Robot ℝ} (h : robot.WF) : IsRot (auxB robot).R := by
  unfold auxB
  rcases hB : robot.Tbase with _ | B
  · exact IsRot.one
  · exact h.base B hB

theorem auxF_rot {robot : Robot ℝ} (h : robot.WF) : IsRot (auxF robot).R := by
  unfold auxF
  rcases hB : robot.Tflange with _ | B
  · exact IsRot.one
  · exact h.flange B hB

theorem auxX_rot {robot : Robot ℝ} (h : robot.WF) : IsRot (auxX robot).R := by
  unfold auxX
  rcases hR : robot.Rtool with _ | R
  · exact IsRot.one
  · rcases hp : robot.ptool with _ | p
    · exact IsRot.one
    · exact h.tool R hR

/-- C17: for any number of joints of any type, `fwdkin` returns the rigid transform that carries a point of the tool
frame through tool, flange, the chain of joints (last to first), the first column of `P` and the base. -/
theorem C17_fwdkin_chain (robot : Robot ℝ) (hw : robot.WF) (θ : List ℝ) (lθ : θ.length = robot.H.length)
    (P0 : V3 ℝ) (Ps : List (V3 ℝ)) (hP : robot.P = P0 :: Ps) :
    ∃ T, fwdkin robot θ true = .ok T ∧ T.IsRigid ∧
      ∀ v, T.act v = (auxB robot).act (P0 + Spec.chain robot.jointType robot.H Ps θ
        ((auxF robot).act ((auxX robot).act v))) := by
  have lP : Ps.length = robot.H.length := by have := hw.columns; rw [hP] at this; simpa using this
  obtain ⟨R', p', e1, e2, e3⟩ := fwdLoop_act robot.jointType robot.H Ps θ hw.joints.symm (by rw [lP, hw.joints])
    (by rw [lθ, hw.joints]) hw.unit hw.types 1 P0 IsRot.one
  refine ⟨applyAux robot ⟨R', p', none, none⟩, ?_, ?_, fun v => ?_⟩
  · simp only [fwdkin, checkLimits, if_true, hP, e1]; rfl
  · unfold Transform.IsRigid
    rw [applyAux_R]
    exact (auxB_rot hw).mul ((e2.mul (auxF_rot hw)).mul (auxX_rot hw))
  · have := e3 ((auxF robot).act ((auxX robot).act v))
    rw [M3.one_mulVec] at this
    rw [← this]
    simp only [Transform.act, applyAux_R, applyAux_p, M3.mulVec_add, M3.mulVec_mulVec, M3.mul_assoc', add_assoc]

/-- C17: a transform is determined by its action on points, so the theorem above fixes the result completely. -/
theorem C17_act_determines (A B : Transform ℝ) (h : ∀ v, A.act v = B.act v) : A.R = B.R ∧ A.p = B.p := by
  have h0 : A.p = B.p := by simpa [Transform.act] using h 0
  have key : ∀ v, A.R.mulVec v = B.R.mulVec v := by
    intro v
    have := h v
    simp only [Transform.act, h0, add_right_inj] at this
    exact this
  refine ⟨?_, h0⟩
  have h1 := key ⟨1, 0, 0⟩
  have h2 := key ⟨0, 1, 0⟩
  have h3 := key ⟨0, 0, 1⟩
  simp [V3.ext_iff] at h1 h2 h3
  ext <;> simp [h1, h2, h3]

/-- C17: with no joints, only the constant transforms remain. -/
theorem C17_fwdkin_fixed (P0 : V3 ℝ) : fwdkin (α := ℝ) { H := [], P := [P0], jointType := [] } [] =
    .ok ⟨1, P0, none, none⟩ := rfl

-- non-vacuity: a three-joint robot (rotary, prismatic, mobile heading) with tool and base
example : Robot.WF
    { H := [⟨0, 0, 1⟩, ⟨1, 0, 0⟩, ⟨0, 3/5, 4/5⟩]
      P := [⟨0, 0, 1⟩, ⟨1, 0, 0⟩, ⟨0, 1, 0⟩, ⟨1, 1, 1⟩]
      jointType := [0, 1, 2]
      Rtool := some ⟨0, -1, 0, 1, 0, 0, 0, 0, 1⟩
      ptool := some ⟨1, 2, 3⟩
      Tbase := some ⟨⟨0, 0, 1, 0, 1, 0, -1, 0, 0⟩, ⟨0, 5, 0⟩, none, none⟩ } := by
  constructor
  · rfl
  · rfl
  · simp
  · simp [IsUnit3]; norm_num
  · intro B hB; simp only [Option.some.injEq] at hB; subst hB; exact ⟨by ext <;> norm_num, by norm_num [M3.det]⟩
  · simp
  · intro B hB; simp only [Option.some.injEq] at hB; subst hB; exact ⟨by ext <;> norm_num, by norm_num [M3.det]⟩
  · simp

/-! ## C18 -/
section limits
variable {α : Type} [Add α] [Sub α] [Mul α] [Div α] [Neg α] [Zero α] [One α] [LT α] [LE α]
  [DecidableLT α] [DecidableLE α] [Elem α]

theorem fwdLoop_ok (ts : List Nat) (hs Ps : List (V3 α)) (θs : List α) (lh : hs.length = ts.length)
    (lP : Ps.length = ts.length) (lθ : θs.length = ts.length) (Rp : M3 α × V3 α) :
    ∃ Rp', fwdLoop ts hs Ps θs Rp = .ok Rp' := by
  induction ts generalizing hs Ps θs Rp with
  | nil => exact ⟨Rp, rfl⟩
  | cons t ts ih =>
    obtain _ | ⟨h, hs⟩ := hs
    · simp at lh
    obtain _ | ⟨P, Ps⟩ := Ps
    · simp at lP
    obtain _ | ⟨θ, θs⟩ := θs
    · simp at lθ
    exact ih hs Ps θs (by simpa using lh) (by simpa using lP) (by simpa using lθ) _

theorem jacLoop_ok (ts : List Nat) (hs Ps : List (V3 α)) (θs : List α) (lh : hs.length = ts.length)
    (lP : Ps.length = ts.length) (lθ : θs.length = ts.length) (Rp : M3 α × V3 α) :
    ∃ fs R p, jacLoop ts hs Ps θs Rp = .ok (fs, R, p) ∧ fs.map (·.ty) = ts := by
  induction ts generalizing hs Ps θs Rp with
  | nil => exact ⟨[], Rp.1, Rp.2, rfl, rfl⟩
  | cons t ts ih =>
    obtain _ | ⟨h, hs⟩ := hs
    · simp at lh
    obtain _ | ⟨P, Ps⟩ := Ps
    · simp at lP
    obtain _ | ⟨θ, θs⟩ := θs
    · simp at lθ
    obtain ⟨fs, R, p, e, e'⟩ := ih hs Ps θs (by simpa using lh) (by simpa using lP) (by simpa using lθ) (fwdStep t h P θ Rp)
    exact ⟨_, R, p, by simp only [jacLoop, e]; rfl, by simp [e']⟩

theorem jacCols_error (pOT : V3 α) (n : Nat) (fs : List (JointFrame α)) (hn : fs.length ≤ n) (e : PyErr)
    (h : jacCols pOT fs = .error e) : e = .index := by
  induction n generalizing fs with
  | zero =>
    rw [List.eq_nil_of_length_eq_zero (Nat.le_zero.1 hn)] at h
    simp [jacCols] at h
  | succ n ih =>
    obtain _ | ⟨f, fs⟩ := fs
    · simp [jacCols] at h
    have hrest : ∀ (g : List (V6 α) → List (V6 α)) (l : List (JointFrame α)), l.length ≤ n →
        (do let rest ← jacCols pOT l; return g rest : Except PyErr _) = .error e → e = .index := by
      intro g l hl h
      rcases hj : jacCols pOT l with e' | r
      · rw [hj] at h; simp [bind, Except.bind] at h; exact ih l hl (h ▸ hj)
      · rw [hj] at h; simp [bind, Except.bind, pure, Except.pure] at h
    have hl : fs.length ≤ n := by simpa using hn
    rw [jacCols.eq_def] at h
    simp only at h
    split_ifs at h with h0 h1 h3
    · exact hrest (fun rest => _ :: rest) fs hl h
    · exact hrest (fun rest => _ :: rest) fs hl h
    · rcases fs with _ | ⟨f1, _ | ⟨f2, fs⟩⟩
      · simp at h; exact h.symm
      · simp at h; exact h.symm
      · exact hrest (fun rest => _ :: _ :: rest) fs (by simp at hl; omega) h
    · exact hrest (fun rest => _ :: rest) fs hl h

theorem bcast_eq {β γ : Type} (a : List β) (b : List γ) (h : a.length = b.length) : bcast a b = .ok (a.zip b) := by
  unfold bcast; rw [if_pos h]

theorem checkLimits_iff (robot : Robot α) (θ l u : List α) (hl : robot.lower = some l) (hu : robot.upper = some u)
    (ll : l.length = θ.length) (lu : u.length = θ.length) :
    (checkLimits robot θ false = .ok () ∧ ∀ i (hi : i < θ.length), l[i] ≤ θ[i] ∧ θ[i] ≤ u[i]) ∨
    (checkLimits robot θ false = .error .assertion ∧ ∃ i, ∃ hi : i < θ.length, ¬ (l[i] ≤ θ[i]) ∨ ¬ (θ[i] ≤ u[i])) := by
  unfold checkLimits
  simp only [hl, hu, Bool.false_eq_true, if_false, bcast_eq θ l ll.symm, bcast_eq θ u lu.symm]
  by_cases h1 : ∀ i (hi : i < θ.length), l[i] ≤ θ[i]
  · have e1 : ((θ.zip l).all fun tl => decide (tl.2 ≤ tl.1)) = true := by
      simp only [List.all_eq_true, decide_eq_true_eq]
      intro ab hab
      obtain ⟨i, hi, e⟩ := List.mem_iff_getElem.1 hab
      rw [← e, List.getElem_zip]; exact h1 i (by simp at hi; omega)
    by_cases h2 : ∀ i (hi : i < θ.length), θ[i] ≤ u[i]
    · have e2 : ((θ.zip u).all fun tl => decide (tl.1 ≤ tl.2)) = true := by
        simp only [List.all_eq_true, decide_eq_true_eq]
        intro ab hab
        obtain ⟨i, hi, e⟩ := List.mem_iff_getElem.1 hab
        rw [← e, List.getElem_zip]; exact h2 i (by simp at hi; omega)
      left
      refine ⟨?_, fun i hi => ⟨h1 i hi, h2 i hi⟩⟩
      simp only [bind, Except.bind, e1, e2, pyAssert, if_true]
    · push Not at h2
      obtain ⟨i, hi, h2⟩ := h2
      have e2 : ((θ.zip u).all fun tl => decide (tl.1 ≤ tl.2)) = false := by
        rw [← Bool.not_eq_true, List.all_eq_true]
        intro hall
        have := hall (θ[i], u[i]) (List.mem_iff_getElem.2 ⟨i, by simp; omega, by simp⟩)
        exact h2 (by simpa using this)
      right
      refine ⟨?_, i, hi, .inr h2⟩
      simp [bind, Except.bind, e1, e2, pyAssert]
  · push Not at h1
    obtain ⟨i, hi, h1⟩ := h1
    have e1 : ((θ.zip l).all fun tl => decide (tl.2 ≤ tl.1)) = false := by
      rw [← Bool.not_eq_true, List.all_eq_true]
      intro hall
      have := hall (θ[i], l[i]) (List.mem_iff_getElem.2 ⟨i, by simp; omega, by simp⟩)
      exact h1 (by simpa using this)
    right
    refine ⟨?_, i, hi, .inl h1⟩
    simp [bind, Except.bind, e1, pyAssert]
end limits

/-- Sizes match (over any scalars). -/
structure Robot.Sized {α : Type} (robot : Robot α) : Prop where
  columns : robot.P.length = robot.H.length + 1
  joints : robot.jointType.length = robot.H.length

section
variable {α : Type} [Add α] [Sub α] [Mul α] [Div α] [Neg α] [Zero α] [One α] [LT α] [LE α]
  [DecidableLT α] [DecidableLE α] [Elem α]

theorem fwdkin_split (robot : Robot α) (θ : List α) (b : Bool) :
    fwdkin robot θ b = (checkLimits robot θ b >>= fun _ => fwdkin robot θ true) := by
  rcases h : checkLimits robot θ b with e | r
  · simp only [fwdkin, h]; rfl
  · have h2 : checkLimits robot θ true = .ok () := by simp [checkLimits]
    simp only [fwdkin, h, h2]; rfl

theorem robotjacobian_split (robot : Robot α) (θ : List α) (b : Bool) :
    robotjacobian robot θ b = (checkLimits robot θ b >>= fun _ => robotjacobian robot θ true) := by
  rcases h : checkLimits robot θ b with e | r
  · simp only [robotjacobian, h]; rfl
  · have h2 : checkLimits robot θ true = .ok () := by simp [checkLimits]
    simp only [robotjacobian, h, h2]; rfl

theorem Robot.Sized.P_cons {robot : Robot α} (hs : robot.Sized) :
    ∃ P0 Ps, robot.P = P0 :: Ps ∧ Ps.length = robot.H.length := by
  rcases hP : robot.P with _ | ⟨P0, Ps⟩
  · have := hs.columns; rw [hP] at this; simp at this
  · exact ⟨P0, Ps, rfl, by have := hs.columns; rw [hP] at this; simpa using this⟩

theorem fwdkin_ok {robot : Robot α} (hs : robot.Sized) {θ : List α} (lθ : θ.length = robot.H.length) :
    ∃ T, fwdkin robot θ true = .ok T := by
  obtain ⟨P0, Ps, hP, lP⟩ := hs.P_cons
  obtain ⟨Rp, e⟩ := fwdLoop_ok robot.jointType robot.H Ps θ hs.joints.symm (by rw [lP, hs.joints]) (by rw [lθ, hs.joints]) (1, P0)
  exact ⟨_, by simp only [fwdkin, checkLimits, if_true, hP, e]; rfl⟩

theorem robotjacobian_error {robot : Robot α} (hs : robot.Sized) {θ : List α} (lθ : θ.length = robot.H.length) (e : PyErr)
    (h : robotjacobian robot θ true = .error e) : e = .index := by
  obtain ⟨P0, Ps, hP, lP⟩ := hs.P_cons
  obtain ⟨fs, R, p, e1, e2⟩ := jacLoop_ok robot.jointType robot.H Ps θ hs.joints.symm (by rw [lP, hs.joints])
    (by rw [lθ, hs.joints]) (1, P0)
  simp only [robotjacobian, checkLimits, if_true, hP, e1, bind, Except.bind] at h
  split at h
  · rename_i e' he
    simp only [Except.error.injEq] at h
    exact h ▸ jacCols_error _ _ fs le_rfl _ he
  · split at h <;> simp [pure, Except.pure] at h

theorem jacCols_ok (pOT : V3 α) (fs : List (JointFrame α)) (h : ∀ f ∈ fs, f.ty = 0 ∨ f.ty = 1) :
    ∃ cols, jacCols pOT fs = .ok cols ∧ cols.length = fs.length := by
  induction fs with
  | nil => exact ⟨[], rfl, rfl⟩
  | cons f fs ih =>
    obtain ⟨cols, e1, e2⟩ := ih (fun g hg => h g (by simp [hg]))
    rcases h f (by simp) with h0 | h1
    · exact ⟨⟨f.h, (hat f.h).mulVec (pOT - f.pO)⟩ :: cols, by rw [jacCols.eq_def]; simp only [h0, if_true, e1]; rfl, by simp [e2]⟩
    · exact ⟨⟨0, f.h⟩ :: cols, by rw [jacCols.eq_def]; simp only [h1, one_ne_zero, if_true, if_false, e1]; rfl, by simp [e2]⟩

theorem robotjacobian_ok {robot : Robot α} (hs : robot.Sized) {θ : List α} (lθ : θ.length = robot.H.length)
    (ht : ∀ t ∈ robot.jointType, t = 0 ∨ t = 1) :
    ∃ J, robotjacobian robot θ true = .ok J ∧ J.length = robot.H.length := by
  obtain ⟨P0, Ps, hP, lP⟩ := hs.P_cons
  obtain ⟨fs, R, p, e1, e2⟩ := jacLoop_ok robot.jointType robot.H Ps θ hs.joints.symm (by rw [lP, hs.joints])
    (by rw [lθ, hs.joints]) (1, P0)
  have hty : ∀ f ∈ fs, f.ty = 0 ∨ f.ty = 1 := fun f hf => ht _ (by rw [← e2]; exact List.mem_map_of_mem hf)
  have hlen : fs.length = robot.H.length := by rw [← hs.joints, ← e2, List.length_map]
  simp only [robotjacobian, checkLimits, if_true, hP, e1, bind, Except.bind]
  split
  · rename_i e he
    obtain ⟨cols, c1, -⟩ := jacCols_ok _ fs hty
    rw [c1] at he; cases he
  · rename_i cols' he
    obtain ⟨cols, c1, c2⟩ := jacCols_ok _ fs hty
    rw [c1] at he
    obtain rfl : cols = cols' := by simpa using he
    rcases robot.Tbase with _ | B
    · exact ⟨cols, rfl, by rw [c2, hlen]⟩
    · exact ⟨_, rfl, by simp [c2, hlen]⟩
end

/-- C18: with both limits, `fwdkin` and `robotjacobian` raise AssertionError exactly when some joint value is not
between its limits, bounds included (NaN is not); otherwise they behave as if limits were ignored. -/
theorem C18_limits (robot : Robot XReal) (hs : robot.Sized) (θ l u : List XReal) (hl : robot.lower = some l)
    (hu : robot.upper = some u) (ll : l.length = robot.H.length) (lu : u.length = robot.H.length)
    (lθ : θ.length = robot.H.length) :
    ((∃ i, ∃ hi : i < θ.length, ¬ (l[i] ≤ θ[i]) ∨ ¬ (θ[i] ≤ u[i])) ↔ fwdkin robot θ = .error .assertion) ∧
    ((∃ i, ∃ hi : i < θ.length, ¬ (l[i] ≤ θ[i]) ∨ ¬ (θ[i] ≤ u[i])) ↔ robotjacobian robot θ = .error .assertion) ∧
    ((∀ i (hi : i < θ.length), l[i] ≤ θ[i] ∧ θ[i] ≤ u[i]) →
      fwdkin robot θ = fwdkin robot θ true ∧ robotjacobian robot θ = robotjacobian robot θ true) := by
  rw [fwdkin_split robot θ false, robotjacobian_split robot θ false]
  obtain ⟨T, hT⟩ := fwdkin_ok hs lθ
  rcases checkLimits_iff robot θ l u hl hu (ll.trans lθ.symm) (lu.trans lθ.symm) with ⟨e, h⟩ | ⟨e, i, hi, h⟩
  · have hno : ¬ ∃ i, ∃ hi : i < θ.length, ¬ (l[i] ≤ θ[i]) ∨ ¬ (θ[i] ≤ u[i]) := by
      rintro ⟨i, hi, h'⟩
      rcases h' with h' | h'
      · exact h' (h i hi).1
      · exact h' (h i hi).2
    rw [e]
    refine ⟨⟨fun h' => absurd h' hno, fun h' => ?_⟩, ⟨fun h' => absurd h' hno, fun h' => ?_⟩, fun _ => ⟨rfl, rfl⟩⟩
    · change fwdkin robot θ true = _ at h'
      rw [hT] at h'; cases h'
    · exact absurd (robotjacobian_error hs lθ _ h') (by decide)
  · have hyes : ∃ i, ∃ hi : i < θ.length, ¬ (l[i] ≤ θ[i]) ∨ ¬ (θ[i] ≤ u[i]) := ⟨i, hi, h⟩
    rw [e]
    refine ⟨⟨fun _ => rfl, fun _ => hyes⟩, ⟨fun _ => rfl, fun _ => hyes⟩, fun h' => ?_⟩
    exact absurd (h' i hi) (by tauto)

/-- The number of columns that the documentation promises for a list of joint types: one per joint, and two for a mobile base, which is
a joint of type 3 with the two joints after it.  `none`: a mobile base with joints missing. -/
def Spec.jacWidth : List Nat → Option Nat
  | [] => some 0
  | 3 :: _ :: _ :: ts => (Spec.jacWidth ts).map (· + 2)
  | 3 :: _ => none
  | _ :: ts => (Spec.jacWidth ts).map (· + 1)

section
variable {α : Type} [Add α] [Sub α] [Mul α] [Div α] [Neg α] [Zero α] [One α] [LT α] [LE α]
  [DecidableLT α] [DecidableLE α] [Elem α]

theorem jacCols_width (pOT : V3 α) (n : Nat) (fs : List (JointFrame α)) (hn : fs.length ≤ n) :
    (∀ w, Spec.jacWidth (fs.map (·.ty)) = some w → ∃ cols, jacCols pOT fs = .ok cols ∧ cols.length = w) ∧
    (Spec.jacWidth (fs.map (·.ty)) = none → jacCols pOT fs = .error .index) := by
  induction n generalizing fs with
  | zero =>
    obtain rfl : fs = [] := by simpa using hn
    exact ⟨fun w hw => ⟨[], by rw [jacCols.eq_def], by simpa [Spec.jacWidth] using hw⟩, fun h => by simp [Spec.jacWidth] at h⟩
  | succ n ih =>
    rcases fs with _ | ⟨f, fs⟩
    · exact ⟨fun w hw => ⟨[], by rw [jacCols.eq_def], by simpa [Spec.jacWidth] using hw⟩, fun h => by simp [Spec.jacWidth] at h⟩
    by_cases h3 : f.ty = 3
    · rcases fs with _ | ⟨a, _ | ⟨b, fs⟩⟩
      · refine ⟨fun w hw => ?_, fun _ => ?_⟩
        · simp [h3, Spec.jacWidth] at hw
        · rw [jacCols.eq_def]; simp [h3]
      · refine ⟨fun w hw => ?_, fun _ => ?_⟩
        · simp [h3, Spec.jacWidth] at hw
        · rw [jacCols.eq_def]; simp [h3]
      · obtain ⟨i1, i2⟩ := ih fs (by simp only [List.length_cons] at hn; omega)
        refine ⟨fun w hw => ?_, fun hw => ?_⟩
        · simp only [List.map_cons, h3, Spec.jacWidth, Option.map_eq_some_iff] at hw
          obtain ⟨w', e, rfl⟩ := hw
          obtain ⟨cols, c1, c2⟩ := i1 w' e
          exact ⟨_, by rw [jacCols.eq_def]; simp [h3, c1, bind, Except.bind, pure, Except.pure]; rfl, by simp [c2]⟩
        · simp only [List.map_cons, h3, Spec.jacWidth, Option.map_eq_none_iff] at hw
          rw [jacCols.eq_def]; simp [h3, i2 hw, bind, Except.bind]
    · obtain ⟨i1, i2⟩ := ih fs (by simp only [List.length_cons] at hn; omega)
      have hw1 : Spec.jacWidth ((f :: fs).map (·.ty)) = (Spec.jacWidth (fs.map (·.ty))).map (· + 1) := by
        rw [List.map_cons, Spec.jacWidth]
        · rintro a b ts h
          exact absurd h h3
        · exact h3
      rw [hw1]
      refine ⟨fun w hw => ?_, fun hw => ?_⟩
      · simp only [Option.map_eq_some_iff] at hw
        obtain ⟨w', e, rfl⟩ := hw
        obtain ⟨cols, c1, c2⟩ := i1 w' e
        rw [jacCols.eq_def]
        simp only [h3, c1, bind, Except.bind, pure, Except.pure, if_false]
        split_ifs
        · exact ⟨_, rfl, by simp [c2]⟩
        · exact ⟨_, rfl, by simp [c2]⟩
        · exact ⟨_, rfl, by simp [c2]⟩
      · simp only [Option.map_eq_none_iff] at hw
        rw [jacCols.eq_def]
        simp [h3, i2 hw, bind, Except.bind]

theorem robotjacobian_width {robot : Robot α} (hs : robot.Sized) {θ : List α} (lθ : θ.length = robot.H.length) :
    (∀ w, Spec.jacWidth robot.jointType = some w → ∃ J, robotjacobian robot θ true = .ok J ∧ J.length = w) ∧
    (Spec.jacWidth robot.jointType = none → robotjacobian robot θ true = .error .index) := by
  obtain ⟨P0, Ps, hP, lP⟩ := hs.P_cons
  obtain ⟨fs, R, p, e1, e2⟩ := jacLoop_ok robot.jointType robot.H Ps θ hs.joints.symm (by rw [lP, hs.joints])
    (by rw [lθ, hs.joints]) (1, P0)
  rw [← e2]
  refine ⟨fun w hw => ?_, fun hw => ?_⟩
  · simp only [robotjacobian, checkLimits, if_true, hP, e1, bind, Except.bind]
    split
    · rename_i e he
      obtain ⟨cols, c1, -⟩ := (jacCols_width _ _ fs le_rfl).1 w hw
      rw [c1] at he; cases he
    · rename_i cols' he
      obtain ⟨cols, c1, c2⟩ := (jacCols_width _ _ fs le_rfl).1 w hw
      rw [c1] at he
      obtain rfl : cols = cols' := by simpa using he
      rcases robot.Tbase with _ | B
      · exact ⟨cols, rfl, c2⟩
      · exact ⟨_, rfl, by simp [c2]⟩
  · simp only [robotjacobian, checkLimits, if_true, hP, e1, bind, Except.bind]
    split
    · rename_i e he
      rw [(jacCols_width _ _ fs le_rfl).2 hw] at he
      cases he; rfl
    · rename_i cols' he
      rw [(jacCols_width _ _ fs le_rfl).2 hw] at he
      cases he
end

/-- C18: without limits, or ignoring them, `fwdkin` raises nothing for a joint vector of the right length, and `robotjacobian` raises
nothing and has the right number of columns unless a mobile base lacks one of its three joints: then it raises IndexError. -/
theorem C18_no_limits (robot : Robot XReal) (hs : robot.Sized) (θ : List XReal) (lθ : θ.length = robot.H.length)
    (ignore : Bool) (h : ignore = true ∨ robot.lower = none ∨ robot.upper = none) :
    (∃ T, fwdkin robot θ ignore = .ok T) ∧
    ((∀ t ∈ robot.jointType, t = 0 ∨ t = 1) → ∃ J, robotjacobian robot θ ignore = .ok J ∧ J.length = robot.H.length) ∧
    (∀ w, Spec.jacWidth robot.jointType = some w → ∃ J, robotjacobian robot θ ignore = .ok J ∧ J.length = w) ∧
    (Spec.jacWidth robot.jointType = none → robotjacobian robot θ ignore = .error .index) := by
  have hc : checkLimits robot θ ignore = .ok () := by
    unfold checkLimits
    rcases h with h | h | h
    · simp [h]
    · split_ifs
      · rfl
      · rw [h]
    · split_ifs
      · rfl
      · rw [h]; rcases robot.lower with _ | _ <;> rfl
  rw [fwdkin_split, robotjacobian_split, hc]
  exact ⟨fwdkin_ok hs lθ, fun ht => robotjacobian_ok hs lθ ht, (robotjacobian_width hs lθ).1, (robotjacobian_width hs lθ).2⟩

/-- The constructor accepts a chain that ends within a mobile base, `fwdkin` moves it, and `robotjacobian` raises IndexError for every joint
vector. -/
theorem C18_cut_base_raises : ∃ robot : Robot ℝ,
    Robot.init [V3.ex, V3.ey] [0, 0, 0] [3, 3] none none none none none none none none none none none none = .ok robot ∧
    ∀ θ : List ℝ, θ.length = 2 → (∃ T, fwdkin robot θ = .ok T) ∧ robotjacobian robot θ = .error .index := by
  refine ⟨{ H := [V3.ex, V3.ey], P := [0, 0, 0], jointType := [3, 3] }, ?_, fun θ hθ => ?_⟩
  · have h1 : iscloseD (V3.ex : V3 ℝ).norm 1 := by simp [V3.norm, V3.ex, iscloseD, isclose]
    have h2 : iscloseD (V3.ey : V3 ℝ).norm 1 := by simp [V3.norm, V3.ey, iscloseD, isclose]
    simp [Robot.init, h1, h2, pyAssert, lenOk, bind, Except.bind, pure, Except.pure]
  · have hs : Robot.Sized ({ H := [V3.ex, V3.ey], P := [0, 0, 0], jointType := [3, 3] } : Robot ℝ) := ⟨rfl, rfl⟩
    rw [fwdkin_split, robotjacobian_split]
    exact ⟨fwdkin_ok hs hθ, (robotjacobian_width hs hθ).2 rfl⟩

-- non-vacuity: widths of a mobile base with a three-joint arm, and of two bases
example : Spec.jacWidth [3, 3, 2, 0, 0, 1] = some 5 := rfl
example : Spec.jacWidth [3, 3, 2, 0, 3, 3, 2] = some 5 := rfl
example : Spec.jacWidth [0, 1, 3, 3] = none := rfl

-- non-vacuity: a one-joint robot with limits [0, 1], where 1 is accepted and 2 is not
example : ∃ robot : Robot XReal, robot.Sized ∧ robot.lower = some [.fin 0] ∧ robot.upper = some [.fin 1] ∧
    (∃ T, fwdkin robot [.fin 1] = .ok T) ∧ fwdkin robot [.fin 2] = .error .assertion := by
  refine ⟨{ H := [V3.ez], P := [V3.ex, V3.ex], jointType := [0], lower := some [.fin 0], upper := some [.fin 1] },
    ⟨rfl, rfl⟩, rfl, rfl, ?_, ?_⟩
  · obtain ⟨T, hT⟩ := fwdkin_ok (robot := ({ H := [V3.ez], P := [V3.ex, V3.ex], jointType := [0], lower := some [.fin 0], upper := some [.fin 1] } : Robot XReal)) ⟨rfl, rfl⟩
      (θ := [.fin 1]) rfl
    refine ⟨T, ?_⟩
    rw [(C18_limits _ ⟨rfl, rfl⟩ [.fin 1] [.fin 0] [.fin 1] rfl rfl rfl rfl rfl).2.2 ?_ |>.1, hT]
    intro i hi
    obtain rfl : i = 0 := by simpa using hi
    simp
  · refine (C18_limits _ ⟨rfl, rfl⟩ [.fin 2] [.fin 0] [.fin 1] rfl rfl rfl rfl rfl).1.1 ⟨0, by simp, ?_⟩
    simp
