import Verif.Props.Mount

/-!
# Property C118: a robot walked from its tool to its base

`Spec.turnRound r` is the description of the same mechanism when it is held at the tool and its base is what moves (a climbing robot that has
changed its foothold): joints in the opposite order, axes and offsets reversed, base and tool exchanged.
-/
set_option autoImplicit false

/-- the inverse of a rigid transform, written out -/
def Spec.undo (T : Transform ℝ) : Transform ℝ := ⟨T.R.transpose, -(T.R.transpose.mulVec T.p), none, none⟩

/-- the robot held at its tool -/
noncomputable def Spec.turnRound (r : Robot ℝ) : Robot ℝ :=
  { H := r.H.reverse.map fun h => -h
    P := r.P.reverse.map fun p => -p
    jointType := r.jointType.reverse
    lower := r.lower.map List.reverse
    upper := r.upper.map List.reverse
    Tbase := some (Spec.undo (auxF r * auxX r))
    Tflange := some (Spec.undo (auxB r)) }

/-! ## Helper lemmas -/

namespace TurnRoundL

theorem move_back (t : Nat) {h : V3 ℝ} (hh : IsUnit3 h) (θ : ℝ) (v : V3 ℝ) : Spec.jointMove t (-h) θ (Spec.jointMove t h θ v) = v := by
  have u := hh
  unfold IsUnit3 at u
  have cs := Real.cos_sq_add_sin_sq θ
  unfold Spec.jointMove
  split_ifs
  · ext <;> simp [V3.dot] <;> grind
  · ext <;> simp

theorem chain_snoc (ts : List Nat) (hs Ps : List (V3 ℝ)) (θs : List ℝ) (lh : hs.length = ts.length) (lP : Ps.length = ts.length)
    (lθ : θs.length = ts.length) (t : Nat) (h P : V3 ℝ) (θ : ℝ) (v : V3 ℝ) :
    Spec.chain (ts ++ [t]) (hs ++ [h]) (Ps ++ [P]) (θs ++ [θ]) v = Spec.chain ts hs Ps θs (Spec.jointMove t h θ (P + v)) := by
  induction ts generalizing hs Ps θs with
  | nil =>
    obtain rfl := List.length_eq_zero_iff.1 lh
    obtain rfl := List.length_eq_zero_iff.1 lP
    obtain rfl := List.length_eq_zero_iff.1 lθ
    simp [Spec.chain]
  | cons t' ts ih =>
    obtain _ | ⟨h', hs⟩ := hs
    · simp at lh
    obtain _ | ⟨P', Ps⟩ := Ps
    · simp at lP
    obtain _ | ⟨θ', θs⟩ := θs
    · simp at lθ
    simp only [List.cons_append, Spec.chain]
    rw [ih hs Ps θs (by simpa using lh) (by simpa using lP) (by simpa using lθ)]

theorem chain_back (ts : List Nat) (hs Ps : List (V3 ℝ)) (θs : List ℝ) (lh : hs.length = ts.length) (lP : Ps.length = ts.length)
    (lθ : θs.length = ts.length) (hu : ∀ h ∈ hs, IsUnit3 h) (P0 : V3 ℝ) :
    ∃ Q0 Qs, ((P0 :: Ps).reverse.map fun p => -p) = Q0 :: Qs ∧ Qs.length = ts.length ∧ ∀ v,
      Q0 + Spec.chain ts.reverse (hs.reverse.map fun h => -h) Qs θs.reverse (P0 + Spec.chain ts hs Ps θs v) = v := by
  induction ts generalizing hs Ps θs P0 with
  | nil =>
    obtain rfl := List.length_eq_zero_iff.1 lh
    obtain rfl := List.length_eq_zero_iff.1 lP
    obtain rfl := List.length_eq_zero_iff.1 lθ
    exact ⟨-P0, [], rfl, rfl, fun v => by simp [Spec.chain]⟩
  | cons t ts ih =>
    obtain _ | ⟨h, hs⟩ := hs
    · simp at lh
    obtain _ | ⟨P, Ps⟩ := Ps
    · simp at lP
    obtain _ | ⟨θ, θs⟩ := θs
    · simp at lθ
    obtain ⟨Q0, Qs, e1, e2, e3⟩ := ih hs Ps θs (by simpa using lh) (by simpa using lP) (by simpa using lθ) (fun x hx => hu x (by simp [hx])) P
    refine ⟨Q0, Qs ++ [-P0], ?_, by simp [e2], fun v => ?_⟩
    · rw [List.reverse_cons, List.map_append, e1]; rfl
    · simp only [List.reverse_cons, List.map_append, List.map_cons, List.map_nil]
      rw [chain_snoc _ _ _ _ (by simpa using lh) (by simpa using e2) (by simpa using lθ), neg_add_cancel_left, Spec.chain,
        move_back t (hu h (by simp)), e3]

theorem undo_act {T : Transform ℝ} (hT : IsRot T.R) (v : V3 ℝ) : (Spec.undo T).act (T.act v) = v := by
  simp only [Spec.undo, Transform.act, M3.mulVec_add, hT.transpose_mulVec_mulVec]
  rw [neg_add_cancel_left]

theorem act_undo {T : Transform ℝ} (hT : IsRot T.R) (v : V3 ℝ) : T.act ((Spec.undo T).act v) = v := by
  simp only [Spec.undo, Transform.act, M3.mulVec_add, M3.mulVec_mulVec, hT.orth']
  have hn : ∀ x : V3 ℝ, T.R.mulVec (-x) = -(T.R.mulVec x) := by intro x; ext <;> simp <;> ring
  rw [hn, M3.mulVec_mulVec, hT.orth', M3.one_mulVec, M3.one_mulVec]
  ext <;> simp

theorem mul_act' (A B : Transform ℝ) (v : V3 ℝ) : (A * B).act v = A.act (B.act v) := by
  simp only [Transform.act, Transform.mul_R, Transform.mul_p, M3.mulVec_add, M3.mulVec_mulVec, add_assoc]

theorem wf {r : Robot ℝ} (hw : r.WF) : (Spec.turnRound r).WF := by
  refine ⟨?_, ?_, ?_, ?_, ?_, ?_, ?_, ?_⟩
  · simpa [Spec.turnRound] using hw.columns
  · simpa [Spec.turnRound] using hw.joints
  · simpa [Spec.turnRound] using hw.types
  · intro h hh
    simp only [Spec.turnRound, List.mem_map, List.mem_reverse] at hh
    obtain ⟨k, hk, rfl⟩ := hh
    have := hw.unit k hk
    unfold IsUnit3 at *
    simpa using this
  · rintro B hB
    cases hB
    exact ((auxF_rot hw).mul (auxX_rot hw)).transpose
  · rintro F hF
    cases hF
    exact (auxB_rot hw).transpose
  · rintro R hR; cases hR
  · simp [Spec.turnRound]

theorem zip_reverse' {a b : List ℝ} (h : a.length = b.length) : a.reverse.zip b.reverse = (a.zip b).reverse := by
  simp only [List.zip]
  exact (List.reverse_zipWith h).symm

theorem limits {r : Robot ℝ} {θ : List ℝ} (lθ : θ.length = r.H.length) (ig : Bool) (hl : ig = false → Spec.Limited r) :
    checkLimits (Spec.turnRound r) θ.reverse ig = .ok () ↔ checkLimits r θ ig = .ok () := by
  cases ig
  · obtain ⟨l, u, h1, h2, h3, h4⟩ := hl rfl
    rw [MountL.check_iff (r := Spec.turnRound r) (l := l.reverse) (u := u.reverse) (by simp [Spec.turnRound, h1]) (by simp [Spec.turnRound, h2])
      (by simp; omega) (by simp; omega), MountL.check_iff h1 h2 (by omega) (by omega), zip_reverse' (by omega), zip_reverse' (by omega)]
    simp
  · simp [checkLimits]

end TurnRoundL

open TurnRoundL in
/-- C118: the pose of the base seen from the tool, as the turned robot computes it at the joint values in the opposite order, is the inverse of the
pose of the tool seen from the base; and the turned robot accepts exactly the joint values that the robot accepts. -/
theorem C118_fwdkin (r : Robot ℝ) (hw : r.WF) (θ : List ℝ) (lθ : θ.length = r.H.length) (ig : Bool) (hl : ig = false → Spec.Limited r) :
    ((∃ T, fwdkin r θ ig = .ok T) ↔ ∃ T', fwdkin (Spec.turnRound r) θ.reverse ig = .ok T') ∧
    ∀ T T', fwdkin r θ ig = .ok T → fwdkin (Spec.turnRound r) θ.reverse ig = .ok T' →
      T'.R = (Spec.undo T).R ∧ T'.p = (Spec.undo T).p ∧ ∀ v, T'.act (T.act v) = v ∧ T.act (T'.act v) = v := by
  rcases hP : r.P with _ | ⟨P0, Ps⟩
  · have := hw.columns; simp [hP] at this
  have lP : Ps.length = r.H.length := by have := hw.columns; rw [hP] at this; simpa using this
  obtain ⟨Q0, Qs, q1, q2, q3⟩ := chain_back r.jointType r.H Ps θ hw.joints.symm (by rw [lP, hw.joints]) (by rw [lθ, hw.joints]) hw.unit P0
  have hQ : (Spec.turnRound r).P = Q0 :: Qs := by rw [← q1, ← hP]; rfl
  obtain ⟨S, hS, rS, aS⟩ := C17_fwdkin_chain r hw θ lθ P0 Ps hP
  obtain ⟨S', hS', rS', aS'⟩ := C17_fwdkin_chain (Spec.turnRound r) (wf hw) θ.reverse (by simp [Spec.turnRound, lθ]) Q0 Qs hQ
  have back : ∀ v, S'.act (S.act v) = v := by
    intro v
    rw [aS', aS]
    have e1 : auxX (Spec.turnRound r) = identityTransform := rfl
    have e2 : auxF (Spec.turnRound r) = Spec.undo (auxB r) := rfl
    have e3 : auxB (Spec.turnRound r) = Spec.undo (auxF r * auxX r) := rfl
    have e4 : ∀ x, (identityTransform : Transform ℝ).act x = x := by
      intro x; simp [Transform.act, identityTransform]
    rw [e1, e2, e3, e4, undo_act (auxB_rot hw)]
    have := q3 ((auxF r).act ((auxX r).act v))
    simp only [Spec.turnRound]
    rw [this, ← mul_act' (auxF r), undo_act]
    exact (auxF_rot hw).mul (auxX_rot hw)
  have forth : ∀ v, S.act (S'.act v) = v := by
    intro v
    have := back ((Spec.undo S).act v)
    rw [act_undo rS] at this
    rw [this, act_undo rS]
  have un : ∀ v, S'.act v = (Spec.undo S).act v := by
    intro v
    have := back ((Spec.undo S).act v)
    rwa [act_undo rS] at this
  have ok : ∀ (q : Robot ℝ) (φ : List ℝ) (U : Transform ℝ), fwdkin q φ true = .ok U →
      ((∃ T, fwdkin q φ ig = .ok T) ↔ checkLimits q φ ig = .ok ()) ∧ ∀ T, fwdkin q φ ig = .ok T → T = U := by
    intro q φ U hU
    unfold fwdkin at *
    simp only [checkLimits, if_true] at hU
    rcases hc : checkLimits q φ ig with e | ⟨⟩
    · simp [bind, Except.bind]
    · have hb : ∀ {β : Type} (f : Unit → Except PyErr β), ((Except.ok () : Except PyErr Unit) >>= f) = f () := fun _ => rfl
      rw [hb] at hU ⊢
      refine ⟨⟨fun _ => rfl, fun _ => ⟨U, hU⟩⟩, fun T hT => ?_⟩
      rw [hU] at hT
      exact (Except.ok.inj hT).symm
  obtain ⟨o1, o2⟩ := ok _ _ _ hS
  obtain ⟨o3, o4⟩ := ok _ _ _ hS'
  refine ⟨o1.trans ((limits lθ ig hl).symm.trans o3.symm), fun T T' hT hT' => ?_⟩
  obtain rfl := o2 T hT
  obtain rfl := o4 T' hT'
  obtain ⟨c1, c2⟩ := C17_act_determines T' (Spec.undo T) un
  exact ⟨c1, c2, fun v => ⟨back v, forth v⟩⟩

/-! ## The Jacobian -/

namespace TurnRoundL

/-- the part of a joint frame that a column depends on -/
noncomputable def sig (f : JointFrame ℝ) : Nat × V3 ℝ × V3 ℝ := (f.ty, f.h, if f.ty = 0 then f.pO else 0)

/-- the column -/
noncomputable def col (q : V3 ℝ) (s : Nat × V3 ℝ × V3 ℝ) : V6 ℝ :=
  if s.1 = 0 then ⟨s.2.1, s.2.1.cross (q - s.2.2)⟩ else if s.1 = 1 then ⟨0, s.2.1⟩ else ⟨0, 0⟩

theorem cols_eq (q : V3 ℝ) (fs : List (JointFrame ℝ)) (ht : ∀ f ∈ fs, f.ty ≠ 3) : jacCols q fs = .ok (fs.map fun f => col q (sig f)) := by
  have hx : ∀ a b : V3 ℝ, (hat a).mulVec b = a.cross b := by intro a b; ext <;> simp <;> ring
  induction fs with
  | nil => rfl
  | cons f fs ih =>
    rw [jacCols.eq_def]
    simp only [ih fun g hg => ht g (by simp [hg]), ht f (by simp), if_false, hx, bind, Except.bind, pure, Except.pure, List.map_cons]
    by_cases h0 : f.ty = 0
    · simp [col, sig, h0]
    · by_cases h1 : f.ty = 1
      · simp [col, sig, h1]
      · simp [col, sig, h0, h1]

theorem jacLoop_snoc (ts : List Nat) (hs Ps : List (V3 ℝ)) (θs : List ℝ) (lh : hs.length = ts.length) (lP : Ps.length = ts.length)
    (lθ : θs.length = ts.length) (t : Nat) (h P : V3 ℝ) (θ : ℝ) (Rp : M3 ℝ × V3 ℝ) {fs : List (JointFrame ℝ)} {R : M3 ℝ} {p : V3 ℝ}
    (e : jacLoop ts hs Ps θs Rp = .ok (fs, R, p)) :
    jacLoop (ts ++ [t]) (hs ++ [h]) (Ps ++ [P]) (θs ++ [θ]) Rp =
      .ok (fs ++ [⟨t, p, (fwdStep t h P θ (R, p)).1.mulVec h, θ⟩], (fwdStep t h P θ (R, p)).1, (fwdStep t h P θ (R, p)).2) := by
  induction ts generalizing hs Ps θs Rp fs with
  | nil =>
    obtain rfl := List.length_eq_zero_iff.1 lh
    obtain rfl := List.length_eq_zero_iff.1 lP
    obtain rfl := List.length_eq_zero_iff.1 lθ
    simp only [jacLoop, Except.ok.injEq, Prod.mk.injEq] at e
    obtain ⟨rfl, rfl, rfl⟩ := e
    simp only [List.nil_append, jacLoop]
    rfl
  | cons t' ts ih =>
    obtain _ | ⟨h', hs⟩ := hs
    · simp at lh
    obtain _ | ⟨P', Ps⟩ := Ps
    · simp at lP
    obtain _ | ⟨θ', θs⟩ := θs
    · simp at lθ
    simp only [jacLoop] at e
    obtain ⟨⟨fs1, R1, p1⟩, e1, e2⟩ := Except.bind_eq_ok e
    simp only [pure, Except.pure, Except.ok.injEq, Prod.mk.injEq] at e2
    obtain ⟨rfl, rfl, rfl⟩ := e2
    simp only [List.cons_append, jacLoop]
    rw [ih hs Ps θs (by simpa using lh) (by simpa using lP) (by simpa using lθ) _ e1]
    rfl

theorem fwd_of_jac (ts : List Nat) (hs Ps : List (V3 ℝ)) (θs : List ℝ) (Rp : M3 ℝ × V3 ℝ) {fs : List (JointFrame ℝ)} {R : M3 ℝ} {p : V3 ℝ}
    (e : jacLoop ts hs Ps θs Rp = .ok (fs, R, p)) : fwdLoop ts hs Ps θs Rp = .ok (R, p) := by
  induction ts generalizing hs Ps θs Rp fs with
  | nil =>
    simp only [jacLoop, Except.ok.injEq, Prod.mk.injEq] at e
    obtain ⟨-, rfl, rfl⟩ := e
    rfl
  | cons t ts ih =>
    obtain _ | ⟨h, hs⟩ := hs
    · simp [jacLoop] at e
    obtain _ | ⟨P, Ps⟩ := Ps
    · simp [jacLoop] at e
    obtain _ | ⟨θ, θs⟩ := θs
    · simp [jacLoop] at e
    simp only [jacLoop] at e
    obtain ⟨⟨fs1, R1, p1⟩, e1, e2⟩ := Except.bind_eq_ok e
    simp only [pure, Except.pure, Except.ok.injEq, Prod.mk.injEq] at e2
    obtain ⟨-, rfl, rfl⟩ := e2
    exact ih _ _ _ _ e1

theorem rot_neg_mul {h : V3 ℝ} (hh : IsUnit3 h) (R : M3 ℝ) (θ : ℝ) : R * rot h θ * rot (-h) θ = R := by
  have hn : IsUnit3 (-h) := by unfold IsUnit3 at *; simpa using hh
  have : rot h θ * rot (-h) θ = 1 := by
    refine (C17_act_determines ⟨rot h θ * rot (-h) θ, 0, none, none⟩ ⟨1, 0, none, none⟩ fun v => ?_).1
    have := move_back 0 hn θ v
    simp only [Spec.jointMove, true_or, if_true, neg_neg] at this
    simp only [Transform.act, ← M3.mulVec_mulVec, M3.one_mulVec, rot_mulVec _ hh, rot_mulVec _ hn, this]
  rw [M3.mul_assoc', this, M3.mul_one']

/-- The turned chain, seen through the rigid map `x ↦ g + G x`, goes through the same joint frames in the opposite order. -/
theorem loop_back (ts : List Nat) (hs Ps : List (V3 ℝ)) (θs : List ℝ) (lh : hs.length = ts.length) (lP : Ps.length = ts.length)
    (lθ : θs.length = ts.length) (hu : ∀ h ∈ hs, IsUnit3 h) (ht : ∀ t ∈ ts, t < 4) (P0 : V3 ℝ) (G : M3 ℝ) (g : V3 ℝ) (R : M3 ℝ) (p : V3 ℝ) :
    ∃ Q0 Qs fs Rn pn fs', ((P0 :: Ps).reverse.map fun p => -p) = Q0 :: Qs ∧ Qs.length = ts.length ∧
      jacLoop ts hs Ps θs (R, p) = .ok (fs, Rn, pn) ∧ fs.map (·.ty) = ts ∧
      jacLoop ts.reverse (hs.reverse.map fun h => -h) Qs θs.reverse (G * Rn, g + G.mulVec pn + (G * Rn).mulVec Q0) =
        .ok (fs', G * R, g + G.mulVec p + (G * R).mulVec (-P0)) ∧
      fs'.map (·.ty) = ts.reverse ∧
      fs'.map sig = (fs.map fun f => (f.ty, -(G.mulVec f.h), if f.ty = 0 then g + G.mulVec f.pO else 0)).reverse := by
  induction ts generalizing hs Ps θs P0 R p with
  | nil =>
    obtain rfl := List.length_eq_zero_iff.1 lh
    obtain rfl := List.length_eq_zero_iff.1 lP
    obtain rfl := List.length_eq_zero_iff.1 lθ
    exact ⟨-P0, [], [], R, p, [], rfl, rfl, rfl, rfl, rfl, rfl, rfl⟩
  | cons t ts ih =>
    obtain _ | ⟨h, hs⟩ := hs
    · simp at lh
    obtain _ | ⟨P, Ps⟩ := Ps
    · simp at lP
    obtain _ | ⟨θ, θs⟩ := θs
    · simp at lθ
    have hh := hu h (by simp)
    obtain ⟨Q0, Qs, fs, Rn, pn, fs', e1, e2, e3, e4, e5, e6, e7⟩ := ih hs Ps θs (by simpa using lh) (by simpa using lP) (by simpa using lθ)
      (fun x hx => hu x (by simp [hx])) (fun x hx => ht x (by simp [hx])) P (fwdStep t h P θ (R, p)).1 (fwdStep t h P θ (R, p)).2
    have key : fwdStep t (-h) (-P0) θ (G * (fwdStep t h P θ (R, p)).1,
        g + G.mulVec (fwdStep t h P θ (R, p)).2 + (G * (fwdStep t h P θ (R, p)).1).mulVec (-P)) =
          (G * R, g + G.mulVec p + (G * R).mulVec (-P0)) ∧ (G * R).mulVec (-h) = -(G.mulVec ((fwdStep t h P θ (R, p)).1.mulVec h)) ∧
        (t = 0 → g + G.mulVec (fwdStep t h P θ (R, p)).2 + (G * (fwdStep t h P θ (R, p)).1).mulVec (-P) = g + G.mulVec p) := by
      have hn : ∀ (M : M3 ℝ) (x : V3 ℝ), M.mulVec (-x) = -(M.mulVec x) := by intro M x; ext <;> simp <;> ring
      by_cases hr : IsRotary t
      · have a : g + G.mulVec (p + (R * rot h θ).mulVec P) + (G * (R * rot h θ)).mulVec (-P) = g + G.mulVec p := by
          rw [hn, M3.mulVec_add, M3.mulVec_mulVec]
          generalize (G * (R * rot h θ)).mulVec P = w
          rw [← add_assoc, add_neg_cancel_right]
        rw [fwdStep_rotary hr, fwdStep_rotary hr]
        dsimp only
        rw [a]
        refine ⟨?_, ?_, fun _ => rfl⟩
        · rw [← M3.mul_assoc' G R, rot_neg_mul hh]
        · rw [hn, ← M3.mulVec_mulVec, ← M3.mulVec_mulVec, rot_axis]
      · have hp : IsPrismatic t := by have := ht t (by simp); unfold IsRotary at hr; unfold IsPrismatic; omega
        rw [fwdStep_prismatic hp, fwdStep_prismatic hp]
        dsimp only
        refine ⟨?_, ?_, fun h0 => absurd (.inl h0) hr⟩
        · simp only [Prod.mk.injEq, true_and]
          ext <;> simp <;> ring
        · rw [hn, ← M3.mulVec_mulVec]
    obtain ⟨k1, k2, k3⟩ := key
    refine ⟨Q0, Qs ++ [-P0], ⟨t, p, (fwdStep t h P θ (R, p)).1.mulVec h, θ⟩ :: fs, Rn, pn, fs' ++ [⟨t,
        g + G.mulVec (fwdStep t h P θ (R, p)).2 + (G * (fwdStep t h P θ (R, p)).1).mulVec (-P), (G * R).mulVec (-h), θ⟩],
        ?_, by simp [e2], ?_, by simp [e4], ?_, by simp [e6], ?_⟩
    · rw [List.reverse_cons, List.map_append, e1]; rfl
    · simp only [jacLoop]; rw [e3]; rfl
    · simp only [List.reverse_cons, List.map_append, List.map_cons, List.map_nil]
      rw [jacLoop_snoc _ _ _ _ (by simpa using lh) (by simpa using e2) (by simpa using lθ) _ _ _ _ _ e5, k1]
    · rw [List.map_append, e7, List.map_cons, List.map_cons, List.reverse_cons]
      congr 1
      simp only [List.map_cons, List.map_nil, sig, k2]
      by_cases h0 : t = 0
      · simp only [h0, if_true] at k3 ⊢
        rw [k3 trivial]
      · simp [h0]

end TurnRoundL

open TurnRoundL in
/-- C118: without mobile joints, the Jacobian of the turned robot is that of the robot with its columns in the opposite order, each giving the motion
of the base seen from the tool: with `T` the pose of the tool, a column `(ω, v)` becomes `(-Rᵀ ω, Rᵀ (ω × p - v))`. -/
theorem C118_jacobian (r : Robot ℝ) (hw : r.WF) (h3 : ∀ t ∈ r.jointType, t ≠ 3) (θ : List ℝ) (lθ : θ.length = r.H.length) :
    ∃ T J, fwdkin r θ true = .ok T ∧ robotjacobian r θ true = .ok J ∧
      robotjacobian (Spec.turnRound r) θ.reverse true =
        .ok (J.map fun c => ⟨-(T.R.transpose.mulVec c.top), T.R.transpose.mulVec (c.top.cross T.p - c.bot)⟩).reverse := by
  rcases hP : r.P with _ | ⟨P0, Ps⟩
  · have := hw.columns; simp [hP] at this
  have lP : Ps.length = r.H.length := by have := hw.columns; rw [hP] at this; simpa using this
  obtain ⟨Rn, pn, f1, hRn, -⟩ := fwdLoop_act r.jointType r.H Ps θ hw.joints.symm (by rw [lP, hw.joints])
    (by rw [lθ, hw.joints]) hw.unit hw.types 1 P0 IsRot.one
  obtain ⟨Q0, Qs, fs, Rn', pn', fs', e1, e2, e3, e4, e5, e6, e7⟩ := loop_back r.jointType r.H Ps θ hw.joints.symm (by rw [lP, hw.joints])
    (by rw [lθ, hw.joints]) hw.unit hw.types P0 Rn.transpose (-(Rn.transpose.mulVec pn)) 1 P0
  obtain ⟨rfl, rfl⟩ : Rn = Rn' ∧ pn = pn' := by
    have := fwd_of_jac _ _ _ _ _ e3
    rw [f1] at this
    simpa using this
  have hQ : (Spec.turnRound r).P = Q0 :: Qs := by rw [← e1, ← hP]; rfl
  have hfs : ∀ f ∈ fs, f.ty ≠ 3 := fun f hf => h3 f.ty (by rw [← e4]; exact List.mem_map_of_mem hf)
  have hfs' : ∀ f ∈ fs', f.ty ≠ 3 := fun f hf => h3 f.ty (by rw [← List.mem_reverse, ← e6]; exact List.mem_map_of_mem hf)
  have hst : (Rn.transpose * Rn, -(Rn.transpose.mulVec pn) + Rn.transpose.mulVec pn + (Rn.transpose * Rn).mulVec Q0) = ((1 : M3 ℝ), Q0) := by
    rw [hRn.orth, M3.one_mulVec, neg_add_cancel, zero_add]
  rw [hst] at e5
  refine ⟨_, _, (MountL.kin_ok hP f1 _).2 ⟨rfl, rfl⟩, MountL.jac_eq hw.toolBoth hP e3 (cols_eq _ _ hfs), ?_⟩
  rw [MountL.jac_eq (r := Spec.turnRound r) (by simp [Spec.turnRound]) hQ e5 (cols_eq _ _ hfs')]
  have hc : ∀ q, (fs'.map fun f => col q (sig f)) = (fs'.map sig).map (col q) := by intro q; simp
  rw [hc, e7]
  simp only [List.map_reverse, List.map_map]
  congr 2
  refine List.map_congr_left fun f hf => ?_
  have hB := auxB_rot hw
  have hF := auxF_rot hw
  have hX := auxX_rot hw
  have hn : ∀ (M : M3 ℝ) (x : V3 ℝ), M.mulVec (-x) = -(M.mulVec x) := by intro M x; ext <;> simp <;> ring
  have hT : ∀ x, (applyAux r ⟨Rn, pn, none, none⟩).R.transpose.mulVec ((auxB r).R.mulVec x) =
      (auxF r * auxX r).R.transpose.mulVec (Rn.transpose.mulVec x) := by
    intro x
    rw [applyAux_R]
    simp only [Transform.mul_R, M3.transpose_mul, M3.mulVec_mulVec, M3.mul_assoc', hB.orth, M3.mul_one']
  have hq : -Rn.transpose.mulVec pn + Rn.transpose.mulVec P0 + (Rn.transpose * 1).mulVec (-P0) +
      (Rn.transpose * 1).mulVec (auxF (Spec.turnRound r)).p +
      (Rn.transpose * 1 * (auxF (Spec.turnRound r)).R).mulVec (auxX (Spec.turnRound r)).p =
      -Rn.transpose.mulVec pn + Rn.transpose.mulVec (-((auxB r).R.transpose.mulVec (auxB r).p)) := by
    have x0 : (auxX (Spec.turnRound r)).p = 0 := rfl
    have f0 : (auxF (Spec.turnRound r)).p = -((auxB r).R.transpose.mulVec (auxB r).p) := rfl
    have z : ∀ M : M3 ℝ, M.mulVec 0 = 0 := by intro M; ext <;> simp
    rw [x0, f0, z, M3.mul_one', hn _ P0, add_zero, add_neg_cancel_right]
  have hp : (applyAux r ⟨Rn, pn, none, none⟩).p = (auxB r).R.mulVec ((auxB r).R.transpose.mulVec (auxB r).p +
      (pn + Rn.mulVec (auxF r).p + (Rn * (auxF r).R).mulVec (auxX r).p)) := by
    rw [applyAux_p]
    simp only [M3.mulVec_add, hB.mulVec_transpose_mulVec, M3.mulVec_mulVec, M3.mul_assoc', add_assoc]
  have hb0 : (auxB (Spec.turnRound r)).R = (auxF r * auxX r).R.transpose := rfl
  have hsub : ∀ (M : M3 ℝ) (x y : V3 ℝ), M.mulVec x - M.mulVec y = M.mulVec (x - y) := by intro M x y; ext <;> simp <;> ring
  simp only [Function.comp_apply]
  rw [hq, hb0]
  generalize pn + Rn.mulVec (auxF r).p + (Rn * (auxF r).R).mulVec (auxX r).p = q at hp ⊢
  generalize (auxB r).R.transpose.mulVec (auxB r).p = b at hp ⊢
  by_cases h0 : f.ty = 0
  · simp only [col, sig, h0, if_true]
    rw [hT, hp, ← hB.mulVec_cross, hsub, hT, hn]
    congr 1
    have d : -Rn.transpose.mulVec pn + Rn.transpose.mulVec (-b) - (-Rn.transpose.mulVec pn + Rn.transpose.mulVec f.pO) =
        Rn.transpose.mulVec (-b - f.pO) := by
      rw [← hsub]; ext <;> simp
    have c : ∀ x y : V3 ℝ, (-x).cross y = -(x.cross y) := by intro x y; ext <;> simp <;> ring
    rw [d, c, ← hRn.transpose.mulVec_cross, ← hn]
    congr 2
    ext <;> simp <;> ring
  · by_cases h1 : f.ty = 1
    · have z : ∀ M : M3 ℝ, M.mulVec 0 = 0 := by intro M; ext <;> simp
      have zc : ∀ x : V3 ℝ, (0 : V3 ℝ).cross x = 0 := by intro x; ext <;> simp
      simp only [col, sig, h1, one_ne_zero, if_false, if_true, z, zc, neg_zero, zero_sub, hn, hT]
    · have z : ∀ M : M3 ℝ, M.mulVec 0 = 0 := by intro M; ext <;> simp
      have zc : ∀ x : V3 ℝ, (0 : V3 ℝ).cross x = 0 := by intro x; ext <;> simp
      simp only [col, sig, h0, h1, if_false, z, zc, neg_zero, sub_zero]

/-- a rail that carries a turning joint, with limits, a base, and a tool -/
example : ∃ r : Robot ℝ, r.WF ∧ Spec.Limited r ∧ (∀ t ∈ r.jointType, t ≠ 3) ∧ (Spec.turnRound r).H = [-V3.ez, -V3.ex] ∧
    (Spec.turnRound r).P = [⟨0, 0, -1⟩, ⟨0, -2, 0⟩, ⟨-3, 0, 0⟩] ∧ (Spec.turnRound r).jointType = [0, 1] ∧ (Spec.turnRound r).upper = some [3, 1] := by
  refine ⟨{
      H := [V3.ex, V3.ez]
      P := [⟨3, 0, 0⟩, ⟨0, 2, 0⟩, ⟨0, 0, 1⟩]
      jointType := [1, 0]
      lower := some [0, -3]
      upper := some [1, 3]
      Rtool := some ⟨0, -1, 0, 1, 0, 0, 0, 0, 1⟩
      ptool := some ⟨1, 2, 3⟩
      Tbase := some ⟨⟨0, 0, 1, 0, 1, 0, -1, 0, 0⟩, ⟨0, 5, 0⟩, none, none⟩ }, ?_, ⟨_, _, rfl, rfl, rfl, rfl⟩, by simp, by simp [Spec.turnRound], ?_,
      by simp [Spec.turnRound], by simp [Spec.turnRound]⟩
  · constructor
    · rfl
    · rfl
    · simp
    · simp [IsUnit3, V3.ex, V3.ez]
    · intro B hB; simp only [Option.some.injEq] at hB; subst hB; exact ⟨by ext <;> norm_num, by norm_num [M3.det]⟩
    · simp
    · intro B hB; simp only [Option.some.injEq] at hB; subst hB; exact ⟨by ext <;> norm_num, by norm_num [M3.det]⟩
    · simp
  · simp [Spec.turnRound, V3.ext_iff]
