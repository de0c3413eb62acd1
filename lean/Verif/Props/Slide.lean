import Verif.Props.SelfMotion
import Verif.Props.RezeroIter
import Verif.Lemmas.Complete

/-!
# Property C121: where along its axis a joint is placed is a convention

The iterative solver is on the `XReal` instance, like C40 and C41.
-/
set_option autoImplicit false

/-- The offsets when the point of joint `i` is moved by `sᵢ` along its axis `hᵢ`; `d` is the move of the point before. -/
def Spec.along : V3 ℝ → List (V3 ℝ) → List ℝ → List (V3 ℝ) → List (V3 ℝ)
  | d, h :: hs, s :: ss, P :: Ps => (P - d + V3.smul s h) :: Spec.along (V3.smul s h) hs ss Ps
  | d, _, _, P :: Ps => (P - d) :: Ps
  | _, _, _, [] => []

/-- the robot whose joints are placed elsewhere on their axes -/
def Spec.slid (r : Robot ℝ) (ss : List ℝ) : Robot ℝ := { r with P := Spec.along 0 r.H ss r.P }

/-! ## Helper lemmas -/

namespace SlideL
open SelfMotionL

/-- the move of the first joint -/
def nxt : List (V3 ℝ) → List ℝ → V3 ℝ
  | h :: _, s :: _ => V3.smul s h
  | _, _ => 0

theorem step (t : Nat) (h P d : V3 ℝ) (s θ : ℝ) (R : M3 ℝ) (p : V3 ℝ) :
    fwdStep t h (P - V3.smul s h + d) θ (R, p + R.mulVec (V3.smul s h)) =
      ((fwdStep t h P θ (R, p)).1, (fwdStep t h P θ (R, p)).2 + (fwdStep t h P θ (R, p)).1.mulVec d) := by
  have k := axis_kept t h P θ (R, p)
  have lin : ∀ M : M3 ℝ, M.mulVec (P - V3.smul s h + d) = M.mulVec P - V3.smul s (M.mulVec h) + M.mulVec d := by
    intro M; ext <;> simp <;> ring
  have sm : ∀ M : M3 ℝ, M.mulVec (V3.smul s h) = V3.smul s (M.mulVec h) := by intro M; ext <;> simp <;> ring
  unfold fwdStep at k ⊢
  split_ifs at k ⊢
  all_goals
    dsimp only at k ⊢
    rw [lin, sm]
    first
      | rw [k]
      | skip
    refine Prod.ext rfl ?_
    dsimp only
    ext <;> simp <;> ring

/-- the same joint, its point elsewhere on the axis -/
def Same (f g : JointFrame ℝ) : Prop := f.ty = g.ty ∧ f.h = g.h ∧ f.th = g.th ∧ ∃ c : ℝ, f.pO = g.pO + V3.smul c g.h

theorem lever (q x h : V3 ℝ) (c : ℝ) : (hat h).mulVec (q - (x + V3.smul c h)) = (hat h).mulVec (q - x) := by
  ext <;> simp [hat, M3.mulVec] <;> ring

theorem cols (q : V3 ℝ) : ∀ (n : Nat) (fs gs : List (JointFrame ℝ)), fs.length ≤ n → List.Forall₂ Same fs gs → jacCols q fs = jacCols q gs := by
  intro n
  induction n with
  | zero =>
    intro fs gs ln h
    obtain rfl : fs = [] := by simpa using ln
    cases h; rfl
  | succ n ih =>
    intro fs gs ln h
    rcases h with _ | ⟨⟨a1, a2, a3, c, a4⟩, h'⟩
    · rfl
    rename_i f g fs gs
    have r1 := ih fs gs (by simpa using ln) h'
    have l1 : (hat f.h).mulVec (q - f.pO) = (hat g.h).mulVec (q - g.pO) := by rw [a4, a2, lever]
    rw [jacCols.eq_def q (f :: fs), jacCols.eq_def q (g :: gs)]
    dsimp only
    rw [a1, l1, a2, r1]
    split_ifs
    · rfl
    · rfl
    · rcases h' with _ | ⟨b, h''⟩
      · rfl
      rcases h'' with _ | ⟨⟨b1, b2, b3, c', b4⟩, h3⟩
      · rfl
      rename_i f2 g2 fs gs
      have r2 := ih fs gs (by simp only [List.length_cons] at ln; omega) h3
      have l2 : (hat f2.h).mulVec (q - f2.pO) = (hat g2.h).mulVec (q - g2.pO) := by rw [b4, b2, lever]
      dsimp only
      rw [r2, l2, b2, b3]
    · rfl

theorem loop (ts : List Nat) (hs Ps : List (V3 ℝ)) (θs ss : List ℝ) (lh : hs.length = ts.length) (lP : Ps.length = ts.length)
    (ls : ss.length = ts.length) (R : M3 ℝ) (p : V3 ℝ) :
    fwdLoop ts hs (Spec.along (nxt hs ss) hs.tail ss.tail Ps) θs (R, p + R.mulVec (nxt hs ss)) = fwdLoop ts hs Ps θs (R, p) ∧
    ((∃ e, jacLoop ts hs (Spec.along (nxt hs ss) hs.tail ss.tail Ps) θs (R, p + R.mulVec (nxt hs ss)) = .error e ∧
      jacLoop ts hs Ps θs (R, p) = .error e) ∨
    ∃ fs gs Rn pn, jacLoop ts hs (Spec.along (nxt hs ss) hs.tail ss.tail Ps) θs (R, p + R.mulVec (nxt hs ss)) = .ok (fs, Rn, pn) ∧
      jacLoop ts hs Ps θs (R, p) = .ok (gs, Rn, pn) ∧ List.Forall₂ Same fs gs) := by
  induction ts generalizing hs Ps θs ss R p with
  | nil =>
    obtain rfl := List.length_eq_zero_iff.1 lh
    have e : p + R.mulVec (nxt [] ss) = p := by ext <;> simp [nxt]
    rw [e]
    exact ⟨rfl, .inr ⟨[], [], R, p, rfl, rfl, .nil⟩⟩
  | cons t ts ih =>
    obtain _ | ⟨h, hs⟩ := hs
    · simp at lh
    obtain _ | ⟨P, Ps⟩ := Ps
    · simp at lP
    obtain _ | ⟨s, ss⟩ := ss
    · simp at ls
    have lh' : hs.length = ts.length := by simpa using lh
    have ls' : ss.length = ts.length := by simpa using ls
    have ea : Spec.along (V3.smul s h) hs ss (P :: Ps) = (P - V3.smul s h + nxt hs ss) :: Spec.along (nxt hs ss) hs.tail ss.tail Ps := by
      have lPs : Ps.length = ts.length := by simpa using lP
      obtain _ | ⟨h', hs⟩ := hs
      · obtain rfl : ss = [] := by simpa [← lh'] using ls'
        obtain rfl : Ps = [] := by simpa [← lh'] using lPs
        simp only [Spec.along, nxt, List.tail_nil, List.cons.injEq, and_true]
        ext <;> simp
      obtain _ | ⟨s', ss⟩ := ss
      · rw [← lh'] at ls'; simp at ls'
      rfl
    obtain _ | ⟨θ, θs⟩ := θs
    · exact ⟨by simp [fwdLoop], .inl ⟨.index, by simp [jacLoop], by simp [jacLoop]⟩⟩
    simp only [nxt, List.tail_cons]
    obtain ⟨i1, i2⟩ := ih hs Ps θs ss lh' (by simpa using lP) ls' (fwdStep t h P θ (R, p)).1 (fwdStep t h P θ (R, p)).2
    rw [ea]
    simp only [fwdLoop, jacLoop, step]
    refine ⟨i1, ?_⟩
    rcases i2 with ⟨e, e1, e2⟩ | ⟨fs, gs, Rn, pn, e1, e2, e3⟩
    · refine .inl ⟨e, ?_, ?_⟩
      · rw [e1]; rfl
      · rw [e2]; rfl
    · refine .inr ⟨⟨t, p + R.mulVec (V3.smul s h), (fwdStep t h P θ (R, p)).1.mulVec h, θ⟩ :: fs,
        ⟨t, p, (fwdStep t h P θ (R, p)).1.mulVec h, θ⟩ :: gs, Rn, pn, by rw [e1]; rfl, by rw [e2]; rfl, .cons ⟨rfl, rfl, rfl, s, ?_⟩ e3⟩
      dsimp only
      rw [axis_kept]
      ext <;> simp <;> ring

theorem split (r : Robot ℝ) (ss : List ℝ) (P0 : V3 ℝ) (Ps : List (V3 ℝ)) (hP : r.P = P0 :: Ps) (lP : Ps.length = r.H.length)
    (ls : ss.length = r.H.length) :
    Spec.along 0 r.H ss (P0 :: Ps) = (P0 + (1 : M3 ℝ).mulVec (nxt r.H ss)) :: Spec.along (nxt r.H ss) r.H.tail ss.tail Ps := by
  rcases hH : r.H with _ | ⟨h, hs⟩
  · rw [hH] at lP ls
    obtain rfl : Ps = [] := by simpa using lP
    simp only [Spec.along, nxt, List.tail_nil, List.cons.injEq, and_true]
    ext <;> simp
  · rcases ss with _ | ⟨s, ss⟩
    · rw [hH] at ls; simp at ls
    simp only [Spec.along, nxt, List.tail_cons, List.cons.injEq, and_true]
    ext <;> simp

end SlideL

open SlideL

/-- **C121.** Moving the point of each joint along its axis changes no pose: `fwdkin` answers the same, exceptions included.  All joint types,
all joint values, with or without limits, base, flange and tool. -/
theorem C121_fwdkin (r : Robot ℝ) (lt : r.jointType.length = r.H.length) (lP : r.P.length = r.H.length + 1) (ss : List ℝ)
    (ls : ss.length = r.H.length) (θ : List ℝ) (ig : Bool) : fwdkin (Spec.slid r ss) θ ig = fwdkin r θ ig := by
  rcases hP : r.P with _ | ⟨P0, Ps⟩
  · rw [hP] at lP; simp at lP
  have lPs : Ps.length = r.H.length := by rw [hP] at lP; simpa using lP
  have hP' : (Spec.slid r ss).P = (P0 + (1 : M3 ℝ).mulVec (nxt r.H ss)) :: Spec.along (nxt r.H ss) r.H.tail ss.tail Ps := by
    rw [← split r ss P0 Ps hP lPs ls, ← hP]; rfl
  have hc : checkLimits (Spec.slid r ss) θ ig = checkLimits r θ ig := rfl
  have ha : ∀ T, applyAux (Spec.slid r ss) T = applyAux r T := fun _ => rfl
  have e := (loop r.jointType r.H Ps θ ss lt.symm (lPs.trans lt.symm) (ls.trans lt.symm) 1 P0).1
  simp only [fwdkin, hP, hP', hc, ha]
  have e' : fwdLoop (Spec.slid r ss).jointType (Spec.slid r ss).H (Spec.along (nxt r.H ss) r.H.tail ss.tail Ps) θ
    (1, P0 + (1 : M3 ℝ).mulVec (nxt r.H ss)) = fwdLoop r.jointType r.H Ps θ (1, P0) := e
  rw [e']

/-- **C121.** Nor does it change the Jacobian, exceptions included. -/
theorem C121_jacobian (r : Robot ℝ) (lt : r.jointType.length = r.H.length) (lP : r.P.length = r.H.length + 1) (ss : List ℝ)
    (ls : ss.length = r.H.length) (θ : List ℝ) (ig : Bool) : robotjacobian (Spec.slid r ss) θ ig = robotjacobian r θ ig := by
  rcases hP : r.P with _ | ⟨P0, Ps⟩
  · rw [hP] at lP; simp at lP
  have lPs : Ps.length = r.H.length := by rw [hP] at lP; simpa using lP
  have hP' : (Spec.slid r ss).P = (P0 + (1 : M3 ℝ).mulVec (nxt r.H ss)) :: Spec.along (nxt r.H ss) r.H.tail ss.tail Ps := by
    rw [← split r ss P0 Ps hP lPs ls, ← hP]; rfl
  have hc : checkLimits (Spec.slid r ss) θ ig = checkLimits r θ ig := rfl
  have hF : (Spec.slid r ss).Tflange = r.Tflange := rfl
  have hT : (Spec.slid r ss).ptool = r.ptool := rfl
  have hB : (Spec.slid r ss).Tbase = r.Tbase := rfl
  have hH : (Spec.slid r ss).H = r.H := rfl
  have hj : (Spec.slid r ss).jointType = r.jointType := rfl
  simp only [robotjacobian, hP, hP', hc, hF, hT, hB, hH, hj]
  rcases (loop r.jointType r.H Ps θ ss lt.symm (lPs.trans lt.symm) (ls.trans lt.symm) 1 P0).2 with ⟨e, e1, e2⟩ | ⟨fs, gs, Rn, pn, e1, e2, e3⟩
  · rw [e1, e2]
  · rw [e1, e2]
    simp only [Except.bind_ok, fun q => cols q fs.length fs gs le_rfl e3]

namespace SlideL

theorem iter (pinv : Pinv XReal) (hpinv : Spec.finitePinv pinv) (r : Robot ℝ) (wf : r.WF) (ss : List ℝ)
    (ls : ss.length = r.H.length) (T : Transform ℝ) (hT : IsRot T.R) (Kp KR : M3 ℝ) (tol : XReal) (fuel : Nat)
    (x : List ℝ) (lx : x.length = r.H.length) :
    iterLoop pinv (Spec.slid r ss).up T.up Kp.up KR.up tol fuel (x.map .fin) = iterLoop pinv r.up T.up Kp.up KR.up tol fuel (x.map .fin) := by
  induction fuel generalizing x with
  | zero => rfl
  | succ fuel ih =>
    have hb' : iterBody pinv (Spec.slid r ss).up T.up Kp.up KR.up (x.map .fin) = iterBody pinv r.up T.up Kp.up KR.up (x.map .fin) := by
      simp only [iterBody, fwdkin_up, robotjacobian_up, C121_fwdkin r wf.joints wf.columns ss ls, C121_jacobian r wf.joints wf.columns ss ls]
    simp only [iterLoop]
    rw [hb']
    cases hb : iterBody pinv r.up T.up Kp.up KR.up (x.map .fin) with
    | error e => rfl
    | ok st =>
      obtain ⟨C, hC, hR⟩ := fwdkin_rigid r wf _ lx
      obtain ⟨k, θ, δ, _, _, _, _, hδ⟩ := iterBody_eval pinv hpinv r T C Kp KR _ hC hR hT st hb
      simp only [Except.bind_ok]
      rw [hδ]
      simp only [List.length_map]
      split_ifs with h1 h2
      · rfl
      · rw [zipWith_fin]
        exact ih _ (by simp [lx, h2])
      · rfl

end SlideL

/-- **C121.** `iterative_invkin` goes through the same joint vectors and gives the same answer, exceptions included.  All joint types, seeds,
gains, tolerances and numbers of steps; `pinv` is `np.linalg.pinv`, of which only finite entries are required. -/
theorem C121_iterative (pinv : Pinv XReal) (hpinv : Spec.finitePinv pinv) (r : Robot ℝ) (wf : r.WF)
    (ss seed : List ℝ) (ls : ss.length = r.H.length) (lx : seed.length = r.H.length) (T : Transform ℝ) (hT : IsRot T.R) (Kp KR : M3 ℝ)
    (tol : XReal) (maxSteps : Int) :
    iterative_invkin pinv (Spec.slid r ss).up T.up (seed.map .fin) maxSteps Kp.up KR.up tol =
      iterative_invkin pinv r.up T.up (seed.map .fin) maxSteps Kp.up KR.up tol := by
  have hN : Normalizer.ofRobot (Spec.slid r ss).up (some (seed.map .fin)) true = Normalizer.ofRobot r.up (some (seed.map .fin)) true := rfl
  have hj : (Spec.slid r ss).up.jointType = r.up.jointType := rfl
  simp only [iterative_invkin, hN, hj, iter pinv hpinv r wf ss ls T hT Kp KR tol maxSteps.toNat seed lx]

/-- **C121.** The spherical wrist solver allows for the fourth and the sixth joint, whose points need not be the wrist centre: it answers the
same, and leaves the same robot behind. -/
theorem C121_robot6_partial (r : Robot ℝ) (h0 h1 h2 h3 h4 h5 P0 P1 P2 P3 P4 P5 P6 : V3 ℝ) (hH : r.H = [h0, h1, h2, h3, h4, h5])
    (hP : r.P = [P0, P1, P2, P3, P4, P5, P6]) (u3 : IsUnit3 h3) (u5 : IsUnit3 h5) (hP4 : P4 = (P4.dot h3) • h3) (hP5 : P5 = (P5.dot h5) • h5)
    (s4 s6 : ℝ) (T : Transform ℝ) (last : Option (List XReal)) :
    robot6_sphericalwrist_invkin (Spec.slid r [0, 0, 0, s4, 0, s6]).up T.up last = robot6_sphericalwrist_invkin r.up T.up last := by
  have eH : r.up.H = [h0.up, h1.up, h2.up, h3.up, h4.up, h5.up] := by
    show r.H.map V3.up = _; rw [hH]; rfl
  have eP : r.up.P = [P0.up, P1.up, P2.up, P3.up, P4.up, P5.up, P6.up] := by
    show r.P.map V3.up = _; rw [hP]; rfl
  have z1 : ∀ h : V3 ℝ, V3.smul 0 h = 0 := by intro h; ext <;> simp
  have z2 : ∀ h : V3 ℝ, h - 0 = h := by intro h; ext <;> simp
  have z3 : ∀ h : V3 ℝ, h + 0 = h := by intro h; ext <;> simp
  have eH' : (Spec.slid r [0, 0, 0, s4, 0, s6]).up.H = [h0.up, h1.up, h2.up, h3.up, h4.up, h5.up] := eH
  have eP' : (Spec.slid r [0, 0, 0, s4, 0, s6]).up.P =
      [P0.up, P1.up, P2.up, (P3 + V3.smul s4 h3).up, (P4 - V3.smul s4 h3).up, (P5 + V3.smul s6 h5).up, (P6 - V3.smul s6 h5).up] := by
    show (Spec.along 0 r.H _ r.P).map V3.up = _
    rw [hH, hP]
    simp only [Spec.along, z1, z2, z3, List.map_cons, List.map_nil]
  have mul : ∀ (k : V3 ℝ) (c : ℝ), IsUnit3 k → ∀ a : V3 ℝ, a = c • k → a = (a.dot k) • k := by
    rintro k c hk _ rfl
    have : (c • k).dot k = c := by
      have hk' : k.dot k = 1 := hk
      simp only [V3.dot, V3.hsmul_x, V3.hsmul_y, V3.hsmul_z] at hk' ⊢
      linear_combination c * hk'
    rw [this]
  have a4 := mul h3 (P4.dot h3 - s4) u3 (P4 - V3.smul s4 h3) (by
    rw [hP4]; ext <;> simp [sub_mul] <;> left <;> rw [← hP4])
  have a5 := mul h5 (P5.dot h5 + s6) u5 (P5 + V3.smul s6 h5) (by
    rw [hP5]; ext <;> simp [add_mul] <;> left <;> rw [← hP5])
  have e3 : P3 + V3.smul s4 h3 + (P4 - V3.smul s4 h3) = P3 + P4 := by ext <;> simp
  have e6 : P6 - V3.smul s6 h5 + (P5 + V3.smul s6 h5) = P6 + P5 := by ext <;> simp
  have hN : Normalizer.ofRobot (Spec.slid r [0, 0, 0, s4, 0, s6]).up last = Normalizer.ofRobot r.up last := rfl
  have hA : unapplyAux (Spec.slid r [0, 0, 0, s4, 0, s6]).up T.up = unapplyAux r.up T.up := rfl
  simp only [robot6_sphericalwrist_invkin, hN, hA, eH, eP, eH', eP', fixWrist_of hP4 hP5, fixWrist_of a4 a5, e3, e6]
  rfl

/-- **C121.** The same for the first joint, too, if its axis is perpendicular to the y axis, as the solver takes for granted (C29).  The offsets left
behind differ from those of the other call in the first two columns, so this is about the answer. -/
theorem C121_robot6_first_partial (r : Robot ℝ) (h0 h1 h2 h3 h4 h5 P0 P1 P2 P3 P4 P5 P6 : V3 ℝ) (hH : r.H = [h0, h1, h2, h3, h4, h5])
    (hP : r.P = [P0, P1, P2, P3, P4, P5, P6]) (h0y : V3.ey.dot h0 = 0) (hP4 : P4 = (P4.dot h3) • h3) (hP5 : P5 = (P5.dot h5) • h5)
    (s1 : ℝ) (T : Transform ℝ) (last : Option (List XReal)) :
    (robot6_sphericalwrist_invkin (Spec.slid r [s1, 0, 0, 0, 0, 0]).up T.up last).2 = (robot6_sphericalwrist_invkin r.up T.up last).2 := by
  have eH : r.up.H = [h0.up, h1.up, h2.up, h3.up, h4.up, h5.up] := by
    show r.H.map V3.up = _; rw [hH]; rfl
  have eP : r.up.P = [P0.up, P1.up, P2.up, P3.up, P4.up, P5.up, P6.up] := by
    show r.P.map V3.up = _; rw [hP]; rfl
  have z1 : ∀ h : V3 ℝ, V3.smul 0 h = 0 := by intro h; ext <;> simp
  have z2 : ∀ h : V3 ℝ, h - 0 = h := by intro h; ext <;> simp
  have z3 : ∀ h : V3 ℝ, h + 0 = h := by intro h; ext <;> simp
  have eH' : (Spec.slid r [s1, 0, 0, 0, 0, 0]).up.H = [h0.up, h1.up, h2.up, h3.up, h4.up, h5.up] := eH
  have eP' : (Spec.slid r [s1, 0, 0, 0, 0, 0]).up.P =
      [(P0 + V3.smul s1 h0).up, (P1 - V3.smul s1 h0).up, P2.up, P3.up, P4.up, P5.up, P6.up] := by
    show (Spec.along 0 r.H _ r.P).map V3.up = _
    rw [hH, hP]
    simp only [Spec.along, z1, z2, z3, List.map_cons, List.map_nil]
  have hN : Normalizer.ofRobot (Spec.slid r [s1, 0, 0, 0, 0, 0]).up last = Normalizer.ofRobot r.up last := rfl
  have hA : unapplyAux (Spec.slid r [s1, 0, 0, 0, 0, 0]).up T.up = unapplyAux r.up T.up := rfl
  have e1 : (P0 + V3.smul s1 h0) + (P1 - V3.smul s1 h0) = P0 + P1 := by ext <;> simp
  have e2 : V3.ey.dot ((P1 - V3.smul s1 h0) + P2 + (P3 + P4)) = V3.ey.dot (P1 + P2 + (P3 + P4)) := by
    simp only [V3.dot, V3.add_x, V3.add_y, V3.add_z, V3.sub_x, V3.sub_y, V3.sub_z, V3.smul_x, V3.smul_y, V3.smul_z] at h0y ⊢
    linear_combination -s1 * h0y
  have hS : ∀ (N : Normalizer XReal) (a b c d e f p q w : V3 XReal) (R : M3 XReal) (v : V3 XReal),
      r6Shoulder N a b c d e f (P0 + V3.smul s1 h0).up (P1 - V3.smul s1 h0).up p q w R v = r6Shoulder N a b c d e f P0.up P1.up p q w R v := by
    intros; funext x
    simp only [r6Shoulder, V3.up_add, e1]
  simp only [robot6_sphericalwrist_invkin, hN, hA, eH, eP, eH', eP', fixWrist_of hP4 hP5, r6Search, V3.up_add, V3.up_dot, V3.up_ey, e2, hS]

/-- **C121, false for the fifth joint.** If the point of the fifth joint is anywhere but at the wrist centre, every call of the spherical wrist
solver raises AssertionError, although the arm is the same. -/
theorem C121_robot6_fifth_false (r : Robot ℝ) (h0 h1 h2 h3 h4 h5 P0 P1 P2 P3 P4 P5 P6 : V3 ℝ) (hH : r.H = [h0, h1, h2, h3, h4, h5])
    (hP : r.P = [P0, P1, P2, P3, P4, P5, P6]) (u4 : IsUnit3 h4) (h34 : h3.dot h4 = 0) (hP4 : P4 = (P4.dot h3) • h3) (s5 : ℝ) (hs : s5 ≠ 0)
    (T : Transform ℝ) (last : Option (List XReal)) :
    (robot6_sphericalwrist_invkin (Spec.slid r [0, 0, 0, 0, s5, 0]).up T.up last).2 = .error .assertion := by
  have eH' : (Spec.slid r [0, 0, 0, 0, s5, 0]).up.H = [h0.up, h1.up, h2.up, h3.up, h4.up, h5.up] := by
    show r.H.map V3.up = _; rw [hH]; rfl
  have z1 : ∀ h : V3 ℝ, V3.smul 0 h = 0 := by intro h; ext <;> simp
  have z2 : ∀ h : V3 ℝ, h - 0 = h := by intro h; ext <;> simp
  have z3 : ∀ h : V3 ℝ, h + 0 = h := by intro h; ext <;> simp
  have eP' : (Spec.slid r [0, 0, 0, 0, s5, 0]).up.P =
      [P0.up, P1.up, P2.up, P3.up, (P4 + V3.smul s5 h4).up, (P5 - V3.smul s5 h4).up, P6.up] := by
    show (Spec.along 0 r.H _ r.P).map V3.up = _
    rw [hH, hP]
    simp only [Spec.along, z1, z2, z3, List.map_cons, List.map_nil]
  have hd : P4.dot h4 = 0 := by
    rw [hP4]
    simp only [V3.dot, V3.hsmul_x, V3.hsmul_y, V3.hsmul_z] at h34 ⊢
    linear_combination (P4.x * h3.x + P4.y * h3.y + P4.z * h3.z) * h34
  have hk : h4.x * h4.x + h4.y * h4.y + h4.z * h4.z = 1 := u4
  have hk' : (P4 + V3.smul s5 h4).dot h4 = s5 := by
    simp only [V3.dot, V3.add_x, V3.add_y, V3.add_z, V3.smul_x, V3.smul_y, V3.smul_z] at hd ⊢
    linear_combination hd + s5 * hk
  generalize P4 + V3.smul s5 h4 = a at eP' hk'
  have n1 : ¬isZeroV a.up := by
    rw [isZeroV_up]
    rintro rfl
    simp [V3.dot] at hk'
    exact hs hk'.symm
  have n2 : ¬isZeroV (a.up - V3.smul (a.up.dot h3.up) h3.up) := by
    rw [V3.up_dot, V3.up_smul, V3.up_sub, isZeroV_up]
    intro h
    have d := congrArg (fun v : V3 ℝ => v.dot h4) h
    simp only [V3.dot, V3.sub_x, V3.sub_y, V3.sub_z, V3.smul_x, V3.smul_y, V3.smul_z, V3.zero_x, V3.zero_y, V3.zero_z] at d hk' h34
    apply hs
    linear_combination d - hk' + (a.x * h3.x + a.y * h3.y + a.z * h3.z) * h34
  have m : moveColumn [h0.up, h1.up, h2.up, h3.up, h4.up, h5.up] [P0.up, P1.up, P2.up, P3.up, a.up, (P5 - V3.smul s5 h4).up, P6.up] 4 3 3 =
      ([P0.up, P1.up, P2.up, P3.up, a.up, (P5 - V3.smul s5 h4).up, P6.up], .error .assertion) := by
    simp only [moveColumn, List.getElem?_cons_succ, List.getElem?_cons_zero, n1, n2, if_false]
  simp only [robot6_sphericalwrist_invkin, eH', eP', fixWrist, m]
  rfl

/-- An elbow whose second joint is moved up by 3 and whose first joint is moved down by 2: the offsets change, the pose does not. -/
example : ∃ r : Robot ℝ, r.WF ∧ r.P.length = r.H.length + 1 ∧ (Spec.slid r [-2, 3]).P ≠ r.P ∧
    fwdkin (Spec.slid r [-2, 3]) [1, 2] = fwdkin r [1, 2] := by
  refine ⟨{ H := [V3.ez, V3.ez], P := [0, V3.ex, V3.ex], jointType := [0, 0] }, ⟨rfl, rfl, by simp, by simp [IsUnit3], by simp, by simp,
    by simp, by simp⟩, rfl, ?_, C121_fwdkin _ rfl rfl _ rfl _ _⟩
  intro h
  have := congrArg (fun l : List (V3 ℝ) => l.head?.map (·.z)) h
  simp [Spec.slid, Spec.along, V3.ez] at this

/-- A wrist at a common point, its fourth and sixth joint moved, meets the hypotheses of both theorems about the solver. -/
example : ∃ r : Robot ℝ, ∃ h0 h1 h2 h3 h4 h5 P0 P1 P2 P3 P4 P5 P6 : V3 ℝ, r.H = [h0, h1, h2, h3, h4, h5] ∧
    r.P = [P0, P1, P2, P3, P4, P5, P6] ∧ IsUnit3 h3 ∧ IsUnit3 h4 ∧ IsUnit3 h5 ∧ h3.dot h4 = 0 ∧ P4 = (P4.dot h3) • h3 ∧
    P5 = (P5.dot h5) • h5 ∧ P4 ≠ 0 := by
  refine ⟨{ H := [V3.ez, V3.ey, V3.ey, V3.ex, V3.ey, V3.ex], P := [0, V3.ez, V3.ez, 0, V3.ex, 0, V3.ex], jointType := [0, 0, 0, 0, 0, 0] },
    V3.ez, V3.ey, V3.ey, V3.ex, V3.ey, V3.ex, 0, V3.ez, V3.ez, 0, V3.ex, 0, V3.ex, rfl, rfl, by simp [IsUnit3], by simp [IsUnit3],
    by simp [IsUnit3], by simp [V3.dot, V3.ex, V3.ey], ?_, ?_, ?_⟩
  · ext <;> simp [V3.dot, V3.ex]
  · ext <;> simp [V3.dot]
  · intro h
    have := congrArg V3.x h
    simp [V3.ex] at this
