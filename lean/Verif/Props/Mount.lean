import Verif.Props.Kinematics
import Verif.Lemmas.Opw

/-!
# Property C115: a robot mounted on another robot

`Spec.mounted A B` is the description of the one chain that results when the base of robot `B` is fixed to the tool of robot `A` (a robot on
a rail, a positioner carrying an arm): the axes and offsets of `B` are written in the frame of the last joint of `A`.
-/
set_option autoImplicit false

/-- The offsets of a chain whose last offset `Ps.last` is lengthened by `d` and followed by `rest`. -/
def Spec.joinOffsets : List (V3 ℝ) → V3 ℝ → List (V3 ℝ) → List (V3 ℝ)
  | [], _, _ => []
  | [P], d, rest => (P + d) :: rest
  | P :: Q :: Ps, d, rest => P :: Spec.joinOffsets (Q :: Ps) d rest

/-- From the last joint of `A` to the zero frame of `B`: flange and tool of `A`, then the base of `B`. -/
noncomputable def Spec.adapter (A B : Robot ℝ) : Transform ℝ := auxF A * auxX A * auxB B

noncomputable def Spec.mounted (A B : Robot ℝ) : Robot ℝ :=
  let X := Spec.adapter A B
  let F := B.Tflange.getD ⟨1, 0, none, none⟩
  { H := A.H ++ B.H.map X.R.mulVec
    P := match B.P with
      | [] => []
      | P0 :: Ps => Spec.joinOffsets A.P (X.p + X.R.mulVec P0) (Ps.map X.R.mulVec)
    jointType := A.jointType ++ B.jointType
    lower := match A.lower, B.lower with
      | some l, some l' => some (l ++ l')
      | _, _ => none
    upper := match A.upper, B.upper with
      | some u, some u' => some (u ++ u')
      | _, _ => none
    Tbase := A.Tbase
    Tflange := some ⟨X.R * F.R, X.R.mulVec F.p, F.parent, F.child⟩
    Rtool := B.Rtool
    ptool := B.ptool }

/-- All limits are given, one for each joint. -/
def Spec.Limited (r : Robot ℝ) : Prop :=
  ∃ l u, r.lower = some l ∧ r.upper = some u ∧ l.length = r.H.length ∧ u.length = r.H.length

/-! ## Helper lemmas -/

namespace MountL

theorem step_form (t : Nat) (h : V3 ℝ) (θ : ℝ) (R : M3 ℝ) (p : V3 ℝ) :
    ∃ A q, ∀ P, fwdStep t h P θ (R, p) = (A, q + A.mulVec P) := by
  unfold fwdStep
  split_ifs
  · exact ⟨_, _, fun P => rfl⟩
  · exact ⟨_, _, fun P => rfl⟩
  · exact ⟨_, _, fun P => rfl⟩

/-- The front part of the joined chain: it runs like `A`, then hands over with the additional offset `d`. -/
theorem front (ts ts2 : List Nat) (hs hs2 : List (V3 ℝ)) (P0 : V3 ℝ) (Ps rest : List (V3 ℝ)) (d : V3 ℝ) (θs θ2 : List ℝ)
    (lh : hs.length = ts.length) (lP : Ps.length = ts.length) (lθ : θs.length = ts.length) (R : M3 ℝ) (p : V3 ℝ) :
    ∃ Q0 Qs fs R' p', Spec.joinOffsets (P0 :: Ps) d rest = Q0 :: Qs ∧
      fwdLoop ts hs Ps θs (R, p + R.mulVec P0) = .ok (R', p') ∧ jacLoop ts hs Ps θs (R, p + R.mulVec P0) = .ok (fs, R', p') ∧
      fs.map (·.ty) = ts ∧
      fwdLoop (ts ++ ts2) (hs ++ hs2) Qs (θs ++ θ2) (R, p + R.mulVec Q0) = fwdLoop ts2 hs2 rest θ2 (R', p' + R'.mulVec d) ∧
      (ts ≠ [] → Q0 = P0) ∧
      (∀ gs R2 p2, jacLoop ts2 hs2 rest θ2 (R', p' + R'.mulVec d) = .ok (gs, R2, p2) →
        jacLoop (ts ++ ts2) (hs ++ hs2) Qs (θs ++ θ2) (R, p + R.mulVec Q0) = .ok (fs ++ gs, R2, p2)) := by
  induction ts generalizing hs P0 Ps θs R p with
  | nil =>
    obtain rfl := List.length_eq_zero_iff.1 lh
    obtain rfl := List.length_eq_zero_iff.1 lP
    obtain rfl := List.length_eq_zero_iff.1 lθ
    have e : p + R.mulVec (P0 + d) = p + R.mulVec P0 + R.mulVec d := by rw [M3.mulVec_add, add_assoc]
    refine ⟨P0 + d, rest, [], R, p + R.mulVec P0, rfl, rfl, rfl, rfl, ?_, by simp, ?_⟩
    · simp only [List.nil_append]; rw [e]
    · intro gs R2 p2 h; simp only [List.nil_append]; rw [e]; exact h
  | cons t ts ih =>
    obtain _ | ⟨h, hs⟩ := hs
    · simp at lh
    obtain _ | ⟨P1, Ps⟩ := Ps
    · simp at lP
    obtain _ | ⟨θ, θs⟩ := θs
    · simp at lθ
    obtain ⟨A, q, hA⟩ := step_form t h θ R (p + R.mulVec P0)
    obtain ⟨Q0, Qs, fs, R', p', e1, e2, e3, e4, e5, e6, e7⟩ := ih hs P1 Ps θs (by simpa using lh) (by simpa using lP) (by simpa using lθ) A q
    refine ⟨P0, Q0 :: Qs, ⟨t, p + R.mulVec P0, A.mulVec h, θ⟩ :: fs, R', p', by simp [Spec.joinOffsets, e1], ?_, ?_, by simp [e4], ?_,
      fun _ => rfl, ?_⟩
    · simp only [fwdLoop, hA]; exact e2
    · simp only [jacLoop, hA]; rw [e3]; rfl
    · simp only [List.cons_append, fwdLoop, hA]; exact e5
    · intro gs R2 p2 hg
      simp only [List.cons_append, jacLoop, hA]
      rw [e7 gs R2 p2 hg]; rfl

/-- A frame of `B` seen from the base of `A`. -/
def moved (G : M3 ℝ) (g : V3 ℝ) (f : JointFrame ℝ) : JointFrame ℝ := ⟨f.ty, g + G.mulVec f.pO, G.mulVec f.h, f.th⟩

/-- The back part of the joined chain runs like `B`, seen from the base of `A`. -/
theorem back (ts : List Nat) (hs Ps : List (V3 ℝ)) (θs : List ℝ) (lh : hs.length = ts.length) (lP : Ps.length = ts.length)
    (lθ : θs.length = ts.length) (X G S : M3 ℝ) (hX : IsRot X) (g s : V3 ℝ) :
    ∃ fs RB pB, fwdLoop ts hs Ps θs (S, s) = .ok (RB, pB) ∧ jacLoop ts hs Ps θs (S, s) = .ok (fs, RB, pB) ∧ fs.map (·.ty) = ts ∧
      fwdLoop ts (hs.map X.mulVec) (Ps.map X.mulVec) θs (G * S * X.transpose, g + G.mulVec s) =
        .ok (G * RB * X.transpose, g + G.mulVec pB) ∧
      jacLoop ts (hs.map X.mulVec) (Ps.map X.mulVec) θs (G * S * X.transpose, g + G.mulVec s) =
        .ok (fs.map (moved G g), G * RB * X.transpose, g + G.mulVec pB) := by
  induction ts generalizing hs Ps θs S s with
  | nil => exact ⟨[], S, s, rfl, rfl, rfl, rfl, rfl⟩
  | cons t ts ih =>
    obtain _ | ⟨h, hs⟩ := hs
    · simp at lh
    obtain _ | ⟨P, Ps⟩ := Ps
    · simp at lP
    obtain _ | ⟨θ, θs⟩ := θs
    · simp at lθ
    have hc : ∀ (C : M3 ℝ) (v : V3 ℝ), (G * C * X.transpose).mulVec (X.mulVec v) = G.mulVec (C.mulVec v) := by
      intro C v
      rw [← M3.mulVec_mulVec, ← M3.mulVec_mulVec, hX.transpose_mulVec_mulVec]
    have hstep : fwdStep t (X.mulVec h) (X.mulVec P) θ (G * S * X.transpose, g + G.mulVec s) =
        (G * (fwdStep t h P θ (S, s)).1 * X.transpose, g + G.mulVec (fwdStep t h P θ (S, s)).2) := by
      have hm : G * S * X.transpose * rot (X.mulVec h) θ = G * (S * rot h θ) * X.transpose := by
        rw [rot_conj hX]
        simp only [M3.mul_assoc']
        rw [← M3.mul_assoc' X.transpose X, hX.orth, M3.one_mul']
      unfold fwdStep
      split_ifs
      · dsimp only
        rw [hm, hc, M3.mulVec_add, add_assoc]
      · dsimp only
        rw [hc, hc]
        simp only [Prod.mk.injEq, true_and]
        ext <;> simp <;> ring
      · dsimp only
        rw [hc, M3.mulVec_add, add_assoc]
    obtain ⟨fs, RB, pB, e1, e2, e3, e4, e5⟩ := ih hs Ps θs (by simpa using lh) (by simpa using lP) (by simpa using lθ)
      (fwdStep t h P θ (S, s)).1 (fwdStep t h P θ (S, s)).2
    refine ⟨⟨t, s, (fwdStep t h P θ (S, s)).1.mulVec h, θ⟩ :: fs, RB, pB, e1, ?_, by simp [e3], ?_, ?_⟩
    · simp only [jacLoop]; rw [e2]; rfl
    · simp only [List.map_cons, fwdLoop]; rw [hstep]; exact e4
    · simp only [List.map_cons, jacLoop]
      rw [hstep, e5]
      simp only [bind, Except.bind, moved, hc]
      rfl

theorem bcast_eq {β γ : Type} {a : List β} {b : List γ} (h : a.length = b.length) : bcast a b = .ok (a.zip b) := by simp [bcast, h]

theorem pyAssert_and (a b : Bool) : (pyAssert (a && b) = .ok () ↔ pyAssert a = .ok () ∧ pyAssert b = .ok ()) := by
  cases a <;> cases b <;> simp [pyAssert]

theorem check_iff {r : Robot ℝ} {l u θ : List ℝ} (hl : r.lower = some l) (hu : r.upper = some u) (e1 : θ.length = l.length)
    (e2 : θ.length = u.length) :
    checkLimits r θ false = .ok () ↔ (∀ x ∈ θ.zip l, x.2 ≤ x.1) ∧ ∀ x ∈ θ.zip u, x.1 ≤ x.2 := by
  simp only [checkLimits, hl, hu, bcast_eq e1, bcast_eq e2, Bool.false_eq_true, if_false, bind, Except.bind, pyAssert]
  by_cases c1 : (θ.zip l).all (fun tl => decide (tl.2 ≤ tl.1)) = true <;>
    by_cases c2 : (θ.zip u).all (fun tl => decide (tl.1 ≤ tl.2)) = true <;>
    simp only [c1, c2, if_true] <;> simp only [List.all_eq_true, decide_eq_true_eq] at c1 c2 <;> simp_all

theorem limits {A B : Robot ℝ} (lA : Spec.Limited A) (lB : Spec.Limited B) {θA θB : List ℝ} (hA : θA.length = A.H.length)
    (hB : θB.length = B.H.length) :
    checkLimits (Spec.mounted A B) (θA ++ θB) false = .ok () ↔
      checkLimits A θA false = .ok () ∧ checkLimits B θB false = .ok () := by
  obtain ⟨l, u, a1, a2, a3, a4⟩ := lA
  obtain ⟨l', u', b1, b2, b3, b4⟩ := lB
  have m1 : (Spec.mounted A B).lower = some (l ++ l') := by simp [Spec.mounted, a1, b1]
  have m2 : (Spec.mounted A B).upper = some (u ++ u') := by simp [Spec.mounted, a2, b2]
  rw [check_iff m1 m2 (by simp; omega) (by simp; omega), check_iff a1 a2 (by omega) (by omega), check_iff b1 b2 (by omega) (by omega),
    List.zip_append (by omega), List.zip_append (by omega)]
  simp only [List.mem_append]
  constructor
  · rintro ⟨h1, h2⟩
    exact ⟨⟨fun x hx => h1 x (.inl hx), fun x hx => h2 x (.inl hx)⟩, fun x hx => h1 x (.inr hx), fun x hx => h2 x (.inr hx)⟩
  · rintro ⟨⟨h1, h2⟩, h3, h4⟩
    exact ⟨fun x hx => hx.elim (h1 x) (h3 x), fun x hx => hx.elim (h2 x) (h4 x)⟩

theorem auxF_rot {r : Robot ℝ} (h : r.WF) : IsRot (auxF r).R := by
  unfold auxF
  rcases hF : r.Tflange with _ | F
  · exact IsRot.one
  · exact h.flange F hF

theorem auxX_rot {r : Robot ℝ} (h : r.WF) : IsRot (auxX r).R := by
  unfold auxX
  rcases hR : r.Rtool with _ | R
  · exact IsRot.one
  · rcases hp : r.ptool with _ | p
    · exact IsRot.one
    · exact h.tool R hR

theorem adapter_rot {A B : Robot ℝ} (wA : A.WF) (wB : B.WF) : IsRot (Spec.adapter A B).R := ((auxF_rot wA).mul (auxX_rot wA)).mul (auxB_rot wB)

theorem kin_ok {r : Robot ℝ} {P0 : V3 ℝ} {Ps : List (V3 ℝ)} (hP : r.P = P0 :: Ps) {θ : List ℝ} {ig : Bool} {R : M3 ℝ} {p : V3 ℝ}
    (h : fwdLoop r.jointType r.H Ps θ (1, P0) = .ok (R, p)) (T : Transform ℝ) :
    fwdkin r θ ig = .ok T ↔ checkLimits r θ ig = .ok () ∧ applyAux r ⟨R, p, none, none⟩ = T := by
  unfold fwdkin
  rw [hP]
  simp only [h]
  rcases checkLimits r θ ig with e | ⟨⟩
  · simp [bind, Except.bind]
  · simp [bind, Except.bind, pure, Except.pure]

/-- The loops of `A`, of `B` and of the joined chain. -/
theorem run {A B : Robot ℝ} (wA : A.WF) (wB : B.WF) {θA θB : List ℝ} (hA : θA.length = A.H.length) (hB : θB.length = B.H.length) :
    ∃ P0 Ps Q0 Qs M0 Ms fA RA pA fB RB pB, A.P = P0 :: Ps ∧ B.P = Q0 :: Qs ∧ (Spec.mounted A B).P = M0 :: Ms ∧
      fwdLoop A.jointType A.H Ps θA (1, P0) = .ok (RA, pA) ∧ jacLoop A.jointType A.H Ps θA (1, P0) = .ok (fA, RA, pA) ∧
      fA.map (·.ty) = A.jointType ∧
      fwdLoop B.jointType B.H Qs θB (1, Q0) = .ok (RB, pB) ∧ jacLoop B.jointType B.H Qs θB (1, Q0) = .ok (fB, RB, pB) ∧
      fB.map (·.ty) = B.jointType ∧
      fwdLoop (Spec.mounted A B).jointType (Spec.mounted A B).H Ms (θA ++ θB) (1, M0) =
        .ok (RA * (Spec.adapter A B).R * RB * (Spec.adapter A B).R.transpose,
          pA + RA.mulVec (Spec.adapter A B).p + (RA * (Spec.adapter A B).R).mulVec pB) ∧
      jacLoop (Spec.mounted A B).jointType (Spec.mounted A B).H Ms (θA ++ θB) (1, M0) =
        .ok (fA ++ fB.map (moved (RA * (Spec.adapter A B).R) (pA + RA.mulVec (Spec.adapter A B).p)),
          RA * (Spec.adapter A B).R * RB * (Spec.adapter A B).R.transpose,
          pA + RA.mulVec (Spec.adapter A B).p + (RA * (Spec.adapter A B).R).mulVec pB) := by
  have lpA := wA.columns
  have lpB := wB.columns
  rcases hPA : A.P with _ | ⟨P0, Ps⟩
  · simp [hPA] at lpA
  rcases hPB : B.P with _ | ⟨Q0, Qs⟩
  · simp [hPB] at lpB
  have hX := adapter_rot wA wB
  obtain ⟨M0, Ms, fA, RA, pA, e1, e2, e3, e4, e5, -, e7⟩ := front A.jointType B.jointType A.H (B.H.map (Spec.adapter A B).R.mulVec) P0 Ps
    (Qs.map (Spec.adapter A B).R.mulVec) ((Spec.adapter A B).p + (Spec.adapter A B).R.mulVec Q0) θA θB wA.joints.symm
    (by rw [wA.joints]; simpa [hPA] using lpA) (by rw [hA, wA.joints]) 1 0
  obtain ⟨fB, RB, pB, b1, b2, b3, b4, b5⟩ := back B.jointType B.H Qs θB wB.joints.symm (by rw [wB.joints]; simpa [hPB] using lpB)
    (by rw [hB, wB.joints]) (Spec.adapter A B).R (RA * (Spec.adapter A B).R) 1 hX (pA + RA.mulVec (Spec.adapter A B).p) Q0
  have z : ∀ v : V3 ℝ, (0 : V3 ℝ) + (1 : M3 ℝ).mulVec v = v := by intro v; ext <;> simp
  have s1 : RA * (Spec.adapter A B).R * 1 * (Spec.adapter A B).R.transpose = RA := by
    rw [M3.mul_one', M3.mul_assoc', hX.orth', M3.mul_one']
  have s2 : pA + RA.mulVec ((Spec.adapter A B).p + (Spec.adapter A B).R.mulVec Q0) =
      pA + RA.mulVec (Spec.adapter A B).p + (RA * (Spec.adapter A B).R).mulVec Q0 := by
    rw [M3.mulVec_add, M3.mulVec_mulVec, add_assoc]
  rw [s1] at b4 b5
  rw [z] at e2 e3 e5
  rw [s2] at e5 e7
  refine ⟨P0, Ps, Q0, Qs, M0, Ms, fA, RA, pA, fB, RB, pB, rfl, rfl, by simp [Spec.mounted, hPB, hPA, e1], e2, e3, e4, b1, b2, b3, ?_, ?_⟩
  · exact e5.trans b4
  · have := e7 _ _ _ b5
    rw [z] at this
    exact this

theorem aux_eq (A B : Robot ℝ) (wA : A.WF) (wB : B.WF) (RA RB : M3 ℝ) (pA pB : V3 ℝ) :
    applyAux (Spec.mounted A B) ⟨RA * (Spec.adapter A B).R * RB * (Spec.adapter A B).R.transpose,
      pA + RA.mulVec (Spec.adapter A B).p + (RA * (Spec.adapter A B).R).mulVec pB, none, none⟩ =
    applyAux A ⟨RA, pA, none, none⟩ * applyAux B ⟨RB, pB, none, none⟩ := by
  have hX := adapter_rot wA wB
  have f1 : (auxF (Spec.mounted A B)).R = (Spec.adapter A B).R * (auxF B).R := by
    rcases h : B.Tflange with _ | F <;> simp [auxF, Spec.mounted, h, identityTransform]
  have f2 : (auxF (Spec.mounted A B)).p = (Spec.adapter A B).R.mulVec (auxF B).p := by
    rcases h : B.Tflange with _ | F <;> simp [auxF, Spec.mounted, h, identityTransform]
  have f3 : auxX (Spec.mounted A B) = auxX B := rfl
  have f4 : auxB (Spec.mounted A B) = auxB A := rfl
  have c : ∀ C D : M3 ℝ, C * (Spec.adapter A B).R.transpose * ((Spec.adapter A B).R * D) = C * D := by
    intro C D
    rw [M3.mul_assoc', ← M3.mul_assoc' (Spec.adapter A B).R.transpose, hX.orth, M3.one_mul']
  ext1
  · rw [applyAux_R, Transform.mul_R, applyAux_R, applyAux_R, f1, f3, f4]
    dsimp only
    rw [c, Spec.adapter, Transform.mul_R, Transform.mul_R]
    simp only [M3.mul_assoc']
  · rw [applyAux_p, Transform.mul_p, applyAux_p, applyAux_p, applyAux_R, f1, f2, f3, f4]
    dsimp only
    rw [c, M3.mulVec_mulVec, M3.mul_assoc' _ (Spec.adapter A B).R.transpose, hX.orth, M3.mul_one', Spec.adapter]
    simp only [Transform.mul_R, Transform.mul_p, M3.mulVec_add, M3.mulVec_mulVec, M3.mul_assoc', add_assoc]
  · rcases h : A.Tbase with _ | _ <;> rcases h1 : A.Tflange with _ | _ <;> rcases h2 : A.Rtool with _ | _ <;>
      rcases h3 : A.ptool with _ | _ <;> rcases h4 : B.Rtool with _ | _ <;> rcases h5 : B.ptool with _ | _ <;>
      simp [applyAux, Spec.mounted, h, h1, h2, h3, h4, h5]
  · rcases h : A.Tbase with _ | _ <;> rcases h1 : B.Tbase with _ | _ <;> rcases h2 : B.Tflange with _ | _ <;>
      rcases h4 : B.Rtool with _ | _ <;> rcases h5 : B.ptool with _ | _ <;>
      simp [applyAux, Spec.mounted, h, h1, h2, h4, h5]

theorem cols_append (q : V3 ℝ) (fs gs : List (JointFrame ℝ)) (ht : ∀ f ∈ fs, f.ty ≠ 3) {a b : List (V6 ℝ)} (ha : jacCols q fs = .ok a)
    (hb : jacCols q gs = .ok b) : jacCols q (fs ++ gs) = .ok (a ++ b) := by
  induction fs generalizing a with
  | nil =>
    have : a = [] := by simpa [jacCols] using ha.symm
    simpa [this] using hb
  | cons f fs ih =>
    have n3 := ht f (by simp)
    rw [jacCols.eq_def] at ha
    rw [List.cons_append, jacCols.eq_def]
    simp only [n3, if_false] at ha ⊢
    rcases e : jacCols q fs with er | a'
    · simp [e, bind, Except.bind] at ha
    rw [e] at ha
    rw [ih (fun y hy => ht y (by simp [hy])) e]
    simp only [bind, Except.bind, pure, Except.pure] at ha ⊢
    split_ifs at ha ⊢ <;> simp only [Except.ok.injEq] at ha <;> rw [← ha] <;> rfl

theorem cols_ok (q : V3 ℝ) (fs : List (JointFrame ℝ)) (ht : ∀ f ∈ fs, f.ty ≠ 3) (w : V3 ℝ) (G : M3 ℝ) (hG : IsRot G) (g : V3 ℝ) :
    ∃ a, jacCols q fs = .ok a ∧ jacCols (q + w) fs = .ok (a.map fun c => ⟨c.top, c.bot + c.top.cross w⟩) ∧
      jacCols (g + G.mulVec q) (fs.map (moved G g)) = .ok (a.map fun c => ⟨G.mulVec c.top, G.mulVec c.bot⟩) := by
  have hx : ∀ a b : V3 ℝ, (hat a).mulVec b = a.cross b := by intro a b; ext <;> simp <;> ring
  induction fs with
  | nil => exact ⟨[], rfl, rfl, rfl⟩
  | cons f fs ih =>
    have n3 := ht f (by simp)
    obtain ⟨a, e1, e2, e3⟩ := ih fun y hy => ht y (by simp [hy])
    have d : (g + G.mulVec q) - (g + G.mulVec f.pO) = G.mulVec (q - f.pO) := by ext <;> simp <;> ring
    have z : G.mulVec 0 = 0 := by ext <;> simp
    have zc : (0 : V3 ℝ).cross w = 0 := by ext <;> simp
    by_cases h0 : f.ty = 0
    · refine ⟨⟨f.h, f.h.cross (q - f.pO)⟩ :: a, ?_, ?_, ?_⟩
      · rw [jacCols.eq_def]; simp only [h0, if_true, e1, hx]; rfl
      · rw [jacCols.eq_def]; simp only [h0, if_true, e2, hx, bind, Except.bind, pure, Except.pure, List.map_cons]
        congr 3
        ext <;> simp <;> ring
      · rw [List.map_cons, jacCols.eq_def]; simp only [moved, h0, if_true, hx, bind, Except.bind, pure, Except.pure, List.map_cons] at e3 ⊢
        rw [e3, d, ← hG.mulVec_cross]
    by_cases h1 : f.ty = 1
    · refine ⟨⟨0, f.h⟩ :: a, ?_, ?_, ?_⟩
      · rw [jacCols.eq_def]; simp only [h1, e1]; rfl
      · rw [jacCols.eq_def]; simp only [h1, e2, bind, Except.bind, pure, Except.pure, List.map_cons, zc, add_zero]; rfl
      · rw [List.map_cons, jacCols.eq_def]; simp only [moved, h1, bind, Except.bind, pure, Except.pure, List.map_cons, z] at e3 ⊢
        rw [e3]; rfl
    · refine ⟨⟨0, 0⟩ :: a, ?_, ?_, ?_⟩
      · rw [jacCols.eq_def]; simp only [h0, h1, n3, if_false, e1]; rfl
      · rw [jacCols.eq_def]; simp only [h0, h1, n3, if_false, e2, bind, Except.bind, pure, Except.pure, List.map_cons, zc, add_zero]
      · rw [List.map_cons, jacCols.eq_def]
        simp only [moved, h0, h1, n3, if_false, bind, Except.bind, pure, Except.pure, List.map_cons, z] at e3 ⊢
        rw [e3]

/-- `robotjacobian` in terms of its loops. -/
theorem jac_eq {r : Robot ℝ} (hb : r.Rtool = none ↔ r.ptool = none) {P0 : V3 ℝ} {Ps : List (V3 ℝ)} (hP : r.P = P0 :: Ps) {θ : List ℝ} {fs : List (JointFrame ℝ)}
    {R : M3 ℝ} {p : V3 ℝ} (h : jacLoop r.jointType r.H Ps θ (1, P0) = .ok (fs, R, p)) {a : List (V6 ℝ)}
    (ha : jacCols (p + R.mulVec (auxF r).p + (R * (auxF r).R).mulVec (auxX r).p) fs = .ok a) :
    robotjacobian r θ true = .ok (a.map fun c => ⟨(auxB r).R.mulVec c.top, (auxB r).R.mulVec c.bot⟩) := by
  have z : ∀ (v : V3 ℝ) (M : M3 ℝ), v + M.mulVec 0 = v := by intro v M; ext <;> simp
  unfold robotjacobian
  rw [hP]
  simp only [checkLimits, if_true, h, bind, Except.bind]
  rcases h1 : r.Rtool with _ | Rt <;> rcases h2 : r.ptool with _ | pt <;> rcases h3 : r.Tflange with _ | F <;>
    rcases h4 : r.Tbase with _ | B <;>
    simp_all [auxF, auxX, auxB, identityTransform, pure, Except.pure, M3.one_mulVec]

end MountL

open MountL

/-! ## Theorems -/

/-- **C115.** The joined chain reaches exactly the products of the poses of the two robots; with the limits checked, exactly when both
robots pass their checks. -/
theorem C115_fwdkin (A B : Robot ℝ) (wA : A.WF) (wB : B.WF) (θA θB : List ℝ) (hA : θA.length = A.H.length) (hB : θB.length = B.H.length)
    (ig : Bool) (hlim : ig = true ∨ Spec.Limited A ∧ Spec.Limited B) (T : Transform ℝ) :
    fwdkin (Spec.mounted A B) (θA ++ θB) ig = .ok T ↔
      ∃ TA TB, fwdkin A θA ig = .ok TA ∧ fwdkin B θB ig = .ok TB ∧ T = TA * TB := by
  obtain ⟨P0, Ps, Q0, Qs, M0, Ms, fA, RA, pA, fB, RB, pB, hPA, hPB, hPM, a1, -, -, b1, -, -, m1, -⟩ := run wA wB hA hB
  have hc : checkLimits (Spec.mounted A B) (θA ++ θB) ig = .ok () ↔ checkLimits A θA ig = .ok () ∧ checkLimits B θB ig = .ok () := by
    cases ig with
    | true => simp [checkLimits]
    | false =>
      obtain ⟨l1, l2⟩ := hlim.resolve_left (by simp)
      exact limits l1 l2 hA hB
  rw [kin_ok hPM m1, hc, aux_eq A B wA wB]
  constructor
  · rintro ⟨⟨c1, c2⟩, rfl⟩
    exact ⟨_, _, (kin_ok hPA a1 _).2 ⟨c1, rfl⟩, (kin_ok hPB b1 _).2 ⟨c2, rfl⟩, rfl⟩
  · rintro ⟨TA, TB, h1, h2, rfl⟩
    obtain ⟨c1, rfl⟩ := (kin_ok hPA a1 _).1 h1
    obtain ⟨c2, rfl⟩ := (kin_ok hPB b1 _).1 h2
    exact ⟨⟨c1, c2⟩, rfl⟩

/-- **C115.** Without mobile joints, the columns of the joined chain are those of `A`, moved to the tool of `B`, followed by those of `B`,
turned by the orientation of the tool of `A`. -/
theorem C115_jacobian (A B : Robot ℝ) (wA : A.WF) (wB : B.WF) (tA : ∀ t ∈ A.jointType, t ≠ 3) (tB : ∀ t ∈ B.jointType, t ≠ 3)
    (θA θB : List ℝ) (hA : θA.length = A.H.length) (hB : θB.length = B.H.length) :
    ∃ TA TB JA JB, fwdkin A θA true = .ok TA ∧ fwdkin B θB true = .ok TB ∧ robotjacobian A θA true = .ok JA ∧
      robotjacobian B θB true = .ok JB ∧
      robotjacobian (Spec.mounted A B) (θA ++ θB) true =
        .ok (JA.map (fun c => ⟨c.top, c.bot + c.top.cross (TA.R.mulVec TB.p)⟩) ++
          JB.map fun c => ⟨TA.R.mulVec c.top, TA.R.mulVec c.bot⟩) := by
  obtain ⟨P0, Ps, Q0, Qs, M0, Ms, fA, RA, pA, fB, RB, pB, hPA, hPB, hPM, a1, a2, a3, b1, b2, b3, -, m2⟩ := run wA wB hA hB
  have hX := adapter_rot wA wB
  have hRA : IsRot RA := by
    have lp := wA.columns
    obtain ⟨R', p', e, hr, -⟩ := fwdLoop_act A.jointType A.H Ps θA wA.joints.symm (by rw [wA.joints]; simpa [hPA] using lp)
      (by rw [hA, wA.joints]) wA.unit wA.types 1 P0 IsRot.one
    rw [a1] at e
    simp only [Except.ok.injEq, Prod.mk.injEq] at e
    rw [e.1]; exact hr
  have nA : ∀ f ∈ fA, f.ty ≠ 3 := fun f hf => tA f.ty (by rw [← a3]; exact List.mem_map_of_mem hf)
  have nB : ∀ f ∈ fB, f.ty ≠ 3 := fun f hf => tB f.ty (by rw [← b3]; exact List.mem_map_of_mem hf)
  let TA := applyAux A ⟨RA, pA, none, none⟩
  let TB := applyAux B ⟨RB, pB, none, none⟩
  let w := (RA * (auxF A).R * (auxX A).R).mulVec TB.p
  obtain ⟨a, c1, c2, -⟩ := cols_ok (pA + RA.mulVec (auxF A).p + (RA * (auxF A).R).mulVec (auxX A).p) fA nA w 1 IsRot.one 0
  obtain ⟨b, d1, -, d3⟩ := cols_ok (pB + RB.mulVec (auxF B).p + (RB * (auxF B).R).mulVec (auxX B).p) fB nB 0
    (RA * (Spec.adapter A B).R) (hRA.mul hX) (pA + RA.mulVec (Spec.adapter A B).p)
  have f1 : (auxF (Spec.mounted A B)).R = (Spec.adapter A B).R * (auxF B).R := by
    rcases h : B.Tflange with _ | F <;> simp [auxF, Spec.mounted, h, identityTransform]
  have f2 : (auxF (Spec.mounted A B)).p = (Spec.adapter A B).R.mulVec (auxF B).p := by
    rcases h : B.Tflange with _ | F <;> simp [auxF, Spec.mounted, h, identityTransform]
  have f3 : auxX (Spec.mounted A B) = auxX B := rfl
  have f4 : auxB (Spec.mounted A B) = auxB A := rfl
  have q1 : pA + RA.mulVec (auxF A).p + (RA * (auxF A).R).mulVec (auxX A).p + w = pA + RA.mulVec (Spec.adapter A B).p +
      (RA * (Spec.adapter A B).R).mulVec (pB + RB.mulVec (auxF B).p + (RB * (auxF B).R).mulVec (auxX B).p) := by
    simp only [w, TB, applyAux_p, Spec.adapter, Transform.mul_R, Transform.mul_p, M3.mulVec_add, M3.mulVec_mulVec, M3.mul_assoc', add_assoc]
  have q2 : pA + RA.mulVec (Spec.adapter A B).p + (RA * (Spec.adapter A B).R).mulVec pB +
      (RA * (Spec.adapter A B).R * RB * (Spec.adapter A B).R.transpose).mulVec (auxF (Spec.mounted A B)).p +
      (RA * (Spec.adapter A B).R * RB * (Spec.adapter A B).R.transpose * (auxF (Spec.mounted A B)).R).mulVec (auxX (Spec.mounted A B)).p =
      pA + RA.mulVec (Spec.adapter A B).p +
      (RA * (Spec.adapter A B).R).mulVec (pB + RB.mulVec (auxF B).p + (RB * (auxF B).R).mulVec (auxX B).p) := by
    have c : ∀ C D : M3 ℝ, C * (Spec.adapter A B).R.transpose * ((Spec.adapter A B).R * D) = C * D := by
      intro C D
      rw [M3.mul_assoc', ← M3.mul_assoc' (Spec.adapter A B).R.transpose, hX.orth, M3.one_mul']
    rw [f1, f2, f3, c, M3.mulVec_mulVec, M3.mul_assoc' _ (Spec.adapter A B).R.transpose, hX.orth, M3.mul_one']
    simp only [M3.mulVec_add, M3.mulVec_mulVec, M3.mul_assoc', add_assoc]
  have wM := jac_eq (r := Spec.mounted A B) wB.toolBoth hPM m2
    (by rw [q2]; exact cols_append _ fA _ nA (by rw [← q1]; exact c2) d3)
  refine ⟨TA, TB, _, _, (kin_ok hPA a1 _).2 ⟨rfl, rfl⟩, (kin_ok hPB b1 _).2 ⟨rfl, rfl⟩, jac_eq wA.toolBoth hPA a2 c1, jac_eq wB.toolBoth hPB b2 d1, ?_⟩
  rw [wM, f4]
  have hw : TA.R.mulVec TB.p = (auxB A).R.mulVec w := by
    simp only [TA, w, applyAux_R, M3.mulVec_mulVec]
  have hG : ∀ v : V3 ℝ, (auxB A).R.mulVec ((RA * (Spec.adapter A B).R).mulVec v) = TA.R.mulVec ((auxB B).R.mulVec v) := by
    intro v
    simp only [TA, applyAux_R, M3.mulVec_mulVec, Spec.adapter, Transform.mul_R, M3.mul_assoc']
  rw [hw]
  simp only [List.map_append, List.map_map, Function.comp_def, hG, M3.mulVec_add, (auxB_rot wA).mulVec_cross]

/-- A turning joint carried by a rail, both with limits, the rail with a flange that turns the arm on its side: the axis of the arm is
written in the frame of the rail. -/
example : ∃ A B : Robot ℝ, A.WF ∧ B.WF ∧ Spec.Limited A ∧ Spec.Limited B ∧ (∀ t ∈ A.jointType, t ≠ 3) ∧ (∀ t ∈ B.jointType, t ≠ 3) ∧
    (Spec.mounted A B).H = [⟨1, 0, 0⟩, ⟨0, -1, 0⟩] ∧ B.H = [⟨0, 0, 1⟩] ∧ (Spec.mounted A B).P = [0, ⟨0, -3, 5⟩, ⟨2, 0, 0⟩] ∧
    (Spec.mounted A B).lower = some [0, -1] := by
  refine ⟨{ H := [⟨1, 0, 0⟩], P := [0, ⟨0, 0, 1⟩], jointType := [1], lower := some [0], upper := some [9], Tflange := some ⟨⟨1, 0, 0, 0, 0, -1, 0, 1, 0⟩, ⟨0, 0, 4⟩, none, none⟩ },
    { H := [⟨0, 0, 1⟩], P := [⟨0, 0, 3⟩, ⟨2, 0, 0⟩], jointType := [0], lower := some [-1], upper := some [1] }, ?_, ?_,
    ⟨_, _, rfl, rfl, rfl, rfl⟩, ⟨_, _, rfl, rfl, rfl, rfl⟩, by simp, by simp, ?_, rfl, ?_, rfl⟩
  · refine ⟨rfl, rfl, by simp, by simp [IsUnit3], by simp, ?_, by simp, by simp⟩
    intro F hF
    simp only [Option.some.injEq] at hF
    subst hF
    exact ⟨by ext <;> norm_num, by norm_num [M3.det]⟩
  · exact ⟨rfl, rfl, by simp, by simp [IsUnit3], by simp, by simp, by simp, by simp⟩
  · simp only [Spec.mounted, Spec.adapter, auxF, auxX, auxB, identityTransform, List.map_cons, List.map_nil, List.cons_append, List.nil_append,
      List.cons.injEq, and_true, true_and]
    ext <;> simp
  · simp only [Spec.mounted, Spec.adapter, auxF, auxX, auxB, identityTransform, Spec.joinOffsets, List.map_cons, List.map_nil,
      List.cons.injEq, and_true, true_and]
    constructor <;> ext <;> simp <;> norm_num
