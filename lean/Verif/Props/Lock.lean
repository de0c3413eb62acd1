import Verif.Props.Rezero
import Verif.Props.Mount
import Verif.Lemmas.Taylor

/-!
# Property C116: a robot with a locked joint

`Spec.locked r i a` is the description of the robot that remains when joint `i` is clamped at the value `a`: the robot is described from the
configuration in which joint `i` is at `a` and the others are at zero (`Spec.rezero`), then joint `i` is left out and the offsets before
and behind it are added.
-/
set_option autoImplicit false

/-- The entries `i` and `i + 1` replaced by their sum. -/
def Spec.mergeAt : List (V3 ℝ) → Nat → List (V3 ℝ)
  | P :: Q :: Ps, 0 => (P + Q) :: Ps
  | P :: Ps, i + 1 => P :: Spec.mergeAt Ps i
  | Ps, _ => Ps

/-- The robot without joint `i`, which stays at zero. -/
def Spec.without (r : Robot ℝ) (i : Nat) : Robot ℝ :=
  { r with
    H := r.H.eraseIdx i
    P := Spec.mergeAt r.P i
    jointType := r.jointType.eraseIdx i
    lower := r.lower.map (·.eraseIdx i)
    upper := r.upper.map (·.eraseIdx i) }

noncomputable def Spec.locked (r : Robot ℝ) (i : Nat) (a : ℝ) : Robot ℝ :=
  Spec.without (Spec.rezero r ((List.replicate r.H.length 0).set i a)) i

/-! ## Helper lemmas -/

namespace LockL

theorem rot_zero' (h : V3 ℝ) : rot h 0 = 1 := by ext <;> simp [rot]

theorem step_zero (t : Nat) (h P : V3 ℝ) (R : M3 ℝ) (p : V3 ℝ) : fwdStep t h P 0 (R, p) = (R, p + R.mulVec P) := by
  unfold fwdStep
  split_ifs
  · dsimp only
    rw [rot_zero', M3.mul_one']
  · dsimp only
    congr 2
    ext <;> simp
  · rfl

theorem loops (i : Nat) (ts : List Nat) (hs : List (V3 ℝ)) (P0 : V3 ℝ) (Ps : List (V3 ℝ)) (θs : List ℝ) (lh : hs.length = ts.length)
    (lP : Ps.length = ts.length) (lθ : θs.length = ts.length) (hi : i < ts.length) (h0 : θs[i]? = some 0) (R : M3 ℝ) (p : V3 ℝ) :
    ∃ M0 Ms fs R' p', Spec.mergeAt (P0 :: Ps) i = M0 :: Ms ∧ fs.map (·.ty) = ts ∧
      fwdLoop ts hs Ps θs (R, p + R.mulVec P0) = .ok (R', p') ∧ jacLoop ts hs Ps θs (R, p + R.mulVec P0) = .ok (fs, R', p') ∧
      fwdLoop (ts.eraseIdx i) (hs.eraseIdx i) Ms (θs.eraseIdx i) (R, p + R.mulVec M0) = .ok (R', p') ∧
      jacLoop (ts.eraseIdx i) (hs.eraseIdx i) Ms (θs.eraseIdx i) (R, p + R.mulVec M0) = .ok (fs.eraseIdx i, R', p') := by
  induction i generalizing ts hs P0 Ps θs R p with
  | zero =>
    obtain _ | ⟨t, ts⟩ := ts
    · simp at hi
    obtain _ | ⟨h, hs⟩ := hs
    · simp at lh
    obtain _ | ⟨P1, Ps⟩ := Ps
    · simp at lP
    obtain _ | ⟨θ, θs⟩ := θs
    · simp at lθ
    obtain rfl : θ = 0 := by simpa using h0
    have e : p + R.mulVec (P0 + P1) = p + R.mulVec P0 + R.mulVec P1 := by rw [M3.mulVec_add, add_assoc]
    obtain ⟨fs, R', p', j1, j2⟩ := jacLoop_ok ts hs Ps θs (by simpa using lh) (by simpa using lP) (by simpa using lθ)
      (R, p + R.mulVec P0 + R.mulVec P1)
    have f1 : fwdLoop ts hs Ps θs (R, p + R.mulVec P0 + R.mulVec P1) = .ok (R', p') := jacLoop_fwd _ _ _ _ _ _ _ _ j1
    refine ⟨P0 + P1, Ps, ⟨t, p + R.mulVec P0, R.mulVec h, 0⟩ :: fs, R', p', rfl, by simp [j2], ?_, ?_, ?_, ?_⟩
    · simp only [fwdLoop, step_zero]; exact f1
    · simp only [jacLoop, step_zero]; rw [j1]; rfl
    · simp only [List.eraseIdx_cons_zero]; rw [e]; exact f1
    · simp only [List.eraseIdx_cons_zero]; rw [e]; exact j1
  | succ i ih =>
    obtain _ | ⟨t, ts⟩ := ts
    · simp at hi
    obtain _ | ⟨h, hs⟩ := hs
    · simp at lh
    obtain _ | ⟨P1, Ps⟩ := Ps
    · simp at lP
    obtain _ | ⟨θ, θs⟩ := θs
    · simp at lθ
    obtain ⟨A, q, hA⟩ := MountL.step_form t h θ R (p + R.mulVec P0)
    obtain ⟨M0, Ms, fs, R', p', e1, e2, e3, e4, e5, e6⟩ := ih ts hs P1 Ps θs (by simpa using lh) (by simpa using lP) (by simpa using lθ)
      (by simpa using hi) (by simpa using h0) A q
    refine ⟨P0, M0 :: Ms, ⟨t, p + R.mulVec P0, A.mulVec h, θ⟩ :: fs, R', p', by simp [Spec.mergeAt, e1], by simp [e2], ?_, ?_, ?_, ?_⟩
    · simp only [fwdLoop, hA]; exact e3
    · simp only [jacLoop, hA]; rw [e4]; rfl
    · simp only [List.eraseIdx_cons_succ, fwdLoop, hA]; exact e5
    · simp only [List.eraseIdx_cons_succ, jacLoop, hA]; rw [e6]; rfl

theorem cols_erase (q : V3 ℝ) (fs : List (JointFrame ℝ)) (ht : ∀ f ∈ fs, f.ty ≠ 3) (i : Nat) :
    jacCols q (fs.eraseIdx i) = (jacCols q fs).map (·.eraseIdx i) := by
  induction fs generalizing i with
  | nil => simp [jacCols, Except.map]
  | cons f fs ih =>
    have n3 := ht f (by simp)
    have ih' := ih fun y hy => ht y (by simp [hy])
    obtain ⟨a, ha, -, -⟩ := MountL.cols_ok q fs (fun y hy => ht y (by simp [hy])) 0 1 IsRot.one 0
    obtain ⟨c, hc⟩ : ∃ c, ∀ (gs : List (JointFrame ℝ)) (b : List (V6 ℝ)), jacCols q gs = .ok b → jacCols q (f :: gs) = .ok (c :: b) := by
      by_cases h0 : f.ty = 0
      · exact ⟨_, fun gs b hb => by rw [jacCols.eq_def]; simp only [h0, if_true, hb]; rfl⟩
      by_cases h1 : f.ty = 1
      · exact ⟨_, fun gs b hb => by rw [jacCols.eq_def]; simp only [h1, hb]; rfl⟩
      · exact ⟨_, fun gs b hb => by rw [jacCols.eq_def]; simp only [h0, h1, n3, if_false, hb]; rfl⟩
    cases i with
    | zero => rw [hc fs a ha]; simp only [List.eraseIdx_cons_zero, Except.map, ha]
    | succ i =>
      have e := ih' i
      rw [ha] at e
      rw [List.eraseIdx_cons_succ, hc _ _ e, hc fs a ha]
      rfl

end LockL

open LockL RezeroL

/-! ## Theorems -/

/-- A joint that stays at zero can be left out. -/
theorem C116_without (r : Robot ℝ) (wf : r.WF) (i : Nat) (hi : i < r.H.length) (θ : List ℝ) (lθ : θ.length = r.H.length)
    (h0 : θ[i]? = some 0) :
    fwdkin (Spec.without r i) (θ.eraseIdx i) true = fwdkin r θ true ∧
      ((∀ t ∈ r.jointType, t ≠ 3) →
        robotjacobian (Spec.without r i) (θ.eraseIdx i) true = (robotjacobian r θ true).map (·.eraseIdx i)) := by
  have lp := wf.columns
  rcases hP : r.P with _ | ⟨P0, Ps⟩
  · simp [hP] at lp
  obtain ⟨M0, Ms, fs, R', p', e1, e2, e3, e4, e5, e6⟩ := loops i r.jointType r.H P0 Ps θ wf.joints.symm
    (by rw [wf.joints]; simpa [hP] using lp) (by rw [lθ, wf.joints]) (by rw [wf.joints]; exact hi) h0 1 0
  have z : ∀ v : V3 ℝ, (0 : V3 ℝ) + (1 : M3 ℝ).mulVec v = v := by intro v; ext <;> simp
  rw [z] at e3 e4 e5 e6
  have hM : (Spec.without r i).P = M0 :: Ms := by simp [Spec.without, hP, e1]
  constructor
  · have k1 := (MountL.kin_ok (ig := true) hP e3 _).2 ⟨rfl, rfl⟩
    have k2 := (MountL.kin_ok (r := Spec.without r i) (ig := true) hM e5 _).2 ⟨rfl, rfl⟩
    rw [k1, k2]; rfl
  · intro ht
    have h3 : ∀ f ∈ fs, f.ty ≠ 3 := fun f hf => ht f.ty (by rw [← e2]; exact List.mem_map_of_mem hf)
    obtain ⟨a, ha, -, -⟩ := MountL.cols_ok (p' + R'.mulVec (auxF r).p + (R' * (auxF r).R).mulVec (auxX r).p) fs h3 0 1 IsRot.one 0
    have hb := cols_erase (p' + R'.mulVec (auxF r).p + (R' * (auxF r).R).mulVec (auxX r).p) fs h3 i
    rw [ha] at hb
    rw [MountL.jac_eq wf.toolBoth hP e4 ha, MountL.jac_eq (r := Spec.without r i) wf.toolBoth hM e6 hb]
    simp only [Except.map, List.eraseIdx_map]
    rfl

theorem LockL.split (n i : Nat) (a : ℝ) (θ : List ℝ) (lθ : θ.length = n) (hi : i < n) (ha : θ[i]? = some a) :
    List.zipWith (· + ·) ((List.replicate n 0).set i a) (θ.set i 0) = θ ∧ (θ.set i 0)[i]? = some 0 ∧ (θ.set i 0).eraseIdx i = θ.eraseIdx i := by
  refine ⟨?_, by simp [lθ, hi], ?_⟩
  · apply List.ext_getElem
    · simp [lθ]
    · intro k h1 h2
      simp only [List.getElem_zipWith, List.getElem_set, List.getElem_replicate]
      by_cases hk : i = k
      · subst hk
        rw [List.getElem?_eq_getElem h2, Option.some.injEq] at ha
        simp [ha]
      · simp [hk]
  · exact List.eraseIdx_set_eq

/-- **C116.** The robot with joint `i` locked at `a` reaches the poses that the robot reaches with joint `i` at `a`. -/
theorem C116_fwdkin (r : Robot ℝ) (wf : r.WF) (hl : ∀ l, r.lower = some l → l.length = r.H.length)
    (hu : ∀ u, r.upper = some u → u.length = r.H.length) (i : Nat) (hi : i < r.H.length) (a : ℝ) (θ : List ℝ)
    (lθ : θ.length = r.H.length) (ha : θ[i]? = some a) :
    fwdkin (Spec.locked r i a) (θ.eraseIdx i) true = fwdkin r θ true := by
  obtain ⟨s1, s2, s3⟩ := LockL.split r.H.length i a θ lθ hi ha
  have lc : ((List.replicate r.H.length 0).set i a).length = r.H.length := by simp
  have wz := C114_wf r wf _ lc
  have lH : (Spec.rezero r ((List.replicate r.H.length 0).set i a)).H.length = r.H.length := by
    rw [← wz.joints]; exact wf.joints
  have e := (C116_without _ wz i (by rw [lH]; exact hi) (θ.set i 0) (by simp [lH, lθ]) s2).1
  rw [s3, C114_fwdkin r wf _ (θ.set i 0) lc (by simp [lθ]) hl hu, s1] at e
  exact e

/-- **C116.** Its Jacobian is that of the robot without column `i`, when no joint is of the mobile type 3. -/
theorem C116_jacobian (r : Robot ℝ) (wf : r.WF) (ht : ∀ t ∈ r.jointType, t ≠ 3) (hl : ∀ l, r.lower = some l → l.length = r.H.length)
    (hu : ∀ u, r.upper = some u → u.length = r.H.length) (i : Nat) (hi : i < r.H.length) (a : ℝ) (θ : List ℝ)
    (lθ : θ.length = r.H.length) (ha : θ[i]? = some a) :
    robotjacobian (Spec.locked r i a) (θ.eraseIdx i) true = (robotjacobian r θ true).map (·.eraseIdx i) := by
  obtain ⟨s1, s2, s3⟩ := LockL.split r.H.length i a θ lθ hi ha
  have lc : ((List.replicate r.H.length 0).set i a).length = r.H.length := by simp
  have wz := C114_wf r wf _ lc
  have lH : (Spec.rezero r ((List.replicate r.H.length 0).set i a)).H.length = r.H.length := by
    rw [← wz.joints]; exact wf.joints
  have e := (C116_without _ wz i (by rw [lH]; exact hi) (θ.set i 0) (by simp [lH, lθ]) s2).2 ht
  rw [s3, C114_jacobian r wf ht _ (θ.set i 0) lc (by simp [lθ]) hl hu, s1] at e
  exact e

/-- Three turning joints, the second locked at a quarter turn: two joints remain, with a bent arm. -/
example : ∃ (r : Robot ℝ) (θ : List ℝ), r.WF ∧ (∀ t ∈ r.jointType, t ≠ 3) ∧ (∀ l, r.lower = some l → l.length = r.H.length) ∧
    (∀ u, r.upper = some u → u.length = r.H.length) ∧ 1 < r.H.length ∧ θ.length = r.H.length ∧ θ[1]? = some (Real.pi / 2) ∧
    (Spec.locked r 1 (Real.pi / 2)).jointType = [0, 0] ∧ (Spec.locked r 1 (Real.pi / 2)).P = [0, ⟨1, 2, 0⟩, ⟨0, 4, 0⟩] := by
  refine ⟨{ H := [V3.ez, V3.ez, V3.ez], P := [0, ⟨1, 0, 0⟩, ⟨2, 0, 0⟩, ⟨4, 0, 0⟩], jointType := [0, 0, 0] }, [3, Real.pi / 2, 5],
    ⟨rfl, rfl, by simp, by simp [IsUnit3], by simp, by simp, by simp, by simp⟩, by simp, by simp, by simp, by simp, rfl, rfl, rfl, ?_⟩
  have : IsRotary 0 := Or.inl rfl
  simp only [Spec.locked, Spec.without, Spec.rezero, Spec.rezeroP, Spec.turnedBehind, if_pos this, List.length_cons, List.length_nil,
    List.replicate, List.set, Spec.mergeAt, List.cons.injEq, and_true, true_and]
  constructor <;> ext <;> simp [rot, V3.ez]
