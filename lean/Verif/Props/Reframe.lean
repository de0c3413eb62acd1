import Verif.Lemmas.Opw
import Verif.Props.Kinematics
import Verif.Props.Iter

/-!
# Property C122: the frame in which a chain is written is a convention

The iterative solver is on the `XReal` instance, like C40 and C41.
-/
set_option autoImplicit false

/-- The robot whose axes and offsets are written in another frame: `x` is written `Q x + t`.  Base and flange take up the difference; where the
robot has none, the identity is meant. -/
def Spec.reframe (Q : M3 ℝ) (t : V3 ℝ) (r : Robot ℝ) : Robot ℝ :=
  { r with
    H := r.H.map Q.mulVec
    P := match r.P with
      | [] => []
      | P0 :: Ps => (Q.mulVec P0 + t) :: Ps.map Q.mulVec
    Tflange := some (match r.Tflange with
      | some F => ⟨Q * F.R, Q.mulVec F.p, F.parent, F.child⟩
      | none => ⟨Q, 0, none, none⟩)
    Tbase := some (match r.Tbase with
      | some B => ⟨B.R * Q.transpose, B.p - (B.R * Q.transpose).mulVec t, B.parent, B.child⟩
      | none => ⟨Q.transpose, -(Q.transpose.mulVec t), none, none⟩) }

/-! ## Helper lemmas -/

namespace ReframeL

variable {Q : M3 ℝ} (hQ : IsRot Q) (t : V3 ℝ)
include hQ

theorem cancel (M : M3 ℝ) (v : V3 ℝ) : (Q * M * Q.transpose).mulVec (Q.mulVec v) = Q.mulVec (M.mulVec v) := by
  rw [M3.mulVec_mulVec, M3.mul_assoc', hQ.orth, M3.mul_one', ← M3.mulVec_mulVec]

theorem step (k : Nat) (h P : V3 ℝ) (θ : ℝ) (Rp : M3 ℝ × V3 ℝ) :
    fwdStep k (Q.mulVec h) (Q.mulVec P) θ (Q * Rp.1 * Q.transpose, Q.mulVec Rp.2 + t) =
      (Q * (fwdStep k h P θ Rp).1 * Q.transpose, Q.mulVec (fwdStep k h P θ Rp).2 + t) := by
  have e : Q * Rp.1 * Q.transpose * (Q * rot h θ * Q.transpose) = Q * (Rp.1 * rot h θ) * Q.transpose := by
    calc Q * Rp.1 * Q.transpose * (Q * rot h θ * Q.transpose) = Q * Rp.1 * (Q.transpose * Q) * rot h θ * Q.transpose := by
          simp only [M3.mul_assoc']
      _ = _ := by rw [hQ.orth, M3.mul_one']; simp only [M3.mul_assoc']
  unfold fwdStep
  split_ifs
  · dsimp only
    rw [rot_conj hQ, e, cancel hQ, M3.mulVec_add]
    refine Prod.ext rfl ?_
    ext <;> simp <;> ring
  · dsimp only
    rw [cancel hQ, cancel hQ, M3.mulVec_add, M3.mulVec_add, M3.mulVec_smul]
    refine Prod.ext rfl ?_
    ext <;> simp <;> ring
  · dsimp only
    rw [cancel hQ, M3.mulVec_add]
    refine Prod.ext rfl ?_
    ext <;> simp <;> ring

theorem fwd (ts : List Nat) (hs Ps : List (V3 ℝ)) (θ : List ℝ) (Rp : M3 ℝ × V3 ℝ) :
    fwdLoop ts (hs.map Q.mulVec) (Ps.map Q.mulVec) θ (Q * Rp.1 * Q.transpose, Q.mulVec Rp.2 + t) =
      (fwdLoop ts hs Ps θ Rp).map fun x => (Q * x.1 * Q.transpose, Q.mulVec x.2 + t) := by
  induction ts generalizing hs Ps θ Rp with
  | nil => rfl
  | cons k ts ih =>
    rcases hs with _ | ⟨h, hs⟩
    · simp [fwdLoop, Except.map]
    rcases Ps with _ | ⟨P, Ps⟩
    · simp [fwdLoop, Except.map]
    rcases θ with _ | ⟨x, θ⟩
    · simp [fwdLoop, Except.map]
    simp only [List.map_cons, fwdLoop, step hQ t]
    exact ih hs Ps θ _

/-- a recorded frame in the other frame -/
noncomputable def conj (Q : M3 ℝ) (t : V3 ℝ) (f : JointFrame ℝ) : JointFrame ℝ := ⟨f.ty, Q.mulVec f.pO + t, Q.mulVec f.h, f.th⟩

theorem jac (ts : List Nat) (hs Ps : List (V3 ℝ)) (θ : List ℝ) (Rp : M3 ℝ × V3 ℝ) :
    jacLoop ts (hs.map Q.mulVec) (Ps.map Q.mulVec) θ (Q * Rp.1 * Q.transpose, Q.mulVec Rp.2 + t) =
      (jacLoop ts hs Ps θ Rp).map fun x => (x.1.map (conj Q t), Q * x.2.1 * Q.transpose, Q.mulVec x.2.2 + t) := by
  induction ts generalizing hs Ps θ Rp with
  | nil => rfl
  | cons k ts ih =>
    rcases hs with _ | ⟨h, hs⟩
    · simp [jacLoop, Except.map]
    rcases Ps with _ | ⟨P, Ps⟩
    · simp [jacLoop, Except.map]
    rcases θ with _ | ⟨x, θ⟩
    · simp [jacLoop, Except.map]
    simp only [List.map_cons, jacLoop, step hQ t, ih hs Ps θ (fwdStep k h P x Rp)]
    rcases jacLoop ts hs Ps θ (fwdStep k h P x Rp) with e | ⟨fs, R, p⟩
    · rfl
    · simp only [Except.map, bind, Except.bind, pure, Except.pure, List.map_cons, conj, cancel hQ]

theorem lever (h q x : V3 ℝ) : (hat (Q.mulVec h)).mulVec (Q.mulVec q + t - (Q.mulVec x + t)) = Q.mulVec ((hat h).mulVec (q - x)) := by
  rw [hat_mulVec, hat_mulVec, hQ.mulVec_cross, M3.mulVec_sub]
  congr 1
  ext <;> simp

/-- a column in the other frame -/
noncomputable def col (Q : M3 ℝ) (c : V6 ℝ) : V6 ℝ := ⟨Q.mulVec c.top, Q.mulVec c.bot⟩

theorem cols (q : V3 ℝ) : ∀ (n : Nat) (fs : List (JointFrame ℝ)), fs.length ≤ n →
    jacCols (Q.mulVec q + t) (fs.map (conj Q t)) = (jacCols q fs).map (·.map (col Q)) := by
  have z : Q.mulVec 0 = 0 := by ext <;> simp
  intro n
  induction n with
  | zero =>
    intro fs ln
    obtain rfl : fs = [] := by simpa using ln
    rfl
  | succ n ih =>
    intro fs ln
    rcases fs with _ | ⟨f, fs⟩
    · rfl
    have r1 := ih fs (by simpa using ln)
    rw [List.map_cons, jacCols.eq_def _ (conj Q t f :: _), jacCols.eq_def q (f :: fs)]
    dsimp only
    rw [r1]
    have e1 : (conj Q t f).ty = f.ty := rfl
    rw [e1]
    split_ifs
    · rcases jacCols q fs with e | l
      · rfl
      · simp only [Except.map, bind, Except.bind, pure, Except.pure, List.map_cons, col, conj, lever hQ]
    · rcases jacCols q fs with e | l
      · rfl
      · simp only [Except.map, bind, Except.bind, pure, Except.pure, List.map_cons, col, conj, z]
    · rcases fs with _ | ⟨a, _ | ⟨g, fs⟩⟩
      · rfl
      · rfl
      have r2 := ih fs (by simp only [List.length_cons] at ln; omega)
      simp only [List.map_cons]
      rw [r2]
      rcases jacCols q fs with e | l
      · rfl
      · simp only [Except.map, bind, Except.bind, pure, Except.pure, List.map_cons, col, conj, lever hQ, z, rot_conj hQ, cancel hQ]
    · rcases jacCols q fs with e | l
      · rfl
      · simp only [Except.map, bind, Except.bind, pure, Except.pure, List.map_cons, col, z]

theorem aux (r : Robot ℝ) (R : M3 ℝ) (p : V3 ℝ) :
    applyAux (Spec.reframe Q t r) ⟨Q * R * Q.transpose, Q.mulVec p + t, none, none⟩ = applyAux r ⟨R, p, none, none⟩ := by
  have m : ∀ A B : Transform ℝ, A * B = ⟨A.R * B.R, A.p + A.R.mulVec B.p, A.parent, B.child⟩ := fun _ _ => rfl
  have c1 : ∀ M : M3 ℝ, Q * R * Q.transpose * (Q * M) = Q * (R * M) := by
    intro M
    calc Q * R * Q.transpose * (Q * M) = Q * R * (Q.transpose * Q) * M := by simp only [M3.mul_assoc']
      _ = _ := by rw [hQ.orth, M3.mul_one', M3.mul_assoc']
  have c2 : Q * R * Q.transpose * Q = Q * R := by rw [M3.mul_assoc', hQ.orth, M3.mul_one']
  have c3 : ∀ M : M3 ℝ, Q.transpose * (Q * M) = M := by intro M; rw [← M3.mul_assoc', hQ.orth, M3.one_mul']
  have c4 : ∀ v : V3 ℝ, Q.transpose.mulVec (Q.mulVec v) = v := by intro v; rw [M3.mulVec_mulVec, hQ.orth, M3.one_mulVec]
  have c5 : ∀ M : M3 ℝ, M.mulVec 0 = 0 := by intro M; ext <;> simp
  have a0 : ∀ v : V3 ℝ, v + 0 = v := by intro v; ext <;> simp
  rcases hB : r.Tbase with _ | B <;> rcases hF : r.Tflange with _ | F <;> rcases hR : r.Rtool with _ | X <;> rcases hp : r.ptool with _ | y <;>
    simp only [applyAux, Spec.reframe, hB, hF, hR, hp, m, c1, c2, cancel hQ, c5, a0] <;>
    simp only [Transform.mk.injEq, and_true, true_and, M3.mul_assoc', c3, c4, M3.mulVec_add, ← M3.mulVec_mulVec] <;>
    first
      | (refine ⟨?_, ?_⟩ <;> first
          | (rw [hQ.orth]; simp [M3.mul_assoc'])
          | (ext <;> simp <;> ring)
          | skip)
      | (ext <;> simp <;> ring)
      | skip

end ReframeL

open ReframeL

/-- **C122.** Writing the axes and offsets of a robot in any other frame, and letting base and flange take up the difference, changes no pose:
`fwdkin` answers the same, frame ids and exceptions included.  All joint types, all joint values. -/
theorem C122_fwdkin (Q : M3 ℝ) (hQ : IsRot Q) (t : V3 ℝ) (r : Robot ℝ) (θ : List ℝ) (ig : Bool) :
    fwdkin (Spec.reframe Q t r) θ ig = fwdkin r θ ig := by
  have hc : checkLimits (Spec.reframe Q t r) θ ig = checkLimits r θ ig := rfl
  have h1 : (1 : M3 ℝ) = Q * 1 * Q.transpose := by rw [M3.mul_one', hQ.orth']
  simp only [fwdkin, hc]
  rcases checkLimits r θ ig with e | ⟨⟩
  · rfl
  simp only [Except.bind_ok]
  rcases hP : r.P with _ | ⟨P0, Ps⟩
  · simp only [Spec.reframe, hP]
  have hP' : (Spec.reframe Q t r).P = (Q.mulVec P0 + t) :: Ps.map Q.mulVec := by simp only [Spec.reframe, hP]
  have e := fwd hQ t r.jointType r.H Ps θ (1, P0)
  dsimp only at e
  rw [← h1] at e
  simp only [hP']
  have e' : fwdLoop (Spec.reframe Q t r).jointType (Spec.reframe Q t r).H (Ps.map Q.mulVec) θ (1, Q.mulVec P0 + t) = _ := e
  rw [e']
  rcases fwdLoop r.jointType r.H Ps θ (1, P0) with e | ⟨R, p⟩
  · rfl
  · simp only [Except.map, Except.bind_ok, aux hQ]

/-- **C122.** Nor does it change the Jacobian, exceptions included. -/
theorem C122_jacobian (Q : M3 ℝ) (hQ : IsRot Q) (t : V3 ℝ) (r : Robot ℝ) (θ : List ℝ) (ig : Bool) :
    robotjacobian (Spec.reframe Q t r) θ ig = robotjacobian r θ ig := by
  have hc : checkLimits (Spec.reframe Q t r) θ ig = checkLimits r θ ig := rfl
  have h1 : (1 : M3 ℝ) = Q * 1 * Q.transpose := by rw [M3.mul_one', hQ.orth']
  simp only [robotjacobian, hc]
  rcases checkLimits r θ ig with e | ⟨⟩
  · rfl
  simp only [Except.bind_ok]
  rcases hP : r.P with _ | ⟨P0, Ps⟩
  · simp only [Spec.reframe, hP]
  have hP' : (Spec.reframe Q t r).P = (Q.mulVec P0 + t) :: Ps.map Q.mulVec := by simp only [Spec.reframe, hP]
  have e := jac hQ t r.jointType r.H Ps θ (1, P0)
  dsimp only at e
  rw [← h1] at e
  simp only [hP']
  have e' : jacLoop (Spec.reframe Q t r).jointType (Spec.reframe Q t r).H (Ps.map Q.mulVec) θ (1, Q.mulVec P0 + t) = _ := e
  rw [e']
  rcases jacLoop r.jointType r.H Ps θ (1, P0) with e | ⟨fs, R, p⟩
  · rfl
  simp only [Except.map, Except.bind_ok]
  have c1 : ∀ M : M3 ℝ, Q * R * Q.transpose * (Q * M) = Q * (R * M) := by
    intro M
    calc Q * R * Q.transpose * (Q * M) = Q * R * (Q.transpose * Q) * M := by simp only [M3.mul_assoc']
      _ = _ := by rw [hQ.orth, M3.mul_one', M3.mul_assoc']
  have c2 : Q * R * Q.transpose * Q = Q * R := by rw [M3.mul_assoc', hQ.orth, M3.mul_one']
  have sh : ∀ a b : V3 ℝ, Q.mulVec a + t + Q.mulVec b = Q.mulVec (a + b) + t := by intro a b; ext <;> simp <;> ring
  have c5 : ∀ M : M3 ℝ, M.mulVec 0 = 0 := by intro M; ext <;> simp
  have a0 : ∀ v : V3 ℝ, v + 0 = v := by intro v; ext <;> simp
  have b1 : ∀ (M : M3 ℝ) (v : V3 ℝ), (M * Q.transpose).mulVec (Q.mulVec v) = M.mulVec v := by
    intro M v; rw [M3.mulVec_mulVec, M3.mul_assoc', hQ.orth, M3.mul_one']
  have b2 : ∀ v : V3 ℝ, Q.transpose.mulVec (Q.mulVec v) = v := by intro v; rw [M3.mulVec_mulVec, hQ.orth, M3.one_mulVec]
  have fin : ∀ q : V3 ℝ, jacCols (Q.mulVec q + t) (fs.map (conj Q t)) = (jacCols q fs).map (·.map (col Q)) :=
    fun q => cols hQ t q fs.length fs le_rfl
  rcases hB : r.Tbase with _ | B <;> rcases hF : r.Tflange with _ | F <;> rcases hp : r.ptool with _ | y <;>
    simp only [Spec.reframe, hB, hF, hp, c1, c2, cancel hQ, c5, a0, ← M3.mulVec_mulVec, M3.one_mulVec, M3.mul_one', sh, fin] <;>
    generalize jacCols _ fs = J <;> rcases J with e | J <;>
    simp [Except.map, bind, Except.bind, pure, Except.pure, col, b1, b2, Function.comp_def, M3.mulVec_mulVec, M3.mul_assoc', hQ.orth]

namespace ReframeL

theorem iter (pinv : Pinv XReal) (hpinv : Spec.finitePinv pinv) (Q : M3 ℝ) (hQ : IsRot Q) (t : V3 ℝ) (r : Robot ℝ) (wf : r.WF)
    (T : Transform ℝ) (hT : IsRot T.R) (Kp KR : M3 ℝ) (tol : XReal) (fuel : Nat) (x : List ℝ) (lx : x.length = r.H.length) :
    iterLoop pinv (Spec.reframe Q t r).up T.up Kp.up KR.up tol fuel (x.map .fin) = iterLoop pinv r.up T.up Kp.up KR.up tol fuel (x.map .fin) := by
  induction fuel generalizing x with
  | zero => rfl
  | succ fuel ih =>
    have hb' : iterBody pinv (Spec.reframe Q t r).up T.up Kp.up KR.up (x.map .fin) = iterBody pinv r.up T.up Kp.up KR.up (x.map .fin) := by
      simp only [iterBody, fwdkin_up, robotjacobian_up, C122_fwdkin Q hQ, C122_jacobian Q hQ]
    simp only [iterLoop]
    rw [hb']
    cases hb : iterBody pinv r.up T.up Kp.up KR.up (x.map .fin) with
    | error e => rfl
    | ok st =>
      obtain ⟨C, hC, hR⟩ := fwdkin_rigid r wf _ lx
      obtain ⟨k, θ, δ, _, _, _, _, hδ⟩ := iterBody_eval pinv hpinv r T C Kp KR _ hC hR hT st hb
      simp only [Except.bind_ok]
      rw [hδ]
      simp only [List.length_map]
      split_ifs with h1 h2
      · rfl
      · rw [zipWith_fin]
        exact ih _ (by simp [lx, h2])
      · rfl

end ReframeL

/-- **C122.** `iterative_invkin` goes through the same joint vectors and gives the same answer, exceptions included. -/
theorem C122_iterative (pinv : Pinv XReal) (hpinv : Spec.finitePinv pinv) (Q : M3 ℝ) (hQ : IsRot Q) (t : V3 ℝ) (r : Robot ℝ) (wf : r.WF)
    (seed : List ℝ) (lx : seed.length = r.H.length) (T : Transform ℝ) (hT : IsRot T.R) (Kp KR : M3 ℝ) (tol : XReal) (maxSteps : Int) :
    iterative_invkin pinv (Spec.reframe Q t r).up T.up (seed.map .fin) maxSteps Kp.up KR.up tol =
      iterative_invkin pinv r.up T.up (seed.map .fin) maxSteps Kp.up KR.up tol := by
  have hN : Normalizer.ofRobot (Spec.reframe Q t r).up (some (seed.map .fin)) true = Normalizer.ofRobot r.up (some (seed.map .fin)) true := rfl
  have hj : (Spec.reframe Q t r).up.jointType = r.up.jointType := rfl
  simp only [iterative_invkin, hN, hj, iter pinv hpinv Q hQ t r wf T hT Kp KR tol maxSteps.toNat seed lx]

/-- A sliding and a turning joint with a base, written in a frame turned by a quarter turn and moved. -/
example : ∃ (r : Robot ℝ) (Q : M3 ℝ), IsRot Q ∧ (Spec.reframe Q V3.ez r).H ≠ r.H ∧
    fwdkin (Spec.reframe Q V3.ez r) [1, 2] = fwdkin r [1, 2] := by
  refine ⟨{ H := [V3.ez, V3.ez], P := [0, V3.ex, V3.ex], jointType := [1, 0], Tbase := some ⟨1, V3.ex, none, none⟩ },
    rot V3.ex (Real.pi / 2), rot_isRot _ (by simp [IsUnit3]) _, ?_, C122_fwdkin _ (rot_isRot _ (by simp [IsUnit3]) _) _ _ _ _⟩
  intro h
  have := congrArg (fun l : List (V3 ℝ) => l.head?.map (·.z)) h
  simp [Spec.reframe, rot, V3.ex, V3.ez, hat, M3.mulVec] at this
