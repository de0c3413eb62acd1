import Verif.Lemmas.FlNorm
import Verif.Props.Lipschitz
import Verif.Props.RoundingRpy

/-! # Property C76: a convergence reported by `iterative_invkin` is right in floating-point arithmetic -/
set_option autoImplicit false

theorem B64.rnd_int (n : ℤ) : ∃ m : ℤ, B64.rnd n = m := by
  unfold B64.rnd
  by_cases he : 0 ≤ B64.ulpExp n
  · obtain ⟨e, he⟩ := Int.eq_ofNat_of_zero_le he
    refine ⟨Real.rintEven ((n : ℝ) / 2 ^ B64.ulpExp n) * 2 ^ e, ?_⟩
    rw [he]
    push_cast
    norm_cast
  · obtain ⟨e, he⟩ := Int.eq_ofNat_of_zero_le (show 0 ≤ -B64.ulpExp n by omega)
    refine ⟨n, ?_⟩
    have h1 : (n : ℝ) / 2 ^ B64.ulpExp n = ((n * 2 ^ e : ℤ) : ℝ) := by
      rw [show B64.ulpExp (n : ℝ) = -(e : ℤ) by omega, zpow_neg, div_inv_eq_mul]
      push_cast
      norm_cast
    have h2 : Real.rintEven ((n : ℝ) / 2 ^ B64.ulpExp n) = n * 2 ^ e := by
      have := B64.rintEven_err ((n : ℝ) / 2 ^ B64.ulpExp n)
      rw [h1] at this ⊢
      rw [← Int.cast_sub, ← Int.cast_abs] at this
      have h3 : ((|Real.rintEven ((n * 2 ^ e : ℤ) : ℝ) - n * 2 ^ e| : ℤ) : ℝ) < 1 := by linarith
      have h4 : |Real.rintEven ((n * 2 ^ e : ℤ) : ℝ) - n * 2 ^ e| < 1 := by exact_mod_cast h3
      rw [Int.abs_lt_one_iff] at h4
      omega
    rw [h2, ← h1]
    exact div_mul_cancel₀ _ (zpow_ne_zero _ two_ne_zero)

theorem intRounding_b64 (lib : Libm) : Spec.IntRounding (b64 lib) := B64.rnd_int

namespace Spec
variable {F : FSys}

/-- The value `s'` is the angle `x` up to whole turns and rounding, if it is finite. -/
def SameAngle (s' : Fl F) (x : ℝ) : Prop := ∀ s, s'.val = .fin s → ∃ k : ℤ, |s - (x + k * (2 * Real.pi))| ≤ 7 * F.u * (|x| + |s|) + 4 * F.η

/-- The joint vector `q` reaches the pose, with the rounding errors of a robot of reach `L` with `n` joints. -/
def reachesF (F : FSys) (robot : Robot ℝ) (q : List ℝ) (pose : Transform ℝ) (L tol : ℝ) : Prop :=
  ∃ T, fwdkin robot q true = .ok T ∧ (-1 + 1 / 100000000000 ≤ (pose.R.transpose * T.R).trace →
    (T.p - pose.p).norm ≤ Real.sqrt 3 * tol + 900 * (robot.jointType.length + 3) * F.u * L ∧
    (T.R - pose.R).frob ≤ 5 * tol + 11 / 5000000 + 600000 * (robot.jointType.length + 3) * F.u)

end Spec

/-- The loop: reported convergence means that the test was passed at the final joint vector. -/
theorem iterLoop_done {α : Type} [Add α] [Sub α] [Mul α] [Div α] [Neg α] [Zero α] [One α] [LT α] [LE α] [DecidableLT α] [DecidableLE α] [Elem α]
    (pinv : Pinv α) (robot : Robot α) (pose : Transform α) (Kp KR : M3 α) (tol : α) : ∀ (fuel : Nat) (q q' : List α),
    iterLoop pinv robot pose Kp KR tol fuel q = .ok (true, q') →
      q'.length = q.length ∧ ∃ st, iterBody pinv robot pose Kp KR q' = .ok st ∧ iterDone st tol = true := by
  intro fuel
  induction fuel with
  | zero => intro q q' h; cases h
  | succ fuel ih =>
    intro q q' h
    obtain ⟨st, h1, h2⟩ := Except.bind_eq_ok h
    split_ifs at h2 with hd hl
    · cases h2; exact ⟨rfl, st, h1, hd⟩
    · obtain ⟨l, r⟩ := ih _ _ h2
      exact ⟨by rw [l, List.length_zipWith, hl, min_self], r⟩

/-- Normalization of one finite joint vector without limits. -/
theorem callV_near {F : FSys} (hI : Spec.IntRounding F) (seed : List (Fl F)) (q : List ℝ) (l : List (List (Fl F)))
    (h : (⟨none, some seed⟩ : Normalizer (Fl F)).callV (List.range q.length) [q.map Fl.of] = .ok l) :
    ∃ sol', l = [sol'] ∧ List.Forall₂ Spec.SameAngle sol' q := by
  have hnorm : ∀ i (x : ℝ) (r : Option (Fl F)), (⟨none, some seed⟩ : Normalizer (Fl F)).normalize i (Fl.of x) = .ok r →
      ∃ s', r = some s' ∧ Spec.SameAngle s' x := by
    intro i x r h
    simp only [Normalizer.normalize, Except.pure_eq, Except.bind_ok] at h
    obtain ⟨y, -, h⟩ := Except.bind_eq_ok h
    obtain ⟨z, hz, h⟩ := Except.bind_eq_ok h
    cases h
    exact ⟨z, rfl, fun s hs => Fl.normLast_near hI y x hz hs⟩
  have hmap : ∀ (q : List ℝ) (is : List Nat) (rs : List (Option (Fl F))), is.length = q.length →
      (is.zip (q.map Fl.of)).mapM (fun jt => (⟨none, some seed⟩ : Normalizer (Fl F)).normalize jt.1 jt.2) = .ok rs →
      ∃ sol' : List (Fl F), rs = sol'.map some ∧ List.Forall₂ Spec.SameAngle sol' q := by
    intro q
    induction q with
    | nil =>
      intro is rs hl h
      obtain rfl := List.eq_nil_of_length_eq_zero hl
      cases h
      exact ⟨[], rfl, .nil⟩
    | cons x q ih =>
      intro is rs hl h
      obtain _ | ⟨i, is⟩ := is
      · simp at hl
      simp only [List.map_cons, List.zip_cons_cons, mapM_cons'] at h
      obtain ⟨r, h1, h⟩ := Except.bind_eq_ok h
      obtain ⟨rs', h2, h⟩ := Except.bind_eq_ok h
      cases h
      obtain ⟨s', rfl, e1⟩ := hnorm i x r h1
      obtain ⟨sol', rfl, e2⟩ := ih is rs' (by simpa using hl) h2
      exact ⟨s' :: sol', rfl, .cons e1 e2⟩
  simp only [Normalizer.callV, mapM_cons', mapM_nil'] at h
  obtain ⟨ts, h1, h⟩ := Except.bind_eq_ok h
  obtain ⟨t, h2, h1⟩ := Except.bind_eq_ok h1
  obtain ⟨rs, h3, h2⟩ := Except.bind_eq_ok h2
  cases h2
  cases h1
  obtain ⟨sol', rfl, e⟩ := hmap q _ rs (by simp) h3
  have hall : (sol'.map some).all Option.isSome = true := by simp
  have hfm : (sol'.map some).filterMap id = sol' := by simp [List.filterMap_map]
  rw [hall, hfm] at h
  simp at h
  cases h
  exact ⟨sol', rfl, e⟩

/-- C76 (`_partial`: the property has every robot; here all joints are rotary, as in C40, the orientation error of the final iterate is not
within `1e-5` of half a turn (see `Spec.reachesF`), and the tolerance is at most `0.1`): if `iterative_invkin`, computing with rounding
errors on a robot and a pose stored with rounding errors, reports convergence, then the joint vector `q` it stopped at is finite and the exact
robot reaches the exact pose there: within the tolerance, up to `900 (n+3) u` of the reach in position and `2.2e-6 + 600000 (n+3) u` in orientation.
The one joint vector that is returned is `q` up to whole turns and a few units of rounding.  Whatever `pinv`, the gains and the seed are. -/
theorem C76_converged_partial {F : FSys} (hF : Spec.InvAcc F) (hI : Spec.IntRounding F) (robot : Robot ℝ) (robot' : Robot (Fl F))
    (hrobot : Spec.RobotNear robot' robot) (hw : robot.WF) (hrot : ∀ t ∈ robot.jointType, t = 0 ∨ t = 2) (pose : Transform ℝ)
    (pose' : Transform (Fl F)) (hpose : Spec.TNear pose' pose) (L : ℝ) (h0 : 0 < L) (hL : ∀ q, Spec.reach robot q ≤ L) (hLp : pose.p.norm ≤ L)
    (hη : F.η ≤ F.u * L) (hη' : F.η ≤ F.u * (1 / 1000000000000000000000)) (hbig : 10 * L ≤ F.big)
    (hn : 3000000000000 * (robot.jointType.length + 3) * F.u ≤ 1) (tol : ℝ) (htol : tol ≤ 1 / 10) (pinv : Pinv (Fl F)) (Kp KR : M3 (Fl F))
    (seed : List (Fl F)) (maxSteps : Int) (sols : List (List (Fl F)))
    (h : iterative_invkin pinv robot' pose' seed maxSteps Kp KR (Fl.of tol) = .ok (true, sols)) :
    ∃ (q : List ℝ) (sol' : List (Fl F)), sols = [sol'] ∧ q.length = robot.jointType.length ∧ List.Forall₂ Spec.SameAngle sol' q ∧
      Spec.reachesF F robot q pose L tol := by
  unfold iterative_invkin at h
  simp only at h
  have ht := hrobot.types
  split_ifs at h with hl h1
  · obtain ⟨x, -, h⟩ := Except.bind_eq_ok h
    cases h
  · obtain ⟨⟨c, r⟩, e1, h⟩ := Except.bind_eq_ok h
    obtain ⟨l, e2, h⟩ := Except.bind_eq_ok h
    cases h
    obtain ⟨lr, st, g1, g2⟩ := iterLoop_done _ _ _ _ _ _ _ _ _ e1
    rw [ht] at hl
    obtain ⟨q, rfl, hq⟩ := Fl.iterBody_done hF hrobot hrot hpose h0 hL hLp hη hbig hn hη' htol (by rw [lr, hl]) g1 g2
    have lq : q.length = robot.jointType.length := by simpa [hl] using lr
    have hN : Normalizer.ofRobot robot' (some seed) true = ⟨none, some seed⟩ := by
      unfold Normalizer.ofRobot
      rcases robot'.lower with _ | _ <;> rcases robot'.upper with _ | _ <;> rfl
    rw [hN, ht, ← lq] at e2
    obtain ⟨sol', rfl, e3⟩ := callV_near hI seed q _ e2
    obtain ⟨T, hT, -⟩ := fwdkin_rigid robot hw q (by rw [lq, hw.joints])
    exact ⟨q, sol', rfl, lq, e3, T, hT, hq T hT⟩

/-- The errors of the returned joint values `s` against `q`, added up. -/
noncomputable def Spec.turnErr (F : FSys) : List ℝ → List ℝ → ℝ
  | x :: q, s :: sol => 7 * F.u * (|x| + |s|) + 4 * F.η + Spec.turnErr F q sol
  | _, _ => 0

/-- C76 (continued): the pose of the returned joint vector, if this is finite, differs from that of the joint vector the iteration stopped at by
at most the sum of the errors of the joint values: `D` in orientation and `D L` in position. -/
theorem C76_returned {F : FSys} (robot : Robot ℝ) (hw : robot.WF) (hrot : ∀ t ∈ robot.jointType, t = 0 ∨ t = 2) (q sol : List ℝ)
    (lq : q.length = robot.jointType.length) (h : List.Forall₂ (Spec.SameAngle (F := F)) (sol.map Fl.of) q) (L : ℝ) (hL : ∀ q, Spec.reach robot q ≤ L)
    (T : Transform ℝ) (hT : fwdkin robot q true = .ok T) :
    ∃ U, fwdkin robot sol true = .ok U ∧ (∀ v, (U.R.mulVec v - T.R.mulVec v).norm ≤ Spec.turnErr F q sol * v.norm) ∧
      (U.p - T.p).norm ≤ Spec.turnErr F q sol * L := by
  have ls : sol.length = q.length := by simpa using h.length_eq
  -- whole turns do not change the pose
  have key : ∀ (ts : List Nat) (q sol : List ℝ), (∀ t ∈ ts, t = 0 ∨ t = 2) → q.length = ts.length → List.Forall₂ (Spec.SameAngle (F := F)) (sol.map Fl.of) q →
      ∃ ks, Spec.turnDiff ts (shiftTurns ts q ks) sol ≤ Spec.turnErr F q sol ∧ Spec.slideDiff ts (shiftTurns ts q ks) sol = 0 := by
    intro ts
    induction ts with
    | nil =>
      intro q sol _ lq h
      obtain rfl := List.eq_nil_of_length_eq_zero lq
      refine ⟨[], ?_, rfl⟩
      cases sol <;> simp [Spec.turnDiff, Spec.turnErr]
    | cons t ts ih =>
      intro q sol ht lq h
      obtain _ | ⟨x, q⟩ := q
      · simp at lq
      obtain _ | ⟨s, sol⟩ := sol
      · cases h
      obtain _ | ⟨h1, h⟩ := h
      obtain ⟨k, hk⟩ := h1 s rfl
      obtain ⟨ks, h2, h3⟩ := ih q sol (fun t h => ht t (by simp [h])) (by simpa using lq) h
      have ht := ht t (by simp)
      refine ⟨k :: ks, ?_, ?_⟩
      · simp only [shiftTurns, Spec.turnDiff, Spec.turnErr, if_pos ht]
        linarith
      · simp only [shiftTurns, Spec.slideDiff, if_neg (show ¬ (t = 1 ∨ t = 3) by omega), h3, add_zero]
  obtain ⟨ks, k1, k2⟩ := key _ q sol hrot lq h
  obtain ⟨U, hU, -⟩ := fwdkin_rigid robot hw sol (by rw [ls, lq, hw.joints])
  have hT' : fwdkin robot (shiftTurns robot.jointType q ks) true = .ok T := by rw [← hT]; exact C19_fwdkin_periodic robot q ks
  obtain ⟨m1, m2⟩ := C75_fwdkin_lipschitz robot hw _ _ _ _ T U hT' hU
  refine ⟨U, hU, fun v => (m1 v).trans (mul_le_mul_of_nonneg_right k1 v.norm_nonneg), m2.trans ?_⟩
  rw [k2, add_zero]
  have arm0 : 0 ≤ Spec.arm robot (shiftTurns robot.jointType q ks) := by
    unfold Spec.arm
    have nF : 0 ≤ (robot.Tflange.map (·.p.norm)).getD 0 := by cases robot.Tflange <;> simp [V3.norm_nonneg]
    have nX : 0 ≤ (robot.ptool.map V3.norm).getD 0 := by cases robot.ptool <;> simp [V3.norm_nonneg]
    have := Fl.travel_nonneg robot.jointType robot.P.tail (shiftTurns robot.jointType q ks)
    linarith
  have armL : Spec.arm robot (shiftTurns robot.jointType q ks) ≤ L := by
    refine le_trans ?_ (hL (shiftTurns robot.jointType q ks))
    unfold Spec.arm Spec.reach
    have nP : 0 ≤ (robot.P.head?.map V3.norm).getD 0 := by cases robot.P.head? <;> simp [V3.norm_nonneg]
    have nB : 0 ≤ (robot.Tbase.map (·.p.norm)).getD 0 := by cases robot.Tbase <;> simp [V3.norm_nonneg]
    linarith
  exact mul_le_mul k1 armL arm0 ((turnDiff_nonneg _ _ _).trans k1)

/-- C76: the test can be passed: started at a joint vector whose pose is within the tolerance (up to rounding) and whose orientation is right up to
`2.5e-7`, the call reports convergence at once, whatever the gains are and provided `pinv` does not raise. -/
theorem C76_stops_at_solution {F : FSys} (robot : Robot ℝ) (robot' : Robot (Fl F)) (hrobot : Spec.RobotNear robot' robot) (hw : robot.WF)
    (hrot : ∀ t ∈ robot.jointType, t = 0) (h2 : 2 ≤ robot.jointType.length) (pose T : Transform ℝ)
    (pose' : Transform (Fl F)) (hpose : Spec.TNear pose' pose) (L : ℝ) (h0 : 0 < L) (q : List ℝ) (q' : List (Fl F))
    (lq : q'.length = robot.jointType.length) (hq : Spec.AnglesNear robot.jointType q' q)
    (hL : Spec.reach robot q ≤ L) (hLp : pose.p.norm ≤ L) (hη : F.η ≤ F.u * L) (hη' : F.η ≤ F.u * (1 / 1000000000000000000000)) (hbig : 10 * L ≤ F.big)
    (hn : 3000000000000 * (robot.jointType.length + 3) * F.u ≤ 1) (hT : fwdkin robot q true = .ok T) (tol : ℝ) (htol0 : 3 * F.u < tol)
    (htol : (T.p - pose.p).norm + 900 * (robot.jointType.length + 3) * F.u * L < tol) (htr : 3 - 1 / 100000000000000 ≤ (pose.R.transpose * T.R).trace)
    (pinv : Pinv (Fl F)) (hpinv : ∀ J, ∃ rows, pinv J = .ok rows) (Kp KR : M3 (Fl F)) (maxSteps : Int) (hs : 1 ≤ maxSteps) :
    ∃ sols, iterative_invkin pinv robot' pose' q' maxSteps Kp KR (Fl.of tol) = .ok (true, sols) := by
  have ht := hrobot.types
  set n : ℝ := (robot.jointType.length : ℝ) with hnn
  have n0 : 0 ≤ n := Nat.cast_nonneg _
  have u0 := F.u_nonneg
  have nu : 0 ≤ n * F.u := by positivity
  obtain ⟨cur, hcur, gR, gp, rT, lT⟩ := Fl.fwdkin_near robot robot' q q' hrobot hq T hT L h0 hL hη (by linarith) (by rw [← hnn]; linarith)
  rw [← hnn] at gR gp
  obtain ⟨hm, hE⟩ := Fl.iterErr_near n0 h0 hpose hLp hη hbig hn gR gp rT lT
  have hER : IsRot (pose.R.transpose * T.R) := hpose.1.transpose.mul rT
  -- the orientation
  have hsc := R2rotL.s_sq_add_c_sq hER
  have hc : 1 - 1 / 200000000000000 ≤ R2rotL.c (pose.R.transpose * T.R) := by unfold R2rotL.c; linarith
  have hs' : R2rotL.s (pose.R.transpose * T.R) ≤ 1 / 4000000 := by
    have s0 := R2rotL.s_nonneg (pose.R.transpose * T.R)
    by_contra hcon
    push Not at hcon
    nlinarith
  have hR2 := Fl.R2rot_small hER hE (by linarith) (by linarith) hs' (by linarith) (by linarith)
  -- the Jacobian
  have hsz : robot'.Sized := ⟨by rw [hrobot.links.length_eq, hrobot.axes.length_eq, hw.columns], by rw [ht, hrobot.axes.length_eq, hw.joints]⟩
  obtain ⟨J, hJ, -⟩ := robotjacobian_ok hsz (θ := q') (by rw [lq, hrobot.axes.length_eq, hw.joints]) (by rw [ht]; exact fun t h => .inl (hrot t h))
  obtain ⟨rows, hrows⟩ := hpinv (J.map fun c => (⟨cur.R.transpose.mulVec c.top, cur.R.transpose.mulVec c.bot⟩ : V6 (Fl F)))
  -- the test
  have hbody : ∃ st, iterBody pinv robot' pose' Kp KR q' = .ok st ∧ iterDone st (Fl.of tol) = true := by
    simp only [iterBody, hcur, Except.bind_ok, hJ, hrows, Except.pure_eq]
    refine ⟨_, rfl, ?_⟩
    obtain ⟨px, py, pz⟩ := Fl.VNear.entries hm
    have lt : ∀ {a : Fl F} {x e : ℝ}, a.Near x e → |x| + e < tol → Elem.abs a < Fl.of tol := by
      intro a x e ⟨v, hv, hd⟩ h
      change Elem.abs a.val < XReal.fin tol
      rw [hv]
      have := abs_sub_abs_le_abs_sub v x
      simp
      linarith
    have nE : (T.R.transpose.mulVec (T.p - pose.p)).norm = (T.p - pose.p).norm := rT.transpose.norm_mulVec _
    simp only [iterDone, V3.toList, List.cons_append, List.nil_append, List.all_cons, List.all_nil, Bool.and_true, Bool.and_eq_true, decide_eq_true_eq]
    rw [hR2]
    have hz : (0 / lit 2 : Fl F) = 0 := by
      obtain ⟨w, hw', hwd⟩ := Fl.near_lit (F := F) 2 (S := 2) le_rfl (by linarith) (by norm_num) (by norm_num)
      have w0 : w ≠ 0 := by
        rintro rfl
        norm_num at hwd
        linarith
      have hb := F.big_ge
      change (⟨F.round (.fin 0 / (lit 2 : Fl F).val)⟩ : Fl F) = ⟨.fin 0⟩
      rw [hw', XReal.fin_div _ w0, zero_div]
      simp only [FSys.round, F.rnd_zero, abs_zero]
      rw [if_pos (by linarith)]
    have hsin := Fl.Near.sin (Fl.near_zero (F := F))
    rw [Real.sin_zero, zero_add] at hsin
    have hsin : (Elem.sin (0 : Fl F)).Near 0 (1 * F.u) := by rwa [one_mul]
    have m0 := Fl.Near.mulE (F := F) (ε := F.u) (M := 0) (N := 1) (l := 0) (5 / 2) hsin ((Fl.near_zero (F := F)).mono (by simp)) le_rfl (by linarith) (by simp) (by simp) (by norm_num)
      le_rfl (by norm_num) (by norm_num)
    have m1 := Fl.Near.mulE (F := F) (ε := F.u) (M := 0) (N := 1) (l := 0) (5 / 2) hsin ((Fl.near_one (F := F)).mono (by simp)) le_rfl (by linarith) (by simp) (by simp) (by norm_num)
      le_rfl (by norm_num) (by norm_num)
    simp only [hz, Axis.v, V3.smul, V3.ez]
    have l0 := lt m0 (by simp; linarith)
    have l1 := lt m1 (by simp; linarith)
    refine ⟨l0, l0, l1, lt px ?_, lt py ?_, lt pz ?_⟩
    · have := V3.abs_x_le (T.R.transpose.mulVec (T.p - pose.p)); linarith
    · have := V3.abs_y_le (T.R.transpose.mulVec (T.p - pose.p)); linarith
    · have := V3.abs_z_le (T.R.transpose.mulVec (T.p - pose.p)); linarith
  obtain ⟨st, b1, b2⟩ := hbody
  have hloop : iterLoop pinv robot' pose' Kp KR (Fl.of tol) maxSteps.toNat q' = .ok (true, q') := by
    obtain ⟨k, hk⟩ : ∃ k, maxSteps.toNat = k + 1 := ⟨maxSteps.toNat - 1, by omega⟩
    rw [hk, iterLoop, b1, Except.bind_ok, if_pos b2]
    rfl
  -- the normalization
  have hN : Normalizer.ofRobot robot' (some q') true = ⟨none, some q'⟩ := by
    unfold Normalizer.ofRobot
    rcases robot'.lower with _ | _ <;> rcases robot'.upper with _ | _ <;> rfl
  have hone : ∀ i (x : Fl F), i < q'.length → ∃ r, (⟨none, some q'⟩ : Normalizer (Fl F)).normalize i x = .ok r := by
    intro i x hi
    have e : getI q' i = .ok q'[i] := getI_some (by simp [hi])
    simp only [Normalizer.normalize, Except.pure_eq, Except.bind_ok, e, normLast]
    split_ifs <;> exact ⟨_, rfl⟩
  have hmap : ∀ (is : List Nat) (xs : List (Fl F)), (∀ i ∈ is, i < q'.length) →
      ∃ rs, (is.zip xs).mapM (fun jt => (⟨none, some q'⟩ : Normalizer (Fl F)).normalize jt.1 jt.2) = .ok rs := by
    intro is
    induction is with
    | nil => intro xs _; exact ⟨[], rfl⟩
    | cons i is ih =>
      intro xs h
      obtain _ | ⟨x, xs⟩ := xs
      · exact ⟨[], rfl⟩
      obtain ⟨r, hr⟩ := hone i x (h i (by simp))
      obtain ⟨rs, hrs⟩ := ih xs (fun j hj => h j (by simp [hj]))
      exact ⟨r :: rs, by simp only [List.zip_cons_cons, mapM_cons', hr, hrs, Except.bind_ok, Except.pure_eq]⟩
  obtain ⟨rs, hrs⟩ := hmap (List.range robot.jointType.length) q' (by intro i hi; rw [lq]; exact List.mem_range.1 hi)
  have hcall : ∃ l, (⟨none, some q'⟩ : Normalizer (Fl F)).callV (List.range robot.jointType.length) [q'] = .ok l := by
    simp only [Normalizer.callV, mapM_cons', mapM_nil', hrs, Except.bind_ok, Except.pure_eq]
    split_ifs with h1 h2 h2
    · exact ⟨_, rfl⟩
    · simp at h2
    · exact ⟨_, rfl⟩
    · simp at h2
  obtain ⟨l, hl⟩ := hcall
  refine ⟨l, ?_⟩
  simp only [iterative_invkin, ht, lq, if_true, hloop, Except.bind_ok, if_neg (show ¬ robot.jointType.length = 1 by omega), hN, hl, Except.pure_eq]

/-- Non-vacuity of C76, in binary64: two turning joints with links of length 1, asked for a pose off by `1e-6` from that of the seed `(0, 0)`, with
tolerance `1e-4`: convergence is reported, and the conclusions hold. -/
example : ∃ (robot : Robot ℝ) (robot' : Robot (Fl (b64 Libm.rounded))) (pose' : Transform (Fl (b64 Libm.rounded))) (sols : List (List (Fl (b64 Libm.rounded)))) (q : List ℝ),
    iterative_invkin (fun _ => .ok []) robot' pose' [.of 0, .of 0] 200 1 1 (.of (1 / 10000)) = .ok (true, sols) ∧ sols.length = 1 ∧
    Spec.reachesF (b64 Libm.rounded) robot q ⟨1, ⟨1, 1 / 1000000, 1⟩, none, none⟩ 10 (1 / 10000) := by
  have hu : (b64 Libm.rounded).u = 2⁻¹ ^ 50 := rfl
  have u0 := (b64 Libm.rounded).u_nonneg
  have exact : ∀ (v : V3 ℝ) (e : ℝ), 0 ≤ e → Spec.VNear (F := b64 Libm.rounded) (v.map Fl.of) v e := fun v e he =>
    ⟨v, rfl, by rw [show v - v = 0 by ext <;> simp, V3.norm_zero]; exact he⟩
  have nx : (⟨1, 0, 0⟩ : V3 ℝ).norm = 1 := V3.norm_ex
  have nz : (⟨0, 0, 1⟩ : V3 ℝ).norm = 1 := V3.norm_ez
  have n0 : (⟨0, 0, 0⟩ : V3 ℝ).norm = 0 := V3.norm_zero
  set robot : Robot ℝ := { H := [⟨0, 0, 1⟩, ⟨1, 0, 0⟩], P := [⟨0, 0, 0⟩, ⟨1, 0, 0⟩, ⟨0, 0, 1⟩], jointType := [0, 0] } with hr
  set robot' : Robot (Fl (b64 Libm.rounded)) := { H := robot.H.map (V3.map Fl.of), P := robot.P.map (V3.map Fl.of), jointType := [0, 0] } with hr'
  have hw : robot.WF := ⟨rfl, rfl, by simp [hr], by simp [hr, IsUnit3], by simp [hr], by simp [hr], by simp [hr], by simp [hr]⟩
  have near : Spec.RobotNear robot' robot := by
    refine ⟨rfl, ?_, ?_, .none, .none, .none, .none⟩
    · exact .cons ⟨by norm_num [IsUnit3], exact _ _ u0⟩ (.cons ⟨by norm_num [IsUnit3], exact _ _ u0⟩ .nil)
    · exact .cons (exact _ _ (mul_nonneg u0 (V3.norm_nonneg _))) (.cons (exact _ _ (mul_nonneg u0 (V3.norm_nonneg _)))
        (.cons (exact _ _ (mul_nonneg u0 (V3.norm_nonneg _))) .nil))
  set pose : Transform ℝ := ⟨1, ⟨1, 1 / 1000000, 1⟩, none, none⟩ with hp
  set pose' : Transform (Fl (b64 Libm.rounded)) := ⟨(1 : M3 ℝ).map Fl.of, (⟨1, 1 / 1000000, 1⟩ : V3 ℝ).map Fl.of, none, none⟩ with hp'
  have hpose : Spec.TNear pose' pose := ⟨IsRot.one, ⟨1, rfl, fun v => by
    rw [show ∀ w : V3 ℝ, w - w = 0 by intro w; ext <;> simp, V3.norm_zero]
    exact mul_nonneg u0 v.norm_nonneg⟩, exact _ _ (mul_nonneg u0 (V3.norm_nonneg _))⟩
  have hL : ∀ q, Spec.reach robot q ≤ 10 := by
    intro q
    obtain _ | ⟨a, _ | ⟨b, q⟩⟩ := q <;> simp [Spec.reach, Spec.travel, hr, nx, nz, n0] <;> norm_num
  have hLp : pose.p.norm ≤ 10 := (V3.norm_le_of_entries (d := 1) (by simp [hp]) (by simp [hp]; norm_num) (by simp [hp])).trans (by norm_num)
  have e1 : (b64 Libm.rounded).η ≤ (b64 Libm.rounded).u * (1 / 1000000000000000000000) := by
    change (2⁻¹ : ℝ) ^ 1075 ≤ 2⁻¹ ^ 50 * _
    calc (2⁻¹ : ℝ) ^ 1075 ≤ 2⁻¹ ^ 150 := pow_le_pow_of_le_one (by norm_num) (by norm_num) (by norm_num)
      _ ≤ _ := by norm_num
  have e2 : (b64 Libm.rounded).η ≤ (b64 Libm.rounded).u * 10 := e1.trans (mul_le_mul_of_nonneg_left (by norm_num) u0)
  have hbig : (10 : ℝ) * 10 ≤ (b64 Libm.rounded).big := le_trans (by norm_num) (b64 Libm.rounded).big_ge
  have hlen : (robot.jointType.length : ℝ) = 2 := by simp [hr]
  have hn : 3000000000000 * ((robot.jointType.length : ℝ) + 3) * (b64 Libm.rounded).u ≤ 1 := by rw [hlen, hu]; norm_num
  have hT : fwdkin robot [0, 0] true = .ok ⟨1, ⟨1, 0, 1⟩, none, none⟩ := by
    simp only [fwdkin, checkLimits, if_true, Except.bind_ok, hr, fwdLoop, fwdStep, true_or, applyAux, Except.pure_eq]
    congr 2 <;> ext <;> simp [rot]
  obtain ⟨sols, h⟩ := C76_stops_at_solution robot robot' near hw (by simp [hr]) (by simp [hr]) pose _ pose' hpose 10 (by norm_num) [0, 0] [.of 0, .of 0] rfl
    (Fl.anglesNear_of _ [0, 0] (by simp [hr]) rfl) (hL _) hLp e2 e1 hbig hn hT (1 / 10000) (by rw [hu]; norm_num) (by
      rw [hlen, hu]
      have : ((⟨1, 0, 1⟩ : V3 ℝ) - pose.p).norm ≤ 2 * (1 / 1000000) := V3.norm_le_of_entries (by simp [hp]) (by simp [hp]) (by simp [hp])
      have : (900 : ℝ) * (2 + 3) * 2⁻¹ ^ 50 * 10 ≤ 1 / 100000 := by norm_num
      linarith) (by simp [hp, M3.trace]; norm_num) (fun _ => .ok []) (fun _ => ⟨_, rfl⟩) 1 1 200 (by norm_num)
  obtain ⟨q, sol', rfl, -, -, hq⟩ := C76_converged_partial (invAcc_rounded) (intRounding_b64 _) robot robot' near hw (by simp [hr]) pose pose' hpose 10 (by norm_num) hL hLp e2 e1 hbig hn
    (1 / 10000) (by norm_num) _ _ _ _ _ _ h
  exact ⟨robot, robot', pose', _, q, h, rfl, hq⟩
