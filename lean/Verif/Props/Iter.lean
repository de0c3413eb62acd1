import Verif.Lemmas.RobotUp
import Verif.Lemmas.Invkin
import Verif.Props.AxisAngle
import Verif.Props.Kinematics
import Verif.Props.Jacobian
import Verif.Lemmas.Norm
import Mathlib.Analysis.Real.Pi.Bounds

/-!
# Properties C40, C41: `iterative_invkin`
-/
set_option autoImplicit false

/-- `np.linalg.pinv` returns finite numbers (NumPy raises LinAlgError when given NaN or infinity). -/
def Spec.finitePinv (pinv : Pinv XReal) : Prop :=
  ∀ J rows, pinv J = .ok rows → ∀ r ∈ rows, ∃ a b : V3 ℝ, r = ⟨a.up, b.up⟩

/-- The joint vector reaches the pose: each coordinate of the position is within `√3 tol`, and the rotations are within
`5 tol + 2e-6` in the Frobenius norm (5 stands for `2√6`: the code bounds each entry of `sin(θ/2) k`, and the angle error is not
observed below `1e-6`). -/
def Spec.reaches (robot : Robot ℝ) (sol : List ℝ) (pose : Transform ℝ) (tol : ℝ) : Prop :=
  ∃ T, fwdkin robot sol true = .ok T ∧ (T.p - pose.p).norm ≤ Real.sqrt 3 * tol ∧ (T.R - pose.R).frob ≤ 5 * tol + 2 / 1000000

/-! ## evaluation -/

/-- `R2rot` on rotations gives finite results. -/
theorem R2rot_finite (R : M3 ℝ) (h : IsRot R) : ∃ (k : V3 ℝ) (θ : ℝ), (R2rot R.up).1.v = k.up ∧ (R2rot R.up).2 = .fin θ := by
  by_cases hs : 1/1000000 ≤ R2rotL.s R
  · exact ⟨_, _, by rw [R2rotL.eval_regular R hs]; rfl, by rw [R2rotL.eval_regular R hs]⟩
  · rw [R2rotL.eval_band R (not_le.1 hs)]
    split_ifs with hc
    · exact ⟨V3.ez, 0, rfl, rfl⟩
    · obtain ⟨r1, r2, r3, -, -, -⟩ := h.rowEqs
      have p0 : 0 ≤ (M3.smul (1/2) (R + 1)).a00 := by simp; nlinarith [sq_nonneg R.a01, sq_nonneg R.a02]
      have p1 : 0 ≤ (M3.smul (1/2) (R + 1)).a11 := by simp; nlinarith [sq_nonneg R.a10, sq_nonneg R.a12]
      have p2 : 0 ≤ (M3.smul (1/2) (R + 1)).a22 := by simp; nlinarith [sq_nonneg R.a20, sq_nonneg R.a21]
      simp only [XReal.sqrt_fin p0, XReal.sqrt_fin p1, XReal.sqrt_fin p2, XReal.abs_fin, XReal.fin_lt]
      split_ifs with h1 h2
      · have hne : Real.sqrt (M3.smul (1/2) (R + 1)).a00 ≠ 0 := by intro e; rw [e] at h1; norm_num at h1
        simp only [XReal.fin_div _ hne, XReal.sign_fin, XReal.fin_mul]
        exact ⟨_, _, V3.up_mk _ _ _, rfl⟩
      · have hne : Real.sqrt (M3.smul (1/2) (R + 1)).a11 ≠ 0 := by intro e; rw [e] at h2; norm_num at h2
        simp only [XReal.fin_div _ hne, XReal.sign_fin, XReal.fin_mul]
        exact ⟨_, _, V3.up_mk _ _ _, rfl⟩
      · exact ⟨_, _, V3.up_mk _ _ _, rfl⟩

/-- One iteration at a finite joint vector. -/
theorem iterBody_eval (pinv : Pinv XReal) (hpinv : Spec.finitePinv pinv) (robot : Robot ℝ) (pose T : Transform ℝ) (Kp KR : M3 ℝ)
    (q : List ℝ) (hT : fwdkin robot q true = .ok T) (hR : IsRot T.R) (hd : IsRot pose.R) (st : IterStep XReal)
    (h : iterBody pinv robot.up pose.up Kp.up KR.up (q.map .fin) = .ok st) :
    ∃ (k : V3 ℝ) (θ : ℝ) (δ : List ℝ), (R2rot (pose.R.transpose * T.R).up).1.v = k.up ∧
      (R2rot (pose.R.transpose * T.R).up).2 = .fin θ ∧ st.s = (V3.smul (Real.sin (θ / 2)) k).up ∧
      st.EP = (T.R.transpose.mulVec (T.p - pose.p)).up ∧ st.delta = δ.map .fin := by
  have hER : IsRot (pose.R.transpose * T.R) := hd.transpose.mul hR
  obtain ⟨k, θ, e1, e2⟩ := R2rot_finite _ hER
  have f := fwdkin_up robot q
  rw [hT] at f
  have f : fwdkin robot.up (q.map .fin) true = .ok T.up := f
  have c2 : ((2 : ℚ) : ℝ) = 2 := by norm_num
  unfold iterBody at h
  rw [f, Except.bind_ok] at h
  obtain ⟨J, -, h⟩ := Except.bind_eq_ok h
  obtain ⟨Ji, hJ, h⟩ := Except.bind_eq_ok h
  cases h
  have es : V3.smul (Elem.sin ((R2rot (pose.up.R.transpose * T.up.R)).2 / lit 2)) (R2rot (pose.up.R.transpose * T.up.R)).1.v =
      (V3.smul (Real.sin (θ / 2)) k).up := by
    have e : pose.up.R.transpose * T.up.R = (pose.R.transpose * T.R).up := by
      show pose.R.up.transpose * T.R.up = _
      rw [M3.up_transpose, M3.up_mul]
    rw [e, e1, e2, XReal.lit_fin, c2, XReal.fin_div _ (by norm_num), XReal.sin_fin, V3.up_smul]
  have eE : T.up.R.transpose.mulVec (T.up.p - pose.up.p) = (T.R.transpose.mulVec (T.p - pose.p)).up := by
    show T.R.up.transpose.mulVec (T.p.up - pose.p.up) = _
    rw [M3.up_transpose, V3.up_sub, M3.up_mulVec]
  have hfin : ∃ δ : List ℝ, (Ji.map fun r => r.dot ⟨KR.up.mulVec (V3.smul (Real.sin (θ / 2)) k).up, Kp.up.mulVec (T.R.transpose.mulVec (T.p - pose.p)).up⟩) = δ.map .fin := by
    have hrows := hpinv _ _ hJ
    clear * - hrows
    induction Ji with
    | nil => exact ⟨[], rfl⟩
    | cons r Ji ih =>
      obtain ⟨δ, hδ⟩ := ih (fun x hx => hrows x (by simp [hx]))
      obtain ⟨a, b, rfl⟩ := hrows r (by simp)
      refine ⟨(a.dot (KR.mulVec (V3.smul (Real.sin (θ / 2)) k)) + b.dot (Kp.mulVec (T.R.transpose.mulVec (T.p - pose.p)))) :: δ, ?_⟩
      rw [List.map_cons, hδ, List.map_cons]
      congr 1
  obtain ⟨δ, hδ⟩ := hfin
  refine ⟨k, θ, δ, e1, e2, es, eE, ?_⟩
  simp only [es, eE]
  exact hδ

/-- The iterates: `q` is obtained from `q0` by `k` updates `q ← q - delta`. -/
inductive Spec.Iterates (pinv : Pinv XReal) (robot : Robot XReal) (pose : Transform XReal) (Kp KR : M3 XReal) :
    Nat → List XReal → List XReal → Prop
  | refl (q : List XReal) : Spec.Iterates pinv robot pose Kp KR 0 q q
  | step (k : Nat) (q q' : List XReal) (st : IterStep XReal) (h : iterBody pinv robot pose Kp KR q = .ok st)
      (hl : st.delta.length = q.length) (h' : Spec.Iterates pinv robot pose Kp KR k (q.zipWith (· - ·) st.delta) q') :
      Spec.Iterates pinv robot pose Kp KR (k + 1) q q'

theorem zipWith_fin (a b : List ℝ) : (a.map XReal.fin).zipWith (· - ·) (b.map .fin) = (a.zipWith (· - ·) b).map .fin := by
  induction a generalizing b with
  | nil => rfl
  | cons x a ih =>
    obtain _ | ⟨y, b⟩ := b
    · rfl
    · simp [ih]

theorem fwdkin_rigid (robot : Robot ℝ) (hw : robot.WF) (q : List ℝ) (lq : q.length = robot.H.length) :
    ∃ T, fwdkin robot q true = .ok T ∧ IsRot T.R := by
  obtain ⟨P0, Ps, hP, -⟩ := Robot.Sized.P_cons (robot := robot) ⟨hw.columns, hw.joints⟩
  obtain ⟨T, h1, h2, -⟩ := C17_fwdkin_chain robot hw q lq P0 Ps hP
  exact ⟨T, h1, h2⟩

/-- The loop: the final joint vector is finite, is one of the first `fuel + 1` iterates, and meets the test if convergence is
reported. -/
theorem iterLoop_eval (pinv : Pinv XReal) (hpinv : Spec.finitePinv pinv) (robot : Robot ℝ) (hw : robot.WF) (pose : Transform ℝ)
    (hd : IsRot pose.R) (Kp KR : M3 ℝ) (tol : XReal) (fuel : Nat) (q : List ℝ) (lq : q.length = robot.H.length) (conv : Bool)
    (r : List XReal) (h : iterLoop pinv robot.up pose.up Kp.up KR.up tol fuel (q.map .fin) = .ok (conv, r)) :
    ∃ q' : List ℝ, r = q'.map .fin ∧ q'.length = robot.H.length ∧
      (∃ k ≤ fuel, Spec.Iterates pinv robot.up pose.up Kp.up KR.up k (q.map .fin) r) ∧
      (conv = true → ∃ st, iterBody pinv robot.up pose.up Kp.up KR.up r = .ok st ∧ iterDone st tol = true) := by
  induction fuel generalizing q with
  | zero => cases h; exact ⟨q, rfl, lq, ⟨0, le_rfl, .refl _⟩, by simp⟩
  | succ fuel ih =>
    obtain ⟨T, hT, hR⟩ := fwdkin_rigid robot hw q lq
    obtain ⟨st, h1, h2⟩ := Except.bind_eq_ok h
    split_ifs at h2 with hdone hl
    · cases h2
      exact ⟨q, rfl, lq, ⟨0, by omega, .refl _⟩, fun _ => ⟨st, h1, hdone⟩⟩
    · obtain ⟨k, θ, δ, -, -, -, -, hδ⟩ := iterBody_eval pinv hpinv robot pose T Kp KR q hT hR hd st h1
      have hz : (q.map XReal.fin).zipWith (· - ·) st.delta = (q.zipWith (· - ·) δ).map .fin := by rw [hδ, zipWith_fin]
      rw [hδ] at hl
      have lz : (q.zipWith (· - ·) δ).length = robot.H.length := by simp at hl; simp [hl, lq]
      rw [hz] at h2
      obtain ⟨q', e1, e2, ⟨k', hk, e3⟩, e4⟩ := ih _ lz h2
      refine ⟨q', e1, e2, ⟨k' + 1, by omega, .step k' _ _ st h1 (by rw [hδ]; exact hl) (by rw [hz]; exact e3)⟩, e4⟩

/-- Normalization towards the seed, joint by joint. -/
theorem callV_free (seed q : List ℝ) (n : Nat) (ls : seed.length = n) (lq : q.length = n) :
    ∃ ks : List ℤ, ks.length = n ∧
      (⟨none, some (seed.map .fin)⟩ : Normalizer XReal).callV (List.range n) [q.map .fin] =
        .ok [(List.zipWith (fun (x : ℝ) (k : ℤ) => x + k * (2 * Real.pi)) q ks).map .fin] ∧
      ∀ i (h1 : i < seed.length) (h2 : i < q.length) (h3 : i < ks.length), |seed[i] - (q[i] + ks[i] * (2 * Real.pi))| ≤ Real.pi := by
  choose f hf1 hf2 using normLast_free
  have hnorm : ∀ i (h1 : i < seed.length) (x : ℝ), (⟨none, some (seed.map .fin)⟩ : Normalizer XReal).normalize i (.fin x) =
      .ok (some (.fin (x + f seed[i] x * (2 * Real.pi)))) := by
    intro i h1 x
    have e : getI (seed.map XReal.fin) i = .ok (.fin seed[i]) := getI_some (by simp [h1])
    simp [Normalizer.normalize, e, hf1]
  have hmap : ((List.range n).zip (q.map XReal.fin)).mapM (fun jt => (⟨none, some (seed.map .fin)⟩ : Normalizer XReal).normalize jt.1 jt.2) =
      .ok ((List.zipWith (fun (x : ℝ) (k : ℤ) => x + k * (2 * Real.pi)) q (List.zipWith f seed q)).map fun y => some (XReal.fin y)) := by
    apply mapM_of_forall₂
    rw [List.forall₂_iff_get]
    refine ⟨by simp [ls, lq], fun i h1 h2 => ?_⟩
    have hi : i < n := by simpa [lq] using h1
    simp only [List.get_eq_getElem, List.getElem_zip, List.getElem_range, List.getElem_map, List.getElem_zipWith]
    exact hnorm i (by omega) _
  refine ⟨List.zipWith f seed q, by simp [ls, lq], ?_, fun i h1 h2 h3 => ?_⟩
  · have hall : ((List.zipWith (fun (x : ℝ) (k : ℤ) => x + k * (2 * Real.pi)) q (List.zipWith f seed q)).map
        fun y => some (XReal.fin y)).all Option.isSome = true := by
      rw [List.all_map]; simp only [Function.comp_def, Option.isSome_some, List.all_eq_true, implies_true]
    have hfm : ∀ l : List ℝ, (l.map fun y => some (XReal.fin y)).filterMap id = l.map .fin := by
      intro l; induction l with
      | nil => rfl
      | cons a l ih => simp [ih]
    simp only [Normalizer.callV, mapM_cons', mapM_nil', hmap, Except.bind_ok, Except.pure_eq, hall, if_true, hfm]
    simp
  · rw [List.getElem_zipWith]; exact hf2 _ _

/-- C41 (`_partial`: a robot with one joint raises TypeError instead, see `C41_one_joint_false`; and when `pinv` raises so does
the call): whatever the outcome of the iteration, exactly one joint vector is returned; it equals one of the first
`max_steps + 1` iterates up to whole multiples of `2π`, and each of its entries is within `π` of the seed. -/
theorem C41_iterative_result_partial (pinv : Pinv XReal) (hpinv : Spec.finitePinv pinv) (robot : Robot ℝ) (hw : robot.WF)
    (pose : Transform ℝ) (hd : IsRot pose.R) (Kp KR : M3 ℝ) (tol : XReal) (maxSteps : Int) (seed : List ℝ)
    (conv : Bool) (sols : List (List XReal))
    (h : iterative_invkin pinv robot.up pose.up (seed.map .fin) maxSteps Kp.up KR.up tol = .ok (conv, sols)) :
    ∃ (q : List ℝ) (ks : List ℤ), seed.length = robot.H.length ∧ q.length = robot.H.length ∧ ks.length = robot.H.length ∧
      (∃ k : Nat, (k : Int) ≤ max maxSteps 0 ∧ Spec.Iterates pinv robot.up pose.up Kp.up KR.up k (seed.map .fin) (q.map .fin)) ∧
      sols = [(List.zipWith (fun (x : ℝ) (k : ℤ) => x + k * (2 * Real.pi)) q ks).map .fin] ∧
      (∀ i (h1 : i < seed.length) (h2 : i < q.length) (h3 : i < ks.length),
        |seed[i] - (q[i] + ks[i] * (2 * Real.pi))| ≤ Real.pi) ∧
      (conv = true → ∃ st, iterBody pinv robot.up pose.up Kp.up KR.up (q.map .fin) = .ok st ∧ iterDone st tol = true) := by
  unfold iterative_invkin at h
  simp only at h
  split_ifs at h with hl h1
  · obtain ⟨x, -, h⟩ := Except.bind_eq_ok h
    cases h
  · obtain ⟨⟨c, r⟩, e1, h⟩ := Except.bind_eq_ok h
    obtain ⟨l, e2, h⟩ := Except.bind_eq_ok h
    cases h
    have lt : robot.up.jointType.length = robot.H.length := hw.joints
    have ls : seed.length = robot.H.length := by simpa [lt] using hl
    obtain ⟨q, rfl, lq, ⟨k, hk, e3⟩, e4⟩ := iterLoop_eval pinv hpinv robot hw pose hd Kp KR tol _ seed ls _ r e1
    obtain ⟨ks, g1, g2, g3⟩ := callV_free seed q robot.H.length ls lq
    have hN : Normalizer.ofRobot robot.up (some (seed.map XReal.fin)) true = ⟨none, some (seed.map .fin)⟩ := by
      unfold Normalizer.ofRobot
      rcases robot.up.lower with _ | _ <;> rcases robot.up.upper with _ | _ <;> rfl
    rw [hN, lt, g2] at e2
    cases e2
    exact ⟨q, ks, ls, lq, g1, ⟨k, by omega, e3⟩, rfl, g3, e4⟩

/-- C41: a robot with one joint raises TypeError, whatever the iteration did. -/
theorem C41_one_joint_false (pinv : Pinv XReal) (robot : Robot XReal) (h1 : robot.jointType.length = 1) (pose : Transform XReal)
    (Kp KR : M3 XReal) (tol : XReal) (maxSteps : Int) (seed : List XReal) (r : Bool × List (List XReal)) :
    iterative_invkin pinv robot pose seed maxSteps Kp KR tol ≠ .ok r := by
  intro h
  unfold iterative_invkin at h
  simp only [h1] at h
  split_ifs at h
  obtain ⟨x, -, h⟩ := Except.bind_eq_ok h
  simp at h

/-- C41: a seed whose length is not the number of joints raises ValueError (`q_cur.reshape`), before the first iteration. -/
theorem C41_wrong_length (pinv : Pinv XReal) (robot : Robot XReal) (pose : Transform XReal) (Kp KR : M3 XReal) (tol : XReal)
    (maxSteps : Int) (seed : List XReal) (h : seed.length ≠ robot.jointType.length) :
    iterative_invkin pinv robot pose seed maxSteps Kp KR tol = .error .value := if_neg h

/-- C41: a robot with one joint raises TypeError once the iteration is through. -/
theorem C41_one_joint_type (pinv : Pinv XReal) (robot : Robot XReal) (h1 : robot.jointType.length = 1) (pose : Transform XReal)
    (Kp KR : M3 XReal) (tol : XReal) (maxSteps : Int) (hm : maxSteps ≤ 0) (q : XReal) :
    iterative_invkin pinv robot pose [q] maxSteps Kp KR tol = .error .type := by
  unfold iterative_invkin
  simp [h1, Int.toNat_eq_zero.2 hm, iterLoop]

/-! ## C40 -/

theorem frob_sq (A : M3 ℝ) : A.frob * A.frob = A.a00 * A.a00 + A.a01 * A.a01 + A.a02 * A.a02 + A.a10 * A.a10
    + A.a11 * A.a11 + A.a12 * A.a12 + A.a20 * A.a20 + A.a21 * A.a21 + A.a22 * A.a22 := by
  unfold M3.frob; rw [sqrt_real, Real.mul_self_sqrt (M3.sq_nonneg' _)]

theorem frob_nonneg (A : M3 ℝ) : 0 ≤ A.frob := by unfold M3.frob; rw [sqrt_real]; exact Real.sqrt_nonneg _

/-- the distance of two rotations from the trace of the error rotation -/
theorem frob_sub_sq (A B : M3 ℝ) (hA : IsRot A) (hB : IsRot B) :
    (A - B).frob * (A - B).frob = 2 * (3 - (B.transpose * A).trace) := by
  rw [frob_sq]
  obtain ⟨a1, a2, a3, -, -, -⟩ := hA.rowEqs
  obtain ⟨b1, b2, b3, -, -, -⟩ := hB.rowEqs
  simp [M3.trace]
  nlinarith

theorem norm_le_of_sq {v : V3 ℝ} {x : ℝ} (hx : 0 ≤ x) (h : v.x * v.x + v.y * v.y + v.z * v.z ≤ x * x) : v.norm ≤ x := by
  unfold V3.norm
  rw [sqrt_real]
  exact Real.sqrt_le_iff.2 ⟨hx, by nlinarith⟩

theorem iterDone_iff (s EP : V3 ℝ) (δ : List XReal) (tol : ℝ) : iterDone ⟨s.up, EP.up, δ⟩ (XReal.fin tol) = true ↔
    (|s.x| < tol ∧ |s.y| < tol ∧ |s.z| < tol) ∧ |EP.x| < tol ∧ |EP.y| < tol ∧ |EP.z| < tol := by
  simp [iterDone, V3.toList, and_assoc]

/-- The test at the end of an iteration implies that the pose is reached, unless the error is near half a turn. -/
theorem reaches_of_done (robot : Robot ℝ) (pose T : Transform ℝ) (hd : IsRot pose.R) (hR : IsRot T.R) (sol : List ℝ)
    (hT : fwdkin robot sol true = .ok T) (tol : ℝ) (k : V3 ℝ) (θ : ℝ) (δ : List XReal)
    (f1 : (R2rot (pose.R.transpose * T.R).up).1.v = k.up) (f2 : (R2rot (pose.R.transpose * T.R).up).2 = .fin θ)
    (h2 : iterDone ⟨(V3.smul (Real.sin (θ / 2)) k).up, (T.R.transpose.mulVec (T.p - pose.p)).up, δ⟩ (XReal.fin tol) = true)
    (hband : ¬ (Real.sqrt (1 - (((pose.R.transpose * T.R).trace - 1) / 2) ^ 2) < 1/1000000 ∧ (pose.R.transpose * T.R).trace ≤ 1)) :
    Spec.reaches robot sol pose tol := by
  rw [iterDone_iff] at h2
  obtain ⟨⟨s1, s2, s3⟩, p1, p2, p3⟩ := h2
  have htol : 0 < tol := lt_of_le_of_lt (abs_nonneg _) p1
  refine ⟨T, hT, ?_, ?_⟩
  · -- position
    have hn : (T.R.transpose.mulVec (T.p - pose.p)).norm = (T.p - pose.p).norm := hR.transpose.norm_mulVec _
    rw [← hn]
    apply norm_le_of_sq (by positivity)
    have h3 : Real.sqrt 3 * Real.sqrt 3 = 3 := Real.mul_self_sqrt (by norm_num)
    have sq : ∀ x : ℝ, |x| < tol → x * x ≤ tol * tol := fun x hx => by
      rw [← abs_mul_abs_self]; exact mul_self_le_mul_self (abs_nonneg _) hx.le
    nlinarith [sq _ p1, sq _ p2, sq _ p3]
  · -- orientation
    have hER : IsRot (pose.R.transpose * T.R) := hd.transpose.mul hR
    have hfs := frob_sub_sq T.R pose.R hR hd
    by_cases hsin : 1/1000000 ≤ Real.sqrt (1 - (((pose.R.transpose * T.R).trace - 1) / 2) ^ 2)
    · obtain ⟨k', θ', g1, g2, -, -, g3⟩ := C03_R2rot_regular _ hER hsin
      rw [g1] at f1 f2
      obtain rfl : k' = k := V3.up_inj f1
      obtain rfl : θ' = θ := by simpa using f2
      have htr : (pose.R.transpose * T.R).trace = 3 - 4 * (Real.sin (θ' / 2) * Real.sin (θ' / 2)) := by
        rw [← g3]
        have hc : Real.cos θ' = 1 - 2 * (Real.sin (θ' / 2) * Real.sin (θ' / 2)) := by
          have := Real.cos_two_mul (θ' / 2)
          rw [show 2 * (θ' / 2) = θ' by ring] at this
          have := Real.sin_sq_add_cos_sq (θ' / 2)
          nlinarith
        unfold IsUnit3 at g2
        simp [M3.trace, rot]
        rw [hc]
        generalize Real.sin (θ' / 2) = y
        linear_combination (-2 * y * y * 2) * g2
      rw [htr] at hfs
      unfold IsUnit3 at g2
      simp only [V3.smul_x, V3.smul_y, V3.smul_z] at s1 s2 s3
      generalize Real.sin (θ' / 2) = y at *
      have sq : ∀ x : ℝ, |x| < tol → x * x ≤ tol * tol := fun x hx => by
        rw [← abs_mul_abs_self]; exact mul_self_le_mul_self (abs_nonneg _) hx.le
      have hy : y * y ≤ 3 * (tol * tol) := by
        have : y * y = (y * k'.x) * (y * k'.x) + (y * k'.y) * (y * k'.y) + (y * k'.z) * (y * k'.z) := by
          linear_combination (-(y * y)) * g2
        linarith [sq _ s1, sq _ s2, sq _ s3]
      have := frob_nonneg (T.R - pose.R)
      by_contra hc
      push Not at hc
      nlinarith
    · have htr : 1 < (pose.R.transpose * T.R).trace := by
        by_contra hc
        exact hband ⟨not_le.1 hsin, not_lt.1 hc⟩
      have hn := (C04_R2rot_near_identity _ hER (not_le.1 hsin) htr).2
      have e : (pose.R.transpose * T.R - rot V3.ez 0).frob = (T.R - pose.R).frob := by
        have e0 : rot (V3.ez : V3 ℝ) 0 = 1 := by ext <;> simp [rot]
        have h1 := frob_sub_sq _ _ hER IsRot.one
        rw [e0]
        have : (1 : M3 ℝ).transpose * (pose.R.transpose * T.R) = pose.R.transpose * T.R := by
          ext <;> simp
        rw [this] at h1
        rw [← hfs] at h1
        exact (mul_self_inj (frob_nonneg _) (frob_nonneg _)).1 h1
      rw [e] at hn
      linarith

/-- C40 (`_partial`: the property has every robot; here all joints are rotary, since prismatic joints are shifted by multiples of
`2π` at the end (`C40_prismatic_false`), and the orientation error of the final iterate is not within `1e-6` of half a turn, where
`R2rot` can return a wrong axis (`C40_half_turn_false`)): if convergence is reported then the returned joint vector reaches the
pose within the tolerance. -/
theorem C40_converged_partial (pinv : Pinv XReal) (hpinv : Spec.finitePinv pinv) (robot : Robot ℝ) (hw : robot.WF)
    (hrot : ∀ t ∈ robot.jointType, t = 0 ∨ t = 2) (pose : Transform ℝ) (hd : IsRot pose.R) (Kp KR : M3 ℝ) (tol : ℝ)
    (maxSteps : Int) (seed : List ℝ) (sols : List (List XReal))
    (h : iterative_invkin pinv robot.up pose.up (seed.map .fin) maxSteps Kp.up KR.up (.fin tol) = .ok (true, sols)) :
    ∃ sol : List ℝ, sols = [sol.map .fin] ∧
      ∀ T, fwdkin robot sol true = .ok T →
        ¬ (Real.sqrt (1 - (((pose.R.transpose * T.R).trace - 1) / 2) ^ 2) < 1/1000000 ∧ (pose.R.transpose * T.R).trace ≤ 1) →
        Spec.reaches robot sol pose tol := by
  obtain ⟨q, ks, ls, lq, lk, -, e1, -, e2⟩ :=
    C41_iterative_result_partial pinv hpinv robot hw pose hd Kp KR (.fin tol) maxSteps seed true sols h
  refine ⟨_, e1, fun T hT hband => ?_⟩
  obtain ⟨st, h1, h2⟩ := e2 rfl
  have hf : fwdkin robot q true = .ok T := by
    rw [← hT]
    have : List.zipWith (fun (x : ℝ) (k : ℤ) => x + k * (2 * Real.pi)) q ks = shiftTurns robot.jointType q ks := by
      have l1 : q.length = robot.jointType.length := by rw [lq, hw.joints]
      have l2 : ks.length = robot.jointType.length := by rw [lk, hw.joints]
      generalize robot.jointType = ts at hrot l1 l2
      clear h h1 hT e1 e2 lq lk
      induction ts generalizing q ks with
      | nil =>
        rw [List.eq_nil_of_length_eq_zero l1]; rfl
      | cons t ts ih =>
        obtain _ | ⟨x, q⟩ := q
        · simp at l1
        obtain _ | ⟨k, ks⟩ := ks
        · simp at l2
        rw [List.zipWith_cons_cons, shiftTurns, if_pos (hrot t (by simp)),
          ih _ _ (fun t ht => hrot t (by simp [ht])) (by simpa using l1) (by simpa using l2)]
    rw [this]; exact (C19_fwdkin_periodic robot q ks).symm
  obtain ⟨T', hT', hR⟩ := fwdkin_rigid robot hw q lq
  rw [hf] at hT'; cases hT'
  obtain ⟨k, θ, δ, f1, f2, f3, f4, f5⟩ := iterBody_eval pinv hpinv robot pose T Kp KR q hf hR hd st h1
  obtain ⟨s, EP, δ'⟩ := st
  simp only at f3 f4 f5
  subst f3 f4 f5
  exact reaches_of_done robot pose T hd hR _ hT tol k θ _ f1 f2 h2 hband

/-! ## termination -/

/-- On a finite 6×n matrix `np.linalg.pinv` returns a finite n×6 matrix. -/
def Spec.totalPinv (pinv : Pinv XReal) (n : Nat) : Prop :=
  ∀ J : List (V6 ℝ), J.length = n → ∃ rows : List (V6 ℝ), rows.length = n ∧ pinv (J.map V6.up) = .ok (rows.map V6.up)

/-- One iteration, given the outcome of forward kinematics, Jacobian and pseudo-inverse. -/
theorem iterBody_eq (pinv : Pinv XReal) (robot : Robot ℝ) (pose T : Transform ℝ) (Kp KR : M3 ℝ) (q : List ℝ) (J rows : List (V6 ℝ))
    (hT : fwdkin robot q true = .ok T) (hJ : robotjacobian robot q true = .ok J)
    (hr : pinv ((J.map fun c => (⟨T.R.transpose.mulVec c.top, T.R.transpose.mulVec c.bot⟩ : V6 ℝ)).map V6.up) = .ok (rows.map V6.up))
    (k : V3 ℝ) (θ : ℝ) (e1 : (R2rot (pose.R.transpose * T.R).up).1.v = k.up) (e2 : (R2rot (pose.R.transpose * T.R).up).2 = .fin θ) :
    iterBody pinv robot.up pose.up Kp.up KR.up (q.map .fin) = .ok ⟨(V3.smul (Real.sin (θ / 2)) k).up,
      (T.R.transpose.mulVec (T.p - pose.p)).up, (rows.map fun r => r.top.dot (KR.mulVec (V3.smul (Real.sin (θ / 2)) k)) +
        r.bot.dot (Kp.mulVec (T.R.transpose.mulVec (T.p - pose.p)))).map .fin⟩ := by
  have f : fwdkin robot.up (q.map .fin) true = .ok T.up := by rw [fwdkin_up, hT]; rfl
  have j : robotjacobian robot.up (q.map .fin) true = .ok (J.map V6.up) := by rw [robotjacobian_up, hJ]; rfl
  have em : (J.map V6.up).map (fun c => (⟨T.up.R.transpose.mulVec c.top, T.up.R.transpose.mulVec c.bot⟩ : V6 XReal)) =
      (J.map fun c => (⟨T.R.transpose.mulVec c.top, T.R.transpose.mulVec c.bot⟩ : V6 ℝ)).map V6.up := by
    rw [List.map_map, List.map_map]
    apply List.map_congr_left
    intro c _
    show V6.mk _ _ = V6.mk _ _
    rw [← M3.up_mulVec, ← M3.up_mulVec, ← M3.up_transpose]; rfl
  rw [← em] at hr
  have c2 : ((2 : ℚ) : ℝ) = 2 := by norm_num
  have es : V3.smul (Elem.sin ((R2rot (pose.up.R.transpose * T.up.R)).2 / lit 2)) (R2rot (pose.up.R.transpose * T.up.R)).1.v =
      (V3.smul (Real.sin (θ / 2)) k).up := by
    have e : pose.up.R.transpose * T.up.R = (pose.R.transpose * T.R).up := by
      show pose.R.up.transpose * T.R.up = _
      rw [M3.up_transpose, M3.up_mul]
    rw [e, e1, e2, XReal.lit_fin, c2, XReal.fin_div _ (by norm_num), XReal.sin_fin, V3.up_smul]
  have eE : T.up.R.transpose.mulVec (T.up.p - pose.up.p) = (T.R.transpose.mulVec (T.p - pose.p)).up := by
    show T.R.up.transpose.mulVec (T.p.up - pose.p.up) = _
    rw [M3.up_transpose, V3.up_sub, M3.up_mulVec]
  unfold iterBody
  simp only [f, j, Except.bind_ok, hr, Except.pure_eq, es, eE]
  simp only [List.map_map]
  rfl

theorem iterBody_ok (pinv : Pinv XReal) (robot : Robot ℝ) (hp : Spec.totalPinv pinv robot.H.length) (hw : robot.WF)
    (ht : ∀ t ∈ robot.jointType, t = 0 ∨ t = 1) (pose : Transform ℝ) (Kp KR : M3 ℝ) (hd : IsRot pose.R) (q : List ℝ)
    (lq : q.length = robot.H.length) :
    ∃ (st : IterStep XReal) (δ : List ℝ), iterBody pinv robot.up pose.up Kp.up KR.up (q.map .fin) = .ok st ∧ st.delta = δ.map .fin ∧
      δ.length = robot.H.length ∧ ∃ (T : Transform ℝ) (k : V3 ℝ) (θ : ℝ), fwdkin robot q true = .ok T ∧
        (R2rot (pose.R.transpose * T.R).up).1.v = k.up ∧ (R2rot (pose.R.transpose * T.R).up).2 = .fin θ ∧
        st.s = (V3.smul (Real.sin (θ / 2)) k).up ∧ st.EP = (T.R.transpose.mulVec (T.p - pose.p)).up := by
  obtain ⟨T, hT, hR⟩ := fwdkin_rigid robot hw q lq
  obtain ⟨J, hJ, lJ⟩ := robotjacobian_ok hw.sized lq ht
  obtain ⟨rows, lr, hr⟩ := hp (J.map fun c => (⟨T.R.transpose.mulVec c.top, T.R.transpose.mulVec c.bot⟩ : V6 ℝ)) (by simp [lJ])
  obtain ⟨k, θ, e1, e2⟩ := R2rot_finite _ (hd.transpose.mul hR)
  exact ⟨_, _, iterBody_eq pinv robot pose T Kp KR q J rows hT hJ hr k θ e1 e2, rfl, by simp [lr], T, k, θ, hT, e1, e2, rfl, rfl⟩

/-- C41: the call terminates normally for every robot with at least two joints (or none) of type rotary or prismatic, every
seed, gain, tolerance and step count, provided `np.linalg.pinv` does. -/
theorem C41_iterative_total (pinv : Pinv XReal) (robot : Robot ℝ) (hp : Spec.totalPinv pinv robot.H.length) (hw : robot.WF)
    (ht : ∀ t ∈ robot.jointType, t = 0 ∨ t = 1) (h1 : robot.H.length ≠ 1) (pose : Transform ℝ) (hd : IsRot pose.R)
    (Kp KR : M3 ℝ) (tol : XReal) (maxSteps : Int) (seed : List ℝ) (ls : seed.length = robot.H.length) :
    ∃ conv sols, iterative_invkin pinv robot.up pose.up (seed.map .fin) maxSteps Kp.up KR.up tol = .ok (conv, sols) := by
  have lt : robot.up.jointType.length = robot.H.length := hw.joints
  have hloop : ∀ (fuel : Nat) (q : List ℝ), q.length = robot.H.length →
      ∃ (c : Bool) (q' : List ℝ), q'.length = robot.H.length ∧
        iterLoop pinv robot.up pose.up Kp.up KR.up tol fuel (q.map .fin) = .ok (c, q'.map .fin) := by
    intro fuel
    induction fuel with
    | zero => exact fun q lq => ⟨false, q, lq, rfl⟩
    | succ fuel ih =>
      intro q lq
      obtain ⟨st, δ, e1, e2, e3, -⟩ := iterBody_ok pinv robot hp hw ht pose Kp KR hd q lq
      by_cases hdone : iterDone st tol = true
      · exact ⟨true, q, lq, by simp [iterLoop, e1, hdone]⟩
      · obtain ⟨c, q', e4, e5⟩ := ih (q.zipWith (· - ·) δ) (by simp [lq, e3])
        refine ⟨c, q', e4, ?_⟩
        rw [← zipWith_fin, ← e2] at e5
        have hl : st.delta.length = (q.map XReal.fin).length := by simp [e2, e3, lq]
        simp only [iterLoop, e1, Except.bind_ok, hdone, if_pos hl]
        simpa using e5
  obtain ⟨c, q', e1, e2⟩ := hloop maxSteps.toNat seed ls
  obtain ⟨ks, -, g2, -⟩ := callV_free seed q' robot.H.length ls e1
  have hN : Normalizer.ofRobot robot.up (some (seed.map XReal.fin)) true = ⟨none, some (seed.map .fin)⟩ := by
    unfold Normalizer.ofRobot
    rcases robot.up.lower with _ | _ <;> rcases robot.up.upper with _ | _ <;> rfl
  refine ⟨c, [(List.zipWith (fun (x : ℝ) (k : ℤ) => x + k * (2 * Real.pi)) q' ks).map .fin], ?_⟩
  unfold iterative_invkin
  simp only [lt, if_pos (show (seed.map XReal.fin).length = robot.H.length by simpa using ls), e2, Except.bind_ok, if_neg h1,
    hN, g2, Except.pure_eq]

theorem turns_zero (x : ℝ) (n : ℤ) (h : |x - (x + n * (2 * Real.pi))| ≤ Real.pi) : n = 0 := by
  have hpi := Real.pi_pos
  rw [abs_le] at h
  have h1 : (n : ℝ) < 1 := by nlinarith
  have h2 : (-1 : ℝ) < n := by nlinarith
  have h1 : n < 1 := by exact_mod_cast h1
  have h2 : -1 < n := by exact_mod_cast h2
  omega

/-- The normalization leaves the seed itself unchanged. -/
theorem callV_seed (seed : List ℝ) (n : Nat) (ls : seed.length = n) :
    (⟨none, some (seed.map .fin)⟩ : Normalizer XReal).callV (List.range n) [seed.map .fin] = .ok [seed.map .fin] := by
  obtain ⟨ks, g1, g2, g3⟩ := callV_free seed seed n ls ls
  rw [g2]
  congr 3
  apply List.ext_getElem
  · simp [g1, ls]
  · intro i h1 h2
    have h3 : i < ks.length := by omega
    have := turns_zero _ _ (g3 i h2 h2 h3)
    simp [List.getElem_zipWith, this]

/-- C41: if the seed is a solution already, the seed itself is returned, with `converged = True`. -/
theorem C41_seed_solves (pinv : Pinv XReal) (robot : Robot ℝ) (hp : Spec.totalPinv pinv robot.H.length) (hw : robot.WF)
    (ht : ∀ t ∈ robot.jointType, t = 0 ∨ t = 1) (h1 : robot.H.length ≠ 1) (pose : Transform ℝ)
    (Kp KR : M3 ℝ) (tol : ℝ) (htol : 0 < tol) (maxSteps : Int) (hm : 0 < maxSteps) (seed : List ℝ)
    (ls : seed.length = robot.H.length) (T : Transform ℝ) (hT : fwdkin robot seed true = .ok T) (hTR : T.R = pose.R)
    (hTp : T.p = pose.p) :
    iterative_invkin pinv robot.up pose.up (seed.map .fin) maxSteps Kp.up KR.up (.fin tol) = .ok (true, [seed.map .fin]) := by
  have lt : robot.up.jointType.length = robot.H.length := hw.joints
  obtain ⟨T', hT', hR⟩ := fwdkin_rigid robot hw seed ls
  rw [hT] at hT'; cases hT'
  have hd : IsRot pose.R := hTR ▸ hR
  obtain ⟨st, δ, e1, e2, e3, T', k, θ, f1, f2, f3, f4, f5⟩ := iterBody_ok pinv robot hp hw ht pose Kp KR hd seed ls
  rw [hT] at f1; cases f1
  have hE : pose.R.transpose * T.R = 1 := by rw [hTR]; exact hd.1
  rw [hE, (C04_R2rot_near_identity 1 IsRot.one (by norm_num [M3.trace]) (by norm_num [M3.trace])).1] at f3
  obtain rfl : θ = 0 := by simpa using f3.symm
  obtain ⟨s, EP, d⟩ := st
  simp only at f4 f5 e2
  subst f4 f5 e2
  have hdone : iterDone ⟨(V3.smul (Real.sin (0 / 2)) k).up, (T.R.transpose.mulVec (T.p - pose.p)).up, δ.map .fin⟩
      (XReal.fin tol) = true := by
    rw [iterDone_iff, hTp]
    simp [htol]
  obtain ⟨m, hm'⟩ : ∃ m, maxSteps.toNat = m + 1 := ⟨maxSteps.toNat - 1, by omega⟩
  have hN : Normalizer.ofRobot robot.up (some (seed.map XReal.fin)) true = ⟨none, some (seed.map .fin)⟩ := by
    unfold Normalizer.ofRobot
    rcases robot.up.lower with _ | _ <;> rcases robot.up.upper with _ | _ <;> rfl
  have hl : iterLoop pinv robot.up pose.up Kp.up KR.up (.fin tol) (m + 1) (seed.map .fin) = .ok (true, seed.map .fin) := by
    rw [iterLoop, e1, Except.bind_ok]
    simp only [hdone]
    rfl
  unfold iterative_invkin
  simp only [lt, if_pos (show (seed.map XReal.fin).length = robot.H.length by simpa using ls), hm', hl, Except.bind_ok, if_neg h1,
    hN, callV_seed seed _ ls, Except.pure_eq]

/-! ## witnesses -/

namespace C40

/-- two prismatic joints along x and y -/
noncomputable def gantry : Robot ℝ := { H := [V3.ex, V3.ey], P := [0, 0, 0], jointType := [1, 1] }

/-- two rotary joints about z -/
noncomputable def elbow : Robot ℝ := { H := [V3.ez, V3.ez], P := [0, 0, 0], jointType := [0, 0] }

theorem gantry_wf : gantry.WF :=
  ⟨rfl, rfl, by simp [gantry], by simp [gantry, IsUnit3], by simp [gantry], by simp [gantry], by simp [gantry], by simp [gantry]⟩

theorem elbow_wf : elbow.WF :=
  ⟨rfl, rfl, by simp [elbow], by simp [elbow, IsUnit3], by simp [elbow], by simp [elbow], by simp [elbow], by simp [elbow]⟩

theorem gantry_fwdkin (a b : ℝ) : fwdkin gantry [a, b] true = .ok ⟨1, ⟨a, b, 0⟩, none, none⟩ := by
  have e : (⟨a, b, 0⟩ : V3 ℝ) = (fwdStep 1 V3.ey 0 b (fwdStep 1 V3.ex 0 a ((1 : M3 ℝ), (0 : V3 ℝ)))).2 := by
    ext <;> simp [fwdStep]
  rw [e]; rfl

theorem gantry_jac (a b : ℝ) : robotjacobian gantry [a, b] true = .ok [⟨0, V3.ex⟩, ⟨0, V3.ey⟩] := by
  have e1 : (1 : M3 ℝ).mulVec V3.ex = V3.ex := by ext <;> simp
  have e2 : (1 : M3 ℝ).mulVec V3.ey = V3.ey := by ext <;> simp
  have : robotjacobian gantry [a, b] true = .ok [⟨0, (1 : M3 ℝ).mulVec V3.ex⟩, ⟨0, (1 : M3 ℝ).mulVec V3.ey⟩] := rfl
  rw [this, e1, e2]

theorem elbow_fwdkin : fwdkin elbow [0, 0] true = .ok ⟨1, 0, none, none⟩ := by
  have e1 : (fwdStep 0 V3.ez 0 0 (fwdStep 0 V3.ez 0 0 ((1 : M3 ℝ), (0 : V3 ℝ)))).1 = 1 := by
    ext <;> simp [fwdStep, rot]
  have e2 : (fwdStep 0 V3.ez 0 0 (fwdStep 0 V3.ez 0 0 ((1 : M3 ℝ), (0 : V3 ℝ)))).2 = 0 := by
    ext <;> simp [fwdStep, rot]
  show Except.ok (Transform.mk (fwdStep 0 V3.ez 0 0 (fwdStep 0 V3.ez 0 0 ((1 : M3 ℝ), (0 : V3 ℝ)))).1
    (fwdStep 0 V3.ez 0 0 (fwdStep 0 V3.ez 0 0 ((1 : M3 ℝ), (0 : V3 ℝ)))).2 none none) = _
  rw [e1, e2]

end C40

/-- C40 is false for prismatic joints: two prismatic joints along x and y, seed 0, desired position (10,0,0), unit gains.
`pinv` is any function that maps the matrix with the orthonormal columns `(0,ex)`, `(0,ey)` to its transpose, which is its
pseudo-inverse.  The call reports convergence after one step at `[10, 0]`, and returns `[10 - 4π, 0]`, more than 6 away. -/
theorem C40_prismatic_false (pinv : Pinv XReal) (hpinv : pinv [⟨0, V3.ex⟩, ⟨0, V3.ey⟩] = .ok [⟨0, V3.ex⟩, ⟨0, V3.ey⟩]) :
    ∃ sol : List ℝ,
      iterative_invkin pinv C40.gantry.up (Transform.up ⟨1, ⟨10, 0, 0⟩, none, none⟩) [.fin 0, .fin 0] 200 1 1 (.fin (1/10000)) =
        .ok (true, [sol.map .fin]) ∧
      ∃ T, fwdkin C40.gantry sol true = .ok T ∧ 6 < (T.p - ⟨10, 0, 0⟩).norm := by
  set pose : Transform ℝ := ⟨1, ⟨10, 0, 0⟩, none, none⟩ with hpose
  have c2 : ((2 : ℚ) : ℝ) = 2 := by norm_num
  have hR : R2rot (1 : M3 XReal) = (.list (V3.up V3.ez), .fin 0) := by
    have := (C04_R2rot_near_identity 1 IsRot.one (by norm_num [M3.trace]) (by norm_num [M3.trace])).1
    rwa [← M3.up_one] at this
  have hbody : ∀ a b : ℝ, iterBody pinv C40.gantry.up pose.up (M3.up 1) (M3.up 1) ([a, b].map .fin) =
      .ok ⟨V3.up 0, V3.up ⟨a - 10, b, 0⟩, [.fin (a - 10), .fin b]⟩ := by
    intro a b
    have f : fwdkin C40.gantry.up ([a, b].map .fin) true = .ok (Transform.up ⟨1, ⟨a, b, 0⟩, none, none⟩) := by
      rw [fwdkin_up, C40.gantry_fwdkin]; rfl
    have j : robotjacobian C40.gantry.up ([a, b].map .fin) true = .ok ([⟨0, V3.ex⟩, ⟨0, V3.ey⟩].map V6.up) := by
      rw [robotjacobian_up, C40.gantry_jac]; rfl
    have hJ : ([⟨0, V3.ex⟩, ⟨0, V3.ey⟩].map V6.up).map (fun c => (⟨(Transform.up ⟨1, ⟨a, b, 0⟩, none, none⟩).R.transpose.mulVec c.top,
        (Transform.up ⟨1, ⟨a, b, 0⟩, none, none⟩).R.transpose.mulVec c.bot⟩ : V6 XReal)) = [⟨0, V3.ex⟩, ⟨0, V3.ey⟩] := by
      have e : ∀ v : V3 ℝ, (M3.up 1).transpose.mulVec v.up = v.up := by
        intro v; rw [M3.up_transpose, M3.up_mulVec]; congr 1; ext <;> simp
      have hx : (V3.ex : V3 XReal) = V3.up V3.ex := rfl
      have hy : (V3.ey : V3 XReal) = V3.up V3.ey := rfl
      have hz : (0 : V3 XReal) = V3.up 0 := rfl
      simp only [List.map_cons, List.map_nil, Transform.up, V6.up, e, hx, hy, hz]
    have hER : pose.up.R.transpose * (Transform.up ⟨1, ⟨a, b, 0⟩, none, none⟩).R = (1 : M3 XReal) := by
      show (M3.up 1).transpose * M3.up 1 = _
      rw [M3.up_transpose, M3.up_mul, M3.up_one]; congr 1; ext <;> simp
    have hEP : (Transform.up ⟨1, ⟨a, b, 0⟩, none, none⟩).R.transpose.mulVec
        ((Transform.up ⟨1, ⟨a, b, 0⟩, none, none⟩).p - pose.up.p) = V3.up ⟨a - 10, b, 0⟩ := by
      show (M3.up 1).transpose.mulVec (V3.up ⟨a, b, 0⟩ - V3.up ⟨10, 0, 0⟩) = _
      rw [M3.up_transpose, V3.up_sub, M3.up_mulVec]; congr 1; ext <;> simp
    have hs : V3.smul (Elem.sin (XReal.fin 0 / lit 2)) (Axis.list (V3.up V3.ez)).v = V3.up 0 := by
      rw [XReal.lit_fin, c2, XReal.fin_div _ (by norm_num), XReal.sin_fin]
      show V3.smul _ (V3.up V3.ez) = _
      rw [V3.up_smul]; congr 1; ext <;> simp
    unfold iterBody
    simp only [f, j, Except.bind_ok, hJ, hpinv, hER, hR, hEP, hs, Except.pure_eq]
    simp only [List.map_cons, List.map_nil, M3.up_mulVec]
    have d1 : V6.dot (⟨0, V3.ex⟩ : V6 XReal) ⟨V3.up ((1 : M3 ℝ).mulVec 0), V3.up ((1 : M3 ℝ).mulVec ⟨a - 10, b, 0⟩)⟩ = .fin (a - 10) := by
      have : V6.dot (⟨0, V3.ex⟩ : V6 XReal) ⟨V3.up ((1 : M3 ℝ).mulVec 0), V3.up ((1 : M3 ℝ).mulVec ⟨a - 10, b, 0⟩)⟩ =
        .fin ((0 : V3 ℝ).dot ((1 : M3 ℝ).mulVec 0) + V3.ex.dot ((1 : M3 ℝ).mulVec ⟨a - 10, b, 0⟩)) := rfl
      rw [this]; congr 1; simp [V3.dot]
    have d2 : V6.dot (⟨0, V3.ey⟩ : V6 XReal) ⟨V3.up ((1 : M3 ℝ).mulVec 0), V3.up ((1 : M3 ℝ).mulVec ⟨a - 10, b, 0⟩)⟩ = .fin b := by
      have : V6.dot (⟨0, V3.ey⟩ : V6 XReal) ⟨V3.up ((1 : M3 ℝ).mulVec 0), V3.up ((1 : M3 ℝ).mulVec ⟨a - 10, b, 0⟩)⟩ =
        .fin ((0 : V3 ℝ).dot ((1 : M3 ℝ).mulVec 0) + V3.ey.dot ((1 : M3 ℝ).mulVec ⟨a - 10, b, 0⟩)) := rfl
      rw [this]; congr 1; simp [V3.dot]
    rw [d1, d2]
  have hstep : ∀ fuel, iterLoop pinv C40.gantry.up pose.up (M3.up 1) (M3.up 1) (.fin (1/10000)) (fuel + 1 + 1) ([0, 0].map .fin) =
      .ok (true, [10, 0].map .fin) := by
    intro fuel
    have n1 : iterDone ⟨V3.up 0, V3.up ⟨(0 : ℝ) - 10, 0, 0⟩, [.fin (0 - 10), .fin 0]⟩ (XReal.fin (1/10000)) = false := by
      rw [← Bool.not_eq_true, iterDone_iff]
      rintro ⟨-, h, -⟩
      norm_num [abs_lt] at h
    have n2 : iterDone ⟨V3.up 0, V3.up ⟨(10 : ℝ) - 10, 0, 0⟩, [.fin (10 - 10), .fin 0]⟩ (XReal.fin (1/10000)) = true := by
      rw [iterDone_iff]; norm_num
    have z : ([0, 0].map XReal.fin).zipWith (· - ·) [.fin (0 - 10), .fin 0] = [10, 0].map .fin := by
      simp
    rw [iterLoop, hbody 0 0, Except.bind_ok]
    simp only [n1]
    rw [if_neg (by simp), if_pos (by simp), z, iterLoop, hbody 10 0, Except.bind_ok]
    simp only [n2]
    rfl
  obtain ⟨ks, lk, g2, g3⟩ := callV_free [0, 0] [10, 0] 2 rfl rfl
  obtain ⟨k, k', rfl⟩ : ∃ k k', ks = [k, k'] := List.length_eq_two.1 lk
  refine ⟨[10 + k * (2 * Real.pi), 0 + k' * (2 * Real.pi)], ?_, _, C40.gantry_fwdkin _ _, ?_⟩
  rotate_left
  · have h0 := g3 0 (by simp) (by simp) (by simp)
    simp only [List.getElem_cons_zero] at h0
    have hpi := Real.pi_gt_d2
    have hk : k ≤ -1 := by
      by_contra hc
      have hc : (0 : ℤ) ≤ k := by omega
      have : (0 : ℝ) ≤ k := by exact_mod_cast hc
      have := Real.pi_lt_d2
      rw [abs_le] at h0
      nlinarith
    have hk : (k : ℝ) ≤ -1 := by exact_mod_cast hk
    unfold V3.norm
    rw [sqrt_real]
    apply Real.lt_sqrt_of_sq_lt
    have hm : (k : ℝ) * (2 * Real.pi) ≤ -6 := by nlinarith
    have hm' : (k : ℝ) * (2 * Real.pi) ≤ -6.2 := by nlinarith
    simp
    nlinarith [sq_nonneg ((k':ℝ) * (2 * Real.pi))]
  · have hN : Normalizer.ofRobot C40.gantry.up (some [XReal.fin 0, .fin 0]) true = ⟨none, some ([0, 0].map .fin)⟩ := rfl
    unfold iterative_invkin
    have l2 : C40.gantry.up.jointType.length = 2 := rfl
    have e := hstep 198
    rw [M3.up_one]
    simp only [l2, hN, g2]
    show (iterLoop pinv C40.gantry.up pose.up (M3.up 1) (M3.up 1) (.fin (1/10000)) (198 + 1 + 1) ([0, 0].map .fin) >>= _) = _
    rw [e, Except.bind_ok]
    simp only [g2]
    rfl

/-- C40 is false when the orientation error is near half a turn: two rotary joints about z, seed 0, desired orientation half a
turn about `(0, 2t/(1+t²), (1-t²)/(1+t²))`, `t = 1e-5`, default tolerance.  `R2rot` returns an axis of length about `2e-5`, so
for every `pinv`, and any positive number of steps, the seed itself is reported as converged. -/
theorem C40_half_turn_false (pinv : Pinv XReal) (hp : Spec.totalPinv pinv 2) (maxSteps : Int) (hm : 0 < maxSteps) (Kp KR : M3 ℝ) :
    ∃ (pose : Transform ℝ), IsRot pose.R ∧
      iterative_invkin pinv C40.elbow.up pose.up [.fin 0, .fin 0] maxSteps Kp.up KR.up (.fin (1/10000)) =
        .ok (true, [[.fin 0, .fin 0]]) ∧
      ∃ T, fwdkin C40.elbow [0, 0] true = .ok T ∧ (T.R - pose.R).frob * (T.R - pose.R).frob = 8 := by
  set k : V3 ℝ := ⟨0, 2 * (1/100000) / (1 + (1/100000) ^ 2), (1 - (1/100000) ^ 2) / (1 + (1/100000) ^ 2)⟩ with hk
  have hu : IsUnit3 k := by norm_num [IsUnit3, hk]
  have hy := C04_R2rot_yz_plane k hu rfl (by norm_num [hk, abs_of_pos])
  set pose : Transform ℝ := ⟨rot k Real.pi, 0, none, none⟩ with hpose
  have hd : IsRot pose.R := rot_isRot k hu _
  have hsym : pose.R.transpose * 1 = rot k Real.pi := by
    show (rot k Real.pi).transpose * 1 = _
    ext <;> simp [rot] <;> ring
  refine ⟨pose, hd, ?_, _, C40.elbow_fwdkin, ?_⟩
  · obtain ⟨st, δ, e1, e2, e3, T, k', θ, f1, f2, f3, f4, f5⟩ := iterBody_ok pinv C40.elbow hp C40.elbow_wf (by simp [C40.elbow]) pose
      Kp KR hd [0, 0] rfl
    rw [C40.elbow_fwdkin] at f1
    cases f1
    simp only [hsym, hy] at f2 f3
    obtain rfl : θ = Real.pi := by simpa using f3.symm
    obtain rfl : k' = ⟨0, |k.y|, 0⟩ := (V3.up_inj f2).symm
    obtain ⟨s, EP, d⟩ := st
    simp only at f4 f5 e2
    subst f4 f5 e2
    have hdone : iterDone ⟨(V3.smul (Real.sin (Real.pi / 2)) ⟨0, |k.y|, 0⟩).up, ((1 : M3 ℝ).transpose.mulVec (0 - pose.p)).up, δ.map .fin⟩
        (XReal.fin (1/10000)) = true := by
      rw [iterDone_iff]
      norm_num [hk, hpose, abs_of_pos]
    obtain ⟨m, hm'⟩ : ∃ m, maxSteps.toNat = m + 1 := ⟨maxSteps.toNat - 1, by omega⟩
    obtain ⟨ks, lk, g2, g3⟩ := callV_free [0, 0] [0, 0] 2 rfl rfl
    obtain ⟨n, n', rfl⟩ : ∃ k k', ks = [k, k'] := List.length_eq_two.1 lk
    have zero_of : ∀ n : ℤ, |(0 : ℝ) - (0 + n * (2 * Real.pi))| ≤ Real.pi → n = 0 := by
      intro n h
      have hpi := Real.pi_pos
      rw [abs_le] at h
      have h1 : (n : ℝ) < 1 := by nlinarith
      have h2 : (-1 : ℝ) < n := by nlinarith
      have h1 : n < 1 := by exact_mod_cast h1
      have h2 : -1 < n := by exact_mod_cast h2
      omega
    obtain rfl := zero_of n (g3 0 (by simp) (by simp) (by simp))
    obtain rfl := zero_of n' (g3 1 (by simp) (by simp) (by simp))
    have hN : Normalizer.ofRobot C40.elbow.up (some [XReal.fin 0, .fin 0]) true = ⟨none, some ([0, 0].map .fin)⟩ := rfl
    have l2 : C40.elbow.up.jointType.length = 2 := rfl
    have hl : iterLoop pinv C40.elbow.up pose.up Kp.up KR.up (.fin (1/10000)) (m + 1) [.fin 0, .fin 0] = .ok (true, [.fin 0, .fin 0]) := by
      have e1 : iterBody pinv C40.elbow.up pose.up Kp.up KR.up [.fin 0, .fin 0] = _ := e1
      rw [iterLoop, e1, Except.bind_ok]
      simp only [hdone]
      rfl
    unfold iterative_invkin
    simp only [l2, hN, hm', hl]
    show ((⟨none, some ([0, 0].map .fin)⟩ : Normalizer XReal).callV (List.range 2) [[0, 0].map .fin] >>= _) = _
    rw [g2]
    simp
  · rw [frob_sub_sq _ _ IsRot.one hd]
    show 2 * (3 - (pose.R.transpose * 1).trace) = 8
    rw [hsym]
    unfold IsUnit3 at hu
    simp [M3.trace, rot]
    linarith

/-! ## non-vacuity -/

/-- a stand-in for `np.linalg.pinv`; the theorems below hold for every total function -/
def C40.anyPinv : Pinv XReal := fun J => .ok (J.map fun _ => ⟨V3.up V3.ex, V3.up V3.ex⟩)

theorem C40.anyPinv_total (n : Nat) : Spec.totalPinv C40.anyPinv n := by
  intro J lJ
  exact ⟨J.map fun _ => ⟨V3.ex, V3.ex⟩, by simp [lJ], by simp [C40.anyPinv, V6.up, Function.comp_def]⟩

theorem C40.anyPinv_finite : Spec.finitePinv C40.anyPinv := by
  intro J rows h r hr
  cases h
  obtain ⟨_, -, rfl⟩ := List.mem_map.1 hr
  exact ⟨V3.ex, V3.ex, rfl⟩

-- the hypotheses of C41_iterative_total and C41_iterative_result_partial are met by the two-joint robot, for 7 steps
example : ∃ conv sols, iterative_invkin C40.anyPinv C40.elbow.up (Transform.up ⟨1, ⟨3, 0, 0⟩, none, none⟩) ([1, 2].map .fin) 7
    (M3.up 1) (M3.up 1) (.fin (1/10000)) = .ok (conv, sols) ∧ ∃ sol : List ℝ, sols = [sol.map .fin] := by
  obtain ⟨c, l, h⟩ := C41_iterative_total C40.anyPinv C40.elbow (C40.anyPinv_total _) C40.elbow_wf (by simp [C40.elbow])
    (by simp [C40.elbow]) ⟨1, ⟨3, 0, 0⟩, none, none⟩ IsRot.one 1 1 (.fin (1/10000)) 7 [1, 2] rfl
  obtain ⟨q, ks, -, -, -, -, e, -⟩ := C41_iterative_result_partial C40.anyPinv C40.anyPinv_finite C40.elbow C40.elbow_wf
    ⟨1, ⟨3, 0, 0⟩, none, none⟩ IsRot.one 1 1 (.fin (1/10000)) 7 [1, 2] c l h
  exact ⟨c, l, h, _, e⟩

-- the hypotheses of C40_converged_partial are met: the two-joint robot started at the solution reports convergence
example : ∃ sol : List ℝ, iterative_invkin C40.anyPinv C40.elbow.up (Transform.up ⟨1, 0, none, none⟩) ([0, 0].map .fin) 5
    (M3.up 1) (M3.up 1) (.fin (1/10000)) = .ok (true, [sol.map .fin]) ∧
    Spec.reaches C40.elbow sol ⟨1, 0, none, none⟩ (1/10000) := by
  have h := C41_seed_solves C40.anyPinv C40.elbow (C40.anyPinv_total _) C40.elbow_wf (by simp [C40.elbow]) (by simp [C40.elbow])
    ⟨1, 0, none, none⟩ 1 1 (1/10000) (by norm_num) 5 (by norm_num) [0, 0] rfl _ C40.elbow_fwdkin rfl rfl
  obtain ⟨sol, e, h2⟩ := C40_converged_partial C40.anyPinv C40.anyPinv_finite C40.elbow C40.elbow_wf (by simp [C40.elbow])
    ⟨1, 0, none, none⟩ IsRot.one 1 1 (1/10000) 5 [0, 0] _ h
  obtain rfl : [0, 0] = sol := by
    have : Function.Injective XReal.fin := fun a b h => by simpa using h
    exact List.map_injective_iff.2 this (by simpa using e)
  refine ⟨[0, 0], h, h2 _ C40.elbow_fwdkin ?_⟩
  norm_num [M3.trace]
