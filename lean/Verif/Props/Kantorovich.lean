import Verif.Lemmas.Kanto
import Verif.Props.Convergence
import Verif.Props.Taylor
import Mathlib.Algebra.Order.Chebyshev

/-! # Property C80: a checkable condition on the seed under which `iterative_invkin` converges -/
set_option autoImplicit false
open Matrix

/-- The total motion between two joint vectors. -/
noncomputable def Spec.jointDist (xs ys : List ℝ) : ℝ := (List.zipWith (fun x y => |y - x|) xs ys).sum

namespace C80
open IterConv Kanto

theorem jointDist_ofFn {n : Nat} (x y : Fin n → ℝ) : Spec.jointDist (List.ofFn x) (List.ofFn y) = ∑ i, |y i - x i| := by
  unfold Spec.jointDist
  induction n with
  | zero => simp
  | succ n ih => rw [List.ofFn_succ, List.ofFn_succ, List.zipWith_cons_cons, List.sum_cons, ih, Fin.sum_univ_succ]

theorem diff_le : ∀ (ts : List Nat) (xs ys : List ℝ), Spec.turnDiff ts xs ys + Spec.slideDiff ts xs ys ≤ Spec.jointDist xs ys
  | [], xs, ys => by
    simp only [Spec.turnDiff, Spec.slideDiff, Spec.jointDist]
    rw [add_zero]
    apply List.sum_nonneg
    intro a ha
    rw [List.mem_iff_getElem] at ha
    obtain ⟨i, hi, rfl⟩ := ha
    rw [List.getElem_zipWith]
    exact abs_nonneg _
  | _ :: _, [], _ => by simp [Spec.turnDiff, Spec.slideDiff, Spec.jointDist]
  | _ :: _, _ :: _, [] => by simp [Spec.turnDiff, Spec.slideDiff, Spec.jointDist]
  | t :: ts, x :: xs, y :: ys => by
    have := diff_le ts xs ys
    have h0 := abs_nonneg (y - x)
    have e : Spec.jointDist (x :: xs) (y :: ys) = |y - x| + Spec.jointDist xs ys := by simp [Spec.jointDist]
    simp only [Spec.turnDiff, Spec.slideDiff, e]
    split_ifs <;> first | linarith | omega

theorem travel_slide : ∀ (ts : List Nat) (Ps : List (V3 ℝ)) (xs ys : List ℝ), xs.length = ys.length →
    Spec.travel ts Ps ys ≤ Spec.travel ts Ps xs + Spec.slideDiff ts xs ys
  | [], _, _, _, _ => by simp [Spec.travel, Spec.slideDiff]
  | _ :: _, [], xs, ys, _ => by
    have := slideDiff_nonneg (‹Nat› :: ‹List Nat›) xs ys
    simpa [Spec.travel] using this
  | _ :: _, _ :: _, [], ys, h => by
    obtain rfl : ys = [] := List.length_eq_zero_iff.1 (by simpa using h.symm)
    simp [Spec.travel, Spec.slideDiff]
  | _ :: _, _ :: _, _ :: _, [], h => by simp at h
  | t :: ts, P :: Ps, x :: xs, y :: ys, h => by
    have := travel_slide ts Ps xs ys (by simpa using h)
    have h0 : |y| ≤ |x| + |y - x| := by
      have := abs_add_le x (y - x)
      rwa [add_sub_cancel] at this
    simp only [Spec.travel, Spec.slideDiff]
    split_ifs <;> linarith

theorem arm_le (robot : Robot ℝ) (xs ys : List ℝ) (h : xs.length = ys.length) : Spec.arm robot ys ≤ Spec.arm robot xs + Spec.jointDist xs ys := by
  have h1 := travel_slide robot.jointType robot.P.tail xs ys h
  have h2 := diff_le robot.jointType xs ys
  have h3 := turnDiff_nonneg robot.jointType xs ys
  unfold Spec.arm
  linarith

/-- One step, with the second-order terms. -/
theorem step {robot : Robot ℝ} (hw : robot.WF) (hty : ∀ t ∈ robot.jointType, t = 0 ∨ t = 1) {n : Nat} (hn : robot.H.length = n)
    (K : BodyKin robot n) (pose : Transform ℝ) (hd : IsRot pose.R) (x x' : Fin n → ℝ) {κp κR l ρ D Γ : ℝ}
    (htr : 2 < (ER K pose x).trace) (hl : l = 0 ∨ l = lam (ER K pose x)) (hκ : 0 ≤ κR)
    (hρ0 : 0 ≤ ρ) (hρ : (1 - κR / 2) ^ 2 + κR * Spec.halfSin (ER K pose x) ^ 2 ≤ ρ ^ 2)
    (ht : sumTop (List.ofFn (K.col x)) (List.ofFn (x' - x)) = V3.smul (-κR * l) (Wv (ER K pose x)))
    (hb : sumBot (List.ofFn (K.col x)) (List.ofFn (x' - x)) = V3.smul (-κp) (EP K pose x))
    (hD : ∑ i, |x' i - x i| ≤ D) (hΓ1 : 1 ≤ Γ) (hΓ : Spec.arm robot (List.ofFn x) ≤ Γ) :
    Spec.halfSin (ER K pose x') ≤ Spec.halfSin (ER K pose x) - (1 - ρ) * (V3.smul l (Wv (ER K pose x))).norm + D ^ 2 / 4 ∧
    (EP K pose x').norm ≤ |1 - κp| * (EP K pose x).norm + Γ * (D ^ 2 / 2) := by
  obtain ⟨J, T, U, g1, g2, g3, g4, g5⟩ := C78_jacobian_taylor robot hw hty (List.ofFn x) (List.ofFn x') (by simp [hn]) (by simp [hn])
  rw [K.fk] at g2 g3
  cases g2
  cases g3
  obtain ⟨J', j1, j2⟩ := K.jac x
  rw [g1] at j1
  cases j1
  have hR := K.rigid x
  have hR' := K.rigid x'
  rw [C70.ofFn_sub] at g4 g5
  rw [← j2, sumTop_map] at ht
  rw [← j2, sumBot_map] at hb
  have back : ∀ a b : V3 ℝ, (K.T x).R.transpose.mulVec a = b → a = (K.T x).R.mulVec b := fun a b h => by
    rw [← h, M3.mulVec_mulVec, hR.orth', M3.one_mulVec]
  rw [back _ _ ht] at g4
  rw [back _ _ hb] at g5
  set A := Spec.turnDiff robot.jointType (List.ofFn x) (List.ofFn x') with hA
  set B := Spec.slideDiff robot.jointType (List.ofFn x) (List.ofFn x') with hB
  have A0 : 0 ≤ A := turnDiff_nonneg _ _ _
  have B0 : 0 ≤ B := slideDiff_nonneg _ _ _
  have hAB : A + B ≤ D := by
    have := diff_le robot.jointType (List.ofFn x) (List.ofFn x')
    rw [jointDist_ofFn] at this
    linarith
  constructor
  · have h := orient_step (c := D ^ 2 / 2) (hd.transpose.mul hR) (hd.transpose.mul hR') htr hl hκ hρ0 hρ (fun v => by
      have hv := g4 v
      rw [← hR.mulVec_cross] at hv
      have e : (ER K pose x').mulVec v - (ER K pose x).mulVec v -
          (ER K pose x).mulVec ((V3.smul (-κR * l) (Wv (ER K pose x))).cross v) =
          pose.R.transpose.mulVec ((K.T x').R.mulVec v - (K.T x).R.mulVec v -
            (K.T x).R.mulVec ((V3.smul (-κR * l) (Wv (ER K pose x))).cross v)) := by
        rw [M3.mulVec_sub, M3.mulVec_sub, M3.mulVec_mulVec, M3.mulVec_mulVec, M3.mulVec_mulVec]
        rfl
      change ((ER K pose x').mulVec v - (ER K pose x).mulVec v - (ER K pose x).mulVec ((V3.smul (-κR * l) (Wv (ER K pose x))).cross v)).norm ≤ _
      rw [e, hd.transpose.norm_mulVec]
      refine hv.trans (mul_le_mul_of_nonneg_right ?_ v.norm_nonneg)
      have : A ^ 2 ≤ D ^ 2 := pow_le_pow_left₀ A0 (by linarith) 2
      linarith)
    have e : D ^ 2 / 2 / 2 = D ^ 2 / 4 := by ring
    rw [e] at h
    exact h
  · have n1 : (EP K pose x').norm = ((K.T x').p - pose.p).norm := hR'.transpose.norm_mulVec _
    have n2 : (EP K pose x).norm = ((K.T x).p - pose.p).norm := hR.transpose.norm_mulVec _
    have eb : (K.T x).R.mulVec (V3.smul (-κp) (EP K pose x)) = (-κp) • ((K.T x).p - pose.p) := by
      have : (K.T x).R.mulVec (EP K pose x) = (K.T x).p - pose.p := (back _ _ rfl).symm
      rw [← this]
      ext <;> simp <;> ring
    rw [eb] at g5
    have e : (K.T x').p - pose.p = ((K.T x').p - (K.T x).p - (-κp) • ((K.T x).p - pose.p)) + (1 - κp) • ((K.T x).p - pose.p) := by
      ext <;> simp <;> ring
    rw [n1, n2, e]
    refine (V3.norm_add_le _ _).trans ?_
    rw [V3.norm_hsmul]
    have q1 : A ^ 2 / 2 * Spec.arm robot (List.ofFn x) ≤ A ^ 2 / 2 * Γ := mul_le_mul_of_nonneg_left hΓ (by positivity)
    have q2 : A * B ≤ A * B * Γ := le_mul_of_one_le_right (by positivity) hΓ1
    have q3 : (A ^ 2 / 2 + A * B) * Γ ≤ D ^ 2 / 2 * Γ := by
      refine mul_le_mul_of_nonneg_right ?_ (by linarith)
      have : (A + B) ^ 2 ≤ D ^ 2 := pow_le_pow_left₀ (by linarith) hAB 2
      nlinarith [sq_nonneg B]
    linarith

/-- The size of a joint motion from its squares. -/
theorem sum_abs_le {n : Nat} (δ : Fin n → ℝ) {σ M κp κR a b : ℝ} (hσ : 0 < σ) (hp : 0 ≤ κp) (hR : 0 ≤ κR) (ha : 0 ≤ a) (hb : 0 ≤ b)
    (hMp : κp * Real.sqrt n ≤ M * σ) (hMR : κR * Real.sqrt n ≤ M * σ) (h : σ ^ 2 * (δ ⬝ᵥ δ) ≤ (κR * a) ^ 2 + (κp * b) ^ 2) :
    ∑ i, |δ i| ≤ M * (a + b) := by
  have h1 : (∑ i, |δ i|) ^ 2 ≤ n * (δ ⬝ᵥ δ) := by
    have := sq_sum_le_card_mul_sum_sq (s := Finset.univ) (f := fun i => |δ i|)
    simpa [dotProduct, sq] using this
  have hn : Real.sqrt n ^ 2 = n := Real.sq_sqrt (by positivity)
  have n0 := Real.sqrt_nonneg (n : ℝ)
  have g1 := mul_le_mul_of_nonneg_right hMR ha
  have g2 := mul_le_mul_of_nonneg_right hMp hb
  have k1 : (σ * ∑ i, |δ i|) ^ 2 ≤ (M * σ * (a + b)) ^ 2 := by
    have e1 : (σ * ∑ i, |δ i|) ^ 2 ≤ n * (σ ^ 2 * (δ ⬝ᵥ δ)) := by
      rw [mul_pow]
      have := mul_le_mul_of_nonneg_left h1 (sq_nonneg σ)
      linarith
    have e2 : n * (σ ^ 2 * (δ ⬝ᵥ δ)) ≤ n * ((κR * a) ^ 2 + (κp * b) ^ 2) := mul_le_mul_of_nonneg_left h (by positivity)
    have e3 : n * ((κR * a) ^ 2 + (κp * b) ^ 2) ≤ (κR * Real.sqrt n * a + κp * Real.sqrt n * b) ^ 2 := by
      have : 0 ≤ κR * Real.sqrt n * a * (κp * Real.sqrt n * b) := by positivity
      have e : (κR * Real.sqrt n * a + κp * Real.sqrt n * b) ^ 2 =
          Real.sqrt n ^ 2 * ((κR * a) ^ 2 + (κp * b) ^ 2) + 2 * (κR * Real.sqrt n * a * (κp * Real.sqrt n * b)) := by ring
      rw [e, hn]
      linarith
    have e4 : (κR * Real.sqrt n * a + κp * Real.sqrt n * b) ^ 2 ≤ (M * σ * (a + b)) ^ 2 :=
      pow_le_pow_left₀ (by positivity) (by linarith) 2
    linarith
  have M0 : 0 ≤ M := by
    have : 0 ≤ M * σ := le_trans (by positivity) hMp
    exact nonneg_of_mul_nonneg_left this hσ
  have := le_of_sq_le_sq k1 (by positivity)
  have : σ * ∑ i, |δ i| ≤ σ * (M * (a + b)) := by linarith
  exact le_of_mul_le_mul_left this hσ

/-- In terms of lengths: if the test fails then the error is at least the tolerance. -/
theorem not_done {s P : V3 ℝ} {δ : List XReal} {tol : ℝ} (h : ¬ iterDone ⟨s.up, P.up, δ⟩ (XReal.fin tol) = true) :
    tol ≤ s.norm + P.norm := by
  rw [iterDone_iff] at h
  by_contra hc
  rw [not_le] at hc
  have := s.norm_nonneg
  have := P.norm_nonneg
  have h1 := s.abs_x_le
  have h2 := s.abs_y_le
  have h3 := s.abs_z_le
  have h4 := P.abs_x_le
  have h5 := P.abs_y_le
  have h6 := P.abs_z_le
  exact h ⟨⟨by linarith, by linarith, by linarith⟩, by linarith, by linarith, by linarith⟩

/-- An orientation error that is not measured is small. -/
theorem unmeasured {E : M3 ℝ} (hE : IsRot E) (htr : 2 < E.trace) {k : V3 ℝ} {θ : ℝ} (e1 : (R2rot E.up).1.v = k.up)
    (e2 : (R2rot E.up).2 = .fin θ) (h : V3.smul (Real.sin (θ / 2)) k = 0) : Spec.halfSin E ≤ 1/1000000 := by
  by_contra hc
  rw [not_le] at hc
  obtain ⟨w, u, h0, h1, h2, -⟩ := quat hE
  rw [halfSin_eq h1 h2] at hc
  have hsin : 1/1000000 ≤ Real.sqrt (1 - ((E.trace - 1) / 2) ^ 2) := by
    apply Real.le_sqrt_of_sq_le
    have hU := u.norm_sq
    have : (1/1000000 : ℝ) ^ 2 ≤ u.norm ^ 2 := pow_le_pow_left₀ (by norm_num) hc.le 2
    have hw : 3 / 4 ≤ w * w := by linarith
    have e : 1 - ((E.trace - 1) / 2) ^ 2 = 4 * (w * w) * u.norm ^ 2 := by rw [h2, hU]; nlinarith
    rw [e]
    nlinarith [sq_nonneg u.norm]
  obtain ⟨k', θ', g1, g2, g3, g4, -⟩ := C03_R2rot_regular E hE hsin
  rw [g1] at e1 e2
  obtain rfl : k' = k := V3.up_inj e1
  obtain rfl : θ' = θ := by simpa using e2
  have hs : 0 < Real.sin (θ' / 2) := Real.sin_pos_of_pos_of_lt_pi (by linarith) (by linarith [Real.pi_pos])
  have : (V3.smul (Real.sin (θ' / 2)) k').norm = 0 := by rw [h, V3.norm_zero]
  have e : V3.smul (Real.sin (θ' / 2)) k' = Real.sin (θ' / 2) • k' := rfl
  rw [e, V3.norm_hsmul, V3.norm_eq_one g2, mul_one, abs_of_pos hs] at this
  linarith

/-- The error that the iteration reduces: the sine of half the angle between the orientations, plus the distance of the positions. -/
noncomputable def err {robot : Robot ℝ} {n : Nat} (K : BodyKin robot n) (pose : Transform ℝ) (x : Fin n → ℝ) : ℝ :=
  Spec.halfSin (ER K pose x) + (EP K pose x).norm

/-- One pass of the loop. -/
theorem pass {robot : Robot ℝ} (hw : robot.WF) (hty : ∀ t ∈ robot.jointType, t = 0 ∨ t = 1) {n : Nat} (hn : robot.H.length = n)
    (K : BodyKin robot n) (pinv : Pinv XReal) (rc : ℝ) (hpinv : Spec.exactPinv pinv rc n)
    (pose : Transform ℝ) (hd : IsRot pose.R) {κp κR σ Γ M μ V : ℝ} (hp0 : 0 < κp) (hR0 : 0 < κR) (hσ : 0 < σ) (hΓ1 : 1 ≤ Γ)
    (hMp : κp * Real.sqrt n ≤ M * σ) (hMR : κR * Real.sqrt n ≤ M * σ) (hμ1 : μ ≤ 1) (hμp : |1 - κp| ≤ 1 - μ)
    (hμR : (1 - κR / 2) ^ 2 + κR * V ^ 2 ≤ (1 - μ) ^ 2) (hV : V < 1 / 2) (hsmall : M ^ 2 * (1 / 4 + Γ / 2) * V ≤ μ / 2)
    (x : Fin n → ℝ) (hc : Spec.condAbove rc (Spec.cols (K.col x)))
    (hz : ∀ z : Fin 6 → ℝ, σ ^ 2 * (z ⬝ᵥ z) ≤ (z ᵥ* Spec.cols (K.col x)) ⬝ᵥ (z ᵥ* Spec.cols (K.col x)))
    (hΓ : Spec.arm robot (List.ofFn x) ≤ Γ) (hx : err K pose x ≤ V) (tol : ℝ) :
    ∃ (st : IterStep XReal) (δ : Fin n → ℝ) (c : ℝ), iterBody pinv robot.up pose.up (M3.smul κp 1).up (M3.smul κR 1).up ((List.ofFn x).map .fin) = .ok st ∧
      st.delta = (List.ofFn δ).map .fin ∧ (iterDone st (XReal.fin tol) = true → Spec.reaches robot (List.ofFn x) pose tol) ∧
      (¬ iterDone st (XReal.fin tol) = true → tol ≤ c ∧ (1/1000000 ≤ tol → err K pose x ≤ 2 * c)) ∧
      0 ≤ c ∧ c ≤ err K pose x ∧ ∑ i, |δ i| ≤ M * c ∧ err K pose (x - δ) ≤ err K pose x - μ / 2 * c := by
  have hs0 := halfSin_nonneg (ER K pose x)
  have he0 := (EP K pose x).norm_nonneg
  have hxs : Spec.halfSin (ER K pose x) ≤ V := by unfold err at hx; linarith
  have hE : IsRot (ER K pose x) := hd.transpose.mul (K.rigid x)
  have htr := trace_of_halfSin hE (by linarith)
  obtain ⟨l, δ, k, θ, e1, e2, es, hb, hl, t1, t2, -, t4⟩ := C70.body K pinv rc hpinv pose hd κp κR hp0 hR0 (σ ^ 2) (by positivity) x hc hz htr
  set a := (V3.smul l (Wv (ER K pose x))).norm with ha
  have a0 : 0 ≤ a := V3.norm_nonneg _
  have has : a ≤ Spec.halfSin (ER K pose x) := by
    rcases hl with rfl | rfl
    · have z : (V3.smul 0 (Wv (ER K pose x))).norm = 0 := V3.norm_eq_zero.2 (by ext <;> simp)
      rw [ha, z]; exact hs0
    · exact le_of_eq (orient_lin hE htr 0 0).2
  set c := a + (EP K pose x).norm with hcd
  have hD := sum_abs_le δ hσ hp0.le hR0.le a0 he0 hMp hMR t4
  have ex : (x - δ) - x = -δ := by abel
  have st := step hw hty hn K pose hd x (x - δ) (D := M * c) (Γ := Γ) (ρ := 1 - μ) htr hl hR0.le (by linarith) (by
      have : Spec.halfSin (ER K pose x) ^ 2 ≤ V ^ 2 := pow_le_pow_left₀ hs0 hxs 2
      have := mul_le_mul_of_nonneg_left this hR0.le
      linarith) (by rw [ex]; exact t1) (by rw [ex]; exact t2) (by simpa using hD) hΓ1 hΓ
  refine ⟨_, δ, c, hb, rfl, fun hdone => ?_, fun hdone => ?_, by linarith, by unfold err; linarith, hD, ?_⟩
  · rw [← es] at hdone
    exact reaches_of_done robot pose (K.T x) hd (K.rigid x) _ (K.fk x) tol k θ _ e1 e2 hdone (fun h => by
      have := h.2
      change (ER K pose x).trace ≤ 1 at this
      linarith)
  · have hct := not_done hdone
    refine ⟨hct, fun ht => ?_⟩
    unfold err
    rcases hl with rfl | rfl
    · have z : V3.smul 0 (Wv (ER K pose x)) = 0 := by ext <;> simp
      have hu := unmeasured hE htr e1 e2 (by rw [es, z])
      have za : a = 0 := by rw [ha, z, V3.norm_zero]
      rw [za] at hcd
      change tol ≤ a + _ at hct
      rw [za] at hct
      linarith
    · have : a = Spec.halfSin (ER K pose x) := (orient_lin hE htr 0 0).2
      linarith
  · obtain ⟨s1, s2⟩ := st
    have c0 : 0 ≤ c := by linarith
    have cV : c ≤ V := by unfold err at hx; linarith
    have q1 : (M * c) ^ 2 * (1 / 4 + Γ / 2) ≤ μ / 2 * c := by
      have h1 : c * (M ^ 2 * (1 / 4 + Γ / 2) * c) ≤ c * (M ^ 2 * (1 / 4 + Γ / 2) * V) :=
        mul_le_mul_of_nonneg_left (mul_le_mul_of_nonneg_left cV (by positivity)) c0
      have h2 := mul_le_mul_of_nonneg_left hsmall c0
      linarith
    have q2 : |1 - κp| * (EP K pose x).norm ≤ (1 - μ) * (EP K pose x).norm := mul_le_mul_of_nonneg_right hμp he0
    unfold err
    rw [← ha] at s1
    have q3 : μ * c = μ * a + μ * (EP K pose x).norm := by rw [hcd]; ring
    linarith

/-- The loop. -/
theorem loop {robot : Robot ℝ} (hw : robot.WF) (hty : ∀ t ∈ robot.jointType, t = 0 ∨ t = 1) {n : Nat} (hn : robot.H.length = n)
    (K : BodyKin robot n) (pinv : Pinv XReal) (rc : ℝ) (hpinv : Spec.exactPinv pinv rc n)
    (pose : Transform ℝ) (hd : IsRot pose.R) {κp κR σ Γ M μ V r : ℝ} (hp0 : 0 < κp) (hR0 : 0 < κR) (hσ : 0 < σ) (hΓ1 : 1 ≤ Γ)
    (hMp : κp * Real.sqrt n ≤ M * σ) (hMR : κR * Real.sqrt n ≤ M * σ) (hμ0 : 0 < μ) (hμ1 : μ ≤ 1) (hμp : |1 - κp| ≤ 1 - μ)
    (hμR : (1 - κR / 2) ^ 2 + κR * V ^ 2 ≤ (1 - μ) ^ 2) (hV : V < 1 / 2) (hsmall : M ^ 2 * (1 / 4 + Γ / 2) * V ≤ μ / 2) (x₀ : Fin n → ℝ)
    (hball : ∀ x : Fin n → ℝ, ∑ i, |x i - x₀ i| ≤ r → Spec.condAbove rc (Spec.cols (K.col x)) ∧
      (∀ z : Fin 6 → ℝ, σ ^ 2 * (z ⬝ᵥ z) ≤ (z ᵥ* Spec.cols (K.col x)) ⬝ᵥ (z ᵥ* Spec.cols (K.col x))) ∧ Spec.arm robot (List.ofFn x) ≤ Γ)
    (tol : ℝ) (ht : 0 < tol) (fuel : Nat) (x : Fin n → ℝ) (hx : err K pose x ≤ V) (hr : ∑ i, |x i - x₀ i| + 2 * M / μ * err K pose x ≤ r)
    (hfuel : err K pose x < fuel * (μ / 2 * tol) ∨ 1/1000000 ≤ tol ∧ fuel ≠ 0 ∧ err K pose x * (1 - μ / 4) ^ (fuel - 1) < tol) :
    ∃ x' : Fin n → ℝ, iterLoop pinv robot.up pose.up (M3.smul κp 1).up (M3.smul κR 1).up (.fin tol) fuel ((List.ofFn x).map .fin) =
        .ok (true, (List.ofFn x').map .fin) ∧ ∑ i, |x' i - x₀ i| ≤ r ∧ Spec.reaches robot (List.ofFn x') pose tol := by
  have M0 : 0 ≤ M := by
    have : 0 ≤ M * σ := le_trans (by positivity) hMp
    exact nonneg_of_mul_nonneg_left this hσ
  have E0 : ∀ x, 0 ≤ err K pose x := fun x => add_nonneg (halfSin_nonneg _) (V3.norm_nonneg _)
  induction fuel generalizing x with
  | zero =>
    rcases hfuel with h | h
    · have := E0 x
      simp at h
      linarith
    · exact absurd rfl h.2.1
  | succ fuel ih =>
    have hxr : ∑ i, |x i - x₀ i| ≤ r := by
      have := mul_nonneg (show 0 ≤ 2 * M / μ by positivity) (E0 x)
      linarith
    obtain ⟨b1, b2, b3⟩ := hball x hxr
    obtain ⟨st, δ, c, h1, h2, h3, h4, c0, c1, h5, h6⟩ := pass hw hty hn K pinv rc hpinv pose hd hp0 hR0 hσ hΓ1 hMp hMR hμ1 hμp hμR hV hsmall x b1 b2 b3 hx tol
    by_cases hdone : iterDone st (XReal.fin tol) = true
    · refine ⟨x, ?_, hxr, h3 hdone⟩
      rw [iterLoop, h1, Except.bind_ok]
      simp only [hdone, if_true]
      rfl
    · obtain ⟨d1, d2⟩ := h4 hdone
      have hμc : 0 ≤ μ / 2 * c := by positivity
      have hdist : ∑ i, |(x - δ) i - x₀ i| ≤ ∑ i, |x i - x₀ i| + ∑ i, |δ i| := by
        rw [← Finset.sum_add_distrib]
        refine Finset.sum_le_sum fun i _ => ?_
        have e : (x - δ) i - x₀ i = (x i - x₀ i) - δ i := by simp; ring
        rw [e]
        exact abs_sub _ _
      obtain ⟨x', g1, g2, g3⟩ := ih (x - δ) (by linarith) (by
          have k1 : 2 * M / μ * err K pose (x - δ) ≤ 2 * M / μ * (err K pose x - μ / 2 * c) := mul_le_mul_of_nonneg_left h6 (by positivity)
          have k2 : 2 * M / μ * (err K pose x - μ / 2 * c) = 2 * M / μ * err K pose x - M * c := by field_simp
          linarith) (by
          rcases hfuel with h | ⟨t1, -, h⟩
          · left
            have := mul_le_mul_of_nonneg_left d1 (show 0 ≤ μ / 2 by linarith)
            push_cast at h
            linarith
          · right
            rw [Nat.add_sub_cancel] at h
            have f0 : fuel ≠ 0 := by
              rintro rfl
              rw [pow_zero, mul_one] at h
              linarith
            refine ⟨t1, f0, lt_of_le_of_lt ?_ h⟩
            have k1 : err K pose (x - δ) ≤ err K pose x * (1 - μ / 4) := by
              have := mul_le_mul_of_nonneg_left (d2 t1) (show 0 ≤ μ / 4 by linarith)
              linarith
            have k2 := mul_le_mul_of_nonneg_right k1 (show 0 ≤ (1 - μ / 4) ^ (fuel - 1) from pow_nonneg (by linarith) _)
            refine k2.trans (le_of_eq ?_)
            rw [mul_assoc, ← pow_succ', Nat.sub_add_cancel (Nat.one_le_iff_ne_zero.2 f0)])
      refine ⟨x', ?_, g2, g3⟩
      rw [iterLoop, h1, Except.bind_ok, h2, zipWith_fin, C70.ofFn_sub]
      simp only [hdone]
      simpa using g1

/-- Minkowski's inequality. -/
theorem add_sq_le {ι : Type} (s : Finset ι) (f g : ι → ℝ) {F G : ℝ} (hF : 0 ≤ F) (hG : 0 ≤ G) (hf : ∑ i ∈ s, f i ^ 2 ≤ F ^ 2) (hg : ∑ i ∈ s, g i ^ 2 ≤ G ^ 2) :
    ∑ i ∈ s, (f i + g i) ^ 2 ≤ (F + G) ^ 2 := by
  have h1 := Finset.sum_mul_sq_le_sq_mul_sq s f g
  have h2 : (∑ i ∈ s, f i ^ 2) * (∑ i ∈ s, g i ^ 2) ≤ F ^ 2 * G ^ 2 :=
    mul_le_mul hf hg (Finset.sum_nonneg fun i _ => sq_nonneg _) (sq_nonneg _)
  have h3 : ∑ i ∈ s, f i * g i ≤ F * G := le_of_sq_le_sq (by rw [mul_pow]; linarith) (mul_nonneg hF hG)
  have e : ∑ i ∈ s, (f i + g i) ^ 2 = ∑ i ∈ s, f i ^ 2 + 2 * ∑ i ∈ s, f i * g i + ∑ i ∈ s, g i ^ 2 := by
    rw [Finset.mul_sum, ← Finset.sum_add_distrib, ← Finset.sum_add_distrib]
    exact Finset.sum_congr rfl fun i _ => by ring
  rw [e]
  nlinarith

/-- Singular values and Frobenius norm of a matrix near a given one. -/
theorem perturb {m n : Nat} (A B : Matrix (Fin m) (Fin n) ℝ) {d σ F : ℝ} (d0 : 0 ≤ d) (hΔ : ∑ k, ∑ i, (B k i - A k i) ^ 2 ≤ d ^ 2) :
    (0 ≤ F → ∑ k, ∑ i, A k i ^ 2 ≤ F ^ 2 → ∑ k, ∑ i, B k i ^ 2 ≤ (F + d) ^ 2) ∧
    (0 ≤ σ → (∀ z : Fin m → ℝ, (σ + d) ^ 2 * (z ⬝ᵥ z) ≤ (z ᵥ* A) ⬝ᵥ (z ᵥ* A)) → ∀ z : Fin m → ℝ, σ ^ 2 * (z ⬝ᵥ z) ≤ (z ᵥ* B) ⬝ᵥ (z ᵥ* B)) := by
  constructor
  · intro F0 hF
    simp only [← Finset.sum_product'] at hF hΔ ⊢
    have := add_sq_le _ (fun p : Fin m × Fin n => A p.1 p.2) (fun p => B p.1 p.2 - A p.1 p.2) F0 d0 hF hΔ
    simpa using this
  · intro σ0 hσ z
    set Z := Real.sqrt (z ⬝ᵥ z) with hZ
    have z0 := PinvMat.dot_self_nonneg z
    have Z0 : 0 ≤ Z := Real.sqrt_nonneg _
    have ZZ : Z ^ 2 = z ⬝ᵥ z := Real.sq_sqrt z0
    set Y := Real.sqrt ((z ᵥ* B) ⬝ᵥ (z ᵥ* B)) with hY
    have Y0 : 0 ≤ Y := Real.sqrt_nonneg _
    have YY : Y ^ 2 = (z ᵥ* B) ⬝ᵥ (z ᵥ* B) := Real.sq_sqrt (PinvMat.dot_self_nonneg _)
    have hg : ∑ i, (z ᵥ* (A - B)) i ^ 2 ≤ (d * Z) ^ 2 := by
      have h1 : ∀ i, (z ᵥ* (A - B)) i ^ 2 ≤ Z ^ 2 * ∑ k, (B k i - A k i) ^ 2 := fun i => by
        have := Finset.sum_mul_sq_le_sq_mul_sq Finset.univ z fun k => (A - B) k i
        rw [ZZ]
        refine this.trans (le_of_eq ?_)
        congr 1
        · exact Finset.sum_congr rfl fun i _ => sq _
        · exact Finset.sum_congr rfl fun k _ => by simp; ring
      refine (Finset.sum_le_sum fun i _ => h1 i).trans ?_
      rw [← Finset.mul_sum, Finset.sum_comm]
      have := mul_le_mul_of_nonneg_left hΔ (sq_nonneg Z)
      linarith
    have h2 := add_sq_le Finset.univ (z ᵥ* B) (z ᵥ* (A - B)) Y0 (mul_nonneg d0 Z0) (by rw [YY]; exact le_of_eq (Finset.sum_congr rfl fun i _ => sq _)) hg
    have e : ∑ i, ((z ᵥ* B) i + (z ᵥ* (A - B)) i) ^ 2 = (z ᵥ* A) ⬝ᵥ (z ᵥ* A) := by
      refine Finset.sum_congr rfl fun i _ => ?_
      have : (z ᵥ* B) i + (z ᵥ* (A - B)) i = (z ᵥ* A) i := by rw [← Pi.add_apply, ← vecMul_add]; simp
      rw [this, sq]
    rw [e] at h2
    have h3 := (hσ z).trans h2
    rw [← ZZ, ← mul_pow] at h3
    have h4 := le_of_sq_le_sq h3 (by positivity)
    rw [← ZZ, ← YY, ← mul_pow]
    exact pow_le_pow_left₀ (by positivity) (by linarith) 2

end C80

/-- C80: the Jacobian keeps its conditioning near the seed.  Between joint vectors that differ by `D` in total, the singular values of the
Jacobian (seen as a 6×n matrix) decrease by at most `√n (1 + Γ) D`, and its Frobenius norm grows by at most that much; `Γ` is the length
of the arm, or 1 if that is larger. -/
theorem C80_conditioning (robot : Robot ℝ) (hw : robot.WF) (hty : ∀ t ∈ robot.jointType, t = 0 ∨ t = 1) (θ φ : List ℝ)
    (lθ : θ.length = robot.H.length) (lφ : φ.length = robot.H.length) (c c' : Fin robot.H.length → V6 ℝ)
    (hc : robotjacobian robot θ true = .ok (List.ofFn c)) (hc' : robotjacobian robot φ true = .ok (List.ofFn c'))
    (σ F D Γ : ℝ) (hΓ1 : 1 ≤ Γ) (hΓ : Spec.arm robot θ ≤ Γ) (hD : Spec.jointDist θ φ ≤ D) :
    (0 ≤ F → ∑ k, ∑ i, Spec.cols c k i ^ 2 ≤ F ^ 2 → ∑ k, ∑ i, Spec.cols c' k i ^ 2 ≤ (F + Real.sqrt robot.H.length * (1 + Γ) * D) ^ 2) ∧
    (0 ≤ σ → (∀ z : Fin 6 → ℝ, (σ + Real.sqrt robot.H.length * (1 + Γ) * D) ^ 2 * (z ⬝ᵥ z) ≤ (z ᵥ* Spec.cols c) ⬝ᵥ (z ᵥ* Spec.cols c)) →
      ∀ z : Fin 6 → ℝ, σ ^ 2 * (z ⬝ᵥ z) ≤ (z ᵥ* Spec.cols c') ⬝ᵥ (z ᵥ* Spec.cols c')) := by
  obtain ⟨J, J', h1, h2, l1, l2, h3⟩ := C78_jacobian_lipschitz robot hw hty θ φ lθ lφ
  rw [hc] at h1; cases h1
  rw [hc'] at h2; cases h2
  set A := Spec.turnDiff robot.jointType θ φ with hA
  set B := Spec.slideDiff robot.jointType θ φ with hB
  have A0 : 0 ≤ A := turnDiff_nonneg _ _ _
  have B0 : 0 ≤ B := slideDiff_nonneg _ _ _
  have hAB : A + B ≤ D := (C80.diff_le _ _ _).trans hD
  have D0 : 0 ≤ D := by linarith
  refine C80.perturb _ _ (by positivity) ?_
  rw [Finset.sum_comm]
  have hcol : ∀ i, ∑ k, (Spec.cols c' k i - Spec.cols c k i) ^ 2 ≤ ((1 + Γ) * D) ^ 2 := fun i => by
    obtain ⟨g1, g2⟩ := h3 i (by simp) (by simp)
    simp only [List.getElem_ofFn] at g1 g2
    have g3 : ((c' i).bot - (c i).bot).norm ≤ Γ * D := by
      refine g2.trans ?_
      have k1 := mul_le_mul_of_nonneg_left (max_le hΓ1 hΓ) A0
      have k2 : B ≤ Γ * B := le_mul_of_one_le_left B0 hΓ1
      have k3 : Γ * (A + B) ≤ Γ * D := mul_le_mul_of_nonneg_left hAB (by linarith)
      linarith
    have s1 : ((c' i).top - (c i).top).norm ^ 2 ≤ D ^ 2 := pow_le_pow_left₀ (V3.norm_nonneg _) (by simp only [Fin.eta] at g1; linarith) 2
    have s2 : ((c' i).bot - (c i).bot).norm ^ 2 ≤ (Γ * D) ^ 2 := pow_le_pow_left₀ (V3.norm_nonneg _) g3 2
    have e : ∑ k, (Spec.cols c' k i - Spec.cols c k i) ^ 2 = ((c' i).top - (c i).top).norm ^ 2 + ((c' i).bot - (c i).bot).norm ^ 2 := by
      rw [V3.norm_sq, V3.norm_sq]
      simp [Spec.cols, Fin.sum_univ_six, V3.dot]
      ring
    rw [e]
    have : 0 ≤ D * (Γ * D) := by positivity
    nlinarith
  refine (Finset.sum_le_sum fun i _ => hcol i).trans (le_of_eq ?_)
  have hs : Real.sqrt robot.H.length ^ 2 = robot.H.length := Real.sq_sqrt (by positivity)
  rw [Finset.sum_const, Finset.card_univ, Fintype.card_fin, nsmul_eq_mul]
  linear_combination -((1 + Γ) * D) ^ 2 * hs

/-- Turning the frame does not change singular values. -/
theorem C80.rotate {n : Nat} {R : M3 ℝ} (hR : IsRot R) (c : Fin n → V6 ℝ) :
    (∑ k, ∑ i, Spec.cols (fun i => (⟨R.mulVec (c i).top, R.mulVec (c i).bot⟩ : V6 ℝ)) k i ^ 2 = ∑ k, ∑ i, Spec.cols c k i ^ 2) ∧
    ∀ σ : ℝ, (∀ z : Fin 6 → ℝ, σ ^ 2 * (z ⬝ᵥ z) ≤ (z ᵥ* Spec.cols c) ⬝ᵥ (z ᵥ* Spec.cols c)) → ∀ z : Fin 6 → ℝ,
      σ ^ 2 * (z ⬝ᵥ z) ≤ (z ᵥ* Spec.cols fun i => (⟨R.mulVec (c i).top, R.mulVec (c i).bot⟩ : V6 ℝ)) ⬝ᵥ
        (z ᵥ* Spec.cols fun i => (⟨R.mulVec (c i).top, R.mulVec (c i).bot⟩ : V6 ℝ)) := by
  obtain ⟨k1, k2, k3, k4, k5, k6⟩ := hR.colEqs
  obtain ⟨r1, r2, r3, r4, r5, r6⟩ := hR.rowEqs
  refine ⟨?_, fun σ hσ z => ?_⟩
  · rw [Finset.sum_comm, Finset.sum_comm (f := fun k i => Spec.cols c k i ^ 2)]
    refine Finset.sum_congr rfl fun i _ => ?_
    simp [Spec.cols, Fin.sum_univ_six]
    generalize (c i).top.x = a, (c i).top.y = b, (c i).top.z = d, (c i).bot.x = e, (c i).bot.y = f, (c i).bot.z = g
    linear_combination (a ^ 2 + e ^ 2) * k1 + (b ^ 2 + f ^ 2) * k2 + (d ^ 2 + g ^ 2) * k3 + 2 * (a * b + e * f) * k4 + 2 * (a * d + e * g) * k5 +
      2 * (b * d + f * g) * k6
  · have hz := hσ ![R.a00 * z 0 + R.a10 * z 1 + R.a20 * z 2, R.a01 * z 0 + R.a11 * z 1 + R.a21 * z 2, R.a02 * z 0 + R.a12 * z 1 + R.a22 * z 2,
      R.a00 * z 3 + R.a10 * z 4 + R.a20 * z 5, R.a01 * z 3 + R.a11 * z 4 + R.a21 * z 5, R.a02 * z 3 + R.a12 * z 4 + R.a22 * z 5]
    convert hz using 1
    · congr 1
      simp [dotProduct, Fin.sum_univ_six]
      generalize z 0 = a, z 1 = b, z 2 = d, z 3 = e, z 4 = f, z 5 = g
      linear_combination -((a ^ 2 + e ^ 2) * r1 + (b ^ 2 + f ^ 2) * r2 + (d ^ 2 + g ^ 2) * r3 + 2 * (a * b + e * f) * r4 + 2 * (a * d + e * g) * r5 +
        2 * (b * d + f * g) * r6)
    · congr 1 <;>
      · ext i
        simp [vecMul, dotProduct, Fin.sum_univ_six, Spec.cols]
        ring

/-- C80: a condition on the seed alone under which `iterative_invkin` converges; no solution of the pose is assumed to exist.

`V` bounds the initial error: the sine of half the angle between the orientations, plus the distance between the positions.  `σ₀` is a lower
bound of the singular values of the Jacobian at the seed and `F` its Frobenius norm.  `M` is the joint motion per unit of error and `μ` the
part of the error that a step would remove if the Jacobian were constant.  If the error is small against these (`hsmall`), and the joint
motion `r = 2 M V / μ` is too small to spoil the conditioning (`hcond`, `hrc`), then the iteration reports convergence, whatever the
tolerance, provided that `maxSteps` exceeds `2 V / (μ tol)`; for tolerances of at least `10⁻⁶` it suffices that `V (1 - μ/4)^(maxSteps - 1)` is
less than `tol`.  The joint vector returned reaches the pose, and its distance from the seed is at most `r`. -/
theorem C80_converges (pinv : Pinv XReal) (rc : ℝ) (robot : Robot ℝ) (hpinv : Spec.exactPinv pinv rc robot.H.length) (hw : robot.WF)
    (hty : ∀ t ∈ robot.jointType, t = 0 ∨ t = 1) (pose : Transform ℝ) (hd : IsRot pose.R) (seed : List ℝ) (ls : seed.length = robot.H.length)
    (T₀ : Transform ℝ) (hT : fwdkin robot seed true = .ok T₀) (c₀ : Fin robot.H.length → V6 ℝ) (hJ : robotjacobian robot seed true = .ok (List.ofFn c₀))
    (κp κR σ₀ σ F Γ M μ V r : ℝ) (hp0 : 0 < κp) (hR0 : 0 < κR)
    (hV : Spec.halfSin (pose.R.transpose * T₀.R) + (T₀.p - pose.p).norm ≤ V) (hV2 : V < 1 / 2)
    (hσ₀ : ∀ z : Fin 6 → ℝ, σ₀ ^ 2 * (z ⬝ᵥ z) ≤ (z ᵥ* Spec.cols c₀) ⬝ᵥ (z ᵥ* Spec.cols c₀)) (hF0 : 0 ≤ F) (hF : ∑ k, ∑ i, Spec.cols c₀ k i ^ 2 ≤ F ^ 2)
    (hμ0 : 0 < μ) (hμ1 : μ ≤ 1) (hμp : |1 - κp| ≤ 1 - μ) (hμR : (1 - κR / 2) ^ 2 + κR * V ^ 2 ≤ (1 - μ) ^ 2)
    (hσ : 0 < σ) (hMp : κp * Real.sqrt robot.H.length ≤ M * σ) (hMR : κR * Real.sqrt robot.H.length ≤ M * σ)
    (hr : 2 * M / μ * V ≤ r) (hrπ : r < Real.pi) (hΓ1 : 1 ≤ Γ) (hΓ : Spec.arm robot seed + r ≤ Γ)
    (hsmall : M ^ 2 * (1 / 4 + Γ / 2) * V ≤ μ / 2) (hcond : σ + Real.sqrt robot.H.length * (1 + Γ) * r ≤ σ₀)
    (hrc0 : 0 ≤ rc) (hrc : rc * (F + Real.sqrt robot.H.length * (1 + Γ) * r) < σ)
    (tol : ℝ) (ht : 0 < tol) (maxSteps : ℤ)
    (hsteps : V < maxSteps.toNat * (μ / 2 * tol) ∨ 1/1000000 ≤ tol ∧ maxSteps.toNat ≠ 0 ∧ V * (1 - μ / 4) ^ (maxSteps.toNat - 1) < tol) :
    ∃ sol : List ℝ, iterative_invkin pinv robot.up pose.up (seed.map .fin) maxSteps (M3.smul κp 1).up (M3.smul κR 1).up (.fin tol) =
        .ok (true, [sol.map .fin]) ∧ Spec.reaches robot sol pose tol ∧ sol.length = robot.H.length ∧ Spec.jointDist seed sol ≤ r := by
  obtain ⟨n, hn⟩ : ∃ n, robot.H.length = n := ⟨_, rfl⟩
  obtain ⟨K⟩ := bodyKin_exists robot hw hty _ rfl
  obtain ⟨x₀, rfl⟩ : ∃ x₀ : Fin robot.H.length → ℝ, seed = List.ofFn x₀ := ⟨fun i => seed[i]'(by rw [ls]; exact i.2), by
    apply List.ext_getElem
    · simp [ls]
    · intro i h1 h2; simp⟩
  rw [K.fk] at hT
  cases hT
  have herr : C80.err K pose x₀ ≤ V := by
    have : (IterConv.EP K pose x₀).norm = ((K.T x₀).p - pose.p).norm := (K.rigid x₀).transpose.norm_mulVec _
    unfold C80.err
    rw [this]
    exact hV
  have M0 : 0 ≤ M := by
    have : 0 ≤ M * σ := le_trans (by positivity) hMp
    exact nonneg_of_mul_nonneg_left this hσ
  have E0 : 0 ≤ C80.err K pose x₀ := add_nonneg (Kanto.halfSin_nonneg _) (V3.norm_nonneg _)
  have r0 : 0 ≤ r := le_trans (by have := E0.trans herr; positivity) hr
  set d := Real.sqrt robot.H.length * (1 + Γ) * r with hd'
  have d0 : 0 ≤ d := by positivity
  have hball : ∀ x : Fin robot.H.length → ℝ, ∑ i, |x i - x₀ i| ≤ r → Spec.condAbove rc (Spec.cols (K.col x)) ∧
      (∀ z : Fin 6 → ℝ, σ ^ 2 * (z ⬝ᵥ z) ≤ (z ᵥ* Spec.cols (K.col x)) ⬝ᵥ (z ᵥ* Spec.cols (K.col x))) ∧ Spec.arm robot (List.ofFn x) ≤ Γ := by
    intro x hx
    rw [← C80.jointDist_ofFn] at hx
    obtain ⟨J, j1, j2⟩ := K.jac x
    have lJ : J.length = robot.H.length := by simpa using congrArg List.length j2
    obtain ⟨c, rfl⟩ : ∃ c : Fin robot.H.length → V6 ℝ, J = List.ofFn c := ⟨fun i => J[i]'(by rw [lJ]; exact i.2), by
      apply List.ext_getElem
      · simp [lJ]
      · intro i h1 h2; simp⟩
    rw [List.map_ofFn] at j2
    have hcol : (fun i => (⟨(K.T x).R.transpose.mulVec (c i).top, (K.T x).R.transpose.mulVec (c i).bot⟩ : V6 ℝ)) = K.col x :=
      List.ofFn_injective j2
    obtain ⟨g1, g2⟩ := C80_conditioning robot hw hty _ _ ls (by simp) c₀ c hJ j1 σ F r Γ hΓ1 (by linarith) hx
    rw [← hd'] at g1 g2
    have g1 := g1 hF0 hF
    have g2 := g2 hσ.le fun z => le_trans (mul_le_mul_of_nonneg_right (pow_le_pow_left₀ (by positivity) hcond 2) (PinvMat.dot_self_nonneg z)) (hσ₀ z)
    obtain ⟨t1, t2⟩ := C80.rotate (K.rigid x).transpose c
    rw [hcol] at t1 t2
    have t2 := t2 σ g2
    refine ⟨⟨(F + d) ^ 2, σ ^ 2, by positivity, ?_, by rw [t1]; exact g1, t2⟩, t2, ?_⟩
    · rw [← mul_pow]
      exact pow_lt_pow_left₀ hrc (by positivity) (by norm_num)
    · have := C80.arm_le robot (List.ofFn x₀) (List.ofFn x) (by simp)
      linarith
  have hzero : ∑ i, |x₀ i - x₀ i| = 0 := by simp
  obtain ⟨y, g1, g2, g3⟩ := C80.loop hw hty rfl K pinv rc hpinv pose hd hp0 hR0 hσ hΓ1 hMp hMR hμ0 hμ1 hμp hμR hV2 hsmall x₀ hball tol ht maxSteps.toNat x₀
    herr (by
      rw [hzero, zero_add]
      exact le_trans (mul_le_mul_of_nonneg_left herr (by positivity)) hr) (by
      rcases hsteps with h | ⟨h1, h2, h3⟩
      · exact .inl (lt_of_le_of_lt herr h)
      · exact .inr ⟨h1, h2, lt_of_le_of_lt (mul_le_mul_of_nonneg_right herr (pow_nonneg (by linarith) _)) h3⟩)
  have hyi : ∀ i, |y i - x₀ i| ≤ r := fun i =>
    (Finset.single_le_sum (f := fun i => |y i - x₀ i|) (fun i _ => abs_nonneg _) (Finset.mem_univ i)).trans g2
  have hnorm := C70.callV_near (List.ofFn x₀) (List.ofFn y) robot.H.length (by simp) (by simp) (fun i h1 h2 => by
    simp only [List.getElem_ofFn]
    rw [abs_sub_comm]
    exact lt_of_le_of_lt (hyi _) hrπ)
  refine ⟨List.ofFn y, ?_, g3, by simp, by rw [C80.jointDist_ofFn]; exact g2⟩
  have lt : robot.up.jointType.length = robot.H.length := hw.joints
  have hN : Normalizer.ofRobot robot.up (some ((List.ofFn x₀).map XReal.fin)) true = ⟨none, some ((List.ofFn x₀).map .fin)⟩ := by
    unfold Normalizer.ofRobot
    rcases robot.up.lower with _ | _ <;> rcases robot.up.upper with _ | _ <;> rfl
  have n1 : robot.H.length ≠ 1 := C70.cond_width (hball x₀ (by rw [hzero]; exact r0)).1
  unfold iterative_invkin
  simp only [lt, List.length_map, List.length_ofFn, if_true, g1, Except.bind_ok, if_neg n1, hN, hnorm]
  rfl

/-- The error is continuous. -/
theorem C80.err_continuous {robot : Robot ℝ} {n : Nat} (K : BodyKin robot n) (pose : Transform ℝ) : Continuous (C80.err K pose) := by
  have h := IterConv.ER_smooth K pose
  have p := IterConv.EP_smooth K pose
  have h1 : Continuous fun x => Spec.halfSin (IterConv.ER K pose x) :=
    ((continuous_const.sub ((h.a00.continuous.add h.a11.continuous).add h.a22.continuous)).sqrt).div_const 2
  have h2 : Continuous fun x => (IterConv.EP K pose x).norm :=
    (((p.x.continuous.mul p.x.continuous).add (p.y.continuous.mul p.y.continuous)).add (p.z.continuous.mul p.z.continuous)).sqrt
  exact h1.add h2

/-- A vanishing error means that the pose is reached. -/
theorem C80.err_zero {robot : Robot ℝ} {n : Nat} (K : BodyKin robot n) (pose : Transform ℝ) (hd : IsRot pose.R) (x : Fin n → ℝ) (h : C80.err K pose x ≤ 0) :
    (K.T x).R = pose.R ∧ (K.T x).p = pose.p := by
  have h1 := Kanto.halfSin_nonneg (IterConv.ER K pose x)
  have h2 := (IterConv.EP K pose x).norm_nonneg
  unfold C80.err at h
  have e2 : (IterConv.EP K pose x).norm = 0 := by linarith
  have e1 : Spec.halfSin (IterConv.ER K pose x) = 0 := by linarith
  constructor
  · obtain ⟨w, u, g0, g1, g2, g3, g4⟩ := Kanto.quat (hd.transpose.mul (K.rigid x))
    have hu : u = 0 := V3.norm_eq_zero.1 ((Kanto.halfSin_eq g1 g2).symm.trans e1)
    have hv : ∀ v, (pose.R.transpose * (K.T x).R).mulVec v = v := fun v => by
      rw [g4 v, hu]; ext <;> simp [V3.cross]
    have hv' : ∀ v, (K.T x).R.mulVec v = pose.R.mulVec v := fun v => by
      have := congrArg pose.R.mulVec (hv v)
      rw [M3.mulVec_mulVec, ← M3.mul_assoc', hd.orth', M3.one_mul'] at this
      exact this
    have a := hv' V3.ex
    have b := hv' V3.ey
    have c := hv' V3.ez
    simp [V3.ext_iff] at a b c
    ext <;> simp [a, b, c]
  · have e := V3.norm_eq_zero.1 e2
    have : (K.T x).p - pose.p = 0 := by
      rw [show (K.T x).p - pose.p = (K.T x).R.mulVec (IterConv.EP K pose x) by
        unfold IterConv.EP; rw [M3.mulVec_mulVec, (K.rigid x).orth', M3.one_mulVec], e]
      ext <;> simp
    have hx := congrArg V3.x this
    have hy := congrArg V3.y this
    have hz := congrArg V3.z this
    simp at hx hy hz
    ext <;> linarith

/-- C80: under the same kind of condition on the seed the pose can be reached exactly: there is a joint vector within `r` of the seed whose
forward kinematics is the pose.  This is about `fwdkin` and `robotjacobian` alone. -/
theorem C80_solution_exists (robot : Robot ℝ) (hw : robot.WF)
    (hty : ∀ t ∈ robot.jointType, t = 0 ∨ t = 1) (pose : Transform ℝ) (hd : IsRot pose.R) (seed : List ℝ) (ls : seed.length = robot.H.length)
    (T₀ : Transform ℝ) (hT : fwdkin robot seed true = .ok T₀) (c₀ : Fin robot.H.length → V6 ℝ) (hJ : robotjacobian robot seed true = .ok (List.ofFn c₀))
    (σ₀ σ Γ V r : ℝ) (hV : Spec.halfSin (pose.R.transpose * T₀.R) + (T₀.p - pose.p).norm ≤ V) (hV2 : V ≤ 1 / 4)
    (hσ₀ : ∀ z : Fin 6 → ℝ, σ₀ ^ 2 * (z ⬝ᵥ z) ≤ (z ᵥ* Spec.cols c₀) ⬝ᵥ (z ᵥ* Spec.cols c₀))
    (hσ : 0 < σ) (hr : 7 * Real.sqrt robot.H.length / σ * V ≤ r) (hΓ1 : 1 ≤ Γ) (hΓ : Spec.arm robot seed + r ≤ Γ)
    (hsmall : 14 * robot.H.length / σ ^ 2 * (1 / 4 + Γ / 2) * V ≤ 1) (hcond : σ + Real.sqrt robot.H.length * (1 + Γ) * r ≤ σ₀) :
    ∃ (sol : List ℝ) (T : Transform ℝ), sol.length = robot.H.length ∧ fwdkin robot sol true = .ok T ∧ T.R = pose.R ∧ T.p = pose.p ∧
      Spec.jointDist seed sol ≤ r := by
  obtain ⟨K⟩ := bodyKin_exists robot hw hty _ rfl
  obtain ⟨x₀, rfl⟩ : ∃ x₀ : Fin robot.H.length → ℝ, seed = List.ofFn x₀ := ⟨fun i => seed[i]'(by rw [ls]; exact i.2), by
    apply List.ext_getElem
    · simp [ls]
    · intro i h1 h2; simp⟩
  rw [K.fk] at hT
  cases hT
  have herr : C80.err K pose x₀ ≤ V := by
    have : (IterConv.EP K pose x₀).norm = ((K.T x₀).p - pose.p).norm := (K.rigid x₀).transpose.norm_mulVec _
    unfold C80.err
    rw [this]
    exact hV
  have E0 : ∀ x, 0 ≤ C80.err K pose x := fun x => add_nonneg (Kanto.halfSin_nonneg _) (V3.norm_nonneg _)
  have V0 : 0 ≤ V := (E0 _).trans herr
  set s := Real.sqrt robot.H.length with hs
  have s0 : 0 ≤ s := Real.sqrt_nonneg _
  have ss : s ^ 2 = robot.H.length := Real.sq_sqrt (by positivity)
  obtain ⟨M, hM⟩ : ∃ M, M = 2 * s / σ := ⟨_, rfl⟩
  have M0 : 0 ≤ M := by rw [hM]; positivity
  have hMσ : M * σ = 2 * s := by rw [hM]; field_simp
  have hMr : 7 / 2 * M * V ≤ r := le_trans (le_of_eq (by rw [hM]; ring)) hr
  have hMs : M ^ 2 * (1 / 4 + Γ / 2) * V ≤ 3 / 10 := by
    have e : 14 * (robot.H.length : ℝ) / σ ^ 2 = 7 / 2 * M ^ 2 := by rw [hM, ← ss]; ring
    rw [e] at hsmall
    have : 0 ≤ M ^ 2 * (1 / 4 + Γ / 2) * V := by positivity
    linarith
  have r0 : 0 ≤ r := le_trans (by positivity) hMr
  have hball : ∀ x : Fin robot.H.length → ℝ, ∑ i, |x i - x₀ i| ≤ r →
      (∀ z : Fin 6 → ℝ, σ ^ 2 * (z ⬝ᵥ z) ≤ (z ᵥ* Spec.cols (K.col x)) ⬝ᵥ (z ᵥ* Spec.cols (K.col x))) ∧ Spec.arm robot (List.ofFn x) ≤ Γ := by
    intro x hx
    rw [← C80.jointDist_ofFn] at hx
    obtain ⟨J, j1, j2⟩ := K.jac x
    have lJ : J.length = robot.H.length := by simpa using congrArg List.length j2
    obtain ⟨c, rfl⟩ : ∃ c : Fin robot.H.length → V6 ℝ, J = List.ofFn c := ⟨fun i => J[i]'(by rw [lJ]; exact i.2), by
      apply List.ext_getElem
      · simp [lJ]
      · intro i h1 h2; simp⟩
    rw [List.map_ofFn] at j2
    have hcol : (fun i => (⟨(K.T x).R.transpose.mulVec (c i).top, (K.T x).R.transpose.mulVec (c i).bot⟩ : V6 ℝ)) = K.col x :=
      List.ofFn_injective j2
    obtain ⟨-, g2⟩ := C80_conditioning robot hw hty _ _ ls (by simp) c₀ c hJ j1 σ 0 r Γ hΓ1 (by linarith) hx
    have g2 := g2 hσ.le fun z => le_trans (mul_le_mul_of_nonneg_right (pow_le_pow_left₀ (by positivity) hcond 2) (PinvMat.dot_self_nonneg z)) (hσ₀ z)
    obtain ⟨-, t2⟩ := C80.rotate (K.rigid x).transpose c
    rw [hcol] at t2
    refine ⟨t2 σ g2, ?_⟩
    have := C80.arm_le robot (List.ofFn x₀) (List.ofFn x) (by simp)
    linarith
  -- the joint vector with the smallest error among those that can be afforded
  have cerr := C80.err_continuous K pose
  have cdist : Continuous fun x : Fin robot.H.length → ℝ => ∑ i, |x i - x₀ i| :=
    continuous_finset_sum _ fun i _ => ((continuous_apply i).sub continuous_const).abs
  set S : Set (Fin robot.H.length → ℝ) := {x | ∑ i, |x i - x₀ i| + 7 / 2 * M * C80.err K pose x ≤ r} with hS
  have hcl : IsClosed S := isClosed_le (cdist.add (continuous_const.mul cerr)) continuous_const
  have hsub : S ⊆ Metric.closedBall x₀ r := fun x hx => by
    rw [Metric.mem_closedBall, dist_eq_norm, pi_norm_le_iff_of_nonneg r0]
    intro i
    have h1 := Finset.single_le_sum (f := fun i => |x i - x₀ i|) (fun i _ => abs_nonneg _) (Finset.mem_univ i)
    have h2 : ∑ i, |x i - x₀ i| + 7 / 2 * M * C80.err K pose x ≤ r := hx
    have h3 : 0 ≤ 7 / 2 * M * C80.err K pose x := mul_nonneg (by positivity) (E0 x)
    rw [Real.norm_eq_abs, Pi.sub_apply]
    linarith
  have hcomp : IsCompact S := (isCompact_closedBall x₀ r).of_isClosed_subset hcl hsub
  have hx₀ : x₀ ∈ S := by
    have := mul_le_mul_of_nonneg_left herr (show 0 ≤ 7 / 2 * M by positivity)
    simp only [hS, Set.mem_setOf_eq, sub_self, abs_zero, Finset.sum_const_zero, zero_add]
    linarith
  obtain ⟨x, hx, hmin⟩ := hcomp.exists_isMinOn ⟨x₀, hx₀⟩ cerr.continuousOn
  have hxV : C80.err K pose x ≤ V := (hmin hx₀).trans herr
  have hxr : ∑ i, |x i - x₀ i| + 7 / 2 * M * C80.err K pose x ≤ r := hx
  have hxb : ∑ i, |x i - x₀ i| ≤ r := by
    have : 0 ≤ 7 / 2 * M * C80.err K pose x := mul_nonneg (by positivity) (E0 x)
    linarith
  obtain ⟨hz, hΓx⟩ := hball x hxb
  -- it is zero
  have hzero : C80.err K pose x ≤ 0 := by
    by_contra hpos
    rw [not_le] at hpos
    have hs0 := Kanto.halfSin_nonneg (IterConv.ER K pose x)
    have he0 := (IterConv.EP K pose x).norm_nonneg
    have hxs : Spec.halfSin (IterConv.ER K pose x) ≤ V := by unfold C80.err at hxV; linarith
    have hE : IsRot (IterConv.ER K pose x) := hd.transpose.mul (K.rigid x)
    have htr := Kanto.trace_of_halfSin hE (by linarith)
    have ha := (Kanto.orient_lin hE htr 0 0).2
    set l := IterConv.lam (IterConv.ER K pose x) with hl
    set W := IterConv.Wv (IterConv.ER K pose x) with hW
    obtain ⟨X, hX⟩ := PinvMat.exists_isPinv (Spec.cols (K.col x)) (show 0 < σ ^ 2 by positivity) hz
    obtain ⟨p1, p2⟩ := PinvMat.step hX (by positivity) hz (C70.vec (V3.smul (2 * l) W) (IterConv.EP K pose x))
    set δ : Fin robot.H.length → ℝ := X *ᵥ C70.vec (V3.smul (2 * l) W) (IterConv.EP K pose x) with hδ
    have hneg : Spec.cols (K.col x) *ᵥ (-δ) = C70.vec (V3.smul (-2 * l) W) (V3.smul (-1) (IterConv.EP K pose x)) := by
      rw [mulVec_neg, p1]
      ext j
      fin_cases j <;> simp [C70.vec]
    obtain ⟨t1, t2⟩ := C70.cols_mulVec _ _ _ _ hneg
    have hnn : C70.vec (V3.smul (2 * l) W) (IterConv.EP K pose x) ⬝ᵥ C70.vec (V3.smul (2 * l) W) (IterConv.EP K pose x) =
        (2 * (V3.smul l W).norm) ^ 2 + (1 * (IterConv.EP K pose x).norm) ^ 2 := by
      rw [C70.vec_dot, mul_pow, mul_pow, V3.norm_sq, V3.norm_sq]
      simp only [V3.smul_x, V3.smul_y, V3.smul_z, V3.dot]
      ring
    rw [hnn] at p2
    have hD := C80.sum_abs_le δ hσ (zero_le_one) (zero_le_two) (V3.norm_nonneg _) he0 (by rw [hMσ]; linarith) (by rw [hMσ]) p2
    rw [ha] at hD
    change _ ≤ M * C80.err K pose x at hD
    have ex : (x - δ) - x = -δ := by abel
    obtain ⟨s1, s2⟩ := C80.step hw hty rfl K pose hd x (x - δ) (D := M * C80.err K pose x) (Γ := Γ) (ρ := 2 / 5) (κp := 1) (κR := 2) (l := l) htr (.inr rfl)
      zero_le_two (by norm_num) (by
        have : Spec.halfSin (IterConv.ER K pose x) ^ 2 ≤ (1 / 4) ^ 2 := pow_le_pow_left₀ hs0 (by linarith) 2
        norm_num at this ⊢
        linarith) (by rw [ex]; exact t1) (by rw [ex]; exact t2) (by simpa using hD) hΓ1 hΓx
    rw [← hW, ha] at s1
    rw [sub_self, abs_zero, zero_mul, zero_add] at s2
    have q1 : (M * C80.err K pose x) ^ 2 * (1 / 4 + Γ / 2) ≤ 3 / 10 * C80.err K pose x := by
      have h1 : C80.err K pose x * (M ^ 2 * (1 / 4 + Γ / 2) * C80.err K pose x) ≤ C80.err K pose x * (M ^ 2 * (1 / 4 + Γ / 2) * V) :=
        mul_le_mul_of_nonneg_left (mul_le_mul_of_nonneg_left hxV (by positivity)) hpos.le
      have h2 := mul_le_mul_of_nonneg_left hMs hpos.le
      linarith
    have hnew : C80.err K pose (x - δ) ≤ C80.err K pose x - 3 / 10 * C80.err K pose x := by
      have e1 : C80.err K pose (x - δ) = Spec.halfSin (IterConv.ER K pose (x - δ)) + (IterConv.EP K pose (x - δ)).norm := rfl
      have e2 : C80.err K pose x = Spec.halfSin (IterConv.ER K pose x) + (IterConv.EP K pose x).norm := rfl
      linarith
    have hmem : x - δ ∈ S := by
      have hdist : ∑ i, |(x - δ) i - x₀ i| ≤ ∑ i, |x i - x₀ i| + ∑ i, |δ i| := by
        rw [← Finset.sum_add_distrib]
        refine Finset.sum_le_sum fun i _ => ?_
        have e : (x - δ) i - x₀ i = (x i - x₀ i) - δ i := by simp; ring
        rw [e]
        exact abs_sub _ _
      have k1 := mul_le_mul_of_nonneg_left hnew (show 0 ≤ 7 / 2 * M by positivity)
      have k2 : 0 ≤ M * C80.err K pose x := mul_nonneg M0 hpos.le
      show _ ≤ r
      linarith
    have := hmin hmem
    simp only [Set.mem_setOf_eq] at this
    linarith
  obtain ⟨f1, f2⟩ := C80.err_zero K pose hd x hzero
  exact ⟨List.ofFn x, K.T x, by simp, K.fk x, f1, f2, by rw [C80.jointDist_ofFn]; exact hxb⟩

-- non-vacuity: the gantry with wrist, seeded at the origin, with the default gains, tolerance and number of steps: every pose whose
-- distance and half angle (its sine) add up to at most 0.004 is found, with joints that moved by at most 0.084 in total
example (pose : Transform ℝ) (hd : IsRot pose.R) (h : Spec.halfSin pose.R.transpose + pose.p.norm ≤ 1/250) :
    ∃ sol : List ℝ, iterative_invkin C70.bestPinv C70.wrist.up pose.up ([0, 0, 0, 0, 0, 0].map .fin) 200 (M3.smul (3/10) 1).up
      (M3.smul (3/10) 1).up (.fin (1/10000)) = .ok (true, [sol.map .fin]) ∧ Spec.reaches C70.wrist sol pose (1/10000) ∧
      sol.length = 6 ∧ Spec.jointDist [0, 0, 0, 0, 0, 0] sol ≤ 21/250 := by
  have s6 : Real.sqrt (6 : ℝ) ≤ 49/20 := Real.sqrt_le_iff.2 (by norm_num)
  have s0 := Real.sqrt_nonneg (6 : ℝ)
  have l6 : C70.wrist.H.length = 6 := rfl
  set c : Fin 6 → V6 ℝ := ![⟨0, V3.ex⟩, ⟨0, V3.ey⟩, ⟨0, V3.ez⟩, ⟨V3.ex, 0⟩, ⟨V3.ey, 0⟩, ⟨V3.ez, 0⟩] with hc
  have hz : ∀ z : Fin 6 → ℝ, 1 ^ 2 * (z ⬝ᵥ z) ≤ (z ᵥ* Spec.cols c) ⬝ᵥ (z ᵥ* Spec.cols c) := fun z => by
    simp [hc, Spec.cols, Fin.sum_univ_six, vecMul, dotProduct]
    linarith
  have hF : ∑ k, ∑ i, Spec.cols c k i ^ 2 ≤ 3 ^ 2 := by
    simp [hc, Spec.cols, Fin.sum_univ_six]
    norm_num
  have ha : Spec.arm C70.wrist [0, 0, 0, 0, 0, 0] = 0 := by
    simp [Spec.arm, Spec.travel, C70.wrist, V3.norm_zero]
  refine C80_converges C70.bestPinv (1/10^15) C70.wrist (C70.bestPinv_exact _ _) C70.wrist_wf (by simp [C70.wrist]) pose hd [0, 0, 0, 0, 0, 0] rfl
    _ C70.wrist_fwdkin c C70.wrist_jac (3/10) (3/10) 1 (1/2) 3 1 (147/100) (14/100)
    (1/250) (21/250) (by norm_num) (by norm_num) ?_ (by norm_num) hz (by norm_num) hF (by norm_num) (by norm_num) ?_ (by norm_num)
    (by norm_num) ?_ ?_ (by norm_num) ?_ (by norm_num) ?_ (by norm_num) ?_ (by norm_num) ?_ _ (by norm_num) _ ?_
  · rw [show pose.R.transpose * (1 : M3 ℝ) = pose.R.transpose by ext <;> simp, show (0 : V3 ℝ) - pose.p = -pose.p by ext <;> simp, V3.norm_neg]
    exact h
  · rw [abs_of_nonneg] <;> norm_num
  · rw [l6]; push_cast; linarith
  · rw [l6]; push_cast; linarith
  · linarith [Real.pi_gt_three]
  · rw [ha]; norm_num
  · rw [l6]; push_cast; linarith
  · rw [l6]; push_cast; linarith
  · right
    refine ⟨by norm_num, by norm_num, ?_⟩
    change (1/250 : ℝ) * (1 - 14/100/4) ^ 199 < 1/10000
    norm_num

-- non-vacuity: every pose near the origin is reached exactly by the gantry with wrist
example (pose : Transform ℝ) (hd : IsRot pose.R) (h : Spec.halfSin pose.R.transpose + pose.p.norm ≤ 1/400) :
    ∃ (sol : List ℝ) (T : Transform ℝ), sol.length = 6 ∧ fwdkin C70.wrist sol true = .ok T ∧ T.R = pose.R ∧ T.p = pose.p ∧
      Spec.jointDist [0, 0, 0, 0, 0, 0] sol ≤ 43/500 := by
  have s6 : Real.sqrt (6 : ℝ) ≤ 49/20 := Real.sqrt_le_iff.2 (by norm_num)
  have s0 := Real.sqrt_nonneg (6 : ℝ)
  have l6 : C70.wrist.H.length = 6 := rfl
  set c : Fin 6 → V6 ℝ := ![⟨0, V3.ex⟩, ⟨0, V3.ey⟩, ⟨0, V3.ez⟩, ⟨V3.ex, 0⟩, ⟨V3.ey, 0⟩, ⟨V3.ez, 0⟩] with hc
  have hz : ∀ z : Fin 6 → ℝ, 1 ^ 2 * (z ⬝ᵥ z) ≤ (z ᵥ* Spec.cols c) ⬝ᵥ (z ᵥ* Spec.cols c) := fun z => by
    simp [hc, Spec.cols, Fin.sum_univ_six, vecMul, dotProduct]
    linarith
  have ha : Spec.arm C70.wrist [0, 0, 0, 0, 0, 0] = 0 := by
    simp [Spec.arm, Spec.travel, C70.wrist, V3.norm_zero]
  refine C80_solution_exists C70.wrist C70.wrist_wf (by simp [C70.wrist]) pose hd [0, 0, 0, 0, 0, 0] rfl
    _ C70.wrist_fwdkin c C70.wrist_jac 1 (1/2) 1 (1/400) (43/500) ?_ (by norm_num) hz (by norm_num) ?_ (by norm_num) ?_ ?_ ?_
  · rw [show pose.R.transpose * (1 : M3 ℝ) = pose.R.transpose by ext <;> simp, show (0 : V3 ℝ) - pose.p = -pose.p by ext <;> simp, V3.norm_neg]
    exact h
  · rw [l6]; push_cast; linarith
  · rw [ha]; norm_num
  · rw [l6]; norm_num
  · rw [l6]; push_cast; linarith
