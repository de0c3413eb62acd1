import Verif.Lemmas.IterConv
import Verif.Props.Iter

/-!
# Property C70: `iterative_invkin` converges near a solution
-/
set_option autoImplicit false
open Matrix

/-- The matrix with the given columns. -/
def Spec.cols {n : Nat} (c : Fin n → V6 ℝ) : Matrix (Fin 6) (Fin n) ℝ :=
  Matrix.of fun k i => ![(c i).top.x, (c i).top.y, (c i).top.z, (c i).bot.x, (c i).bot.y, (c i).bot.z] k

/-- `np.linalg.pinv` with cutoff `rc` (`1e-15` in NumPy) computes the pseudo-inverse of every 6×n matrix none of whose singular
values is cut off. -/
def Spec.exactPinv (pinv : Pinv XReal) (rc : ℝ) (n : Nat) : Prop :=
  ∀ c : Fin n → V6 ℝ, Spec.condAbove rc (Spec.cols c) →
    ∃ ρ : Fin n → V6 ℝ, pinv ((List.ofFn c).map V6.up) = .ok ((List.ofFn ρ).map V6.up) ∧ Spec.IsPinv (Spec.cols c) (Spec.cols ρ)ᵀ

namespace C70
open IterConv

def vec (a b : V3 ℝ) : Fin 6 → ℝ := ![a.x, a.y, a.z, b.x, b.y, b.z]

theorem cols_mulVec {n : Nat} (c : Fin n → V6 ℝ) (v : Fin n → ℝ) (a b : V3 ℝ) (h : Spec.cols c *ᵥ v = vec a b) :
    sumTop (List.ofFn c) (List.ofFn v) = a ∧ sumBot (List.ofFn c) (List.ofFn v) = b := by
  obtain ⟨t1, t2, t3⟩ := sumTop_ofFn c v
  obtain ⟨b1, b2, b3⟩ := sumBot_ofFn c v
  have e := fun k => congrFun h k
  constructor
  · ext
    · rw [t1]; have := e 0; simpa [Spec.cols, vec, mulVec, dotProduct, mul_comm] using this
    · rw [t2]; have := e 1; simpa [Spec.cols, vec, mulVec, dotProduct, mul_comm] using this
    · rw [t3]; have := e 2; simpa [Spec.cols, vec, mulVec, dotProduct, mul_comm] using this
  · ext
    · rw [b1]; have := e 3; simpa [Spec.cols, vec, mulVec, dotProduct, mul_comm] using this
    · rw [b2]; have := e 4; simpa [Spec.cols, vec, mulVec, dotProduct, mul_comm] using this
    · rw [b3]; have := e 5; simpa [Spec.cols, vec, mulVec, dotProduct, mul_comm] using this

theorem colsT_mulVec {n : Nat} (ρ : Fin n → V6 ℝ) (a b : V3 ℝ) (i : Fin n) :
    ((Spec.cols ρ)ᵀ *ᵥ vec a b) i = (ρ i).top.dot a + (ρ i).bot.dot b := by
  simp [Spec.cols, vec, mulVec, dotProduct, Fin.sum_univ_six, V3.dot]
  ring

theorem vec_dot (a b : V3 ℝ) : vec a b ⬝ᵥ vec a b = a.x * a.x + a.y * a.y + a.z * a.z + b.x * b.x + b.y * b.y + b.z * b.z := by
  simp [vec, dotProduct, Fin.sum_univ_six]

/-- The measured orientation error. -/
theorem R2rot_s {E : M3 ℝ} (hE : IsRot E) (htr : 2 < E.trace) :
    ∃ (k : V3 ℝ) (θ l : ℝ), (R2rot E.up).1.v = k.up ∧ (R2rot E.up).2 = .fin θ ∧ (l = 0 ∨ l = lam E) ∧
      V3.smul (Real.sin (θ / 2)) k = V3.smul l (Wv E) := by
  by_cases hs : 1/1000000 ≤ R2rotL.s E
  · refine ⟨_, _, lam E, by rw [R2rotL.eval_regular E hs]; rfl, by rw [R2rotL.eval_regular E hs], .inr rfl, ?_⟩
    have hs0 : 0 < R2rotL.s E := by linarith
    have hcs := R2rotL.s_sq_add_c_sq hE
    have hc : R2rotL.c E = (E.trace - 1) / 2 := rfl
    obtain ⟨g1, g2⟩ := R2rotL.arg_mem E hs0
    set θ := Complex.arg ⟨R2rotL.c E, R2rotL.s E⟩ with hθ
    have hn : ‖(⟨R2rotL.c E, R2rotL.s E⟩ : ℂ)‖ = 1 := by
      rw [Complex.norm_def, Complex.normSq_apply]
      simp only
      rw [hcs, Real.sqrt_one]
    have hcos : Real.cos θ = R2rotL.c E := by
      rw [hθ, Complex.cos_arg (by
        intro h0
        rw [h0] at hn
        simp at hn), hn, div_one]
    have hsin : Real.sin θ = R2rotL.s E := by rw [hθ, Complex.sin_arg, hn, div_one]
    have hch : 0 < Real.cos (θ / 2) := Real.cos_pos_of_mem_Ioo ⟨by linarith, by linarith⟩
    have hch2 : Real.cos (θ / 2) = Real.sqrt (1 + E.trace) / 2 := by
      have h1 := Real.cos_two_mul (θ / 2)
      rw [show 2 * (θ / 2) = θ by ring, hcos, hc] at h1
      have h2 : Real.sqrt (1 + E.trace) = 2 * Real.cos (θ / 2) := by
        rw [show 1 + E.trace = (2 * Real.cos (θ / 2)) ^ 2 by nlinarith, Real.sqrt_sq (by positivity)]
      linarith
    have hs2 := Real.sin_two_mul (θ / 2)
    rw [show 2 * (θ / 2) = θ by ring, hsin] at hs2
    have hl : Real.sin (θ / 2) / (2 * R2rotL.s E) = lam E := by
      unfold lam
      rw [show Real.sqrt (1 + E.trace) = 2 * Real.cos (θ / 2) by rw [hch2]; ring, hs2]
      have : Real.sin (θ / 2) ≠ 0 := by
        intro h0
        rw [h0] at hs2
        linarith
      field_simp
    rw [← hl]
    ext <;> simp [Wv, invhat, V3.sdiv] <;> ring
  · have hc : ¬ R2rotL.c E ≤ 0 := by unfold R2rotL.c; linarith
    have e := R2rotL.eval_band E (not_le.1 hs)
    have e : R2rot E.up = (.list V3.ez, 0) := by
      rw [e]
      split_ifs with h
      · rfl
      · exfalso
        simp at h
        exact hc h
    refine ⟨V3.ez, 0, 0, by rw [e]; rfl, by rw [e]; rfl, .inl rfl, ?_⟩
    ext <;> simp

/-- Turning the frame does not change the conditioning. -/
theorem cond_rotate {n : Nat} {rc : ℝ} {R : M3 ℝ} (hR : IsRot R) (c : Fin n → V6 ℝ) (h : Spec.condAbove rc (Spec.cols c)) :
    Spec.condAbove rc (Spec.cols fun i => (⟨R.mulVec (c i).top, R.mulVec (c i).bot⟩ : V6 ℝ)) := by
  obtain ⟨α, β, b0, hab, hα, hβ⟩ := h
  obtain ⟨k1, k2, k3, k4, k5, k6⟩ := hR.colEqs
  obtain ⟨r1, r2, r3, r4, r5, r6⟩ := hR.rowEqs
  refine ⟨α, β, b0, hab, ?_, fun z => ?_⟩
  · refine le_trans (le_of_eq ?_) hα
    rw [Finset.sum_comm, Finset.sum_comm (f := fun k i => Spec.cols c k i ^ 2)]
    refine Finset.sum_congr rfl fun i _ => ?_
    simp [Spec.cols, Fin.sum_univ_six]
    generalize (c i).top.x = a, (c i).top.y = b, (c i).top.z = d, (c i).bot.x = e, (c i).bot.y = f, (c i).bot.z = g
    linear_combination (a ^ 2 + e ^ 2) * k1 + (b ^ 2 + f ^ 2) * k2 + (d ^ 2 + g ^ 2) * k3 + 2 * (a * b + e * f) * k4 + 2 * (a * d + e * g) * k5 +
      2 * (b * d + f * g) * k6
  · have hz := hβ ![R.a00 * z 0 + R.a10 * z 1 + R.a20 * z 2, R.a01 * z 0 + R.a11 * z 1 + R.a21 * z 2, R.a02 * z 0 + R.a12 * z 1 + R.a22 * z 2,
      R.a00 * z 3 + R.a10 * z 4 + R.a20 * z 5, R.a01 * z 3 + R.a11 * z 4 + R.a21 * z 5, R.a02 * z 3 + R.a12 * z 4 + R.a22 * z 5]
    convert hz using 1
    · congr 1
      simp [dotProduct, Fin.sum_univ_six]
      generalize z 0 = a, z 1 = b, z 2 = d, z 3 = e, z 4 = f, z 5 = g
      linear_combination -((a ^ 2 + e ^ 2) * r1 + (b ^ 2 + f ^ 2) * r2 + (d ^ 2 + g ^ 2) * r3 + 2 * (a * b + e * f) * r4 + 2 * (a * d + e * g) * r5 +
        2 * (b * d + f * g) * r6)
    · congr 1 <;>
      · ext i
        simp [vecMul, dotProduct, Fin.sum_univ_six, Spec.cols]
        ring

theorem cols_continuous {robot : Robot ℝ} {n : Nat} (K : BodyKin robot n) : Continuous fun q => Spec.cols (K.col q) := by
  refine continuous_matrix fun k i => ?_
  have h1 := K.ctTop i
  have h2 := K.ctBot i
  fin_cases k
  · exact h1.x
  · exact h1.y
  · exact h1.z
  · exact h2.x
  · exact h2.y
  · exact h2.z

/-- One iteration near the solution. -/
theorem body {robot : Robot ℝ} {n : Nat} (K : BodyKin robot n) (pinv : Pinv XReal) (rc : ℝ) (hpinv : Spec.exactPinv pinv rc n)
    (pose : Transform ℝ) (hd : IsRot pose.R) (κp κR : ℝ) (hp0 : 0 < κp) (hR0 : 0 < κR) (β : ℝ) (hβ : 0 < β) (x : Fin n → ℝ)
    (hc : Spec.condAbove rc (Spec.cols (K.col x)))
    (hz : ∀ z : Fin 6 → ℝ, β * (z ⬝ᵥ z) ≤ (z ᵥ* Spec.cols (K.col x)) ⬝ᵥ (z ᵥ* Spec.cols (K.col x))) (htr : 2 < (ER K pose x).trace) :
    ∃ (l : ℝ) (δ : Fin n → ℝ) (k : V3 ℝ) (θ : ℝ), (R2rot (ER K pose x).up).1.v = k.up ∧ (R2rot (ER K pose x).up).2 = .fin θ ∧
      V3.smul (Real.sin (θ / 2)) k = V3.smul l (Wv (ER K pose x)) ∧
      iterBody pinv robot.up pose.up (M3.smul κp 1).up (M3.smul κR 1).up ((List.ofFn x).map .fin) =
        .ok ⟨(V3.smul l (Wv (ER K pose x))).up, (EP K pose x).up, (List.ofFn δ).map .fin⟩ ∧ (l = 0 ∨ l = lam (ER K pose x)) ∧
      sumTop (List.ofFn (K.col x)) (List.ofFn (-δ)) = V3.smul (-κR * l) (Wv (ER K pose x)) ∧
      sumBot (List.ofFn (K.col x)) (List.ofFn (-δ)) = V3.smul (-κp) (EP K pose x) ∧
      ‖δ‖ ≤ (κp + κR) / Real.sqrt β * (n1 (V3.smul l (Wv (ER K pose x))) + n1 (EP K pose x)) ∧
      β * (δ ⬝ᵥ δ) ≤ (κR * (V3.smul l (Wv (ER K pose x))).norm) ^ 2 + (κp * (EP K pose x).norm) ^ 2 := by
  obtain ⟨k, θ, l, e1, e2, hl, es⟩ := R2rot_s (hd.transpose.mul (K.rigid x)) htr
  obtain ⟨ρ, hρ, hX⟩ := hpinv (K.col x) hc
  obtain ⟨J, hJ, hcol⟩ := K.jac x
  rw [← hcol] at hρ
  have hb := iterBody_eq pinv robot pose (K.T x) (M3.smul κp 1) (M3.smul κR 1) (List.ofFn x) J (List.ofFn ρ) (K.fk x) hJ hρ k θ e1 e2
  change V3.smul (Real.sin (θ / 2)) k = V3.smul l (Wv (ER K pose x)) at es
  rw [es] at hb
  have sm : ∀ (c : ℝ) (v : V3 ℝ), (M3.smul c 1).mulVec v = V3.smul c v := fun c v => by ext <;> simp
  rw [sm, sm] at hb
  change iterBody _ _ _ _ _ _ = .ok ⟨_, (EP K pose x).up, (List.map (fun r : V6 ℝ => r.top.dot _ + r.bot.dot (V3.smul κp (EP K pose x))) _).map .fin⟩ at hb
  set S := V3.smul l (Wv (ER K pose x)) with hS
  set b := vec (V3.smul κR S) (V3.smul κp (EP K pose x)) with hbv
  obtain ⟨s1, s2⟩ := PinvMat.step hX hβ hz b
  set δ : Fin n → ℝ := (Spec.cols ρ)ᵀ *ᵥ b with hδ
  have hδi : (List.ofFn ρ).map (fun r => r.top.dot (V3.smul κR S) + r.bot.dot (V3.smul κp (EP K pose x))) = List.ofFn δ := by
    rw [List.map_ofFn]
    congr 1
    funext i
    rw [hδ, hbv, colsT_mulVec]
    rfl
  rw [hδi] at hb
  have hneg : Spec.cols (K.col x) *ᵥ (-δ) = vec (V3.smul (-κR * l) (Wv (ER K pose x))) (V3.smul (-κp) (EP K pose x)) := by
    rw [mulVec_neg, s1, hbv, hS]
    ext j
    fin_cases j <;> simp [vec] <;> ring
  obtain ⟨t1, t2⟩ := cols_mulVec _ _ _ _ hneg
  refine ⟨l, δ, k, θ, e1, e2, es, hb, hl, t1, t2, ?_, s2.trans (le_of_eq ?_)⟩
  swap
  · rw [hbv, vec_dot, mul_pow, mul_pow, V3.norm_sq, V3.norm_sq, hS]
    simp only [V3.smul_x, V3.smul_y, V3.smul_z, V3.dot]
    ring
  -- length of the step
  set Nc := n1 S + n1 (EP K pose x) with hNc
  have S0 := n1_nonneg S
  have P0 := n1_nonneg (EP K pose x)
  have hsq : ∀ v : V3 ℝ, v.x * v.x + v.y * v.y + v.z * v.z ≤ n1 v * n1 v := fun v => by
    have h1 := abs_mul_abs_self v.x
    have h2 := abs_mul_abs_self v.y
    have h3 := abs_mul_abs_self v.z
    unfold n1
    nlinarith [mul_nonneg (abs_nonneg v.x) (abs_nonneg v.y), mul_nonneg (abs_nonneg v.x) (abs_nonneg v.z), mul_nonneg (abs_nonneg v.z) (abs_nonneg v.y)]
  have hbb : b ⬝ᵥ b ≤ ((κp + κR) * Nc) ^ 2 := by
    rw [hbv, vec_dot]
    have h1 := hsq (V3.smul κR S)
    have h2 := hsq (V3.smul κp (EP K pose x))
    rw [n1_smul, abs_of_pos hR0] at h1
    rw [n1_smul, abs_of_pos hp0] at h2
    have a1 : 0 ≤ κR * n1 S := by positivity
    have a2 : 0 ≤ κp * n1 (EP K pose x) := by positivity
    have a3 : κR * n1 S + κp * n1 (EP K pose x) ≤ (κp + κR) * Nc := by
      rw [hNc]
      nlinarith [mul_nonneg hp0.le S0, mul_nonneg hR0.le P0]
    have a4 : (κR * n1 S + κp * n1 (EP K pose x)) ^ 2 ≤ ((κp + κR) * Nc) ^ 2 := pow_le_pow_left₀ (by linarith) a3 2
    nlinarith [mul_nonneg a1 a2]
  have Nc0 : 0 ≤ Nc := by positivity
  have hsβ : 0 < Real.sqrt β := Real.sqrt_pos.2 hβ
  rw [pi_norm_le_iff_of_nonneg (by positivity)]
  intro i
  rw [Real.norm_eq_abs, div_mul_eq_mul_div, le_div_iff₀ hsβ]
  have h1 := PinvMat.sq_le_dot_self δ i
  have h2 := mul_le_mul_of_nonneg_left h1 hβ.le
  have h3 : (|δ i| * Real.sqrt β) ^ 2 ≤ ((κp + κR) * Nc) ^ 2 := by
    rw [mul_pow, sq_abs, Real.sq_sqrt hβ.le]
    nlinarith
  exact le_of_sq_le_sq h3 (by positivity)

/-- If the measured error is large then the test fails, and conversely. -/
theorem not_done {s P : V3 ℝ} {δ : List XReal} {tol : ℝ} (h : ¬ iterDone ⟨s.up, P.up, δ⟩ (XReal.fin tol) = true) :
    tol ≤ n1 s + n1 P := by
  rw [iterDone_iff] at h
  by_contra hc
  rw [not_le] at hc
  unfold n1 at hc
  have h1 := abs_nonneg s.x
  have h2 := abs_nonneg s.y
  have h3 := abs_nonneg s.z
  have h4 := abs_nonneg P.x
  have h5 := abs_nonneg P.y
  have h6 := abs_nonneg P.z
  exact h ⟨⟨by linarith, by linarith, by linarith⟩, by linarith, by linarith, by linarith⟩

theorem ofFn_sub {n : Nat} (x δ : Fin n → ℝ) : (List.ofFn x).zipWith (· - ·) (List.ofFn δ) = List.ofFn (x - δ) := by
  apply List.ext_getElem
  · simp
  · intro i h1 h2
    simp

/-- The loop near the solution. -/
theorem loop {robot : Robot ℝ} {n : Nat} (K : BodyKin robot n) (pinv : Pinv XReal) (rc : ℝ) (hpinv : Spec.exactPinv pinv rc n)
    (pose : Transform ℝ) (hd : IsRot pose.R) (qs : Fin n → ℝ) (κp κR : ℝ) (hp0 : 0 < κp) (hR0 : 0 < κR) (β : ℝ) (hβ : 0 < β) (C : ℝ) (hC : C = (κp + κR) / Real.sqrt β) (m : ℝ) (m0 : 0 < m)
    (m1 : m ≤ 1) (r : ℝ)
    (hcond : ∀ x, ‖x - qs‖ < r → Spec.condAbove rc (Spec.cols (K.col x)) ∧
      ∀ z : Fin 6 → ℝ, β * (z ⬝ᵥ z) ≤ (z ᵥ* Spec.cols (K.col x)) ⬝ᵥ (z ᵥ* Spec.cols (K.col x)))
    (hcon : ∀ x, ‖x - qs‖ < r → 2 < (ER K pose x).trace ∧
      (∀ l, (l = 0 ∨ l = lam (ER K pose x)) → n1 (V3.smul l (Wv (ER K pose x))) + n1 (EP K pose x) ≤ Nn K pose x) ∧
      ∀ x', ‖x' - qs‖ < r → ∀ l, (l = 0 ∨ l = lam (ER K pose x)) →
      sumTop (List.ofFn (K.col x)) (List.ofFn (x' - x)) = V3.smul (-κR * l) (Wv (ER K pose x)) →
      sumBot (List.ofFn (K.col x)) (List.ofFn (x' - x)) = V3.smul (-κp) (EP K pose x) →
      ‖x' - x‖ ≤ C * (n1 (V3.smul l (Wv (ER K pose x))) + n1 (EP K pose x)) →
      Nn K pose x' ≤ Nn K pose x - m * (n1 (V3.smul l (Wv (ER K pose x))) + n1 (EP K pose x)))
    (tol : ℝ) (ht : 0 < tol) (fuel : Nat) (x : Fin n → ℝ)
    (hx : ‖x - qs‖ + C / m * Nn K pose x < r) (hN : Nn K pose x < fuel * (m * tol)) :
    ∃ x' : Fin n → ℝ, iterLoop pinv robot.up pose.up (M3.smul κp 1).up (M3.smul κR 1).up (.fin tol) fuel ((List.ofFn x).map .fin) =
        .ok (true, (List.ofFn x').map .fin) ∧ ‖x' - qs‖ < r ∧ Spec.reaches robot (List.ofFn x') pose tol := by
  have N0 : ∀ x, 0 ≤ Nn K pose x := fun x => add_nonneg (n1_nonneg _) (n1_nonneg _)
  have C0 : 0 < C := hC ▸ div_pos (by linarith) (Real.sqrt_pos.2 hβ)
  induction fuel generalizing x with
  | zero =>
    have := N0 x
    simp at hN
    linarith
  | succ fuel ih =>
    have hxr : ‖x - qs‖ < r := by
      have := mul_nonneg (div_nonneg C0.le m0.le) (N0 x)
      linarith
    obtain ⟨hc, hz⟩ := hcond x hxr
    obtain ⟨htr, hle, hstep⟩ := hcon x hxr
    obtain ⟨l, δ, k, θ, e1, e2, es, hb, hl, t1, t2, t3, -⟩ := body K pinv rc hpinv pose hd κp κR hp0 hR0 β hβ x hc hz htr
    rw [← hC] at t3
    by_cases hdone : iterDone ⟨(V3.smul l (Wv (ER K pose x))).up, (EP K pose x).up, (List.ofFn δ).map .fin⟩ (XReal.fin tol) = true
    · refine ⟨x, ?_, hxr, ?_⟩
      · rw [iterLoop, hb, Except.bind_ok]
        simp only [hdone, if_true]
        rfl
      · rw [← es] at hdone
        exact reaches_of_done robot pose (K.T x) hd (K.rigid x) _ (K.fk x) tol k θ _ e1 e2 hdone (fun h => by
          have := h.2
          change (ER K pose x).trace ≤ 1 at this
          linarith)
    · have hNc := not_done hdone
      set Nc := n1 (V3.smul l (Wv (ER K pose x))) + n1 (EP K pose x) with hNcd
      have ex : (x - δ) - x = -δ := by abel
      have hn : ‖(x - δ) - qs‖ ≤ ‖x - qs‖ + C * Nc := by
        have : (x - δ) - qs = (x - qs) - δ := by abel
        rw [this]
        exact (norm_sub_le _ _).trans (by linarith)
      have hNcN := hle l hl
      have h1 : C * Nc ≤ C / m * Nn K pose x := by
        rw [div_mul_eq_mul_div, le_div_iff₀ m0]
        have h2 : C * Nc * m ≤ C * Nc * 1 := mul_le_mul_of_nonneg_left m1 (mul_nonneg C0.le (by linarith))
        have h3 := mul_le_mul_of_nonneg_left hNcN C0.le
        linarith
      have hx' : ‖(x - δ) - qs‖ < r := by linarith
      have hdec := hstep (x - δ) hx' l hl (by rw [ex]; exact t1) (by rw [ex]; exact t2) (by rw [ex, norm_neg]; exact t3)
      have hmt : m * tol ≤ m * Nc := mul_le_mul_of_nonneg_left hNc m0.le
      obtain ⟨x', g1, g2, g3⟩ := ih (x - δ) (by
          have h2 : C / m * Nn K pose (x - δ) ≤ C / m * (Nn K pose x - m * Nc) := mul_le_mul_of_nonneg_left hdec (div_nonneg C0.le m0.le)
          have h3 : C / m * (Nn K pose x - m * Nc) = C / m * Nn K pose x - C * Nc := by field_simp
          linarith) (by
          push_cast at hN
          linarith)
      refine ⟨x', ?_, g2, g3⟩
      rw [iterLoop, hb, Except.bind_ok, zipWith_fin, ofFn_sub]
      simp only [hdone]
      simpa using g1

/-- A 6×1 matrix is not well conditioned. -/
theorem cond_width {n : Nat} {rc : ℝ} {A : Matrix (Fin 6) (Fin n) ℝ} (h : Spec.condAbove rc A) : n ≠ 1 := by
  rintro rfl
  obtain ⟨α, β, b0, -, -, hβ⟩ := h
  have h1 := hβ ![A 1 0, -A 0 0, 0, 0, 0, 0]
  have h2 := hβ ![1, 0, 0, 0, 0, 0]
  simp [vecMul, dotProduct, Fin.sum_univ_six] at h1 h2
  have e : A 1 0 * A 0 0 + -(A 0 0 * A 1 0) = 0 := by ring
  rw [e] at h1
  nlinarith [sq_nonneg (A 1 0), sq_nonneg (A 0 0)]

/-- Joints that moved by less than half a turn are returned as they are. -/
theorem callV_near (seed q : List ℝ) (n : Nat) (ls : seed.length = n) (lq : q.length = n)
    (h : ∀ i (h1 : i < seed.length) (h2 : i < q.length), |seed[i] - q[i]| < Real.pi) :
    (⟨none, some (seed.map .fin)⟩ : Normalizer XReal).callV (List.range n) [q.map .fin] = .ok [q.map .fin] := by
  obtain ⟨ks, lk, g1, g2⟩ := callV_free seed q n ls lq
  have e : List.zipWith (fun (x : ℝ) (k : ℤ) => x + k * (2 * Real.pi)) q ks = q := by
    apply List.ext_getElem
    · simp [lk, lq]
    · intro i h1 h2
      have hk := g2 i (by omega) h2 (by omega)
      have hq := h i (by omega) h2
      have hpi := Real.pi_pos
      have hk0 : ks[i]'(by omega) = 0 := by
        generalize ks[i]'(by omega) = k at hk
        rw [abs_le] at hk
        rw [abs_lt] at hq
        have h1 : (k : ℝ) < 1 := by nlinarith
        have h2 : (-1 : ℝ) < k := by nlinarith
        have h1 : k < 1 := by exact_mod_cast h1
        have h2 : -1 < k := by exact_mod_cast h2
        omega
      rw [List.getElem_zipWith, hk0]
      simp
  rw [g1, e]

end C70

/-- C70: take a robot with rotary and prismatic joints, a joint vector `qs` that solves the pose and where no singular value of
the Jacobian is cut off by `np.linalg.pinv`, and gains `Kp = κp I`, `KR = κR I` with `0 < κp < 2`, `0 < κR < 4` (the defaults are
0.3).  Then for every seed near enough to `qs` and every positive tolerance, the iteration converges if it is given enough steps
(a number that does not depend on the seed), and the joint vector returned reaches the pose and is near `qs`, as near as desired.
The neighbourhood of `qs` does not depend on the tolerance. -/
theorem C70_converges (pinv : Pinv XReal) (rc : ℝ) (robot : Robot ℝ) (hpinv : Spec.exactPinv pinv rc robot.H.length) (hw : robot.WF)
    (hty : ∀ t ∈ robot.jointType, t = 0 ∨ t = 1) (pose : Transform ℝ) (qs : List ℝ) (lqs : qs.length = robot.H.length)
    (hsol : ∃ T, fwdkin robot qs true = .ok T ∧ T.R = pose.R ∧ T.p = pose.p)
    (hcond : ∀ c : Fin robot.H.length → V6 ℝ, robotjacobian robot qs true = .ok (List.ofFn c) → Spec.condAbove rc (Spec.cols c))
    (κp κR : ℝ) (hp0 : 0 < κp) (hp2 : κp < 2) (hR0 : 0 < κR) (hR4 : κR < 4) (ε : ℝ) (hε : 0 < ε) :
    ∃ r > 0, ∀ tol > 0, ∃ N : ℕ, ∀ seed : List ℝ, seed.length = robot.H.length →
      (∀ i (h1 : i < seed.length) (h2 : i < qs.length), |seed[i] - qs[i]| < r) → ∀ maxSteps : ℤ, N ≤ maxSteps →
      ∃ sol : List ℝ, iterative_invkin pinv robot.up pose.up (seed.map .fin) maxSteps (M3.smul κp 1).up (M3.smul κR 1).up (.fin tol) =
          .ok (true, [sol.map .fin]) ∧ Spec.reaches robot sol pose tol ∧
        sol.length = robot.H.length ∧ ∀ i (h1 : i < sol.length) (h2 : i < qs.length), |sol[i] - qs[i]| < ε := by
  obtain ⟨n, hn⟩ : ∃ n, n = robot.H.length := ⟨_, rfl⟩
  rw [← hn] at hpinv hcond lqs ⊢
  obtain ⟨K⟩ := bodyKin_exists robot hw hty n hn.symm
  -- the solution as a function
  obtain ⟨q0, rfl⟩ : ∃ q0 : Fin n → ℝ, qs = List.ofFn q0 := ⟨fun i => qs[i]'(by rw [lqs]; exact i.2), by
    apply List.ext_getElem
    · simp [lqs]
    · intro i h1 h2; simp⟩
  obtain ⟨T, hT, hTR, hTp⟩ := hsol
  rw [K.fk q0] at hT
  cases hT
  have hd : IsRot pose.R := hTR ▸ K.rigid q0
  -- conditioning at the solution
  obtain ⟨J, hJ, hcol⟩ := K.jac q0
  have lJ : J.length = n := by simpa using congrArg List.length hcol
  obtain ⟨c, rfl⟩ : ∃ c : Fin n → V6 ℝ, J = List.ofFn c := ⟨fun i => J[i]'(by rw [lJ]; exact i.2), by
    apply List.ext_getElem
    · simp [lJ]
    · intro i h1 h2; simp⟩
  rw [List.map_ofFn] at hcol
  have hcol : (fun i => (⟨(K.T q0).R.transpose.mulVec (c i).top, (K.T q0).R.transpose.mulVec (c i).bot⟩ : V6 ℝ)) = K.col q0 :=
    List.ofFn_injective hcol
  have hc0 : Spec.condAbove rc (Spec.cols (K.col q0)) := hcol ▸ C70.cond_rotate (K.rigid q0).transpose c (hcond c hJ)
  obtain ⟨β, hβ, hnear⟩ := PinvMat.cond_near (fun q => Spec.cols (K.col q)) (C70.cols_continuous K) q0 rc hc0
  obtain ⟨r1, r1p, hr1⟩ := Metric.eventually_nhds_iff.1 hnear
  obtain ⟨C, hC⟩ : ∃ C, C = (κp + κR) / Real.sqrt β := ⟨_, rfl⟩
  have C0 : 0 < C := hC ▸ div_pos (by linarith) (Real.sqrt_pos.2 hβ)
  obtain ⟨m, m0, m1, r2, r2p, hr2⟩ := IterConv.contraction K pose hd q0 hTR hTp κp κR hp0 hp2 hR0 hR4 C C0
  -- the region
  obtain ⟨ρ, hρ⟩ : ∃ ρ, ρ = min (min r1 r2) (min ε 1) := ⟨_, rfl⟩
  have ρ0 : 0 < ρ := by rw [hρ]; exact lt_min (lt_min r1p r2p) (lt_min hε one_pos)
  have ρ1 : ρ ≤ r1 := by rw [hρ]; exact (min_le_left _ _).trans (min_le_left _ _)
  have ρ2 : ρ ≤ r2 := by rw [hρ]; exact (min_le_left _ _).trans (min_le_right _ _)
  have ρ3 : ρ ≤ ε := by rw [hρ]; exact (min_le_right _ _).trans (min_le_left _ _)
  have ρ4 : ρ ≤ 1 := by rw [hρ]; exact (min_le_right _ _).trans (min_le_right _ _)
  have hN0 : IterConv.Nn K pose q0 = 0 := by
    have e1 : IterConv.ER K pose q0 = 1 := by unfold IterConv.ER; rw [hTR, hd.orth]
    have e2 : IterConv.EP K pose q0 = 0 := by
      unfold IterConv.EP
      rw [hTp]
      ext <;> simp
    unfold IterConv.Nn
    rw [e1, e2]
    simp [IterConv.n1, IterConv.Wv]
  have cN : Continuous (IterConv.Nn K pose) := by
    have w := IterConv.W_smooth K pose
    have p := IterConv.EP_smooth K pose
    exact ((w.x.continuous.abs.add w.y.continuous.abs).add w.z.continuous.abs).add
      ((p.x.continuous.abs.add p.y.continuous.abs).add p.z.continuous.abs)
  have cV : Continuous fun x => ‖x - q0‖ + C / m * IterConv.Nn K pose x := (continuous_id.sub continuous_const).norm.add (continuous_const.mul cN)
  have nV : ∀ᶠ x in nhds q0, ‖x - q0‖ + C / m * IterConv.Nn K pose x < ρ := cV.continuousAt.eventually_lt continuousAt_const (by
    show ‖q0 - q0‖ + C / m * IterConv.Nn K pose q0 < ρ
    rw [hN0]
    simpa using ρ0)
  obtain ⟨r, r0, hr⟩ := Metric.eventually_nhds_iff.1 nV
  refine ⟨min r 1, lt_min r0 one_pos, fun tol ht => ?_⟩
  obtain ⟨N, hN⟩ := exists_nat_gt (ρ / C / tol)
  refine ⟨N, fun seed ls hs maxSteps hmax => ?_⟩
  obtain ⟨x, rfl⟩ : ∃ x : Fin n → ℝ, seed = List.ofFn x := ⟨fun i => seed[i]'(by rw [ls]; exact i.2), by
    apply List.ext_getElem
    · simp [ls]
    · intro i h1 h2; simp⟩
  have hx : ∀ i, |x i - q0 i| < min r 1 := fun i => by
    have := hs i (by simp) (by simp)
    simpa using this
  have hxr : ‖x - q0‖ < r := by
    rw [pi_norm_lt_iff r0]
    exact fun i => (hx i).trans_le (min_le_left _ _)
  have hV := hr (show dist x q0 < r by rw [dist_eq_norm]; exact hxr)
  have hNx : IterConv.Nn K pose x < maxSteps.toNat * (m * tol) := by
    have h1 : C / m * IterConv.Nn K pose x < ρ := by linarith [norm_nonneg (x - q0)]
    have h2 : IterConv.Nn K pose x < ρ / C * m := by
      rw [div_mul_eq_mul_div, lt_div_iff₀ C0]
      rw [div_mul_eq_mul_div, div_lt_iff₀ m0] at h1
      linarith
    rw [div_lt_iff₀ ht] at hN
    have h3 : (N : ℝ) ≤ maxSteps.toNat := by exact_mod_cast (by omega : N ≤ maxSteps.toNat)
    have h4 := mul_le_mul_of_nonneg_right h3 (mul_nonneg m0.le ht.le)
    have h5 := mul_lt_mul_of_pos_right hN m0
    linarith
  obtain ⟨y, g1, g2, g3⟩ := C70.loop K pinv rc hpinv pose hd q0 κp κR hp0 hR0 β hβ C hC m m0 m1 ρ
    (fun x hx => hr1 (show dist x q0 < r1 by rw [dist_eq_norm]; linarith))
    (fun x hx => by
      obtain ⟨a1, a2, a3⟩ := hr2 x (by linarith)
      exact ⟨a1, a2, fun x' hx' => a3 x' (by linarith)⟩) tol ht maxSteps.toNat x hV hNx
  have hy : ∀ i, |y i - q0 i| < ρ := by
    rw [pi_norm_lt_iff ρ0] at g2
    exact g2
  have hnorm := C70.callV_near (List.ofFn x) (List.ofFn y) n (by simp) (by simp) (fun i h1 h2 => by
    simp only [List.getElem_ofFn]
    have a1 := (hx ⟨i, by simpa using h1⟩).trans_le (min_le_right _ _)
    have a2 := hy ⟨i, by simpa using h1⟩
    have hpi := Real.pi_gt_three
    rw [abs_lt] at a1 a2 ⊢
    constructor <;> linarith [a1.1, a1.2, a2.1, a2.2])
  refine ⟨List.ofFn y, ?_, g3, by simp, fun i h1 h2 => ?_⟩
  · have lt : robot.up.jointType.length = n := by rw [hn]; exact hw.joints
    have hN : Normalizer.ofRobot robot.up (some ((List.ofFn x).map XReal.fin)) true = ⟨none, some ((List.ofFn x).map .fin)⟩ := by
      unfold Normalizer.ofRobot
      rcases robot.up.lower with _ | _ <;> rcases robot.up.upper with _ | _ <;> rfl
    have n1 : n ≠ 1 := C70.cond_width hc0
    unfold iterative_invkin
    simp only [lt, List.length_map, List.length_ofFn, if_true, g1, Except.bind_ok, if_neg n1, hN, hnorm]
    rfl
  · simp only [List.getElem_ofFn]
    exact (hy _).trans_le ρ3

/-! ## where it does not converge -/

namespace C70

theorem fwdStep_zero {t : Nat} (ht : t = 0 ∨ t = 1) (h P p : V3 ℝ) : fwdStep t h P 0 ((1 : M3 ℝ), p) = (1, p + P) := by
  have e : (1 : M3 ℝ) * rot h 0 = 1 := by rw [rot_zero]; ext <;> simp
  rcases ht with rfl | rfl
  · ext <;> simp [fwdStep, e]
  · ext <;> simp [fwdStep]

/-- three rotary joints about z, two links of length 1, all in the plane -/
noncomputable def planar : Robot ℝ := { H := [V3.ez, V3.ez, V3.ez], P := [0, V3.ex, V3.ex, 0], jointType := [0, 0, 0] }

theorem planar_wf : planar.WF :=
  ⟨rfl, rfl, by simp [planar], by simp [planar, IsUnit3], by simp [planar], by simp [planar], by simp [planar], by simp [planar]⟩

/-- gantry with three prismatic joints and a wrist with three rotary joints -/
noncomputable def wrist : Robot ℝ :=
  { H := [V3.ex, V3.ey, V3.ez, V3.ex, V3.ey, V3.ez], P := [0, 0, 0, 0, 0, 0, 0], jointType := [1, 1, 1, 0, 0, 0] }

theorem wrist_wf : wrist.WF :=
  ⟨rfl, rfl, by simp [wrist], by simp [wrist, IsUnit3], by simp [wrist], by simp [wrist], by simp [wrist], by simp [wrist]⟩

theorem wrist_fwdkin : fwdkin wrist [0, 0, 0, 0, 0, 0] true = .ok ⟨1, 0, none, none⟩ := by
  simp only [fwdkin, checkLimits, wrist, if_true, fwdLoop, fwdStep_zero (.inl rfl), fwdStep_zero (.inr rfl)]
  simp
  rfl

theorem wrist_jac : robotjacobian wrist [0, 0, 0, 0, 0, 0] true =
    .ok [⟨0, V3.ex⟩, ⟨0, V3.ey⟩, ⟨0, V3.ez⟩, ⟨V3.ex, 0⟩, ⟨V3.ey, 0⟩, ⟨V3.ez, 0⟩] := by
  simp only [robotjacobian, checkLimits, wrist, if_true, jacLoop, fwdStep_zero (.inl rfl), fwdStep_zero (.inr rfl)]
  simp [jacCols]

theorem planar_jac : robotjacobian planar [0, 0, 0] true =
    .ok [⟨V3.ez, ⟨0, 2, 0⟩⟩, ⟨V3.ez, ⟨0, 1, 0⟩⟩, ⟨V3.ez, 0⟩] := by
  simp only [robotjacobian, checkLimits, planar, if_true, jacLoop, fwdStep_zero (.inl rfl)]
  simp [jacCols]
  constructor <;> ext <;> simp [hat] <;> norm_num

theorem planar_fwdkin (a : ℝ) : fwdkin planar [a, -(2 * a), a] true = .ok ⟨1, ⟨2 * Real.cos a, 0, 0⟩, none, none⟩ := by
  have e1 : (1 : M3 ℝ) * rot V3.ez a = rot V3.ez a := M3.one_mul' _
  have e2 : rot V3.ez a * rot V3.ez (-(2 * a)) = rot V3.ez (-a) := by rw [rot_mul _ (by simp [IsUnit3])]; congr 1; ring
  have e3 : rot (V3.ez : V3 ℝ) (-a) * rot V3.ez a = 1 := by rw [rot_mul _ (by simp [IsUnit3])]; simp
  simp only [fwdkin, checkLimits, planar, if_true, fwdLoop, fwdStep, true_or, e1, e2, e3]
  have e4 : (0 : V3 ℝ) + (rot V3.ez a).mulVec V3.ex + (rot V3.ez (-a)).mulVec V3.ex + (1 : M3 ℝ).mulVec 0 = ⟨2 * Real.cos a, 0, 0⟩ := by
    ext <;> simp [rot] <;> ring
  rw [e4]
  rfl

/-- the Jacobian of the stretched arm -/
def stretched : Fin 3 → V6 ℝ := ![⟨V3.ez, ⟨0, 2, 0⟩⟩, ⟨V3.ez, ⟨0, 1, 0⟩⟩, ⟨V3.ez, 0⟩]

end C70

/-- C70 needs a regular Jacobian: with the stretched planar arm as the seed, and the pose of the joint vector `(a, -2a, a)`, which
is as near to the seed as desired, the seed is returned and no convergence is reported, whatever the number of steps and the gains,
since the motion needed is along the arm.  (`ρ` is the pseudo-inverse of the Jacobian at the seed.) -/
theorem C70_singular_false (pinv : Pinv XReal) (ρ : Fin 3 → V6 ℝ)
    (hp : pinv ((List.ofFn C70.stretched).map V6.up) = .ok ((List.ofFn ρ).map V6.up)) (hX : Spec.IsPinv (Spec.cols C70.stretched) (Spec.cols ρ)ᵀ)
    (κp : ℝ) (KR : M3 ℝ) (a tol : ℝ) (ht : tol ≤ 2 - 2 * Real.cos a) (maxSteps : ℤ) :
    ∃ pose : Transform ℝ, fwdkin C70.planar [a, -(2 * a), a] true = .ok pose ∧
      iterative_invkin pinv C70.planar.up pose.up ([0, 0, 0].map .fin) maxSteps (M3.smul κp 1).up KR.up (.fin tol) =
        .ok (false, [[0, 0, 0].map .fin]) := by
  refine ⟨_, C70.planar_fwdkin a, ?_⟩
  set pose : Transform ℝ := ⟨1, ⟨2 * Real.cos a, 0, 0⟩, none, none⟩ with hpose
  have hf : fwdkin C70.planar [0, 0, 0] true = .ok ⟨1, ⟨2, 0, 0⟩, none, none⟩ := by
    have := C70.planar_fwdkin 0
    simpa using this
  have e1 : pose.R.transpose * (1 : M3 ℝ) = 1 := by ext <;> simp [hpose]
  obtain ⟨k, θ, l, g1, g2, -, g3⟩ := C70.R2rot_s IsRot.one (by norm_num [M3.trace])
  have e2 : IterConv.Wv 1 = 0 := by ext <;> simp [IterConv.Wv]
  have e3 : V3.smul l (IterConv.Wv 1) = 0 := by rw [e2]; ext <;> simp
  rw [e3] at g3
  have em : [(⟨V3.ez, ⟨0, 2, 0⟩⟩ : V6 ℝ), ⟨V3.ez, ⟨0, 1, 0⟩⟩, ⟨V3.ez, 0⟩].map
      (fun c => (⟨(1 : M3 ℝ).transpose.mulVec c.top, (1 : M3 ℝ).transpose.mulVec c.bot⟩ : V6 ℝ)) = List.ofFn C70.stretched := by
    have e : ∀ v : V3 ℝ, (1 : M3 ℝ).transpose.mulVec v = v := fun v => by ext <;> simp
    simp [e, C70.stretched]
  have hb := iterBody_eq pinv C70.planar pose ⟨1, ⟨2, 0, 0⟩, none, none⟩ (M3.smul κp 1) KR [0, 0, 0] _ (List.ofFn ρ) hf C70.planar_jac (by
    rw [em]; exact hp) k θ (by rw [e1]; exact g1) (by rw [e1]; exact g2)
  rw [g3] at hb
  -- the step is zero
  have hz : ∀ d : ℝ, (Spec.cols ρ)ᵀ *ᵥ C70.vec 0 ⟨d, 0, 0⟩ = 0 := fun d => by
    have h1 : (Spec.cols C70.stretched)ᵀ *ᵥ C70.vec 0 ⟨d, 0, 0⟩ = 0 := by
      ext i
      fin_cases i <;> simp [Spec.cols, C70.stretched, C70.vec, mulVec, dotProduct, Fin.sum_univ_six]
    have h2 : (Spec.cols ρ)ᵀ = (Spec.cols ρ)ᵀ * (((Spec.cols ρ)ᵀ)ᵀ * (Spec.cols C70.stretched)ᵀ) := by
      rw [← Matrix.transpose_mul, hX.ax, ← Matrix.mul_assoc, hX.xax]
    rw [h2, ← mulVec_mulVec, ← mulVec_mulVec, h1, mulVec_zero, mulVec_zero]
  have hδ : ((List.ofFn ρ).map fun r => r.top.dot (KR.mulVec 0) + r.bot.dot ((M3.smul κp 1).mulVec ((1 : M3 ℝ).transpose.mulVec (⟨2, 0, 0⟩ - pose.p)))) =
      [0, 0, 0] := by
    have e4 : (M3.smul κp 1).mulVec ((1 : M3 ℝ).transpose.mulVec (⟨2, 0, 0⟩ - pose.p)) = ⟨κp * (2 - 2 * Real.cos a), 0, 0⟩ := by
      ext <;> simp [hpose]
    have e5 : KR.mulVec 0 = 0 := by ext <;> simp
    have h3 := fun i => congrFun (hz (κp * (2 - 2 * Real.cos a))) i
    simp only [C70.colsT_mulVec] at h3
    rw [e4, e5, List.map_ofFn]
    have e6 : ((fun r : V6 ℝ => r.top.dot 0 + r.bot.dot ⟨κp * (2 - 2 * Real.cos a), 0, 0⟩) ∘ ρ) = fun _ => 0 := funext h3
    rw [e6]
    simp
  simp only [hδ] at hb
  set EP : V3 ℝ := (1 : M3 ℝ).transpose.mulVec (⟨2, 0, 0⟩ - pose.p) with hEP
  have hEPx : EP.x = 2 - 2 * Real.cos a := by simp [hEP, hpose]
  have hnd : ¬ iterDone ⟨V3.up 0, EP.up, [0, 0, 0].map .fin⟩ (XReal.fin tol) = true := by
    rw [iterDone_iff]
    rintro ⟨-, h, -⟩
    rw [hEPx] at h
    linarith [le_abs_self (2 - 2 * Real.cos a)]
  have hloop : ∀ fuel, iterLoop pinv C70.planar.up pose.up (M3.smul κp 1).up KR.up (.fin tol) fuel ([0, 0, 0].map .fin) =
      .ok (false, [0, 0, 0].map .fin) := fun fuel => by
    induction fuel with
    | zero => rfl
    | succ fuel ih =>
      rw [iterLoop, hb, Except.bind_ok, zipWith_fin]
      simp only [hnd]
      simpa using ih
  have hn := C70.callV_near [0, 0, 0] [0, 0, 0] 3 rfl rfl (fun i h1 h2 => by simp [Real.pi_pos])
  have hN : Normalizer.ofRobot C70.planar.up (some ([0, 0, 0].map XReal.fin)) true = ⟨none, some ([0, 0, 0].map .fin)⟩ := rfl
  have l3 : C70.planar.up.jointType.length = 3 := rfl
  unfold iterative_invkin
  rw [hloop, l3, hN]
  simp only [Except.bind_ok, hn]
  rfl

/-! ## non-vacuity -/

/-- `rows` is the pseudo-inverse of `J`. -/
def C70.isPinvOf (J rows : List (V6 XReal)) : Prop :=
  ∃ (n : Nat) (c ρ : Fin n → V6 ℝ), J = (List.ofFn c).map V6.up ∧ rows = (List.ofFn ρ).map V6.up ∧ Spec.IsPinv (Spec.cols c) (Spec.cols ρ)ᵀ

open Classical in
/-- The pseudo-inverse, for matrices that have one. -/
noncomputable def C70.bestPinv : Pinv XReal := fun J => if h : ∃ rows, C70.isPinvOf J rows then .ok h.choose else .error .value

theorem C70.up_injective : Function.Injective V6.up := fun a b h => by
  have h1 := congrArg V6.top h
  have h2 := congrArg V6.bot h
  exact V6.ext (V3.up_inj h1) (V3.up_inj h2)

theorem C70.bestPinv_eq {n : Nat} (c ρ : Fin n → V6 ℝ) (h : Spec.IsPinv (Spec.cols c) (Spec.cols ρ)ᵀ) :
    ∃ ρ' : Fin n → V6 ℝ, C70.bestPinv ((List.ofFn c).map V6.up) = .ok ((List.ofFn ρ').map V6.up) ∧ Spec.IsPinv (Spec.cols c) (Spec.cols ρ')ᵀ := by
  have hex : ∃ rows, C70.isPinvOf ((List.ofFn c).map V6.up) rows := ⟨_, n, c, ρ, rfl, rfl, h⟩
  have e : C70.bestPinv ((List.ofFn c).map V6.up) = .ok hex.choose := by
    unfold C70.bestPinv
    rw [dif_pos hex]
  obtain ⟨n', c', ρ', h1, h2, h3⟩ := hex.choose_spec
  have hn : n' = n := by
    have := congrArg List.length h1
    simpa using this.symm
  subst hn
  obtain rfl : c = c' := List.ofFn_injective (List.map_injective_iff.2 C70.up_injective h1)
  exact ⟨ρ', by rw [e, h2], h3⟩

/-- Every well conditioned matrix has a pseudo-inverse. -/
theorem C70.bestPinv_exact (rc : ℝ) (n : Nat) : Spec.exactPinv C70.bestPinv rc n := by
  rintro c ⟨α, β, b0, -, -, hβ⟩
  obtain ⟨X, hX⟩ := PinvMat.exists_isPinv (Spec.cols c) b0 hβ
  refine C70.bestPinv_eq c (fun i => ⟨⟨X i 0, X i 1, X i 2⟩, ⟨X i 3, X i 4, X i 5⟩⟩) ?_
  have e : (Spec.cols fun i => (⟨⟨X i 0, X i 1, X i 2⟩, ⟨X i 3, X i 4, X i 5⟩⟩ : V6 ℝ))ᵀ = X := by
    ext i k
    fin_cases k <;> rfl
  rw [e]
  exact hX

theorem C70.wrist_cond (c : Fin 6 → V6 ℝ) (hc : robotjacobian C70.wrist [0, 0, 0, 0, 0, 0] true = .ok (List.ofFn c)) :
    Spec.condAbove (1/10^15) (Spec.cols c) := by
  rw [C70.wrist_jac] at hc
  have hc := Except.ok.inj hc
  have e : c = ![⟨0, V3.ex⟩, ⟨0, V3.ey⟩, ⟨0, V3.ez⟩, ⟨V3.ex, 0⟩, ⟨V3.ey, 0⟩, ⟨V3.ez, 0⟩] := List.ofFn_injective (hc.symm.trans (by simp))
  subst e
  refine ⟨6, 1, one_pos, by norm_num, ?_, fun z => ?_⟩
  · simp [Spec.cols, Fin.sum_univ_six]
    norm_num
  · simp [Spec.cols, Fin.sum_univ_six, vecMul, dotProduct]
    linarith

-- the hypotheses of C70_converges are met by the gantry with wrist at the origin, for the default gains
example : ∃ r > 0, ∀ tol > 0, ∃ N : ℕ, ∀ seed : List ℝ, seed.length = 6 → (∀ x ∈ seed, |x| < r) → ∀ maxSteps : ℤ, N ≤ maxSteps →
    ∃ sol : List ℝ, iterative_invkin C70.bestPinv C70.wrist.up (Transform.up ⟨1, 0, none, none⟩) (seed.map .fin) maxSteps
      (M3.smul (3/10) 1).up (M3.smul (3/10) 1).up (.fin tol) = .ok (true, [sol.map .fin]) ∧
      Spec.reaches C70.wrist sol ⟨1, 0, none, none⟩ tol := by
  obtain ⟨r, r0, h⟩ := C70_converges C70.bestPinv (1/10^15) C70.wrist (C70.bestPinv_exact _ _) C70.wrist_wf (by simp [C70.wrist])
    ⟨1, 0, none, none⟩ [0, 0, 0, 0, 0, 0] rfl ⟨_, C70.wrist_fwdkin, rfl, rfl⟩ C70.wrist_cond (3/10) (3/10) (by norm_num) (by norm_num) (by norm_num) (by norm_num) 1 one_pos
  refine ⟨r, r0, fun tol ht => ?_⟩
  obtain ⟨N, h⟩ := h tol ht
  refine ⟨N, fun seed ls hs m hm => ?_⟩
  obtain ⟨sol, e1, e2, -⟩ := h seed ls (fun i h1 h2 => by
    have : [(0 : ℝ), 0, 0, 0, 0, 0][i] = 0 := by
      have : i < 6 := h2
      interval_cases i <;> rfl
    rw [this, sub_zero]
    exact hs _ (List.getElem_mem h1)) m hm
  exact ⟨sol, e1, e2⟩

-- the hypotheses of C70_singular_false are met: the pseudo-inverse of the Jacobian of the stretched arm; default gains,
-- tolerance and number of steps
example : ∃ pose : Transform ℝ, fwdkin C70.planar [Real.pi / 3, -(2 * (Real.pi / 3)), Real.pi / 3] true = .ok pose ∧
    iterative_invkin C70.bestPinv C70.planar.up pose.up ([0, 0, 0].map .fin) 200 (M3.smul (3/10) 1).up (M3.smul (3/10) 1).up (.fin (1/10000)) =
      .ok (false, [[0, 0, 0].map .fin]) := by
  obtain ⟨ρ, h1, h2⟩ := C70.bestPinv_eq C70.stretched
    ![⟨⟨0, 0, -1/6⟩, ⟨0, 1/2, 0⟩⟩, ⟨⟨0, 0, 1/3⟩, 0⟩, ⟨⟨0, 0, 5/6⟩, ⟨0, -1/2, 0⟩⟩] (by
      have e1 : Spec.cols C70.stretched = !![0, 0, 0; 0, 0, 0; 1, 1, 1; 0, 0, 0; 2, 1, 0; 0, 0, 0] := by
        ext i j
        fin_cases i <;> fin_cases j <;> rfl
      have e2 : (Spec.cols ![(⟨⟨0, 0, -1/6⟩, ⟨0, 1/2, 0⟩⟩ : V6 ℝ), ⟨⟨0, 0, 1/3⟩, 0⟩, ⟨⟨0, 0, 5/6⟩, ⟨0, -1/2, 0⟩⟩])ᵀ =
          !![(0 : ℝ), 0, -1/6, 0, 1/2, 0; 0, 0, 1/3, 0, 0, 0; 0, 0, 5/6, 0, -1/2, 0] := by
        ext i j
        fin_cases i <;> fin_cases j <;> rfl
      have e3 : !![(0 : ℝ), 0, 0; 0, 0, 0; 1, 1, 1; 0, 0, 0; 2, 1, 0; 0, 0, 0] * !![(0 : ℝ), 0, -1/6, 0, 1/2, 0; 0, 0, 1/3, 0, 0, 0; 0, 0, 5/6, 0, -1/2, 0] =
          !![0, 0, 0, 0, 0, 0; 0, 0, 0, 0, 0, 0; 0, 0, 1, 0, 0, 0; 0, 0, 0, 0, 0, 0; 0, 0, 0, 0, 1, 0; 0, 0, 0, 0, 0, 0] := by
        simp
        norm_num
        exact (by ext i; fin_cases i <;> rfl)
      have e4 : !![(0 : ℝ), 0, -1/6, 0, 1/2, 0; 0, 0, 1/3, 0, 0, 0; 0, 0, 5/6, 0, -1/2, 0] * !![(0 : ℝ), 0, 0; 0, 0, 0; 1, 1, 1; 0, 0, 0; 2, 1, 0; 0, 0, 0] =
          !![5/6, 1/3, -1/6; 1/3, 1/3, 1/3; -1/6, 1/3, 5/6] := by
        simp
        norm_num
      rw [e1, e2]
      refine ⟨?_, ?_, ?_, ?_⟩
      · rw [e3]
        simp
        ext i
        fin_cases i <;> rfl
      · rw [e4]; simp; norm_num
      · rw [e3]
        ext i j
        fin_cases i <;> fin_cases j <;> rfl
      · rw [e4]
        ext i j
        fin_cases i <;> fin_cases j <;> rfl)
  refine C70_singular_false C70.bestPinv ρ h1 h2 (3/10) (M3.smul (3/10) 1) (Real.pi / 3) (1/10000) ?_ 200
  rw [Real.cos_pi_div_three]
  norm_num
