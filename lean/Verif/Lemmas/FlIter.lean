import Verif.Lemmas.FlAux
import Verif.Lemmas.FlR2rot
import Verif.Lemmas.FlSub4
import Verif.Lemmas.FlJac
import Verif.Props.Rounding
import Verif.Props.Iter

/-! # `iterative_invkin` in floating-point arithmetic: what its test sees -/
set_option autoImplicit false

namespace Fl
variable {F : FSys}

/-! ## NaN spreads -/

/-- Not a number. -/
def nan : Fl F := ⟨.nan⟩

theorem nan_add (a : Fl F) : nan + a = nan := by
  change (⟨F.round (.nan + a.val)⟩ : Fl F) = _
  simp [FSys.round, nan]
theorem add_nan (a : Fl F) : a + nan = nan := by
  change (⟨F.round (a.val + .nan)⟩ : Fl F) = _
  simp [FSys.round, nan]
theorem nan_sub (a : Fl F) : nan - a = nan := by
  change (⟨F.round (.nan - a.val)⟩ : Fl F) = _
  simp [FSys.round, nan]
theorem sub_nan (a : Fl F) : a - nan = nan := by
  change (⟨F.round (a.val - .nan)⟩ : Fl F) = _
  simp [FSys.round, nan]
theorem nan_mul (a : Fl F) : nan * a = nan := by
  change (⟨F.round (.nan * a.val)⟩ : Fl F) = _
  simp [FSys.round, nan]
theorem mul_nan (a : Fl F) : a * nan = nan := by
  change (⟨F.round (a.val * .nan)⟩ : Fl F) = _
  simp [FSys.round, nan]
theorem nan_div (a : Fl F) : nan / a = nan := by
  change (⟨F.round (.nan / a.val)⟩ : Fl F) = _
  simp [FSys.round, nan]
theorem neg_nan : -(nan : Fl F) = nan := rfl
theorem sqrt_nan : Elem.sqrt (nan : Fl F) = nan := rfl
theorem abs_nan : Elem.abs (nan : Fl F) = nan := rfl
theorem not_nan_lt (a : Fl F) : ¬ nan < a := by
  change ¬ (XReal.nan < a.val)
  simp

theorem sin_inf {a : Fl F} (h : ∀ x, a ≠ of x) : Elem.sin a = nan := by
  obtain ⟨_ | _ | _ | x⟩ := a
  · rfl
  · rfl
  · rfl
  · exact absurd rfl (h x)

theorem cos_inf {a : Fl F} (h : ∀ x, a ≠ of x) : Elem.cos a = nan := by
  obtain ⟨_ | _ | _ | x⟩ := a
  · rfl
  · rfl
  · rfl
  · exact absurd rfl (h x)

/-- The matrix of NaNs. -/
def nanM : M3 (Fl F) := ⟨nan, nan, nan, nan, nan, nan, nan, nan, nan⟩

theorem rot_nan (k : V3 (Fl F)) {a : Fl F} (h : ∀ x, a ≠ of x) : rot k a = nanM := by
  have e : ∀ x y z : Fl F, x + Elem.sin a * y + z = nan := fun x y z => by rw [sin_inf h, nan_mul, add_nan, nan_add]
  ext <;> exact e _ _ _

theorem mul_nanM (A : M3 (Fl F)) : A * nanM = nanM := by
  have e : ∀ x y z : Fl F, x * nan + y * nan + z * nan = nan := fun x y z => by rw [mul_nan, nan_add, nan_add]
  ext <;> exact e _ _ _

theorem nanM_mul (A : M3 (Fl F)) : nanM * A = nanM := by
  have e : ∀ x y z : Fl F, nan * x + nan * y + nan * z = nan := fun x y z => by rw [nan_mul, nan_add, nan_add]
  ext <;> exact e _ _ _

theorem fwdStep_nanM (t : Nat) (h P : V3 (Fl F)) (th : Fl F) (p : V3 (Fl F)) : (fwdStep t h P th (nanM, p)).1 = nanM := by
  unfold fwdStep
  split_ifs
  · exact nanM_mul _
  · rfl
  · rfl

theorem fwdLoop_nanM : ∀ (ts : List Nat) (hs Ps : List (V3 (Fl F))) (θ : List (Fl F)) (Rp Rp' : M3 (Fl F) × V3 (Fl F)), Rp.1 = nanM →
    fwdLoop ts hs Ps θ Rp = .ok Rp' → Rp'.1 = nanM
  | [], _, _, _, Rp, Rp', h, e => by cases e; exact h
  | t :: ts, h :: hs, P :: Ps, th :: ths, (R, p), Rp', hn, e => by
    rw [fwdLoop] at e
    cases hn
    exact fwdLoop_nanM ts hs Ps ths _ _ (fwdStep_nanM t h P th p) e
  | _ :: _, [], _, _, _, _, _, e => by cases e
  | _ :: _, _ :: _, [], _, _, _, _, e => by cases e
  | _ :: _, _ :: _, _ :: _, [], _, _, _, e => by cases e

/-- A turning joint whose value is not a finite number makes the orientation NaN. -/
theorem fwdLoop_inf : ∀ (ts : List Nat) (hs Ps : List (V3 (Fl F))) (θ : List (Fl F)) (Rp Rp' : M3 (Fl F) × V3 (Fl F)),
    (∀ t ∈ ts, t = 0 ∨ t = 2) → ts.length = θ.length → fwdLoop ts hs Ps θ Rp = .ok Rp' → Rp'.1 = nanM ∨ ∃ q : List ℝ, θ = q.map of
  | [], _, _, [], _, _, _, _, _ => .inr ⟨[], rfl⟩
  | [], _, _, _ :: _, _, _, _, l, _ => by simp at l
  | t :: ts, h :: hs, P :: Ps, th :: ths, (R, p), Rp', ht, l, e => by
    rw [fwdLoop] at e
    by_cases hx : ∃ x, th = of x
    · obtain ⟨x, rfl⟩ := hx
      rcases fwdLoop_inf ts hs Ps ths _ _ (fun s hs => ht s (by simp [hs])) (by simpa using l) e with h1 | ⟨q, rfl⟩
      · exact .inl h1
      · exact .inr ⟨x :: q, rfl⟩
    · left
      refine fwdLoop_nanM ts hs Ps ths _ _ ?_ e
      rw [fwdStep, if_pos (ht t (by simp))]
      change R * rot h th = nanM
      rw [rot_nan h (fun x hx' => hx ⟨x, hx'⟩), mul_nanM]
  | _ :: _, [], _, _, _, _, _, _, e => by cases e
  | _ :: _, _ :: _, [], _, _, _, _, _, e => by cases e
  | _ :: _, _ :: _, _ :: _, [], _, _, _, _, e => by cases e

theorem applyAux_nanM (robot : Robot (Fl F)) (T : Transform (Fl F)) (h : T.R = nanM) : (applyAux robot T).R = nanM := by
  have o1 : ∀ (B : Option (Transform (Fl F))) (T : Transform (Fl F)), T.R = nanM → (optRight B T).R = nanM := by
    rintro (_ | B) T h
    · exact h
    · change T.R * B.R = nanM
      rw [h, nanM_mul]
  have o2 : ∀ (B : Option (Transform (Fl F))) (T : Transform (Fl F)), T.R = nanM → (optLeft B T).R = nanM := by
    rintro (_ | B) T h
    · exact h
    · change B.R * T.R = nanM
      rw [h, mul_nanM]
  have o3 : ∀ (A : Option (M3 (Fl F))) (x : Option (V3 (Fl F))) (T : Transform (Fl F)), T.R = nanM → (optTool A x T).R = nanM := by
    rintro (_ | A) (_ | x) T h
    all_goals first
      | exact h
      | (change T.R * _ = nanM; rw [h, nanM_mul])
  rw [applyAux_eq]
  exact o2 _ _ (o3 _ _ _ (o1 _ _ h))

theorem R2rot_nanM : (R2rot (nanM : M3 (Fl F))).1.v = ⟨nan, nan, nan⟩ := by
  have h1 : (nanM - nanM.transpose : M3 (Fl F)) = nanM := by
    ext <;> exact nan_sub _
  have h2 : (nanM : M3 (Fl F)).frob = nan := by
    simp only [M3.frob, nanM, nan_mul, nan_add, sqrt_nan]
  rw [R2rot]
  simp only [h1, h2, nan_div, if_neg (not_nan_lt _)]
  simp only [Axis.v, invhat, nanM, V3.sdiv, neg_nan, nan_add, nan_sub, nan_div]

/-! ## the orientation error -/

/-- The angle returned by `R2rot` is at most 4 in modulus. -/
theorem R2rot_angle_le (hF : Spec.InvAcc F) (R : M3 (Fl F)) {v : ℝ} (h : (R2rot R).2 = of v) : |v| ≤ 4 := by
  have hpi : ∀ {v : ℝ}, (Elem.pi : Fl F) = of v → |v| ≤ 4 := by
    intro v h
    obtain ⟨w, hw, hd⟩ := near_pi' (F := F)
    rw [h] at hw
    cases hw
    have := abs_le.1 hd
    have := Real.pi_lt_d2
    have := Real.pi_pos
    have := F.u_le
    exact abs_le.2 ⟨by linarith, by linarith⟩
  rw [R2rot] at h
  simp only at h
  split_ifs at h
  · cases h; simp
  · exact hpi h
  · exact hpi h
  · exact hpi h
  · exact arctan2_fin_le hF (congrArg Fl.val h)

theorem abs_lt_of {a : Fl F} {x e t : ℝ} (h : a.Near x e) (ht : Elem.abs a < of t) : |x| ≤ t + e := by
  obtain ⟨v, hv, hd⟩ := h
  change Elem.abs a.val < XReal.fin t at ht
  rw [hv] at ht
  have ht : |v| < t := by simpa using ht
  have := abs_sub_abs_le_abs_sub x v
  rw [abs_sub_comm] at this
  linarith

/-- From a rough bound of `y`, the sine of half the angle, to a sharp one. -/
theorem half_sharp {y z s ε ρ tol : ℝ} (y0 : 0 < y) (z0 : 0 < z) (hyz : y ^ 2 + z ^ 2 = 1) (hs : s = 2 * y * z) (ερ : ε = ρ * s) (ρ0 : 0 ≤ ρ)
    (ρ1 : ρ ≤ 1 / 2000) (e0 : 0 ≤ ε) (hε : ε ≤ 1 / 10000000000) (htol0 : 0 < tol) (htol : tol ≤ 1 / 10)
    (h : y ^ 2 ≤ 3 * (tol + (270 * (ρ * y) + 260 * ε)) ^ 2) : Real.sqrt (8 * y ^ 2) ≤ 5 * tol + 11 / 5000000 + 2100 * ε := by
  have ρy0 := mul_nonneg ρ0 y0.le
  have hρy : ρ * y ≤ 1 / 2000 * y := mul_le_mul_of_nonneg_right ρ1 y0.le
  set g := tol + (270 * (ρ * y) + 260 * ε) with hg
  have g0 : 0 ≤ g := by linarith
  have hyg : y ≤ 7 / 4 * g := by
    refine (sq_le_sq₀ y0.le (by linarith)).1 ?_
    rw [mul_pow]
    have := sq_nonneg g
    linarith
  have hy4 : y ≤ 1 / 4 := by linarith
  have hy16 := pow_le_pow_left₀ y0.le hy4 2
  have hz4 : 9 / 10 ≤ z := (sq_le_sq₀ (by norm_num) z0.le).1 (by linarith)
  have hsharp : ρ * y ≤ 5 / 9 * ε := by
    rw [ερ, hs]
    have : ρ * y * (9 / 10) ≤ ρ * y * z := mul_le_mul_of_nonneg_left hz4 ρy0
    linarith
  have hg2 : g ≤ tol + 411 * ε := by linarith
  rw [Real.sqrt_le_left (by linarith)]
  have h1 : g ^ 2 ≤ (tol + 411 * ε) ^ 2 := pow_le_pow_left₀ g0 hg2 2
  have h2 : (5 * (tol + 411 * ε)) ^ 2 ≤ (5 * tol + 11 / 5000000 + 2100 * ε) ^ 2 := pow_le_pow_left₀ (by linarith) (by linarith) 2
  rw [mul_pow] at h2
  have := sq_nonneg (tol + 411 * ε)
  linarith

/-- What the test of the orientation error says about the exact error `E`. -/
theorem orient_of_done (hF : Spec.InvAcc F) {E : M3 ℝ} (hE : IsRot E) {E' : M3 (Fl F)} {ε tol : ℝ} (h : Spec.MNear E' E ε) (hu : F.u ≤ ε)
    (hε : ε ≤ 1 / 10000000000) (hη : F.η ≤ F.u * (1 / 1000000000000000000000)) (htol0 : 0 < tol) (htol : tol ≤ 1 / 10)
    (hx : Elem.abs (Elem.sin ((R2rot E').2 / lit 2) * (R2rot E').1.v.x) < of tol)
    (hy : Elem.abs (Elem.sin ((R2rot E').2 / lit 2) * (R2rot E').1.v.y) < of tol)
    (hz : Elem.abs (Elem.sin ((R2rot E').2 / lit 2) * (R2rot E').1.v.z) < of tol) (hband : -1 + 1 / 100000000000 ≤ E.trace) :
    Real.sqrt (2 * (3 - E.trace)) ≤ 5 * tol + 11 / 5000000 + 2100 * ε := by
  have u0 := F.u_nonneg
  have u1 := F.u_le
  have e0 := u0.trans hu
  have hsc := R2rotL.s_sq_add_c_sq hE
  have sn := R2rotL.s_nonneg E
  have hc : E.trace = 1 + 2 * R2rotL.c E := by unfold R2rotL.c; ring
  have small : R2rotL.s E ≤ 11 / 10000000 → Real.sqrt (2 * (3 - E.trace)) ≤ 5 * tol + 11 / 5000000 + 2100 * ε := by
    intro hs
    have c0 : 0 ≤ R2rotL.c E := by
      by_contra hneg
      nlinarith
    rw [Real.sqrt_le_left (by linarith), hc]
    nlinarith
  by_cases hlo : R2rotL.s E ≤ 1 / 4000000
  · exact small (hlo.trans (by norm_num))
  push Not at hlo
  have s0 : 0 < R2rotL.s E := by linarith
  rcases R2rot_near hF hE h hu hlo.le (by linarith) hη with ⟨hs, -⟩ | ⟨-, k', th', e1, hk', hth⟩
  · exact small (by linarith)
  obtain ⟨k1, k2⟩ := R2rotL.regular hE s0.ne'
  obtain ⟨t0, tπ⟩ := R2rotL.arg_mem E s0
  obtain ⟨p1, p2⟩ := polar_arg (R2rotL.c E) (R2rotL.s E)
  rw [hsc, Real.sqrt_one, one_mul] at p1 p2
  have hle := fun v => R2rot_angle_le hF E' (v := v)
  rw [e1] at hx hy hz hle
  simp only [Axis.v] at hx hy hz
  set k := (invhat (E - E.transpose)).sdiv (2 * R2rotL.s E) with hk
  set θ := Complex.arg ⟨R2rotL.c E, R2rotL.s E⟩ with hθ
  set s := R2rotL.s E with hsdef
  -- half the angle
  set y := Real.sin (θ / 2) with hydef
  set z := Real.cos (θ / 2) with hzdef
  have y0 : 0 < y := Real.sin_pos_of_pos_of_lt_pi (by linarith) (by linarith)
  have z0 : 0 < z := Real.cos_pos_of_mem_Ioo ⟨by linarith, by linarith⟩
  have hyz : y ^ 2 + z ^ 2 = 1 := Real.sin_sq_add_cos_sq _
  have hs2 : s = 2 * y * z := by
    rw [← p2, ← Real.sin_two_mul, mul_div_cancel₀ _ (by norm_num : (2 : ℝ) ≠ 0)]
  have hc2 : R2rotL.c E = 1 - 2 * y ^ 2 := by
    rw [← p1, show θ = 2 * (θ / 2) by ring, Real.cos_two_mul]
    linarith
  have y1 : y ≤ 1 := Real.sin_le_one _
  have z1 : z ≤ 1 := Real.cos_le_one _
  -- the computed sine of half the angle
  obtain ⟨n, hn⟩ := hth
  have hsin : ∃ σ : ℝ, (σ = 1 ∨ σ = -1) ∧ (Elem.sin (th' / lit 2) : Fl F).Near (σ * y) (220 * ε) := by
    obtain ⟨v, hv, hd⟩ := hn
    have hv4 := hle v (show th' = of v by cases th'; exact congrArg Fl.mk hv)
    have h2 : (lit 2 : Fl F).Near 2 (3 * ε) := by
      have := near_lit (F := F) (ε := ε) 2 (S := 2) hu (by linarith) (by norm_num) (by norm_num)
      convert this using 1 <;> norm_num
    have hq : (th' / lit 2 : Fl F).Near (v / 2) (7 * ε) := by
      have ha : th'.Near v (0 * ε) := ⟨v, hv, by simp⟩
      refine Near.divE (Q := 2) (c := 19 / 10) 7 ha h2 hu (by linarith) ?_ (by norm_num) (by linarith) (by norm_num) (by norm_num) le_rfl (by norm_num)
      rw [abs_div, abs_two]
      linarith
    have hsn := hq.sin
    have he : |Real.sin (v / 2) - Real.sin ((θ + n * (2 * Real.pi)) / 2)| ≤ 211 * ε := by
      have := Real.abs_sin_sub_sin_le (v / 2) ((θ + n * (2 * Real.pi)) / 2)
      refine this.trans ?_
      rw [← sub_div, abs_div, abs_two]
      linarith
    rw [show (θ + n * (2 * Real.pi)) / 2 = θ / 2 + n * Real.pi by ring, Real.sin_add_int_mul_pi] at he
    refine ⟨(-1) ^ n, ?_, ?_⟩
    · rcases Int.even_or_odd n with hn | hn
      · exact .inl hn.neg_one_zpow
      · exact .inr hn.neg_one_zpow
    · obtain ⟨w, hw, hwd⟩ := hsn
      refine ⟨w, hw, ?_⟩
      have := abs_sub_le w (Real.sin (v / 2)) ((-1) ^ n * y)
      linarith
  obtain ⟨σ, hσ, hsin⟩ := hsin
  -- the components of the test vector
  set ρ := ε / s with hρ
  have ρ0 : 0 ≤ ρ := div_nonneg e0 s0.le
  have ρ1 : ρ ≤ 1 / 2000 := by
    rw [hρ, div_le_iff₀ s0]
    linarith
  have ερ : ε = ρ * s := by rw [hρ, div_mul_cancel₀ _ s0.ne']
  have σ1 : |σ| = 1 := by rcases hσ with rfl | rfl <;> norm_num
  have one : ∀ {a : Fl F} {x : ℝ}, a.Near x (260 * ρ) → |x| ≤ 1 → Elem.abs (Elem.sin (th' / lit 2) * a) < of tol →
      y * |x| ≤ tol + (270 * (ρ * y) + 260 * ε) := by
    intro a x ha hx hlt
    obtain ⟨b, hb, hbd⟩ := hsin
    obtain ⟨c, hcv, hcd⟩ := ha
    have hD : |b * c - σ * y * x| ≤ 260 * (ρ * y) + 250 * ε := by
      rw [show b * c - σ * y * x = (b - σ * y) * c + σ * y * (c - x) by ring]
      have hc1 : |c| ≤ 1 + 260 * ρ := by
        have := abs_sub_abs_le_abs_sub c x
        linarith
      have h1 : |(b - σ * y) * c| ≤ 220 * ε * (1 + 260 * ρ) := by
        rw [abs_mul]
        exact mul_le_mul hbd hc1 (abs_nonneg _) (by linarith)
      have h2 : |σ * y * (c - x)| ≤ y * (260 * ρ) := by
        rw [abs_mul, abs_mul, σ1, one_mul, abs_of_pos y0]
        exact mul_le_mul_of_nonneg_left hcd y0.le
      have h3 := abs_add_le ((b - σ * y) * c) (σ * y * (c - x))
      have h4 : ε * ρ ≤ ε * (1 / 2000) := mul_le_mul_of_nonneg_left ρ1 e0
      linarith
    have hxy : |σ * y * x| ≤ 1 := by
      rw [abs_mul, abs_mul, σ1, one_mul, abs_of_pos y0]
      exact mul_le_one₀ y1 (abs_nonneg _) hx
    have hρy : ρ * y ≤ 1 / 2000 := by
      have := mul_le_mul ρ1 y1 y0.le (by norm_num)
      linarith
    have hρy0 : 0 ≤ ρ * y := mul_nonneg ρ0 y0.le
    have nr := near_round (F := F) hD (e := 270 * (ρ * y) + 260 * ε) (by
      have h1 : F.u * (|σ * y * x| + (260 * (ρ * y) + 250 * ε)) ≤ ε * 2 := mul_le_mul hu (by linarith) (by positivity) e0
      have h2 : F.u * (1 / 1000000000000000000000) ≤ ε * 1 := mul_le_mul hu (by norm_num) (by norm_num) e0
      linarith) (by
      have := F.big_ge
      linarith)
    have hm : (Elem.sin (th' / lit 2) * a : Fl F).Near (σ * y * x) (270 * (ρ * y) + 260 * ε) := by
      change (⟨F.round ((Elem.sin (th' / lit 2) : Fl F).val * a.val)⟩ : Fl F).Near _ _
      rw [hb, hcv]
      exact nr
    have := abs_lt_of hm hlt
    rwa [abs_mul, abs_mul, σ1, one_mul, abs_of_pos y0] at this
  have nk := V3.norm_eq_one k1
  obtain ⟨kx, ky, kz⟩ := VNear.entries hk'
  have bx := one kx ((V3.abs_x_le k).trans nk.le) hx
  have by' := one ky ((V3.abs_y_le k).trans nk.le) hy
  have bz := one kz ((V3.abs_z_le k).trans nk.le) hz
  clear_value k θ s y z ρ
  set g := tol + (270 * (ρ * y) + 260 * ε) with hg
  have g0 : 0 ≤ g := by have := mul_nonneg ρ0 y0.le; linarith
  have sq : ∀ {x : ℝ}, y * |x| ≤ g → y ^ 2 * (x * x) ≤ g ^ 2 := by
    intro x hx
    have := pow_le_pow_left₀ (mul_nonneg y0.le (abs_nonneg x)) hx 2
    rwa [mul_pow, sq_abs, pow_two x] at this
  have hy3 : y ^ 2 ≤ 3 * g ^ 2 := by
    have h1 := sq bx
    have h2 := sq by'
    have h3 := sq bz
    have hk1 : k.x * k.x + k.y * k.y + k.z * k.z = 1 := k1
    have : y ^ 2 * (k.x * k.x) + y ^ 2 * (k.y * k.y) + y ^ 2 * (k.z * k.z) = y ^ 2 := by rw [← mul_add, ← mul_add, hk1, mul_one]
    linarith
  rw [hc, hc2, show 2 * (3 - (1 + 2 * (1 - 2 * y ^ 2))) = 8 * y ^ 2 by ring]
  exact half_sharp y0 z0 hyz hs2 ερ ρ0 ρ1 e0 hε htol0 htol hy3

/-! ## the test at the end of an iteration -/

theorem MNear.transpose {A : M3 (Fl F)} {R : M3 ℝ} {e : ℝ} (h : Spec.MNear A R e) : Spec.MNear A.transpose R.transpose e := by
  obtain ⟨C, rfl, hC⟩ := mNear_iff.1 h
  refine mNear_iff.2 ⟨C.transpose, rfl, ?_⟩
  rw [show C.transpose - R.transpose = (C - R).transpose by ext <;> simp]
  exact hC.transpose

theorem anglesNear_of : ∀ (ts : List Nat) (q : List ℝ), (∀ t ∈ ts, t = 0 ∨ t = 2) → ts.length = q.length → Spec.AnglesNear (F := F) ts (q.map of) q
  | [], _, _, _ => by simp [Spec.AnglesNear]
  | t :: ts, [], _, l => by simp at l
  | t :: ts, x :: q, ht, l => by
    have := ht t (by simp)
    refine ⟨?_, anglesNear_of ts q (fun s hs => ht s (by simp [hs])) (by simpa using l)⟩
    rw [if_neg (by omega)]
    exact (near_of x).mono F.u_nonneg

/-- The errors of position and orientation computed from the computed pose. -/
theorem iterErr_near {cur pose' : Transform (Fl F)} {T pose : Transform ℝ} {n L : ℝ} (n0 : 0 ≤ n) (h0 : 0 < L) (hpose : Spec.TNear pose' pose)
    (hLp : pose.p.norm ≤ L) (hη : F.η ≤ F.u * L) (hbig : 10 * L ≤ F.big) (hn : 3000000000000 * (n + 3) * F.u ≤ 1)
    (gR : Spec.MNear cur.R T.R (256 * (n + 3) * F.u)) (gp : Spec.VNear cur.p T.p (338 * (n + 3) * F.u * L)) (rT : IsRot T.R) (lT : T.p.norm ≤ L) :
    Spec.VNear (cur.R.transpose.mulVec (cur.p - pose'.p)) (T.R.transpose.mulVec (T.p - pose.p)) (900 * (n + 3) * F.u * L) ∧
    Spec.MNear (pose'.R.transpose * cur.R) (pose.R.transpose * T.R) (272 * (n + 3) * F.u) := by
  have u0 := F.u_nonneg
  have nu : 0 ≤ n * F.u := by positivity
  have uL : 0 ≤ F.u * L := by positivity
  have nuL : 0 ≤ n * F.u * L := by positivity
  obtain ⟨rP, RP, pP⟩ := hpose
  have upP : F.u * pose.p.norm ≤ F.u * L := mul_le_mul_of_nonneg_left hLp u0
  constructor
  · have hd : (T.p - pose.p).norm ≤ 2 * L := (V3.norm_sub_le _ _).trans (by linarith)
    have hn1 : n * F.u ≤ 1 / 3000000000000 := by linarith
    have hnL : n * F.u * L ≤ 1 / 3000000000000 * L := mul_le_mul_of_nonneg_right hn1 h0.le
    have huL : F.u * L ≤ 1 / 9000000000000 * L := mul_le_mul_of_nonneg_right (by linarith) h0.le
    have hs := VNear.sub (s := 2 * L) gp pP (by linarith) (by linarith) (by linarith) (by linarith)
    have hm := MNear.mulVec (s := 2 * L) (MNear.transpose gR) hs rT.transpose (by linarith) hd (by linarith) (by linarith) (by linarith) (by linarith)
    have hE : 256 * (n + 3) * F.u * (T.p - pose.p).norm +
        (1 + 256 * (n + 3) * F.u) * (338 * (n + 3) * F.u * L + F.u * pose.p.norm + 5 * (F.u * (2 * L))) + 30 * (F.u * (2 * L)) ≤
        900 * (n + 3) * F.u * L := by
      have h1 : 256 * (n + 3) * F.u * (T.p - pose.p).norm ≤ 256 * (n + 3) * F.u * (2 * L) := mul_le_mul_of_nonneg_left hd (by positivity)
      have h2 : (1 + 256 * (n + 3) * F.u) * (338 * (n + 3) * F.u * L + F.u * pose.p.norm + 5 * (F.u * (2 * L))) ≤
          (1 + 1 / 100) * (338 * (n + 3) * F.u * L + F.u * pose.p.norm + 5 * (F.u * (2 * L))) :=
        mul_le_mul_of_nonneg_right (by linarith) (by have := V3.norm_nonneg pose.p; positivity)
      linarith
    exact VNear.mono hm hE
  · have hE := MNear.mul (MNear.transpose RP) gR rP.transpose rT (by linarith) (by linarith)
    exact MNear.mono hE (e := 272 * (n + 3) * F.u) (by
      have : F.u * (256 * (n + 3) * F.u) ≤ F.u * 1 := mul_le_mul_of_nonneg_left (by linarith) u0
      linarith)

/-- The test at the end of an iteration, with rounding: the iterate is finite and reaches the pose, unless the error is near half a turn. -/
theorem iterBody_done (hF : Spec.InvAcc F) {robot : Robot ℝ} {robot' : Robot (Fl F)} (hrobot : Spec.RobotNear robot' robot)
    (hrot : ∀ t ∈ robot.jointType, t = 0 ∨ t = 2) {pose : Transform ℝ} {pose' : Transform (Fl F)} (hpose : Spec.TNear pose' pose)
    {L : ℝ} (h0 : 0 < L) (hL : ∀ q, Spec.reach robot q ≤ L) (hLp : pose.p.norm ≤ L) (hη : F.η ≤ F.u * L) (hbig : 10 * L ≤ F.big)
    (hn : 3000000000000 * (robot.jointType.length + 3) * F.u ≤ 1) (hη' : F.η ≤ F.u * (1 / 1000000000000000000000))
    {tol : ℝ} (htol : tol ≤ 1 / 10) {pinv : Pinv (Fl F)} {Kp KR : M3 (Fl F)} {q' : List (Fl F)} {st : IterStep (Fl F)}
    (hl : q'.length = robot.jointType.length) (h : iterBody pinv robot' pose' Kp KR q' = .ok st) (hdone : iterDone st (of tol) = true) :
    ∃ q : List ℝ, q' = q.map of ∧ ∀ T, fwdkin robot q true = .ok T → -1 + 1 / 100000000000 ≤ (pose.R.transpose * T.R).trace →
      (T.p - pose.p).norm ≤ Real.sqrt 3 * tol + 900 * (robot.jointType.length + 3) * F.u * L ∧
      (T.R - pose.R).frob ≤ 5 * tol + 11 / 5000000 + 600000 * (robot.jointType.length + 3) * F.u := by
  have ht := hrobot.types
  set n : ℝ := (robot.jointType.length : ℝ) with hnn
  have n0 : 0 ≤ n := Nat.cast_nonneg _
  have u0 := F.u_nonneg
  have nu : 0 ≤ n * F.u := by positivity
  have uL : 0 ≤ F.u * L := by positivity
  have nuL : 0 ≤ n * F.u * L := by positivity
  unfold iterBody at h
  obtain ⟨cur, hcur, h⟩ := Except.bind_eq_ok h
  obtain ⟨J, -, h⟩ := Except.bind_eq_ok h
  obtain ⟨Ji, -, h⟩ := Except.bind_eq_ok h
  cases h
  simp only [iterDone, V3.toList, List.cons_append, List.nil_append, List.all_cons, List.all_nil, Bool.and_true, Bool.and_eq_true, decide_eq_true_eq] at hdone
  obtain ⟨sx, sy, sz, px, py, pz⟩ := hdone
  -- the iterate is finite
  have hfin : ∃ q : List ℝ, q' = q.map of := by
    have hc := hcur
    simp only [fwdkin, checkLimits, if_true, Except.bind_ok] at hc
    split at hc
    · cases hc
    · obtain ⟨⟨R, p⟩, hloop, hc⟩ := Except.bind_eq_ok hc
      cases hc
      rcases fwdLoop_inf _ _ _ _ _ _ (by rw [ht]; exact hrot) (by rw [ht, hl]) hloop with hR | hq
      · exfalso
        change R = nanM at hR
        have e : (applyAux robot' ⟨R, p, none, none⟩).R = nanM := applyAux_nanM _ _ hR
        rw [e, mul_nanM] at sx
        simp only [V3.smul, R2rot_nanM, mul_nan, abs_nan] at sx
        exact not_nan_lt _ sx
      · exact hq
  obtain ⟨q, rfl⟩ := hfin
  refine ⟨q, rfl, fun T hT hband => ?_⟩
  have lq : robot.jointType.length = q.length := by simpa using hl.symm
  obtain ⟨T', g1, gR, gp, rT, lT⟩ := fwdkin_near robot robot' q (q.map of) hrobot (anglesNear_of _ _ hrot lq) T hT L h0 (hL q) hη (by linarith)
    (by rw [← hnn]; linarith)
  rw [hcur] at g1
  cases g1
  rw [← hnn] at gR gp
  obtain ⟨rP, RP, pP⟩ := hpose
  have htol0 : 0 < tol := by
    change Elem.abs (Fl.val _) < XReal.fin tol at px
    revert px
    generalize (Fl.val _) = w
    rcases w with _ | _ | _ | w
    · intro h; exact False.elim h
    · intro h; exact False.elim h
    · intro h; exact False.elim h
    · intro h
      have : |w| < tol := by simpa using h
      exact (abs_nonneg _).trans_lt this
  have upP : F.u * pose.p.norm ≤ F.u * L := mul_le_mul_of_nonneg_left hLp u0
  obtain ⟨hm, hE'⟩ := iterErr_near n0 h0 ⟨rP, RP, pP⟩ hLp hη hbig hn gR gp rT lT
  constructor
  · -- position
    have hr : (T.R.transpose.mulVec (T.p - pose.p)).norm = (T.p - pose.p).norm := rT.transpose.norm_mulVec _
    rw [← hr]
    set e := 900 * (n + 3) * F.u * L with he
    have e0 : 0 ≤ e := by positivity
    obtain ⟨w, hw, hdw⟩ := hm
    have bound : ∀ {x : ℝ}, Elem.abs (of x : Fl F) < of tol → x * x ≤ tol * tol := by
      intro x hx
      have hx : |x| < tol := by
        change Elem.abs (XReal.fin x) < XReal.fin tol at hx
        simpa using hx
      rw [← abs_mul_abs_self]; exact mul_self_le_mul_self (abs_nonneg _) hx.le
    rw [hw] at px py pz
    have nw : w.norm ≤ Real.sqrt 3 * tol := by
      apply norm_le_of_sq (by positivity)
      have h3 : Real.sqrt 3 * Real.sqrt 3 = 3 := Real.mul_self_sqrt (by norm_num)
      have := bound px
      have := bound py
      have := bound pz
      calc _ ≤ 3 * (tol * tol) := by linarith
        _ = Real.sqrt 3 * tol * (Real.sqrt 3 * tol) := by linear_combination (-(tol * tol)) * h3
    have := V3.norm_sub_le w (w - T.R.transpose.mulVec (T.p - pose.p))
    rw [show w - (w - T.R.transpose.mulVec (T.p - pose.p)) = T.R.transpose.mulVec (T.p - pose.p) by ext <;> simp] at this
    linarith
  · -- orientation
    have hER : IsRot (pose.R.transpose * T.R) := rP.transpose.mul rT
    have := orient_of_done hF hER hE' (by linarith) (by linarith) hη' htol0 htol sx sy sz hband
    have hfs := frob_sub_sq T.R pose.R rT rP
    rw [← hfs, Real.sqrt_mul_self (frob_nonneg _)] at this
    linarith

end Fl
