import Verif.Lemmas.Lip
import Verif.Lemmas.FlJac
import Verif.Props.Jacobian
import Mathlib.Analysis.Calculus.Deriv.MeanValue

/-! # The second-order remainder of forward kinematics -/
set_option autoImplicit false

/-- `|exp(i d) - 1 - i d| ≤ d² / 2`, squared. -/
theorem exp_remainder (d : ℝ) : (d - Real.sin d) ^ 2 + (1 - Real.cos d) ^ 2 ≤ (d ^ 2 / 2) ^ 2 := by
  have key : ∀ x : ℝ, 0 ≤ x → 0 ≤ x ^ 4 / 4 - x ^ 2 + 2 * x * Real.sin x - 2 + 2 * Real.cos x := by
    intro x hx
    have hd : ∀ y : ℝ, HasDerivAt (fun x : ℝ => x ^ 4 / 4 - x ^ 2 + 2 * x * Real.sin x - 2 + 2 * Real.cos x)
        (y * (y ^ 2 - 2 * (1 - Real.cos y))) y := by
      intro y
      have h1 := ((hasDerivAt_pow 4 y).div_const 4).sub (hasDerivAt_pow 2 y)
      have h2 := ((hasDerivAt_id y).const_mul 2).mul (Real.hasDerivAt_sin y)
      have h3 := (Real.hasDerivAt_cos y).const_mul 2
      refine (((h1.add h2).sub_const 2).add h3).congr_deriv ?_
      simp
      ring
    have hm : MonotoneOn (fun x : ℝ => x ^ 4 / 4 - x ^ 2 + 2 * x * Real.sin x - 2 + 2 * Real.cos x) (Set.Ici 0) := by
      refine monotoneOn_of_deriv_nonneg (convex_Ici 0) (fun y _ => (hd y).continuousAt.continuousWithinAt)
        (fun y _ => (hd y).differentiableAt.differentiableWithinAt) fun y hy => ?_
      rw [interior_Ici, Set.mem_Ioi] at hy
      rw [(hd y).deriv]
      exact mul_nonneg hy.le (by linarith [Real.one_sub_sq_div_two_le_cos (x := y)])
    have := hm (Set.self_mem_Ici) hx hx
    simpa using this
  have h := key |d| (abs_nonneg d)
  have e1 : |d| ^ 4 = d ^ 4 := by rw [show (4 : ℕ) = 2 * 2 from rfl, pow_mul, sq_abs, pow_mul]
  have e2 : |d| * Real.sin |d| = d * Real.sin d := by
    rcases abs_cases d with ⟨h, -⟩ | ⟨h, -⟩ <;> rw [h]
    rw [Real.sin_neg]; ring
  rw [mul_assoc, e2, e1, sq_abs, Real.cos_abs] at h
  nlinarith [Real.sin_sq_add_cos_sq d]

/-- Turning from `x` to `y` about `k`, up to first order. -/
theorem rot_taylor {k : V3 ℝ} (hk : IsUnit3 k) (x y : ℝ) :
    OpLe (rot k y - rot k x - M3.smul (y - x) (hat k) * rot k x) ((y - x) ^ 2 / 2) := fun v => by
  have e : (rot k y - rot k x - M3.smul (y - x) (hat k) * rot k x).mulVec v =
      (rot k (y - x)).mulVec ((rot k x).mulVec v) - (rot k x).mulVec v - (y - x) • k.cross ((rot k x).mulVec v) := by
    rw [M3.mulVec_mulVec, rot_mul k hk, sub_add_cancel]
    ext <;> simp <;> ring
  rw [e, ← (rot_isRot k hk x).norm_mulVec v]
  generalize (rot k x).mulVec v = w
  generalize y - x = d
  have hsq : ((rot k d).mulVec w - w - d • k.cross w).norm ^ 2 =
      ((d - Real.sin d) ^ 2 + (1 - Real.cos d) ^ 2) * (w.norm ^ 2 - (k.dot w) ^ 2) := by
    rw [V3.norm_sq, V3.norm_sq, rot_mulVec k hk]
    simp only [IsUnit3, V3.dot] at hk
    have hz : k.z * k.z = 1 - k.x * k.x - k.y * k.y := by linarith
    simp [V3.dot]
    linear_combination ((d - Real.sin d) ^ 2 * (w.x * w.x + w.y * w.y + w.z * w.z) + (1 - Real.cos d) ^ 2 * (k.x * w.x + k.y * w.y + k.z * w.z) ^ 2) * hk
  have hc : 0 ≤ w.norm ^ 2 - (k.dot w) ^ 2 := by
    have : ((hat k).mulVec w).dot ((hat k).mulVec w) = k.dot k * w.dot w - k.dot w ^ 2 := by
      simp [V3.dot]; ring
    rw [V3.norm_sq]
    rw [show k.dot k = 1 from hk, one_mul] at this
    rw [← this]
    simp only [V3.dot]
    nlinarith [sq_nonneg ((hat k).mulVec w).x, sq_nonneg ((hat k).mulVec w).y, sq_nonneg ((hat k).mulVec w).z]
  have hle : ((rot k d).mulVec w - w - d • k.cross w).norm ^ 2 ≤ (d ^ 2 / 2 * w.norm) ^ 2 := by
    rw [hsq, mul_pow]
    exact mul_le_mul (exp_remainder d) (by linarith [sq_nonneg (k.dot w)]) hc (sq_nonneg _)
  exact (sq_le_sq₀ (V3.norm_nonneg _) (mul_nonneg (by positivity) w.norm_nonneg)).1 hle

/-- One turning joint. -/
theorem turn_taylor {R S : M3 ℝ} {w h : V3 ℝ} {e x y : ℝ} (hR : IsRot R) (hS : IsRot S) (hh : IsUnit3 h) (he : OpLe (S - R) e)
    (h2 : OpLe (S - R - hat w * R) (e ^ 2 / 2)) :
    OpLe (S * rot h y - R * rot h x - hat (w + (y - x) • (R * rot h x).mulVec h) * (R * rot h x)) ((e + |y - x|) ^ 2 / 2) := by
  have hax : (R * rot h x).mulVec h = R.mulVec h := by rw [← M3.mulVec_mulVec, rot_axis]
  have e1 : hat (R.mulVec h) * R = R * hat h := (hR.mul_hat h).symm
  have e2 : S * rot h y - R * rot h x - hat (w + (y - x) • R.mulVec h) * (R * rot h x) =
      (S - R - hat w * R) * rot h x + S * (rot h y - rot h x - M3.smul (y - x) (hat h) * rot h x) +
        (S - R) * (M3.smul (y - x) (hat h) * rot h x) := by
    have e3 : hat (w + (y - x) • R.mulVec h) * (R * rot h x) = hat w * R * rot h x + M3.smul (y - x) (hat (R.mulVec h) * R) * rot h x := by
      generalize R.mulVec h = g
      ext <;> simp <;> ring
    rw [e3, e1]
    generalize rot h x = A
    generalize rot h y = B
    generalize hat h = H
    generalize hat w * R = Q
    ext <;> simp <;> ring
  rw [hax, e2]
  have hd : OpLe (M3.smul (y - x) (hat h)) |y - x| := fun v => by
    have := hat_opLe h v
    rw [V3.norm_eq_one hh, one_mul] at this
    rw [show (M3.smul (y - x) (hat h)).mulVec v = (y - x) • (hat h).mulVec v by ext <;> simp <;> ring, V3.norm_hsmul]
    exact mul_le_mul_of_nonneg_left this (abs_nonneg _)
  have o1 := h2.mul (rot_isRot h hh x).opLe (by positivity)
  have o2 := hS.opLe.mul (rot_taylor hh x y) zero_le_one
  have o3 := he.mul (hd.mul (rot_isRot h hh x).opLe (abs_nonneg _)) he.nonneg
  refine ((o1.add o2).add o3).mono ?_
  have := sq_abs (y - x)
  nlinarith

/-- A link: `q + S P` against `p + R P`. -/
theorem link_taylor {R S : M3 ℝ} {p q P w u : V3 ℝ} {c f : ℝ} (h2 : OpLe (S - R - hat w * R) c) (hf : (q - p - (u + w.cross p)).norm ≤ f) :
    (q + S.mulVec P - (p + R.mulVec P) - (u + w.cross (p + R.mulVec P))).norm ≤ f + c * P.norm := by
  have e : q + S.mulVec P - (p + R.mulVec P) - (u + w.cross (p + R.mulVec P)) = (q - p - (u + w.cross p)) + (S - R - hat w * R).mulVec P := by
    have : (S - R - hat w * R).mulVec P = S.mulVec P - R.mulVec P - w.cross (R.mulVec P) := by
      rw [← hat_mulVec, M3.mulVec_mulVec]
      generalize hat w * R = Q
      ext <;> simp <;> ring
    rw [this]
    generalize S.mulVec P = a
    generalize R.mulVec P = b
    ext <;> simp <;> ring
  rw [e]
  have := V3.norm_add_le (q - p - (u + w.cross p)) ((S - R - hat w * R).mulVec P)
  have := h2 P
  linarith

/-- One sliding joint. -/
theorem slide_taylor {R S : M3 ℝ} {p q h w u : V3 ℝ} {e c f x y : ℝ} (hh : IsUnit3 h) (he : OpLe (S - R) e)
    (h2 : OpLe (S - R - hat w * R) c) (hf : (q - p - (u + w.cross p)).norm ≤ f) :
    (q + y • S.mulVec h - (p + x • R.mulVec h) - (u + (y - x) • R.mulVec h + w.cross (p + x • R.mulVec h))).norm ≤
      f + c * |x| + e * |y - x| := by
  have e0 : q + y • S.mulVec h - (p + x • R.mulVec h) - (u + (y - x) • R.mulVec h + w.cross (p + x • R.mulVec h)) =
      (q - p - (u + w.cross p)) + (x • (S - R - hat w * R).mulVec h + (y - x) • (S - R).mulVec h) := by
    have : (S - R - hat w * R).mulVec h = S.mulVec h - R.mulVec h - w.cross (R.mulVec h) := by
      rw [← hat_mulVec, M3.mulVec_mulVec]
      generalize hat w * R = Q
      ext <;> simp <;> ring
    rw [this, show (S - R).mulVec h = S.mulVec h - R.mulVec h by ext <;> simp <;> ring]
    generalize S.mulVec h = a
    generalize R.mulVec h = b
    ext <;> simp <;> ring
  rw [e0]
  have i1 := V3.norm_add_le (q - p - (u + w.cross p)) (x • (S - R - hat w * R).mulVec h + (y - x) • (S - R).mulVec h)
  have i2 := V3.norm_add_le (x • (S - R - hat w * R).mulVec h) ((y - x) • (S - R).mulVec h)
  rw [V3.norm_hsmul, V3.norm_hsmul] at i2
  have nh := V3.norm_eq_one hh
  have i3 := h2 h
  have i4 := he h
  rw [nh, mul_one] at i3 i4
  have i5 := mul_le_mul_of_nonneg_left i3 (abs_nonneg x)
  have i6 := mul_le_mul_of_nonneg_left i4 (abs_nonneg (y - x))
  linarith

/-- The first loop of `robotjacobian` computes the frame of `fwdkin`. -/
theorem jacLoop_fwd : ∀ (ts : List Nat) (hs Ps : List (V3 ℝ)) (θ : List ℝ) (Rp : M3 ℝ × V3 ℝ) (fs : List (JointFrame ℝ)) (Rn : M3 ℝ) (pn : V3 ℝ),
    jacLoop ts hs Ps θ Rp = .ok (fs, Rn, pn) → fwdLoop ts hs Ps θ Rp = .ok (Rn, pn) := by
  intro ts
  induction ts with
  | nil => intro hs Ps θ Rp fs Rn pn h; cases h; rfl
  | cons t ts ih =>
    intro hs Ps θ Rp fs Rn pn h
    obtain _ | ⟨k, hs⟩ := hs
    · cases h
    obtain _ | ⟨P, Ps⟩ := Ps
    · cases h
    obtain _ | ⟨x, θ⟩ := θ
    · cases h
    simp only [jacLoop] at h
    obtain ⟨⟨fs', Rn', pn'⟩, hj, h'⟩ := Except.bind_eq_ok h
    cases h'
    exact ih hs Ps θ _ fs' _ _ hj

/-- Both loops, up to first order. -/
theorem loops_taylor : ∀ (ts : List Nat) (hs Ps : List (V3 ℝ)) (θ φ : List ℝ) (R S : M3 ℝ) (p q w u : V3 ℝ) (e f : ℝ)
    (fs : List (JointFrame ℝ)) (Rn Sn : M3 ℝ) (pn qn : V3 ℝ), (∀ h ∈ hs, IsUnit3 h) → (∀ t ∈ ts, t < 4) →
    jacLoop ts hs Ps θ (R, p) = .ok (fs, Rn, pn) → fwdLoop ts hs Ps φ (S, q) = .ok (Sn, qn) → IsRot R → IsRot S →
    OpLe (S - R) e → OpLe (S - R - hat w * R) (e ^ 2 / 2) → (q - p - (u + w.cross p)).norm ≤ f →
    fs.map (·.ty) = ts ∧ IsRot Rn ∧ IsRot Sn ∧
      OpLe (Sn - Rn - hat (w + sumW fs (List.zipWith (fun y x => y - x) φ θ)) * Rn) ((e + Spec.turnDiff ts θ φ) ^ 2 / 2) ∧
      (qn - pn - (u + sumU fs (List.zipWith (fun y x => y - x) φ θ) + (w + sumW fs (List.zipWith (fun y x => y - x) φ θ)).cross pn)).norm ≤
        f + (e + Spec.turnDiff ts θ φ) ^ 2 / 2 * Spec.travel ts Ps θ + (e + Spec.turnDiff ts θ φ) * Spec.slideDiff ts θ φ := by
  intro ts
  induction ts with
  | nil =>
    intro hs Ps θ φ R S p q w u e f fs Rn Sn pn qn _ _ h1 h2 hR hS he ho hf
    cases h1; cases h2
    refine ⟨rfl, hR, hS, ?_, ?_⟩
    · simpa [Spec.turnDiff, sumW] using ho
    · simpa [Spec.turnDiff, Spec.travel, Spec.slideDiff, sumW, sumU] using hf
  | cons t ts ih =>
    intro hs Ps θ φ R S p q w u e f fs Rn Sn pn qn hH ht h1 h2 hR hS he ho hf
    obtain _ | ⟨h, hs⟩ := hs
    · cases h1
    obtain _ | ⟨P, Ps⟩ := Ps
    · cases h1
    obtain _ | ⟨x, θ⟩ := θ
    · cases h1
    obtain _ | ⟨y, φ⟩ := φ
    · cases h2
    have hh := hH h (by simp)
    have htt := ht t (by simp)
    have nP := P.norm_nonneg
    have nt := Fl.travel_nonneg ts Ps θ
    have na := turnDiff_nonneg ts θ φ
    have nb := slideDiff_nonneg ts θ φ
    have e0 := he.nonneg
    simp only [fwdLoop] at h2
    simp only [jacLoop] at h1
    obtain ⟨⟨fs', Rn', pn'⟩, hj, h1'⟩ := Except.bind_eq_ok h1
    clear h1
    cases h1'
    simp only [Spec.turnDiff, Spec.slideDiff, Spec.travel, List.zipWith_cons_cons, sumW, sumU, List.map_cons]
    by_cases h02 : t = 0 ∨ t = 2
    · have h13 : ¬ (t = 1 ∨ t = 3) := by omega
      have hr : IsRotary t := h02
      simp only [if_neg h13, if_pos h02, zero_add]
      rw [fwdStep_rotary hr] at hj h2 ⊢
      have o1 := mul_lip he (rot_angle_lip hh y x) hS (rot_isRot h hh x)
      have o2 := turn_taylor (x := x) (y := y) hR hS hh he ho
      have o3 : (q + (S * rot h y).mulVec P - (p + (R * rot h x).mulVec P) - (u + (y - x) • p.cross ((R * rot h x).mulVec h) +
          (w + (y - x) • (R * rot h x).mulVec h).cross (p + (R * rot h x).mulVec P))).norm ≤ f + (e + |y - x|) ^ 2 / 2 * P.norm := by
        refine link_taylor o2 ?_
        rw [show u + (y - x) • p.cross ((R * rot h x).mulVec h) + (w + (y - x) • (R * rot h x).mulVec h).cross p = u + w.cross p by
          generalize (R * rot h x).mulVec h = g
          ext <;> simp <;> ring]
        exact hf
      obtain ⟨r0, r1, r2, r3, r4⟩ := ih hs Ps θ φ _ _ _ _ _ _ _ _ fs' _ Sn _ qn (fun g hg => hH g (by simp [hg])) (fun g hg => ht g (by simp [hg]))
        hj h2 (hR.mul (rot_isRot h hh x)) (hS.mul (rot_isRot h hh y)) o1 o2 o3
      rw [add_assoc w, add_assoc e] at r3
      rw [add_assoc w, add_assoc u, add_assoc e] at r4
      refine ⟨by rw [r0], r1, r2, r3, r4.trans ?_⟩
      have a0 := abs_nonneg (y - x)
      generalize |y - x| = a at *
      generalize Spec.turnDiff ts θ φ = A at *
      have : (e + a) ^ 2 / 2 * P.norm ≤ (e + (a + A)) ^ 2 / 2 * P.norm := by
        refine mul_le_mul_of_nonneg_right ?_ nP
        nlinarith
      linarith
    · have h13 : t = 1 ∨ t = 3 := by omega
      have hr : ¬ IsRotary t := h02
      have hpr : IsPrismatic t := h13
      simp only [if_neg h02, if_pos h13, zero_add]
      rw [fwdStep_prismatic hpr] at hj h2 ⊢
      have o3 := link_taylor (P := P) ho (slide_taylor (x := x) (y := y) hh he ho hf)
      obtain ⟨r0, r1, r2, r3, r4⟩ := ih hs Ps θ φ _ _ _ _ _ _ _ _ fs' _ Sn _ qn (fun g hg => hH g (by simp [hg])) (fun g hg => ht g (by simp [hg]))
        hj h2 hR hS he ho o3
      rw [add_assoc u] at r4
      refine ⟨by rw [r0], r1, r2, r3, r4.trans ?_⟩
      have a0 := abs_nonneg (y - x)
      have x0 := abs_nonneg x
      generalize |y - x| = a at *
      generalize Spec.turnDiff ts θ φ = A at *
      have c1 : e ^ 2 / 2 ≤ (e + A) ^ 2 / 2 := by nlinarith
      have c2 : e * a ≤ (e + A) * a := mul_le_mul_of_nonneg_right (by linarith) a0
      have c3 := mul_le_mul_of_nonneg_right c1 (add_nonneg x0 nP)
      linarith

/-! ## The columns of the Jacobian -/

theorem jacCols_cons_rotary {f : JointFrame ℝ} (h : f.ty = 0) (pOT : V3 ℝ) (fs : List (JointFrame ℝ)) :
    jacCols pOT (f :: fs) = jacCols pOT fs >>= fun cs => .ok (⟨f.h, f.h.cross (pOT - f.pO)⟩ :: cs) := by
  rw [jacCols.eq_def]
  simp only [h, if_true, hat_mulVec]
  cases jacCols pOT fs <;> rfl

theorem jacCols_cons_prismatic {f : JointFrame ℝ} (h : f.ty = 1) (pOT : V3 ℝ) (fs : List (JointFrame ℝ)) :
    jacCols pOT (f :: fs) = jacCols pOT fs >>= fun cs => .ok (⟨0, f.h⟩ :: cs) := by
  rw [jacCols.eq_def]
  simp only [h, one_ne_zero, if_true, if_false]
  cases jacCols pOT fs <;> rfl

theorem add_sub_left3 (a b : V3 ℝ) : a + b - a = b := by ext <;> simp

/-- `S σ` against `R τ`. -/
theorem frame_lip {R S : M3 ℝ} {τ σ : V3 ℝ} {e L d : ℝ} (hS : IsRot S) (he : OpLe (S - R) e) (hτ : τ.norm ≤ L) (hd : (σ - τ).norm ≤ d) :
    (S.mulVec σ - R.mulVec τ).norm ≤ e * L + d := by
  rw [show S.mulVec σ - R.mulVec τ = (S - R).mulVec τ + S.mulVec (σ - τ) by ext <;> simp <;> ring]
  have h1 := V3.norm_add_le ((S - R).mulVec τ) (S.mulVec (σ - τ))
  have h2 := he τ
  rw [hS.norm_mulVec] at h1
  have h3 := mul_le_mul_of_nonneg_left hτ he.nonneg
  linarith

/-- The part of the arm behind a joint, seen from the joint, and the columns of the joints from there on, at two joint vectors.  `c` is the
tool in the last frame. -/
theorem cols_lip : ∀ (ts : List Nat) (hs Ps : List (V3 ℝ)) (θ φ : List ℝ) (R S : M3 ℝ) (p q c : V3 ℝ) (e : ℝ)
    (fs gs : List (JointFrame ℝ)) (Rn Sn : M3 ℝ) (pn qn : V3 ℝ), (∀ h ∈ hs, IsUnit3 h) → (∀ t ∈ ts, t = 0 ∨ t = 1) →
    jacLoop ts hs Ps θ (R, p) = .ok (fs, Rn, pn) → jacLoop ts hs Ps φ (S, q) = .ok (gs, Sn, qn) → IsRot R → IsRot S → OpLe (S - R) e →
    (∃ τ σ : V3 ℝ, pn + Rn.mulVec c = p + R.mulVec τ ∧ qn + Sn.mulVec c = q + S.mulVec σ ∧
      τ.norm ≤ Spec.travel ts Ps θ + c.norm ∧
      (σ - τ).norm ≤ Spec.turnDiff ts θ φ * (Spec.travel ts Ps θ + c.norm) + Spec.slideDiff ts θ φ) ∧
    ∀ as bs, jacCols (pn + Rn.mulVec c) fs = .ok as → jacCols (qn + Sn.mulVec c) gs = .ok bs →
      List.Forall₂ (fun a b => (b.top - a.top).norm ≤ e + Spec.turnDiff ts θ φ ∧
        (b.bot - a.bot).norm ≤ (e + Spec.turnDiff ts θ φ) * max 1 (Spec.travel ts Ps θ + c.norm) + Spec.slideDiff ts θ φ) as bs := by
  intro ts
  induction ts with
  | nil =>
    intro hs Ps θ φ R S p q c e fs gs Rn Sn pn qn _ _ h1 h2 hR hS he
    cases h1; cases h2
    refine ⟨⟨c, c, rfl, rfl, by simp [Spec.travel], ?_⟩, ?_⟩
    · rw [show c - c = 0 by ext <;> simp, V3.norm_zero]; simp [Spec.turnDiff, Spec.slideDiff]
    · intro as bs ha hb
      cases ha; cases hb
      exact .nil
  | cons t ts ih =>
    intro hs Ps θ φ R S p q c e fs gs Rn Sn pn qn hH ht h1 h2 hR hS he
    obtain _ | ⟨h, hs⟩ := hs
    · cases h1
    obtain _ | ⟨P, Ps⟩ := Ps
    · cases h1
    obtain _ | ⟨x, θ⟩ := θ
    · cases h1
    obtain _ | ⟨y, φ⟩ := φ
    · cases h2
    have hh := hH h (by simp)
    have nh := V3.norm_eq_one hh
    have htt := ht t (by simp)
    have nP := P.norm_nonneg
    have nt := Fl.travel_nonneg ts Ps θ
    have na := turnDiff_nonneg ts θ φ
    have nb := slideDiff_nonneg ts θ φ
    have nc := c.norm_nonneg
    have e0 := he.nonneg
    simp only [jacLoop] at h1 h2
    obtain ⟨⟨fs', Rn', pn'⟩, hj, h1'⟩ := Except.bind_eq_ok h1
    clear h1
    cases h1'
    obtain ⟨⟨gs', Sn', qn'⟩, hk, h2'⟩ := Except.bind_eq_ok h2
    clear h2
    cases h2'
    have hH' : ∀ g ∈ hs, IsUnit3 g := fun g hg => hH g (by simp [hg])
    have ht' : ∀ t ∈ ts, t = 0 ∨ t = 1 := fun g hg => ht g (by simp [hg])
    simp only [Spec.turnDiff, Spec.slideDiff, Spec.travel]
    rcases htt with rfl | rfl
    · have hr : IsRotary 0 := Or.inl rfl
      rw [fwdStep_rotary hr] at hj hk ⊢
      rw [fwdStep_rotary hr]
      have o1 := mul_lip he (rot_angle_lip hh y x) hS (rot_isRot h hh x)
      obtain ⟨⟨τ, σ, t1, t2, t3, t4⟩, hcols⟩ := ih hs Ps θ φ _ _ _ _ c _ fs' gs' _ _ _ _ hH' ht' hj hk (hR.mul (rot_isRot h hh x))
        (hS.mul (rot_isRot h hh y)) o1
      simp only [zero_ne_one, show ¬ (0 : ℕ) = 3 by decide, or_self, if_false, zero_add, true_or, if_true]
      have nPτ : (P + τ).norm ≤ P.norm + Spec.travel ts Ps θ + c.norm := (V3.norm_add_le _ _).trans (by linarith)
      have nd : ((P + σ) - (P + τ)).norm ≤ Spec.turnDiff ts θ φ * (Spec.travel ts Ps θ + c.norm) + Spec.slideDiff ts θ φ := by
        rw [show (P + σ) - (P + τ) = σ - τ by ext <;> simp]; exact t4
      have tail : ((rot h y).mulVec (P + σ) - (rot h x).mulVec (P + τ)).norm ≤
          (|y - x| + Spec.turnDiff ts θ φ) * (P.norm + Spec.travel ts Ps θ + c.norm) + Spec.slideDiff ts θ φ := by
        refine (frame_lip (rot_isRot h hh y) (rot_angle_lip hh y x) nPτ nd).trans ?_
        have := mul_nonneg na nP
        linarith
      have E1 : pn' + Rn'.mulVec c = p + R.mulVec ((rot h x).mulVec (P + τ)) := by
        rw [t1, ← M3.mulVec_mulVec, ← M3.mulVec_mulVec, M3.mulVec_add, M3.mulVec_add]
        ext <;> simp only [V3.add_x, V3.add_y, V3.add_z] <;> ring
      have E2 : qn' + Sn'.mulVec c = q + S.mulVec ((rot h y).mulVec (P + σ)) := by
        rw [t2, ← M3.mulVec_mulVec, ← M3.mulVec_mulVec, M3.mulVec_add, M3.mulVec_add]
        ext <;> simp only [V3.add_x, V3.add_y, V3.add_z] <;> ring
      have nτ : ((rot h x).mulVec (P + τ)).norm ≤ P.norm + Spec.travel ts Ps θ + c.norm := by
        rw [(rot_isRot h hh x).norm_mulVec]; exact nPτ
      refine ⟨⟨_, _, E1, E2, nτ, tail⟩, ?_⟩
      intro as bs ha hb
      rw [jacCols_cons_rotary rfl] at ha hb
      obtain ⟨as', ha1, ha'⟩ := Except.bind_eq_ok ha
      cases ha'
      obtain ⟨bs', hb1, hb'⟩ := Except.bind_eq_ok hb
      cases hb'
      have a0 := abs_nonneg (y - x)
      refine .cons ⟨?_, ?_⟩ ?_
      · simp only
        rw [← M3.mulVec_mulVec, ← M3.mulVec_mulVec, rot_axis, rot_axis,
          show S.mulVec h - R.mulVec h = (S - R).mulVec h by ext <;> simp <;> ring]
        have := he h
        rw [nh] at this
        linarith
      · simp only
        rw [← M3.mulVec_mulVec, ← M3.mulVec_mulVec, rot_axis, rot_axis, E1, E2, add_sub_left3, add_sub_left3,
          ← hR.mulVec_cross, ← hS.mulVec_cross]
        have c1 : (h.cross ((rot h x).mulVec (P + τ))).norm ≤ P.norm + Spec.travel ts Ps θ + c.norm := by
          rw [← hat_mulVec]
          have := hat_opLe h ((rot h x).mulVec (P + τ))
          rw [nh] at this
          linarith
        have c2 : (h.cross ((rot h y).mulVec (P + σ)) - h.cross ((rot h x).mulVec (P + τ))).norm ≤
            (|y - x| + Spec.turnDiff ts θ φ) * (P.norm + Spec.travel ts Ps θ + c.norm) + Spec.slideDiff ts θ φ := by
          rw [← hat_mulVec, ← hat_mulVec, ← M3.mulVec_sub]
          have := hat_opLe h ((rot h y).mulVec (P + σ) - (rot h x).mulVec (P + τ))
          rw [nh] at this
          linarith
        refine (frame_lip hS he c1 c2).trans ?_
        have := mul_le_mul_of_nonneg_left (le_max_right 1 (P.norm + Spec.travel ts Ps θ + c.norm))
          (show 0 ≤ e + (|y - x| + Spec.turnDiff ts θ φ) by positivity)
        linarith
      · refine (hcols as' bs' ha1 hb1).imp fun a b hab => ⟨by linarith [hab.1], hab.2.trans ?_⟩
        rw [add_assoc e]
        have := mul_le_mul_of_nonneg_left (max_le_max_left 1 (show Spec.travel ts Ps θ + c.norm ≤ P.norm + Spec.travel ts Ps θ + c.norm by linarith))
          (show 0 ≤ e + (|y - x| + Spec.turnDiff ts θ φ) by positivity)
        linarith
    · have hpr : IsPrismatic 1 := Or.inl rfl
      rw [fwdStep_prismatic hpr] at hj hk ⊢
      rw [fwdStep_prismatic hpr]
      obtain ⟨⟨τ, σ, t1, t2, t3, t4⟩, hcols⟩ := ih hs Ps θ φ _ _ _ _ c _ fs' gs' _ _ _ _ hH' ht' hj hk hR hS he
      simp only [one_ne_zero, show ¬ (1 : ℕ) = 2 by decide, or_self, if_false, zero_add, true_or, if_true]
      have x0 := abs_nonneg x
      have a0 := abs_nonneg (y - x)
      have nτ : (x • h + P + τ).norm ≤ |x| + P.norm + Spec.travel ts Ps θ + c.norm := by
        have i1 := V3.norm_add_le (x • h + P) τ
        have i2 := V3.norm_add_le (x • h) P
        rw [V3.norm_hsmul, nh] at i2
        linarith
      have tail : ((y • h + P + σ) - (x • h + P + τ)).norm ≤
          Spec.turnDiff ts θ φ * (|x| + P.norm + Spec.travel ts Ps θ + c.norm) + (|y - x| + Spec.slideDiff ts θ φ) := by
        rw [show (y • h + P + σ) - (x • h + P + τ) = (y - x) • h + (σ - τ) by ext <;> simp <;> ring]
        have i1 := V3.norm_add_le ((y - x) • h) (σ - τ)
        rw [V3.norm_hsmul, nh] at i1
        have := mul_nonneg na nP
        have := mul_nonneg na x0
        linarith
      have E1 : pn' + Rn'.mulVec c = p + R.mulVec (x • h + P + τ) := by
        rw [t1, M3.mulVec_add, M3.mulVec_add, M3.mulVec_hsmul, V3.smul_def]
        ext <;> simp only [V3.add_x, V3.add_y, V3.add_z] <;> ring
      have E2 : qn' + Sn'.mulVec c = q + S.mulVec (y • h + P + σ) := by
        rw [t2, M3.mulVec_add, M3.mulVec_add, M3.mulVec_hsmul, V3.smul_def]
        ext <;> simp only [V3.add_x, V3.add_y, V3.add_z] <;> ring
      refine ⟨⟨_, _, E1, E2, nτ, tail⟩, ?_⟩
      intro as bs ha hb
      rw [jacCols_cons_prismatic rfl] at ha hb
      obtain ⟨as', ha1, ha'⟩ := Except.bind_eq_ok ha
      cases ha'
      obtain ⟨bs', hb1, hb'⟩ := Except.bind_eq_ok hb
      cases hb'
      have m1 := le_max_left 1 (|x| + P.norm + Spec.travel ts Ps θ + c.norm)
      refine .cons ⟨?_, ?_⟩ ?_
      · simp only
        rw [show (0 : V3 ℝ) - 0 = 0 by ext <;> simp, V3.norm_zero]
        linarith
      · simp only
        rw [show S.mulVec h - R.mulVec h = (S - R).mulVec h by ext <;> simp <;> ring]
        have := he h
        rw [nh] at this
        have := mul_le_mul_of_nonneg_left m1 (show 0 ≤ e + Spec.turnDiff ts θ φ by positivity)
        linarith
      · refine (hcols as' bs' ha1 hb1).imp fun a b hab => ⟨hab.1, hab.2.trans ?_⟩
        have := mul_le_mul_of_nonneg_left (max_le_max_left 1 (show Spec.travel ts Ps θ + c.norm ≤ |x| + P.norm + Spec.travel ts Ps θ + c.norm by linarith))
          (show 0 ≤ e + Spec.turnDiff ts θ φ by positivity)
        linarith
