import Verif.Lemmas.FlAux
import Verif.Props.Kinematics

/-! # How the pose changes with the joint values -/
set_option autoImplicit false

namespace Spec

/-- By how much the turning joints (types 0 and 2) of two joint vectors differ, in total. -/
noncomputable def turnDiff : List Nat → List ℝ → List ℝ → ℝ
  | t :: ts, x :: xs, y :: ys => (if t = 0 ∨ t = 2 then |y - x| else 0) + turnDiff ts xs ys
  | _, _, _ => 0

/-- By how much the sliding joints (types 1 and 3) of two joint vectors differ, in total. -/
noncomputable def slideDiff : List Nat → List ℝ → List ℝ → ℝ
  | t :: ts, x :: xs, y :: ys => (if t = 1 ∨ t = 3 then |y - x| else 0) + slideDiff ts xs ys
  | _, _, _ => 0

/-- The length of the arm at the joint vector `θ` from the first joint to the tool: links, displacements, flange and tool. -/
noncomputable def arm (robot : Robot ℝ) (θ : List ℝ) : ℝ :=
  travel robot.jointType robot.P.tail θ + (robot.Tflange.map (·.p.norm)).getD 0 + (robot.ptool.map V3.norm).getD 0

end Spec

theorem turnDiff_nonneg : ∀ (ts : List Nat) (xs ys : List ℝ), 0 ≤ Spec.turnDiff ts xs ys
  | [], _, _ => by simp [Spec.turnDiff]
  | _ :: _, [], _ => by simp [Spec.turnDiff]
  | _ :: _, _ :: _, [] => by simp [Spec.turnDiff]
  | t :: ts, x :: xs, y :: ys => by
    have := turnDiff_nonneg ts xs ys
    simp only [Spec.turnDiff]
    split_ifs <;> positivity

theorem slideDiff_nonneg : ∀ (ts : List Nat) (xs ys : List ℝ), 0 ≤ Spec.slideDiff ts xs ys
  | [], _, _ => by simp [Spec.slideDiff]
  | _ :: _, [], _ => by simp [Spec.slideDiff]
  | _ :: _, _ :: _, [] => by simp [Spec.slideDiff]
  | t :: ts, x :: xs, y :: ys => by
    have := slideDiff_nonneg ts xs ys
    simp only [Spec.slideDiff]
    split_ifs <;> positivity

/-- Turning by `a` and by `b` about the same axis moves a point to places at most `|a - b|` times its distance apart. -/
theorem rot_angle_lip {k : V3 ℝ} (hk : IsUnit3 k) (a b : ℝ) : OpLe (rot k a - rot k b) |a - b| := fun v => by
  have e : (rot k a - rot k b).mulVec v = (rot k b).mulVec ((rot k (a - b)).mulVec v - v) := by
    rw [M3.mulVec_sub, M3.mulVec_mulVec, rot_mul k hk, add_sub_cancel]
    ext <;> simp <;> ring
  rw [e, (rot_isRot k hk b).norm_mulVec]
  have c1 : 1 - Real.cos (a - b) ≤ (a - b) ^ 2 / 2 := by linarith [Real.one_sub_sq_div_two_le_cos (x := a - b)]
  have hsq : ((rot k (a - b)).mulVec v - v).norm ^ 2 = 2 * (1 - Real.cos (a - b)) * (v.norm ^ 2 - (k.dot v) ^ 2) := by
    have h1 : ((rot k (a - b)).mulVec v).dot ((rot k (a - b)).mulVec v) = v.dot v := by
      rw [← V3.norm_sq, ← V3.norm_sq, (rot_isRot k hk _).norm_mulVec]
    have h2 : v.dot ((rot k (a - b)).mulVec v) = Real.cos (a - b) * v.dot v + (1 - Real.cos (a - b)) * (k.dot v) ^ 2 := by
      rw [rot_mulVec k hk]
      simp [V3.dot]
      ring
    have h3 : ∀ w : V3 ℝ, (w - v).dot (w - v) = w.dot w - 2 * v.dot w + v.dot v := by
      intro w; simp [V3.dot]; ring
    rw [V3.norm_sq, V3.norm_sq, h3, h1, h2]
    ring
  have hle : ((rot k (a - b)).mulVec v - v).norm ^ 2 ≤ (|a - b| * v.norm) ^ 2 := by
    rw [hsq, mul_pow, sq_abs]
    have c0 : 0 ≤ 1 - Real.cos (a - b) := by linarith [Real.cos_le_one (a - b)]
    have : 2 * (1 - Real.cos (a - b)) * (v.norm ^ 2 - (k.dot v) ^ 2) ≤ 2 * (1 - Real.cos (a - b)) * v.norm ^ 2 :=
      mul_le_mul_of_nonneg_left (by linarith [sq_nonneg (k.dot v)]) (by linarith)
    have : 2 * (1 - Real.cos (a - b)) * v.norm ^ 2 ≤ (a - b) ^ 2 * v.norm ^ 2 := mul_le_mul_of_nonneg_right (by linarith) (sq_nonneg _)
    linarith
  exact (sq_le_sq₀ (V3.norm_nonneg _) (mul_nonneg (abs_nonneg _) v.norm_nonneg)).1 hle

/-- `q + S P` against `p + R P`. -/
theorem link_lip {R S : M3 ℝ} {p q P : V3 ℝ} {e f : ℝ} (hR : OpLe (S - R) e) (hp : (q - p).norm ≤ f) :
    (q + S.mulVec P - (p + R.mulVec P)).norm ≤ f + e * P.norm := by
  rw [show q + S.mulVec P - (p + R.mulVec P) = (q - p) + (S - R).mulVec P by ext <;> simp <;> ring]
  have := V3.norm_add_le (q - p) ((S - R).mulVec P)
  have := hR P
  linarith

theorem mul_lip {A B C D : M3 ℝ} {e d : ℝ} (h1 : OpLe (B - A) e) (h2 : OpLe (D - C) d) (hB : IsRot B) (hC : IsRot C) : OpLe (B * D - A * C) (e + d) := by
  rw [show B * D - A * C = (B - A) * C + B * (D - C) by ext <;> simp <;> ring]
  have := (h1.mul hC.opLe h1.nonneg).add (hB.opLe.mul h2 zero_le_one)
  exact this.mono (by linarith)

theorem fwdLoop_lip : ∀ (ts : List Nat) (hs Ps : List (V3 ℝ)) (θ φ : List ℝ) (R S : M3 ℝ) (p q : V3 ℝ) (e f : ℝ) (Rn Sn : M3 ℝ) (pn qn : V3 ℝ),
    (∀ h ∈ hs, IsUnit3 h) → fwdLoop ts hs Ps θ (R, p) = .ok (Rn, pn) → fwdLoop ts hs Ps φ (S, q) = .ok (Sn, qn) → IsRot R → IsRot S →
    OpLe (S - R) e → (q - p).norm ≤ f →
    IsRot Rn ∧ IsRot Sn ∧ OpLe (Sn - Rn) (e + Spec.turnDiff ts θ φ) ∧
      (qn - pn).norm ≤ f + (e + Spec.turnDiff ts θ φ) * Spec.travel ts Ps θ + Spec.slideDiff ts θ φ := by
  intro ts
  induction ts with
  | nil =>
    intro hs Ps θ φ R S p q e f Rn Sn pn qn _ h1 h2 hR hS he hf
    cases h1; cases h2
    exact ⟨hR, hS, by simpa [Spec.turnDiff] using he, by simpa [Spec.turnDiff, Spec.travel, Spec.slideDiff] using hf⟩
  | cons t ts ih =>
    intro hs Ps θ φ R S p q e f Rn Sn pn qn hH h1 h2 hR hS he hf
    obtain _ | ⟨h, hs⟩ := hs
    · cases h1
    obtain _ | ⟨P, Ps⟩ := Ps
    · cases h1
    obtain _ | ⟨x, θ⟩ := θ
    · cases h1
    obtain _ | ⟨y, φ⟩ := φ
    · cases h2
    have hh := hH h (by simp)
    have nh := V3.norm_eq_one hh
    have nP := P.norm_nonneg
    have nt := Fl.travel_nonneg ts Ps θ
    have na := turnDiff_nonneg ts θ φ
    have e0 := he.nonneg
    simp only [fwdLoop] at h1 h2
    simp only [Spec.turnDiff, Spec.slideDiff, Spec.travel]
    have key : IsRot (fwdStep t h P x (R, p)).1 ∧ IsRot (fwdStep t h P y (S, q)).1 ∧
        OpLe ((fwdStep t h P y (S, q)).1 - (fwdStep t h P x (R, p)).1) (e + (if t = 0 ∨ t = 2 then |y - x| else 0)) ∧
        ((fwdStep t h P y (S, q)).2 - (fwdStep t h P x (R, p)).2).norm ≤
          f + (e + (if t = 0 ∨ t = 2 then |y - x| else 0)) * ((if t = 1 ∨ t = 3 then |x| else 0) + P.norm) + (if t = 1 ∨ t = 3 then |y - x| else 0) := by
      simp only [fwdStep]
      by_cases h02 : t = 0 ∨ t = 2
      · have h13 : ¬ (t = 1 ∨ t = 3) := by omega
        simp only [if_neg h13, if_pos h02, zero_add, add_zero]
        have m := mul_lip he (rot_angle_lip hh y x) hS (rot_isRot h hh x)
        exact ⟨hR.mul (rot_isRot h hh x), hS.mul (rot_isRot h hh y), m, link_lip m hf⟩
      · simp only [if_neg h02, add_zero]
        by_cases h13 : t = 1 ∨ t = 3
        · simp only [if_pos h13]
          refine ⟨hR, hS, he, ?_⟩
          have s : (q + V3.smul y (S.mulVec h) - (p + V3.smul x (R.mulVec h))).norm ≤ f + e * |x| + |y - x| := by
            rw [show q + V3.smul y (S.mulVec h) - (p + V3.smul x (R.mulVec h)) = (q - p) + (x • (S - R).mulVec h + (y - x) • S.mulVec h) by
              ext <;> simp <;> ring]
            have i1 := V3.norm_add_le (q - p) (x • (S - R).mulVec h + (y - x) • S.mulVec h)
            have i2 := V3.norm_add_le (x • (S - R).mulVec h) ((y - x) • S.mulVec h)
            rw [V3.norm_hsmul, V3.norm_hsmul, hS.norm_mulVec, nh, mul_one] at i2
            have i3 := he h
            rw [nh, mul_one] at i3
            have i4 : |x| * ((S - R).mulVec h).norm ≤ |x| * e := mul_le_mul_of_nonneg_left i3 (abs_nonneg _)
            linarith
          exact (link_lip he s).trans (by linarith)
        · simp only [if_neg h13, add_zero, zero_add]
          exact ⟨hR, hS, he, link_lip he hf⟩
    obtain ⟨k1, k2, k3, k4⟩ := key
    obtain ⟨r1, r2, r3, r4⟩ := ih hs Ps θ φ _ _ _ _ _ _ Rn Sn pn qn (fun g hg => hH g (by simp [hg])) h1 h2 k1 k2 k3 k4
    refine ⟨r1, r2, r3.mono (by linarith), r4.trans ?_⟩
    generalize (if t = 0 ∨ t = 2 then |y - x| else 0) = α
    have : 0 ≤ Spec.turnDiff ts θ φ * ((if t = 1 ∨ t = 3 then |x| else 0) + P.norm) := by
      apply mul_nonneg na
      split_ifs <;> positivity
    linarith
