import Verif.Lemmas.Lip
import Verif.Lemmas.FlQprod
import Verif.Lemmas.FlJac

/-! # How the pose changes with the geometry of the robot -/
set_option autoImplicit false

open Quaternion in
/-- Turning by `x` about two axes moves a vector to places that are at most `2 |sin (x/2)|` times the distance of the axes apart. -/
theorem rot_axis_lip {k w : V3 ℝ} (hk : IsUnit3 k) (hw : IsUnit3 w) (x : ℝ) : OpLe (rot w x - rot k x) (2 * |Real.sin (x / 2)| * (w - k).norm) := fun v => by
  obtain ⟨y, rfl⟩ : ∃ y, x = 2 * y := ⟨x / 2, by ring⟩
  rw [show 2 * y / 2 = y by ring]
  set c := Real.cos y
  set s := Real.sin y
  have hcs : c ^ 2 + s ^ 2 = 1 := Real.cos_sq_add_sin_sq y
  let Q : V3 ℝ → ℍ := fun k => V4.toH ⟨c, s * k.x, s * k.y, s * k.z⟩
  let I : V3 ℝ → ℍ := fun v => V4.toH ⟨0, v.x, v.y, v.z⟩
  have nI : ∀ v, ‖I v‖ = v.norm := fun v => by
    have h1 : ‖I v‖ ^ 2 = v.norm ^ 2 := by
      have := V4.norm_toH_sq ⟨0, v.x, v.y, v.z⟩
      rw [V3.norm_sq]
      simp only [V3.dot]
      refine Eq.trans this ?_
      ring
    exact (sq_eq_sq₀ (norm_nonneg _) v.norm_nonneg).1 h1
  have nQ : ∀ k, IsUnit3 k → ‖Q k‖ = 1 := fun k hk => by
    have h1 : ‖Q k‖ ^ 2 = 1 ^ 2 := by
      have := V4.norm_toH_sq ⟨c, s * k.x, s * k.y, s * k.z⟩
      refine Eq.trans this ?_
      simp only [IsUnit3, V3.dot] at hk
      linear_combination hcs + s ^ 2 * hk
    exact (sq_eq_sq₀ (norm_nonneg _) zero_le_one).1 h1
  have act : ∀ k, IsUnit3 k → I ((rot k (2 * y)).mulVec v) = Q k * I v * star (Q k) := fun k hk => by
    have hu := hk
    simp only [IsUnit3, V3.dot] at hu
    have e : (rot k (2 * y)).mulVec v = v + (2 * (s * c)) • k.cross v + (2 * s ^ 2) • k.cross (k.cross v) := by
      rw [rot_mulVec k hk, Real.cos_two_mul, Real.sin_two_mul]
      have hc : Real.cos y ^ 2 = 1 - s ^ 2 := by linarith
      rw [hc]
      have hs : Real.sin y = s := rfl
      have hc' : Real.cos y = c := rfl
      rw [hs, hc']
      ext <;> simp only [V3.dot, V3.add_x, V3.add_y, V3.add_z, V3.hsmul_x, V3.hsmul_y, V3.hsmul_z, V3.cross_x, V3.cross_y, V3.cross_z]
      · linear_combination (2 * s ^ 2 * v.x) * hu
      · linear_combination (2 * s ^ 2 * v.y) * hu
      · linear_combination (2 * s ^ 2 * v.z) * hu
    rw [e]
    ext
    · simp [Q, I]; ring
    · simp [Q, I]; linear_combination (- s ^ 2 * v.x) * hu - v.x * hcs
    · simp [Q, I]; linear_combination (- s ^ 2 * v.y) * hu - v.y * hcs
    · simp [Q, I]; linear_combination (- s ^ 2 * v.z) * hu - v.z * hcs
  have hd : ‖Q w - Q k‖ = |s| * (w - k).norm := by
    rw [show Q w - Q k = I (s • (w - k)) by ext <;> simp [Q, I] <;> ring, nI, V3.norm_hsmul]
  have e1 : I ((rot w (2 * y) - rot k (2 * y)).mulVec v) = (Q w - Q k) * I v * star (Q w) + Q k * I v * star (Q w - Q k) := by
    rw [show (rot w (2 * y) - rot k (2 * y)).mulVec v = (rot w (2 * y)).mulVec v - (rot k (2 * y)).mulVec v by ext <;> simp <;> ring,
      show ∀ a b : V3 ℝ, I (a - b) = I a - I b by intro a b; ext <;> simp [I], act w hw, act k hk, star_sub]
    noncomm_ring
  rw [← nI, e1]
  refine (norm_add_le _ _).trans ?_
  rw [norm_mul, norm_mul, norm_mul, norm_mul, norm_star, norm_star, nQ w hw, nQ k hk, hd, nI]
  linarith

namespace Spec

/-- The effect of different axes on the orientation: for every turning joint (types 0 and 2) the distance of the two unit axes, times `2 |sin (x/2)|` (at most the
joint angle `x`, and at most 2). -/
noncomputable def axisDiff : List Nat → List (V3 ℝ) → List (V3 ℝ) → List ℝ → ℝ
  | t :: ts, h :: hs, k :: ks, x :: xs => (if t = 0 ∨ t = 2 then 2 * |Real.sin (x / 2)| * (k - h).norm else 0) + axisDiff ts hs ks xs
  | _, _, _, _ => 0

/-- The effect of different axes of sliding joints (types 1 and 3): displacement times the distance of the unit axes. -/
noncomputable def slideAxis : List Nat → List (V3 ℝ) → List (V3 ℝ) → List ℝ → ℝ
  | t :: ts, h :: hs, k :: ks, x :: xs => (if t = 1 ∨ t = 3 then |x| * (k - h).norm else 0) + slideAxis ts hs ks xs
  | _, _, _, _ => 0

/-- The total difference of the link vectors. -/
noncomputable def linksDiff : List (V3 ℝ) → List (V3 ℝ) → ℝ
  | P :: Ps, Q :: Qs => (Q - P).norm + linksDiff Ps Qs
  | _, _ => 0

end Spec

theorem axisDiff_nonneg : ∀ (ts : List Nat) (hs ks : List (V3 ℝ)) (xs : List ℝ), 0 ≤ Spec.axisDiff ts hs ks xs
  | [], _, _, _ => by simp [Spec.axisDiff]
  | _ :: _, [], _, _ => by simp [Spec.axisDiff]
  | _ :: _, _ :: _, [], _ => by simp [Spec.axisDiff]
  | _ :: _, _ :: _, _ :: _, [] => by simp [Spec.axisDiff]
  | t :: ts, h :: hs, k :: ks, x :: xs => by
    have := axisDiff_nonneg ts hs ks xs
    have := (k - h).norm_nonneg
    simp only [Spec.axisDiff]
    split_ifs <;> positivity

/-- `q + S Q` against `p + R P`. -/
theorem link_geom {R S : M3 ℝ} {p q P Q : V3 ℝ} {e f : ℝ} (hS : IsRot S) (hR : OpLe (S - R) e) (hp : (q - p).norm ≤ f) :
    (q + S.mulVec Q - (p + R.mulVec P)).norm ≤ f + e * P.norm + (Q - P).norm := by
  rw [show q + S.mulVec Q - (p + R.mulVec P) = (q - p) + ((S - R).mulVec P + S.mulVec (Q - P)) by ext <;> simp <;> ring]
  have h1 := V3.norm_add_le (q - p) ((S - R).mulVec P + S.mulVec (Q - P))
  have h2 := V3.norm_add_le ((S - R).mulVec P) (S.mulVec (Q - P))
  rw [hS.norm_mulVec] at h2
  have := hR P
  linarith

theorem fwdLoop_geom : ∀ (ts : List Nat) (hs ks Ps Qs : List (V3 ℝ)) (θ : List ℝ) (R S : M3 ℝ) (p q : V3 ℝ) (e f : ℝ) (Rn Sn : M3 ℝ) (pn qn : V3 ℝ),
    (∀ h ∈ hs, IsUnit3 h) → (∀ k ∈ ks, IsUnit3 k) → fwdLoop ts hs Ps θ (R, p) = .ok (Rn, pn) → fwdLoop ts ks Qs θ (S, q) = .ok (Sn, qn) →
    Ps.length = ts.length → Qs.length = ts.length → IsRot R → IsRot S → OpLe (S - R) e → (q - p).norm ≤ f →
    IsRot Rn ∧ IsRot Sn ∧ OpLe (Sn - Rn) (e + Spec.axisDiff ts hs ks θ) ∧
      (qn - pn).norm ≤ f + (e + Spec.axisDiff ts hs ks θ) * Spec.travel ts Ps θ + Spec.slideAxis ts hs ks θ + Spec.linksDiff Ps Qs := by
  intro ts
  induction ts with
  | nil =>
    intro hs ks Ps Qs θ R S p q e f Rn Sn pn qn _ _ h1 h2 lP lQ hR hS he hf
    cases h1; cases h2
    obtain rfl := List.eq_nil_of_length_eq_zero lP
    exact ⟨hR, hS, by simpa [Spec.axisDiff] using he, by simpa [Spec.axisDiff, Spec.travel, Spec.slideAxis, Spec.linksDiff] using hf⟩
  | cons t ts ih =>
    intro hs ks Ps Qs θ R S p q e f Rn Sn pn qn hH hK h1 h2 lP lQ hR hS he hf
    obtain _ | ⟨h, hs⟩ := hs
    · cases h1
    obtain _ | ⟨k, ks⟩ := ks
    · cases h2
    obtain _ | ⟨P, Ps⟩ := Ps
    · cases h1
    obtain _ | ⟨Q, Qs⟩ := Qs
    · cases h2
    obtain _ | ⟨x, θ⟩ := θ
    · cases h1
    have hh := hH h (by simp)
    have hk := hK k (by simp)
    have nh := V3.norm_eq_one hh
    have nP := P.norm_nonneg
    have nt := Fl.travel_nonneg ts Ps θ
    have na := axisDiff_nonneg ts hs ks θ
    have e0 := he.nonneg
    simp only [fwdLoop] at h1 h2
    simp only [Spec.axisDiff, Spec.slideAxis, Spec.travel, Spec.linksDiff]
    have key : IsRot (fwdStep t h P x (R, p)).1 ∧ IsRot (fwdStep t k Q x (S, q)).1 ∧
        OpLe ((fwdStep t k Q x (S, q)).1 - (fwdStep t h P x (R, p)).1) (e + (if t = 0 ∨ t = 2 then 2 * |Real.sin (x / 2)| * (k - h).norm else 0)) ∧
        ((fwdStep t k Q x (S, q)).2 - (fwdStep t h P x (R, p)).2).norm ≤
          f + (e + (if t = 0 ∨ t = 2 then 2 * |Real.sin (x / 2)| * (k - h).norm else 0)) * ((if t = 1 ∨ t = 3 then |x| else 0) + P.norm) +
            (if t = 1 ∨ t = 3 then |x| * (k - h).norm else 0) + (Q - P).norm := by
      simp only [fwdStep]
      by_cases h02 : t = 0 ∨ t = 2
      · have h13 : ¬ (t = 1 ∨ t = 3) := by omega
        simp only [if_neg h13, if_pos h02, zero_add, add_zero]
        have m := mul_lip he (rot_axis_lip hh hk x) hS (rot_isRot h hh x)
        exact ⟨hR.mul (rot_isRot h hh x), hS.mul (rot_isRot k hk x), m, link_geom (hS.mul (rot_isRot k hk x)) m hf⟩
      · simp only [if_neg h02, add_zero]
        by_cases h13 : t = 1 ∨ t = 3
        · simp only [if_pos h13]
          refine ⟨hR, hS, he, ?_⟩
          have s : (q + V3.smul x (S.mulVec k) - (p + V3.smul x (R.mulVec h))).norm ≤ f + e * |x| + |x| * (k - h).norm := by
            rw [show q + V3.smul x (S.mulVec k) - (p + V3.smul x (R.mulVec h)) = (q - p) + (x • (S - R).mulVec h + x • S.mulVec (k - h)) by
              ext <;> simp <;> ring]
            have i1 := V3.norm_add_le (q - p) (x • (S - R).mulVec h + x • S.mulVec (k - h))
            have i2 := V3.norm_add_le (x • (S - R).mulVec h) (x • S.mulVec (k - h))
            rw [V3.norm_hsmul, V3.norm_hsmul, hS.norm_mulVec] at i2
            have i3 := he h
            rw [nh, mul_one] at i3
            have i4 : |x| * ((S - R).mulVec h).norm ≤ |x| * e := mul_le_mul_of_nonneg_left i3 (abs_nonneg _)
            linarith
          exact (link_geom hS he s).trans (by linarith)
        · simp only [if_neg h13, add_zero, zero_add]
          exact ⟨hR, hS, he, link_geom hS he hf⟩
    obtain ⟨k1, k2, k3, k4⟩ := key
    obtain ⟨r1, r2, r3, r4⟩ := ih hs ks Ps Qs θ _ _ _ _ _ _ Rn Sn pn qn (fun g hg => hH g (by simp [hg])) (fun g hg => hK g (by simp [hg])) h1 h2
      (by simpa using lP) (by simpa using lQ) k1 k2 k3 k4
    refine ⟨r1, r2, r3.mono (by linarith), r4.trans ?_⟩
    generalize (if t = 0 ∨ t = 2 then 2 * |Real.sin (x / 2)| * (k - h).norm else 0) = α
    have : 0 ≤ Spec.axisDiff ts hs ks θ * ((if t = 1 ∨ t = 3 then |x| else 0) + P.norm) := by
      apply mul_nonneg na
      split_ifs <;> positivity
    linarith
