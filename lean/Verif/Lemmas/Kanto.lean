import Verif.Lemmas.IterConv
import Verif.Lemmas.Taylor
import Verif.Props.Quaternion

/-! # One step of `iterative_invkin` with explicit constants -/
set_option autoImplicit false

/-- The sine of half the angle of a rotation. -/
noncomputable def Spec.halfSin (E : M3 ℝ) : ℝ := Real.sqrt (3 - E.trace) / 2

namespace Kanto
open IterConv

/-- A rotation in terms of a unit quaternion with nonnegative real part. -/
theorem quat {E : M3 ℝ} (h : IsRot E) : ∃ (w : ℝ) (u : V3 ℝ), 0 ≤ w ∧ w * w + u.dot u = 1 ∧ E.trace = 4 * (w * w) - 1 ∧ Wv E = (4 * w) • u ∧
    ∀ v, E.mulVec v = v + (2 * w) • u.cross v + (2 : ℝ) • u.cross (u.cross v) := by
  obtain ⟨q, hq, rfl⟩ := C06_q2R_surjective E h
  have main : ∀ q : V4 ℝ, IsUnit4 q → 0 ≤ q.w → ∃ (w : ℝ) (u : V3 ℝ), 0 ≤ w ∧ w * w + u.dot u = 1 ∧ (q2R q).trace = 4 * (w * w) - 1 ∧
      Wv (q2R q) = (4 * w) • u ∧ ∀ v, (q2R q).mulVec v = v + (2 * w) • u.cross v + (2 : ℝ) • u.cross (u.cross v) := by
    intro q hq h0
    unfold IsUnit4 at hq
    refine ⟨q.w, ⟨q.x, q.y, q.z⟩, h0, ?_, ?_, ?_, fun v => ?_⟩
    · simp only [V3.dot]; linarith
    · simp [q2R, M3.trace]; grind
    · ext <;> simp [q2R, Wv] <;> ring
    · ext <;> simp [q2R, V3.cross] <;> grind
  rcases le_total 0 q.w with h0 | h0
  · exact main q hq h0
  · have e : q2R q = q2R (-q) := by ext <;> simp [q2R]
    rw [e]
    exact main (-q) hq.neg (by simpa using h0)

theorem halfSin_eq {E : M3 ℝ} {w : ℝ} {u : V3 ℝ} (h1 : w * w + u.dot u = 1) (h2 : E.trace = 4 * (w * w) - 1) : Spec.halfSin E = u.norm := by
  unfold Spec.halfSin
  rw [h2, show 3 - (4 * (w * w) - 1) = (2 * u.norm) ^ 2 by rw [mul_pow, V3.norm_sq]; linarith, Real.sqrt_sq (by linarith [u.norm_nonneg])]
  ring

theorem halfSin_nonneg (E : M3 ℝ) : 0 ≤ Spec.halfSin E := by unfold Spec.halfSin; positivity

theorem trace_of_halfSin {E : M3 ℝ} (h : IsRot E) (hs : Spec.halfSin E < 1 / 2) : 2 < E.trace := by
  obtain ⟨w, u, h0, h1, h2, -⟩ := quat h
  rw [halfSin_eq h1 h2] at hs
  have := u.norm_sq
  have := u.norm_nonneg
  nlinarith

theorem exists_perp (u : V3 ℝ) : ∃ v : V3 ℝ, v.norm = 1 ∧ u.dot v = 0 := by
  by_cases hx : u.x = 0 ∧ u.y = 0
  · exact ⟨V3.ex, V3.norm_ex, by simp [V3.dot, hx.1]⟩
  · set w : V3 ℝ := ⟨-u.y, u.x, 0⟩ with hw
    have hne : w ≠ 0 := fun h => hx ⟨by simpa [hw] using congrArg V3.y h, by simpa [hw] using congrArg V3.x h⟩
    refine ⟨w.sdiv w.norm, V3.norm_eq_one (V3.unit_sdiv hne), ?_⟩
    rw [V3.sdiv_eq, V3.dot_hsmul]
    simp [hw, V3.dot]
    right; ring

theorem cross_norm_sq (u v : V3 ℝ) : (u.cross v).dot (u.cross v) = u.dot u * v.dot v - u.dot v ^ 2 := by
  simp [V3.dot, V3.cross]; ring

theorem cross_cross_norm_sq (u v : V3 ℝ) : (u.cross (u.cross v)).dot (u.cross (u.cross v)) = u.dot u * (u.cross v).dot (u.cross v) := by
  rw [cross_norm_sq u (u.cross v)]
  have : u.dot (u.cross v) = 0 := by simp [V3.dot, V3.cross]; ring
  rw [this]; ring

theorem comb_norm_sq (a b : ℝ) (u v : V3 ℝ) : (a • u.cross v + b • u.cross (u.cross v)).norm ^ 2 =
    (a ^ 2 + b ^ 2 * u.dot u) * (u.cross v).dot (u.cross v) := by
  rw [V3.norm_sq]
  have h := cross_cross_norm_sq u v
  generalize u.cross v = c at *
  have : c.dot (u.cross c) = 0 := by simp [V3.dot, V3.cross]; ring
  rw [V3.dot_add, V3.add_dot, V3.add_dot]
  simp only [V3.dot_hsmul, V3.hsmul_dot]
  rw [h, V3.dot_comm (u.cross c) c, this]
  ring

/-- The motion of a unit vector perpendicular to the axis. -/
theorem turn_perp {E : M3 ℝ} (h : IsRot E) : ∃ v : V3 ℝ, v.norm = 1 ∧ (E.mulVec v - v).norm = 2 * Spec.halfSin E := by
  obtain ⟨w, u, h0, h1, h2, -, h4⟩ := quat h
  obtain ⟨v, v1, v2⟩ := exists_perp u
  refine ⟨v, v1, ?_⟩
  rw [halfSin_eq h1 h2, h4]
  have e : v + (2 * w) • u.cross v + (2 : ℝ) • u.cross (u.cross v) - v = (2 * w) • u.cross v + (2 : ℝ) • u.cross (u.cross v) := by
    ext <;> simp <;> ring
  rw [e]
  have hn := comb_norm_sq (2 * w) 2 u v
  rw [cross_norm_sq, v2, ← v.norm_sq, v1, ← u.norm_sq] at hn
  rw [← u.norm_sq] at h1
  refine (sq_eq_sq₀ (V3.norm_nonneg _) (by linarith [u.norm_nonneg])).1 ?_
  rw [hn]
  linear_combination 4 * u.norm ^ 2 * h1

/-- The correction of the orientation, to first order. -/
theorem orient_lin {E : M3 ℝ} (h : IsRot E) (htr : 2 < E.trace) (κ : ℝ) (v : V3 ℝ) :
    (E.mulVec v + E.mulVec ((V3.smul (-κ * lam E) (Wv E)).cross v) - v).norm ≤
      2 * Spec.halfSin E * Real.sqrt ((1 - κ / 2) ^ 2 + κ * (1 - Real.sqrt (1 - Spec.halfSin E ^ 2))) * v.norm ∧
    (V3.smul (lam E) (Wv E)).norm = Spec.halfSin E := by
  obtain ⟨w, u, h0, h1, h2, h3, h4⟩ := quat h
  rw [halfSin_eq h1 h2]
  have w0 : 0 < w := by
    rcases h0.eq_or_lt with e | e
    · rw [← e] at h2; norm_num at h2; linarith
    · exact e
  have hl : lam E * (4 * w) = 1 := by
    unfold lam
    rw [h2, show 1 + (4 * (w * w) - 1) = (2 * w) ^ 2 by ring, Real.sqrt_sq (by linarith)]
    field_simp
    norm_num
  have hu : V3.smul (lam E) (Wv E) = u := by
    rw [h3]
    ext <;> simp
    · linear_combination u.x * hl
    · linear_combination u.y * hl
    · linear_combination u.z * hl
  have hu' : V3.smul (-κ * lam E) (Wv E) = (-κ) • u := by
    rw [← hu]; ext <;> simp <;> ring
  rw [hu, hu']
  refine ⟨?_, rfl⟩
  have hc : Real.sqrt (1 - u.norm ^ 2) = w := by
    rw [u.norm_sq, show 1 - u.dot u = w ^ 2 by linarith, Real.sqrt_sq h0]
  rw [hc]
  have e : E.mulVec v + E.mulVec (((-κ) • u).cross v) - v =
      (2 * w - κ * (1 - 2 * u.dot u)) • u.cross v + (2 - 2 * w * κ) • u.cross (u.cross v) := by
    rw [h4, h4]
    ext <;> simp [V3.cross, V3.dot] <;> ring
  rw [e]
  have hn := comb_norm_sq (2 * w - κ * (1 - 2 * u.dot u)) (2 - 2 * w * κ) u v
  have hU : u.dot u = 1 - w * w := by linarith
  have ef : (2 * w - κ * (1 - 2 * u.dot u)) ^ 2 + (2 - 2 * w * κ) ^ 2 * u.dot u = 4 * ((1 - κ / 2) ^ 2 + κ * (1 - w)) := by
    rw [hU]; ring
  rw [ef, cross_norm_sq] at hn
  have f0 : 0 ≤ (1 - κ / 2) ^ 2 + κ * (1 - w) := by
    have : 0 ≤ 4 * ((1 - κ / 2) ^ 2 + κ * (1 - w)) := by
      rw [← ef, ← u.norm_sq]; positivity
    linarith
  refine le_of_sq_le_sq ?_ (by have := u.norm_nonneg; have := v.norm_nonneg; positivity)
  rw [hn, mul_pow, mul_pow, Real.sq_sqrt f0, mul_pow, u.norm_sq, v.norm_sq]
  have := mul_nonneg f0 (sq_nonneg (u.dot v))
  nlinarith

/-- The orientation error after a step. -/
theorem orient_step {E E' : M3 ℝ} (h : IsRot E) (h' : IsRot E') (htr : 2 < E.trace) {κ c l ρ : ℝ} (hl : l = 0 ∨ l = lam E) (hκ : 0 ≤ κ)
    (hρ0 : 0 ≤ ρ) (hρ : (1 - κ / 2) ^ 2 + κ * Spec.halfSin E ^ 2 ≤ ρ ^ 2)
    (hstep : ∀ v, (E'.mulVec v - E.mulVec v - E.mulVec ((V3.smul (-κ * l) (Wv E)).cross v)).norm ≤ c * v.norm) :
    Spec.halfSin E' ≤ Spec.halfSin E - (1 - ρ) * (V3.smul l (Wv E)).norm + c / 2 := by
  obtain ⟨v, v1, v2⟩ := turn_perp h'
  have hs := hstep v
  rw [v1, mul_one] at hs
  have hE0 := halfSin_nonneg E
  have tri : (E'.mulVec v - v).norm ≤ (E'.mulVec v - E.mulVec v - E.mulVec ((V3.smul (-κ * l) (Wv E)).cross v)).norm +
      (E.mulVec v + E.mulVec ((V3.smul (-κ * l) (Wv E)).cross v) - v).norm := by
    refine le_trans (le_of_eq ?_) (V3.norm_add_le _ _)
    congr 1
    generalize E.mulVec ((V3.smul (-κ * l) (Wv E)).cross v) = a
    generalize E.mulVec v = b
    generalize E'.mulVec v = d
    ext <;> simp <;> ring
  rw [v2] at tri
  rcases hl with rfl | rfl
  · have e : V3.smul (-κ * 0) (Wv E) = V3.smul (-0 * lam E) (Wv E) := by ext <;> simp
    have := (orient_lin h htr 0 v).1
    rw [e] at tri hs
    rw [v1] at this
    norm_num at this tri hs
    have z : (V3.smul 0 (Wv E)).norm = 0 := V3.norm_eq_zero.2 (by ext <;> simp)
    rw [z]
    linarith
  · obtain ⟨k1, k2⟩ := orient_lin h htr κ v
    rw [k2]
    rw [v1, mul_one] at k1
    have hle : Real.sqrt ((1 - κ / 2) ^ 2 + κ * (1 - Real.sqrt (1 - Spec.halfSin E ^ 2))) ≤ ρ := by
      apply Real.sqrt_le_iff.2 ⟨hρ0, le_trans ?_ hρ⟩
      have hx : 1 - Real.sqrt (1 - Spec.halfSin E ^ 2) ≤ Spec.halfSin E ^ 2 := by
        have h1 : 0 ≤ 1 - Spec.halfSin E ^ 2 := by
          obtain ⟨w, u, h0, h1, h2, -⟩ := quat h
          rw [halfSin_eq h1 h2, u.norm_sq]
          nlinarith
        have h2 : 1 - Spec.halfSin E ^ 2 ≤ Real.sqrt (1 - Spec.halfSin E ^ 2) := by
          apply Real.le_sqrt_of_sq_le
          nlinarith [sq_nonneg (Spec.halfSin E)]
        linarith
      have := mul_le_mul_of_nonneg_left hx hκ
      linarith
    have := mul_le_mul_of_nonneg_left hle (show 0 ≤ 2 * Spec.halfSin E by linarith)
    linarith

end Kanto
