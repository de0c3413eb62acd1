import Verif.Model.Random
import Verif.Props.Rotation
import Verif.Lemmas.Quat

/-! # Property C66: random rotations -/
set_option autoImplicit false

namespace Spec

/-- a possible result of `np.random.rand(4)`: four numbers of [0, 1) -/
def Draw4 (d : V4 ℝ) : Prop :=
  (0 ≤ d.w ∧ d.w < 1) ∧ (0 ≤ d.x ∧ d.x < 1) ∧ (0 ≤ d.y ∧ d.y < 1) ∧ (0 ≤ d.z ∧ d.z < 1)

/-- a possible result of `np.random.rand(3)` -/
def Draw3 (d : V3 ℝ) : Prop := (0 ≤ d.x ∧ d.x < 1) ∧ (0 ≤ d.y ∧ d.y < 1) ∧ (0 ≤ d.z ∧ d.z < 1)

end Spec

theorem V4.norm_pos' {d : V4 ℝ} (h : d ≠ ⟨0, 0, 0, 0⟩) : 0 < d.norm := by
  have h0 := V4.sdiv_norm_unit h
  by_contra hn
  have : d.norm = 0 := le_antisymm (not_lt.1 hn) (Real.sqrt_nonneg _)
  simp [IsUnit4, V4.sdiv, this] at h0

theorem randomR_up {d : V4 ℝ} (h : d ≠ ⟨0, 0, 0, 0⟩) : randomR d.up = (q2R (d.sdiv d.norm)).up := by
  unfold randomR
  rw [V4.up_norm, V4.up_sdiv _ (V4.norm_pos' h).ne', q2R_up]

theorem randomR_zero : randomR (⟨.fin 0, .fin 0, .fin 0, .fin 0⟩ : V4 XReal) =
    ⟨.nan, .nan, .nan, .nan, .nan, .nan, .nan, .nan, .nan⟩ := by
  have e : (⟨.fin 0, .fin 0, .fin 0, .fin 0⟩ : V4 XReal) = V4.up ⟨0, 0, 0, 0⟩ := rfl
  have hn : (⟨.fin 0, .fin 0, .fin 0, .fin 0⟩ : V4 XReal).norm = .fin 0 := by
    rw [e, V4.up_norm]; simp [V4.norm]
  unfold randomR
  rw [hn]
  have : (XReal.fin 0 / XReal.fin 0) = XReal.nan := XReal.zero_div_zero
  ext <;> simp [V4.sdiv, q2R, this]

/-- C66 is false: if all four numbers drawn are zero, every entry of the matrix is NaN. -/
theorem C66_zero_nan : Spec.Draw4 ⟨0, 0, 0, 0⟩ ∧
    randomR (V4.up ⟨0, 0, 0, 0⟩) = ⟨.nan, .nan, .nan, .nan, .nan, .nan, .nan, .nan, .nan⟩ :=
  ⟨by simp [Spec.Draw4], randomR_zero⟩

/-- C66 (`_partial`): for every other draw `random_R` returns a rotation matrix.  Missing: the draw of four zeros (`C66_zero_nan`). -/
theorem C66_rotation_partial (d : V4 ℝ) (hd : d ≠ ⟨0, 0, 0, 0⟩) : ∃ R, randomR d.up = R.up ∧ IsRot R :=
  ⟨_, randomR_up hd, C05_q2R_isRot _ (V4.sdiv_norm_unit hd)⟩

/-- C66: the rotation matrices that `random_R` can return are exactly the rotations by an angle of `[0, π]` about an axis with
nonnegative coordinates. -/
theorem C66_range (R : M3 ℝ) : (∃ d, Spec.Draw4 d ∧ randomR d.up = R.up) ↔
    ∃ k θ, IsUnit3 k ∧ 0 ≤ k.x ∧ 0 ≤ k.y ∧ 0 ≤ k.z ∧ 0 ≤ θ ∧ θ ≤ Real.pi ∧ R = rot k θ := by
  constructor
  · rintro ⟨d, ⟨⟨w0, -⟩, ⟨x0, -⟩, ⟨y0, -⟩, ⟨z0, -⟩⟩, h⟩
    by_cases hd : d = ⟨0, 0, 0, 0⟩
    · subst hd
      rw [show V4.up ⟨0, 0, 0, 0⟩ = ⟨.fin 0, .fin 0, .fin 0, .fin 0⟩ from rfl, randomR_zero, M3.ext_iff] at h
      simp at h
    have hp := V4.norm_pos' hd
    have hu := V4.sdiv_norm_unit hd
    rw [randomR_up hd] at h
    have h := M3.up_inj h
    set q := d.sdiv d.norm with hq
    have w1 : 0 ≤ q.w := div_nonneg w0 hp.le
    have x1 : 0 ≤ q.x := div_nonneg x0 hp.le
    have y1 : 0 ≤ q.y := div_nonneg y0 hp.le
    have z1 : 0 ≤ q.z := div_nonneg z0 hp.le
    clear_value q
    have hu' : q.w ^ 2 + q.x ^ 2 + q.y ^ 2 + q.z ^ 2 = 1 := by
      have := hu; simp [IsUnit4] at this; linarith
    have wl : q.w ≤ 1 := by nlinarith [sq_nonneg q.x, sq_nonneg q.y, sq_nonneg q.z]
    by_cases hw : q.w = 1
    · refine ⟨V3.ex, 0, by simp [IsUnit3, V3.ex], by simp [V3.ex], by simp [V3.ex], by simp [V3.ex], le_rfl, Real.pi_pos.le, ?_⟩
      have hx : q.x = 0 := by nlinarith [sq_nonneg q.x, sq_nonneg q.y, sq_nonneg q.z]
      have hy : q.y = 0 := by nlinarith [sq_nonneg q.x, sq_nonneg q.y, sq_nonneg q.z]
      have hz : q.z = 0 := by nlinarith [sq_nonneg q.x, sq_nonneg q.y, sq_nonneg q.z]
      rw [← h]
      ext <;> simp [q2R, rot, hx, hy, hz]
    · have hs : 0 < 1 - q.w ^ 2 := by
        have : q.w < 1 := lt_of_le_of_ne wl hw
        nlinarith
      have hs' := Real.sqrt_pos.2 hs
      have hss : Real.sqrt (1 - q.w ^ 2) ^ 2 = 1 - q.w ^ 2 := Real.sq_sqrt hs.le
      set s := Real.sqrt (1 - q.w ^ 2) with hsdef
      have hk : IsUnit3 (⟨q.x / s, q.y / s, q.z / s⟩ : V3 ℝ) := by
        simp only [IsUnit3]
        field_simp
        rw [hss]; linarith
      refine ⟨⟨q.x / s, q.y / s, q.z / s⟩, 2 * Real.arccos q.w, hk, div_nonneg x1 hs'.le, div_nonneg y1 hs'.le, div_nonneg z1 hs'.le,
        mul_nonneg (by norm_num) (Real.arccos_nonneg _), ?_, ?_⟩
      · have := Real.arccos_le_pi_div_two.2 w1
        linarith
      · rw [← h, ← q2R_rot2qA _ hk]
        congr 1
        have e : 2 * Real.arccos q.w / 2 = Real.arccos q.w := by ring
        ext <;> simp [rot2qA, e, Real.cos_arccos (by linarith : -1 ≤ q.w) wl, Real.sin_arccos, ← hsdef, hs'.ne']
  · rintro ⟨k, θ, hk, x0, y0, z0, t0, t1, rfl⟩
    have hc : 0 ≤ Real.cos (θ / 2) := Real.cos_nonneg_of_mem_Icc ⟨by linarith [Real.pi_pos], by linarith⟩
    have hs : 0 ≤ Real.sin (θ / 2) := Real.sin_nonneg_of_nonneg_of_le_pi (by linarith) (by linarith [Real.pi_pos])
    have hcs := Real.sin_sq_add_cos_sq (θ / 2)
    set c := Real.cos (θ / 2) with hcd
    set s := Real.sin (θ / 2) with hsd
    have hk' : k.x ^ 2 + k.y ^ 2 + k.z ^ 2 = 1 := by have := hk; simp [IsUnit3] at this; linarith
    have kx : k.x ≤ 1 := by nlinarith [sq_nonneg k.y, sq_nonneg k.z]
    have ky : k.y ≤ 1 := by nlinarith [sq_nonneg k.x, sq_nonneg k.z]
    have kz : k.z ≤ 1 := by nlinarith [sq_nonneg k.y, sq_nonneg k.x]
    have c1 : c ≤ 1 := Real.cos_le_one _
    have s1 : s ≤ 1 := Real.sin_le_one _
    let d : V4 ℝ := ⟨c / 2, k.x * s / 2, k.y * s / 2, k.z * s / 2⟩
    have hdn : d.norm = 1 / 2 := by
      have : c / 2 * (c / 2) + k.x * s / 2 * (k.x * s / 2) + k.y * s / 2 * (k.y * s / 2) + k.z * s / 2 * (k.z * s / 2) = (1 / 2) ^ 2 := by
        linear_combination (1 / 4) * hcs + s ^ 2 / 4 * hk'
      show Real.sqrt (c / 2 * (c / 2) + k.x * s / 2 * (k.x * s / 2) + k.y * s / 2 * (k.y * s / 2) + k.z * s / 2 * (k.z * s / 2)) = _
      rw [this, Real.sqrt_sq (by norm_num)]
    have hd : d ≠ ⟨0, 0, 0, 0⟩ := by
      intro h
      rw [h] at hdn
      simp [V4.norm] at hdn
    refine ⟨d, ⟨⟨by positivity, ?_⟩, ⟨by positivity, ?_⟩, ⟨by positivity, ?_⟩, ⟨by positivity, ?_⟩⟩, ?_⟩
    · show c / 2 < 1; linarith
    · show k.x * s / 2 < 1; nlinarith
    · show k.y * s / 2 < 1; nlinarith
    · show k.z * s / 2 < 1; nlinarith
    · rw [randomR_up hd, ← q2R_rot2qA _ hk]
      congr 2
      rw [hdn]
      ext <;> simp [rot2qA, d, V4.sdiv, ← hcd, ← hsd]

/-- C66 is false: `random_R` does not draw from all rotations.  The quarter turn about x in the negative sense is a rotation, and every
matrix that `random_R` can return differs from it by at least 1 in one of the entries (1, 2) and (2, 1). -/
theorem C66_all_rotations_false : IsRot (rot V3.ex (-(Real.pi / 2))) ∧ ∀ (d : V4 ℝ) (R : M3 ℝ), Spec.Draw4 d → randomR d.up = R.up →
    1 ≤ |R.a12 - (rot V3.ex (-(Real.pi / 2))).a12| ∨ 1 ≤ |R.a21 - (rot V3.ex (-(Real.pi / 2))).a21| := by
  refine ⟨rot_isRot _ (by simp [IsUnit3, V3.ex]) _, fun d R hd h => ?_⟩
  obtain ⟨k, θ, hk, x0, y0, z0, t0, t1, rfl⟩ := (C66_range R).1 ⟨d, hd, h⟩
  have hs : 0 ≤ Real.sin θ := Real.sin_nonneg_of_nonneg_of_le_pi t0 t1
  have e1 : (rot V3.ex (-(Real.pi / 2)) : M3 ℝ).a12 = 1 := by simp [rot, V3.ex]
  have e2 : (rot V3.ex (-(Real.pi / 2)) : M3 ℝ).a21 = -1 := by simp [rot, V3.ex]
  have e3 : (rot k θ).a21 - (rot k θ).a12 = 2 * (k.x * Real.sin θ) := by simp [rot]; ring
  rw [e1, e2]
  have : 0 ≤ k.x * Real.sin θ := mul_nonneg x0 hs
  by_contra hn
  simp only [not_or, not_le, abs_lt] at hn
  linarith [hn.1.1, hn.1.2, hn.2.1, hn.2.2]

/-- C66 (`_partial`): `random_transform` has a rotation, a position in the unit cube and no frame names, unless four zeros are drawn. -/
theorem C66_transform_partial (d : V4 ℝ) (p : V3 ℝ) (hd : d ≠ ⟨0, 0, 0, 0⟩) (hp : Spec.Draw3 p) :
    ∃ (R : M3 ℝ) (v : V3 ℝ), randomTransform d.up p.up = ⟨R.up, v.up, none, none⟩ ∧ IsRot R ∧ 0 ≤ v.x ∧ v.x < 1 ∧ 0 ≤ v.y ∧ v.y < 1 ∧
      0 ≤ v.z ∧ v.z < 1 := by
  obtain ⟨R, h, hR⟩ := C66_rotation_partial d hd
  exact ⟨R, p, by simp [randomTransform, h, randomP], hR, hp.1.1, hp.1.2, hp.2.1.1, hp.2.1.2, hp.2.2.1, hp.2.2.2⟩

-- non-vacuity: a draw, and a rotation that can be drawn
example : Spec.Draw4 ⟨1 / 2, 0, 1 / 4, 0⟩ ∧ (⟨1 / 2, 0, 1 / 4, 0⟩ : V4 ℝ) ≠ ⟨0, 0, 0, 0⟩ ∧ Spec.Draw3 ⟨0, 1 / 3, 2 / 3⟩ :=
  ⟨by norm_num [Spec.Draw4], by simp [V4.ext_iff], by norm_num [Spec.Draw3]⟩

example : ∃ d, Spec.Draw4 d ∧ randomR d.up = (rot V3.ey (Real.pi / 3)).up :=
  (C66_range _).2 ⟨V3.ey, Real.pi / 3, by simp [IsUnit3, V3.ey], by simp [V3.ey], by simp [V3.ey], by simp [V3.ey], by positivity,
    by linarith [Real.pi_pos], rfl⟩
