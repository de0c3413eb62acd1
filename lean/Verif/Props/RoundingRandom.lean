import Verif.Lemmas.B64
import Verif.Lemmas.FlQuat
import Verif.Lemmas.FlSlerp
import Verif.Props.Random

/-! # Property C109: random rotations in floating-point arithmetic -/
set_option autoImplicit false

namespace Spec

/-- The numbers `np.random.rand` returns: multiples of 2⁻⁵³ in [0, 1). -/
def Drawn (x : ℝ) : Prop := ∃ n : Nat, n < 2 ^ 53 ∧ x = n * 2⁻¹ ^ 53

end Spec

namespace Fl
variable {F : FSys}

/-- the norm of a quaternion of any size that does not underflow -/
theorem near_norm_size (d : V4 ℝ) {n : ℝ} (hn : 0 < n) (h : d.w * d.w + d.x * d.x + d.y * d.y + d.z * d.z = n * n) (hn2 : n ≤ 2)
    (hη : F.η ≤ F.u * (n * n)) : (d.map of : V4 (Fl F)).norm.Near n (19 * (F.u * n)) := by
  have u0 := F.u_nonneg
  have u1 := F.u_le
  have big := F.big_ge
  have nn : 0 < n * n := mul_pos hn hn
  have n4 : n * n ≤ 4 := by nlinarith
  have sq : ∀ x : ℝ, x * x ≤ n * n → (of x * of x : Fl F).Near (x * x) (2 * (F.u * (n * n))) := by
    intro x hx
    have hx' : |x| ≤ 1 * n := by rw [one_mul]; exact abs_le_of_sq_le_sq (by rw [pow_two, pow_two]; exact hx) hn.le
    have h0 : (of x : Fl F).Near x (0 * (F.u * n)) := by rw [zero_mul]; exact near_of x
    exact Near.mulS 2 h0 h0 hx' hx' hn hn le_rfl le_rfl hη (by norm_num) (by linarith)
  have q0 := mul_self_nonneg d.w
  have q1 := mul_self_nonneg d.x
  have q2 := mul_self_nonneg d.y
  have q3 := mul_self_nonneg d.z
  have t1 := Near.addS (S := 1) 6.01 (sq d.w (by linarith)) (sq d.x (by linarith)) (by rw [abs_of_nonneg (by linarith)]; linarith) nn (by norm_num) (by norm_num)
    hη (by norm_num) (by linarith)
  have t2 := Near.addS (S := 1) 10.02 t1 (sq d.y (by linarith)) (by rw [abs_of_nonneg (by linarith)]; linarith) nn (by norm_num) (by norm_num)
    hη (by norm_num) (by linarith)
  have t3 := Near.addS (S := 1) 15 t2 (sq d.z (by linarith)) (by rw [abs_of_nonneg (by linarith)]; linarith) nn (by norm_num) (by norm_num)
    hη (by norm_num) (by linarith)
  rw [h] at t3
  obtain ⟨W, hW, hWe⟩ := t3
  have un : 0 ≤ F.u * n := by positivity
  have W0 : 0 ≤ W := by
    have h1 := (abs_le.1 hWe).1
    have h2 : 15 * (F.u * (n * n)) ≤ 15 * (1 / 1024 * (n * n)) :=
      mul_le_mul_of_nonneg_left (mul_le_mul_of_nonneg_right u1 nn.le) (by norm_num)
    linarith
  have hs : |Real.sqrt W - n| ≤ 15 * (F.u * n) := by
    have e : |Real.sqrt W - n| * (Real.sqrt W + n) = |W - n * n| := by
      have := Real.mul_self_sqrt W0
      rw [← abs_of_pos (show 0 < Real.sqrt W + n by have := Real.sqrt_nonneg W; linarith), ← abs_mul]
      congr 1
      linear_combination this
    have h3 : |Real.sqrt W - n| * n ≤ |Real.sqrt W - n| * (Real.sqrt W + n) :=
      mul_le_mul_of_nonneg_left (by have := Real.sqrt_nonneg W; linarith) (abs_nonneg _)
    have h4 : |Real.sqrt W - n| * n ≤ 15 * (F.u * n) * n := by linarith
    exact le_of_mul_le_mul_right h4 hn
  have η2 : F.η ≤ 2 * (F.u * n) := by
    have : F.u * n * n ≤ F.u * n * 2 := mul_le_mul_of_nonneg_left hn2 un
    linarith
  have small : F.u * n ≤ 1 / 512 := by
    have := mul_le_mul u1 hn2 hn.le (by norm_num)
    linarith
  have hS := near_round (F := F) (w := Real.sqrt W) (x := n) (d := 15 * (F.u * n)) (e := 19 * (F.u * n)) hs (by
    rw [abs_of_pos hn]
    have : F.u * (15 * (F.u * n)) ≤ 1 / 1024 * (15 * (F.u * n)) := mul_le_mul_of_nonneg_right u1 (by positivity)
    linarith) (by rw [abs_of_pos hn]; linarith)
  change (⟨F.round (Elem.sqrt (of d.w * of d.w + of d.x * of d.x + of d.y * of d.y + of d.z * of d.z : Fl F).val)⟩ : Fl F).Near _ _
  rw [hW, XReal.sqrt_fin W0]
  exact hS

theorem near_unit_size (d : V4 ℝ) {n : ℝ} (hn : 0 < n) (h : d.w * d.w + d.x * d.x + d.y * d.y + d.z * d.z = n * n) (hn2 : n ≤ 2)
    (hη : F.η ≤ F.u * (n * n)) (hu : 1000 * F.u ≤ 1) : Spec.QNear ((d.map of : V4 (Fl F)).sdiv (d.map of : V4 (Fl F)).norm) (d.sdiv n) (25 * F.u) := by
  have u0 := F.u_nonneg
  have hN := near_norm_size d hn h hn2 hη
  have un : 0 ≤ F.u * n := by positivity
  have key : ∀ x : ℝ, x * x ≤ n * n → (of x / (d.map of : V4 (Fl F)).norm : Fl F).Near (x / n) (25 * F.u) := by
    intro x hx
    have hx' : |x| ≤ n := abs_le_of_sq_le_sq (by rw [pow_two, pow_two]; exact hx) hn.le
    have small : F.u * n ≤ 1 / 1000 * n := mul_le_mul_of_nonneg_right (by linarith) hn.le
    have := near_quotG (near_of (F := F) x) hN hn (by rw [abs_div, abs_of_pos hn]; exact (div_le_one hn).2 hx') (by linarith) (D := 22 * F.u) (by
      rw [div_le_iff₀ (by linarith)]
      linarith) (by linarith)
    exact this.mono (by linarith)
  have q0 := mul_self_nonneg d.w
  have q1 := mul_self_nonneg d.x
  have q2 := mul_self_nonneg d.y
  have q3 := mul_self_nonneg d.z
  exact ⟨key _ (by linarith), key _ (by linarith), key _ (by linarith), key _ (by linarith)⟩

end Fl

open Fl

/-- C109: for a draw that is not so small that squares underflow, `random_R` in floating-point arithmetic is finite and within `5550 u` of
the rotation of the normalised draw. -/
theorem C109_random_R_rounding {F : FSys} (hu : 25000 * F.u ≤ 1) (d : V4 ℝ) (hd : Spec.Draw4 d)
    (hη : F.η ≤ F.u * (d.w * d.w + d.x * d.x + d.y * d.y + d.z * d.z)) (h0 : d ≠ ⟨0, 0, 0, 0⟩) :
    ∃ R, IsRot R ∧ randomR d.up = R.up ∧ Spec.MNear (randomR (d.map of : V4 (Fl F))) R (5550 * F.u) := by
  have u0 := F.u_nonneg
  have hn := V4.norm_pos' h0
  obtain ⟨⟨w0, w1⟩, ⟨x0, x1⟩, ⟨y0, y1⟩, z0, z1⟩ := hd
  have q0 := mul_self_nonneg d.w
  have q1 := mul_self_nonneg d.x
  have q2 := mul_self_nonneg d.y
  have q3 := mul_self_nonneg d.z
  have e : d.w * d.w + d.x * d.x + d.y * d.y + d.z * d.z = d.norm * d.norm :=
    (Real.mul_self_sqrt (show 0 ≤ d.w * d.w + d.x * d.x + d.y * d.y + d.z * d.z by linarith)).symm
  have n2 : d.norm ≤ 2 := by
    by_contra hh
    nlinarith
  have hq := V4.sdiv_norm_unit h0
  refine ⟨_, C05_q2R_isRot _ hq, randomR_up h0, ?_⟩
  have := q2R_near (ε := 25 * F.u) hq (by linarith) (by linarith) (near_unit_size (F := F) d hn e n2 (by rw [← e]; exact hη) (by linarith))
  exact MNear.mono this (by linarith)

theorem Drawn.bounds {x : ℝ} (h : Spec.Drawn x) : 0 ≤ x ∧ x < 1 := by
  obtain ⟨n, hn, rfl⟩ := h
  refine ⟨by positivity, ?_⟩
  have : (n : ℝ) < 2 ^ 53 := by exact_mod_cast hn
  calc (n : ℝ) * 2⁻¹ ^ 53 < 2 ^ 53 * 2⁻¹ ^ 53 := mul_lt_mul_of_pos_right this (by positivity)
    _ = 1 := by rw [← mul_pow]; norm_num

theorem Drawn.zero_or {x : ℝ} (h : Spec.Drawn x) : x = 0 ∨ 2⁻¹ ^ 106 ≤ x * x := by
  obtain ⟨n, hn, rfl⟩ := h
  rcases Nat.eq_zero_or_pos n with h | h
  · exact .inl (by simp [h])
  · have h1 : (1 : ℝ) ≤ n := by exact_mod_cast h
    refine .inr ?_
    have : (2⁻¹ : ℝ) ^ 106 = 2⁻¹ ^ 53 * 2⁻¹ ^ 53 := by rw [← pow_add]
    rw [this]
    refine mul_le_mul ?_ ?_ (by positivity) (by positivity) <;> exact le_mul_of_one_le_left (by positivity) h1

/-- C109: in binary64 `random_transform` returns, for every draw of the generator except four zeros for the rotation, a transform whose
rotation is within 5550 rounding units of a rotation and whose position is the draw. -/
theorem C109_random_transform_partial (lib : Libm) (d : V4 ℝ) (p : V3 ℝ) (hw : Spec.Drawn d.w) (hx : Spec.Drawn d.x) (hy : Spec.Drawn d.y)
    (hz : Spec.Drawn d.z) (h0 : d ≠ ⟨0, 0, 0, 0⟩) :
    ∃ (T : Transform (Fl (b64 lib))) (R : M3 ℝ), randomTransform (d.map of) (p.map of) = T ∧ IsRot R ∧ Spec.MNear T.R R (5550 * 2⁻¹ ^ 50) ∧
      T.p = p.map of ∧ T.parent = none ∧ T.child = none := by
  have hη : (b64 lib).η ≤ (b64 lib).u * (d.w * d.w + d.x * d.x + d.y * d.y + d.z * d.z) := by
    have q0 := mul_self_nonneg d.w
    have q1 := mul_self_nonneg d.x
    have q2 := mul_self_nonneg d.y
    have q3 := mul_self_nonneg d.z
    have big : (2⁻¹ : ℝ) ^ 106 ≤ d.w * d.w + d.x * d.x + d.y * d.y + d.z * d.z := by
      rcases Drawn.zero_or hw with a | a <;> rcases Drawn.zero_or hx with b | b <;> rcases Drawn.zero_or hy with c | c <;>
        rcases Drawn.zero_or hz with e | e
      · exact absurd (by ext <;> assumption) h0
      all_goals linarith
    change (2⁻¹ : ℝ) ^ 1075 ≤ 2⁻¹ ^ 50 * _
    calc (2⁻¹ : ℝ) ^ 1075 ≤ 2⁻¹ ^ (50 + 106) := pow_le_pow_of_le_one (by norm_num) (by norm_num) (by norm_num)
      _ = 2⁻¹ ^ 50 * 2⁻¹ ^ 106 := pow_add _ _ _
      _ ≤ _ := mul_le_mul_of_nonneg_left big (by positivity)
  obtain ⟨R, hR, -, h⟩ := C109_random_R_rounding (F := b64 lib) (by change 25000 * (2⁻¹ : ℝ) ^ 50 ≤ 1; norm_num) d
    ⟨Drawn.bounds hw, Drawn.bounds hx, Drawn.bounds hy, Drawn.bounds hz⟩ hη h0
  exact ⟨_, R, rfl, hR, h, rfl, rfl, rfl⟩

/-- C109 is false: four zeros are a draw of the generator, and all entries are NaN then, in every floating-point system. -/
theorem C109_zero_false {F : FSys} : Spec.Drawn 0 ∧
    randomR (⟨of 0, of 0, of 0, of 0⟩ : V4 (Fl F)) = ⟨⟨.nan⟩, ⟨.nan⟩, ⟨.nan⟩, ⟨.nan⟩, ⟨.nan⟩, ⟨.nan⟩, ⟨.nan⟩, ⟨.nan⟩, ⟨.nan⟩⟩ := by
  refine ⟨⟨0, by norm_num, by simp⟩, ?_⟩
  have r0 : F.round (.fin 0) = .fin 0 := by
    have := F.big_ge
    simp only [FSys.round, F.rnd_zero, abs_zero]
    rw [if_pos (by linarith)]
  have m0 : (of 0 * of 0 : Fl F) = of 0 := by
    change (⟨F.round (.fin 0 * .fin 0)⟩ : Fl F) = _
    rw [XReal.fin_mul, mul_zero, r0]; rfl
  have a0 : (of 0 + of 0 : Fl F) = of 0 := by
    change (⟨F.round (.fin 0 + .fin 0)⟩ : Fl F) = _
    rw [XReal.fin_add, add_zero, r0]; rfl
  have s0 : (Elem.sqrt (of 0) : Fl F) = of 0 := by
    change (⟨F.round (Elem.sqrt (.fin 0))⟩ : Fl F) = _
    rw [XReal.sqrt_fin le_rfl, Real.sqrt_zero, r0]; rfl
  have d0 : (of 0 / of 0 : Fl F) = ⟨.nan⟩ := by
    change (⟨F.round (.fin 0 / .fin 0)⟩ : Fl F) = _
    rw [XReal.zero_div_zero]; rfl
  have nm : ∀ a : Fl F, (⟨.nan⟩ * a : Fl F) = ⟨.nan⟩ := fun a => by
    change (⟨F.round (.nan * a.val)⟩ : Fl F) = _
    rw [XReal.nan_mul]; rfl
  have mn : ∀ a : Fl F, (a * ⟨.nan⟩ : Fl F) = ⟨.nan⟩ := fun a => by
    change (⟨F.round (a.val * .nan)⟩ : Fl F) = _
    rw [XReal.mul_nan]; rfl
  have na : ∀ a : Fl F, (⟨.nan⟩ + a : Fl F) = ⟨.nan⟩ := fun a => by
    change (⟨F.round (.nan + a.val)⟩ : Fl F) = _
    rw [XReal.nan_add]; rfl
  have an : ∀ a : Fl F, (a + ⟨.nan⟩ : Fl F) = ⟨.nan⟩ := fun a => by
    change (⟨F.round (a.val + .nan)⟩ : Fl F) = _
    rw [XReal.add_nan]; rfl
  have nn : (-⟨.nan⟩ : Fl F) = ⟨.nan⟩ := rfl
  have hq : (⟨of 0, of 0, of 0, of 0⟩ : V4 (Fl F)).sdiv (⟨of 0, of 0, of 0, of 0⟩ : V4 (Fl F)).norm = ⟨⟨.nan⟩, ⟨.nan⟩, ⟨.nan⟩, ⟨.nan⟩⟩ := by
    simp only [V4.sdiv, V4.norm, m0, a0, s0, d0]
  unfold randomR
  rw [hq]
  simp only [q2R]
  ext1 <;> simp [V4.vec, nm, mn, na, an, nn]

/-- A draw and its transform in binary64. -/
example (lib : Libm) : ∃ (T : Transform (Fl (b64 lib))) (R : M3 ℝ), randomTransform (V4.map of ⟨2⁻¹ ^ 53, 0, 0, 2⁻¹ ^ 53⟩) (V3.map of ⟨0, 0, 0⟩) = T ∧
    IsRot R ∧ Spec.MNear T.R R (5550 * 2⁻¹ ^ 50) := by
  obtain ⟨T, R, h1, h2, h3, -⟩ := C109_random_transform_partial lib ⟨2⁻¹ ^ 53, 0, 0, 2⁻¹ ^ 53⟩ ⟨0, 0, 0⟩ ⟨1, by norm_num, by norm_num⟩ ⟨0, by norm_num, by simp⟩
    ⟨0, by norm_num, by simp⟩ ⟨1, by norm_num, by norm_num⟩ (by simp [V4.ext_iff])
  exact ⟨T, R, h1, h2, h3⟩
