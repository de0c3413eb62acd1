import Verif.Lemmas.FlMat

/-! # Rounding error of `rot` -/
set_option autoImplicit false

namespace Fl
variable {F : FSys}

theorem VNear.entries {a : V3 (Fl F)} {v : V3 ℝ} {d : ℝ} (h : Spec.VNear a v d) : a.x.Near v.x d ∧ a.y.Near v.y d ∧ a.z.Near v.z d := by
  obtain ⟨w, rfl, h⟩ := h
  exact ⟨⟨w.x, rfl, (V3.abs_x_le (w - v)).trans h⟩, ⟨w.y, rfl, (V3.abs_y_le (w - v)).trans h⟩,
    ⟨w.z, rfl, (V3.abs_z_le (w - v)).trans h⟩⟩

/-- One entry of `1 + s * K + (1 - c) * K²`. -/
theorem near_rot_entry {th δ a p₁ p₂ p₃ p₄ p₅ p₆ : Fl F} {θ d x q₁ q₂ q₃ q₄ q₅ q₆ : ℝ} (hth : th.Near θ (1 * (F.u * 1)))
    (hδ : δ.Near d (0 * (F.u * 1))) (hd : |d| ≤ 1) (ha : a.Near x (1 * (F.u * 1))) (hx : |x| ≤ 1 * 1)
    (h₁ : p₁.Near q₁ (1 * (F.u * 1))) (h₂ : p₂.Near q₂ (1 * (F.u * 1))) (h₃ : p₃.Near q₃ (1 * (F.u * 1)))
    (h₄ : p₄.Near q₄ (1 * (F.u * 1))) (h₅ : p₅.Near q₅ (1 * (F.u * 1))) (h₆ : p₆.Near q₆ (1 * (F.u * 1)))
    (b₁ : |q₁| ≤ 1 * 1) (b₂ : |q₂| ≤ 1 * 1) (b₃ : |q₃| ≤ 1 * 1) (b₄ : |q₄| ≤ 1 * 1) (b₅ : |q₅| ≤ 1 * 1) (b₆ : |q₆| ≤ 1 * 1)
    (hK : |q₁ * q₂ + q₃ * q₄ + q₅ * q₆| ≤ 1)
    (hR : |d + Elem.sin θ * x + (1 - Elem.cos θ) * (q₁ * q₂ + q₃ * q₄ + q₅ * q₆)| ≤ 1) :
    (δ + Elem.sin th * a + (1 - Elem.cos th) * (p₁ * p₂ + p₃ * p₄ + p₅ * p₆)).Near
      (d + Elem.sin θ * x + (1 - Elem.cos θ) * (q₁ * q₂ + q₃ * q₄ + q₅ * q₆)) (63 * (F.u * 1)) := by
  have hη : F.η ≤ F.u * 1 := by have := F.η_le; linarith
  have hη2 : F.η ≤ F.u * (1 * 1) := by have := F.η_le; linarith
  have big := F.big_ge
  have mul1 : ∀ {p q : ℝ}, |p| ≤ 1 * 1 → |q| ≤ 1 * 1 → |p * q| ≤ 1 := by
    intro p q hp hq
    rw [abs_mul]
    rw [mul_one] at hp hq
    exact mul_le_one₀ hp (abs_nonneg _) hq
  have prod : ∀ {p p' : Fl F} {q q' : ℝ}, p.Near q (1 * (F.u * 1)) → p'.Near q' (1 * (F.u * 1)) → |q| ≤ 1 * 1 → |q'| ≤ 1 * 1 →
      (p * p').Near (q * q') (401 / 100 * (F.u * 1)) := by
    intro p p' q q' h h' b b'
    have := Near.mulS (401 / 100) h h' b b' one_pos one_pos (by norm_num) (by norm_num) hη2 (by norm_num) (by linarith)
    rwa [mul_one (1 : ℝ)] at this
  have s2 := Near.addS (S := 2) (111 / 10) (prod h₁ h₂ b₁ b₂) (prod h₃ h₄ b₃ b₄)
    (by have := abs_add_le (q₁ * q₂) (q₃ * q₄); have := mul1 b₁ b₂; have := mul1 b₃ b₄; linarith)
    one_pos (by norm_num) (by norm_num) hη (by norm_num) (by linarith)
  have s3 := Near.addS (S := 1) 18 s2 (prod h₅ h₆ b₅ b₆) (by linarith) one_pos (by norm_num) (by norm_num) hη (by norm_num)
    (by linarith)
  have hs : |Elem.sin θ| ≤ 1 * 1 := by rw [mul_one]; exact Real.abs_sin_le_one θ
  have hc : |1 - Elem.cos θ| ≤ 2 * 1 := by
    rw [abs_le]
    have h1 := Real.cos_le_one θ
    have h2 := Real.neg_one_le_cos θ
    simp only [cos_real]
    constructor <;> linarith
  have sn : (Elem.sin th).Near (Elem.sin θ) (2 * (F.u * 1)) := hth.sin.mono (by linarith)
  have cn : (Elem.cos th).Near (Elem.cos θ) (2 * (F.u * 1)) := hth.cos.mono (by linarith)
  have sa := Near.mulS (51 / 10) sn ha hs hx one_pos one_pos (by norm_num) (by norm_num) hη2 (by norm_num) (by linarith)
  rw [mul_one (1 : ℝ)] at sa
  have c1 := Near.subS (6 : ℝ) (near_one.mono (by simp : (0 : ℝ) ≤ 0 * (F.u * 1))) cn hc one_pos le_rfl (by norm_num) hη
    (by norm_num) (by linarith)
  have ck := Near.mulS (N := 1) (46 : ℝ) c1 s3 hc (by rwa [mul_one]) one_pos one_pos (by norm_num) (by norm_num) hη2 (by norm_num)
    (by linarith)
  rw [mul_one (1 : ℝ)] at ck
  have d1 := Near.addS (S := 2) (9 : ℝ) hδ sa (by
    have h1 := abs_add_le d (Elem.sin θ * x)
    have h2 := mul1 hs hx
    linarith) one_pos le_rfl (by norm_num) hη (by norm_num) (by linarith)
  exact (Near.addS (S := 1) (58 : ℝ) d1 ck (by linarith) one_pos (by norm_num) (by norm_num) hη (by norm_num) (by linarith)).mono
    (by have := F.u_nonneg; nlinarith)

/-- `rot` of an axis within `u` of a unit vector and an angle within `u` of `θ`. -/
theorem rot_near {k : V3 ℝ} (hk : IsUnit3 k) {k' : V3 (Fl F)} (hkk : Spec.VNear k' k F.u) {th : Fl F} {θ : ℝ} (hth : th.Near θ F.u) :
    Spec.MNear (rot k' th) (rot k θ) (189 * F.u) := by
  obtain ⟨hx, hy, hz⟩ := VNear.entries hkk
  have e1 : F.u = 1 * (F.u * 1) := by ring
  rw [e1] at hx hy hz hth
  have hu := F.u_nonneg
  have z0 : (0 : Fl F).Near 0 (1 * (F.u * 1)) := near_zero.mono (by linarith)
  have zd : (0 : Fl F).Near 0 (0 * (F.u * 1)) := near_zero.mono (by linarith)
  have od : (1 : Fl F).Near 1 (0 * (F.u * 1)) := near_one.mono (by linarith)
  have bx : |k.x| ≤ 1 * 1 := by rw [mul_one, ← V3.norm_eq_one hk]; exact V3.abs_x_le k
  have by' : |k.y| ≤ 1 * 1 := by rw [mul_one, ← V3.norm_eq_one hk]; exact V3.abs_y_le k
  have bz : |k.z| ≤ 1 * 1 := by rw [mul_one, ← V3.norm_eq_one hk]; exact V3.abs_z_le k
  have nx : |-k.x| ≤ 1 * 1 := by rwa [abs_neg]
  have ny : |-k.y| ≤ 1 * 1 := by rwa [abs_neg]
  have nz : |-k.z| ≤ 1 * 1 := by rwa [abs_neg]
  have b0 : |(0 : ℝ)| ≤ 1 * 1 := by simp
  have d0 : |(0 : ℝ)| ≤ 1 := by simp
  have d1 : |(1 : ℝ)| ≤ 1 := by simp
  obtain ⟨⟨r00, r10, r20⟩, ⟨r01, r11, r21⟩, r02, r12, r22⟩ := (rot_isRot k hk θ).opLe.entries
  have sq := hk.sq
  have ent : Spec.MNear (rot k' th) (rot k θ) (3 * (63 * (F.u * 1))) := by
    refine mNear_of_entries
      (near_rot_entry hth od d1 z0 b0 z0 z0 hz.neg hz hy hy.neg b0 b0 nz bz by' ny ?_ r00)
      (near_rot_entry hth zd d0 hz.neg nz z0 hz.neg hz.neg z0 hy hx b0 nz nz b0 by' bx ?_ r01)
      (near_rot_entry hth zd d0 hy by' z0 hy hz.neg hx.neg hy z0 b0 by' nz nx by' b0 ?_ r02)
      (near_rot_entry hth zd d0 hz bz hz z0 z0 hz hx.neg hy.neg bz b0 b0 bz nx ny ?_ r10)
      (near_rot_entry hth od d1 z0 b0 hz hz.neg z0 z0 hx.neg hx bz nz b0 b0 nx bx ?_ r11)
      (near_rot_entry hth zd d0 hx.neg nx hz hy z0 hx.neg hx.neg z0 bz by' b0 nx nx b0 ?_ r12)
      (near_rot_entry hth zd d0 hy.neg ny hy.neg z0 hx hz z0 hy.neg ny b0 bx bz b0 ny ?_ r20)
      (near_rot_entry hth zd d0 hx bx hy.neg hz.neg hx z0 z0 hx ny nz bx b0 b0 bx ?_ r21)
      (near_rot_entry hth od d1 z0 b0 hy.neg hy hx hx.neg z0 z0 ny by' bx nx b0 b0 ?_ r22)
    all_goals
      clear * - sq
      simp only [hat]
      rw [abs_le]
      constructor <;> nlinarith [sq_nonneg (k.x + k.y), sq_nonneg (k.x - k.y), sq_nonneg (k.x + k.z), sq_nonneg (k.x - k.z),
        sq_nonneg (k.y + k.z), sq_nonneg (k.y - k.z), sq_nonneg k.x, sq_nonneg k.y, sq_nonneg k.z]
  exact MNear.mono ent (by linarith)

end Fl
