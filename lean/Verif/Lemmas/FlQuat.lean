import Verif.Lemmas.FlEps
import Verif.Lemmas.SO3
import Verif.Props.Rotation
import Verif.Lemmas.ListM

/-! # Rounding error of `R2q` and `q2R` -/
set_option autoImplicit false

namespace Fl
variable {F : FSys} {ε : ℝ}

theorem Near.lt_real {a b : Fl F} {x y d e : ℝ} (ha : a.Near x d) (hb : b.Near y e) (h : a < b) : x < y + (d + e) := by
  obtain ⟨v, hv, h1⟩ := ha
  obtain ⟨w, hw, h2⟩ := hb
  have h : a.val < b.val := h
  rw [hv, hw, XReal.fin_lt] at h
  have := (abs_le.1 h1).1
  have := (abs_le.1 h2).2
  linarith

theorem Near.not_lt_real {a b : Fl F} {x y d e : ℝ} (ha : a.Near x d) (hb : b.Near y e) (h : ¬ a < b) : y ≤ x + (d + e) := by
  obtain ⟨v, hv, h1⟩ := ha
  obtain ⟨w, hw, h2⟩ := hb
  have h : ¬ a.val < b.val := h
  rw [hv, hw, XReal.fin_lt] at h
  have := (abs_le.1 h1).2
  have := (abs_le.1 h2).1
  linarith

theorem Near.not_lt_zero {a : Fl F} {x d : ℝ} (ha : a.Near x d) (h : d ≤ x) : ¬ a < 0 := fun hlt => by
  obtain ⟨v, hv, h1⟩ := ha
  have hlt : a.val < XReal.fin 0 := hlt
  rw [hv, XReal.fin_lt] at hlt
  have := (abs_le.1 h1).1
  linarith

/-- The divisor `S` of `R2q`, the large component and the quotients by `S`. -/
theorem R2q_tail {P : Fl F} {p : ℝ} (hP : P.Near p (18 * ε)) (hu : F.u ≤ ε) (hε : ε ≤ 1 / 1000) (h1 : 81 / 100 ≤ p) (h4 : p ≤ 4) :
    mathSqrt P = .ok (Elem.sqrt P) ∧ (lit (1/4) * (lit 2 * Elem.sqrt P)).Near (1/4 * (2 * Real.sqrt p)) (41 * ε) ∧
    ∀ {n' : Fl F} {n : ℝ}, n'.Near n (6 * ε) → |n / (2 * Real.sqrt p)| ≤ 1 →
      (n' / (lit 2 * Elem.sqrt P)).Near (n / (2 * Real.sqrt p)) (41 * ε) := by
  have h0 : 0 ≤ ε := F.u_nonneg.trans hu
  have hs := hP.sqrtE (c := 9 / 10) (S := 2) 24 hu (by linarith) (by norm_num) (by linarith) (by linarith) (by linarith) (by norm_num)
    (by norm_num) (by norm_num) (by norm_num)
  have hsq : Real.sqrt p ≤ 2 := Real.sqrt_le_iff.2 ⟨by norm_num, by linarith⟩
  have hsl : 9 / 10 ≤ Real.sqrt p := Real.le_sqrt_of_sq_le (by linarith)
  have l2 : (lit 2 : Fl F).Near 2 (3 * ε) := by
    have := near_lit (F := F) (ε := ε) 2 (S := 2) hu (by linarith) (by norm_num) (by norm_num)
    norm_num at this ⊢
    exact this
  have l4 : (lit (1/4) : Fl F).Near (1/4) (5 / 4 * ε) := by
    have := near_lit (F := F) (ε := ε) (1/4) (S := 1/4) hu (by linarith) (by norm_num [abs_le]) (by norm_num)
    norm_num at this ⊢
    exact this
  have hS := l2.mulE (M := 2) (N := 2) 60 hs hu hε (by norm_num) (by rw [abs_le]; constructor <;> linarith) (by norm_num) (by norm_num)
    (by norm_num) (by norm_num)
  refine ⟨?_, ?_, ?_⟩
  · unfold mathSqrt
    rw [if_neg (hP.not_lt_zero (by linarith))]
  · exact (l4.mulE (M := 1/4) (N := 4) 23 hS hu hε (by norm_num [abs_le]) (by rw [abs_le]; constructor <;> linarith) (by norm_num)
      (by norm_num) (by norm_num) (by norm_num)).mono (by linarith)
  · intro n' n hn hq
    exact hn.divE (Q := 1) (c := 17 / 10) 41 hS hu (by linarith) hq (by norm_num) (by linarith) (by norm_num) (by norm_num) (by norm_num)
      (by norm_num)

theorem unit4_abs {q : V4 ℝ} (h : IsUnit4 q) : |q.w| ≤ 1 ∧ |q.x| ≤ 1 ∧ |q.y| ≤ 1 ∧ |q.z| ≤ 1 := by
  unfold IsUnit4 at h
  have := sq_nonneg q.w
  have := sq_nonneg q.x
  have := sq_nonneg q.y
  have := sq_nonneg q.z
  refine ⟨?_, ?_, ?_, ?_⟩ <;> rw [← sq_le_one_iff_abs_le_one] <;> nlinarith

theorem two_sqrt_ne {p : ℝ} (h : 0 < p) : 2 * Real.sqrt p ≠ 0 := by have := Real.sqrt_pos.2 h; positivity
theorem two_sqrt_sq {p : ℝ} (h : 0 < p) : (2 * Real.sqrt p) * (2 * Real.sqrt p) = 4 * p := by
  have := Real.mul_self_sqrt h.le; linear_combination 4 * this

/-- `R2q` of a matrix whose entries are within `ε ≥ u` of a rotation. -/
theorem R2q_near {R : M3 ℝ} (hR : IsRot R) {R' : M3 (Fl F)} (hu : F.u ≤ ε) (hε : ε ≤ 1 / 1000)
    (e00 : R'.a00.Near R.a00 (1 * ε)) (e01 : R'.a01.Near R.a01 (1 * ε)) (e02 : R'.a02.Near R.a02 (1 * ε))
    (e10 : R'.a10.Near R.a10 (1 * ε)) (e11 : R'.a11.Near R.a11 (1 * ε)) (e12 : R'.a12.Near R.a12 (1 * ε))
    (e20 : R'.a20.Near R.a20 (1 * ε)) (e21 : R'.a21.Near R.a21 (1 * ε)) (e22 : R'.a22.Near R.a22 (1 * ε)) :
    ∃ q' q, R2q R' = .ok q' ∧ IsUnit4 q ∧ q2R q = R ∧ Spec.QNear q' q (41 * ε) := by
  have h0 : 0 ≤ ε := F.u_nonneg.trans hu
  have hε1 : ε ≤ 1 := by linarith
  obtain ⟨⟨r00, r10, r20⟩, ⟨r01, r11, r21⟩, r02, r12, r22⟩ := hR.opLe.entries
  have tri : ∀ {x y : ℝ}, |x| ≤ 1 → |y| ≤ 1 → |x + y| ≤ 2 ∧ |x - y| ≤ 2 := fun {x y} hx hy =>
    ⟨(abs_add_le x y).trans (by linarith), (abs_sub x y).trans (by linarith)⟩
  have dif : ∀ {a b : Fl F} {x y : ℝ}, a.Near x (1 * ε) → b.Near y (1 * ε) → |x| ≤ 1 → |y| ≤ 1 → (a - b).Near (x - y) (6 * ε) :=
    fun ha hb hx hy => ha.subE 6 hb hu hε1 (tri hx hy).2 (by norm_num) (by norm_num) (by norm_num)
  have sum : ∀ {a b : Fl F} {x y : ℝ}, a.Near x (1 * ε) → b.Near y (1 * ε) → |x| ≤ 1 → |y| ≤ 1 → (a + b).Near (x + y) (6 * ε) :=
    fun ha hb hx hy => ha.addE 6 hb hu hε1 (tri hx hy).1 (by norm_num) (by norm_num) (by norm_num)
  have one : (1 : Fl F).Near 1 (0 * ε) := near_one.mono (by linarith)
  rw [abs_le] at r00 r11 r22
  have htr : R'.trace.Near R.trace (12 * ε) := by
    have h1 := sum e00 e11 (abs_le.2 r00) (abs_le.2 r11)
    exact h1.addE 12 (S := 3) e22 hu hε1 (by rw [abs_le]; constructor <;> linarith) (by norm_num) (by norm_num) (by norm_num)
  have htr' : R.trace = R.a00 + R.a11 + R.a22 := rfl
  have zero : (0 : Fl F).Near 0 (0 * ε) := near_zero.mono (by linarith)
  unfold R2q
  by_cases c1 : 0 < R'.trace
  · have c1' := zero.lt_real htr c1
    have hP := htr.addE 18 one hu hε1 (S := 4) (by rw [abs_le]; constructor <;> linarith) (by norm_num) (by norm_num) (by norm_num)
    obtain ⟨t1, t2, t3⟩ := R2q_tail hP hu hε (by linarith) (by linarith)
    have hp : 0 < R.trace + 1 := by linarith
    obtain ⟨b1, b2⟩ := R2q_branch1 hR (two_sqrt_ne hp) (two_sqrt_sq hp)
    obtain ⟨-, q1, q2, q3⟩ := unit4_abs b1
    dsimp only
    rw [if_pos c1, t1]
    exact ⟨_, _, rfl, b1, b2, t2, t3 (dif e21 e12 r21 r12) q1, t3 (dif e02 e20 r02 r20) q2, t3 (dif e10 e01 r10 r01) q3⟩
  have c1' := zero.not_lt_real htr c1
  dsimp only
  rw [if_neg c1]
  by_cases c2 : R'.a11 < R'.a00 ∧ R'.a22 < R'.a00
  · have d1 := e11.lt_real e00 c2.1
    have d2 := e22.lt_real e00 c2.2
    have p1 := one.addE 5 e00 hu hε1 (S := 2) (by rw [abs_le]; constructor <;> linarith) (by norm_num) (by norm_num) (by norm_num)
    have p2 := p1.subE 11 e11 hu hε1 (S := 3) (by rw [abs_le]; constructor <;> linarith) (by norm_num) (by norm_num) (by norm_num)
    have hP := p2.subE 18 e22 hu hε1 (S := 4) (by rw [abs_le]; constructor <;> linarith) (by norm_num) (by norm_num) (by norm_num)
    obtain ⟨t1, t2, t3⟩ := R2q_tail hP hu hε (by linarith) (by linarith)
    have hp : 0 < 1 + R.a00 - R.a11 - R.a22 := by linarith
    obtain ⟨b1, b2⟩ := R2q_branch2 hR (two_sqrt_ne hp) (two_sqrt_sq hp)
    obtain ⟨q0, -, q2, q3⟩ := unit4_abs b1
    rw [if_pos c2, t1]
    exact ⟨_, _, rfl, b1, b2, t3 (dif e21 e12 r21 r12) q0, t2, t3 (sum e01 e10 r01 r10) q2, t3 (sum e02 e20 r02 r20) q3⟩
  rw [if_neg c2]
  have c2' : R.a00 ≤ R.a11 + (1 * ε + 1 * ε) ∨ R.a00 ≤ R.a22 + (1 * ε + 1 * ε) := by
    by_cases h : R'.a11 < R'.a00
    · exact Or.inr (e22.not_lt_real e00 fun h' => c2 ⟨h, h'⟩)
    · exact Or.inl (e11.not_lt_real e00 h)
  by_cases c3 : R'.a22 < R'.a11
  · have d1 := e22.lt_real e11 c3
    have p1 := one.subE 5 e00 hu hε1 (S := 2) (by rw [abs_le]; constructor <;> linarith) (by norm_num) (by norm_num) (by norm_num)
    have p2 := p1.addE 11 e11 hu hε1 (S := 3) (by rw [abs_le]; constructor <;> linarith) (by norm_num) (by norm_num) (by norm_num)
    have hP := p2.subE 18 e22 hu hε1 (S := 4) (by rw [abs_le]; constructor <;> linarith) (by norm_num) (by norm_num) (by norm_num)
    have hl : 81 / 100 ≤ 1 - R.a00 + R.a11 - R.a22 := by rcases c2' with h | h <;> linarith
    obtain ⟨t1, t2, t3⟩ := R2q_tail hP hu hε hl (by linarith)
    have hp : 0 < 1 - R.a00 + R.a11 - R.a22 := by linarith
    obtain ⟨b1, b2⟩ := R2q_branch3 hR (two_sqrt_ne hp) (two_sqrt_sq hp)
    obtain ⟨q0, q1, -, q3⟩ := unit4_abs b1
    rw [if_pos c3, t1]
    exact ⟨_, _, rfl, b1, b2, t3 (dif e02 e20 r02 r20) q0, t3 (sum e01 e10 r01 r10) q1, t2, t3 (sum e12 e21 r12 r21) q3⟩
  · have d1 := e22.not_lt_real e11 c3
    have p1 := one.subE 5 e00 hu hε1 (S := 2) (by rw [abs_le]; constructor <;> linarith) (by norm_num) (by norm_num) (by norm_num)
    have p2 := p1.subE 11 e11 hu hε1 (S := 3) (by rw [abs_le]; constructor <;> linarith) (by norm_num) (by norm_num) (by norm_num)
    have hP := p2.addE 18 e22 hu hε1 (S := 4) (by rw [abs_le]; constructor <;> linarith) (by norm_num) (by norm_num) (by norm_num)
    have hl : 81 / 100 ≤ 1 - R.a00 - R.a11 + R.a22 := by rcases c2' with h | h <;> linarith
    obtain ⟨t1, t2, t3⟩ := R2q_tail hP hu hε hl (by linarith)
    have hp : 0 < 1 - R.a00 - R.a11 + R.a22 := by linarith
    obtain ⟨b1, b2⟩ := R2q_branch4 hR (two_sqrt_ne hp) (two_sqrt_sq hp)
    obtain ⟨q0, q1, q2, -⟩ := unit4_abs b1
    rw [if_neg c3, t1]
    exact ⟨_, _, rfl, b1, b2, t3 (dif e10 e01 r10 r01) q0, t3 (sum e02 e20 r02 r20) q1, t3 (sum e12 e21 r12 r21) q2, t2⟩

/-- One entry of `1 + 2 w K + 2 K²`. -/
theorem near_q2R_entry {w δ a p₁ p₂ p₃ p₄ p₅ p₆ : Fl F} {c d x q₁ q₂ q₃ q₄ q₅ q₆ : ℝ} (hu : F.u ≤ ε) (hε : ε ≤ 1 / 1000)
    (hw : w.Near c (1 * ε)) (hc : |c| ≤ 1)
    (hδ : δ.Near d (0 * ε)) (hd : |d| ≤ 1) (ha : a.Near x (1 * ε)) (hx : |x| ≤ 1)
    (h₁ : p₁.Near q₁ (1 * ε)) (h₂ : p₂.Near q₂ (1 * ε)) (h₃ : p₃.Near q₃ (1 * ε))
    (h₄ : p₄.Near q₄ (1 * ε)) (h₅ : p₅.Near q₅ (1 * ε)) (h₆ : p₆.Near q₆ (1 * ε))
    (b₁ : |q₁| ≤ 1) (b₂ : |q₂| ≤ 1) (b₃ : |q₃| ≤ 1) (b₄ : |q₄| ≤ 1) (b₅ : |q₅| ≤ 1) (b₆ : |q₆| ≤ 1)
    (hK : |q₁ * q₂ + q₃ * q₄ + q₅ * q₆| ≤ 1)
    (hR : |d + lit 2 * c * x + lit 2 * (q₁ * q₂ + q₃ * q₄ + q₅ * q₆)| ≤ 1) :
    (δ + lit 2 * w * a + lit 2 * (p₁ * p₂ + p₃ * p₄ + p₅ * p₆)).Near
      (d + lit 2 * c * x + lit 2 * (q₁ * q₂ + q₃ * q₄ + q₅ * q₆)) (74 * ε) := by
  have h0 : 0 ≤ ε := F.u_nonneg.trans hu
  have hε1 : ε ≤ 1 := by linarith
  have e2 : (lit 2 : ℝ) = 2 := by simp
  rw [e2] at hR ⊢
  have mul1 : ∀ {p q : ℝ}, |p| ≤ 1 → |q| ≤ 1 → |p * q| ≤ 1 := by
    intro p q hp hq
    rw [abs_mul]
    exact mul_le_one₀ hp (abs_nonneg _) hq
  have prod : ∀ {p p' : Fl F} {q q' : ℝ}, p.Near q (1 * ε) → p'.Near q' (1 * ε) → |q| ≤ 1 → |q'| ≤ 1 → (p * p').Near (q * q') (5 * ε) :=
    fun h h' b b' => h.mulE 5 h' hu hε b b' (by norm_num) (by norm_num) (by norm_num) (by norm_num)
  have s2 := (prod h₁ h₂ b₁ b₂).addE (S := 2) 14 (prod h₃ h₄ b₃ b₄) hu hε1
    ((abs_add_le _ _).trans (by have := mul1 b₁ b₂; have := mul1 b₃ b₄; linarith)) (by norm_num) (by norm_num) (by norm_num)
  have s3 := s2.addE (S := 1) 22 (prod h₅ h₆ b₅ b₆) hu hε1 hK (by norm_num) (by norm_num) (by norm_num)
  have l2 : (lit 2 : Fl F).Near 2 (3 * ε) := by
    have := near_lit (F := F) (ε := ε) 2 (S := 2) hu (by linarith) (by norm_num) (by norm_num)
    norm_num at this ⊢
    exact this
  have k2 := l2.mulE (M := 2) (N := 1) 51 s3 hu hε (by norm_num) hK (by norm_num) (by norm_num) (by norm_num) (by norm_num)
  have w2 := l2.mulE (M := 2) (N := 1) 9 hw hu hε (by norm_num) hc (by norm_num) (by norm_num) (by norm_num) (by norm_num)
  have hc2 : |2 * c| ≤ 2 := by rw [abs_mul, abs_two]; linarith
  have wa := w2.mulE (M := 2) (N := 1) 15 ha hu hε hc2 hx (by norm_num) (by norm_num) (by norm_num) (by norm_num)
  have hwx : |2 * c * x| ≤ 2 := by
    rw [abs_mul]
    exact (mul_le_mul hc2 hx (abs_nonneg _) (by norm_num)).trans (by norm_num)
  have d1 := hδ.addE (S := 3) 20 wa hu hε1 ((abs_add_le _ _).trans (by linarith)) (by norm_num) (by norm_num) (by norm_num)
  exact d1.addE (S := 1) 74 k2 hu hε1 hR (by norm_num) (by norm_num) (by norm_num)

/-- `q2R` of a quaternion within `ε ≥ u` of a unit quaternion. -/
theorem q2R_near {q : V4 ℝ} (hq : IsUnit4 q) {q' : V4 (Fl F)} (hu : F.u ≤ ε) (hε : ε ≤ 1 / 1000) (h : Spec.QNear q' q ε) :
    Spec.MNear (q2R q') (q2R q) (222 * ε) := by
  obtain ⟨hw, hx, hy, hz⟩ := h
  rw [← one_mul ε] at hw hx hy hz
  obtain ⟨bw, bx, by', bz⟩ := unit4_abs hq
  have z0 : (0 : Fl F).Near 0 (1 * ε) := near_zero.mono (by linarith [F.u_nonneg])
  have zd : (0 : Fl F).Near 0 (0 * ε) := near_zero.mono (by linarith)
  have od : (1 : Fl F).Near 1 (0 * ε) := near_one.mono (by linarith)
  have nx : |-q.x| ≤ 1 := by rwa [abs_neg]
  have ny : |-q.y| ≤ 1 := by rwa [abs_neg]
  have nz : |-q.z| ≤ 1 := by rwa [abs_neg]
  have b0 : |(0 : ℝ)| ≤ 1 := by simp
  have d0 : |(0 : ℝ)| ≤ 1 := by simp
  have d1 : |(1 : ℝ)| ≤ 1 := by simp
  obtain ⟨⟨r00, r10, r20⟩, ⟨r01, r11, r21⟩, r02, r12, r22⟩ := (C05_q2R_isRot q hq).opLe.entries
  have ent : Spec.MNear (q2R q') (q2R q) (3 * (74 * ε)) := by
    refine mNear_of_entries
      (near_q2R_entry hu hε hw bw od d1 z0 b0 z0 z0 hz.neg hz hy hy.neg b0 b0 nz bz by' ny ?_ r00)
      (near_q2R_entry hu hε hw bw zd d0 hz.neg nz z0 hz.neg hz.neg z0 hy hx b0 nz nz b0 by' bx ?_ r01)
      (near_q2R_entry hu hε hw bw zd d0 hy by' z0 hy hz.neg hx.neg hy z0 b0 by' nz nx by' b0 ?_ r02)
      (near_q2R_entry hu hε hw bw zd d0 hz bz hz z0 z0 hz hx.neg hy.neg bz b0 b0 bz nx ny ?_ r10)
      (near_q2R_entry hu hε hw bw od d1 z0 b0 hz hz.neg z0 z0 hx.neg hx bz nz b0 b0 nx bx ?_ r11)
      (near_q2R_entry hu hε hw bw zd d0 hx.neg nx hz hy z0 hx.neg hx.neg z0 bz by' b0 nx nx b0 ?_ r12)
      (near_q2R_entry hu hε hw bw zd d0 hy.neg ny hy.neg z0 hx hz z0 hy.neg ny b0 bx bz b0 ny ?_ r20)
      (near_q2R_entry hu hε hw bw zd d0 hx bx hy.neg hz.neg hx z0 z0 hx ny nz bx b0 b0 bx ?_ r21)
      (near_q2R_entry hu hε hw bw od d1 z0 b0 hy.neg hy hx hx.neg z0 z0 ny by' bx nx b0 b0 ?_ r22)
    all_goals
      clear * - hq
      simp only [hat, V4.vec, IsUnit4] at hq ⊢
      rw [abs_le]
      constructor <;> nlinarith [sq_nonneg (q.x + q.y), sq_nonneg (q.x - q.y), sq_nonneg (q.x + q.z), sq_nonneg (q.x - q.z),
        sq_nonneg (q.y + q.z), sq_nonneg (q.y - q.z), sq_nonneg q.x, sq_nonneg q.y, sq_nonneg q.z, sq_nonneg q.w]
  exact MNear.mono ent (by linarith)

end Fl
