import Verif.Lemmas.FlQuat
import Verif.Props.Ros
import Verif.Props.RoundingQuat

/-!
# Relaying a rotation: matrix to quaternion to matrix, again and again
-/
set_option autoImplicit false

namespace Relay

/-- One turn of the relay in exact arithmetic, while the trace is positive: the product of the scalar part and the vector part stays the same. -/
structure Hop (q1 q2 : V4 ℝ) (μ : ℝ) : Prop where
  w : |q2.w - Real.sqrt (1 - (q1.x ^ 2 + q1.y ^ 2 + q1.z ^ 2))| ≤ μ
  x : |q2.x - q1.w * q1.x / Real.sqrt (1 - (q1.x ^ 2 + q1.y ^ 2 + q1.z ^ 2))| ≤ μ
  y : |q2.y - q1.w * q1.y / Real.sqrt (1 - (q1.x ^ 2 + q1.y ^ 2 + q1.z ^ 2))| ≤ μ
  z : |q2.z - q1.w * q1.z / Real.sqrt (1 - (q1.x ^ 2 + q1.y ^ 2 + q1.z ^ 2))| ≤ μ

/-- What is kept along the relay: the products of the scalar part with the vector part, and the length of the vector part. -/
structure Inv (q q1 : V4 ℝ) (κ E : ℝ) : Prop where
  x : |q1.w * q1.x - q.w * q.x| ≤ 3 * E
  y : |q1.w * q1.y - q.w * q.y| ≤ 3 * E
  z : |q1.w * q1.z - q.w * q.z| ≤ 3 * E
  b : |(q1.x ^ 2 + q1.y ^ 2 + q1.z ^ 2) - (q.x ^ 2 + q.y ^ 2 + q.z ^ 2)| * κ ≤ 20 * E

/-- one component of the vector part -/
theorem comp {m1 m W w2 x2 X E μ : ℝ} (hX : X * W = m1) (hW : 7 / 10 ≤ W) (hW1 : W ≤ 1) (hm : |m| ≤ 1 / 2) (h1 : |m1 - m| ≤ 3 * E)
    (hE : 80 * E ≤ 1) (hμ : 80 * μ ≤ 1) (hw : |w2 - W| ≤ μ) (hx : |x2 - X| ≤ μ) :
    |X| ≤ 4 / 5 ∧ |w2 * x2 - m1| ≤ 2 * μ ∧ |x2 ^ 2 - X ^ 2| ≤ 2 * μ ∧ |m1 ^ 2 - m ^ 2| ≤ 10 / 3 * E := by
  have hμ0 : 0 ≤ μ := (abs_nonneg _).trans hw
  have hE0 : 0 ≤ E := by have := (abs_nonneg _).trans h1; linarith
  have hm1 : |m1| ≤ 43 / 80 := by
    have := abs_sub_abs_le_abs_sub m1 m
    linarith
  have hXa : |X| ≤ 4 / 5 := by
    have e : |X| * W = |m1| := by rw [← hX, abs_mul, abs_of_nonneg (by linarith : 0 ≤ W)]
    nlinarith [abs_nonneg X]
  have hx2 : |x2| ≤ 4 / 5 + 1 / 80 := by
    have := abs_sub_abs_le_abs_sub x2 X
    linarith
  refine ⟨hXa, ?_, ?_, ?_⟩
  · have e : w2 * x2 - m1 = (w2 - W) * x2 + W * (x2 - X) := by rw [← hX]; ring
    rw [e]
    refine (abs_add_le _ _).trans ?_
    rw [abs_mul, abs_mul, abs_of_nonneg (by linarith : 0 ≤ W)]
    nlinarith [abs_nonneg (w2 - W), abs_nonneg (x2 - X), abs_nonneg x2, mul_le_mul hw hx2 (abs_nonneg _) hμ0]
  · have e : x2 ^ 2 - X ^ 2 = (x2 - X) * (x2 + X) := by ring
    rw [e, abs_mul]
    have : |x2 + X| ≤ 2 := (abs_add_le _ _).trans (by linarith)
    nlinarith [abs_nonneg (x2 - X), abs_nonneg (x2 + X), mul_le_mul hx this (abs_nonneg _) hμ0]
  · have e : m1 ^ 2 - m ^ 2 = (m1 - m) * (m1 + m) := by ring
    rw [e, abs_mul]
    have : |m1 + m| ≤ 10 / 9 := (abs_add_le _ _).trans (by linarith)
    nlinarith [abs_nonneg (m1 - m), mul_le_mul h1 this (abs_nonneg _) (by linarith)]

theorem prod_half {a b : ℝ} (h : a ^ 2 + b ^ 2 ≤ 1) : |a * b| ≤ 1 / 2 := by
  rw [abs_le]; constructor <;> nlinarith [sq_nonneg (a + b), sq_nonneg (a - b)]

theorem d4 {D κ E μ : ℝ} (hκ0 : 0 < κ) (hμ : 0 ≤ μ) (hD : D * κ ≤ 20 * E) (hE : 80 * (E + μ) ≤ κ ^ 2) : D ≤ κ / 4 := by
  by_contra hc
  push Not at hc
  nlinarith

theorem seven {a b : ℝ} (ha : 0 ≤ a) (h : a ^ 2 = b) (hb : 1 / 2 ≤ b) : 7 / 10 ≤ a := by nlinarith

theorem small_eighty {E μ κ : ℝ} (hE : 80 * (E + μ) ≤ κ ^ 2) (h0 : 0 ≤ E) (hμ : 0 ≤ μ) (hκ0 : 0 < κ) (hκ : κ ≤ 1) : 80 * E ≤ 1 ∧ 80 * μ ≤ 1 := by
  have : κ ^ 2 ≤ 1 := by nlinarith
  constructor <;> linarith

theorem len_end {G D κ E μ : ℝ} (hκ0 : 0 < κ) (hκ : κ ≤ 1) (hμ : 0 ≤ μ) (hD : D * κ ≤ 20 * E) (hG : G ≤ 20 * E + (1 - κ) * D) :
    (G + 6 * μ) * κ ≤ 20 * (E + μ) := by
  have h1 : G * κ ≤ (20 * E + (1 - κ) * D) * κ := mul_le_mul_of_nonneg_right hG hκ0.le
  have h2 : (1 - κ) * (D * κ) ≤ (1 - κ) * (20 * E) := mul_le_mul_of_nonneg_left hD (by linarith)
  have h3 : μ * κ ≤ μ * 1 := mul_le_mul_of_nonneg_left hκ hμ
  linarith

theorem close_end {A D κ E μ : ℝ} (hκ0 : 0 < κ) (hκ : κ ≤ 1) (hμ : 0 ≤ μ) (hE : 0 ≤ E) (hD : D * κ ≤ 20 * E)
    (hA : A * (7 / 10) ≤ 3 * E + 71 / 100 * D) : (A + μ) * κ ≤ 40 * (E + μ) := by
  have h1 := mul_le_mul_of_nonneg_right hA hκ0.le
  have h3 : μ * κ ≤ μ * 1 := mul_le_mul_of_nonneg_left hκ hμ
  have h4 : E * κ ≤ E * 1 := mul_le_mul_of_nonneg_left hκ hE
  linarith

theorem w_end {D κ E μ : ℝ} (hκ : κ ≤ 1) (hμ : 0 ≤ μ) (hE : 0 ≤ E) (hD : D * κ ≤ 20 * E) : (D + μ) * κ ≤ 40 * (E + μ) := by
  have h3 : μ * κ ≤ μ * 1 := mul_le_mul_of_nonneg_left hκ hμ
  linarith

theorem sqrt_diff {W w D β b1 : ℝ} (hW : W ^ 2 = 1 - b1) (hw : w ^ 2 = 1 - β) (h1 : 7 / 10 ≤ W) (h2 : 7 / 10 ≤ w) (hD : D = |b1 - β|) : |W - w| ≤ D := by
  have e : (W - w) * (W + w) = β - b1 := by linarith [sq_sub_sq W w, mul_comm (W - w) (W + w)]
  have e2 : |W - w| * (W + w) = D := by
    rw [hD, abs_sub_comm b1, ← e, abs_mul, abs_of_nonneg (by linarith : 0 ≤ W + w)]
  nlinarith [abs_nonneg (W - w)]

theorem comp_close {m1 v X W w E D : ℝ} (hX : X * W = m1) (hv : v ^ 2 ≤ 1 / 2) (hm : |m1 - w * v| ≤ 3 * E) (hW : 7 / 10 ≤ W) (hD : |W - w| ≤ D) :
    |X - v| * (7 / 10) ≤ 3 * E + 71 / 100 * D := by
  have hva : |v| ≤ 71 / 100 := by
    rw [← sq_abs] at hv
    nlinarith [abs_nonneg v]
  have e : (X - v) * W = (m1 - w * v) + v * (w - W) := by rw [← hX]; ring
  have e2 : |X - v| * W ≤ 3 * E + 71 / 100 * D := by
    rw [← abs_of_nonneg (by linarith : 0 ≤ W), ← abs_mul, e]
    refine (abs_add_le _ _).trans ?_
    rw [abs_mul, abs_sub_comm w]
    have := mul_le_mul hva hD (abs_nonneg _) (by norm_num)
    linarith
  exact (mul_le_mul_of_nonneg_left hW (abs_nonneg _)).trans e2

theorem len_mid {G D κ E β b1 : ℝ} (hG0 : 0 ≤ G) (hκ0 : 0 < κ) (hβ : κ = 1 - 2 * β) (h1b : 1 / 2 + κ / 4 ≤ 1 - b1) (h : G * (1 - b1) ≤ 10 * E + β * D) :
    G ≤ 20 * E + (1 - κ) * D := by
  have e5 : G * (1 / 2 + κ / 4) ≤ 10 * E + β * D := (mul_le_mul_of_nonneg_left h1b hG0).trans h
  have : G * (1 / 2) ≤ G * (1 / 2 + κ / 4) := mul_le_mul_of_nonneg_left (by linarith) hG0
  have hβκ : β = (1 - κ) / 2 := by linarith
  rw [hβκ] at e5
  linarith

/-- the invariant is kept, and implies that the next quaternion is near -/
theorem Inv.step {q q1 q2 : V4 ℝ} {κ E μ : ℝ} (hq : IsUnit4 q) (hw : 0 < q.w) (hκ : κ = 1 - 2 * (q.x ^ 2 + q.y ^ 2 + q.z ^ 2)) (hκ0 : 0 < κ)
    (h : Inv q q1 κ E) (hμ : 0 ≤ μ) (hE : 80 * (E + μ) ≤ κ ^ 2) (hop : Hop q1 q2 μ) :
    Inv q q2 κ (E + μ) ∧ |q2.w - q.w| * κ ≤ 40 * (E + μ) ∧ |q2.x - q.x| * κ ≤ 40 * (E + μ) ∧ |q2.y - q.y| * κ ≤ 40 * (E + μ) ∧
      |q2.z - q.z| * κ ≤ 40 * (E + μ) := by
  have hE0 : 0 ≤ E := by have := (abs_nonneg _).trans h.x; linarith
  unfold IsUnit4 at hq
  set β := q.x ^ 2 + q.y ^ 2 + q.z ^ 2 with hβ
  set b1 := q1.x ^ 2 + q1.y ^ 2 + q1.z ^ 2 with hb1
  have hβ0 : 0 ≤ β := by positivity
  have hb0 : 0 ≤ b1 := by positivity
  have hκ1 : κ ≤ 1 := by linarith
  have hw2 : q.w ^ 2 = 1 - β := by rw [hβ]; linarith
  -- distance of the lengths
  set D := |b1 - β| with hD
  have hD0 : 0 ≤ D := abs_nonneg _
  have hDκ : D * κ ≤ 20 * E := h.b
  have hD4 : D ≤ κ / 4 := d4 hκ0 hμ hDκ hE
  obtain ⟨hDl, hDu⟩ := abs_le.1 (le_of_eq hD.symm)
  have h1b : 1 / 2 + κ / 4 ≤ 1 - b1 := by linarith
  set W := Real.sqrt (1 - b1) with hW
  have hWW : W ^ 2 = 1 - b1 := Real.sq_sqrt (by linarith)
  have hW0 : 0 ≤ W := Real.sqrt_nonneg _
  have hW7 : 7 / 10 ≤ W := seven hW0 hWW (by linarith)
  have hW1 : W ≤ 1 := Real.sqrt_le_one.2 (by linarith)
  have hWpos : 0 < W := by linarith
  have hw7 : 7 / 10 ≤ q.w := seven hw.le hw2 (by linarith)
  have sx := sq_nonneg q.x
  have sy := sq_nonneg q.y
  have sz := sq_nonneg q.z
  have mx : |q.w * q.x| ≤ 1 / 2 := prod_half (by rw [hw2]; linarith)
  have my : |q.w * q.y| ≤ 1 / 2 := prod_half (by rw [hw2]; linarith)
  have mz : |q.w * q.z| ≤ 1 / 2 := prod_half (by rw [hw2]; linarith)
  obtain ⟨hE1, hμ1⟩ := small_eighty hE hE0 hμ hκ0 hκ1
  have ex : q1.w * q1.x / W * W = q1.w * q1.x := div_mul_cancel₀ _ hWpos.ne'
  have ey : q1.w * q1.y / W * W = q1.w * q1.y := div_mul_cancel₀ _ hWpos.ne'
  have ez : q1.w * q1.z / W * W = q1.w * q1.z := div_mul_cancel₀ _ hWpos.ne'
  obtain ⟨x1, x2, x3, x4⟩ := comp ex hW7 hW1 mx h.x hE1 hμ1 hop.w hop.x
  obtain ⟨y1, y2, y3, y4⟩ := comp ey hW7 hW1 my h.y hE1 hμ1 hop.w hop.y
  obtain ⟨z1, z2, z3, z4⟩ := comp ez hW7 hW1 mz h.z hE1 hμ1 hop.w hop.z
  have tri : ∀ {a b c r s : ℝ}, |a - b| ≤ r → |b - c| ≤ s → |a - c| ≤ s + r := by
    intro a b c r s h1 h2
    have := abs_sub_le a b c
    linarith
  -- lengths
  have hlen : |(q2.x ^ 2 + q2.y ^ 2 + q2.z ^ 2) - β| * κ ≤ 20 * (E + μ) := by
    set X := q1.w * q1.x / W
    set Y := q1.w * q1.y / W
    set Z := q1.w * q1.z / W
    have e1 : |(q2.x ^ 2 + q2.y ^ 2 + q2.z ^ 2) - (X ^ 2 + Y ^ 2 + Z ^ 2)| ≤ 6 * μ := by
      rw [abs_le] at x3 y3 z3 ⊢
      constructor <;> linarith [x3.1, x3.2, y3.1, y3.2, z3.1, z3.2]
    have e2 : |(X ^ 2 + Y ^ 2 + Z ^ 2 - β) * (1 - b1)| ≤ 10 * E + β * D := by
      have e3 : (X ^ 2 + Y ^ 2 + Z ^ 2 - β) * (1 - b1) = ((q1.w * q1.x) ^ 2 - (q.w * q.x) ^ 2) + ((q1.w * q1.y) ^ 2 - (q.w * q.y) ^ 2) +
          ((q1.w * q1.z) ^ 2 - (q.w * q.z) ^ 2) + β * (b1 - β) := by
        rw [← ex, ← ey, ← ez, ← hWW, mul_pow q.w, mul_pow q.w, mul_pow q.w, hw2]
        have : b1 = 1 - W ^ 2 := by linarith
        rw [this]
        have hs : q.z ^ 2 = β - q.x ^ 2 - q.y ^ 2 := by rw [hβ]; ring
        rw [hs]
        ring
      rw [e3]
      have e4 : |β * (b1 - β)| = β * D := by rw [abs_mul, abs_of_nonneg hβ0]
      refine (abs_add_le _ _).trans ?_
      rw [e4]
      have := abs_add_three ((q1.w * q1.x) ^ 2 - (q.w * q.x) ^ 2) ((q1.w * q1.y) ^ 2 - (q.w * q.y) ^ 2) ((q1.w * q1.z) ^ 2 - (q.w * q.z) ^ 2)
      linarith
    rw [abs_mul, abs_of_nonneg (by linarith : 0 ≤ 1 - b1)] at e2
    set G := |X ^ 2 + Y ^ 2 + Z ^ 2 - β| with hG
    have hG0 : 0 ≤ G := abs_nonneg _
    have e6 : G ≤ 20 * E + (1 - κ) * D := len_mid hG0 hκ0 hκ h1b e2
    have e7 := tri e1 (le_of_eq hG.symm)
    have e8 : (G + 6 * μ) * κ ≤ 20 * (E + μ) := len_end hκ0 hκ1 hμ hDκ e6
    exact (mul_le_mul_of_nonneg_right e7 hκ0.le).trans e8
  have hWw : |W - q.w| ≤ D := sqrt_diff hWW hw2 hW7 hw7 hD
  have close : ∀ {m1 v v2 X : ℝ}, X * W = m1 → v ^ 2 ≤ 1 / 2 → |m1 - q.w * v| ≤ 3 * E → |v2 - X| ≤ μ → |v2 - v| * κ ≤ 40 * (E + μ) :=
    fun hX hv hm hv2 => (mul_le_mul_of_nonneg_right (tri hv2 le_rfl) hκ0.le).trans
      (close_end hκ0 hκ1 hμ hE0 hDκ (comp_close hX hv hm hW7 hWw))
  have hx2 : q.x ^ 2 ≤ 1 / 2 := by linarith
  have hy2 : q.y ^ 2 ≤ 1 / 2 := by linarith
  have hz2 : q.z ^ 2 ≤ 1 / 2 := by linarith
  refine ⟨⟨?_, ?_, ?_, hlen⟩, ?_, close ex hx2 h.x hop.x, close ey hy2 h.y hop.y, close ez hz2 h.z hop.z⟩
  · exact (tri x2 h.x).trans (by linarith)
  · exact (tri y2 h.y).trans (by linarith)
  · exact (tri z2 h.z).trans (by linarith)
  · have e1 := tri hop.w hWw
    have e2 : (D + μ) * κ ≤ 40 * (E + μ) := w_end hκ1 hμ hE0 hDκ
    exact (mul_le_mul_of_nonneg_right e1 hκ0.le).trans e2

/-- the start -/
theorem Inv.start {q q1 : V4 ℝ} {κ E : ℝ} (hq : IsUnit4 q) (hκ : κ = 1 - 2 * (q.x ^ 2 + q.y ^ 2 + q.z ^ 2)) (hE : 80 * E ≤ 1)
    (hw : |q1.w - q.w| ≤ E) (hx : |q1.x - q.x| ≤ E) (hy : |q1.y - q.y| ≤ E) (hz : |q1.z - q.z| ≤ E) : Inv q q1 κ E := by
  have hE0 : 0 ≤ E := (abs_nonneg _).trans hw
  obtain ⟨aw, ax, ay, az⟩ := Fl.unit4_abs hq
  have prod : ∀ {a b a1 b1 : ℝ}, |a| ≤ 1 → |b| ≤ 1 → |a1 - a| ≤ E → |b1 - b| ≤ E → |a1 * b1 - a * b| ≤ 3 * E := by
    intro a b a1 b1 ha hb h1 h2
    have e : a1 * b1 - a * b = (a1 - a) * b + a * (b1 - b) + (a1 - a) * (b1 - b) := by ring
    rw [e]
    refine (abs_add_three _ _ _).trans ?_
    rw [abs_mul, abs_mul, abs_mul]
    have i1 := mul_le_mul h1 hb (abs_nonneg _) hE0
    have i2 := mul_le_mul ha h2 (abs_nonneg _) zero_le_one
    have i3 := mul_le_mul h1 h2 (abs_nonneg _) hE0
    nlinarith
  refine ⟨prod aw ax hw hx, prod aw ay hw hy, prod aw az hw hz, ?_⟩
  have x1 := prod ax ax hx hx
  have y1 := prod ay ay hy hy
  have z1 := prod az az hz hz
  have e : |(q1.x ^ 2 + q1.y ^ 2 + q1.z ^ 2) - (q.x ^ 2 + q.y ^ 2 + q.z ^ 2)| ≤ 9 * E := by
    rw [abs_le] at x1 y1 z1 ⊢
    constructor <;> linarith [x1.1, x1.2, y1.1, y1.2, z1.1, z1.2]
  have hκ1 : κ ≤ 1 := by nlinarith [sq_nonneg q.x, sq_nonneg q.y, sq_nonneg q.z]
  nlinarith [abs_nonneg ((q1.x ^ 2 + q1.y ^ 2 + q1.z ^ 2) - (q.x ^ 2 + q.y ^ 2 + q.z ^ 2))]

end Relay

namespace Fl
variable {F : FSys} {ε : ℝ}

/-- One entry of `1 + 2 w K + 2 K²`, for quaternions that need not be near a unit quaternion. -/
theorem near_q2R_entry' {w δ a p₁ p₂ p₃ p₄ p₅ p₆ : Fl F} {c d x q₁ q₂ q₃ q₄ q₅ q₆ : ℝ} (hu : F.u ≤ ε) (hε : ε ≤ 1 / 1000)
    (hw : w.Near c (1 * ε)) (hc : |c| ≤ 2)
    (hδ : δ.Near d (0 * ε)) (hd : |d| ≤ 1) (ha : a.Near x (1 * ε)) (hx : |x| ≤ 9 / 8)
    (h₁ : p₁.Near q₁ (1 * ε)) (h₂ : p₂.Near q₂ (1 * ε)) (h₃ : p₃.Near q₃ (1 * ε))
    (h₄ : p₄.Near q₄ (1 * ε)) (h₅ : p₅.Near q₅ (1 * ε)) (h₆ : p₆.Near q₆ (1 * ε))
    (b₁ : |q₁| ≤ 9 / 8) (b₂ : |q₂| ≤ 9 / 8) (b₃ : |q₃| ≤ 9 / 8) (b₄ : |q₄| ≤ 9 / 8) (b₅ : |q₅| ≤ 9 / 8) (b₆ : |q₆| ≤ 9 / 8)
    (hK : |q₁ * q₂ + q₃ * q₄ + q₅ * q₆| ≤ 13 / 10)
    (hR : |d + lit 2 * c * x + lit 2 * (q₁ * q₂ + q₃ * q₄ + q₅ * q₆)| ≤ 3) :
    (δ + lit 2 * w * a + lit 2 * (p₁ * p₂ + p₃ * p₄ + p₅ * p₆)).Near
      (d + lit 2 * c * x + lit 2 * (q₁ * q₂ + q₃ * q₄ + q₅ * q₆)) (90 * ε) := by
  have h0 : 0 ≤ ε := F.u_nonneg.trans hu
  have hε1 : ε ≤ 1 := by linarith
  have e2 : (lit 2 : ℝ) = 2 := by simp
  rw [e2] at hR ⊢
  have mul1 : ∀ {p q : ℝ}, |p| ≤ 9 / 8 → |q| ≤ 9 / 8 → |p * q| ≤ 13 / 10 := by
    intro p q hp hq
    rw [abs_mul]
    exact (mul_le_mul hp hq (abs_nonneg _) (by norm_num)).trans (by norm_num)
  have prod : ∀ {p p' : Fl F} {q q' : ℝ}, p.Near q (1 * ε) → p'.Near q' (1 * ε) → |q| ≤ 9 / 8 → |q'| ≤ 9 / 8 → (p * p').Near (q * q') (5 * ε) :=
    fun h h' b b' => h.mulE 5 h' hu hε b b' (by norm_num) (by norm_num) (by norm_num) (by norm_num)
  have s2 := (prod h₁ h₂ b₁ b₂).addE (S := 26 / 10) 14 (prod h₃ h₄ b₃ b₄) hu hε1
    ((abs_add_le _ _).trans (by have := mul1 b₁ b₂; have := mul1 b₃ b₄; linarith)) (by norm_num) (by norm_num) (by norm_num)
  have s3 := s2.addE (S := 13 / 10) 22 (prod h₅ h₆ b₅ b₆) hu hε1 hK (by norm_num) (by norm_num) (by norm_num)
  have l2 : (lit 2 : Fl F).Near 2 (3 * ε) := by
    have := near_lit (F := F) (ε := ε) 2 (S := 2) hu (by linarith) (by norm_num) (by norm_num)
    norm_num at this ⊢
    exact this
  have k2 := l2.mulE (M := 2) (N := 13 / 10) 52 s3 hu hε (by norm_num) hK (by norm_num) (by norm_num) (by norm_num) (by norm_num)
  have w2 := l2.mulE (M := 2) (N := 2) 14 hw hu hε (by norm_num) hc (by norm_num) (by norm_num) (by norm_num) (by norm_num)
  have hc2 : |2 * c| ≤ 4 := by rw [abs_mul, abs_two]; linarith
  have wa := w2.mulE (M := 4) (N := 9 / 8) 26 ha hu hε hc2 hx (by norm_num) (by norm_num) (by norm_num) (by norm_num)
  have hwx : |2 * c * x| ≤ 45 / 10 := by
    rw [abs_mul]
    exact (mul_le_mul hc2 hx (abs_nonneg _) (by norm_num)).trans (by norm_num)
  have d1 := hδ.addE (S := 55 / 10) 33 wa hu hε1 ((abs_add_le _ _).trans (by linarith)) (by norm_num) (by norm_num) (by norm_num)
  exact d1.addE (S := 3) 90 k2 hu hε1 hR (by norm_num) (by norm_num) (by norm_num)

theorem sq_le_abs_one {a b : ℝ} (h : a ^ 2 ≤ b) (hb : b ≤ 81 / 64) : |a| ≤ 9 / 8 := by
  rw [abs_le]; constructor <;> nlinarith

/-- The second half of the turn: the quaternion of the computed matrix. -/
theorem relay_hop_aux {q : V4 ℝ} {R' : M3 (Fl F)} (hu : F.u ≤ 1 / 100000)
    (hb : q.x ^ 2 + q.y ^ 2 + q.z ^ 2 ≤ 11 / 20) (hx : |q.w * q.x| ≤ 11 / 20) (hy : |q.w * q.y| ≤ 11 / 20) (hz : |q.w * q.z| ≤ 11 / 20)
    (e00 : R'.a00.Near (q2R q).a00 (90 * F.u)) (e01 : R'.a01.Near (q2R q).a01 (90 * F.u)) (e02 : R'.a02.Near (q2R q).a02 (90 * F.u))
    (e10 : R'.a10.Near (q2R q).a10 (90 * F.u)) (e11 : R'.a11.Near (q2R q).a11 (90 * F.u)) (e12 : R'.a12.Near (q2R q).a12 (90 * F.u))
    (e20 : R'.a20.Near (q2R q).a20 (90 * F.u)) (e21 : R'.a21.Near (q2R q).a21 (90 * F.u)) (e22 : R'.a22.Near (q2R q).a22 (90 * F.u)) :
    ∃ q2' q2, R2q R' = .ok q2' ∧ Spec.QNear q2' q2 0 ∧ Relay.Hop q q2 (3690 * F.u) := by
  have hu0 := F.u_nonneg
  set ε := 90 * F.u with hε
  have huε : F.u ≤ ε := by linarith
  have hε1 : ε ≤ 1 := by linarith
  have hε2 : ε ≤ 1 / 1000 := by linarith
  rw [← one_mul ε] at e00 e01 e02 e10 e11 e12 e20 e21 e22
  set b := q.x ^ 2 + q.y ^ 2 + q.z ^ 2 with hbd
  have sx := sq_nonneg q.x
  have sy := sq_nonneg q.y
  have sz := sq_nonneg q.z
  have f00 : (q2R q).a00 = 1 - 2 * (q.y ^ 2 + q.z ^ 2) := by simp [q2R, hat, V4.vec]; ring
  have f11 : (q2R q).a11 = 1 - 2 * (q.x ^ 2 + q.z ^ 2) := by simp [q2R, hat, V4.vec]; ring
  have f22 : (q2R q).a22 = 1 - 2 * (q.x ^ 2 + q.y ^ 2) := by simp [q2R, hat, V4.vec]; ring
  have fx : (q2R q).a21 - (q2R q).a12 = 4 * (q.w * q.x) := by simp [q2R, hat, V4.vec]; ring
  have fy : (q2R q).a02 - (q2R q).a20 = 4 * (q.w * q.y) := by simp [q2R, hat, V4.vec]; ring
  have fz : (q2R q).a10 - (q2R q).a01 = 4 * (q.w * q.z) := by simp [q2R, hat, V4.vec]; ring
  have tr : (q2R q).a00 + (q2R q).a11 + (q2R q).a22 = 3 - 4 * b := by rw [f00, f11, f22, hbd]; ring
  have s1 := e00.addE 6 e11 huε hε1 (S := 2) (by rw [f00, f11, abs_le]; constructor <;> linarith) (by norm_num) (by norm_num) (by norm_num)
  have htr := s1.addE 12 (S := 3) e22 huε hε1 (by rw [tr, abs_le]; constructor <;> linarith) (by norm_num) (by norm_num) (by norm_num)
  rw [tr] at htr
  have one : (1 : Fl F).Near 1 (0 * ε) := near_one.mono (by linarith)
  have zero : (0 : Fl F).Near 0 (0 * ε) := near_zero.mono (by linarith)
  have hP := htr.addE 18 one huε hε1 (S := 4) (by rw [abs_le]; constructor <;> linarith) (by norm_num) (by norm_num) (by norm_num)
  have c1 : 0 < R'.trace := by
    by_contra hc
    have := zero.not_lt_real htr hc
    linarith
  obtain ⟨t1, t2, t3⟩ := R2q_tail hP huε hε2 (by linarith) (by linarith)
  have hp : (3 - 4 * b + 1 : ℝ) = 2 ^ 2 * (1 - b) := by ring
  have hs : Real.sqrt (3 - 4 * b + 1) = 2 * Real.sqrt (1 - b) := by
    rw [hp, Real.sqrt_mul (by norm_num), Real.sqrt_sq (by norm_num)]
  rw [hs] at t2 t3
  have hW7 : 13 / 20 ≤ Real.sqrt (1 - b) := Real.le_sqrt_of_sq_le (by linarith)
  have dif : ∀ {a c : Fl F} {x y m : ℝ}, a.Near x (1 * ε) → c.Near y (1 * ε) → x - y = 4 * m → |m| ≤ 11 / 20 →
      ((a - c) / (lit 2 * Elem.sqrt (R'.trace + 1))).Near (m / Real.sqrt (1 - b)) (41 * ε) := by
    intro a c x y m ha hc hxy hm
    have h1 := ha.subE 6 hc huε hε1 (S := 22 / 10) (by rw [hxy, abs_mul]; norm_num; linarith) (by norm_num) (by norm_num) (by norm_num)
    have e : (x - y) / (2 * (2 * Real.sqrt (1 - b))) = m / Real.sqrt (1 - b) := by
      rw [hxy, show 2 * (2 * Real.sqrt (1 - b)) = 4 * Real.sqrt (1 - b) by ring, mul_div_mul_left _ _ (by norm_num)]
    have := t3 h1 (by
      rw [e, abs_div, abs_of_nonneg (Real.sqrt_nonneg _), div_le_one (by linarith)]
      linarith)
    rwa [e] at this
  have hw : (lit (1/4) * (lit 2 * Elem.sqrt (R'.trace + 1))).Near (Real.sqrt (1 - b)) (41 * ε) := by
    have e : 1 / 4 * (2 * (2 * Real.sqrt (1 - b))) = Real.sqrt (1 - b) := by ring
    rw [e] at t2
    exact t2
  obtain ⟨w2, w3, w4⟩ := hw
  obtain ⟨x2, x3, x4⟩ := dif e21 e12 fx hx
  obtain ⟨y2, y3, y4⟩ := dif e02 e20 fy hy
  obtain ⟨z2, z3, z4⟩ := dif e10 e01 fz hz
  have hm : 41 * ε = 3690 * F.u := by rw [hε]; ring
  rw [hm] at w4 x4 y4 z4
  refine ⟨⟨_, _, _, _⟩, ⟨w2, x2, y2, z2⟩, ?_, ⟨⟨_, w3, by simp⟩, ⟨_, x3, by simp⟩, ⟨_, y3, by simp⟩, _, z3, by simp⟩, w4, x4, y4, z4⟩
  unfold R2q
  dsimp only
  rw [if_pos c1]
  have t1' : mathSqrt (R'.trace + 1) = .ok (Elem.sqrt (R'.trace + 1)) := t1
  rw [t1']
  rfl

theorem diag_bounds {a b : ℝ} (h : a ^ 2 + b ^ 2 ≤ 101 / 100) : |-(a ^ 2 + b ^ 2)| ≤ 13 / 10 ∧ |1 - 2 * (a ^ 2 + b ^ 2)| ≤ 3 := by
  have := sq_nonneg a
  have := sq_nonneg b
  constructor <;> rw [abs_le] <;> constructor <;> linarith

theorem off_bounds {a b m : ℝ} (h : a ^ 2 + b ^ 2 ≤ 101 / 100) (hm : |m| ≤ 11 / 20) : |a * b| ≤ 13 / 10 ∧ |2 * m + 2 * (a * b)| ≤ 3 := by
  have := sq_nonneg (a + b)
  have := sq_nonneg (a - b)
  rw [abs_le] at hm
  obtain ⟨_, _⟩ := hm
  constructor <;> rw [abs_le] <;> constructor <;> linarith

theorem relay_entries_d {q : V4 ℝ} {q' : V4 (Fl F)} (hu : F.u ≤ 1 / 100000) (h : Spec.QNear q' q 0) (hw : |q.w| ≤ 2)
    (hb : q.x ^ 2 + q.y ^ 2 + q.z ^ 2 ≤ 101 / 100) (hx : |q.w * q.x| ≤ 11 / 20) (hy : |q.w * q.y| ≤ 11 / 20) (hz : |q.w * q.z| ≤ 11 / 20) :
    (q2R q').a00.Near (q2R q).a00 (90 * F.u) ∧ (q2R q').a11.Near (q2R q).a11 (90 * F.u) ∧ (q2R q').a22.Near (q2R q).a22 (90 * F.u) := by
  have hu0 := F.u_nonneg
  obtain ⟨nw, nx, ny, nz⟩ := h
  have up : ∀ {a : Fl F} {r : ℝ}, a.Near r 0 → a.Near r (1 * F.u) := fun h => h.mono (by linarith)
  have nw := up nw
  have nx := up nx
  have ny := up ny
  have nz := up nz
  have z0 : (0 : Fl F).Near 0 (1 * F.u) := near_zero.mono (by linarith)
  have zd : (0 : Fl F).Near 0 (0 * F.u) := near_zero.mono (by linarith)
  have od : (1 : Fl F).Near 1 (0 * F.u) := near_one.mono (by linarith)
  have sx := sq_nonneg q.x
  have sy := sq_nonneg q.y
  have sz := sq_nonneg q.z
  have bx : |q.x| ≤ 9 / 8 := sq_le_abs_one (b := 101 / 100) (by linarith) (by norm_num)
  have by' : |q.y| ≤ 9 / 8 := sq_le_abs_one (b := 101 / 100) (by linarith) (by norm_num)
  have bz : |q.z| ≤ 9 / 8 := sq_le_abs_one (b := 101 / 100) (by linarith) (by norm_num)
  have cx : |-q.x| ≤ 9 / 8 := by rwa [abs_neg]
  have cy : |-q.y| ≤ 9 / 8 := by rwa [abs_neg]
  have cz : |-q.z| ≤ 9 / 8 := by rwa [abs_neg]
  have b0 : |(0 : ℝ)| ≤ 9 / 8 := by norm_num
  have d0 : |(0 : ℝ)| ≤ 1 := by simp
  have d1 : |(1 : ℝ)| ≤ 1 := by simp
  have l2 : (lit 2 : ℝ) = 2 := by simp
  have hu' : F.u ≤ 1 / 1000 := by linarith
  have e00 : (q2R q').a00.Near (q2R q).a00 (90 * F.u) := by
    obtain ⟨k1, k2⟩ := diag_bounds (a := q.y) (b := q.z) (by linarith)
    exact near_q2R_entry' le_rfl hu' nw hw od d1 z0 b0 z0 z0 nz.neg nz ny ny.neg b0 b0 cz bz by' cy
      ((le_of_eq (congrArg abs (by simp only [hat, V4.vec]; ring))).trans k1) ((le_of_eq (congrArg abs (by simp [hat, V4.vec]; ring))).trans k2)
  have e11 : (q2R q').a11.Near (q2R q).a11 (90 * F.u) := by
    obtain ⟨k1, k2⟩ := diag_bounds (a := q.x) (b := q.z) (by linarith)
    exact near_q2R_entry' le_rfl hu' nw hw od d1 z0 b0 nz nz.neg z0 z0 nx.neg nx bz cz b0 b0 cx bx
      ((le_of_eq (congrArg abs (by simp only [hat, V4.vec]; ring))).trans k1) ((le_of_eq (congrArg abs (by simp [hat, V4.vec]; ring))).trans k2)
  have e22 : (q2R q').a22.Near (q2R q).a22 (90 * F.u) := by
    obtain ⟨k1, k2⟩ := diag_bounds (a := q.x) (b := q.y) (by linarith)
    exact near_q2R_entry' le_rfl hu' nw hw od d1 z0 b0 ny.neg ny nx nx.neg z0 z0 cy by' bx cx b0 b0
      ((le_of_eq (congrArg abs (by simp only [hat, V4.vec]; ring))).trans k1) ((le_of_eq (congrArg abs (by simp [hat, V4.vec]; ring))).trans k2)
  exact ⟨e00, e11, e22⟩

theorem relay_entries_o {q : V4 ℝ} {q' : V4 (Fl F)} (hu : F.u ≤ 1 / 100000) (h : Spec.QNear q' q 0) (hw : |q.w| ≤ 2)
    (hb : q.x ^ 2 + q.y ^ 2 + q.z ^ 2 ≤ 101 / 100) (hx : |q.w * q.x| ≤ 11 / 20) (hy : |q.w * q.y| ≤ 11 / 20) (hz : |q.w * q.z| ≤ 11 / 20) :
    (q2R q').a01.Near (q2R q).a01 (90 * F.u) ∧ (q2R q').a02.Near (q2R q).a02 (90 * F.u) ∧ (q2R q').a10.Near (q2R q).a10 (90 * F.u) := by
  have hu0 := F.u_nonneg
  obtain ⟨nw, nx, ny, nz⟩ := h
  have up : ∀ {a : Fl F} {r : ℝ}, a.Near r 0 → a.Near r (1 * F.u) := fun h => h.mono (by linarith)
  have nw := up nw
  have nx := up nx
  have ny := up ny
  have nz := up nz
  have z0 : (0 : Fl F).Near 0 (1 * F.u) := near_zero.mono (by linarith)
  have zd : (0 : Fl F).Near 0 (0 * F.u) := near_zero.mono (by linarith)
  have od : (1 : Fl F).Near 1 (0 * F.u) := near_one.mono (by linarith)
  have sx := sq_nonneg q.x
  have sy := sq_nonneg q.y
  have sz := sq_nonneg q.z
  have bx : |q.x| ≤ 9 / 8 := sq_le_abs_one (b := 101 / 100) (by linarith) (by norm_num)
  have by' : |q.y| ≤ 9 / 8 := sq_le_abs_one (b := 101 / 100) (by linarith) (by norm_num)
  have bz : |q.z| ≤ 9 / 8 := sq_le_abs_one (b := 101 / 100) (by linarith) (by norm_num)
  have cx : |-q.x| ≤ 9 / 8 := by rwa [abs_neg]
  have cy : |-q.y| ≤ 9 / 8 := by rwa [abs_neg]
  have cz : |-q.z| ≤ 9 / 8 := by rwa [abs_neg]
  have b0 : |(0 : ℝ)| ≤ 9 / 8 := by norm_num
  have d0 : |(0 : ℝ)| ≤ 1 := by simp
  have d1 : |(1 : ℝ)| ≤ 1 := by simp
  have l2 : (lit 2 : ℝ) = 2 := by simp
  have hu' : F.u ≤ 1 / 1000 := by linarith
  have e01 : (q2R q').a01.Near (q2R q).a01 (90 * F.u) := by
    obtain ⟨k1, k2⟩ := off_bounds (a := q.x) (b := q.y) (m := -(q.w * q.z)) (by linarith) (by rwa [abs_neg])
    exact near_q2R_entry' le_rfl hu' nw hw zd d0 nz.neg cz z0 nz.neg nz.neg z0 ny nx b0 cz cz b0 by' bx
      ((le_of_eq (congrArg abs (by simp only [hat, V4.vec]; ring))).trans k1) ((le_of_eq (congrArg abs (by simp [hat, V4.vec]; ring))).trans k2)
  have e02 : (q2R q').a02.Near (q2R q).a02 (90 * F.u) := by
    obtain ⟨k1, k2⟩ := off_bounds (a := q.x) (b := q.z) (m := (q.w * q.y)) (by linarith) hy
    exact near_q2R_entry' le_rfl hu' nw hw zd d0 ny by' z0 ny nz.neg nx.neg ny z0 b0 by' cz cx by' b0
      ((le_of_eq (congrArg abs (by simp only [hat, V4.vec]; ring))).trans k1) ((le_of_eq (congrArg abs (by simp [hat, V4.vec]; ring))).trans k2)
  have e10 : (q2R q').a10.Near (q2R q).a10 (90 * F.u) := by
    obtain ⟨k1, k2⟩ := off_bounds (a := q.x) (b := q.y) (m := (q.w * q.z)) (by linarith) hz
    exact near_q2R_entry' le_rfl hu' nw hw zd d0 nz bz nz z0 z0 nz nx.neg ny.neg bz b0 b0 bz cx cy
      ((le_of_eq (congrArg abs (by simp only [hat, V4.vec]; ring))).trans k1) ((le_of_eq (congrArg abs (by simp [hat, V4.vec]; ring))).trans k2)
  exact ⟨e01, e02, e10⟩

theorem relay_entries_p {q : V4 ℝ} {q' : V4 (Fl F)} (hu : F.u ≤ 1 / 100000) (h : Spec.QNear q' q 0) (hw : |q.w| ≤ 2)
    (hb : q.x ^ 2 + q.y ^ 2 + q.z ^ 2 ≤ 101 / 100) (hx : |q.w * q.x| ≤ 11 / 20) (hy : |q.w * q.y| ≤ 11 / 20) (hz : |q.w * q.z| ≤ 11 / 20) :
    (q2R q').a12.Near (q2R q).a12 (90 * F.u) ∧ (q2R q').a20.Near (q2R q).a20 (90 * F.u) ∧ (q2R q').a21.Near (q2R q).a21 (90 * F.u) := by
  have hu0 := F.u_nonneg
  obtain ⟨nw, nx, ny, nz⟩ := h
  have up : ∀ {a : Fl F} {r : ℝ}, a.Near r 0 → a.Near r (1 * F.u) := fun h => h.mono (by linarith)
  have nw := up nw
  have nx := up nx
  have ny := up ny
  have nz := up nz
  have z0 : (0 : Fl F).Near 0 (1 * F.u) := near_zero.mono (by linarith)
  have zd : (0 : Fl F).Near 0 (0 * F.u) := near_zero.mono (by linarith)
  have od : (1 : Fl F).Near 1 (0 * F.u) := near_one.mono (by linarith)
  have sx := sq_nonneg q.x
  have sy := sq_nonneg q.y
  have sz := sq_nonneg q.z
  have bx : |q.x| ≤ 9 / 8 := sq_le_abs_one (b := 101 / 100) (by linarith) (by norm_num)
  have by' : |q.y| ≤ 9 / 8 := sq_le_abs_one (b := 101 / 100) (by linarith) (by norm_num)
  have bz : |q.z| ≤ 9 / 8 := sq_le_abs_one (b := 101 / 100) (by linarith) (by norm_num)
  have cx : |-q.x| ≤ 9 / 8 := by rwa [abs_neg]
  have cy : |-q.y| ≤ 9 / 8 := by rwa [abs_neg]
  have cz : |-q.z| ≤ 9 / 8 := by rwa [abs_neg]
  have b0 : |(0 : ℝ)| ≤ 9 / 8 := by norm_num
  have d0 : |(0 : ℝ)| ≤ 1 := by simp
  have d1 : |(1 : ℝ)| ≤ 1 := by simp
  have l2 : (lit 2 : ℝ) = 2 := by simp
  have hu' : F.u ≤ 1 / 1000 := by linarith
  have e12 : (q2R q').a12.Near (q2R q).a12 (90 * F.u) := by
    obtain ⟨k1, k2⟩ := off_bounds (a := q.y) (b := q.z) (m := -(q.w * q.x)) (by linarith) (by rwa [abs_neg])
    exact near_q2R_entry' le_rfl hu' nw hw zd d0 nx.neg cx nz ny z0 nx.neg nx.neg z0 bz by' b0 cx cx b0
      ((le_of_eq (congrArg abs (by simp only [hat, V4.vec]; ring))).trans k1) ((le_of_eq (congrArg abs (by simp [hat, V4.vec]; ring))).trans k2)
  have e20 : (q2R q').a20.Near (q2R q).a20 (90 * F.u) := by
    obtain ⟨k1, k2⟩ := off_bounds (a := q.x) (b := q.z) (m := -(q.w * q.y)) (by linarith) (by rwa [abs_neg])
    exact near_q2R_entry' le_rfl hu' nw hw zd d0 ny.neg cy ny.neg z0 nx nz z0 ny.neg cy b0 bx bz b0 cy
      ((le_of_eq (congrArg abs (by simp only [hat, V4.vec]; ring))).trans k1) ((le_of_eq (congrArg abs (by simp [hat, V4.vec]; ring))).trans k2)
  have e21 : (q2R q').a21.Near (q2R q).a21 (90 * F.u) := by
    obtain ⟨k1, k2⟩ := off_bounds (a := q.y) (b := q.z) (m := (q.w * q.x)) (by linarith) hx
    exact near_q2R_entry' le_rfl hu' nw hw zd d0 nx bx ny.neg nz.neg nx z0 z0 nx cy cz bx b0 b0 bx
      ((le_of_eq (congrArg abs (by simp only [hat, V4.vec]; ring))).trans k1) ((le_of_eq (congrArg abs (by simp [hat, V4.vec]; ring))).trans k2)
  exact ⟨e12, e20, e21⟩

/-- One turn of the relay in floating-point arithmetic: quaternion to matrix to quaternion, when the vector part is not too long. -/
theorem relay_hop {q : V4 ℝ} {q' : V4 (Fl F)} (hu : F.u ≤ 1 / 100000) (h : Spec.QNear q' q 0) (hw : |q.w| ≤ 2)
    (hb : q.x ^ 2 + q.y ^ 2 + q.z ^ 2 ≤ 11 / 20) (hx : |q.w * q.x| ≤ 11 / 20) (hy : |q.w * q.y| ≤ 11 / 20) (hz : |q.w * q.z| ≤ 11 / 20) :
    ∃ q2' q2, R2q (q2R q') = .ok q2' ∧ Spec.QNear q2' q2 0 ∧ Relay.Hop q q2 (3690 * F.u) := by
  obtain ⟨e00, e11, e22⟩ := relay_entries_d hu h hw (hb.trans (by norm_num)) hx hy hz
  obtain ⟨e01, e02, e10⟩ := relay_entries_o hu h hw (hb.trans (by norm_num)) hx hy hz
  obtain ⟨e12, e20, e21⟩ := relay_entries_p hu h hw (hb.trans (by norm_num)) hx hy hz
  exact relay_hop_aux hu hb hx hy hz e00 e01 e02 e10 e11 e12 e20 e21 e22

end Fl

namespace Relay

theorem q2R_scale (q : V4 ℝ) {t : ℝ} (ht : t * t = 1) : q2R ⟨t * q.w, t * q.x, t * q.y, t * q.z⟩ = q2R q := by
  have h : ∀ a b : ℝ, (t * a) * (t * b) = a * b := fun a b => by linear_combination a * b * ht
  have h2 : ∀ a b : ℝ, 2 * (t * a) * (t * b) = 2 * a * b := fun a b => by linear_combination 2 * a * b * ht
  ext <;> simp [q2R, hat, V4.vec, h, h2]

/-- The entry pivoted on, `p`, and its square root: the computed quaternion is `±q` even when `q` is not a unit quaternion. -/
theorem pivot {p r : ℝ} (hp : 0 < p) (h : p = 4 * r ^ 2) :
    ∃ t : ℝ, t * t = 1 ∧ 1 / 4 * (2 * Real.sqrt p) = t * r ∧ ∀ a : ℝ, 4 * (r * a) / (2 * Real.sqrt p) = t * a := by
  have hr : r ≠ 0 := by
    rintro rfl
    norm_num at h
    linarith
  have hs : Real.sqrt p = 2 * |r| := by
    rw [h, show (4 : ℝ) * r ^ 2 = (2 * |r|) ^ 2 by rw [mul_pow, sq_abs]; norm_num, Real.sqrt_sq (by positivity)]
  have hr' : |r| ≠ 0 := abs_ne_zero.2 hr
  refine ⟨r / |r|, ?_, ?_, fun a => ?_⟩
  · rw [div_mul_div_comm, abs_mul_abs_self, div_self (mul_ne_zero hr hr)]
  · have e : r / |r| * r = |r| := by rw [div_mul_eq_mul_div, ← abs_mul_abs_self r, mul_div_assoc, div_self hr', mul_one]
    rw [hs, e]
    ring
  · rw [hs]
    field_simp
    ring

/-- Once the trace is not positive, another turn changes nothing, in exact arithmetic, whatever the length of the quaternion. -/
theorem fixed (q : V4 ℝ) (h : (q2R q).trace ≤ 0) : ∃ q2 : V4 ℝ, R2q (q2R q).up = .ok q2.up ∧ q2R q2 = q2R q := by
  have f00 : (q2R q).a00 = 1 - 2 * (q.y ^ 2 + q.z ^ 2) := by simp [q2R, hat, V4.vec]; ring
  have f11 : (q2R q).a11 = 1 - 2 * (q.x ^ 2 + q.z ^ 2) := by simp [q2R, hat, V4.vec]; ring
  have f22 : (q2R q).a22 = 1 - 2 * (q.x ^ 2 + q.y ^ 2) := by simp [q2R, hat, V4.vec]; ring
  have fx : (q2R q).a21 - (q2R q).a12 = 4 * (q.w * q.x) := by simp [q2R, hat, V4.vec]; ring
  have fy : (q2R q).a02 - (q2R q).a20 = 4 * (q.w * q.y) := by simp [q2R, hat, V4.vec]; ring
  have fz : (q2R q).a10 - (q2R q).a01 = 4 * (q.w * q.z) := by simp [q2R, hat, V4.vec]; ring
  have gxy : (q2R q).a01 + (q2R q).a10 = 4 * (q.x * q.y) := by simp [q2R, hat, V4.vec]; ring
  have gxz : (q2R q).a02 + (q2R q).a20 = 4 * (q.x * q.z) := by simp [q2R, hat, V4.vec]; ring
  have gyz : (q2R q).a12 + (q2R q).a21 = 4 * (q.y * q.z) := by simp [q2R, hat, V4.vec]; ring
  have spos : ∀ {t : ℝ}, 0 < t → 2 * Real.sqrt t ≠ 0 := fun ht => by have := Real.sqrt_pos.2 ht; positivity
  unfold R2q
  rw [M3.up_trace]
  simp only [XReal.zero_def, XReal.fin_lt, M3.up_00, M3.up_11, M3.up_22, XReal.fin_add, XReal.fin_sub, XReal.one_def,
    M3.up_01, M3.up_02, M3.up_10, M3.up_12, M3.up_20, M3.up_21, fx, fy, fz, gxy, gxz, gyz]
  rw [if_neg (not_lt.2 h)]
  simp only [M3.trace] at h
  by_cases h2 : (q2R q).a11 < (q2R q).a00 ∧ (q2R q).a22 < (q2R q).a00
  · have hp : 0 < 1 + (q2R q).a00 - (q2R q).a11 - (q2R q).a22 := by linarith
    obtain ⟨t, t1, t2, t3⟩ := pivot (r := q.x) hp (by rw [f00, f11, f22]; ring)
    refine ⟨_, ?_, q2R_scale q t1⟩
    rw [if_pos h2, mathSqrt_fin hp.le]
    simp only [XReal.lit_fin, XReal.fin_mul, bind, pure, Except.pure, Except.bind, Rat.cast_ofNat]
    rw [XReal.fin_div _ (spos hp), XReal.fin_div _ (spos hp), XReal.fin_div _ (spos hp), mul_comm q.w, t3, t3, t3,
      show ((1 / 4 : ℚ) : ℝ) = 1 / 4 by norm_num, t2]
    rfl
  rw [if_neg h2]
  by_cases h3 : (q2R q).a22 < (q2R q).a11
  · have hp : 0 < 1 - (q2R q).a00 + (q2R q).a11 - (q2R q).a22 := by
      by_cases h4 : (q2R q).a11 < (q2R q).a00
      · exfalso; exact h2 ⟨h4, by linarith⟩
      · linarith
    obtain ⟨t, t1, t2, t3⟩ := pivot (r := q.y) hp (by rw [f00, f11, f22]; ring)
    refine ⟨_, ?_, q2R_scale q t1⟩
    rw [if_pos h3, mathSqrt_fin hp.le]
    simp only [XReal.lit_fin, XReal.fin_mul, bind, pure, Except.pure, Except.bind, Rat.cast_ofNat]
    rw [XReal.fin_div _ (spos hp), XReal.fin_div _ (spos hp), XReal.fin_div _ (spos hp), mul_comm q.w, mul_comm q.x, t3, t3, t3,
      show ((1 / 4 : ℚ) : ℝ) = 1 / 4 by norm_num, t2]
    rfl
  · have hp : 0 < 1 - (q2R q).a00 - (q2R q).a11 + (q2R q).a22 := by
      by_cases h4 : (q2R q).a22 < (q2R q).a00
      · exfalso; exact h2 ⟨by linarith, h4⟩
      · linarith
    obtain ⟨t, t1, t2, t3⟩ := pivot (r := q.z) hp (by rw [f00, f11, f22]; ring)
    refine ⟨_, ?_, q2R_scale q t1⟩
    rw [if_neg h3, mathSqrt_fin hp.le]
    simp only [XReal.lit_fin, XReal.fin_mul, bind, pure, Except.pure, Except.bind, Rat.cast_ofNat]
    rw [XReal.fin_div _ (spos hp), XReal.fin_div _ (spos hp), XReal.fin_div _ (spos hp), mul_comm q.w, mul_comm q.x, mul_comm q.y, t3, t3, t3,
      show ((1 / 4 : ℚ) : ℝ) = 1 / 4 by norm_num, t2]
    rfl

/-- A turn of a matrix that has the form of a rotation about z. -/
theorem turn_z {c s : ℝ} (hc : -1 / 2 < c) :
    ∃ q : V4 ℝ, R2q (⟨c, -s, 0, s, c, 0, 0, 0, 1⟩ : M3 ℝ).up = .ok q.up ∧ q2R q = ⟨1 - s ^ 2 / (1 + c), -s, 0, s, 1 - s ^ 2 / (1 + c), 0, 0, 0, 1⟩ := by
  have h1 : 0 < (⟨c, -s, 0, s, c, 0, 0, 0, 1⟩ : M3 ℝ).trace := by simp only [M3.trace]; linarith
  have hp : 0 < (⟨c, -s, 0, s, c, 0, 0, 0, 1⟩ : M3 ℝ).trace + 1 := by linarith
  have hpc : (⟨c, -s, 0, s, c, 0, 0, 0, 1⟩ : M3 ℝ).trace + 1 = 2 * (1 + c) := by simp only [M3.trace]; ring
  have sp : 2 * Real.sqrt (2 * (1 + c)) ≠ 0 := by
    have := Real.sqrt_pos.2 (hpc ▸ hp)
    positivity
  refine ⟨⟨1 / 4 * (2 * Real.sqrt (2 * (1 + c))), (0 - 0) / (2 * Real.sqrt (2 * (1 + c))), (0 - 0) / (2 * Real.sqrt (2 * (1 + c))),
    (s - -s) / (2 * Real.sqrt (2 * (1 + c)))⟩, ?_, ?_⟩
  · unfold R2q
    rw [M3.up_trace]
    simp only [XReal.zero_def, XReal.fin_lt, M3.up_00, M3.up_11, M3.up_22, XReal.fin_add, XReal.fin_sub, XReal.one_def,
      M3.up_01, M3.up_02, M3.up_10, M3.up_12, M3.up_20, M3.up_21]
    rw [if_pos h1, mathSqrt_fin hp.le, hpc]
    simp only [XReal.lit_fin, XReal.fin_mul, bind, pure, Except.pure, Except.bind, Rat.cast_ofNat]
    rw [XReal.fin_div _ sp, XReal.fin_div _ sp]
    congr 1; ext <;> simp
  · have hss : Real.sqrt (2 * (1 + c)) * Real.sqrt (2 * (1 + c)) = 2 * (1 + c) := Real.mul_self_sqrt (by linarith)
    have hs0 : Real.sqrt (2 * (1 + c)) ≠ 0 := fun h => sp (by rw [h, mul_zero])
    set S := Real.sqrt (2 * (1 + c))
    have hc1 : 1 + c = S * S / 2 := by linarith
    rw [hc1]
    ext <;> simp [q2R, hat, V4.vec] <;> field_simp <;> ring

end Relay
