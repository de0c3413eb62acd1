import Verif.Lemmas.Relay

/-!
# Relaying a rotation by more than 120°: the other three branches of `R2q`
-/
set_option autoImplicit false

namespace Fl
variable {F : FSys} {ε : ℝ}

/-- As `R2q_tail`, for pivots that may exceed 4 a little. -/
theorem R2q_tail' {P : Fl F} {p : ℝ} (hP : P.Near p (18 * ε)) (hu : F.u ≤ ε) (hε : ε ≤ 1 / 1000) (h1 : 81 / 100 ≤ p) (h4 : p ≤ 41 / 10) :
    mathSqrt P = .ok (Elem.sqrt P) ∧ (lit (1/4) * (lit 2 * Elem.sqrt P)).Near (1/4 * (2 * Real.sqrt p)) (44 * ε) ∧
    ∀ {n' : Fl F} {n : ℝ}, n'.Near n (6 * ε) → |n / (2 * Real.sqrt p)| ≤ 11 / 10 →
      (n' / (lit 2 * Elem.sqrt P)).Near (n / (2 * Real.sqrt p)) (46 * ε) := by
  have h0 : 0 ≤ ε := F.u_nonneg.trans hu
  have hs := hP.sqrtE (c := 9 / 10) (S := 21 / 10) 24 hu (by linarith) (by norm_num) (by linarith) (by linarith) (by linarith) (by norm_num)
    (by norm_num) (by norm_num) (by norm_num)
  have hsq : Real.sqrt p ≤ 21 / 10 := Real.sqrt_le_iff.2 ⟨by norm_num, by linarith⟩
  have hsl : 9 / 10 ≤ Real.sqrt p := Real.le_sqrt_of_sq_le (by linarith)
  have l2 : (lit 2 : Fl F).Near 2 (3 * ε) := by
    have := near_lit (F := F) (ε := ε) 2 (S := 2) hu (by linarith) (by norm_num) (by norm_num)
    norm_num at this ⊢
    exact this
  have l4 : (lit (1/4) : Fl F).Near (1/4) (5 / 4 * ε) := by
    have := near_lit (F := F) (ε := ε) (1/4) (S := 1/4) hu (by linarith) (by norm_num [abs_le]) (by norm_num)
    norm_num at this ⊢
    exact this
  have hS := l2.mulE (M := 2) (N := 21 / 10) 61 hs hu hε (by norm_num) (by rw [abs_le]; constructor <;> linarith) (by norm_num) (by norm_num)
    (by norm_num) (by norm_num)
  refine ⟨?_, ?_, ?_⟩
  · unfold mathSqrt
    rw [if_neg (hP.not_lt_zero (by linarith))]
  · exact (l4.mulE (M := 1/4) (N := 42 / 10) 24 hS hu hε (by norm_num [abs_le]) (by rw [abs_le]; constructor <;> linarith) (by norm_num)
      (by norm_num) (by norm_num) (by norm_num)).mono (by linarith)
  · intro n' n hn hq
    exact hn.divE (Q := 11 / 10) (c := 17 / 10) 46 hS hu (by linarith) hq (by norm_num) (by linarith) (by norm_num) (by norm_num) (by norm_num)
      (by norm_num)

end Fl

namespace Relay

/-- One turn when the trace is not positive: the same quaternion up to its sign. -/
structure Keep (q1 q2 : V4 ℝ) (t μ : ℝ) : Prop where
  sign : t * t = 1
  w : |q2.w - t * q1.w| ≤ μ
  x : |q2.x - t * q1.x| ≤ μ
  y : |q2.y - t * q1.y| ≤ μ
  z : |q2.z - t * q1.z| ≤ μ

end Relay

namespace Fl
variable {F : FSys}

theorem keep_prod {a b : ℝ} (h : a ^ 2 + b ^ 2 ≤ 101 / 100) : |4 * (a * b)| ≤ 21 / 10 := by
  rw [abs_le]; constructor <;> nlinarith [sq_nonneg (a + b), sq_nonneg (a - b)]

theorem keep_sign {t v : ℝ} (ht : t * t = 1) (hv : v ^ 2 ≤ 101 / 100) : |t * v| ≤ 11 / 10 := by
  have h : (t * v) ^ 2 ≤ 101 / 100 := by
    calc (t * v) ^ 2 = t * t * v ^ 2 := by ring
      _ ≤ 101 / 100 := by rw [ht, one_mul]; exact hv
  rw [abs_le]; constructor <;> nlinarith

/-- The branch that pivots on `r`. -/
theorem keep_fin {ε : ℝ} (hu : F.u ≤ ε) (hε : ε ≤ 1 / 1000) {P : Fl F} {r : ℝ} (hP : P.Near (4 * r ^ 2) (18 * ε)) (h1 : 81 / 100 ≤ 4 * r ^ 2)
    (h2 : r ^ 2 ≤ 101 / 100) :
    mathSqrt P = .ok (Elem.sqrt P) ∧ ∃ t : ℝ, t * t = 1 ∧ (lit (1/4) * (lit 2 * Elem.sqrt P)).Near (t * r) (46 * ε) ∧
      ∀ {n' : Fl F} {n v : ℝ}, n'.Near n (6 * ε) → n = 4 * (r * v) → v ^ 2 ≤ 101 / 100 → (n' / (lit 2 * Elem.sqrt P)).Near (t * v) (46 * ε) := by
  have h0 := F.u_nonneg
  obtain ⟨t1, t2, t3⟩ := R2q_tail' hP hu hε h1 (by linarith)
  obtain ⟨t, k1, k2, k3⟩ := Relay.pivot (p := 4 * r ^ 2) (r := r) (by linarith) rfl
  rw [k2] at t2
  refine ⟨t1, t, k1, t2.mono (by linarith), ?_⟩
  intro n' n v hn he hv
  have := t3 hn (by rw [he, k3]; exact keep_sign k1 hv)
  rwa [he, k3] at this

/-- The second half of the turn. -/
theorem relay_keep_aux {q : V4 ℝ} {R' : M3 (Fl F)} (hu : F.u ≤ 1 / 100000)
    (hn : |q.w ^ 2 + (q.x ^ 2 + q.y ^ 2 + q.z ^ 2) - 1| ≤ 1 / 100) (htr : 3 - 4 * (q.x ^ 2 + q.y ^ 2 + q.z ^ 2) ≤ -(1200 * F.u))
    (e00 : R'.a00.Near (q2R q).a00 (90 * F.u)) (e01 : R'.a01.Near (q2R q).a01 (90 * F.u)) (e02 : R'.a02.Near (q2R q).a02 (90 * F.u))
    (e10 : R'.a10.Near (q2R q).a10 (90 * F.u)) (e11 : R'.a11.Near (q2R q).a11 (90 * F.u)) (e12 : R'.a12.Near (q2R q).a12 (90 * F.u))
    (e20 : R'.a20.Near (q2R q).a20 (90 * F.u)) (e21 : R'.a21.Near (q2R q).a21 (90 * F.u)) (e22 : R'.a22.Near (q2R q).a22 (90 * F.u)) :
    ∃ q2' q2 t, R2q R' = .ok q2' ∧ Spec.QNear q2' q2 0 ∧ Relay.Keep q q2 t (4140 * F.u) := by
  have hu0 := F.u_nonneg
  set ε := 90 * F.u with hε
  have huε : F.u ≤ ε := by linarith
  have hε1 : ε ≤ 1 := by linarith
  have hε2 : ε ≤ 1 / 1000 := by linarith
  rw [← one_mul ε] at e00 e01 e02 e10 e11 e12 e20 e21 e22
  have sw := sq_nonneg q.w
  have sx := sq_nonneg q.x
  have sy := sq_nonneg q.y
  have sz := sq_nonneg q.z
  obtain ⟨hn1, hn2⟩ := abs_le.1 hn
  have f00 : (q2R q).a00 = 1 - 2 * (q.y ^ 2 + q.z ^ 2) := by simp [q2R, hat, V4.vec]; ring
  have f11 : (q2R q).a11 = 1 - 2 * (q.x ^ 2 + q.z ^ 2) := by simp [q2R, hat, V4.vec]; ring
  have f22 : (q2R q).a22 = 1 - 2 * (q.x ^ 2 + q.y ^ 2) := by simp [q2R, hat, V4.vec]; ring
  have fx : (q2R q).a21 - (q2R q).a12 = 4 * (q.x * q.w) := by simp [q2R, hat, V4.vec]; ring
  have fy : (q2R q).a02 - (q2R q).a20 = 4 * (q.y * q.w) := by simp [q2R, hat, V4.vec]; ring
  have fz : (q2R q).a10 - (q2R q).a01 = 4 * (q.z * q.w) := by simp [q2R, hat, V4.vec]; ring
  have gxy : (q2R q).a01 + (q2R q).a10 = 4 * (q.x * q.y) := by simp [q2R, hat, V4.vec]; ring
  have gxz : (q2R q).a02 + (q2R q).a20 = 4 * (q.x * q.z) := by simp [q2R, hat, V4.vec]; ring
  have gyz : (q2R q).a12 + (q2R q).a21 = 4 * (q.y * q.z) := by simp [q2R, hat, V4.vec]; ring
  have tr : (q2R q).a00 + (q2R q).a11 + (q2R q).a22 = 3 - 4 * (q.x ^ 2 + q.y ^ 2 + q.z ^ 2) := by rw [f00, f11, f22]; ring
  have s1 := e00.addE 6 e11 huε hε1 (S := 21 / 10) (by rw [f00, f11, abs_le]; constructor <;> linarith) (by norm_num) (by norm_num) (by norm_num)
  have htr' := s1.addE 12 (S := 3) e22 huε hε1 (by rw [tr, abs_le]; constructor <;> linarith) (by norm_num) (by norm_num) (by norm_num)
  rw [tr] at htr'
  have one : (1 : Fl F).Near 1 (0 * ε) := near_one.mono (by linarith)
  have zero : (0 : Fl F).Near 0 (0 * ε) := near_zero.mono (by linarith)
  have c1 : ¬ 0 < R'.trace := by
    intro hc
    have := zero.lt_real htr' hc
    linarith
  have dif : ∀ {a c : Fl F} {x y m : ℝ}, a.Near x (1 * ε) → c.Near y (1 * ε) → x - y = m → |m| ≤ 21 / 10 → (a - c).Near m (6 * ε) := by
    rintro a c x y m ha hc rfl hm
    exact ha.subE 6 hc huε hε1 hm (by norm_num) (by norm_num) (by norm_num)
  have sum : ∀ {a c : Fl F} {x y m : ℝ}, a.Near x (1 * ε) → c.Near y (1 * ε) → x + y = m → |m| ≤ 21 / 10 → (a + c).Near m (6 * ε) := by
    rintro a c x y m ha hc rfl hm
    exact ha.addE 6 hc huε hε1 hm (by norm_num) (by norm_num) (by norm_num)
  have nfx := dif e21 e12 fx (keep_prod (by linarith))
  have nfy := dif e02 e20 fy (keep_prod (by linarith))
  have nfz := dif e10 e01 fz (keep_prod (by linarith))
  have ngxy := sum e01 e10 gxy (keep_prod (by linarith))
  have ngxz := sum e02 e20 gxz (keep_prod (by linarith))
  have ngyz := sum e12 e21 gyz (keep_prod (by linarith))
  have hμ : 46 * ε = 4140 * F.u := by rw [hε]; ring
  have lw : q.w ^ 2 ≤ 101 / 100 := by linarith
  have lx : q.x ^ 2 ≤ 101 / 100 := by linarith
  have ly : q.y ^ 2 ≤ 101 / 100 := by linarith
  have lz : q.z ^ 2 ≤ 101 / 100 := by linarith
  have done : ∀ {a b c d : Fl F} {t : ℝ}, t * t = 1 → a.Near (t * q.w) (46 * ε) → b.Near (t * q.x) (46 * ε) → c.Near (t * q.y) (46 * ε) →
      d.Near (t * q.z) (46 * ε) → ∃ q2' q2 t, (Except.ok ⟨a, b, c, d⟩ : Except PyErr (V4 (Fl F))) = .ok q2' ∧ Spec.QNear q2' q2 0 ∧
        Relay.Keep q q2 t (4140 * F.u) := by
    rintro a b c d t ht ⟨w2, w3, w4⟩ ⟨x2, x3, x4⟩ ⟨y2, y3, y4⟩ ⟨z2, z3, z4⟩
    rw [hμ] at w4 x4 y4 z4
    exact ⟨⟨a, b, c, d⟩, ⟨w2, x2, y2, z2⟩, t, rfl, ⟨⟨_, w3, by simp⟩, ⟨_, x3, by simp⟩, ⟨_, y3, by simp⟩, _, z3, by simp⟩, ht, w4, x4, y4, z4⟩
  unfold R2q
  dsimp only
  rw [if_neg c1]
  by_cases c2 : R'.a11 < R'.a00 ∧ R'.a22 < R'.a00
  · have d1 := e11.lt_real e00 c2.1
    have d2 := e22.lt_real e00 c2.2
    rw [f00, f11] at d1
    rw [f00, f22] at d2
    have p1 := one.addE 5 e00 huε hε1 (S := 21 / 10) (by rw [f00, abs_le]; constructor <;> linarith) (by norm_num) (by norm_num) (by norm_num)
    have p2 := p1.subE 11 e11 huε hε1 (S := 31 / 10) (by rw [f00, f11, abs_le]; constructor <;> linarith) (by norm_num) (by norm_num) (by norm_num)
    have hP := p2.subE 18 e22 huε hε1 (S := 41 / 10) (by rw [f00, f11, f22, abs_le]; constructor <;> linarith) (by norm_num) (by norm_num) (by norm_num)
    rw [show 1 + (q2R q).a00 - (q2R q).a11 - (q2R q).a22 = 4 * q.x ^ 2 by rw [f00, f11, f22]; ring] at hP
    obtain ⟨t1, t, k1, k2, k3⟩ := keep_fin huε hε2 hP (by linarith) lx
    rw [if_pos c2, t1]
    exact done k1 (k3 nfx rfl lw) k2 (k3 ngxy rfl ly) (k3 ngxz rfl lz)
  rw [if_neg c2]
  have c2' : (q2R q).a00 ≤ (q2R q).a11 + (1 * ε + 1 * ε) ∨ (q2R q).a00 ≤ (q2R q).a22 + (1 * ε + 1 * ε) := by
    by_cases h : R'.a11 < R'.a00
    · exact Or.inr (e22.not_lt_real e00 fun h' => c2 ⟨h, h'⟩)
    · exact Or.inl (e11.not_lt_real e00 h)
  rw [f00, f11, f22] at c2'
  by_cases c3 : R'.a22 < R'.a11
  · have d1 := e22.lt_real e11 c3
    rw [f11, f22] at d1
    have p1 := one.subE 5 e00 huε hε1 (S := 21 / 10) (by rw [f00, abs_le]; constructor <;> linarith) (by norm_num) (by norm_num) (by norm_num)
    have p2 := p1.addE 11 e11 huε hε1 (S := 31 / 10) (by rw [f00, f11, abs_le]; constructor <;> linarith) (by norm_num) (by norm_num) (by norm_num)
    have hP := p2.subE 18 e22 huε hε1 (S := 41 / 10) (by rw [f00, f11, f22, abs_le]; constructor <;> linarith) (by norm_num) (by norm_num) (by norm_num)
    rw [show 1 - (q2R q).a00 + (q2R q).a11 - (q2R q).a22 = 4 * q.y ^ 2 by rw [f00, f11, f22]; ring] at hP
    obtain ⟨t1, t, k1, k2, k3⟩ := keep_fin huε hε2 hP (by rcases c2' with h | h <;> linarith) ly
    rw [if_pos c3, t1]
    exact done k1 (k3 nfy rfl lw) (k3 ngxy (by ring) lx) k2 (k3 ngyz rfl lz)
  · have d1 := e22.not_lt_real e11 c3
    rw [f11, f22] at d1
    have p1 := one.subE 5 e00 huε hε1 (S := 21 / 10) (by rw [f00, abs_le]; constructor <;> linarith) (by norm_num) (by norm_num) (by norm_num)
    have p2 := p1.subE 11 e11 huε hε1 (S := 31 / 10) (by rw [f00, f11, abs_le]; constructor <;> linarith) (by norm_num) (by norm_num) (by norm_num)
    have hP := p2.addE 18 e22 huε hε1 (S := 41 / 10) (by rw [f00, f11, f22, abs_le]; constructor <;> linarith) (by norm_num) (by norm_num) (by norm_num)
    rw [show 1 - (q2R q).a00 - (q2R q).a11 + (q2R q).a22 = 4 * q.z ^ 2 by rw [f00, f11, f22]; ring] at hP
    obtain ⟨t1, t, k1, k2, k3⟩ := keep_fin huε hε2 hP (by rcases c2' with h | h <;> linarith) lz
    rw [if_neg c3, t1]
    exact done k1 (k3 nfz rfl lw) (k3 ngxz (by ring) lx) (k3 ngyz (by ring) ly) k2

/-- One turn of the relay when the trace is clearly negative. -/
theorem relay_keep {q : V4 ℝ} {q' : V4 (Fl F)} (hu : F.u ≤ 1 / 100000) (h : Spec.QNear q' q 0)
    (hn : |q.w ^ 2 + (q.x ^ 2 + q.y ^ 2 + q.z ^ 2) - 1| ≤ 1 / 100) (htr : 3 - 4 * (q.x ^ 2 + q.y ^ 2 + q.z ^ 2) ≤ -(1200 * F.u)) :
    ∃ q2' q2 t, R2q (q2R q') = .ok q2' ∧ Spec.QNear q2' q2 0 ∧ Relay.Keep q q2 t (4140 * F.u) := by
  obtain ⟨hn1, hn2⟩ := abs_le.1 hn
  have sw := sq_nonneg q.w
  have sx := sq_nonneg q.x
  have sy := sq_nonneg q.y
  have sz := sq_nonneg q.z
  have hw : |q.w| ≤ 2 := (sq_le_abs_one (b := 101 / 100) (by linarith) (by norm_num)).trans (by norm_num)
  have hb : q.x ^ 2 + q.y ^ 2 + q.z ^ 2 ≤ 101 / 100 := by linarith
  have prod : ∀ {a b : ℝ}, a ^ 2 + b ^ 2 ≤ 101 / 100 → |a * b| ≤ 11 / 20 := by
    intro a b h
    rw [abs_le]; constructor <;> nlinarith [sq_nonneg (a + b), sq_nonneg (a - b)]
  have hx : |q.w * q.x| ≤ 11 / 20 := prod (by linarith)
  have hy : |q.w * q.y| ≤ 11 / 20 := prod (by linarith)
  have hz : |q.w * q.z| ≤ 11 / 20 := prod (by linarith)
  obtain ⟨e00, e11, e22⟩ := relay_entries_d hu h hw hb hx hy hz
  obtain ⟨e01, e02, e10⟩ := relay_entries_o hu h hw hb hx hy hz
  obtain ⟨e12, e20, e21⟩ := relay_entries_p hu h hw hb hx hy hz
  exact relay_keep_aux hu hn htr e00 e01 e02 e10 e11 e12 e20 e21 e22

end Fl
