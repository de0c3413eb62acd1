import Verif.Lemmas.FlUrdf

/-! # Products of matrices of any size in floating-point arithmetic, entry by entry -/
set_option autoImplicit false

namespace Spec
variable {F : FSys}

/-- All entries are finite and within `e` of those of `B`. -/
structure ENear (A : M3 (Fl F)) (B : M3 ℝ) (e : ℝ) : Prop where
  a00 : A.a00.Near B.a00 e
  a01 : A.a01.Near B.a01 e
  a02 : A.a02.Near B.a02 e
  a10 : A.a10.Near B.a10 e
  a11 : A.a11.Near B.a11 e
  a12 : A.a12.Near B.a12 e
  a20 : A.a20.Near B.a20 e
  a21 : A.a21.Near B.a21 e
  a22 : A.a22.Near B.a22 e

end Spec

/-- all entries are at most `b` in size -/
structure EBound (B : M3 ℝ) (b : ℝ) : Prop where
  a00 : |B.a00| ≤ b
  a01 : |B.a01| ≤ b
  a02 : |B.a02| ≤ b
  a10 : |B.a10| ≤ b
  a11 : |B.a11| ≤ b
  a12 : |B.a12| ≤ b
  a20 : |B.a20| ≤ b
  a21 : |B.a21| ≤ b
  a22 : |B.a22| ≤ b

theorem abs_prod_le {x y a b : ℝ} (hx : |x| ≤ a) (hy : |y| ≤ b) : |x * y| ≤ a * b := by
  rw [abs_mul]
  exact mul_le_mul hx hy (abs_nonneg _) ((abs_nonneg _).trans hx)

theorem abs_dot3_le {x1 y1 x2 y2 x3 y3 a b : ℝ} (h1 : |x1| ≤ a) (k1 : |y1| ≤ b) (h2 : |x2| ≤ a) (k2 : |y2| ≤ b) (h3 : |x3| ≤ a) (k3 : |y3| ≤ b) :
    |x1 * y1 + x2 * y2 + x3 * y3| ≤ 3 * (a * b) := by
  have := abs_prod_le h1 k1
  have := abs_prod_le h2 k2
  have := abs_prod_le h3 k3
  refine (abs_add_le _ _).trans ?_
  have := abs_add_le (x1 * y1) (x2 * y2)
  linarith

theorem EBound.mul {A B : M3 ℝ} {a b : ℝ} (hA : EBound A a) (hB : EBound B b) : EBound (A * B) (3 * (a * b)) where
  a00 := abs_dot3_le hA.a00 hB.a00 hA.a01 hB.a10 hA.a02 hB.a20
  a01 := abs_dot3_le hA.a00 hB.a01 hA.a01 hB.a11 hA.a02 hB.a21
  a02 := abs_dot3_le hA.a00 hB.a02 hA.a01 hB.a12 hA.a02 hB.a22
  a10 := abs_dot3_le hA.a10 hB.a00 hA.a11 hB.a10 hA.a12 hB.a20
  a11 := abs_dot3_le hA.a10 hB.a01 hA.a11 hB.a11 hA.a12 hB.a21
  a12 := abs_dot3_le hA.a10 hB.a02 hA.a11 hB.a12 hA.a12 hB.a22
  a20 := abs_dot3_le hA.a20 hB.a00 hA.a21 hB.a10 hA.a22 hB.a20
  a21 := abs_dot3_le hA.a20 hB.a01 hA.a21 hB.a11 hA.a22 hB.a21
  a22 := abs_dot3_le hA.a20 hB.a02 hA.a21 hB.a12 hA.a22 hB.a22

theorem EBound.mono {A : M3 ℝ} {a b : ℝ} (h : EBound A a) (hab : a ≤ b) : EBound A b :=
  ⟨h.a00.trans hab, h.a01.trans hab, h.a02.trans hab, h.a10.trans hab, h.a11.trans hab, h.a12.trans hab, h.a20.trans hab, h.a21.trans hab, h.a22.trans hab⟩

theorem EBound.transpose {A : M3 ℝ} {a : ℝ} (h : EBound A a) : EBound A.transpose a :=
  ⟨h.a00, h.a10, h.a20, h.a01, h.a11, h.a21, h.a02, h.a12, h.a22⟩

theorem EBound.of_rot {R : M3 ℝ} (h : IsRot R) : EBound R 1 := by
  obtain ⟨⟨r00, r10, r20⟩, ⟨r01, r11, r21⟩, r02, r12, r22⟩ := h.opLe.entries
  exact ⟨r00, r01, r02, r10, r11, r12, r20, r21, r22⟩

namespace Fl
variable {F : FSys}
open Spec

theorem ENear.mono {A : M3 (Fl F)} {B : M3 ℝ} {d e : ℝ} (h : ENear A B d) (hde : d ≤ e) : ENear A B e :=
  ⟨h.a00.mono hde, h.a01.mono hde, h.a02.mono hde, h.a10.mono hde, h.a11.mono hde, h.a12.mono hde, h.a20.mono hde, h.a21.mono hde, h.a22.mono hde⟩

theorem ENear.transpose {A : M3 (Fl F)} {B : M3 ℝ} {e : ℝ} (h : ENear A B e) : ENear A.transpose B.transpose e :=
  ⟨h.a00, h.a10, h.a20, h.a01, h.a11, h.a21, h.a02, h.a12, h.a22⟩

theorem ENear.of_mNear {A : M3 (Fl F)} {B : M3 ℝ} {e : ℝ} (h : MNear A B e) : ENear A B e := by
  obtain ⟨C, rfl, hC⟩ := mNear_iff.1 h
  obtain ⟨⟨r00, r10, r20⟩, ⟨r01, r11, r21⟩, r02, r12, r22⟩ := hC.entries
  exact ⟨⟨_, rfl, r00⟩, ⟨_, rfl, r01⟩, ⟨_, rfl, r02⟩, ⟨_, rfl, r10⟩, ⟨_, rfl, r11⟩, ⟨_, rfl, r12⟩, ⟨_, rfl, r20⟩, ⟨_, rfl, r21⟩, ⟨_, rfl, r22⟩⟩

/-- A sum of three products of numbers of sizes `M s` and `N t`. -/
theorem near_dot3S {a1 a2 a3 b1 b2 b3 : Fl F} {x1 x2 x3 y1 y2 y3 s t M N k l : ℝ} (mp mq m : ℝ) (ha1 : a1.Near x1 (k * (F.u * s))) (ha2 : a2.Near x2 (k * (F.u * s)))
    (ha3 : a3.Near x3 (k * (F.u * s))) (hb1 : b1.Near y1 (l * (F.u * t))) (hb2 : b2.Near y2 (l * (F.u * t))) (hb3 : b3.Near y3 (l * (F.u * t)))
    (hx1 : |x1| ≤ M * s) (hx2 : |x2| ≤ M * s) (hx3 : |x3| ≤ M * s) (hy1 : |y1| ≤ N * t) (hy2 : |y2| ≤ N * t) (hy3 : |y3| ≤ N * t)
    (hs : 0 < s) (ht : 0 < t) (hk : 0 ≤ k) (hl : 0 ≤ l) (hη : F.η ≤ F.u * (s * t)) (hM : 0 ≤ M) (hN : 0 ≤ N)
    (hp : (M * l + N * k + k * l / 1024) * (1 + 1 / 1024) + M * N + 1 ≤ mp) (hq : (mp + mp) * (1 + 1 / 1024) + 2 * (M * N) + 1 ≤ mq)
    (hm : (mq + mp) * (1 + 1 / 1024) + 3 * (M * N) + 1 ≤ m) (hbig : (3 * (M * N) + m / 1024) * (s * t) ≤ F.big) :
    (a1 * b1 + a2 * b2 + a3 * b3).Near (x1 * y1 + x2 * y2 + x3 * y3) (m * (F.u * (s * t))) := by
  have MN := mul_nonneg hM hN
  have st := mul_pos hs ht
  have kl : 0 ≤ M * l + N * k + k * l / 1024 := by positivity
  have mp0 : 0 ≤ mp := by linarith
  have mq0 : 0 ≤ mq := by linarith
  have b1' : (M * N + mp / 1024) * (s * t) ≤ F.big := le_trans (mul_le_mul_of_nonneg_right (by linarith) st.le) hbig
  have b2' : (2 * (M * N) + mq / 1024) * (s * t) ≤ F.big := le_trans (mul_le_mul_of_nonneg_right (by linarith) st.le) hbig
  have e1 := abs_prod_le hx1 hy1
  have e2 := abs_prod_le hx2 hy2
  have e3 := abs_prod_le hx3 hy3
  have eq : M * s * (N * t) = M * N * (s * t) := by ring
  rw [eq] at e1 e2 e3
  have p1 := Near.mulS mp ha1 hb1 hx1 hy1 hs ht hk hl hη hp b1'
  have p2 := Near.mulS mp ha2 hb2 hx2 hy2 hs ht hk hl hη hp b1'
  have p3 := Near.mulS mp ha3 hb3 hx3 hy3 hs ht hk hl hη hp b1'
  have e12 : |x1 * y1 + x2 * y2| ≤ 2 * (M * N) * (s * t) := (abs_add_le _ _).trans (by linarith)
  have q := Near.addS mq p1 p2 e12 st mp0 mp0 hη hq b2'
  exact Near.addS m q p3 ((abs_add_le _ _).trans (by linarith)) st mq0 mp0 hη hm hbig

theorem ENear.mul {A B : M3 (Fl F)} {X Y : M3 ℝ} {s t M N k l : ℝ} (mp mq m : ℝ) (hA : ENear A X (k * (F.u * s))) (hB : ENear B Y (l * (F.u * t)))
    (hX : EBound X (M * s)) (hY : EBound Y (N * t)) (hs : 0 < s) (ht : 0 < t) (hk : 0 ≤ k) (hl : 0 ≤ l) (hη : F.η ≤ F.u * (s * t)) (hM : 0 ≤ M) (hN : 0 ≤ N)
    (hp : (M * l + N * k + k * l / 1024) * (1 + 1 / 1024) + M * N + 1 ≤ mp) (hq : (mp + mp) * (1 + 1 / 1024) + 2 * (M * N) + 1 ≤ mq)
    (hm : (mq + mp) * (1 + 1 / 1024) + 3 * (M * N) + 1 ≤ m) (hbig : (3 * (M * N) + m / 1024) * (s * t) ≤ F.big) :
    ENear (A * B) (X * Y) (m * (F.u * (s * t))) where
  a00 := near_dot3S mp mq m hA.a00 hA.a01 hA.a02 hB.a00 hB.a10 hB.a20 hX.a00 hX.a01 hX.a02 hY.a00 hY.a10 hY.a20 hs ht hk hl hη hM hN hp hq hm hbig
  a01 := near_dot3S mp mq m hA.a00 hA.a01 hA.a02 hB.a01 hB.a11 hB.a21 hX.a00 hX.a01 hX.a02 hY.a01 hY.a11 hY.a21 hs ht hk hl hη hM hN hp hq hm hbig
  a02 := near_dot3S mp mq m hA.a00 hA.a01 hA.a02 hB.a02 hB.a12 hB.a22 hX.a00 hX.a01 hX.a02 hY.a02 hY.a12 hY.a22 hs ht hk hl hη hM hN hp hq hm hbig
  a10 := near_dot3S mp mq m hA.a10 hA.a11 hA.a12 hB.a00 hB.a10 hB.a20 hX.a10 hX.a11 hX.a12 hY.a00 hY.a10 hY.a20 hs ht hk hl hη hM hN hp hq hm hbig
  a11 := near_dot3S mp mq m hA.a10 hA.a11 hA.a12 hB.a01 hB.a11 hB.a21 hX.a10 hX.a11 hX.a12 hY.a01 hY.a11 hY.a21 hs ht hk hl hη hM hN hp hq hm hbig
  a12 := near_dot3S mp mq m hA.a10 hA.a11 hA.a12 hB.a02 hB.a12 hB.a22 hX.a10 hX.a11 hX.a12 hY.a02 hY.a12 hY.a22 hs ht hk hl hη hM hN hp hq hm hbig
  a20 := near_dot3S mp mq m hA.a20 hA.a21 hA.a22 hB.a00 hB.a10 hB.a20 hX.a20 hX.a21 hX.a22 hY.a00 hY.a10 hY.a20 hs ht hk hl hη hM hN hp hq hm hbig
  a21 := near_dot3S mp mq m hA.a20 hA.a21 hA.a22 hB.a01 hB.a11 hB.a21 hX.a20 hX.a21 hX.a22 hY.a01 hY.a11 hY.a21 hs ht hk hl hη hM hN hp hq hm hbig
  a22 := near_dot3S mp mq m hA.a20 hA.a21 hA.a22 hB.a02 hB.a12 hB.a22 hX.a20 hX.a21 hX.a22 hY.a02 hY.a12 hY.a22 hs ht hk hl hη hM hN hp hq hm hbig

/-- a multiple of a matrix -/
theorem ENear.smul {a : Fl F} {B : M3 (Fl F)} {x : ℝ} {Y : M3 ℝ} {s t M N k l : ℝ} (m : ℝ) (ha : a.Near x (k * (F.u * s))) (hB : ENear B Y (l * (F.u * t)))
    (hx : |x| ≤ M * s) (hY : EBound Y (N * t)) (hs : 0 < s) (ht : 0 < t) (hk : 0 ≤ k) (hl : 0 ≤ l) (hη : F.η ≤ F.u * (s * t))
    (hm : (M * l + N * k + k * l / 1024) * (1 + 1 / 1024) + M * N + 1 ≤ m) (hbig : (M * N + m / 1024) * (s * t) ≤ F.big) :
    ENear (M3.smul a B) (M3.smul x Y) (m * (F.u * (s * t))) where
  a00 := Near.mulS m ha hB.a00 hx hY.a00 hs ht hk hl hη hm hbig
  a01 := Near.mulS m ha hB.a01 hx hY.a01 hs ht hk hl hη hm hbig
  a02 := Near.mulS m ha hB.a02 hx hY.a02 hs ht hk hl hη hm hbig
  a10 := Near.mulS m ha hB.a10 hx hY.a10 hs ht hk hl hη hm hbig
  a11 := Near.mulS m ha hB.a11 hx hY.a11 hs ht hk hl hη hm hbig
  a12 := Near.mulS m ha hB.a12 hx hY.a12 hs ht hk hl hη hm hbig
  a20 := Near.mulS m ha hB.a20 hx hY.a20 hs ht hk hl hη hm hbig
  a21 := Near.mulS m ha hB.a21 hx hY.a21 hs ht hk hl hη hm hbig
  a22 := Near.mulS m ha hB.a22 hx hY.a22 hs ht hk hl hη hm hbig

theorem EBound.smul {x : ℝ} {Y : M3 ℝ} {a b : ℝ} (hx : |x| ≤ a) (hY : EBound Y b) : EBound (M3.smul x Y) (a * b) :=
  ⟨abs_prod_le hx hY.a00, abs_prod_le hx hY.a01, abs_prod_le hx hY.a02, abs_prod_le hx hY.a10, abs_prod_le hx hY.a11, abs_prod_le hx hY.a12,
    abs_prod_le hx hY.a20, abs_prod_le hx hY.a21, abs_prod_le hx hY.a22⟩

theorem ENear.add {A B : M3 (Fl F)} {X Y : M3 ℝ} {s M N k l : ℝ} (m : ℝ) (hA : ENear A X (k * (F.u * s))) (hB : ENear B Y (l * (F.u * s)))
    (hX : EBound X (M * s)) (hY : EBound Y (N * s)) (hs : 0 < s) (hk : 0 ≤ k) (hl : 0 ≤ l) (hη : F.η ≤ F.u * s)
    (hm : (k + l) * (1 + 1 / 1024) + (M + N) + 1 ≤ m) (hbig : ((M + N) + m / 1024) * s ≤ F.big) : ENear (A + B) (X + Y) (m * (F.u * s)) := by
  have key : ∀ {x y : ℝ}, |x| ≤ M * s → |y| ≤ N * s → |x + y| ≤ (M + N) * s := fun hx hy => (abs_add_le _ _).trans (by linarith)
  exact ⟨Near.addS m hA.a00 hB.a00 (key hX.a00 hY.a00) hs hk hl hη hm hbig, Near.addS m hA.a01 hB.a01 (key hX.a01 hY.a01) hs hk hl hη hm hbig,
    Near.addS m hA.a02 hB.a02 (key hX.a02 hY.a02) hs hk hl hη hm hbig, Near.addS m hA.a10 hB.a10 (key hX.a10 hY.a10) hs hk hl hη hm hbig,
    Near.addS m hA.a11 hB.a11 (key hX.a11 hY.a11) hs hk hl hη hm hbig, Near.addS m hA.a12 hB.a12 (key hX.a12 hY.a12) hs hk hl hη hm hbig,
    Near.addS m hA.a20 hB.a20 (key hX.a20 hY.a20) hs hk hl hη hm hbig, Near.addS m hA.a21 hB.a21 (key hX.a21 hY.a21) hs hk hl hη hm hbig,
    Near.addS m hA.a22 hB.a22 (key hX.a22 hY.a22) hs hk hl hη hm hbig⟩

theorem ENear.sub {A B : M3 (Fl F)} {X Y : M3 ℝ} {s M N k l : ℝ} (m : ℝ) (hA : ENear A X (k * (F.u * s))) (hB : ENear B Y (l * (F.u * s)))
    (hX : EBound X (M * s)) (hY : EBound Y (N * s)) (hs : 0 < s) (hk : 0 ≤ k) (hl : 0 ≤ l) (hη : F.η ≤ F.u * s)
    (hm : (k + l) * (1 + 1 / 1024) + (M + N) + 1 ≤ m) (hbig : ((M + N) + m / 1024) * s ≤ F.big) : ENear (A - B) (X - Y) (m * (F.u * s)) := by
  have key : ∀ {x y : ℝ}, |x| ≤ M * s → |y| ≤ N * s → |x - y| ≤ (M + N) * s := fun hx hy => (abs_sub _ _).trans (by linarith)
  exact ⟨Near.subS m hA.a00 hB.a00 (key hX.a00 hY.a00) hs hk hl hη hm hbig, Near.subS m hA.a01 hB.a01 (key hX.a01 hY.a01) hs hk hl hη hm hbig,
    Near.subS m hA.a02 hB.a02 (key hX.a02 hY.a02) hs hk hl hη hm hbig, Near.subS m hA.a10 hB.a10 (key hX.a10 hY.a10) hs hk hl hη hm hbig,
    Near.subS m hA.a11 hB.a11 (key hX.a11 hY.a11) hs hk hl hη hm hbig, Near.subS m hA.a12 hB.a12 (key hX.a12 hY.a12) hs hk hl hη hm hbig,
    Near.subS m hA.a20 hB.a20 (key hX.a20 hY.a20) hs hk hl hη hm hbig, Near.subS m hA.a21 hB.a21 (key hX.a21 hY.a21) hs hk hl hη hm hbig,
    Near.subS m hA.a22 hB.a22 (key hX.a22 hY.a22) hs hk hl hη hm hbig⟩

theorem EBound.sub {X Y : M3 ℝ} {a b : ℝ} (hX : EBound X a) (hY : EBound Y b) : EBound (X - Y) (a + b) := by
  have key : ∀ {x y : ℝ}, |x| ≤ a → |y| ≤ b → |x - y| ≤ a + b := fun hx hy => (abs_sub _ _).trans (by linarith)
  exact ⟨key hX.a00 hY.a00, key hX.a01 hY.a01, key hX.a02 hY.a02, key hX.a10 hY.a10, key hX.a11 hY.a11, key hX.a12 hY.a12, key hX.a20 hY.a20,
    key hX.a21 hY.a21, key hX.a22 hY.a22⟩

end Fl
