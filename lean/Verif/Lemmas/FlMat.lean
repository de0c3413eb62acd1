import Verif.Lemmas.Fl

/-! # Rounding error of the small matrix operations -/
set_option autoImplicit false

/-- Operator bound: `A` stretches no vector by more than `e`. -/
def OpLe (A : M3 ℝ) (e : ℝ) : Prop := ∀ v, (A.mulVec v).norm ≤ e * v.norm

namespace V3

theorem abs_x_le (a : V3 ℝ) : |a.x| ≤ a.norm := by
  rw [norm_eq, ← Real.sqrt_sq_eq_abs]
  exact Real.sqrt_le_sqrt (by simp only [dot]; nlinarith [sq_nonneg a.y, sq_nonneg a.z])
theorem abs_y_le (a : V3 ℝ) : |a.y| ≤ a.norm := by
  rw [norm_eq, ← Real.sqrt_sq_eq_abs]
  exact Real.sqrt_le_sqrt (by simp only [dot]; nlinarith [sq_nonneg a.x, sq_nonneg a.z])
theorem abs_z_le (a : V3 ℝ) : |a.z| ≤ a.norm := by
  rw [norm_eq, ← Real.sqrt_sq_eq_abs]
  exact Real.sqrt_le_sqrt (by simp only [dot]; nlinarith [sq_nonneg a.y, sq_nonneg a.x])

/-- a vector with entries up to `d` -/
theorem norm_le_of_entries {a : V3 ℝ} {d : ℝ} (hx : |a.x| ≤ d) (hy : |a.y| ≤ d) (hz : |a.z| ≤ d) : a.norm ≤ 2 * d := by
  have hd : 0 ≤ d := (abs_nonneg _).trans hx
  rw [norm_eq, Real.sqrt_le_left (by linarith)]
  have h1 := sq_le_sq' (abs_le.1 hx).1 (abs_le.1 hx).2
  have h2 := sq_le_sq' (abs_le.1 hy).1 (abs_le.1 hy).2
  have h3 := sq_le_sq' (abs_le.1 hz).1 (abs_le.1 hz).2
  simp only [dot]
  nlinarith

theorem norm_ex : (ex : V3 ℝ).norm = 1 := norm_eq_one (by simp [IsUnit3])
theorem norm_ey : (ey : V3 ℝ).norm = 1 := norm_eq_one (by simp [IsUnit3])
theorem norm_ez : (ez : V3 ℝ).norm = 1 := norm_eq_one (by simp [IsUnit3])
theorem norm_zero : (0 : V3 ℝ).norm = 0 := norm_eq_zero.2 rfl

end V3

theorem OpLe.mono {A : M3 ℝ} {d e : ℝ} (h : OpLe A d) (hde : d ≤ e) : OpLe A e := fun v =>
  (h v).trans (mul_le_mul_of_nonneg_right hde v.norm_nonneg)

theorem OpLe.add {A B : M3 ℝ} {d e : ℝ} (h : OpLe A d) (k : OpLe B e) : OpLe (A + B) (d + e) := fun v => by
  rw [M3.add_mulVec, add_mul]
  exact (V3.norm_add_le _ _).trans (add_le_add (h v) (k v))

theorem OpLe.mul {A B : M3 ℝ} {d e : ℝ} (h : OpLe A d) (k : OpLe B e) (hd : 0 ≤ d) : OpLe (A * B) (d * e) := fun v => by
  rw [← M3.mulVec_mulVec, mul_assoc]
  exact (h _).trans (mul_le_mul_of_nonneg_left (k v) hd)

theorem IsRot.opLe {R : M3 ℝ} (h : IsRot R) : OpLe R 1 := fun v => by rw [h.norm_mulVec, one_mul]

theorem OpLe.nonneg {A : M3 ℝ} {e : ℝ} (h : OpLe A e) : 0 ≤ e := by
  have := h V3.ex
  rw [V3.norm_ex, mul_one] at this
  exact (V3.norm_nonneg _).trans this

/-- a matrix with entries up to `d` -/
theorem OpLe.of_entries {A : M3 ℝ} {d : ℝ} (h00 : |A.a00| ≤ d) (h01 : |A.a01| ≤ d) (h02 : |A.a02| ≤ d) (h10 : |A.a10| ≤ d)
    (h11 : |A.a11| ≤ d) (h12 : |A.a12| ≤ d) (h20 : |A.a20| ≤ d) (h21 : |A.a21| ≤ d) (h22 : |A.a22| ≤ d) : OpLe A (3 * d) := by
  have hd : 0 ≤ d := (abs_nonneg _).trans h00
  intro v
  have row : ∀ {a b c : ℝ}, |a| ≤ d → |b| ≤ d → |c| ≤ d → (a * v.x + b * v.y + c * v.z) ^ 2 ≤ 3 * d ^ 2 * v.norm ^ 2 := by
    intro a b c ha hb hc
    have h1 := sq_le_sq' (abs_le.1 ha).1 (abs_le.1 ha).2
    have h2 := sq_le_sq' (abs_le.1 hb).1 (abs_le.1 hb).2
    have h3 := sq_le_sq' (abs_le.1 hc).1 (abs_le.1 hc).2
    have cs : (a * v.x + b * v.y + c * v.z) ^ 2 ≤ (a ^ 2 + b ^ 2 + c ^ 2) * (v.x ^ 2 + v.y ^ 2 + v.z ^ 2) := by
      nlinarith [sq_nonneg (a * v.y - b * v.x), sq_nonneg (a * v.z - c * v.x), sq_nonneg (b * v.z - c * v.y)]
    rw [V3.norm_sq, show v.dot v = v.x ^ 2 + v.y ^ 2 + v.z ^ 2 by simp only [V3.dot]; ring]
    exact cs.trans (mul_le_mul_of_nonneg_right (by linarith) (by positivity))
  rw [V3.norm_eq, Real.sqrt_le_left (mul_nonneg (by linarith) v.norm_nonneg)]
  have r0 := row h00 h01 h02
  have r1 := row h10 h11 h12
  have r2 := row h20 h21 h22
  have : (A.mulVec v).dot (A.mulVec v) = (A.a00 * v.x + A.a01 * v.y + A.a02 * v.z) ^ 2 + (A.a10 * v.x + A.a11 * v.y + A.a12 * v.z) ^ 2
      + (A.a20 * v.x + A.a21 * v.y + A.a22 * v.z) ^ 2 := by simp [V3.dot]; ring
  rw [this]
  nlinarith

theorem OpLe.entries {A : M3 ℝ} {e : ℝ} (h : OpLe A e) : (|A.a00| ≤ e ∧ |A.a10| ≤ e ∧ |A.a20| ≤ e) ∧
    (|A.a01| ≤ e ∧ |A.a11| ≤ e ∧ |A.a21| ≤ e) ∧ |A.a02| ≤ e ∧ |A.a12| ≤ e ∧ |A.a22| ≤ e := by
  have hx := h V3.ex
  have hy := h V3.ey
  have hz := h V3.ez
  rw [V3.norm_ex, mul_one] at hx
  rw [V3.norm_ey, mul_one] at hy
  rw [V3.norm_ez, mul_one] at hz
  have cx : A.mulVec V3.ex = ⟨A.a00, A.a10, A.a20⟩ := by ext <;> simp
  have cy : A.mulVec V3.ey = ⟨A.a01, A.a11, A.a21⟩ := by ext <;> simp
  have cz : A.mulVec V3.ez = ⟨A.a02, A.a12, A.a22⟩ := by ext <;> simp
  rw [cx] at hx
  rw [cy] at hy
  rw [cz] at hz
  exact ⟨⟨(V3.abs_x_le _).trans hx, (V3.abs_y_le _).trans hx, (V3.abs_z_le _).trans hx⟩,
    ⟨(V3.abs_x_le _).trans hy, (V3.abs_y_le _).trans hy, (V3.abs_z_le _).trans hy⟩,
    (V3.abs_x_le _).trans hz, (V3.abs_y_le _).trans hz, (V3.abs_z_le _).trans hz⟩

namespace Fl
variable {F : FSys}

/-- `Spec.MNear` with `OpLe` -/
theorem mNear_iff {A : M3 (Fl F)} {B : M3 ℝ} {e : ℝ} : Spec.MNear A B e ↔ ∃ C : M3 ℝ, A = C.map of ∧ OpLe (C - B) e := by
  have : ∀ (C : M3 ℝ) (v : V3 ℝ), (C - B).mulVec v = C.mulVec v - B.mulVec v := by
    intro C v; ext <;> simp <;> ring
  simp only [Spec.MNear, OpLe, this]

/-- from entries to matrices -/
theorem mNear_of_entries {A : M3 (Fl F)} {B : M3 ℝ} {d : ℝ} (h00 : A.a00.Near B.a00 d) (h01 : A.a01.Near B.a01 d)
    (h02 : A.a02.Near B.a02 d) (h10 : A.a10.Near B.a10 d) (h11 : A.a11.Near B.a11 d) (h12 : A.a12.Near B.a12 d)
    (h20 : A.a20.Near B.a20 d) (h21 : A.a21.Near B.a21 d) (h22 : A.a22.Near B.a22 d) : Spec.MNear A B (3 * d) := by
  obtain ⟨⟨x00⟩, ⟨x01⟩, ⟨x02⟩, ⟨x10⟩, ⟨x11⟩, ⟨x12⟩, ⟨x20⟩, ⟨x21⟩, ⟨x22⟩⟩ := A
  obtain ⟨v00, e00, h00⟩ := h00
  obtain ⟨v01, e01, h01⟩ := h01
  obtain ⟨v02, e02, h02⟩ := h02
  obtain ⟨v10, e10, h10⟩ := h10
  obtain ⟨v11, e11, h11⟩ := h11
  obtain ⟨v12, e12, h12⟩ := h12
  obtain ⟨v20, e20, h20⟩ := h20
  obtain ⟨v21, e21, h21⟩ := h21
  obtain ⟨v22, e22, h22⟩ := h22
  cases e00; cases e01; cases e02; cases e10; cases e11; cases e12; cases e20; cases e21; cases e22
  exact mNear_iff.2 ⟨⟨v00, v01, v02, v10, v11, v12, v20, v21, v22⟩, rfl, OpLe.of_entries h00 h01 h02 h10 h11 h12 h20 h21 h22⟩

/-- from entries to vectors -/
theorem vNear_of_entries {a : V3 (Fl F)} {v : V3 ℝ} {d : ℝ} (hx : a.x.Near v.x d) (hy : a.y.Near v.y d) (hz : a.z.Near v.z d) :
    Spec.VNear a v (2 * d) := by
  obtain ⟨⟨x⟩, ⟨y⟩, ⟨z⟩⟩ := a
  obtain ⟨v0, e0, hx⟩ := hx
  obtain ⟨v1, e1, hy⟩ := hy
  obtain ⟨v2, e2, hz⟩ := hz
  cases e0; cases e1; cases e2
  exact ⟨⟨v0, v1, v2⟩, rfl, V3.norm_le_of_entries hx hy hz⟩

theorem VNear.mono {a : V3 (Fl F)} {v : V3 ℝ} {d e : ℝ} (h : Spec.VNear a v d) (hde : d ≤ e) : Spec.VNear a v e := by
  obtain ⟨w, hw, h⟩ := h
  exact ⟨w, hw, h.trans hde⟩

theorem MNear.mono {A : M3 (Fl F)} {B : M3 ℝ} {d e : ℝ} (h : Spec.MNear A B d) (hde : d ≤ e) : Spec.MNear A B e := by
  obtain ⟨C, hC, h⟩ := mNear_iff.1 h
  exact mNear_iff.2 ⟨C, hC, h.mono hde⟩

theorem V3.sub_add_sub (a b c : V3 ℝ) : a - c = (a - b) + (b - c) := by ext <;> simp

/-- Product of two computed rotations. -/
theorem MNear.mul {A B : M3 (Fl F)} {R S : M3 ℝ} {a b : ℝ} (hA : Spec.MNear A R a) (hB : Spec.MNear B S b) (hR : IsRot R) (hS : IsRot S)
    (ha : a ≤ 1 / 16) (hb : b ≤ 1 / 16) : Spec.MNear (A * B) (R * S) (a + (1 + a) * b + 45 * F.u) := by
  obtain ⟨C, rfl, hC⟩ := mNear_iff.1 hA
  obtain ⟨D, rfl, hD⟩ := mNear_iff.1 hB
  have bC' : OpLe C (1 + a) := by
    have := hC.add hR.opLe
    rwa [show C - R + R = C by ext <;> simp, add_comm] at this
  have bC : OpLe C (17 / 16) := bC'.mono (by linarith)
  have bD : OpLe D (17 / 16) := by
    have := (hD.add hS.opLe).mono (by linarith : b + 1 ≤ 17 / 16)
    rwa [show D - S + S = D by ext <;> simp] at this
  have big := F.big_ge
  have eta := F.η_le
  obtain ⟨⟨c00, c10, c20⟩, ⟨c01, c11, c21⟩, c02, c12, c22⟩ := bC.entries
  obtain ⟨⟨d00, d10, d20⟩, ⟨d01, d11, d21⟩, d02, d12, d22⟩ := bD.entries
  have prod : Spec.MNear (C.map of * D.map of : M3 (Fl F)) (C * D) (3 * (15 * (F.u * 1))) := by
    have hη : F.η ≤ F.u * 1 := by linarith
    have hb : 5 * 1 ≤ F.big := by linarith
    apply mNear_of_entries <;>
      exact near_dot3 one_pos hη hb (by assumption) (by assumption) (by assumption) (by rw [mul_one]; assumption)
        (by rw [mul_one]; assumption) (by rw [mul_one]; assumption)
  obtain ⟨E, hE, hED⟩ := mNear_iff.1 prod
  refine mNear_iff.2 ⟨E, hE, ?_⟩
  have h1 : OpLe ((C - R) * S) a := (hC.mul hS.opLe hC.nonneg).mono (by simp)
  have h2 : OpLe (C * (D - S)) ((1 + a) * b) := bC'.mul hD (by have := hC.nonneg; linarith)
  have := (hED.add h2).add h1
  rw [show E - C * D + C * (D - S) + (C - R) * S = E - R * S by ext <;> simp <;> ring] at this
  exact this.mono (by linarith)

/-- A computed matrix of norm up to 1 applied to a computed vector of size up to `s`. -/
theorem MNear.mulVecOp {A : M3 (Fl F)} {R : M3 ℝ} {w : V3 (Fl F)} {v : V3 ℝ} {a d s : ℝ} (hA : Spec.MNear A R a) (hw : Spec.VNear w v d)
    (hR : OpLe R 1) (ha : a ≤ 1 / 16) (hv : v.norm ≤ s) (hd : d ≤ s / 16) (hs : 0 < s) (hη : F.η ≤ F.u * s) (hbig : 5 * s ≤ F.big) :
    Spec.VNear (A.mulVec w) (R.mulVec v) (a * v.norm + (1 + a) * d + 30 * (F.u * s)) := by
  obtain ⟨C, rfl, hC⟩ := mNear_iff.1 hA
  obtain ⟨x, rfl, hx⟩ := hw
  have bC' : OpLe C (1 + a) := by
    have := hC.add hR
    rwa [show C - R + R = C by ext <;> simp, add_comm] at this
  have bC : OpLe C (17 / 16) := bC'.mono (by linarith)
  have nx : x.norm ≤ 17 / 16 * s := by
    have := V3.norm_add_le (x - v) v
    rw [show x - v + v = x by ext <;> simp] at this
    linarith
  obtain ⟨⟨c00, c10, c20⟩, ⟨c01, c11, c21⟩, c02, c12, c22⟩ := bC.entries
  have x0 := (V3.abs_x_le x).trans nx
  have x1 := (V3.abs_y_le x).trans nx
  have x2 := (V3.abs_z_le x).trans nx
  have prod : Spec.VNear ((C.map of).mulVec (x.map of) : V3 (Fl F)) (C.mulVec x) (2 * (15 * (F.u * s))) := by
    apply vNear_of_entries <;> exact near_dot3 hs hη hbig (by assumption) (by assumption) (by assumption) x0 x1 x2
  obtain ⟨y, hy, hyd⟩ := prod
  refine ⟨y, hy, ?_⟩
  have h1 := hC v
  have h2 : (C.mulVec (x - v)).norm ≤ (1 + a) * d :=
    (bC' (x - v)).trans (mul_le_mul_of_nonneg_left hx (by have := hC.nonneg; linarith))
  have e : y - R.mulVec v = (y - C.mulVec x) + (C.mulVec (x - v) + (C - R).mulVec v) := by
    ext <;> simp <;> ring
  rw [e]
  refine (V3.norm_add_le _ _).trans ?_
  have h3 := V3.norm_add_le (C.mulVec (x - v)) ((C - R).mulVec v)
  linarith

/-- A computed rotation applied to a computed vector of size up to `s`. -/
theorem MNear.mulVec {A : M3 (Fl F)} {R : M3 ℝ} {w : V3 (Fl F)} {v : V3 ℝ} {a d s : ℝ} (hA : Spec.MNear A R a) (hw : Spec.VNear w v d)
    (hR : IsRot R) (ha : a ≤ 1 / 16) (hv : v.norm ≤ s) (hd : d ≤ s / 16) (hs : 0 < s) (hη : F.η ≤ F.u * s) (hbig : 5 * s ≤ F.big) :
    Spec.VNear (A.mulVec w) (R.mulVec v) (a * v.norm + (1 + a) * d + 30 * (F.u * s)) :=
  MNear.mulVecOp hA hw hR.opLe ha hv hd hs hη hbig

/-- Sum of two computed vectors. -/
theorem VNear.add {w x : V3 (Fl F)} {p q : V3 ℝ} {d e s : ℝ} (hw : Spec.VNear w p d) (hx : Spec.VNear x q e)
    (hs : 0 < s) (hsum : (p + q).norm + d + e ≤ 17 / 16 * s) (hη : F.η ≤ F.u * s) (hbig : 5 * s ≤ F.big) :
    Spec.VNear (w + x) (p + q) (d + e + 5 * (F.u * s)) := by
  obtain ⟨y, rfl, hy⟩ := hw
  obtain ⟨z, rfl, hz⟩ := hx
  have nyz : (y + z).norm ≤ 17 / 16 * s := by
    have h1 := V3.norm_add_le ((y - p) + (z - q)) (p + q)
    have h2 := V3.norm_add_le (y - p) (z - q)
    rw [show (y - p) + (z - q) + (p + q) = y + z by ext <;> simp <;> ring] at h1
    linarith
  have x0 := (V3.abs_x_le _).trans nyz
  have x1 := (V3.abs_y_le _).trans nyz
  have x2 := (V3.abs_z_le _).trans nyz
  have one : ∀ {a b : ℝ}, |a + b| ≤ 17 / 16 * s → (of a + of b : Fl F).Near (a + b) (5 / 2 * (F.u * s)) := by
    intro a b h
    exact Near.addS (k := 0) (l := 0) (5 / 2) ((near_of a).mono (by simp)) ((near_of b).mono (by simp)) h hs le_rfl le_rfl hη
      (by norm_num) (by linarith)
  have sum : Spec.VNear (y.map of + z.map of : V3 (Fl F)) (y + z) (2 * (5 / 2 * (F.u * s))) :=
    vNear_of_entries (one x0) (one x1) (one x2)
  obtain ⟨t, ht, htd⟩ := sum
  refine ⟨t, ht, ?_⟩
  rw [show t - (p + q) = (t - (y + z)) + ((y - p) + (z - q)) by ext <;> simp <;> ring]
  have h1 := V3.norm_add_le (t - (y + z)) ((y - p) + (z - q))
  have h2 := V3.norm_add_le (y - p) (z - q)
  linarith

end Fl
