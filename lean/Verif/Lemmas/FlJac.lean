import Verif.Lemmas.FlAux

/-! # Rounding error of `robotjacobian` -/
set_option autoImplicit false

/-- The cross product is no longer than the product of the lengths. -/
theorem hat_opLe (k : V3 ℝ) : OpLe (hat k) k.norm := fun v => by
  rw [V3.norm_eq, V3.norm_eq, V3.norm_eq, ← Real.sqrt_mul (by simp only [V3.dot]; nlinarith [sq_nonneg k.x, sq_nonneg k.y, sq_nonneg k.z])]
  apply Real.sqrt_le_sqrt
  have : ((hat k).mulVec v).dot ((hat k).mulVec v) = k.dot k * v.dot v - k.dot v ^ 2 := by
    simp [V3.dot]
    ring
  rw [this]
  nlinarith [sq_nonneg (k.dot v)]

section
variable {α : Type} [Add α] [Sub α] [Mul α] [Div α] [Neg α] [Zero α] [One α] [LT α] [LE α]
  [DecidableLT α] [DecidableLE α] [Elem α]

def flangeP (B : Option (Transform α)) (R : M3 α) (p : V3 α) : V3 α := match B with
  | some B => p + R.mulVec B.p
  | none => p
def flangeR (B : Option (Transform α)) : M3 α := match B with
  | some B => B.R
  | none => 1
def toolP (x : Option (V3 α)) (R : M3 α) (p : V3 α) : V3 α := match x with
  | some x => p + R.mulVec x
  | none => p
def baseJ (B : Option (Transform α)) (J : List (V6 α)) : List (V6 α) := match B with
  | none => J
  | some B => J.map fun c => ⟨B.R.mulVec c.top, B.R.mulVec c.bot⟩

theorem robotjacobian_steps (robot : Robot α) (theta : List α) (P0 : V3 α) (Ps : List (V3 α)) (hP : robot.P = P0 :: Ps) :
    robotjacobian robot theta true = jacLoop robot.jointType robot.H Ps theta (1, P0) >>= fun s =>
      jacCols (toolP robot.ptool (s.2.1 * flangeR robot.Tflange) (flangeP robot.Tflange s.2.1 s.2.2)) s.1 >>= fun J =>
        .ok (baseJ robot.Tbase J) := by
  simp only [robotjacobian, checkLimits, if_true, Except.bind_ok, hP, toolP, flangeR, flangeP, baseJ]
  cases robot.Tbase <;> rfl

end

namespace Fl
variable {F : FSys}

theorem hat_near {k' : V3 (Fl F)} {k : V3 ℝ} {d : ℝ} (h : Spec.VNear k' k d) : Spec.MNear (hat k') (hat k) d := by
  obtain ⟨w, rfl, hw⟩ := h
  refine mNear_iff.2 ⟨hat w, ?_, ?_⟩
  · ext <;> rfl
  · rw [show hat w - hat k = hat (w - k) by ext <;> simp <;> ring]
    exact (hat_opLe _).mono hw

/-- Difference of two computed vectors. -/
theorem VNear.sub {w x : V3 (Fl F)} {p q : V3 ℝ} {d e s : ℝ} (hw : Spec.VNear w p d) (hx : Spec.VNear x q e)
    (hs : 0 < s) (hsum : (p - q).norm + d + e ≤ 17 / 16 * s) (hη : F.η ≤ F.u * s) (hbig : 5 * s ≤ F.big) :
    Spec.VNear (w - x) (p - q) (d + e + 5 * (F.u * s)) := by
  obtain ⟨y, rfl, hy⟩ := hw
  obtain ⟨z, rfl, hz⟩ := hx
  have nyz : (y - z).norm ≤ 17 / 16 * s := by
    have h1 := V3.norm_add_le ((y - p) - (z - q)) (p - q)
    have h2 := V3.norm_sub_le (y - p) (z - q)
    rw [show (y - p) - (z - q) + (p - q) = y - z by ext <;> simp <;> ring] at h1
    linarith
  have x0 := (V3.abs_x_le _).trans nyz
  have x1 := (V3.abs_y_le _).trans nyz
  have x2 := (V3.abs_z_le _).trans nyz
  have one : ∀ {a b : ℝ}, |a - b| ≤ 17 / 16 * s → (of a - of b : Fl F).Near (a - b) (5 / 2 * (F.u * s)) := by
    intro a b h
    exact Near.subS (k := 0) (l := 0) (5 / 2) ((near_of a).mono (by simp)) ((near_of b).mono (by simp)) h hs le_rfl le_rfl hη
      (by norm_num) (by linarith)
  have sum : Spec.VNear (y.map of - z.map of : V3 (Fl F)) (y - z) (2 * (5 / 2 * (F.u * s))) :=
    vNear_of_entries (one x0) (one x1) (one x2)
  obtain ⟨t, ht, htd⟩ := sum
  refine ⟨t, ht, ?_⟩
  rw [show t - (p - q) = (t - (y - z)) + ((y - p) - (z - q)) by ext <;> simp <;> ring]
  have h1 := V3.norm_add_le (t - (y - z)) ((y - p) - (z - q))
  have h2 := V3.norm_sub_le (y - p) (z - q)
  linarith

/-- One entry of `1 + s * K + (1 - c) * K²` for an axis given exactly, a little longer than 1. -/
theorem near_rot_entry' {δ : Fl F} {t d x q₁ q₂ q₃ q₄ q₅ q₆ : ℝ}
    (hδ : δ.Near d (0 * (F.u * 1))) (hd : |d| ≤ 1) (hx : |x| ≤ 17 / 16 * 1)
    (b₁ : |q₁| ≤ 17 / 16) (b₂ : |q₂| ≤ 17 / 16) (b₃ : |q₃| ≤ 17 / 16) (b₄ : |q₄| ≤ 17 / 16) (b₅ : |q₅| ≤ 17 / 16) (b₆ : |q₆| ≤ 17 / 16) :
    (δ + Elem.sin (of t) * of x + (1 - Elem.cos (of t)) * (of q₁ * of q₂ + of q₃ * of q₄ + of q₅ * of q₆) : Fl F).Near
      (d + Elem.sin t * x + (1 - Elem.cos t) * (q₁ * q₂ + q₃ * q₄ + q₅ * q₆)) (70 * (F.u * 1)) := by
  have hη : F.η ≤ F.u * 1 := by have := F.η_le; linarith
  have hη2 : F.η ≤ F.u * (1 * 1) := by have := F.η_le; linarith
  have big := F.big_ge
  have s3 := near_dot3 (F := F) one_pos hη (by linarith) b₁ b₃ b₅ (by linarith : |q₂| ≤ 17 / 16 * 1) (by linarith : |q₄| ≤ 17 / 16 * 1)
    (by linarith : |q₆| ≤ 17 / 16 * 1)
  have mul1 : ∀ {p q : ℝ}, |p| ≤ 17 / 16 → |q| ≤ 17 / 16 → |p * q| ≤ 289 / 256 := by
    intro p q hp hq
    rw [abs_mul]
    calc |p| * |q| ≤ 17 / 16 * (17 / 16) := mul_le_mul hp hq (abs_nonneg _) (by norm_num)
      _ = _ := by norm_num
  have hK : |q₁ * q₂ + q₃ * q₄ + q₅ * q₆| ≤ 867 / 256 := by
    have h1 := abs_add_le (q₁ * q₂ + q₃ * q₄) (q₅ * q₆)
    have h2 := abs_add_le (q₁ * q₂) (q₃ * q₄)
    have := mul1 b₁ b₂
    have := mul1 b₃ b₄
    have := mul1 b₅ b₆
    linarith
  have hs : |Elem.sin t| ≤ 1 * 1 := by rw [mul_one]; exact Real.abs_sin_le_one t
  have hc : |1 - Elem.cos t| ≤ 2 * 1 := by
    rw [_root_.abs_le]
    have h1 := Real.cos_le_one t
    have h2 := Real.neg_one_le_cos t
    simp only [cos_real]
    constructor <;> linarith
  have sn : (Elem.sin (of t : Fl F)).Near (Elem.sin t) (1 * (F.u * 1)) := (near_of t).sin.mono (by linarith)
  have cn : (Elem.cos (of t : Fl F)).Near (Elem.cos t) (1 * (F.u * 1)) := (near_of t).cos.mono (by linarith)
  have sa := Near.mulS (l := 0) (16 / 5) sn ((near_of x).mono (by simp)) hs hx one_pos one_pos (by norm_num) le_rfl hη2 (by norm_num) (by linarith)
  rw [mul_one (1 : ℝ)] at sa
  have c1 := Near.subS (401 / 100 : ℝ) (near_one.mono (by simp : (0 : ℝ) ≤ 0 * (F.u * 1))) cn hc one_pos le_rfl (by norm_num) hη
    (by norm_num) (by linarith)
  have ck := Near.mulS (N := 867 / 256) (52 : ℝ) c1 s3 hc (by rwa [mul_one]) one_pos one_pos (by norm_num) (by norm_num) hη2 (by norm_num)
    (by linarith)
  rw [mul_one (1 : ℝ)] at ck
  have sx : |Elem.sin t * x| ≤ 17 / 16 := by
    rw [abs_mul]
    calc _ ≤ 1 * 1 * (17 / 16 * 1) := mul_le_mul hs hx (abs_nonneg _) (by norm_num)
      _ = _ := by norm_num
  have kx : |(1 - Elem.cos t) * (q₁ * q₂ + q₃ * q₄ + q₅ * q₆)| ≤ 867 / 128 := by
    rw [abs_mul]
    calc _ ≤ 2 * 1 * (867 / 256) := mul_le_mul hc hK (abs_nonneg _) (by norm_num)
      _ = _ := by norm_num
  have h1 := abs_add_le d (Elem.sin t * x)
  have h2 := abs_add_le (d + Elem.sin t * x) ((1 - Elem.cos t) * (q₁ * q₂ + q₃ * q₄ + q₅ * q₆))
  have d1 := Near.addS (S := 33 / 16) (63 / 10 : ℝ) hδ sa (by linarith) one_pos le_rfl (by norm_num) hη (by norm_num) (by linarith)
  refine (Near.addS (S := 9) (69 : ℝ) d1 ck (by linarith) one_pos (by norm_num) (by norm_num) hη (by norm_num) (by linarith)).mono ?_
  have := F.u_nonneg
  linarith

/-- How `rot` changes with its axis and angle. -/
theorem rot_lip {k w : V3 ℝ} {θ t e d : ℝ} (hk : IsUnit3 k) (hw : (w - k).norm ≤ e) (he : e ≤ 1 / 16) (ht : |t - θ| ≤ d) :
    OpLe (rot w t - rot k θ) (41 / 8 * e + 2 * d) := by
  have nk := V3.norm_eq_one hk
  have nw : w.norm ≤ 17 / 16 := by
    have := V3.norm_add_le (w - k) k
    rw [show w - k + k = w by ext <;> simp] at this
    linarith
  have oe : OpLe (hat (w - k)) e := (hat_opLe _).mono hw
  have ok : OpLe (hat k) 1 := nk ▸ hat_opLe k
  have ow : OpLe (hat w) (17 / 16) := (hat_opLe _).mono nw
  have e0 := oe.nonneg
  have ls : |Real.sin t - Real.sin θ| ≤ d := (Real.abs_sin_sub_sin_le t θ).trans ht
  have lc : |Real.cos θ - Real.cos t| ≤ d := by rw [abs_sub_comm]; exact (Real.abs_cos_sub_cos_le t θ).trans ht
  have d0 : 0 ≤ d := (abs_nonneg _).trans ht
  have smul : ∀ {c b m : ℝ} {A : M3 ℝ}, |c| ≤ b → OpLe A m → OpLe (M3.smul c A) (b * m) := by
    intro c b m A hc hA v
    rw [show (M3.smul c A).mulVec v = c • A.mulVec v by ext <;> simp <;> ring, V3.norm_hsmul, mul_assoc]
    exact mul_le_mul hc (hA v) (V3.norm_nonneg _) ((abs_nonneg _).trans hc)
  have hs : |Real.sin t| ≤ 1 := Real.abs_sin_le_one t
  have hc : |1 - Real.cos t| ≤ 2 := by
    rw [_root_.abs_le]
    have h1 := Real.cos_le_one t
    have h2 := Real.neg_one_le_cos t
    constructor <;> linarith
  have main := (((smul hs oe).add (smul ls ok)).add (smul hc ((ow.mul oe (by norm_num)).add (oe.mul ok e0)))).add (smul lc (ok.mul ok (by norm_num)))
  rw [show rot w t - rot k θ = M3.smul (Real.sin t) (hat (w - k)) + M3.smul (Real.sin t - Real.sin θ) (hat k) +
      M3.smul (1 - Real.cos t) (hat w * hat (w - k) + hat (w - k) * hat k) + M3.smul (Real.cos θ - Real.cos t) (hat k * hat k) by
    ext <;> simp [rot] <;> ring]
  exact main.mono (by linarith)

/-- `rot` of a computed axis within `e` of a unit vector. -/
theorem rot_near' {k : V3 ℝ} (hk : IsUnit3 k) {k' : V3 (Fl F)} {e : ℝ} (hkk : Spec.VNear k' k e) (he : e ≤ 1 / 16) {th : Fl F} {θ d : ℝ}
    (hth : th.Near θ d) : Spec.MNear (rot k' th) (rot k θ) (41 / 8 * e + 2 * d + 210 * F.u) := by
  obtain ⟨w, rfl, hw⟩ := hkk
  obtain ⟨t, ht, hth⟩ := hth
  obtain ⟨th⟩ := th
  cases ht
  have nw : w.norm ≤ 17 / 16 := by
    have := V3.norm_add_le (w - k) k
    rw [show w - k + k = w by ext <;> simp, V3.norm_eq_one hk] at this
    linarith
  have zd : (of 0 : Fl F).Near 0 (0 * (F.u * 1)) := near_zero.mono (by linarith)
  have od : (of 1 : Fl F).Near 1 (0 * (F.u * 1)) := near_one.mono (by linarith)
  have bx : |w.x| ≤ 17 / 16 := (V3.abs_x_le w).trans nw
  have by' : |w.y| ≤ 17 / 16 := (V3.abs_y_le w).trans nw
  have bz : |w.z| ≤ 17 / 16 := (V3.abs_z_le w).trans nw
  have nx : |-w.x| ≤ 17 / 16 := by rwa [abs_neg]
  have ny : |-w.y| ≤ 17 / 16 := by rwa [abs_neg]
  have nz : |-w.z| ≤ 17 / 16 := by rwa [abs_neg]
  have b0 : |(0 : ℝ)| ≤ 17 / 16 := by rw [abs_zero]; norm_num
  have d0 : |(0 : ℝ)| ≤ 1 := by simp
  have d1 : |(1 : ℝ)| ≤ 1 := by simp
  have up : ∀ {x : ℝ}, |x| ≤ 17 / 16 → |x| ≤ 17 / 16 * 1 := fun h => by rwa [mul_one]
  have ent : Spec.MNear (rot (w.map of) (of t) : M3 (Fl F)) (rot w t) (3 * (70 * (F.u * 1))) :=
    mNear_of_entries
      (near_rot_entry' od d1 (up b0) b0 b0 nz bz by' ny)
      (near_rot_entry' zd d0 (up nz) b0 nz nz b0 by' bx)
      (near_rot_entry' zd d0 (up by') b0 by' nz nx by' b0)
      (near_rot_entry' zd d0 (up bz) bz b0 b0 bz nx ny)
      (near_rot_entry' od d1 (up b0) bz nz b0 b0 nx bx)
      (near_rot_entry' zd d0 (up nx) bz by' b0 nx nx b0)
      (near_rot_entry' zd d0 (up ny) ny b0 bx bz b0 ny)
      (near_rot_entry' zd d0 (up bx) ny nz bx b0 b0 bx)
      (near_rot_entry' od d1 (up b0) ny by' bx nx b0 b0)
  obtain ⟨C, hC, hCR⟩ := mNear_iff.1 ent
  refine mNear_iff.2 ⟨C, hC, ?_⟩
  have := hCR.add (rot_lip hk hw he hth)
  rw [show C - rot w t + (rot w t - rot k θ) = C - rot k θ by ext <;> simp] at this
  exact this.mono (by linarith)

/-- A recorded joint frame: axis and position within `e` and `f`; the position within `L` of the origin. -/
structure FrameNear (L e f : ℝ) (g' : JointFrame (Fl F)) (g : JointFrame ℝ) : Prop where
  ty : g'.ty = g.ty
  unit : IsUnit3 g.h
  len : g.pO.norm ≤ L
  axis : Spec.VNear g'.h g.h e
  pos : Spec.VNear g'.pO g.pO f
  angle : ¬ (g.ty = 1 ∨ g.ty = 3) → g'.th.Near g.th F.u

theorem FrameNear.mono {L e f e' f' : ℝ} {g' : JointFrame (Fl F)} {g : JointFrame ℝ} (h : FrameNear L e f g' g) (he : e ≤ e') (hf : f ≤ f') :
    FrameNear L e' f' g' g := ⟨h.ty, h.unit, h.len, VNear.mono h.axis he, VNear.mono h.pos hf, h.angle⟩

/-- The first loop of `robotjacobian`. -/
theorem jacLoop_near {L : ℝ} (h0 : 0 < L) (hη : F.η ≤ F.u * L) (hbig : 5 * L ≤ F.big) :
    ∀ (ts : List Nat) (hs Ps : List (V3 ℝ)) (θs : List ℝ) (hs' Ps' : List (V3 (Fl F))) (θs' : List (Fl F)) (R : M3 ℝ) (p : V3 ℝ)
      (R' : M3 (Fl F)) (p' : V3 (Fl F)) (a f : ℝ) (fs : List (JointFrame ℝ)) (Rn : M3 ℝ) (pn : V3 ℝ),
      jacLoop ts hs Ps θs (R, p) = .ok (fs, Rn, pn) →
      List.Forall₂ (fun h' h => IsUnit3 h ∧ Spec.VNear h' h F.u) hs' hs → List.Forall₂ (fun P' P => Spec.VNear P' P (F.u * P.norm)) Ps' Ps →
      Spec.AnglesNear ts θs' θs → Spec.MNear R' R a → Spec.VNear p' p f → IsRot R → a + 256 * ts.length * F.u ≤ 1 / 16 →
      p.norm + Spec.travel ts Ps θs ≤ L →
      f + (a + 256 * ts.length * F.u) * Spec.travel ts Ps θs + 81 * ts.length * (F.u * L) ≤ L / 16 →
      ∃ fs' Rn' pn', jacLoop ts hs' Ps' θs' (R', p') = .ok (fs', Rn', pn') ∧
        List.Forall₂ (FrameNear L (a + 256 * ts.length * F.u + 32 * F.u)
          (f + (a + 256 * ts.length * F.u) * Spec.travel ts Ps θs + 81 * ts.length * (F.u * L))) fs' fs ∧
        fs.map (·.ty) = ts ∧
        Spec.MNear Rn' Rn (a + 256 * ts.length * F.u) ∧
        Spec.VNear pn' pn (f + (a + 256 * ts.length * F.u) * Spec.travel ts Ps θs + 81 * ts.length * (F.u * L)) ∧ IsRot Rn ∧
        pn.norm ≤ p.norm + Spec.travel ts Ps θs := by
  intro ts
  induction ts with
  | nil =>
    intro hs Ps θs hs' Ps' θs' R p R' p' a f fs Rn pn hl _ _ _ hR' hp' hR _ _ _
    cases hl
    refine ⟨[], R', p', rfl, .nil, rfl, ?_, ?_, hR, ?_⟩
    · simpa using hR'
    · simpa [Spec.travel] using hp'
    · simp [Spec.travel]
  | cons t ts ih =>
    intro hs Ps θs hs' Ps' θs' R p R' p' a f fs Rn pn hl hH hP hθ hR' hp' hR ha hL hf
    obtain _ | ⟨h, hs⟩ := hs
    · cases hl
    obtain _ | ⟨P, Ps⟩ := Ps
    · cases hl
    obtain _ | ⟨θ, θs⟩ := θs
    · cases hl
    obtain _ | ⟨⟨hh, hh'⟩, hH⟩ := hH
    obtain _ | ⟨hP', hP⟩ := hP
    obtain _ | ⟨th, θs'⟩ := θs'
    · cases hθ
    obtain ⟨hth, hθ⟩ := hθ
    simp only [jacLoop] at hl ⊢
    obtain ⟨⟨gs, Rm, pm⟩, hl2, hfs⟩ := Except.bind_eq_ok hl
    cases hfs
    have hu := F.u_nonneg
    have hu' := F.u_le
    have uL : 0 ≤ F.u * L := by positivity
    have nt := travel_nonneg ts Ps θs
    simp only [List.length_cons, Nat.cast_add, Nat.cast_one, Spec.travel] at ha hL hf ⊢
    set ℓ := (if t = 1 ∨ t = 3 then |θ| else 0) + P.norm with hℓ
    have nℓ : 0 ≤ ℓ := by
      have := P.norm_nonneg
      rw [hℓ]
      split_ifs <;> positivity
    set n : ℝ := (ts.length : ℝ) with hn
    have n0 : 0 ≤ n := Nat.cast_nonneg _
    have nu : 0 ≤ n * F.u := by positivity
    have a0 : 0 ≤ a := by
      obtain ⟨C, -, hC⟩ := mNear_iff.1 hR'
      exact hC.nonneg
    have nuL : 0 ≤ n * (F.u * L) := by positivity
    have e1 : a + 256 * F.u + 256 * n * F.u = a + 256 * (n + 1) * F.u := by ring
    have q1 : (a + 256 * F.u) * ℓ ≤ (a + 256 * (n + 1) * F.u) * ℓ := mul_le_mul_of_nonneg_right (by linarith) nℓ
    have q2 : 0 ≤ (a + 256 * (n + 1) * F.u) * Spec.travel ts Ps θs := mul_nonneg (by rw [← e1]; positivity) nt
    have q3 : 0 ≤ (a + 256 * (n + 1) * F.u) * ℓ := mul_nonneg (by rw [← e1]; positivity) nℓ
    have st := fwdStep_near hR' hp' hh' hh hP' hth hR (L := L) (by linarith) (by linarith) h0 hη hbig (by
      rw [mul_add] at hf
      linarith)
    obtain ⟨s1, s2, s3, s4⟩ := st
    obtain ⟨fs', Rn', pn', k1, kf, kt, k2, k3, k4, k5⟩ := ih hs Ps θs _ _ θs' (fwdStep t h P θ (R, p)).1 (fwdStep t h P θ (R, p)).2 _ _ _ _ gs Rm pm hl2 hH hP hθ
      s1 s2 s3 (by rw [e1]; exact ha) (by linarith) (by
        rw [e1]
        rw [mul_add] at hf
        linarith)
    have big := F.big_ge
    have eta := F.η_le
    have m := MNear.mulVec (s := 1) s1 hh' s3 (by linarith) (V3.norm_eq_one hh).le (by linarith) one_pos (by linarith) (by linarith)
    rw [k1]
    refine ⟨_, Rn', pn', rfl, ?_, ?_, ?_, ?_, k4, by linarith⟩
    · refine .cons ⟨rfl, ?_, ?_, ?_, ?_, fun h => by rwa [if_neg h] at hth⟩ (kf.imp fun g' g hg => hg.mono ?_ ?_)
      · exact (s3.dot_mulVec h h).trans hh
      · have : 0 ≤ Spec.travel ts Ps θs := nt
        change p.norm ≤ L
        linarith
      · refine VNear.mono m ?_
        rw [V3.norm_eq_one hh]
        nlinarith
      · refine VNear.mono hp' ?_
        rw [mul_add]
        linarith
      · linarith
      · rw [e1, mul_add]
        linarith
    · simp [kt]
    · rwa [e1] at k2
    · refine VNear.mono k3 ?_
      rw [e1, mul_add]
      linarith

/-- A column of the Jacobian: the rotation part within `e`, the translation part within `d`. -/
structure ColNear (L e d : ℝ) (turns : Bool) (c' : V6 (Fl F)) (c : V6 ℝ) : Prop where
  topLen : c.top.norm ≤ 1
  botLen : c.bot.norm ≤ if turns then 2 * L else 1
  top : Spec.VNear c'.top c.top e
  bot : Spec.VNear c'.bot c.bot d

/-- One revolute column: `h × (pOT - pO)`. -/
theorem lever_near {L e f : ℝ} {g' : JointFrame (Fl F)} {g : JointFrame ℝ} (hg : FrameNear L e f g' g) {q' : V3 (Fl F)} {q : V3 ℝ}
    (hq : Spec.VNear q' q f) (hqL : q.norm ≤ L) (h0 : 0 < L) (hη : F.η ≤ F.u * L) (hbig : 10 * L ≤ F.big) (he : e ≤ 1 / 16)
    (hf : f + 5 * (F.u * L) ≤ L / 16) :
    Spec.VNear ((hat g'.h).mulVec (q' - g'.pO)) ((hat g.h).mulVec (q - g.pO)) (2 * e * L + 17 / 8 * f + 71 * (F.u * L)) := by
  obtain ⟨-, hun, hlen, hax, hpos, -⟩ := hg
  have hu := F.u_nonneg
  have uL : 0 ≤ F.u * L := by positivity
  have nd : (q - g.pO).norm ≤ 2 * L := by
    have := V3.norm_sub_le q g.pO
    linarith
  have sd := VNear.sub (s := 2 * L) hq hpos (by linarith) (by linarith) (by linarith) (by linarith)
  have hop : OpLe (hat g.h) 1 := V3.norm_eq_one hun ▸ hat_opLe g.h
  have m := MNear.mulVecOp (s := 2 * L) (hat_near hax) sd hop he nd (by linarith) (by linarith) (by linarith) (by linarith)
  refine VNear.mono m ?_
  have e0 : 0 ≤ e := by
    obtain ⟨C, -, hC⟩ := mNear_iff.1 (hat_near hax)
    exact hC.nonneg
  have f0 : 0 ≤ f := by
    obtain ⟨w, -, hw⟩ := hq
    exact (V3.norm_nonneg _).trans hw
  have h1 : e * (q - g.pO).norm ≤ e * (2 * L) := mul_le_mul_of_nonneg_left nd e0
  have h2 : (1 + e) * (f + f + 5 * (F.u * (2 * L))) ≤ (17 / 16) * (f + f + 5 * (F.u * (2 * L))) :=
    mul_le_mul_of_nonneg_right (by linarith) (by positivity)
  linarith

theorem jacCols_near {L e f : ℝ} (h0 : 0 < L) (hη : F.η ≤ F.u * L) (hbig : 10 * L ≤ F.big) (he : 41 / 8 * e + 212 * F.u ≤ 1 / 16)
    (hf : f + 5 * (F.u * L) ≤ L / 16) {q' : V3 (Fl F)} {q : V3 ℝ} (hq : Spec.VNear q' q f) (hqL : q.norm ≤ L) :
    ∀ (m : Nat) (fs' : List (JointFrame (Fl F))) (fs : List (JointFrame ℝ)) (J : List (V6 ℝ)), fs.length ≤ m →
      List.Forall₂ (FrameNear L e f) fs' fs → Spec.GroupsTurn (fs.map (·.ty)) → jacCols q fs = .ok J →
      ∃ J', jacCols q' fs' = .ok J' ∧ J'.length = J.length ∧
        List.Forall₂ (fun b c => ColNear L e (if b then 2 * e * L + 17 / 8 * f + 71 * (F.u * L) else 99 / 16 * e + 256 * F.u) b c.1 c.2)
          (Spec.columnTurns (fs.map (·.ty))) (J'.zip J) := by
  intro m
  induction m with
  | zero =>
    intro fs' fs J hm hfs _ hJ
    obtain rfl := List.length_eq_zero_iff.1 (Nat.le_zero.1 hm)
    cases hfs
    cases hJ
    exact ⟨[], rfl, rfl, .nil⟩
  | succ m ih =>
    intro fs' fs J hm hfs hg hJ
    have hu := F.u_nonneg
    have hu' := F.u_le
    have big := F.big_ge
    have eta := F.η_le
    have zz : Spec.VNear (0 : V3 (Fl F)) 0 0 := ⟨0, rfl, by rw [show (0 : V3 ℝ) - 0 = 0 by ext <;> simp, V3.norm_zero]⟩
    obtain _ | @⟨g', g, gs', gs, hgg, hgs⟩ := hfs
    · cases hJ
      exact ⟨[], rfl, rfl, .nil⟩
    have e0 : 0 ≤ e := by
      obtain ⟨w, -, hw⟩ := hgg.axis
      exact (V3.norm_nonneg _).trans hw
    have one : ∀ {g' : JointFrame (Fl F)} {g : JointFrame ℝ}, FrameNear L e f g' g →
        ColNear L e (2 * e * L + 17 / 8 * f + 71 * (F.u * L)) true ⟨g'.h, (hat g'.h).mulVec (q' - g'.pO)⟩ ⟨g.h, (hat g.h).mulVec (q - g.pO)⟩ := by
      intro g' g hgg
      refine ⟨(V3.norm_eq_one hgg.unit).le, ?_, hgg.axis, lever_near hgg hq hqL h0 hη hbig (by linarith) hf⟩
      refine (hat_opLe g.h _).trans ?_
      rw [V3.norm_eq_one hgg.unit, one_mul, if_pos rfl]
      have := V3.norm_sub_le q g.pO
      have := hgg.len
      linarith
    have shift : ∀ {x' : V3 (Fl F)} {x : V3 ℝ}, x.norm ≤ 1 → Spec.VNear x' x (99 / 16 * e + 256 * F.u) →
        ColNear L e (99 / 16 * e + 256 * F.u) false ⟨0, x'⟩ ⟨0, x⟩ := by
      intro x' x hx hxx
      refine ⟨by rw [V3.norm_zero]; norm_num, by rw [if_neg (by simp)]; exact hx, VNear.mono zz e0, hxx⟩
    by_cases t3 : g.ty = 3
    · obtain _ | @⟨k', k, ks', ks, hkk, hks⟩ := hgs
      · rw [jacCols.eq_def] at hJ
        simp [t3] at hJ
      obtain _ | @⟨j', j, js', js, hjj, hjs⟩ := hks
      · rw [jacCols.eq_def] at hJ
        simp [t3] at hJ
      have hJ2 := hJ
      rw [jacCols.eq_def] at hJ2
      simp only [t3, show ¬ ((3 : Nat) = 0) by omega, show ¬ ((3 : Nat) = 1) by omega, if_false, if_true] at hJ2
      obtain ⟨rest, hrest, hJ3⟩ := Except.bind_eq_ok hJ2
      cases hJ3
      simp only [List.map_cons, t3, Spec.GroupsTurn] at hg
      obtain ⟨rest', r1, r2, r3⟩ := ih js' js rest (by simp only [List.length_cons] at hm; omega) hjs hg.2 hrest
      refine ⟨⟨0, (rot j'.h j'.th).mulVec g'.h⟩ :: ⟨j'.h, (hat j'.h).mulVec (q' - j'.pO)⟩ :: rest', ?_, by simp [r2], ?_⟩
      · rw [jacCols.eq_def]
        simp only [hgg.ty, t3, show ¬ ((3 : Nat) = 0) by omega, show ¬ ((3 : Nat) = 1) by omega, if_false, if_true, r1]
        rfl
      · simp only [List.map_cons, t3, Spec.columnTurns, List.zip_cons_cons]
        have hr := rot_near' hjj.unit hjj.axis (by linarith) (hjj.angle (by have := hg.1; tauto))
        have hR := rot_isRot j.h hjj.unit j.th
        have m1 := MNear.mulVec (s := 1) hr hgg.axis hR (by linarith) (V3.norm_eq_one hgg.unit).le (by linarith) one_pos (by linarith) (by linarith)
        refine .cons (shift ?_ (VNear.mono m1 ?_)) (.cons (one hjj) r3)
        · rw [hR.norm_mulVec, V3.norm_eq_one hgg.unit]
        · rw [V3.norm_eq_one hgg.unit]
          have : (41 / 8 * e + 2 * F.u + 210 * F.u) * e ≤ 1 / 16 * e := mul_le_mul_of_nonneg_right (by linarith) e0
          linarith
    · have hg2 : Spec.GroupsTurn (gs.map (·.ty)) := by
        rw [List.map_cons, Spec.GroupsTurn.eq_def] at hg
        split at hg
        · rename_i h
          simp only [List.cons.injEq] at h
          exact absurd h.1 t3
        · rename_i h
          simp only [List.cons.injEq] at h
          rw [h.2]
          exact hg
        · rename_i h
          cases h
      have hct : Spec.columnTurns ((g :: gs).map (·.ty)) = (g.ty == 0) :: Spec.columnTurns (gs.map (·.ty)) := by
        rw [List.map_cons, Spec.columnTurns.eq_def]
        split
        · rename_i h
          simp only [List.cons.injEq] at h
          exact absurd h.1 t3
        · rename_i h
          simp only [List.cons.injEq] at h
          rw [h.1, h.2]
        · rename_i h
          cases h
      rw [hct]
      have hlen : gs.length ≤ m := by simp only [List.length_cons] at hm; omega
      have step : ∃ rest c c', jacCols q gs = .ok rest ∧ J = c :: rest ∧ ColNear L e (if (g.ty == 0) then 2 * e * L + 17 / 8 * f + 71 * (F.u * L)
          else 99 / 16 * e + 256 * F.u) (g.ty == 0) c' c ∧ ∀ rest', jacCols q' gs' = .ok rest' → jacCols q' (g' :: gs') = .ok (c' :: rest') := by
        rw [jacCols.eq_def] at hJ
        by_cases t0 : g.ty = 0
        · simp only [t0, if_true] at hJ
          obtain ⟨rest, hrest, hJ3⟩ := Except.bind_eq_ok hJ
          cases hJ3
          refine ⟨rest, _, _, hrest, rfl, by simpa [t0] using one hgg, fun rest' hr => ?_⟩
          rw [jacCols.eq_def]
          simp only [hgg.ty, t0, if_true, hr]
          rfl
        by_cases t1 : g.ty = 1
        · simp only [t1, show ¬ ((1 : Nat) = 0) by omega, if_false, if_true] at hJ
          obtain ⟨rest, hrest, hJ3⟩ := Except.bind_eq_ok hJ
          cases hJ3
          refine ⟨rest, _, ⟨0, g'.h⟩, hrest, rfl, ?_, fun rest' hr => ?_⟩
          · have := shift (V3.norm_eq_one hgg.unit).le (VNear.mono hgg.axis (by linarith))
            simpa [t1] using this
          · rw [jacCols.eq_def]
            simp only [hgg.ty, t1, show ¬ ((1 : Nat) = 0) by omega, if_false, if_true, hr]
            rfl
        · simp only [t0, t1, t3, if_false] at hJ
          obtain ⟨rest, hrest, hJ3⟩ := Except.bind_eq_ok hJ
          cases hJ3
          refine ⟨rest, _, ⟨0, 0⟩, hrest, rfl, ?_, fun rest' hr => ?_⟩
          · have := shift (x' := 0) (x := 0) (by rw [V3.norm_zero]; norm_num) (VNear.mono zz (by positivity))
            rw [show (g.ty == 0) = false by simpa using t0]
            simpa using this
          · rw [jacCols.eq_def]
            simp only [hgg.ty, t0, t1, t3, if_false, hr]
            rfl
      obtain ⟨rest, c, c', hrest, rfl, hcc, hstep⟩ := step
      obtain ⟨rest', r1, r2, r3⟩ := ih gs' gs rest hlen hgs hg2 hrest
      exact ⟨c' :: rest', hstep _ r1, by simp [r2], .cons hcc r3⟩

/-- The tool position used by `robotjacobian`. -/
theorem toolP_near {L n P0 ℓ : ℝ} {B' : Option (Transform (Fl F))} {B : Option (Transform ℝ)} {x' : Option (V3 (Fl F))} {x : Option (V3 ℝ)}
    {R' : M3 (Fl F)} {R : M3 ℝ} {p' : V3 (Fl F)} {p : V3 ℝ} (hF : Option.Rel Spec.TNear B' B)
    (hx : Option.Rel (fun p' p => Spec.VNear p' p (F.u * p.norm)) x' x) (hR : IsRot R) (hR' : Spec.MNear R' R (256 * n * F.u))
    (hp : p.norm ≤ P0 + ℓ) (hp' : Spec.VNear p' p (F.u * P0 + 256 * n * F.u * ℓ + 81 * n * (F.u * L)))
    (h0 : 0 < L) (n0 : 0 ≤ n) (nP : 0 ≤ P0) (nℓ : 0 ≤ ℓ) (hL : P0 + ℓ + (B.map (·.p.norm)).getD 0 + (x.map V3.norm).getD 0 ≤ L)
    (hη : F.η ≤ F.u * L) (hbig : 10 * L ≤ F.big) (hn : 32768 * (n + 3) * F.u ≤ 1) :
    Spec.VNear (toolP x' (R' * flangeR B') (flangeP B' R' p')) (toolP x (R * flangeR B) (flangeP B R p)) (338 * (n + 3) * (F.u * L)) ∧
      (toolP x (R * flangeR B) (flangeP B R p)).norm ≤ L := by
  have hu := F.u_nonneg
  have hu' := F.u_le
  have nu : 0 ≤ n * F.u := by positivity
  have nF : 0 ≤ (B.map (·.p.norm)).getD 0 := by cases B <;> simp [V3.norm_nonneg]
  have nX : 0 ≤ (x.map V3.norm).getD 0 := by cases x <;> simp [V3.norm_nonneg]
  have one : Spec.MNear (1 : M3 (Fl F)) 1 0 := ⟨1, rfl, by intro v; simp [V3.norm_zero]⟩
  have uP : F.u * P0 ≤ F.u * L := mul_le_mul_of_nonneg_left (by linarith) hu
  have uL : 0 ≤ F.u * L := by positivity
  have nuL : 0 ≤ n * (F.u * L) := by positivity
  have nL : 32768 * (n + 3) * F.u * L ≤ 1 * L := mul_le_mul_of_nonneg_right hn h0.le
  have a16 : 256 * n * F.u ≤ 1 / 16 := by nlinarith
  have hq1 : Spec.VNear (flangeP B' R' p') (flangeP B R p)
        (F.u * L + 256 * n * F.u * (ℓ + (B.map (·.p.norm)).getD 0) + 81 * n * (F.u * L) + 37 * (F.u * L)) ∧
      (flangeP B R p).norm ≤ P0 + ℓ + (B.map (·.p.norm)).getD 0 ∧ Spec.MNear (flangeR B') (flangeR B) F.u ∧ IsRot (flangeR B) := by
    cases hF with
    | none => exact ⟨VNear.mono hp' (by simp only [Option.map_none, Option.getD_none]; linarith), by simpa [flangeP] using hp, MNear.mono one hu, IsRot.one⟩
    | @some A' A hA =>
      simp only [Option.map_some, Option.getD_some] at hL ⊢
      obtain ⟨rA, mA, pA⟩ := hA
      have nA := A.p.norm_nonneg
      have nuA : n * F.u * (ℓ + A.p.norm) ≤ n * F.u * L := mul_le_mul_of_nonneg_left (by linarith) nu
      refine ⟨VNear.mono (link_near (L := L) hR' hp' pA hR a16 (by linarith) h0 hη (by linarith) (by linarith)) (by linarith), ?_, mA, rA⟩
      have := V3.norm_add_le p (R.mulVec A.p)
      rw [hR.norm_mulVec] at this
      exact this.trans (by linarith)
  obtain ⟨q1, q2, q3, q4⟩ := hq1
  generalize flangeP B' R' p' = s' at *
  generalize flangeP B R p = s at *
  generalize flangeR B' = A' at *
  generalize flangeR B = A at *
  generalize (B.map (·.p.norm)).getD 0 = b at *
  cases hx with
  | none =>
    simp only [Option.map_none, Option.getD_none] at hL
    have nux : n * F.u * (ℓ + b) ≤ n * F.u * L := mul_le_mul_of_nonneg_left (by linarith) nu
    exact ⟨VNear.mono q1 (by linarith), q2.trans (by linarith)⟩
  | @some x' x hx =>
    simp only [Option.map_some, Option.getD_some] at hL
    have nx := x.norm_nonneg
    have nux : n * F.u * (ℓ + b + x.norm) ≤ n * F.u * L := mul_le_mul_of_nonneg_left (by linarith) nu
    have ux : F.u * x.norm ≤ F.u * L := mul_le_mul_of_nonneg_left (by linarith) hu
    have au : 256 * n * F.u * F.u ≤ 1 / 16 * F.u := mul_le_mul_of_nonneg_right a16 hu
    have mm := MNear.mono (MNear.mul hR' q3 hR q4 a16 (by linarith)) (e := 256 * (n + 1) * F.u) (by linarith)
    have rr := hR.mul q4
    refine ⟨VNear.mono (link_near (L := L) mm q1 hx rr (by linarith) (by linarith) h0 hη (by linarith) (by linarith)) (by linarith), ?_⟩
    have := V3.norm_add_le s ((R * A).mulVec x)
    rw [rr.norm_mulVec] at this
    exact this.trans (by linarith)

/-- The final change to base coordinates. -/
theorem baseJ_near {L n d₂ d₃ : ℝ} {B' : Option (Transform (Fl F))} {B : Option (Transform ℝ)} (hB : Option.Rel Spec.TNear B' B)
    {ts : List Bool} {J' : List (V6 (Fl F))} {J : List (V6 ℝ)} (hlen : J'.length = J.length)
    (h : List.Forall₂ (fun b c => ColNear L (256 * n * F.u + 32 * F.u) (if b then d₂ else d₃) b c.1 c.2) ts (J'.zip J))
    (hd₂ : d₂ ≤ 1300 * (n + 3) * F.u * L) (hd₃ : d₃ ≤ 1590 * n * F.u + 460 * F.u) (h0 : 0 < L) (n0 : 0 ≤ n)
    (hη : F.η ≤ F.u * L) (hbig : 10 * L ≤ F.big) (hn : 32768 * (n + 3) * F.u ≤ 1) :
    (baseJ B' J').length = (baseJ B J).length ∧
    List.Forall₂ (fun (turns : Bool) c => Spec.VNear c.1.top c.2.top (256 * (n + 3) * F.u) ∧
        Spec.VNear c.1.bot c.2.bot (1600 * (n + 3) * F.u * if turns then L else 1)) ts ((baseJ B' J').zip (baseJ B J)) := by
  have hu := F.u_nonneg
  have hu' := F.u_le
  have big := F.big_ge
  have eta := F.η_le
  have nu : 0 ≤ n * F.u := by positivity
  have uL : 0 ≤ F.u * L := by positivity
  have nuL : 0 ≤ n * F.u * L := by positivity
  have nL : 32768 * (n + 3) * F.u * L ≤ 1 * L := mul_le_mul_of_nonneg_right hn h0.le
  cases hB with
  | none =>
    refine ⟨hlen, h.imp fun b c hc => ⟨VNear.mono hc.top (by linarith), ?_⟩⟩
    have hb := hc.bot
    cases b
    · simp only [Bool.false_eq_true, if_false] at hb ⊢
      exact VNear.mono hb (by linarith)
    · simp only [if_true] at hb ⊢
      exact VNear.mono hb (by linarith)
  | @some B' B hBB =>
    obtain ⟨rB, mB, -⟩ := hBB
    refine ⟨by simp [baseJ, hlen], ?_⟩
    simp only [baseJ]
    rw [List.zip_map, List.forall₂_map_right_iff]
    refine h.imp fun b c hc => ⟨?_, ?_⟩
    · have m := MNear.mulVec (s := 1) mB hc.top rB (by linarith) hc.topLen (by linarith) one_pos (by linarith) (by linarith)
      have h1 : F.u * c.2.top.norm ≤ F.u * 1 := mul_le_mul_of_nonneg_left hc.topLen hu
      have h2 : F.u * (256 * n * F.u + 32 * F.u) ≤ F.u * 1 := mul_le_mul_of_nonneg_left (by linarith) hu
      exact VNear.mono m (by linarith)
    · have hb := hc.bot
      have hl := hc.botLen
      cases b
      · simp only [Bool.false_eq_true, if_false] at hb hl ⊢
        have m := MNear.mulVec (s := 1) mB hb rB (by linarith) hl (by linarith) one_pos (by linarith) (by linarith)
        have h1 : F.u * c.2.bot.norm ≤ F.u * 1 := mul_le_mul_of_nonneg_left hl hu
        have h2 : F.u * d₃ ≤ F.u * 1 := mul_le_mul_of_nonneg_left (by linarith) hu
        exact VNear.mono m (by linarith)
      · simp only [if_true] at hb hl ⊢
        have m := MNear.mulVec (s := 2 * L) mB hb rB (by linarith) hl (by linarith) (by linarith) (by linarith) (by linarith)
        have h1 : F.u * c.2.bot.norm ≤ F.u * (2 * L) := mul_le_mul_of_nonneg_left hl hu
        have h2 : F.u * d₂ ≤ F.u * L := mul_le_mul_of_nonneg_left (by linarith) hu
        exact VNear.mono m (by linarith)

end Fl
