import Verif.Lemmas.FlInertia
import Verif.Props.UrdfInertia
import Verif.B64

/-! # Property C110: the inertia of URDF links in floating-point arithmetic -/
set_option autoImplicit false

namespace Spec
variable {F : FSys}

/-- a coordinate of size at most `s` read with an error of at most one unit of roundoff of that size -/
def ReadNear (s : ℝ) (a : Fl F) (x : ℝ) : Prop := a.Near x (F.u * s) ∧ |x| ≤ s

/-- an inertial of mass `m`, with centre of mass within `L` of the frame and tensor entries up to `K`, as read from a file -/
structure InertialRead (m L K : ℝ) (x' : UInertial (Fl F)) (x : UInertial ℝ) : Prop where
  mass : ∃ m', x'.mass = some m' ∧ x.mass = some m ∧ m'.Near m (F.u * m)
  xyz : Option.Rel (fun o' o => Option.Rel (fun p' p => ReadNear L p'.x p.x ∧ ReadNear L p'.y p.y ∧ ReadNear L p'.z p.z) o'.xyz o.xyz ∧
    Option.Rel (fun a' a => a'.x.Near a.x F.u ∧ a'.y.Near a.y F.u ∧ a'.z.Near a.z F.u) o'.rpy o.rpy) x'.origin x.origin
  inertia : Option.Rel (fun i' i => ReadNear K i'.ixx i.ixx ∧ ReadNear K i'.ixy i.ixy ∧ ReadNear K i'.ixz i.ixz ∧ ReadNear K i'.iyy i.iyy ∧
    ReadNear K i'.iyz i.iyz ∧ ReadNear K i'.izz i.izz) x'.inertia x.inertia

end Spec

namespace Fl
variable {F : FSys}
open Spec

theorem near_zeroS {s : ℝ} (hs : 0 ≤ s) : (0 : Fl F).Near 0 (1 * (F.u * s)) := by
  have u0 := F.u_nonneg
  exact (near_zero (F := F)).mono (by positivity)

theorem originPose_near (hu : F.u ≤ 1 / 100000000) {L : ℝ} (hL : 0 < L) {o' : Option (UOrigin (Fl F))} {o : Option (UOrigin ℝ)}
    (h : Option.Rel (fun (o' : UOrigin (Fl F)) (o : UOrigin ℝ) => Option.Rel (fun p' p => ReadNear L p'.x p.x ∧ ReadNear L p'.y p.y ∧ ReadNear L p'.z p.z) o'.xyz o.xyz ∧
    Option.Rel (fun a' a => a'.x.Near a.x F.u ∧ a'.y.Near a.y F.u ∧ a'.z.Near a.z F.u) o'.rpy o.rpy) o' o) :
    ENear (originPose o').1 (originPose o).1 (757 * (F.u * 1)) ∧ ReadNear L (originPose o').2.x (originPose o).2.x ∧
    ReadNear L (originPose o').2.y (originPose o).2.y ∧ ReadNear L (originPose o').2.z (originPose o).2.z := by
  have u0 := F.u_nonneg
  have e1 : ENear (1 : M3 (Fl F)) (1 : M3 ℝ) (757 * (F.u * 1)) := by
    have z := (near_zero (F := F)).mono (show (0:ℝ) ≤ 757 * (F.u * 1) by positivity)
    have w := (near_one (F := F)).mono (show (0:ℝ) ≤ 757 * (F.u * 1) by positivity)
    exact ⟨w, z, z, z, w, z, z, z, w⟩
  have z : ReadNear L (0 : Fl F) (0 : ℝ) := ⟨(near_zero (F := F)).mono (by positivity), by simpa using hL.le⟩
  cases h with
  | none => exact ⟨e1, z, z, z⟩
  | some h =>
    rename_i o' o
    obtain ⟨hx, ha⟩ := h
    obtain ⟨x', a'⟩ := o'
    obtain ⟨x, a⟩ := o
    dsimp only at hx ha
    refine ⟨?_, ?_⟩
    · cases ha with
      | none => exact e1
      | some ha =>
        obtain ⟨ax, ay, az⟩ := ha
        have q := ENear.of_mNear (rpy2R_near (F := F) ⟨0, by simpa using ax⟩ ⟨0, by simpa using ay⟩ ⟨0, by simpa using az⟩ (by linarith))
        exact ENear.mono q (by linarith)
    · cases hx with
      | none => exact ⟨z, z, z⟩
      | some hx => exact hx

theorem inertiaMatrix_near {K : ℝ} (hK : 0 < K) {i' : Option (UInertia (Fl F))} {i : Option (UInertia ℝ)}
    (h : Option.Rel (fun (i' : UInertia (Fl F)) (i : UInertia ℝ) => ReadNear K i'.ixx i.ixx ∧ ReadNear K i'.ixy i.ixy ∧ ReadNear K i'.ixz i.ixz ∧ ReadNear K i'.iyy i.iyy ∧
    ReadNear K i'.iyz i.iyz ∧ ReadNear K i'.izz i.izz) i' i) :
    ENear (inertiaMatrix i') (inertiaMatrix i) (1 * (F.u * K)) ∧ EBound (inertiaMatrix i) (1 * K) := by
  rw [one_mul, one_mul]
  cases h with
  | none =>
    have u0 := F.u_nonneg
    have z := (near_zero (F := F)).mono (show (0:ℝ) ≤ F.u * K by positivity)
    have k : |(0:ℝ)| ≤ K := by simpa using hK.le
    exact ⟨⟨z, z, z, z, z, z, z, z, z⟩, ⟨k, k, k, k, k, k, k, k, k⟩⟩
  | some h =>
    obtain ⟨⟨a, a'⟩, ⟨b, b'⟩, ⟨c, c'⟩, ⟨d, d'⟩, ⟨e, e'⟩, f, f'⟩ := h
    exact ⟨⟨a, b, c, b, d, e, c, e, f⟩, ⟨a', b', c', b', d', e', c', e', f'⟩⟩

/-- The tensor turned into the link frame. -/
theorem turned_near {K : ℝ} (hK : 0 < K) (hη : F.η ≤ F.u * K) (hbig : 40 * K ≤ F.big) {R' I' : M3 (Fl F)} {R I : M3 ℝ} (hR : ENear R' R (757 * (F.u * 1)))
    (rR : IsRot R) (hI : ENear I' I (1 * (F.u * K))) (bI : EBound I (1 * K)) :
    ENear ((R' * I') * R'.transpose) ((R * I) * R.transpose) (18900 * (F.u * K)) ∧ EBound ((R * I) * R.transpose) (9 * K) := by
  have bR : EBound R (1 * 1) := EBound.mono (EBound.of_rot rR) (by norm_num)
  have bRI : EBound (R * I) (3 * K) := (EBound.mul bR bI).mono (by linarith)
  have h1 := ENear.mul 762 1529 2298 hR hI bR bI one_pos hK (by norm_num) (by norm_num) (by rwa [one_mul]) (by norm_num) (by norm_num) (by norm_num)
    (by norm_num) (by norm_num) (by linarith)
  rw [one_mul] at h1
  have h2 := ENear.mul 6280 12580 18900 h1 (ENear.transpose hR) bRI bR.transpose hK one_pos (by norm_num) (by norm_num) (by rwa [mul_one]) (by norm_num) (by norm_num)
    (by norm_num) (by norm_num) (by norm_num) (by linarith)
  rw [mul_one] at h2
  exact ⟨h2, (EBound.mul bRI bR.transpose).mono (by linarith)⟩

/-- The term of the parallel axes. -/
theorem steiner_near {m L : ℝ} (hm : 0 < m) (hL : 0 < L) (hη2 : F.η ≤ F.u * (L * L)) (hη3 : F.η ≤ F.u * (m * (L * L))) (hb2 : 40 * (L * L) ≤ F.big)
    (hb3 : 40 * (m * (L * L)) ≤ F.big) {m' : Fl F} (hm' : m'.Near m (1 * (F.u * m))) {p' : V3 (Fl F)} {p : V3 ℝ} (hx : ReadNear L p'.x p.x)
    (hy : ReadNear L p'.y p.y) (hz : ReadNear L p'.z p.z) :
    ENear (M3.smul (m' * p'.dot p') 1 - M3.smul m' (M3.outer p' p')) (M3.smul (m * p.dot p) 1 - M3.smul m (M3.outer p p)) (52 * (F.u * (m * (L * L)))) ∧
    EBound (M3.smul (m * p.dot p) 1 - M3.smul m (M3.outer p p)) (4 * (m * (L * L))) := by
  have LL := mul_pos hL hL
  have mLL := mul_pos hm LL
  have am : |m| ≤ 1 * m := by rw [abs_of_pos hm, one_mul]
  obtain ⟨x1, x2⟩ := hx
  obtain ⟨y1, y2⟩ := hy
  obtain ⟨z1, z2⟩ := hz
  rw [← one_mul (F.u * L)] at x1 y1 z1
  rw [← one_mul L] at x2 y2 z2
  have d := near_dot3S 5 14 24 x1 y1 z1 x1 y1 z1 x2 y2 z2 x2 y2 z2 hL hL (by norm_num) (by norm_num) hη2 (by norm_num) (by norm_num) (by norm_num) (by norm_num)
    (by norm_num) (by linarith)
  have bd := abs_dot3_le x2 x2 y2 y2 z2 z2
  have bd' : |p.dot p| ≤ 3 * (L * L) := by simpa [V3.dot] using bd
  change (p'.dot p').Near (p.dot p) _ at d
  have md := Near.mulS 32 hm' d am bd' hm LL (by norm_num) (by norm_num) hη3 (by norm_num) (by linarith)
  have bmd : |m * p.dot p| ≤ 3 * (m * (L * L)) := (abs_prod_le am bd').trans (by linarith)
  have e1 : ENear (1 : M3 (Fl F)) (1 : M3 ℝ) (0 * (F.u * 1)) := by
    have z := (near_zero (F := F)).mono (show (0:ℝ) ≤ 0 * (F.u * 1) by simp)
    have w := (near_one (F := F)).mono (show (0:ℝ) ≤ 0 * (F.u * 1) by simp)
    exact ⟨w, z, z, z, w, z, z, z, w⟩
  have b1 : EBound (1 : M3 ℝ) (1 * 1) := EBound.mono (EBound.of_rot IsRot.one) (by norm_num)
  have s1 := ENear.smul 37 md e1 bmd b1 mLL one_pos (by norm_num) le_rfl (by rwa [mul_one]) (by norm_num) (by linarith)
  rw [mul_one] at s1
  have pr : ∀ {a b : Fl F} {x y : ℝ}, a.Near x (1 * (F.u * L)) → b.Near y (1 * (F.u * L)) → |x| ≤ 1 * L → |y| ≤ 1 * L → (a * b).Near (x * y) (5 * (F.u * (L * L))) :=
    fun ha hb hx hy => Near.mulS 5 ha hb hx hy hL hL (by norm_num) (by norm_num) hη2 (by norm_num) (by linarith)
  have pb : ∀ {x y : ℝ}, |x| ≤ 1 * L → |y| ≤ 1 * L → |x * y| ≤ 1 * (L * L) := fun hx hy => (abs_prod_le hx hy).trans (by linarith)
  have o1 : ENear (M3.outer p' p') (M3.outer p p) (5 * (F.u * (L * L))) :=
    ⟨pr x1 x1 x2 x2, pr x1 y1 x2 y2, pr x1 z1 x2 z2, pr y1 x1 y2 x2, pr y1 y1 y2 y2, pr y1 z1 y2 z2, pr z1 x1 z2 x2, pr z1 y1 z2 y2, pr z1 z1 z2 z2⟩
  have ob : EBound (M3.outer p p) (1 * (L * L)) :=
    ⟨pb x2 x2, pb x2 y2, pb x2 z2, pb y2 x2, pb y2 y2, pb y2 z2, pb z2 x2, pb z2 y2, pb z2 z2⟩
  have s2 := ENear.smul 9 hm' o1 am ob hm LL (by norm_num) (by norm_num) hη3 (by norm_num) (by linarith)
  have bs1 : EBound (M3.smul (m * p.dot p) 1) (3 * (m * (L * L))) := (EBound.smul bmd b1).mono (by linarith)
  have bs2 : EBound (M3.smul m (M3.outer p p)) (1 * (m * (L * L))) := (EBound.smul am ob).mono (by linarith)
  exact ⟨ENear.sub 52 s1 s2 bs1 bs2 mLL (by norm_num) (by norm_num) hη3 (by norm_num) (by linarith),
    (EBound.sub bs1 bs2).mono (by linarith)⟩

end Fl

/-- C110: the spatial inertia that the URDF loader computes in floating-point arithmetic from an inertial whose numbers were read with an error of one
unit of roundoff is present for every mass from two milligrams on, and each of its entries is finite and, block by block, within `19000 u (K + m L²)`,
`5 u m L`, `5 u m L` and `4 u m` of the exact spatial inertia of the file: any rounding mode, any rotation, any tensor. -/
theorem C110_inertia_rounding {F : FSys} (hu : F.u ≤ 1 / 100000000) (x' : UInertial (Fl F)) (x : UInertial ℝ) (m L K : ℝ) (hm : 1 / 500000 ≤ m)
    (hL : 0 < L) (hK : 0 < K) (hx : Spec.InertialRead m L K x' x) (h1 : F.η ≤ F.u * K) (h2 : F.η ≤ F.u * (L * L)) (h3 : F.η ≤ F.u * (m * (L * L)))
    (h4 : F.η ≤ F.u * (m * L)) (h5 : F.η ≤ F.u * m) (b1 : 40 * (K + m * (L * L)) ≤ F.big) (b2 : 40 * (L * L) ≤ F.big) (b3 : 40 * (m * L) ≤ F.big)
    (b4 : 40 * m ≤ F.big) :
    ∃ M' M, convertInertial (some x') = some M' ∧ convertInertial (some x) = some M ∧
      Spec.ENear M'.tl M.tl (19000 * (F.u * (K + m * (L * L)))) ∧ Spec.ENear M'.tr M.tr (5 * (F.u * (m * L))) ∧
      Spec.ENear M'.bl M.bl (5 * (F.u * (m * L))) ∧ Spec.ENear M'.br M.br (4 * (F.u * m)) := by
  open Fl in
  have u0 := F.u_nonneg
  have m0 : 0 < m := by linarith
  have mLL : 0 < m * (L * L) := by positivity
  obtain ⟨⟨m', e1, e2, nm⟩, ho, hi⟩ := hx
  obtain ⟨oR, ox, oy, oz⟩ := Fl.originPose_near hu hL ho
  obtain ⟨iN, iB⟩ := Fl.inertiaMatrix_near hK hi
  have rR := (originPose_R x.origin).1
  have nm1 : m'.Near m (1 * (F.u * m)) := by rwa [one_mul]
  have am : |m| ≤ 1 * m := by rw [abs_of_pos m0, one_mul]
  obtain ⟨tN, tB⟩ := Fl.turned_near hK h1 (by linarith) oR rR iN iB
  obtain ⟨sN, sB⟩ := Fl.steiner_near m0 hL h2 h3 b2 (by linarith) nm1 ox oy oz
  have s0 : 0 < K + m * (L * L) := by linarith
  have uK : F.u * K ≤ F.u * (K + m * (L * L)) := mul_le_mul_of_nonneg_left (by linarith) u0
  have uS : F.u * (m * (L * L)) ≤ F.u * (K + m * (L * L)) := mul_le_mul_of_nonneg_left (by linarith) u0
  have tl := Fl.ENear.add 19000 (Fl.ENear.mono tN (show _ ≤ 18900 * (F.u * (K + m * (L * L))) by linarith))
    (Fl.ENear.mono sN (show _ ≤ 52 * (F.u * (K + m * (L * L))) by linarith)) (tB.mono (show _ ≤ 9 * (K + m * (L * L)) by linarith))
    (sB.mono (show _ ≤ 4 * (K + m * (L * L)) by linarith)) s0 (by norm_num) (by norm_num) (by linarith) (by norm_num) (by linarith)
  have hat1 : Spec.ENear (hat (originPose x'.origin).2) (hat (originPose x.origin).2) (1 * (F.u * L)) := by
    rw [one_mul]
    have z := (Fl.near_zero (F := F)).mono (show (0:ℝ) ≤ F.u * L by positivity)
    exact ⟨z, oz.1.neg, oy.1, oz.1, z, ox.1.neg, oy.1.neg, ox.1, z⟩
  have hat2 : EBound (hat (originPose x.origin).2) (1 * L) := by
    rw [one_mul]
    have z : |(0:ℝ)| ≤ L := by simpa using hL.le
    exact ⟨z, by simpa [hat] using oz.2, oy.2, oz.2, z, by simpa [hat] using ox.2, by simpa [hat] using oy.2, ox.2, z⟩
  have tr := Fl.ENear.smul 5 nm1 hat1 am hat2 m0 hL (by norm_num) (by norm_num) h4 (by norm_num) (by linarith)
  have bl := Fl.ENear.smul 5 nm1.neg hat1 (by rwa [abs_neg]) hat2 m0 hL (by norm_num) (by norm_num) h4 (by norm_num) (by linarith)
  have e1' : Spec.ENear (1 : M3 (Fl F)) (1 : M3 ℝ) (0 * (F.u * 1)) := by
    have z := (Fl.near_zero (F := F)).mono (show (0:ℝ) ≤ 0 * (F.u * 1) by simp)
    have w := (Fl.near_one (F := F)).mono (show (0:ℝ) ≤ 0 * (F.u * 1) by simp)
    exact ⟨w, z, z, z, w, z, z, z, w⟩
  have br := Fl.ENear.smul 4 nm1 e1' am (EBound.mono (EBound.of_rot IsRot.one) (show (1:ℝ) ≤ 1 * 1 by norm_num)) m0 one_pos (by norm_num) le_rfl
    (by rwa [mul_one]) (by norm_num) (by linarith)
  rw [mul_one] at br
  have big' : ¬ m' ≤ (lit (1/1000000) : Fl F) := by
    obtain ⟨v, hv, hvm⟩ := nm
    obtain ⟨w, hw, hwm⟩ := Fl.near_lit (F := F) (ε := F.u) (1/1000000) (S := 1) le_rfl (by linarith) (by norm_num) (by norm_num)
    change ¬ m'.val ≤ (lit (1/1000000) : Fl F).val
    rw [hv, hw, XReal.fin_le, not_le]
    have a1 := (abs_le.1 hvm).1
    have a2 := (abs_le.1 hwm).2
    have a3 : F.u * m ≤ 1 / 100000000 * m := mul_le_mul_of_nonneg_right hu m0.le
    push_cast at a2
    linarith
  have big : ¬ m ≤ (lit (1/1000000) : ℝ) := by rw [lit_tiny]; linarith
  refine ⟨⟨_, _, _, _⟩, ⟨_, _, _, _⟩, ?_, ?_, tl, tr, bl, br⟩
  · simp only [convertInertial, e1, if_neg big']; rfl
  · simp only [convertInertial, e2, if_neg big]; rfl

/-- C110: in particular twice the kinetic energy that follows from the floating-point matrix is that of the link moving with the angular velocity `w`
(in the frame of the inertial) and with the velocity `v` of its origin, up to
`u (57000 (K + m L²) |w|² + 30 m L |w| |v| + 12 m |v|²)`. -/
theorem C110_kinetic_energy {F : FSys} (hu : F.u ≤ 1 / 100000000) (x' : UInertial (Fl F)) (x : UInertial ℝ) (m L K : ℝ) (hm : 1 / 500000 ≤ m)
    (hL : 0 < L) (hK : 0 < K) (hx : Spec.InertialRead m L K x' x) (h1 : F.η ≤ F.u * K) (h2 : F.η ≤ F.u * (L * L)) (h3 : F.η ≤ F.u * (m * (L * L)))
    (h4 : F.η ≤ F.u * (m * L)) (h5 : F.η ≤ F.u * m) (b1 : 40 * (K + m * (L * L)) ≤ F.big) (b2 : 40 * (L * L) ≤ F.big) (b3 : 40 * (m * L) ≤ F.big)
    (b4 : 40 * m ≤ F.big) :
    ∃ N : M6 ℝ, convertInertial (some x') = some ⟨N.tl.map Fl.of, N.tr.map Fl.of, N.bl.map Fl.of, N.br.map Fl.of⟩ ∧ ∀ w v : V3 ℝ,
      let ω := Spec.rpyAct (x.origin.bind UOrigin.rpy) w
      let c := v + ω.cross (Spec.com x.origin)
      |Spec.dot6 ⟨ω, v⟩ (N.mulVec ⟨ω, v⟩) - (m * c.dot c + Spec.tensorForm x.inertia w)| ≤
        F.u * (57000 * (K + m * (L * L)) * w.norm ^ 2 + 30 * (m * L) * (w.norm * v.norm) + 12 * m * v.norm ^ 2) := by
  obtain ⟨M', M, c1, c2, n1, n2, n3, n4⟩ := C110_inertia_rounding hu x' x m L K hm hL hK hx h1 h2 h3 h4 h5 b1 b2 b3 b4
  have up : ∀ {A : M3 (Fl F)} {B : M3 ℝ} {e : ℝ}, Spec.ENear A B e → ∃ C : M3 ℝ, A = C.map Fl.of ∧ OpLe (C - B) (3 * e) := fun h =>
    Fl.mNear_iff.1 (Fl.mNear_of_entries h.a00 h.a01 h.a02 h.a10 h.a11 h.a12 h.a20 h.a21 h.a22)
  obtain ⟨N1, q1, o1⟩ := up n1
  obtain ⟨N2, q2, o2⟩ := up n2
  obtain ⟨N3, q3, o3⟩ := up n3
  obtain ⟨N4, q4, o4⟩ := up n4
  obtain ⟨-, ⟨-, e2, -⟩⟩ := hx.mass
  refine ⟨⟨N1, N2, N3, N4⟩, by rw [c1, ← q1, ← q2, ← q3, ← q4], fun w v => ?_⟩
  intro ω c
  have ke := C51_kinetic_energy x m e2 M c2 w v
  simp only at ke
  change Spec.dot6 ⟨ω, v⟩ (M.mulVec ⟨ω, v⟩) = m * c.dot c + Spec.tensorForm x.inertia w at ke
  rw [← ke]
  have nω : ω.norm = w.norm := by
    obtain ⟨hR, hv⟩ := originPose_R x.origin
    rw [show ω = (originPose x.origin).1.mulVec w from (hv w).symm, hR.norm_mulVec]
  have bb : ∀ {A : M3 ℝ} {e : ℝ} (a b : V3 ℝ), OpLe A e → |a.dot (A.mulVec b)| ≤ e * (a.norm * b.norm) := fun a b h => by
    refine (V3.abs_dot_le _ _).trans ?_
    have := mul_le_mul_of_nonneg_left (h b) a.norm_nonneg
    linarith
  have a1 := bb ω ω o1
  have a2 := bb ω v o2
  have a3 := bb v ω o3
  have a4 := bb v v o4
  have eq : Spec.dot6 ⟨ω, v⟩ ((⟨N1, N2, N3, N4⟩ : M6 ℝ).mulVec ⟨ω, v⟩) - Spec.dot6 ⟨ω, v⟩ (M.mulVec ⟨ω, v⟩) =
      ω.dot ((N1 - M.tl).mulVec ω) + ω.dot ((N2 - M.tr).mulVec v) + (v.dot ((N3 - M.bl).mulVec ω) + v.dot ((N4 - M.br).mulVec v)) := by
    simp [Spec.dot6, M6.mulVec, V3.dot]; ring
  rw [eq]
  refine (abs_add_le _ _).trans ?_
  have t1 := abs_add_le (ω.dot ((N1 - M.tl).mulVec ω)) (ω.dot ((N2 - M.tr).mulVec v))
  have t2 := abs_add_le (v.dot ((N3 - M.bl).mulVec ω)) (v.dot ((N4 - M.br).mulVec v))
  rw [nω] at a1 a2 a3
  nlinarith [a1, a2, a3, a4, t1, t2]

/-- C110: an inertial of at most half a milligram, or without mass, is left out. -/
theorem C110_left_out {F : FSys} (hu : F.u ≤ 1 / 100000000) (x' : UInertial (Fl F)) (h : ∀ m', x'.mass = some m' → ∃ m : ℝ, m'.Near m (F.u * |m|) ∧ m ≤ 1 / 2000000) :
    convertInertial (some x') = none := by
  rcases e : x'.mass with _ | m'
  · simp [convertInertial, e]
  · obtain ⟨m, ⟨v, hv, hvm⟩, hm⟩ := h m' e
    have key : m' ≤ (lit (1/1000000) : Fl F) := by
      obtain ⟨w, hw, hwm⟩ := Fl.near_lit (F := F) (ε := F.u) (1/1000000) (S := 1) le_rfl (by linarith) (by norm_num) (by norm_num)
      change m'.val ≤ (lit (1/1000000) : Fl F).val
      rw [hv, hw, XReal.fin_le]
      have a1 := (abs_le.1 hvm).2
      have a2 := (abs_le.1 hwm).1
      have a3 : F.u * |m| ≤ 1 / 100000000 * |m| := mul_le_mul_of_nonneg_right hu (abs_nonneg m)
      push_cast at a2
      rcases abs_cases m with ⟨q, -⟩ | ⟨q, -⟩ <;> rw [q] at a1 a3 <;> linarith
    simp only [convertInertial, e, if_pos key]

/-- the inertial of a link of 3 kg, off its frame and turned about the vertical, as a file states it -/
noncomputable def heavyLink : UInertial ℝ :=
  { mass := some 3, origin := some { xyz := some ⟨1/5, 0, 1/10⟩, rpy := some ⟨0, 0, 1⟩ }, inertia := some ⟨1/50, 1/1000, 0, 1/40, 0, 1/30⟩ }

/-- the same as read: 1/5, 1/10, 1/50 .. are not representable and rounded -/
noncomputable def heavyLinkRead {F : FSys} : UInertial (Fl F) :=
  { mass := some (.of 3), origin := some { xyz := some ⟨lit (1/5), 0, lit (1/10)⟩, rpy := some ⟨0, 0, .of 1⟩ },
    inertia := some ⟨lit (1/50), lit (1/1000), 0, lit (1/40), 0, lit (1/30)⟩ }

theorem heavyLink_read (lib : Libm) : Spec.InertialRead 3 1 1 (heavyLinkRead (F := b64 lib)) heavyLink := by
  have hu : (b64 lib).u = 2⁻¹ ^ 50 := rfl
  have big := (b64 lib).big_ge
  have eta := (b64 lib).η_le
  have u0 := (b64 lib).u_nonneg
  have l : ∀ q : ℚ, |(q : ℝ)| ≤ 1 / 5 → Spec.ReadNear 1 (lit q : Fl (b64 lib)) (q : ℝ) := fun q hq => by
    refine ⟨Fl.near_round (F := b64 lib) (w := (q : ℝ)) (d := 0) (by simp) ?_ ?_, by linarith⟩
    · have := mul_le_mul_of_nonneg_left hq u0
      have e : 16 * (b64 lib).η ≤ (b64 lib).u ^ 3 := b64_eta lib
      have e2 : (b64 lib).u ^ 3 ≤ (b64 lib).u := by rw [hu]; norm_num
      linarith
    · rw [hu]; norm_num; linarith
  have z : Spec.ReadNear 1 (0 : Fl (b64 lib)) (0 : ℝ) := ⟨(Fl.near_zero (F := b64 lib)).mono (by linarith), by simp⟩
  have ex : ∀ x e : ℝ, 0 ≤ e → (Fl.of x : Fl (b64 lib)).Near x e := fun x e he => ⟨x, rfl, by simpa using he⟩
  have l1 := l (1/5) (by norm_num)
  have l2 := l (1/10) (by norm_num)
  have l3 := l (1/50) (by norm_num)
  have l4 := l (1/1000) (by norm_num)
  have l5 := l (1/40) (by norm_num)
  have l6 := l (1/30) (by norm_num)
  push_cast at l1 l2 l3 l4 l5 l6
  have z0 := (Fl.near_zero (F := b64 lib)).mono u0
  exact ⟨⟨_, rfl, rfl, ex 3 _ (mul_nonneg u0 (by norm_num))⟩, .some ⟨.some ⟨l1, z, l2⟩, .some ⟨z0, z0, ex 1 _ u0⟩⟩, .some ⟨l3, l4, z, l5, z, l6⟩⟩

/-- Non-vacuity of C110 in binary64. -/
example (lib : Libm) : ∃ M' M, convertInertial (some (heavyLinkRead (F := b64 lib))) = some M' ∧ convertInertial (some heavyLink) = some M ∧
    Spec.ENear M'.tl M.tl (1 / 10000000000) := by
  have hu : (b64 lib).u = 2⁻¹ ^ 50 := rfl
  have big := (b64 lib).big_ge
  have eta := (b64 lib).η_le
  have u0 := (b64 lib).u_nonneg
  obtain ⟨M', M, c1, c2, n, -⟩ := C110_inertia_rounding (F := b64 lib) (by rw [hu]; norm_num) _ _ 3 1 1 (by norm_num) one_pos one_pos (heavyLink_read lib)
    (by linarith) (by linarith) (by linarith) (by linarith) (by linarith) (by linarith) (by linarith) (by linarith) (by linarith)
  exact ⟨M', M, c1, c2, Fl.ENear.mono n (by rw [hu]; norm_num)⟩
