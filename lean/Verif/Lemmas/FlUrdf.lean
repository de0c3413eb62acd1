import Verif.Lemmas.FlData
import Verif.Lemmas.FlRpy
import Verif.Lemmas.FlTrans
import Verif.Lemmas.FlIk
import Verif.Lemmas.UrdfSame
import Verif.Props.Urdf

/-! # The URDF loader in floating-point arithmetic -/
set_option autoImplicit false

namespace Spec
variable {F : FSys}

/-- an `origin` element read with errors: lengths with relative error `ε`, angles with absolute error `ε` -/
structure OriginNear (ε : ℝ) (o' : UOrigin (Fl F)) (o : UOrigin ℝ) : Prop where
  xyz : Option.Rel (fun x' x => VNear x' x (ε * x.norm)) o'.xyz o.xyz
  rpy : Option.Rel (fun a' a => a'.x.Near a.x ε ∧ a'.y.Near a.y ε ∧ a'.z.Near a.z ε) o'.rpy o.rpy

/-- a joint read with errors; limits are not compared -/
structure JointNear (ε : ℝ) (j' : UJoint (Fl F)) (j : UJoint ℝ) : Prop where
  name : j'.name = j.name
  type : j'.jointType = j.jointType
  parent : j'.parent = j.parent
  child : j'.child = j.child
  origin : Option.Rel (OriginNear ε) j'.origin j.origin
  axis : Option.Rel (fun a' a => VNear a' a ε) j'.axis j.axis

/-- a file read with errors: the same links and joints in the same order; the values of inertials are not compared -/
structure UrdfNear (ε : ℝ) (u' : Urdf (Fl F)) (u : Urdf ℝ) : Prop where
  links : List.Forall₂ (fun l' l => l'.name = l.name ∧ l'.inertial.isSome = l.inertial.isSome) u'.links u.links
  joints : List.Forall₂ (JointNear ε) u'.joints u.joints

/-- length of the displacement of an `origin` element -/
noncomputable def originLen (o : Option (UOrigin ℝ)) : ℝ := ((o.bind UOrigin.xyz).map V3.norm).getD 0

/-- Upper bound of the distance of the tip from the root: displacements of the origins and of the sliding joints -/
noncomputable def urdfReach : List (UJoint ℝ) → List ℝ → ℝ
  | [], _ => 0
  | j :: js, θs =>
    if j.jointType = "fixed" then originLen j.origin + urdfReach js θs
    else match θs with
      | [] => originLen j.origin + urdfReach js []
      | θ :: θs => originLen j.origin + (if j.jointType = "revolute" then 0 else |θ|) + urdfReach js θs

end Spec

theorem originLen_nonneg (o : Option (UOrigin ℝ)) : 0 ≤ Spec.originLen o := by
  unfold Spec.originLen
  rcases o with _ | ⟨_ | x, a⟩
  · simp
  · simp
  · simpa using x.norm_nonneg

namespace Fl
variable {F : FSys}

theorem usame {ε : ℝ} {u' : Urdf (Fl F)} {u : Urdf ℝ} (h : Spec.UrdfNear ε u' u) : USame (Spec.JointNear ε) u' u where
  links := h.links.imp fun _ _ h => ⟨h.1, h.2⟩
  joints := h.joints
  rel := fun _ _ h => ⟨h.name, h.type, h.parent, h.child⟩

/-- The origin of a joint. -/
theorem applyOrigin_near {ε L N k ℓ : ℝ} {o' : Option (UOrigin (Fl F))} {o : Option (UOrigin ℝ)} (ho : Option.Rel (Spec.OriginNear ε) o' o)
    {p' : V3 (Fl F)} {p : V3 ℝ} {R' : M3 (Fl F)} {R : M3 ℝ} (hR : IsRot R) (hR' : Spec.MNear R' R (850 * k * ε)) (hp : p.norm ≤ ℓ)
    (hp' : Spec.VNear p' p (850 * N * ε * ℓ + 37 * k * (ε * L))) (hk : 0 ≤ k) (hkN : k + 1 ≤ N) (h0 : 0 < L) (hu : F.u ≤ ε)
    (hℓ : ℓ + Spec.originLen o ≤ L) (hη : F.η ≤ F.u * L) (hbig : 5 * L ≤ F.big) (hN : 100000000 * N * ε ≤ 1) :
    IsRot (applyOrigin o p R).2 ∧ Spec.MNear (applyOrigin o' p' R').2 (applyOrigin o p R).2 (850 * (k + 1) * ε) ∧
    (applyOrigin o p R).1.norm ≤ p.norm + Spec.originLen o ∧
    Spec.VNear (applyOrigin o' p' R').1 (applyOrigin o p R).1 (850 * N * ε * (ℓ + Spec.originLen o) + 37 * (k + 1) * (ε * L)) := by
  have u0 := F.u_nonneg
  have ε0 := u0.trans hu
  have np := p.norm_nonneg
  have lo := originLen_nonneg o
  have εL : 0 ≤ ε * L := by positivity
  have kε : k * ε + ε ≤ N * ε := by
    have := mul_le_mul_of_nonneg_right hkN ε0
    linarith
  have kε0 : 0 ≤ k * ε := by positivity
  have Nεo : 0 ≤ N * ε * Spec.originLen o := mul_nonneg (by linarith) lo
  refine ⟨applyOrigin_rot o p R hR, ?_, ?_, ?_⟩
  · obtain @⟨o', o, ho⟩ | _ := ho
    rotate_left
    · exact MNear.mono hR' (by linarith)
    · obtain ⟨-, hr⟩ := ho
      obtain ⟨x', r'⟩ := o'
      obtain ⟨x, r⟩ := o
      simp only [applyOrigin] at hr ⊢
      obtain @⟨a', a, hx, hy, hz⟩ | _ := hr
      rotate_left
      · exact MNear.mono hR' (by linarith)
      · have q : Spec.MNear (urdfRot a') (urdfRot a) (7 * ε + 750 * F.u) := rpy2R_near ⟨0, by simpa using hx⟩ ⟨0, by simpa using hy⟩ ⟨0, by simpa using hz⟩ (by linarith)
        have q' := MNear.mono q (e := 757 * ε) (by linarith)
        refine MNear.mono (MNear.mul hR' q' hR (urdfRot_isRot a) (by linarith) (by linarith)) ?_
        nlinarith
  · rcases o with _ | ⟨_ | x, a⟩
    · simp [applyOrigin, Spec.originLen]
    · simp [applyOrigin, Spec.originLen]
    · simp only [applyOrigin, Spec.originLen, Option.bind_some, Option.map_some, Option.getD_some]
      have := V3.norm_add_le p (R.mulVec x)
      rwa [hR.norm_mulVec] at this
  · obtain @⟨o', o, ho⟩ | _ := ho
    rotate_left
    · exact VNear.mono hp' (by linarith)
    · obtain ⟨hx, -⟩ := ho
      obtain ⟨x', r'⟩ := o'
      obtain ⟨x, r⟩ := o
      simp only [applyOrigin] at hx ⊢
      obtain @⟨x', x, hx⟩ | _ := hx
      rotate_left
      · exact VNear.mono hp' (by linarith)
      · simp only [Spec.originLen, Option.bind_some, Option.map_some, Option.getD_some] at hℓ lo Nεo ⊢
        have ex := VNear.mono hx (mul_le_mul_of_nonneg_left (by linarith : x.norm ≤ L) ε0)
        have b1 : N * ε * (ℓ + x.norm) ≤ N * ε * L := mul_le_mul_of_nonneg_left hℓ (by linarith)
        have b2 : k * (ε * L) + ε * L ≤ N * ε * L := by
          have := mul_le_mul_of_nonneg_right kε h0.le
          linarith
        have b3 : 100000000 * (N * ε * L) ≤ L := by
          have := mul_le_mul_of_nonneg_right hN h0.le
          linarith
        have b4 : k * ε * x.norm ≤ N * ε * x.norm := mul_le_mul_of_nonneg_right (by linarith) lo
        refine VNear.mono (link_dat hR' hp' ex hR (by linarith) (by linarith) h0 hu (by linarith) hη hbig ?_) ?_
        · linarith
        · linarith

/-- State of the loader after `k` joints whose origins have total length `ℓ`. -/
structure LInv (ε L N k ℓ : ℝ) (s' : UState (Fl F)) (s : UState ℝ) : Prop where
  rot : IsRot s.R
  R : Spec.MNear s'.R s.R (850 * k * ε)
  len : (s.P.map V3.norm).sum + s.p.norm ≤ ℓ
  p : Spec.VNear s'.p s.p (850 * N * ε * ℓ + 37 * k * (ε * L))
  H : List.Forall₂ (fun h' h => IsUnit3 h ∧ Spec.VNear h' h (887 * N * ε)) s'.H s.H
  P : List.Forall₂ (fun P' P => Spec.VNear P' P (887 * N * ε * L)) s'.P s.P
  ty : s'.ty = s.ty
  names : s'.names = s.names

theorem jointInertia_same {ε : ℝ} {u' : Urdf (Fl F)} {u : Urdf ℝ} (h : Spec.UrdfNear ε u' u) {j' : UJoint (Fl F)} {j : UJoint ℝ}
    (hj : Spec.JointNear ε j' j) {m n : Option (M6 ℝ)} (hm : jointInertia u j m = .ok n) (m' : Option (M6 (Fl F))) :
    ∃ n', jointInertia u' j' m' = .ok n' := by
  have U := usame h
  unfold jointInertia at hm ⊢
  rw [hj.child, hj.parent]
  rcases U.link j.child with ⟨e, h1, h2⟩ | ⟨a, b, h1, h2, hab⟩
  · rw [h2] at hm; cases hm
  rw [h2, Except.bind_ok] at hm
  rw [h1, Except.bind_ok]
  have hi := hab.inertial
  rcases ha : a.inertial with _ | i
  · exact ⟨_, rfl⟩
  · rcases hb : b.inertial with _ | i'
    · rw [ha, hb] at hi; cases hi
    · simp only [hb] at hm
      rcases U.link j.parent with ⟨e, h1, h2⟩ | ⟨c, d, h1, h2, -⟩
      · rw [h2] at hm; cases hm
      · dsimp only
        rw [h1, Except.bind_ok]
        exact ⟨_, rfl⟩

theorem vnear_zero {e : ℝ} (he : 0 ≤ e) : Spec.VNear (0 : V3 (Fl F)) 0 e :=
  ⟨0, rfl, by rw [show (0 : V3 ℝ) - 0 = 0 by ext <;> simp, V3.norm_zero]; exact he⟩

/-- One joint. -/
theorem urdfStep_near {ε L N k ℓ : ℝ} {u' : Urdf (Fl F)} {u : Urdf ℝ} (h : Spec.UrdfNear ε u' u) {j' : UJoint (Fl F)} {j : UJoint ℝ}
    (hj : Spec.JointNear ε j' j) (ha : ∀ a, j.axis = some a → IsUnit3 a) {s' : UState (Fl F)} {s t : UState ℝ} (hs : LInv ε L N k ℓ s' s)
    (ht : urdfStep u j s = .ok t) (hk : 0 ≤ k) (hkN : k + 1 ≤ N) (h0 : 0 < L) (hu : F.u ≤ ε)
    (hℓ : ℓ + Spec.originLen j.origin ≤ L) (hη : F.η ≤ F.u * L) (hbig : 5 * L ≤ F.big) (hN : 100000000 * N * ε ≤ 1) :
    ∃ t', urdfStep u' j' s' = .ok t' ∧ LInv ε L N (k + 1) (ℓ + Spec.originLen j.origin) t' t := by
  have u0 := F.u_nonneg
  have big := F.big_ge
  have eta := F.η_le
  have ε0 := u0.trans hu
  have lo := originLen_nonneg j.origin
  have sP : ∀ l : List (V3 ℝ), 0 ≤ (l.map V3.norm).sum := by
    intro l
    apply List.sum_nonneg
    simp only [List.mem_map]
    rintro _ ⟨v, -, rfl⟩
    exact v.norm_nonneg
  have sP0 := sP s.P
  have hp : s.p.norm ≤ ℓ := by linarith [hs.len]
  obtain ⟨r1, r2, r3, r4⟩ := applyOrigin_near hj.origin hs.rot hs.R hp hs.p hk hkN h0 hu hℓ hη hbig hN
  obtain ⟨m, hm, hc⟩ := urdfStep_ok ht
  obtain ⟨m', hm'⟩ := jointInertia_same h hj hm s'.m
  have e' : urdfStep u' j' s' = addJoint j' { s' with p := (applyOrigin j'.origin s'.p s'.R).1, R := (applyOrigin j'.origin s'.p s'.R).2, m := m' } := by
    unfold urdfStep
    rw [hm', Except.bind_ok]
  rw [e']
  unfold addJoint
  rw [hj.type, hj.name]
  have kε : k * ε + ε ≤ N * ε := by
    have := mul_le_mul_of_nonneg_right hkN ε0
    linarith
  have kε0 : 0 ≤ k * ε := by positivity
  rcases hc with ⟨hf, rfl⟩ | ⟨hf, a, ha1, rfl⟩
  · rw [if_pos hf]
    exact ⟨_, rfl, r1, r2, by have := hs.len; simp only; linarith, r4, hs.H, hs.P, hs.ty, hs.names⟩
  · have hne : j.jointType ≠ "fixed" := by rcases hf with hf | hf <;> rw [hf] <;> decide
    rw [if_neg hne, if_pos hf]
    obtain ⟨a', ha1', haa⟩ : ∃ a', j'.axis = some a' ∧ Spec.VNear a' a ε := by
      have hx := hj.axis
      rw [ha1] at hx
      rcases hy : j'.axis with _ | a'
      · rw [hy] at hx; cases hx
      · rw [hy] at hx
        obtain ⟨hx⟩ | _ := hx
        exact ⟨a', rfl, hx⟩
    rw [ha1']
    have hua := ha a ha1
    have na := V3.norm_eq_one hua
    have εL : 0 ≤ ε * L := by positivity
    refine ⟨_, rfl, r1, r2, ?_, ?_, ?_, ?_, ?_, ?_⟩
    · simp only [List.map_append, List.map_cons, List.map_nil, List.sum_append, List.sum_cons, List.sum_nil, V3.norm_zero]
      linarith [hs.len]
    · refine vnear_zero ?_
      have : 0 ≤ N * ε * (ℓ + Spec.originLen j.origin) := mul_nonneg (by linarith) (by linarith [s.p.norm_nonneg])
      have : 0 ≤ k * (ε * L) := by positivity
      linarith
    · refine List.rel_append hs.H (.cons ⟨?_, ?_⟩ .nil)
      · have := r1.mulVec_dot a a
        simp only [IsUnit3, V3.dot] at hua this ⊢
        rw [this]; exact hua
      · refine VNear.mono (MNear.mulVec (s := 1) r2 haa r1 (by linarith) na.le (by linarith) one_pos (by linarith) (by linarith)) ?_
        rw [na]
        nlinarith
    · refine List.rel_append hs.P (.cons ?_ .nil)
      refine VNear.mono r4 ?_
      have b1 : N * ε * (ℓ + Spec.originLen j.origin) ≤ N * ε * L := mul_le_mul_of_nonneg_left hℓ (by linarith)
      have b2 : k * (ε * L) + ε * L ≤ N * ε * L := by
        have := mul_le_mul_of_nonneg_right kε h0.le
        linarith
      linarith
    · simp only [hs.ty, typeNo]
    · simp only [hs.names]

/-- All joints. -/
theorem urdfLoop_near {ε L N : ℝ} {u' : Urdf (Fl F)} {u : Urdf ℝ} (h : Spec.UrdfNear ε u' u) (h0 : 0 < L) (hu : F.u ≤ ε)
    (hη : F.η ≤ F.u * L) (hbig : 5 * L ≤ F.big) (hN : 100000000 * N * ε ≤ 1) {js' : List (UJoint (Fl F))} {js : List (UJoint ℝ)}
    (hj : List.Forall₂ (Spec.JointNear ε) js' js) (ha : ∀ j ∈ js, ∀ a, j.axis = some a → IsUnit3 a) :
    ∀ (k ℓ : ℝ) (s' : UState (Fl F)) (s t : UState ℝ), LInv ε L N k ℓ s' s → urdfLoop u js s = .ok t → 0 ≤ k → k + js.length ≤ N →
      ℓ + (js.map fun j => Spec.originLen j.origin).sum ≤ L →
      ∃ t', urdfLoop u' js' s' = .ok t' ∧ LInv ε L N (k + js.length) (ℓ + (js.map fun j => Spec.originLen j.origin).sum) t' t := by
  induction hj with
  | nil =>
    intro k ℓ s' s t hs ht _ _ _
    cases ht
    exact ⟨s', rfl, by simpa using hs⟩
  | @cons j' j js' js hj _ ih =>
    intro k ℓ s' s t hs ht hk hkN hℓ
    obtain ⟨s1, h1, ht⟩ := Except.bind_eq_ok ht
    simp only [List.length_cons, Nat.cast_add, Nat.cast_one, List.map_cons, List.sum_cons] at hkN hℓ ⊢
    have n0 : (0 : ℝ) ≤ js.length := Nat.cast_nonneg _
    have sum0 : 0 ≤ (js.map fun j => Spec.originLen j.origin).sum := by
      apply List.sum_nonneg
      simp only [List.mem_map]
      rintro _ ⟨v, -, rfl⟩
      exact originLen_nonneg _
    obtain ⟨s1', h1', i1⟩ := urdfStep_near h hj (ha j (by simp)) hs h1 hk (by linarith) h0 hu (by linarith) hη hbig hN
    obtain ⟨t', ht', i2⟩ := ih (fun j hj => ha j (by simp [hj])) (k + 1) _ s1' s1 t i1 ht (by linarith) (by linarith) (by linarith)
    refine ⟨t', ?_, ?_⟩
    · simp only [urdfLoop]
      rw [h1', Except.bind_ok]; exact ht'
    · rwa [show k + (js.length + 1 : ℝ) = k + 1 + js.length by ring, ← add_assoc ℓ]

/-- A computed length near 1 passes the check of the constructor. -/
theorem iscloseD_one {a : Fl F} {d : ℝ} (ha : a.Near 1 d) (hd : d ≤ 8 / 1000000) (hu : F.u ≤ 1 / 100000000) : iscloseD a 1 := by
  right
  have u0 := F.u_nonneg
  have η0 := F.η_nonneg
  have ηu := F.η_le
  have d0 := ha.nonneg
  have big := F.big_ge
  have l := (ha.sub near_one (f := 9 / 1000000) (by rw [sub_self, abs_zero]; nlinarith) (by rw [sub_self, abs_zero]; linarith)).abs
  rw [sub_self, abs_zero] at l
  have lr := near_lit_abs (F := F) (1 / 100000) (by norm_num [abs_of_pos])
  have lr' : (lit (1 / 100000) : Fl F).Near (1 / 100000) (2 * F.u) := by
    have h2 : |((1 / 100000 : ℚ) : ℝ)| ≤ 1 := by norm_num [abs_of_pos]
    have := lr.mono (e := 2 * F.u) (by nlinarith)
    convert this using 1
    norm_num
  have la := near_lit_abs (F := F) (1 / 100000000) (by norm_num [abs_of_pos])
  have la' : (lit (1 / 100000000) : Fl F).Near (1 / 100000000) (2 * F.u) := by
    have h2 : |((1 / 100000000 : ℚ) : ℝ)| ≤ 1 := by norm_num [abs_of_pos]
    have := la.mono (e := 2 * F.u) (by nlinarith)
    convert this using 1
    norm_num
  have m := lr'.mul near_one.abs (f := 5 * F.u) (by
      rw [abs_one]
      norm_num [abs_of_pos]
      nlinarith) (by rw [abs_one]; norm_num [abs_of_pos]; linarith)
  have s := la'.add m (f := 10 * F.u) (by
      rw [abs_one]
      norm_num [abs_of_pos]
      nlinarith) (by rw [abs_one]; norm_num [abs_of_pos]; linarith)
  rw [abs_one] at s
  exact near_le l s (by linarith)

/-- A computed number that is not small is not close to 0. -/
theorem not_isclose_zero {b : Fl F} {x d : ℝ} (hb : b.Near x d) (hx : 1 / 2 ≤ |x|) (hx' : |x| ≤ 1) (hd : d ≤ 1 / 16)
    (hu : F.u ≤ 1 / 100000000) : ¬ isclose 0 b (lit (1 / 100000)) (lit (1 / 100000)) := by
  have u0 := F.u_nonneg
  have η0 := F.η_nonneg
  have ηu := F.η_le
  have d0 := hb.nonneg
  have big := F.big_ge
  rintro (h | h)
  · obtain ⟨v, hv, hvx⟩ := hb
    have e : b.val ≤ XReal.fin 0 := h.2
    have e' : XReal.fin 0 ≤ b.val := h.1
    rw [hv, XReal.fin_le] at e e'
    have v0 : v = 0 := le_antisymm e e'
    rw [v0, zero_sub, abs_neg] at hvx
    linarith
  · have l := (near_zero.sub hb (f := 1 / 8) (by rw [zero_sub, abs_neg]; nlinarith) (by rw [zero_sub, abs_neg]; linarith)).abs
    rw [zero_sub, abs_neg] at l
    have lr := near_lit_abs (F := F) (1 / 100000) (by norm_num [abs_of_pos])
    have lr' : (lit (1 / 100000) : Fl F).Near (1 / 100000) (2 * F.u) := by
      have h2 : |((1 / 100000 : ℚ) : ℝ)| ≤ 1 := by norm_num [abs_of_pos]
      have := lr.mono (e := 2 * F.u) (by nlinarith)
      convert this using 1
      norm_num
    have m := lr'.mul hb.abs (f := 1 / 100) (by
      rw [abs_mul, abs_abs, abs_of_pos (by norm_num : (0 : ℝ) < 1 / 100000)]
      have h1 : |x| * (2 * F.u) ≤ 1 * (2 * F.u) := mul_le_mul_of_nonneg_right hx' (by linarith)
      have h2 : 2 * F.u * d ≤ 2 * F.u * 1 := mul_le_mul_of_nonneg_left (by linarith) (by linarith)
      have h3 : F.u * (1 / 100000 * |x| + (1 / 100000 * d + |x| * (2 * F.u) + 2 * F.u * d)) ≤ F.u * 1 := mul_le_mul_of_nonneg_left (by linarith) u0
      linarith) (by rw [abs_mul, abs_abs, abs_of_pos (by norm_num : (0 : ℝ) < 1 / 100000)]; linarith)
    have s := lr'.add m (f := 1 / 50) (by
      rw [abs_of_nonneg (by positivity)]
      nlinarith) (by rw [abs_of_nonneg (by positivity)]; linarith)
    obtain ⟨v, hv, h1⟩ := l
    obtain ⟨w, hw, h2⟩ := s
    have h' : (Elem.abs (0 - b)).val ≤ (lit (1 / 100000) + lit (1 / 100000) * Elem.abs b : Fl F).val := h
    rw [hv, hw, XReal.fin_le] at h'
    rw [_root_.abs_le] at h1 h2
    linarith

/-- The tool frame of a computed rotation is kept. -/
theorem urdfTool_near {R' : M3 (Fl F)} {R : M3 ℝ} {e : ℝ} (hR : IsRot R) (hR' : Spec.MNear R' R e) (he : e ≤ 1 / 16) (hu : F.u ≤ 1 / 100000000) :
    urdfTool R' = (some R', some 0) := by
  have key : Transform.allIsclose (0 : M3 (Fl F)).toList R'.toList (lit (1/100000)) (lit (1/100000)) = false := by
    rw [Bool.eq_false_iff]
    intro h
    simp only [Transform.allIsclose, M3.toList, List.zip_cons_cons, List.zip_nil_right, List.all_cons, List.all_nil, Bool.and_true, Bool.and_eq_true,
      decide_eq_true_eq] at h
    obtain ⟨k0, -, -, k1, -, -, k2, -⟩ := h
    obtain ⟨C, rfl, hC⟩ := mNear_iff.1 hR'
    obtain ⟨⟨c0, c1, c2⟩, -⟩ := hC.entries
    have o := congrArg M3.a00 hR.orth
    simp at o
    have small : ∀ {x y : ℝ}, |x - y| ≤ e → y * y ≤ 1 → isclose 0 (of x : Fl F) (lit (1/100000)) (lit (1/100000)) → y * y < 1 / 4 := by
      intro x y hxy hy hc
      by_contra hlt
      have ay := abs_mul_abs_self y
      have a0 := abs_nonneg y
      exact not_isclose_zero ⟨x, rfl, hxy⟩ (by nlinarith) (by nlinarith) he hu hc
    have n0 := mul_self_nonneg R.a00
    have n1 := mul_self_nonneg R.a10
    have n2 := mul_self_nonneg R.a20
    have s0 := small (y := R.a00) (by simpa using c0) (by linarith) k0
    have s1 := small (y := R.a10) (by simpa using c1) (by linarith) k1
    have s2 := small (y := R.a20) (by simpa using c2) (by linarith) k2
    linarith
  unfold urdfTool
  rw [key]
  rfl

end Fl

section
variable {α : Type} [Add α] [Sub α] [Mul α] [Div α] [Neg α] [Zero α] [One α] [LT α] [LE α]
  [DecidableLT α] [DecidableLE α] [Elem α]

/-- the robot that the loader returns -/
def urdfRobot (s : UState α) (M : Option (List (M6 α))) (tool : Option (M3 α) × Option (V3 α)) (rt t : String) : Robot α := {
    H := s.H, P := s.P ++ [s.p], jointType := s.ty, lower := (limitPair s.lower s.upper).1, upper := (limitPair s.lower s.upper).2,
    vel := noneIn s.vel, M := M, Rtool := tool.1,
    ptool := tool.2, jointNames := some s.names, rootLink := some rt, tipLink := some t, effortLimit := noneIn s.effort }

theorem noneIn_length {β : Type} {l : List (Option β)} {r : List β} (h : noneIn l = some r) : r.length = l.length := by
  rw [(noneIn_eq_some l r).1 h, List.length_map]

/-- Arguments that the constructor accepts. -/
theorem init_intro {H P : List (V3 α)} {jt : List Nat} {lo up : List (Option α)} {vel : Option (List α)}
    {M : Option (List (M6 α))} {R : M3 α} {p : V3 α} {names : List String} {root tip : Option String}
    (hH : ∀ h ∈ H, iscloseD h.norm 1) (ht : ∀ t ∈ jt, t ∈ [0, 1, 2, 3]) (l1 : H.length + 1 = P.length) (l2 : H.length = jt.length)
    (l3 : lo.length = jt.length) (l4 : up.length = jt.length) (l5 : lenOk vel jt.length = true) (l6 : lenOk M P.length = true)
    (l7 : names.length = jt.length) :
    Robot.init H P jt (limitPair lo up).1 (limitPair lo up).2 vel none M (some R) (some p) (some names) root tip none none =
      .ok { H := H, P := P, jointType := jt, lower := (limitPair lo up).1, upper := (limitPair lo up).2, vel := vel, acc := none, M := M,
            Rtool := some R, ptool := some p, jointNames := some names, rootLink := root, tipLink := tip, Tflange := none, Tbase := none } := by
  have b1 : (H.all fun h => decide (iscloseD h.norm 1)) = true := by simpa using hH
  have b2 : (jt.all fun j => decide (j ∈ [0, 1, 2, 3])) = true := by rw [List.all_eq_true]; intro t h; exact decide_eq_true (ht t h)
  have b3 : (H.length + 1 == P.length && H.length == jt.length) = true := by rw [l1, l2]; simp
  unfold Robot.init
  rw [b1, b2, b3, l5, l6]
  have b7 : lenOk (some names) jt.length = true := by simp [lenOk, l7]
  rw [b7]
  rcases hl : noneIn lo with _ | lo'
  · rw [show limitPair lo up = (none, none) by unfold limitPair; rw [hl]]
    rfl
  · rcases hu : noneIn up with _ | up'
    · rw [show limitPair lo up = (none, none) by unfold limitPair; rw [hl, hu]]
      rfl
    · rw [show limitPair lo up = (some lo', some up') by unfold limitPair; rw [hl, hu]]
      have c1 : (lo'.length == jt.length) = true := by simp [noneIn_length hl, l3]
      have c2 : (up'.length == jt.length) = true := by simp [noneIn_length hu, l4]
      simp only [c1, c2]
      rfl

theorem lenOk_noneIn {β : Type} {l : List (Option β)} {n : Nat} (h : l.length = n) : lenOk (noneIn l) n = true := by
  rcases hl : noneIn l with _ | r
  · rfl
  · simp [lenOk, noneIn_length hl, h]

end
