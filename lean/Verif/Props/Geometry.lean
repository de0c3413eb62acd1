import Verif.Lemmas.Geom
import Verif.Props.Taylor

/-! # Property C79: robots with nearly the same geometry have nearly the same poses -/
set_option autoImplicit false

/-- C79: two robots with the same joint types, at the same joint values.  The orientations differ by at most the sum `E` of the differences
of the unit axes of the turning joints, each weighted with `2 |sin (x/2)|` for its angle `x`, plus the differences `a`, `b`, `c` of the
orientations of flange, tool and base.  The positions differ by at most `E` times the length of the arm, plus the differences of the link
vectors, of the axes of the sliding joints times the displacements, and of flange, tool and base.  All chains. -/
theorem C79_fwdkin_geometry (r s : Robot ℝ) (hr : r.WF) (hs : s.WF) (hts : s.jointType = r.jointType) (θ : List ℝ) (x y : Bool) (T U : Transform ℝ)
    (hT : fwdkin r θ x = .ok T) (hU : fwdkin s θ y = .ok U) (a b c : ℝ)
    (ha : ∀ v, ((auxF s).R.mulVec v - (auxF r).R.mulVec v).norm ≤ a * v.norm)
    (hb : ∀ v, ((auxX s).R.mulVec v - (auxX r).R.mulVec v).norm ≤ b * v.norm)
    (hc : ∀ v, ((auxB s).R.mulVec v - (auxB r).R.mulVec v).norm ≤ c * v.norm) :
    (∀ v, (U.R.mulVec v - T.R.mulVec v).norm ≤ (Spec.axisDiff r.jointType r.H s.H θ + a + b + c) * v.norm) ∧
      (U.p - T.p).norm ≤ Spec.axisDiff r.jointType r.H s.H θ * Spec.arm r θ + Spec.slideAxis r.jointType r.H s.H θ + Spec.linksDiff r.P s.P +
        ((auxF s).p - (auxF r).p).norm + a * (auxX r).p.norm + ((auxX s).p - (auxX r).p).norm +
        ((auxB s).p - (auxB r).p).norm + c * (T.p - (auxB r).p).norm := by
  have diff : ∀ {A B : M3 ℝ} {e : ℝ}, (∀ v, (B.mulVec v - A.mulVec v).norm ≤ e * v.norm) ↔ OpLe (B - A) e := fun {A B e} =>
    forall_congr' fun v => by rw [show (B - A).mulVec v = B.mulVec v - A.mulVec v by ext <;> simp <;> ring]
  have ha' := diff.1 ha
  have hb' := diff.1 hb
  have hc' := diff.1 hc
  unfold fwdkin at hT hU
  obtain ⟨-, -, hT⟩ := Except.bind_eq_ok hT
  obtain ⟨-, -, hU⟩ := Except.bind_eq_ok hU
  obtain ⟨P0, Ps, hP, lP⟩ := hr.sized.P_cons
  obtain ⟨Q0, Qs, hQ, lQ⟩ := hs.sized.P_cons
  rw [hP] at hT
  rw [hQ] at hU
  obtain ⟨⟨Rn, pn⟩, hT', hT⟩ := Except.bind_eq_ok hT
  cases hT
  obtain ⟨⟨Sn, qn⟩, hU', hU⟩ := Except.bind_eq_ok hU
  cases hU
  rw [hts] at hU'
  have o0 : OpLe ((1 : M3 ℝ) - 1) 0 := fun v => by
    rw [show ((1 : M3 ℝ) - 1).mulVec v = 0 by ext <;> simp, V3.norm_zero, zero_mul]
  obtain ⟨rR, rS, hR, hp⟩ := fwdLoop_geom r.jointType r.H s.H Ps Qs θ 1 1 P0 Q0 0 (Q0 - P0).norm Rn Sn pn qn hr.unit hs.unit hT' hU'
    (by rw [lP, hr.joints]) (by rw [lQ, ← hs.joints, hts]) IsRot.one IsRot.one o0 le_rfl
  rw [zero_add] at hR hp
  constructor
  · intro v
    rw [applyAux_R, applyAux_R]
    have h1 := mul_lip hR ha' rS (auxF_rot hr)
    have h2 := mul_lip h1 hb' (rS.mul (auxF_rot hs)) (auxX_rot hr)
    have h3 := mul_lip hc' h2 (auxB_rot hs) ((rR.mul (auxF_rot hr)).mul (auxX_rot hr))
    exact diff.2 (h3.mono (by linarith)) v
  · have e : ∀ (M F : M3 ℝ) (m f x : V3 ℝ), m + M.mulVec f + (M * F).mulVec x = m + M.mulVec (f + F.mulVec x) := by
      intro M F m f x
      rw [← M3.mulVec_mulVec, M3.mulVec_add]
      ext <;> simp only [V3.add_x, V3.add_y, V3.add_z] <;> ring
    rw [applyAux_p, applyAux_p]
    simp only [e]
    have h1 := link_geom (P := (auxF r).p + (auxF r).R.mulVec (auxX r).p) (Q := (auxF s).p + (auxF s).R.mulVec (auxX s).p) rS hR hp
    have h2 := link_geom (P := (auxX r).p) (Q := (auxX s).p) (auxF_rot hs) ha' (le_refl ((auxF s).p - (auxF r).p).norm)
    have h3 := link_geom (P := pn + Rn.mulVec ((auxF r).p + (auxF r).R.mulVec (auxX r).p))
      (Q := qn + Sn.mulVec ((auxF s).p + (auxF s).R.mulVec (auxX s).p)) (auxB_rot hs) hc' (le_refl ((auxB s).p - (auxB r).p).norm)
    rw [show ∀ b x : V3 ℝ, b + (auxB r).R.mulVec x - b = (auxB r).R.mulVec x by intro b x; ext <;> simp, (auxB_rot hr).norm_mulVec]
    have h4 := aux_norm hr
    have A0 := axisDiff_nonneg r.jointType r.H s.H θ
    have h5 := mul_le_mul_of_nonneg_left h4 A0
    refine h3.trans ?_
    unfold Spec.arm
    rw [hP, hQ, List.tail_cons]
    simp only [Spec.linksDiff]
    linarith

/-- The weights in `Spec.axisDiff` are at most the joint angles, and at most 2. -/
theorem axisDiff_weight (x : ℝ) : 2 * |Real.sin (x / 2)| ≤ |x| ∧ 2 * |Real.sin (x / 2)| ≤ 2 := by
  have h1 := Real.abs_sin_le_abs (x := x / 2)
  have h2 := Real.abs_sin_le_one (x / 2)
  rw [abs_div, abs_two] at h1
  constructor <;> linarith

-- non-vacuity: one turning joint with a tilted axis and a longer link, turned by half a turn
example : ∃ (r s : Robot ℝ) (T U : Transform ℝ), r.WF ∧ s.WF ∧ r.H ≠ s.H ∧ r.P ≠ s.P ∧ fwdkin r [Real.pi] true = .ok T ∧
    fwdkin s [Real.pi] true = .ok U ∧ (U.p - T.p).norm ≤ 2 * (40/101) + 1/1000 := by
  set r : Robot ℝ := { H := [⟨0, 0, 1⟩], P := [0, ⟨1, 0, 0⟩], jointType := [0] } with hr
  set s : Robot ℝ := { H := [⟨0, 3960/10201, 9401/10201⟩], P := [0, ⟨1001/1000, 0, 0⟩], jointType := [0] } with hs
  have wr : r.WF := ⟨rfl, rfl, by simp [hr], by simp [hr, IsUnit3], by simp [hr], by simp [hr], by simp [hr], by simp [hr]⟩
  have ws : s.WF := ⟨rfl, rfl, by simp [hs], by simp [hs, IsUnit3]; norm_num, by simp [hs], by simp [hs], by simp [hs], by simp [hs]⟩
  obtain ⟨T, hT⟩ := fwdkin_ok (robot := r) ⟨rfl, rfl⟩ (θ := [Real.pi]) rfl
  obtain ⟨U, hU⟩ := fwdkin_ok (robot := s) ⟨rfl, rfl⟩ (θ := [Real.pi]) rfl
  have z : ∀ A : M3 ℝ, ∀ v : V3 ℝ, (A.mulVec v - A.mulVec v).norm ≤ 0 * v.norm := fun A v => by
    rw [show A.mulVec v - A.mulVec v = 0 by ext <;> simp, V3.norm_zero, zero_mul]
  have h := (C79_fwdkin_geometry r s wr ws rfl _ _ _ T U hT hU 0 0 0 (z _) (z _) (z _)).2
  refine ⟨r, s, T, U, wr, ws, by simp [hr, hs]; norm_num, by simp [hr, hs]; norm_num, hT, hU, h.trans (le_of_eq ?_)⟩
  have e1 : (⟨0, 3960/10201, 9401/10201⟩ - ⟨0, 0, 1⟩ : V3 ℝ).norm = 40/101 := by
    rw [V3.norm_eq, Real.sqrt_eq_iff_mul_self_eq (by simp [V3.dot]; norm_num) (by norm_num)]
    simp [V3.dot]; norm_num
  have e2 : (⟨1001/1000, 0, 0⟩ - ⟨1, 0, 0⟩ : V3 ℝ).norm = 1/1000 := by
    rw [V3.norm_eq, Real.sqrt_eq_iff_mul_self_eq (by simp [V3.dot]; norm_num) (by norm_num)]
    simp [V3.dot]; norm_num
  have e3 : (0 - 0 : V3 ℝ).norm = 0 := by rw [show (0 - 0 : V3 ℝ) = 0 by ext <;> simp, V3.norm_zero]
  have nx : (⟨1, 0, 0⟩ : V3 ℝ).norm = 1 := V3.norm_ex
  simp only [Spec.axisDiff, Spec.slideAxis, Spec.linksDiff, Spec.arm, Spec.travel, hr, hs, e1, e2, nx, e3, List.tail_cons, Option.map_none, Option.getD_none,
    Real.sin_pi_div_two, auxF, auxX, auxB, identityTransform]
  norm_num [e3]
