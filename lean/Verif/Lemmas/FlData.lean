import Verif.Lemmas.FlKin
import Verif.Lemmas.FlJac

/-! # Forward kinematics in floating-point arithmetic of a robot whose data are known up to `e` -/
set_option autoImplicit false

namespace Fl
variable {F : FSys}

/-- One link: `p + R P`. -/
theorem link_dat {R' : M3 (Fl F)} {R : M3 ℝ} {p' P' : V3 (Fl F)} {p P : V3 ℝ} {a f e L : ℝ} (hR' : Spec.MNear R' R a) (hp' : Spec.VNear p' p f)
    (hP' : Spec.VNear P' P (e * L)) (hR : IsRot R) (ha : a ≤ 1 / 16) (hL : p.norm + P.norm ≤ L) (h0 : 0 < L) (he : F.u ≤ e) (he' : e ≤ 1 / 16)
    (hη : F.η ≤ F.u * L) (hbig : 5 * L ≤ F.big) (hf : f + a * P.norm + 32 * (e * L) ≤ L / 16) :
    Spec.VNear (p' + R'.mulVec P') (p + R.mulVec P) (f + a * P.norm + 37 * (e * L)) := by
  have hu := F.u_nonneg
  have np := p.norm_nonneg
  have nP := P.norm_nonneg
  have uL : F.u * L ≤ e * L := mul_le_mul_of_nonneg_right he h0.le
  have eL : e * L ≤ L / 16 := by
    have := mul_le_mul_of_nonneg_right he' h0.le
    linarith
  have eL0 : 0 ≤ e * L := mul_nonneg (hu.trans he) h0.le
  have m := MNear.mulVec hR' hP' hR ha (by linarith : P.norm ≤ L) eL h0 hη hbig
  have m' := VNear.mono m (e := a * P.norm + 32 * (e * L)) (by nlinarith)
  have s := VNear.add (s := L) hp' m' h0 (by
    have := V3.norm_add_le p (R.mulVec P)
    rw [hR.norm_mulVec] at this
    linarith) hη hbig
  exact VNear.mono s (by linarith)

/-- One displacement: `p + θ R h`. -/
theorem slide_dat {R' : M3 (Fl F)} {R : M3 ℝ} {p' h' : V3 (Fl F)} {p h : V3 ℝ} {th : Fl F} {θ a f e L : ℝ} (hR' : Spec.MNear R' R a)
    (hp' : Spec.VNear p' p f) (hh' : Spec.VNear h' h e) (hh : IsUnit3 h) (hth : th.Near θ (F.u * |θ|)) (hR : IsRot R) (ha : a + 32 * e ≤ 1 / 16)
    (hL : p.norm + |θ| ≤ L) (h0 : 0 < L) (he : F.u ≤ e) (hη : F.η ≤ F.u * L) (hbig : 5 * L ≤ F.big)
    (hf : f + a * |θ| + 39 * (e * L) ≤ L / 16) :
    Spec.VNear (p' + V3.smul th (R'.mulVec h')) (p + V3.smul θ (R.mulVec h)) (f + a * |θ| + 44 * (e * L)) := by
  have hu := F.u_nonneg
  have big := F.big_ge
  have eta := F.η_le
  have np := p.norm_nonneg
  have nh := V3.norm_eq_one hh
  have nt := abs_nonneg θ
  have a0 : 0 ≤ a := by
    obtain ⟨C, -, hC⟩ := mNear_iff.1 hR'
    exact hC.nonneg
  have m := MNear.mulVec (s := 1) hR' hh' hR (by linarith) (by linarith) (by linarith) one_pos (by linarith) (by linarith)
  have m' := VNear.mono m (e := a + 32 * e) (by rw [nh]; nlinarith)
  have sm := VNear.smul hth m' (by rw [hR.norm_mulVec, nh]) ha (by linarith : |θ| ≤ L) h0 hη hbig
  have uL : F.u * L ≤ e * L := mul_le_mul_of_nonneg_right he h0.le
  have eθ : e * |θ| ≤ e * L := mul_le_mul_of_nonneg_left (by linarith) (hu.trans he)
  have sm' := VNear.mono sm (e := a * |θ| + 39 * (e * L)) (by linarith)
  have s := VNear.add (s := L) hp' sm' h0 (by
    have := V3.norm_add_le p (V3.smul θ (R.mulVec h))
    rw [V3.smul_def, V3.norm_hsmul, hR.norm_mulVec, nh] at this
    rw [V3.smul_def]
    linarith) hη hbig
  exact VNear.mono s (by linarith)

/-- One pass of the loop. -/
theorem fwdStep_dat {t : Nat} {R' : M3 (Fl F)} {R : M3 ℝ} {p' h' P' : V3 (Fl F)} {p h P : V3 ℝ} {th : Fl F} {θ a f e L : ℝ}
    (hR' : Spec.MNear R' R a) (hp' : Spec.VNear p' p f) (hh' : Spec.VNear h' h e) (hh : IsUnit3 h)
    (hP' : Spec.VNear P' P (e * L)) (hth : if t = 1 ∨ t = 3 then th.Near θ (F.u * |θ|) else th.Near θ F.u) (hR : IsRot R)
    (ha : a + 280 * e ≤ 1 / 16) (hL : p.norm + ((if t = 1 ∨ t = 3 then |θ| else 0) + P.norm) ≤ L) (h0 : 0 < L) (he : F.u ≤ e)
    (hη : F.η ≤ F.u * L) (hbig : 5 * L ≤ F.big)
    (hf : f + (a + 280 * e) * ((if t = 1 ∨ t = 3 then |θ| else 0) + P.norm) + 81 * (e * L) ≤ L / 16) :
    Spec.MNear (fwdStep t h' P' th (R', p')).1 (fwdStep t h P θ (R, p)).1 (a + 280 * e) ∧
    Spec.VNear (fwdStep t h' P' th (R', p')).2 (fwdStep t h P θ (R, p)).2
      (f + (a + 280 * e) * ((if t = 1 ∨ t = 3 then |θ| else 0) + P.norm) + 81 * (e * L)) ∧
    IsRot (fwdStep t h P θ (R, p)).1 ∧ (fwdStep t h P θ (R, p)).2.norm ≤ p.norm + ((if t = 1 ∨ t = 3 then |θ| else 0) + P.norm) := by
  have hu := F.u_nonneg
  have e0 := hu.trans he
  have np := p.norm_nonneg
  have nP := P.norm_nonneg
  have eL : 0 ≤ e * L := by positivity
  have a0 : 0 ≤ a := by
    obtain ⟨C, -, hC⟩ := mNear_iff.1 hR'
    exact hC.nonneg
  have aP : a * P.norm ≤ (a + 280 * e) * P.norm := mul_le_mul_of_nonneg_right (by linarith) nP
  have aP0 : 0 ≤ a * P.norm := mul_nonneg a0 nP
  simp only [fwdStep]
  by_cases h02 : t = 0 ∨ t = 2
  · have h13 : ¬ (t = 1 ∨ t = 3) := by omega
    rw [if_neg h13] at hth
    simp only [if_neg h13, zero_add] at hL hf ⊢
    simp only [if_pos h02]
    have r0 := MNear.mono (rot_near' hh hh' (by linarith) hth) (e := 218 * e) (by linarith)
    have r := MNear.mul hR' r0 hR (rot_isRot h hh θ) (by linarith) (by linarith)
    have r' := MNear.mono r (e := a + 280 * e) (by nlinarith)
    have hRR := hR.mul (rot_isRot h hh θ)
    refine ⟨r', ?_, hRR, ?_⟩
    · exact VNear.mono (link_dat r' hp' hP' hRR ha hL h0 he (by linarith) hη hbig (by linarith)) (by linarith)
    · have := V3.norm_add_le p ((R * rot h θ).mulVec P)
      rwa [hRR.norm_mulVec] at this
  · simp only [if_neg h02]
    by_cases h13 : t = 1 ∨ t = 3
    · rw [if_pos h13] at hth
      simp only [if_pos h13] at hL hf ⊢
      have nt := abs_nonneg θ
      have at' : a * |θ| ≤ (a + 280 * e) * |θ| := mul_le_mul_of_nonneg_right (by linarith) nt
      have n1 : (p + V3.smul θ (R.mulVec h)).norm ≤ p.norm + |θ| := by
        have := V3.norm_add_le p (V3.smul θ (R.mulVec h))
        rw [V3.smul_def, V3.norm_hsmul, hR.norm_mulVec, V3.norm_eq_one hh, mul_one] at this
        rwa [V3.smul_def]
      have s1 := slide_dat hR' hp' hh' hh hth hR (by linarith) (by linarith) h0 he hη hbig (by linarith)
      have s2 := link_dat hR' s1 hP' hR (by linarith) (by linarith) h0 he (by linarith) hη hbig (by linarith)
      refine ⟨MNear.mono hR' (by linarith), VNear.mono s2 (by linarith), hR, ?_⟩
      have := V3.norm_add_le (p + V3.smul θ (R.mulVec h)) (R.mulVec P)
      rw [hR.norm_mulVec] at this
      linarith
    · simp only [if_neg h13, zero_add] at hL hf ⊢
      have s2 := link_dat hR' hp' hP' hR (by linarith) hL h0 he (by linarith) hη hbig (by linarith)
      refine ⟨MNear.mono hR' (by linarith), VNear.mono s2 (by linarith), hR, ?_⟩
      have := V3.norm_add_le p (R.mulVec P)
      rwa [hR.norm_mulVec] at this

/-- The loop of `fwdkin`. -/
theorem fwdLoop_dat {e L : ℝ} (h0 : 0 < L) (he : F.u ≤ e) (hη : F.η ≤ F.u * L) (hbig : 5 * L ≤ F.big) :
    ∀ (ts : List Nat) (hs Ps : List (V3 ℝ)) (θs : List ℝ) (hs' Ps' : List (V3 (Fl F))) (θs' : List (Fl F)) (R : M3 ℝ) (p : V3 ℝ)
      (R' : M3 (Fl F)) (p' : V3 (Fl F)) (a f : ℝ) (Rn : M3 ℝ) (pn : V3 ℝ),
      fwdLoop ts hs Ps θs (R, p) = .ok (Rn, pn) →
      List.Forall₂ (fun h' h => IsUnit3 h ∧ Spec.VNear h' h e) hs' hs → List.Forall₂ (fun P' P => Spec.VNear P' P (e * L)) Ps' Ps →
      Spec.AnglesNear ts θs' θs → Spec.MNear R' R a → Spec.VNear p' p f → IsRot R → a + 280 * ts.length * e ≤ 1 / 16 →
      p.norm + Spec.travel ts Ps θs ≤ L →
      f + (a + 280 * ts.length * e) * Spec.travel ts Ps θs + 81 * ts.length * (e * L) ≤ L / 16 →
      ∃ Rn' pn', fwdLoop ts hs' Ps' θs' (R', p') = .ok (Rn', pn') ∧ Spec.MNear Rn' Rn (a + 280 * ts.length * e) ∧
        Spec.VNear pn' pn (f + (a + 280 * ts.length * e) * Spec.travel ts Ps θs + 81 * ts.length * (e * L)) ∧ IsRot Rn ∧
        pn.norm ≤ p.norm + Spec.travel ts Ps θs := by
  intro ts
  induction ts with
  | nil =>
    intro hs Ps θs hs' Ps' θs' R p R' p' a f Rn pn hl _ _ _ hR' hp' hR _ _ _
    cases hl
    refine ⟨R', p', rfl, ?_, ?_, hR, ?_⟩
    · simpa using hR'
    · simpa [Spec.travel] using hp'
    · simp [Spec.travel]
  | cons t ts ih =>
    intro hs Ps θs hs' Ps' θs' R p R' p' a f Rn pn hl hH hP hθ hR' hp' hR ha hL hf
    obtain _ | ⟨h, hs⟩ := hs
    · cases hl
    obtain _ | ⟨P, Ps⟩ := Ps
    · cases hl
    obtain _ | ⟨θ, θs⟩ := θs
    · cases hl
    obtain _ | ⟨⟨hh, hh'⟩, hH⟩ := hH
    obtain _ | ⟨hP', hP⟩ := hP
    obtain _ | ⟨th, θs'⟩ := θs'
    · cases hθ
    obtain ⟨hth, hθ⟩ := hθ
    simp only [fwdLoop] at hl ⊢
    have e0 := F.u_nonneg.trans he
    have eL : 0 ≤ e * L := by positivity
    have nt := travel_nonneg ts Ps θs
    simp only [List.length_cons, Nat.cast_add, Nat.cast_one, Spec.travel] at ha hL hf ⊢
    set ℓ := (if t = 1 ∨ t = 3 then |θ| else 0) + P.norm with hℓ
    have nℓ : 0 ≤ ℓ := by
      have := P.norm_nonneg
      rw [hℓ]
      split_ifs <;> positivity
    set n : ℝ := (ts.length : ℝ) with hn
    have n0 : 0 ≤ n := Nat.cast_nonneg _
    have ne : 0 ≤ n * e := by positivity
    have a0 : 0 ≤ a := by
      obtain ⟨C, -, hC⟩ := mNear_iff.1 hR'
      exact hC.nonneg
    have neL : 0 ≤ n * (e * L) := by positivity
    have e1 : a + 280 * e + 280 * n * e = a + 280 * (n + 1) * e := by ring
    have q1 : (a + 280 * e) * ℓ ≤ (a + 280 * (n + 1) * e) * ℓ := mul_le_mul_of_nonneg_right (by linarith) nℓ
    have q2 : 0 ≤ (a + 280 * (n + 1) * e) * Spec.travel ts Ps θs := mul_nonneg (by rw [← e1]; positivity) nt
    have st := fwdStep_dat hR' hp' hh' hh hP' hth hR (L := L) (by linarith) (by linarith) h0 he hη hbig (by
      rw [mul_add] at hf
      linarith)
    obtain ⟨s1, s2, s3, s4⟩ := st
    obtain ⟨Rn', pn', k1, k2, k3, k4, k5⟩ := ih hs Ps θs _ _ θs' (fwdStep t h P θ (R, p)).1 (fwdStep t h P θ (R, p)).2 _ _ _ _ Rn pn hl hH hP hθ s1 s2 s3
      (by rw [e1]; exact ha) (by linarith) (by
        rw [e1]
        rw [mul_add] at hf
        linarith)
    refine ⟨Rn', pn', k1, ?_, ?_, k4, by linarith⟩
    · rwa [e1] at k2
    · refine VNear.mono k3 ?_
      rw [e1, mul_add]
      linarith

/-- `fwdkin` of a robot with a turned tool frame, flange and base absent: data known up to `e`. -/
theorem fwdkin_dat {e L : ℝ} (h0 : 0 < L) (he : F.u ≤ e) (hη : F.η ≤ F.u * L) (hbig : 5 * L ≤ F.big) (r : Robot ℝ) (r' : Robot (Fl F))
    (θs : List ℝ) (θs' : List (Fl F)) (ht : r'.jointType = r.jointType)
    (hH : List.Forall₂ (fun h' h => IsUnit3 h ∧ Spec.VNear h' h e) r'.H r.H) (hP : List.Forall₂ (fun P' P => Spec.VNear P' P (e * L)) r'.P r.P)
    {R : M3 ℝ} {R' : M3 (Fl F)} (hRt : r.Rtool = some R) (hRt' : r'.Rtool = some R') (hpt : r.ptool = some 0) (hpt' : r'.ptool = some 0)
    (hF : r.Tflange = none) (hF' : r'.Tflange = none) (hB : r.Tbase = none) (hB' : r'.Tbase = none) (hR : IsRot R) (hR' : Spec.MNear R' R e)
    (hθ : Spec.AnglesNear r.jointType θs' θs) (T : Transform ℝ) (hT : fwdkin r θs true = .ok T) (hL : Spec.reach r θs ≤ L)
    (hn : 6000 * (r.jointType.length + 1) * e ≤ 1) :
    ∃ T', fwdkin r' θs' true = .ok T' ∧ Spec.MNear T'.R T.R (280 * (r.jointType.length + 1) * e) ∧
      Spec.VNear T'.p T.p (361 * (r.jointType.length + 1) * e * L) := by
  set n : ℝ := (r.jointType.length : ℝ) with hnn
  have n0 : 0 ≤ n := Nat.cast_nonneg _
  have e0 := F.u_nonneg.trans he
  have ne : 0 ≤ n * e := by positivity
  simp only [fwdkin, checkLimits, if_true, Except.bind_ok] at hT ⊢
  simp only [Spec.reach, hF, hB, hpt, Option.map_some, Option.map_none, Option.getD_some, Option.getD_none, V3.norm_zero, add_zero] at hL
  generalize r.P = Ps at hT hL hP
  generalize r'.P = Ps' at hP ⊢
  obtain _ | ⟨P0, Ps⟩ := Ps
  · cases hT
  obtain _ | ⟨hP0, hP⟩ := hP
  rename_i P0' Ps'
  obtain ⟨⟨Rn, pn⟩, hloop, hT⟩ := Except.bind_eq_ok hT
  cases hT
  simp only [List.head?_cons, Option.map_some, Option.getD_some, List.tail_cons] at hL
  have nP := P0.norm_nonneg
  have nt := travel_nonneg r.jointType Ps θs
  set ℓ := Spec.travel r.jointType Ps θs with hℓ
  have one : Spec.MNear (1 : M3 (Fl F)) 1 0 := ⟨1, rfl, by intro v; simp [V3.norm_zero]⟩
  have eL : 0 ≤ e * L := by positivity
  have neL : 0 ≤ n * (e * L) := by positivity
  have nℓ : n * e * ℓ ≤ n * (e * L) := by
    rw [mul_assoc]
    exact mul_le_mul_of_nonneg_left (mul_le_mul_of_nonneg_left (by linarith) e0) n0
  have nℓ0 : 0 ≤ n * e * ℓ := by positivity
  have tot : 6000 * (n * (e * L)) + 6000 * (e * L) ≤ L := by
    have := mul_le_mul_of_nonneg_right hn h0.le
    linarith
  obtain ⟨Rn', pn', k1, k2, k3, k4, k5⟩ := fwdLoop_dat (F := F) h0 he hη hbig r.jointType r.H Ps θs _ _ _ 1 P0 1 P0' 0 (e * L) Rn pn
    hloop hH hP hθ one hP0 IsRot.one (by rw [zero_add]; linarith) (by linarith) (by
      rw [zero_add, ← hℓ, ← hnn]
      linarith)
  rw [← hnn, ← hℓ, zero_add] at k3
  rw [← hnn, zero_add] at k2
  rw [← hℓ] at k5
  dsimp only
  rw [ht, k1]
  refine ⟨_, rfl, ?_⟩
  have zero : Spec.VNear (0 : V3 (Fl F)) 0 (e * L) := ⟨0, rfl, by rw [show (0 : V3 ℝ) - 0 = 0 by ext <;> simp, V3.norm_zero]; exact eL⟩
  simp only [applyAux, hF, hF', hB, hB', hRt, hRt', hpt, hpt']
  have m := MNear.mul k2 hR' k4 hR (by linarith) (by linarith)
  have k3' := VNear.mono k3 (e := 361 * (n * (e * L)) + e * L) (by linarith)
  have l := link_dat k2 k3' zero k4 (by linarith) (by rw [V3.norm_zero]; linarith) h0 he (by linarith) hη hbig (by
    rw [V3.norm_zero, mul_zero]; linarith)
  refine ⟨MNear.mono m ?_, VNear.mono l ?_⟩
  · nlinarith
  · rw [V3.norm_zero, mul_zero]; linarith

end Fl
