import Verif.Lemmas.FlRot
import Verif.Lemmas.Kin

/-! # Rounding error of `fwdkin` -/
set_option autoImplicit false

namespace Fl
variable {F : FSys}

/-- Scalar times vector, the vector of size at most 1. -/
theorem VNear.smul {th : Fl F} {θ : ℝ} {x : V3 (Fl F)} {v : V3 ℝ} {d L : ℝ} (hth : th.Near θ (F.u * |θ|)) (hx : Spec.VNear x v d)
    (hv : v.norm ≤ 1) (hd : d ≤ 1 / 16) (hθ : |θ| ≤ L) (hL : 0 < L) (hη : F.η ≤ F.u * L) (hbig : 5 * L ≤ F.big) :
    Spec.VNear (V3.smul th x) (V3.smul θ v) (|θ| * d + 7 * (F.u * L)) := by
  obtain ⟨t, ht, hth⟩ := hth
  obtain ⟨w, rfl, hw⟩ := hx
  obtain ⟨th⟩ := th
  cases ht
  have hu := F.u_nonneg
  have hu' := F.u_le
  have uL : F.u * |θ| ≤ F.u * L := mul_le_mul_of_nonneg_left hθ hu
  have tL : |t| ≤ 17 / 16 * L := by
    have h1 := abs_add_le (t - θ) θ
    rw [sub_add_cancel] at h1
    have h2 : F.u * |θ| ≤ 1 / 1024 * L := (mul_le_mul_of_nonneg_right hu' (abs_nonneg _)).trans (by linarith)
    linarith
  have nw : w.norm ≤ 17 / 16 * 1 := by
    have := V3.norm_add_le (w - v) v
    rw [show w - v + v = w by ext <;> simp] at this
    linarith
  have one : ∀ {b : ℝ}, |b| ≤ 17 / 16 * 1 → (of t * of b : Fl F).Near (t * b) (11 / 5 * (F.u * L)) := by
    intro b hb
    have := Near.mulS (F := F) (a := of t) (b := of b) (k := 0) (l := 0) (11 / 5) ((near_of t).mono (by simp)) ((near_of b).mono (by simp)) tL hb hL one_pos
      le_rfl le_rfl (by rwa [mul_one]) (by norm_num) (by linarith)
    rwa [mul_one] at this
  have sc : Spec.VNear (V3.smul (of t) (w.map of) : V3 (Fl F)) (V3.smul t w) (2 * (11 / 5 * (F.u * L))) :=
    vNear_of_entries (one ((V3.abs_x_le w).trans nw)) (one ((V3.abs_y_le w).trans nw)) (one ((V3.abs_z_le w).trans nw))
  obtain ⟨y, hy, hyd⟩ := sc
  refine ⟨y, hy, ?_⟩
  rw [show y - V3.smul θ v = (y - V3.smul t w) + (θ • (w - v) + (t - θ) • w) by ext <;> simp <;> ring]
  have h1 := V3.norm_add_le (y - V3.smul t w) (θ • (w - v) + (t - θ) • w)
  have h2 := V3.norm_add_le (θ • (w - v)) ((t - θ) • w)
  rw [V3.norm_hsmul, V3.norm_hsmul] at h2
  have h3 : |θ| * (w - v).norm ≤ |θ| * d := mul_le_mul_of_nonneg_left hw (abs_nonneg _)
  have h4 : |t - θ| * w.norm ≤ (F.u * L) * (17 / 16) :=
    mul_le_mul (hth.trans uL) (by linarith) w.norm_nonneg (by positivity)
  have : 0 ≤ F.u * L := by positivity
  linarith

/-- One link: `p + R P`. -/
theorem link_near {R' : M3 (Fl F)} {R : M3 ℝ} {p' P' : V3 (Fl F)} {p P : V3 ℝ} {a f L : ℝ} (hR' : Spec.MNear R' R a) (hp' : Spec.VNear p' p f)
    (hP' : Spec.VNear P' P (F.u * P.norm)) (hR : IsRot R) (ha : a ≤ 1 / 16) (hL : p.norm + P.norm ≤ L) (h0 : 0 < L)
    (hη : F.η ≤ F.u * L) (hbig : 5 * L ≤ F.big) (hf : f + a * P.norm + 32 * (F.u * L) ≤ L / 16) :
    Spec.VNear (p' + R'.mulVec P') (p + R.mulVec P) (f + a * P.norm + 37 * (F.u * L)) := by
  have hu := F.u_nonneg
  have hu' := F.u_le
  have np := p.norm_nonneg
  have nP := P.norm_nonneg
  have uP : F.u * P.norm ≤ F.u * L := mul_le_mul_of_nonneg_left (by linarith) hu
  have uL : F.u * P.norm ≤ L / 16 := (mul_le_mul_of_nonneg_right hu' nP).trans (by linarith)
  have m := MNear.mulVec hR' hP' hR ha (by linarith : P.norm ≤ L) uL h0 hη hbig
  have m' := VNear.mono m (e := a * P.norm + 32 * (F.u * L)) (by nlinarith [mul_nonneg hu nP])
  have s := VNear.add (s := L) hp' m' h0 (by
    have := V3.norm_add_le p (R.mulVec P)
    rw [hR.norm_mulVec] at this
    linarith) hη hbig
  exact VNear.mono s (by linarith)

/-- One displacement: `p + θ R h`. -/
theorem slide_near {R' : M3 (Fl F)} {R : M3 ℝ} {p' h' : V3 (Fl F)} {p h : V3 ℝ} {th : Fl F} {θ a f L : ℝ} (hR' : Spec.MNear R' R a)
    (hp' : Spec.VNear p' p f) (hh' : Spec.VNear h' h F.u) (hh : IsUnit3 h) (hth : th.Near θ (F.u * |θ|)) (hR : IsRot R) (ha : a + 32 * F.u ≤ 1 / 16)
    (hL : p.norm + |θ| ≤ L) (h0 : 0 < L) (hη : F.η ≤ F.u * L) (hbig : 5 * L ≤ F.big) (hf : f + a * |θ| + 39 * (F.u * L) ≤ L / 16) :
    Spec.VNear (p' + V3.smul th (R'.mulVec h')) (p + V3.smul θ (R.mulVec h)) (f + a * |θ| + 44 * (F.u * L)) := by
  have hu := F.u_nonneg
  have hu' := F.u_le
  have big := F.big_ge
  have eta := F.η_le
  have np := p.norm_nonneg
  have nh := V3.norm_eq_one hh
  have nt := abs_nonneg θ
  have m := MNear.mulVec (s := 1) hR' hh' hR (by linarith) (by linarith) (by linarith) one_pos (by linarith) (by linarith)
  have m' := VNear.mono m (e := a + 32 * F.u) (by rw [nh]; nlinarith)
  have sm := VNear.smul hth m' (by rw [hR.norm_mulVec, nh]) ha (by linarith : |θ| ≤ L) h0 hη hbig
  have uL : F.u * |θ| ≤ F.u * L := mul_le_mul_of_nonneg_left (by linarith) hu
  have sm' := VNear.mono sm (e := a * |θ| + 39 * (F.u * L)) (by linarith)
  have s := VNear.add (s := L) hp' sm' h0 (by
    have := V3.norm_add_le p (V3.smul θ (R.mulVec h))
    rw [V3.smul_def, V3.norm_hsmul, hR.norm_mulVec, nh] at this
    rw [V3.smul_def]
    linarith) hη hbig
  exact VNear.mono s (by linarith)

theorem travel_nonneg : ∀ (ts : List Nat) (Ps : List (V3 ℝ)) (xs : List ℝ), 0 ≤ Spec.travel ts Ps xs
  | [], _, _ => by simp [Spec.travel]
  | _ :: _, [], _ => by simp [Spec.travel]
  | _ :: _, _ :: _, [] => by simp [Spec.travel]
  | t :: ts, P :: Ps, x :: xs => by
    have := travel_nonneg ts Ps xs
    have := P.norm_nonneg
    simp only [Spec.travel]
    split_ifs <;> positivity

/-- One pass of the loop. -/
theorem fwdStep_near {t : Nat} {R' : M3 (Fl F)} {R : M3 ℝ} {p' h' P' : V3 (Fl F)} {p h P : V3 ℝ} {th : Fl F} {θ a f L : ℝ}
    (hR' : Spec.MNear R' R a) (hp' : Spec.VNear p' p f) (hh' : Spec.VNear h' h F.u) (hh : IsUnit3 h)
    (hP' : Spec.VNear P' P (F.u * P.norm)) (hth : if t = 1 ∨ t = 3 then th.Near θ (F.u * |θ|) else th.Near θ F.u) (hR : IsRot R)
    (ha : a + 256 * F.u ≤ 1 / 16) (hL : p.norm + ((if t = 1 ∨ t = 3 then |θ| else 0) + P.norm) ≤ L) (h0 : 0 < L) (hη : F.η ≤ F.u * L)
    (hbig : 5 * L ≤ F.big)
    (hf : f + (a + 256 * F.u) * ((if t = 1 ∨ t = 3 then |θ| else 0) + P.norm) + 81 * (F.u * L) ≤ L / 16) :
    Spec.MNear (fwdStep t h' P' th (R', p')).1 (fwdStep t h P θ (R, p)).1 (a + 256 * F.u) ∧
    Spec.VNear (fwdStep t h' P' th (R', p')).2 (fwdStep t h P θ (R, p)).2
      (f + (a + 256 * F.u) * ((if t = 1 ∨ t = 3 then |θ| else 0) + P.norm) + 81 * (F.u * L)) ∧
    IsRot (fwdStep t h P θ (R, p)).1 ∧ (fwdStep t h P θ (R, p)).2.norm ≤ p.norm + ((if t = 1 ∨ t = 3 then |θ| else 0) + P.norm) := by
  have hu := F.u_nonneg
  have hu' := F.u_le
  have np := p.norm_nonneg
  have nP := P.norm_nonneg
  have uL : 0 ≤ F.u * L := by positivity
  have a0 : 0 ≤ a := by
    obtain ⟨C, -, hC⟩ := mNear_iff.1 hR'
    exact hC.nonneg
  have aP : a * P.norm ≤ (a + 256 * F.u) * P.norm := mul_le_mul_of_nonneg_right (by linarith) nP
  have aP0 : 0 ≤ a * P.norm := mul_nonneg a0 nP
  simp only [fwdStep]
  by_cases h02 : t = 0 ∨ t = 2
  · have h13 : ¬ (t = 1 ∨ t = 3) := by omega
    rw [if_neg h13] at hth
    simp only [if_neg h13, zero_add] at hL hf ⊢
    simp only [if_pos h02]
    have r := MNear.mul hR' (rot_near hh hh' hth) hR (rot_isRot h hh θ) (by linarith) (by linarith)
    have r' := MNear.mono r (e := a + 256 * F.u) (by nlinarith)
    have hRR := hR.mul (rot_isRot h hh θ)
    refine ⟨r', ?_, hRR, ?_⟩
    · exact VNear.mono (link_near r' hp' hP' hRR ha hL h0 hη hbig (by linarith)) (by linarith)
    · have := V3.norm_add_le p ((R * rot h θ).mulVec P)
      rwa [hRR.norm_mulVec] at this
  · simp only [if_neg h02]
    by_cases h13 : t = 1 ∨ t = 3
    · rw [if_pos h13] at hth
      simp only [if_pos h13] at hL hf ⊢
      have nt := abs_nonneg θ
      have at' : a * |θ| ≤ (a + 256 * F.u) * |θ| := mul_le_mul_of_nonneg_right (by linarith) nt
      have n1 : (p + V3.smul θ (R.mulVec h)).norm ≤ p.norm + |θ| := by
        have := V3.norm_add_le p (V3.smul θ (R.mulVec h))
        rw [V3.smul_def, V3.norm_hsmul, hR.norm_mulVec, V3.norm_eq_one hh, mul_one] at this
        rwa [V3.smul_def]
      have s1 := slide_near hR' hp' hh' hh hth hR (by linarith) (by linarith) h0 hη hbig (by linarith)
      have s2 := link_near hR' s1 hP' hR (by linarith) (by linarith) h0 hη hbig (by linarith)
      refine ⟨MNear.mono hR' (by linarith), VNear.mono s2 (by linarith), hR, ?_⟩
      have := V3.norm_add_le (p + V3.smul θ (R.mulVec h)) (R.mulVec P)
      rw [hR.norm_mulVec] at this
      linarith
    · simp only [if_neg h13, zero_add] at hL hf ⊢
      have s2 := link_near hR' hp' hP' hR (by linarith) hL h0 hη hbig (by linarith)
      refine ⟨MNear.mono hR' (by linarith), VNear.mono s2 (by linarith), hR, ?_⟩
      have := V3.norm_add_le p (R.mulVec P)
      rwa [hR.norm_mulVec] at this

/-- The loop of `fwdkin`. -/
theorem fwdLoop_near {L : ℝ} (h0 : 0 < L) (hη : F.η ≤ F.u * L) (hbig : 5 * L ≤ F.big) :
    ∀ (ts : List Nat) (hs Ps : List (V3 ℝ)) (θs : List ℝ) (hs' Ps' : List (V3 (Fl F))) (θs' : List (Fl F)) (R : M3 ℝ) (p : V3 ℝ)
      (R' : M3 (Fl F)) (p' : V3 (Fl F)) (a f : ℝ) (Rn : M3 ℝ) (pn : V3 ℝ),
      fwdLoop ts hs Ps θs (R, p) = .ok (Rn, pn) →
      List.Forall₂ (fun h' h => IsUnit3 h ∧ Spec.VNear h' h F.u) hs' hs → List.Forall₂ (fun P' P => Spec.VNear P' P (F.u * P.norm)) Ps' Ps →
      Spec.AnglesNear ts θs' θs → Spec.MNear R' R a → Spec.VNear p' p f → IsRot R → a + 256 * ts.length * F.u ≤ 1 / 16 →
      p.norm + Spec.travel ts Ps θs ≤ L →
      f + (a + 256 * ts.length * F.u) * Spec.travel ts Ps θs + 81 * ts.length * (F.u * L) ≤ L / 16 →
      ∃ Rn' pn', fwdLoop ts hs' Ps' θs' (R', p') = .ok (Rn', pn') ∧ Spec.MNear Rn' Rn (a + 256 * ts.length * F.u) ∧
        Spec.VNear pn' pn (f + (a + 256 * ts.length * F.u) * Spec.travel ts Ps θs + 81 * ts.length * (F.u * L)) ∧ IsRot Rn ∧
        pn.norm ≤ p.norm + Spec.travel ts Ps θs := by
  intro ts
  induction ts with
  | nil =>
    intro hs Ps θs hs' Ps' θs' R p R' p' a f Rn pn hl _ _ _ hR' hp' hR _ _ _
    cases hl
    refine ⟨R', p', rfl, ?_, ?_, hR, ?_⟩
    · simpa using hR'
    · simpa [Spec.travel] using hp'
    · simp [Spec.travel]
  | cons t ts ih =>
    intro hs Ps θs hs' Ps' θs' R p R' p' a f Rn pn hl hH hP hθ hR' hp' hR ha hL hf
    obtain _ | ⟨h, hs⟩ := hs
    · cases hl
    obtain _ | ⟨P, Ps⟩ := Ps
    · cases hl
    obtain _ | ⟨θ, θs⟩ := θs
    · cases hl
    obtain _ | ⟨⟨hh, hh'⟩, hH⟩ := hH
    obtain _ | ⟨hP', hP⟩ := hP
    obtain _ | ⟨th, θs'⟩ := θs'
    · cases hθ
    obtain ⟨hth, hθ⟩ := hθ
    simp only [fwdLoop] at hl ⊢
    have hu := F.u_nonneg
    have uL : 0 ≤ F.u * L := by positivity
    have nt := travel_nonneg ts Ps θs
    simp only [List.length_cons, Nat.cast_add, Nat.cast_one, Spec.travel] at ha hL hf ⊢
    set ℓ := (if t = 1 ∨ t = 3 then |θ| else 0) + P.norm with hℓ
    have nℓ : 0 ≤ ℓ := by
      have := P.norm_nonneg
      rw [hℓ]
      split_ifs <;> positivity
    set n : ℝ := (ts.length : ℝ) with hn
    have n0 : 0 ≤ n := Nat.cast_nonneg _
    have nu : 0 ≤ n * F.u := by positivity
    have a0 : 0 ≤ a := by
      obtain ⟨C, -, hC⟩ := mNear_iff.1 hR'
      exact hC.nonneg
    have nuL : 0 ≤ n * (F.u * L) := by positivity
    have e1 : a + 256 * F.u + 256 * n * F.u = a + 256 * (n + 1) * F.u := by ring
    have q1 : (a + 256 * F.u) * ℓ ≤ (a + 256 * (n + 1) * F.u) * ℓ := mul_le_mul_of_nonneg_right (by linarith) nℓ
    have q2 : 0 ≤ (a + 256 * (n + 1) * F.u) * Spec.travel ts Ps θs := mul_nonneg (by rw [← e1]; positivity) nt
    have st := fwdStep_near hR' hp' hh' hh hP' hth hR (L := L) (by linarith) (by linarith) h0 hη hbig (by
      rw [mul_add] at hf
      linarith)
    obtain ⟨s1, s2, s3, s4⟩ := st
    obtain ⟨Rn', pn', k1, k2, k3, k4, k5⟩ := ih hs Ps θs _ _ θs' (fwdStep t h P θ (R, p)).1 (fwdStep t h P θ (R, p)).2 _ _ _ _ Rn pn hl hH hP hθ s1 s2 s3
      (by rw [e1]; exact ha) (by linarith) (by
        rw [e1]
        rw [mul_add] at hf
        linarith)
    refine ⟨Rn', pn', k1, ?_, ?_, k4, by linarith⟩
    · rwa [e1] at k2
    · refine VNear.mono k3 ?_
      rw [e1, mul_add]
      linarith

end Fl
