import Verif.Lemmas.Deriv
import Verif.Lemmas.Rot

/-! # Kinematic chains: the loops of `fwdkin` and `robotjacobian` -/
set_option autoImplicit false

namespace Transform
@[simp] theorem mul_R (A B : Transform ℝ) : (A * B).R = A.R * B.R := rfl
@[simp] theorem mul_p (A B : Transform ℝ) : (A * B).p = A.p + A.R.mulVec B.p := rfl
@[simp] theorem mul_parent (A B : Transform ℝ) : (A * B).parent = A.parent := rfl
@[simp] theorem mul_child (A B : Transform ℝ) : (A * B).child = B.child := rfl
end Transform

/-- Rotary joint types. -/
abbrev IsRotary (t : Nat) : Prop := t = 0 ∨ t = 2
/-- Prismatic joint types. -/
abbrev IsPrismatic (t : Nat) : Prop := t = 1 ∨ t = 3

theorem fwdStep_rotary {t : Nat} (ht : IsRotary t) (h P : V3 ℝ) (th : ℝ) (R : M3 ℝ) (p : V3 ℝ) :
    fwdStep t h P th (R, p) = (R * rot h th, p + (R * rot h th).mulVec P) := by
  unfold fwdStep; rw [if_pos ht]

theorem fwdStep_prismatic {t : Nat} (ht : IsPrismatic t) (h P : V3 ℝ) (th : ℝ) (R : M3 ℝ) (p : V3 ℝ) :
    fwdStep t h P th (R, p) = (R, p + V3.smul th (R.mulVec h) + R.mulVec P) := by
  unfold fwdStep; rw [if_neg (by omega), if_pos ht]

/-- `R hat(h) = hat(R h) R` for rotations. -/
theorem IsRot.mul_hat {R : M3 ℝ} (hR : IsRot R) (h : V3 ℝ) : R * hat h = hat (R.mulVec h) * R := by
  have e := hR.transpose_eq_adj
  simp [M3.ext_iff, M3.adj] at e
  obtain ⟨c1, c2, c3, c4, c5, c6, c7, c8, c9⟩ := e
  have e := hR.orth'
  simp [M3.ext_iff] at e
  obtain ⟨d1, d2, d3, d4, d5, d6, d7, d8, d9⟩ := e
  ext <;> simp <;> grind

theorem hat_add (a b : V3 ℝ) : hat (a + b) = hat a + hat b := by ext <;> simp <;> ring
theorem hat_hsmul (c : ℝ) (a : V3 ℝ) : hat (c • a) = M3.smul c (hat a) := by ext <;> simp

theorem IsRot.mulVec_cross {R : M3 ℝ} (hR : IsRot R) (a b : V3 ℝ) :
    R.mulVec (a.cross b) = (R.mulVec a).cross (R.mulVec b) := by
  rw [← hat_mulVec, M3.mulVec_mulVec, hR.mul_hat, ← M3.mulVec_mulVec, hat_mulVec]

/-- Angular velocity contributed by the recorded joints moving with the given rates. -/
noncomputable def sumW : List (JointFrame ℝ) → List ℝ → V3 ℝ
  | f :: fs, d :: ds => (if IsRotary f.ty then d • f.h else 0) + sumW fs ds
  | _, _ => 0

/-- Velocity at the origin contributed by the recorded joints moving with the given rates. -/
noncomputable def sumU : List (JointFrame ℝ) → List ℝ → V3 ℝ
  | f :: fs, d :: ds => (if IsRotary f.ty then d • (f.pO.cross f.h) else if IsPrismatic f.ty then d • f.h else 0)
      + sumU fs ds
  | _, _ => 0

theorem V3.cross_smul' (c : ℝ) (a b : V3 ℝ) : a.cross (c • b) = c • a.cross b := by ext <;> simp <;> ring

/-- Differentiating both loops along joint trajectories `θs` with rates `ds`. -/
theorem loops_deriv (ts : List Nat) (hs Ps : List (V3 ℝ)) (θs : List (ℝ → ℝ)) (ds : List ℝ) (t : ℝ)
    (lh : hs.length = ts.length) (lP : Ps.length = ts.length) (hd : List.Forall₂ (fun f d => HasDerivAt f d t) θs ds)
    (lθ : θs.length = ts.length) (hu : ∀ h ∈ hs, IsUnit3 h) (ht : ∀ t ∈ ts, t < 4)
    (R : ℝ → M3 ℝ) (p : ℝ → V3 ℝ) (hR0 : IsRot (R t)) (w u : V3 ℝ)
    (hR : HasDerivM3 R (hat w * R t) t) (hp : HasDerivV3 p (u + w.cross (p t)) t) :
    ∃ (Rn : ℝ → M3 ℝ) (pn : ℝ → V3 ℝ) (fs : List (JointFrame ℝ)),
      (∀ s, fwdLoop ts hs Ps (θs.map (· s)) (R s, p s) = .ok (Rn s, pn s)) ∧
      jacLoop ts hs Ps (θs.map (· t)) (R t, p t) = .ok (fs, Rn t, pn t) ∧ IsRot (Rn t) ∧
      fs.map (·.ty) = ts ∧ fs.map (·.th) = θs.map (· t) ∧
      HasDerivM3 Rn (hat (w + sumW fs ds) * Rn t) t ∧
      HasDerivV3 pn (u + sumU fs ds + (w + sumW fs ds).cross (pn t)) t := by
  induction ts generalizing hs Ps θs ds R p w u with
  | nil =>
    refine ⟨R, p, [], fun s => rfl, rfl, hR0, rfl, ?_, ?_, ?_⟩
    · have e : θs = [] := List.eq_nil_of_length_eq_zero (by simpa using lθ)
      rw [e]; rfl
    · simpa [sumW] using hR
    · simpa [sumW, sumU] using hp
  | cons ty ts ih =>
    obtain _ | ⟨h, hs⟩ := hs
    · simp at lh
    obtain _ | ⟨P, Ps⟩ := Ps
    · simp at lP
    obtain _ | ⟨θ, θs⟩ := θs
    · simp at lθ
    obtain _ | ⟨d, ds⟩ := ds
    · cases hd
    obtain ⟨hθ, hd⟩ := List.forall₂_cons.1 hd
    have hty := ht ty (by simp)
    have hh := hu h (by simp)
    have key : ∀ (R1 : ℝ → M3 ℝ) (p1 : ℝ → V3 ℝ) (w1 u1 : V3 ℝ),
        (∀ s, fwdStep ty h P (θ s) (R s, p s) = (R1 s, p1 s)) → IsRot (R1 t) →
        HasDerivM3 R1 (hat w1 * R1 t) t → HasDerivV3 p1 (u1 + w1.cross (p1 t)) t →
        (w1 = w + (if IsRotary ty then d • ((R1 t).mulVec h) else 0)) →
        (u1 = u + (if IsRotary ty then d • ((p t).cross ((R1 t).mulVec h)) else
          if IsPrismatic ty then d • (R1 t).mulVec h else 0)) →
      ∃ (Rn : ℝ → M3 ℝ) (pn : ℝ → V3 ℝ) (fs : List (JointFrame ℝ)),
        (∀ s, fwdLoop (ty :: ts) (h :: hs) (P :: Ps) ((θ :: θs).map (· s)) (R s, p s) = .ok (Rn s, pn s)) ∧
        jacLoop (ty :: ts) (h :: hs) (P :: Ps) ((θ :: θs).map (· t)) (R t, p t) = .ok (fs, Rn t, pn t) ∧
        IsRot (Rn t) ∧ fs.map (·.ty) = ty :: ts ∧ fs.map (·.th) = (θ :: θs).map (· t) ∧
        HasDerivM3 Rn (hat (w + sumW fs (d :: ds)) * Rn t) t ∧
        HasDerivV3 pn (u + sumU fs (d :: ds) + (w + sumW fs (d :: ds)).cross (pn t)) t := by
      intro R1 p1 w1 u1 hstep hR1 hdR hdp hw hu1
      obtain ⟨Rn, pn, fs, e1, e2, e3, e4, e5, e6, e7⟩ := ih hs Ps θs ds (by simpa using lh) (by simpa using lP) hd
        (by simpa using lθ) (fun x hx => hu x (by simp [hx])) (fun x hx => ht x (by simp [hx])) R1 p1 hR1 w1 u1 hdR hdp
      refine ⟨Rn, pn, ⟨ty, p t, (R1 t).mulVec h, θ t⟩ :: fs, fun s => ?_, ?_, e3, ?_, ?_, ?_, ?_⟩
      · simp only [List.map_cons, fwdLoop, hstep s, e1 s]
      · simp only [List.map_cons, jacLoop, hstep t, e2]; rfl
      · simp [e4]
      · simp [e5]
      · refine e6.congr_deriv ?_
        simp only [sumW, hw]; rw [add_assoc]
      · refine e7.congr_deriv ?_
        simp only [sumW, sumU, hw, hu1, add_assoc]
    by_cases hr : IsRotary ty
    · have hdrot : HasDerivM3 (fun s => rot h (θ s)) (M3.smul d (hat h * rot h (θ t))) t := by
        have h1 := hasDeriv_rot h hh (θ t)
        constructor
        · exact (h1.d00.comp t hθ).congr_deriv (by simp only [M3.smul_00]; ring)
        · exact (h1.d01.comp t hθ).congr_deriv (by simp only [M3.smul_01]; ring)
        · exact (h1.d02.comp t hθ).congr_deriv (by simp only [M3.smul_02]; ring)
        · exact (h1.d10.comp t hθ).congr_deriv (by simp only [M3.smul_10]; ring)
        · exact (h1.d11.comp t hθ).congr_deriv (by simp only [M3.smul_11]; ring)
        · exact (h1.d12.comp t hθ).congr_deriv (by simp only [M3.smul_12]; ring)
        · exact (h1.d20.comp t hθ).congr_deriv (by simp only [M3.smul_20]; ring)
        · exact (h1.d21.comp t hθ).congr_deriv (by simp only [M3.smul_21]; ring)
        · exact (h1.d22.comp t hθ).congr_deriv (by simp only [M3.smul_22]; ring)
      have hax : (R t * rot h (θ t)).mulVec h = (R t).mulVec h := by
        rw [← M3.mulVec_mulVec, rot_axis]
      have hdR : HasDerivM3 (fun s => R s * rot h (θ s))
          (hat (w + d • (R t * rot h (θ t)).mulVec h) * (R t * rot h (θ t))) t := by
        refine (hR.mul hdrot).congr_deriv ?_
        rw [hax, hat_add, hat_hsmul, M3.add_mul', M3.mul_assoc']
        congr 1
        have := hR0.mul_hat h
        have e : M3.smul d (hat ((R t).mulVec h)) * (R t * rot h (θ t)) =
            M3.smul d ((hat ((R t).mulVec h) * R t) * rot h (θ t)) := by
          rw [M3.mul_assoc']; ext <;> simp only [M3.mul_00, M3.mul_01, M3.mul_02, M3.mul_10, M3.mul_11, M3.mul_12, M3.mul_20, M3.mul_21, M3.mul_22, M3.smul_00, M3.smul_01, M3.smul_02, M3.smul_10, M3.smul_11, M3.smul_12, M3.smul_20, M3.smul_21, M3.smul_22] <;> ring
        rw [e, ← this, M3.mul_assoc']
        ext <;> simp only [M3.mul_00, M3.mul_01, M3.mul_02, M3.mul_10, M3.mul_11, M3.mul_12, M3.mul_20, M3.mul_21, M3.mul_22, M3.smul_00, M3.smul_01, M3.smul_02, M3.smul_10, M3.smul_11, M3.smul_12, M3.smul_20, M3.smul_21, M3.smul_22] <;> ring
      refine key (fun s => R s * rot h (θ s)) (fun s => p s + (R s * rot h (θ s)).mulVec P) _ _
        (fun s => fwdStep_rotary hr _ _ _ _ _) (hR0.mul (rot_isRot h hh _)) hdR ?_ (by rw [if_pos hr]) (by rw [if_pos hr])
      refine (hp.add (hdR.mulVec (HasDerivV3.const P t))).congr_deriv ?_
      rw [← M3.mulVec_mulVec, hat_mulVec, M3.mulVec_zero, add_zero, hax]
      ext <;> simp only [V3.add_x, V3.add_y, V3.add_z, V3.cross_x, V3.cross_y, V3.cross_z, V3.hsmul_x, V3.hsmul_y, V3.hsmul_z] <;> ring
    · have hpr : IsPrismatic ty := by unfold IsRotary at hr; unfold IsPrismatic; omega
      refine key R (fun s => p s + V3.smul (θ s) ((R s).mulVec h) + (R s).mulVec P) w _
        (fun s => fwdStep_prismatic hpr _ _ _ _ _) hR0 hR ?_ (by rw [if_neg hr, add_zero])
        (by rw [if_neg hr, if_pos hpr])
      refine ((hp.add (HasDerivV3.smul hθ (hR.mulVec (HasDerivV3.const h t)))).add
        (hR.mulVec (HasDerivV3.const P t))).congr_deriv ?_
      rw [← M3.mulVec_mulVec, ← M3.mulVec_mulVec, hat_mulVec, hat_mulVec, M3.mulVec_zero]
      ext <;> simp only [V3.add_x, V3.add_y, V3.add_z, V3.cross_x, V3.cross_y, V3.cross_z, V3.hsmul_x, V3.hsmul_y, V3.hsmul_z, V3.smul_x, V3.smul_y, V3.smul_z, V3.zero_x, V3.zero_y, V3.zero_z] <;> ring

/-! ## Auxiliary transforms -/

/-- Flange transform, identity if absent. -/
def auxF (robot : Robot ℝ) : Transform ℝ := robot.Tflange.getD identityTransform
/-- Tool transform, identity unless both parts are present. -/
def auxX (robot : Robot ℝ) : Transform ℝ :=
  match robot.Rtool, robot.ptool with
  | some R, some p => ⟨R, p, none, none⟩
  | _, _ => identityTransform
/-- Base transform, identity if absent. -/
def auxB (robot : Robot ℝ) : Transform ℝ := robot.Tbase.getD identityTransform

theorem applyAux_R (robot : Robot ℝ) (T : Transform ℝ) :
    (applyAux robot T).R = (auxB robot).R * (T.R * (auxF robot).R * (auxX robot).R) := by
  rcases robot with ⟨_, _, _, _, _, _, _, _, R, p, _, _, _, F, B, _⟩
  rcases B with _ | B <;> rcases F with _ | F <;> rcases R with _ | R <;> rcases p with _ | p <;>
    simp [applyAux, auxB, auxF, auxX, identityTransform]

theorem applyAux_p (robot : Robot ℝ) (T : Transform ℝ) :
    (applyAux robot T).p = (auxB robot).p + (auxB robot).R.mulVec
      (T.p + T.R.mulVec (auxF robot).p + (T.R * (auxF robot).R).mulVec (auxX robot).p) := by
  rcases robot with ⟨_, _, _, _, _, _, _, _, R, p, _, _, _, F, B, _⟩
  rcases B with _ | B <;> rcases F with _ | F <;> rcases R with _ | R <;> rcases p with _ | p <;>
    simp [applyAux, auxB, auxF, auxX, identityTransform]

/-! ## Columns of the Jacobian -/

/-- `J[0:3,:] @ rates` -/
noncomputable def sumTop : List (V6 ℝ) → List ℝ → V3 ℝ
  | c :: cs, d :: ds => d • c.top + sumTop cs ds
  | _, _ => 0
/-- `J[3:6,:] @ rates` -/
noncomputable def sumBot : List (V6 ℝ) → List ℝ → V3 ℝ
  | c :: cs, d :: ds => d • c.bot + sumBot cs ds
  | _, _ => 0

theorem V3.add_cross (a b c : V3 ℝ) : (a + b).cross c = a.cross c + b.cross c := by ext <;> simp <;> ring

theorem jacCols_serial (pOT : V3 ℝ) (fs : List (JointFrame ℝ)) (hty : ∀ f ∈ fs, f.ty = 0 ∨ f.ty = 1) :
    ∃ cols, jacCols pOT fs = .ok cols ∧ cols.length = fs.length ∧
      ∀ ds : List ℝ, ds.length = fs.length → sumTop cols ds = sumW fs ds ∧
        sumBot cols ds = sumU fs ds + (sumW fs ds).cross pOT := by
  induction fs with
  | nil => exact ⟨[], rfl, rfl, fun ds _ => by simp [sumTop, sumBot, sumW, sumU]; ext <;> simp⟩
  | cons f fs ih =>
    obtain ⟨cols, e1, e2, e3⟩ := ih (fun g hg => hty g (by simp [hg]))
    rcases hty f (by simp) with h0 | h1
    · refine ⟨⟨f.h, (hat f.h).mulVec (pOT - f.pO)⟩ :: cols, ?_, by simp [e2], ?_⟩
      · rw [jacCols.eq_def]; simp only [h0, if_true, e1]; rfl
      · intro ds hl
        obtain _ | ⟨d, ds⟩ := ds
        · simp at hl
        obtain ⟨i1, i2⟩ := e3 ds (by simpa using hl)
        have hr : IsRotary f.ty := Or.inl h0
        refine ⟨?_, ?_⟩
        · simp only [sumTop, sumW, if_pos hr, i1]
        · simp only [sumBot, sumW, sumU, if_pos hr, i2, hat_mulVec, V3.add_cross]
          ext <;> simp <;> ring
    · refine ⟨⟨0, f.h⟩ :: cols, ?_, by simp [e2], ?_⟩
      · rw [jacCols.eq_def]; simp only [h1, one_ne_zero, if_true, if_false, e1]; rfl
      · intro ds hl
        obtain _ | ⟨d, ds⟩ := ds
        · simp at hl
        obtain ⟨i1, i2⟩ := e3 ds (by simpa using hl)
        have hr : ¬ IsRotary f.ty := by unfold IsRotary; omega
        have hp : IsPrismatic f.ty := Or.inl h1
        refine ⟨?_, ?_⟩
        · simp only [sumTop, sumW, if_neg hr, i1, smul_zero]
        · simp only [sumBot, sumW, sumU, if_neg hr, if_pos hp, i2, zero_add, add_assoc]

theorem sumTop_map (R : M3 ℝ) (cols : List (V6 ℝ)) (ds : List ℝ) :
    sumTop (cols.map fun c => ⟨R.mulVec c.top, R.mulVec c.bot⟩) ds = R.mulVec (sumTop cols ds) := by
  induction cols generalizing ds with
  | nil => simp [sumTop]
  | cons c cs ih => cases ds with
    | nil => simp [sumTop]
    | cons d ds => simp [sumTop, ih, M3.mulVec_add, M3.mulVec_hsmul]

theorem sumBot_map (R : M3 ℝ) (cols : List (V6 ℝ)) (ds : List ℝ) :
    sumBot (cols.map fun c => ⟨R.mulVec c.top, R.mulVec c.bot⟩) ds = R.mulVec (sumBot cols ds) := by
  induction cols generalizing ds with
  | nil => simp [sumBot]
  | cons c cs ih => cases ds with
    | nil => simp [sumBot]
    | cons d ds => simp [sumBot, ih, M3.mulVec_add, M3.mulVec_hsmul]

/-- Rigid motion of the end of the chain carried over to the tool frame of `fwdkin`. -/
theorem applyAux_deriv (robot : Robot ℝ) (hB : IsRot (auxB robot).R) (Rn : ℝ → M3 ℝ) (pn : ℝ → V3 ℝ) (t : ℝ) (w u : V3 ℝ)
    (hR : HasDerivM3 Rn (hat w * Rn t) t) (hp : HasDerivV3 pn (u + w.cross (pn t)) t) :
    let pOT := pn t + (Rn t).mulVec (auxF robot).p + (Rn t * (auxF robot).R).mulVec (auxX robot).p
    HasDerivM3 (fun s => (applyAux robot ⟨Rn s, pn s, none, none⟩).R)
      (hat ((auxB robot).R.mulVec w) * (applyAux robot ⟨Rn t, pn t, none, none⟩).R) t ∧
    HasDerivV3 (fun s => (applyAux robot ⟨Rn s, pn s, none, none⟩).p)
      ((auxB robot).R.mulVec (u + w.cross pOT)) t := by
  intro pOT
  simp only [applyAux_R, applyAux_p]
  constructor
  · refine ((HasDerivM3.const (auxB robot).R t).mul ((hR.mul (HasDerivM3.const (auxF robot).R t)).mul
      (HasDerivM3.const (auxX robot).R t))).congr_deriv ?_
    rw [← M3.mul_assoc' (hat ((auxB robot).R.mulVec w)), ← hB.mul_hat]
    simp only [M3.mul_assoc']
    ext <;> simp only [M3.mul_00, M3.mul_01, M3.mul_02, M3.mul_10, M3.mul_11, M3.mul_12, M3.mul_20, M3.mul_21, M3.mul_22, M3.add_00, M3.add_01, M3.add_02, M3.add_10, M3.add_11, M3.add_12, M3.add_20, M3.add_21, M3.add_22, M3.zero_00, M3.zero_01, M3.zero_02, M3.zero_10, M3.zero_11, M3.zero_12, M3.zero_20, M3.zero_21, M3.zero_22] <;> ring
  · refine ((HasDerivV3.const (auxB robot).p t).add ((HasDerivM3.const (auxB robot).R t).mulVec
      ((hp.add (hR.mulVec (HasDerivV3.const (auxF robot).p t))).add
        ((hR.mul (HasDerivM3.const (auxF robot).R t)).mulVec (HasDerivV3.const (auxX robot).p t))))).congr_deriv ?_
    have e : (hat w * Rn t * (auxF robot).R).mulVec (auxX robot).p = w.cross ((Rn t * (auxF robot).R).mulVec (auxX robot).p) := by
      rw [M3.mul_assoc', ← M3.mulVec_mulVec, hat_mulVec]
    have e0 : Rn t * (0 : M3 ℝ) = 0 := by ext <;> simp
    have e1 : ∀ A : M3 ℝ, A + 0 = A := fun A => by ext <;> simp
    have e2 : (hat w * Rn t).mulVec (auxF robot).p = w.cross ((Rn t).mulVec (auxF robot).p) := by
      rw [← M3.mulVec_mulVec, hat_mulVec]
    rw [e0, e1, e, e2]
    simp only [M3.mulVec_zero, M3.zero_mulVec, zero_add, add_zero]
    congr 1
    simp only [pOT]
    ext <;> simp <;> ring
