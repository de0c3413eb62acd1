import Verif.Props.SelfMotion

/-!
# Property C123: two neighbouring joints on one axis act as one
-/
set_option autoImplicit false

/-- Joints `i` and `i + 1` both turn about one line, or both slide in one direction. -/
def Spec.OneAxis (r : Robot ℝ) (i : Nat) : Prop :=
  ∃ t h Q, r.jointType[i]? = some t ∧ r.jointType[i + 1]? = some t ∧ r.H[i]? = some h ∧ r.H[i + 1]? = some h ∧ r.P[i + 1]? = some Q ∧
    (t = 0 ∧ (∃ c : ℝ, Q = V3.smul c h) ∨ t = 1)

/-- joint `i` moved on by `x`, joint `i + 1` moved back by `x` -/
def Spec.trade (i : Nat) (x : ℝ) (θ : List ℝ) : List ℝ := (θ.modify i (· + x)).modify (i + 1) (· - x)

/-! ## Helper lemmas -/

namespace SameAxisL
open SelfMotionL TurnRoundL

theorem two (t : Nat) (h Q P : V3 ℝ) (hh : IsUnit3 h) (ht : t = 0 ∧ (∃ c : ℝ, Q = V3.smul c h) ∨ t = 1) (a b x : ℝ) (Rp : M3 ℝ × V3 ℝ) :
    fwdStep t h P (b - x) (fwdStep t h Q (a + x) Rp) = fwdStep t h P b (fwdStep t h Q a Rp) ∧
    (t = 0 → (fwdStep t h Q (a + x) Rp).2 = (fwdStep t h Q a Rp).2 ∧ ∃ c : ℝ, (fwdStep t h Q a Rp).2 = Rp.2 + V3.smul c (Rp.1.mulVec h)) := by
  rcases ht with ⟨rfl, c, rfl⟩ | rfl
  · have k : ∀ y, (Rp.1 * rot h y).mulVec (V3.smul c h) = V3.smul c (Rp.1.mulVec h) := by
      intro y; rw [M3.mulVec_smul, ← M3.mulVec_mulVec, rot_axis]
    have e : Rp.1 * rot h (a + x) * rot h (b - x) = Rp.1 * rot h a * rot h b := by
      rw [M3.mul_assoc', rot_mul _ hh, M3.mul_assoc', rot_mul _ hh]
      congr 2; ring
    simp only [fwdStep, true_or, if_true, k, e, true_and]
    exact fun _ => ⟨c, rfl⟩
  · refine ⟨?_, fun h => absurd h (by decide)⟩
    simp only [fwdStep, one_ne_zero, OfNat.one_ne_ofNat, or_self, if_false, true_or, if_true]
    refine Prod.ext rfl ?_
    ext <;> simp <;> ring

theorem loop (i : Nat) (ts : List Nat) (hs Ps : List (V3 ℝ)) (θs : List ℝ) (lh : hs.length = ts.length) (lP : Ps.length = ts.length)
    (lθ : θs.length = ts.length) (hu : ∀ h ∈ hs, IsUnit3 h) (t : Nat) (h Q : V3 ℝ) (t1 : ts[i]? = some t) (t2 : ts[i + 1]? = some t)
    (h1 : hs[i]? = some h) (h2 : hs[i + 1]? = some h) (hQ : Ps[i]? = some Q) (ht : t = 0 ∧ (∃ c : ℝ, Q = V3.smul c h) ∨ t = 1) (x : ℝ)
    (Rp : M3 ℝ × V3 ℝ) :
    ∃ fs gs R p, jacLoop ts hs Ps θs Rp = .ok (fs, R, p) ∧ jacLoop ts hs Ps (Spec.trade i x θs) Rp = .ok (gs, R, p) ∧
      fs.map (·.ty) = ts ∧ fs.map sig = gs.map sig ∧ ∀ q, (fs.map fun f => col q (sig f))[i]? = (fs.map fun f => col q (sig f))[i + 1]? := by
  induction i generalizing ts hs Ps θs Rp with
  | zero =>
    obtain _ | ⟨t', _ | ⟨t'', ts⟩⟩ := ts
    · simp at t1
    · simp at t2
    obtain _ | ⟨h', _ | ⟨h'', hs⟩⟩ := hs
    · simp at lh
    · simp at lh
    obtain _ | ⟨Q', _ | ⟨P, Ps⟩⟩ := Ps
    · simp at lP
    · simp at lP
    obtain _ | ⟨a, _ | ⟨b, θs⟩⟩ := θs
    · simp at lθ
    · simp at lθ
    obtain rfl : t' = t := by simpa using t1
    obtain rfl : t'' = t' := by simpa using t2
    obtain rfl : h' = h := by simpa using h1
    obtain rfl : h'' = h' := by simpa using h2
    obtain rfl : Q' = Q := by simpa using hQ
    obtain ⟨w1, w2⟩ := two t'' h'' Q' P (hu _ (by simp)) ht a b x Rp
    obtain ⟨fs, R, p, j1, j2⟩ := jacLoop_ok ts hs Ps θs (by simpa using lh) (by simpa using lP) (by simpa using lθ)
      (fwdStep t'' h'' P b (fwdStep t'' h'' Q' a Rp))
    have et : Spec.trade 0 x (a :: b :: θs) = (a + x) :: (b - x) :: θs := rfl
    refine ⟨⟨t'', Rp.2, (fwdStep t'' h'' Q' a Rp).1.mulVec h'', a⟩ ::
        ⟨t'', (fwdStep t'' h'' Q' a Rp).2, (fwdStep t'' h'' P b (fwdStep t'' h'' Q' a Rp)).1.mulVec h'', b⟩ :: fs,
      ⟨t'', Rp.2, (fwdStep t'' h'' Q' (a + x) Rp).1.mulVec h'', a + x⟩ ::
        ⟨t'', (fwdStep t'' h'' Q' (a + x) Rp).2, (fwdStep t'' h'' P b (fwdStep t'' h'' Q' a Rp)).1.mulVec h'', b - x⟩ :: fs, R, p, ?_, ?_, ?_, ?_, ?_⟩
    · simp only [jacLoop]; rw [j1]; rfl
    · rw [et]; simp only [jacLoop]; rw [w1, j1]; rfl
    · simp [j2]
    · simp only [List.map_cons, sig, axis_kept, List.cons.injEq, and_true, true_and, Prod.mk.injEq]
      split_ifs with h0
      · exact (w2 h0).1.symm
      · rfl
    · intro q
      simp only [List.map_cons, List.getElem?_cons_zero, List.getElem?_cons_succ, sig, axis_kept, Option.some.injEq, col]
      by_cases h0 : t'' = 0
      · obtain ⟨-, c, hc⟩ := w2 h0
        simp only [h0, if_true]
        rw [h0] at hc
        rw [hc]
        congr 1
        ext <;> simp <;> ring
      · simp only [h0, if_false]
        split_ifs <;> rfl
  | succ i ih =>
    obtain _ | ⟨t', ts⟩ := ts
    · simp at t1
    obtain _ | ⟨h', hs⟩ := hs
    · simp at lh
    obtain _ | ⟨P, Ps⟩ := Ps
    · simp at lP
    obtain _ | ⟨a, θs⟩ := θs
    · simp at lθ
    obtain ⟨fs, gs, R, p, e1, e2, e3, e4, e5⟩ := ih ts hs Ps θs (by simpa using lh) (by simpa using lP) (by simpa using lθ)
      (fun y hy => hu y (by simp [hy])) (by simpa using t1) (by simpa using t2) (by simpa using h1) (by simpa using h2) (by simpa using hQ)
      (fwdStep t' h' P a Rp)
    have et : Spec.trade (i + 1) x (a :: θs) = a :: Spec.trade i x θs := rfl
    refine ⟨⟨t', Rp.2, (fwdStep t' h' P a Rp).1.mulVec h', a⟩ :: fs, ⟨t', Rp.2, (fwdStep t' h' P a Rp).1.mulVec h', a⟩ :: gs, R, p,
      ?_, ?_, by simp [e3], by simp [e4], fun q => by simpa using e5 q⟩
    · simp only [jacLoop]; rw [e1]; rfl
    · rw [et]; simp only [jacLoop]; rw [e2]; rfl

theorem both (r : Robot ℝ) (wf : r.WF) (i : Nat) (hi : Spec.OneAxis r i) (θ : List ℝ) (lθ : θ.length = r.H.length) (x : ℝ) :
    ∃ P0 Ps fs gs R p, r.P = P0 :: Ps ∧ jacLoop r.jointType r.H Ps θ (1, P0) = .ok (fs, R, p) ∧
      jacLoop r.jointType r.H Ps (Spec.trade i x θ) (1, P0) = .ok (gs, R, p) ∧ fs.map (·.ty) = r.jointType ∧ fs.map sig = gs.map sig ∧
      ∀ q, (fs.map fun f => col q (sig f))[i]? = (fs.map fun f => col q (sig f))[i + 1]? := by
  obtain ⟨t, h, Q, t1, t2, h1, h2, hQ, ht⟩ := hi
  have lp := wf.columns
  rcases hP : r.P with _ | ⟨P0, Ps⟩
  · simp [hP] at lp
  rw [hP] at lp hQ
  obtain ⟨fs, gs, R, p, e⟩ := loop i r.jointType r.H Ps θ wf.joints.symm (by rw [wf.joints]; simpa using lp) (by rw [lθ, wf.joints]) wf.unit
    t h Q t1 t2 h1 h2 (by simpa using hQ) ht x (1, P0)
  exact ⟨P0, Ps, fs, gs, R, p, rfl, e⟩

end SameAxisL

open SameAxisL TurnRoundL

/-- **C123.** Only the sum of the two joint values enters the pose. -/
theorem C123_fwdkin (r : Robot ℝ) (wf : r.WF) (i : Nat) (hi : Spec.OneAxis r i) (θ : List ℝ) (lθ : θ.length = r.H.length) (x : ℝ) :
    fwdkin r (Spec.trade i x θ) true = fwdkin r θ true := by
  obtain ⟨P0, Ps, fs, gs, R, p, hP, e1, e2, -⟩ := both r wf i hi θ lθ x
  have k1 := (MountL.kin_ok (ig := true) hP (fwd_of_jac _ _ _ _ _ e1) _).2 ⟨rfl, rfl⟩
  have k2 := (MountL.kin_ok (ig := true) hP (fwd_of_jac _ _ _ _ _ e2) _).2 ⟨rfl, rfl⟩
  rw [k1, k2]

/-- **C123.** Only the sum enters the Jacobian, and the columns of the two joints are equal: the Jacobian is singular everywhere.  No joint is of
the mobile type 3. -/
theorem C123_jacobian (r : Robot ℝ) (wf : r.WF) (h3 : ∀ t ∈ r.jointType, t ≠ 3) (i : Nat) (hi : Spec.OneAxis r i) (θ : List ℝ)
    (lθ : θ.length = r.H.length) (x : ℝ) :
    ∃ J, robotjacobian r θ true = .ok J ∧ robotjacobian r (Spec.trade i x θ) true = .ok J ∧ J.length = r.H.length ∧ J[i]? = J[i + 1]? := by
  obtain ⟨P0, Ps, fs, gs, R, p, hP, e1, e2, e3, e4, e5⟩ := both r wf i hi θ lθ x
  have hty : fs.map (·.ty) = gs.map (·.ty) := by
    have := congrArg (List.map Prod.fst) e4
    simpa [sig, Function.comp_def] using this
  have n1 : ∀ f ∈ fs, f.ty ≠ 3 := fun f hf => h3 f.ty (by rw [← e3]; exact List.mem_map_of_mem hf)
  have n2 : ∀ f ∈ gs, f.ty ≠ 3 := fun f hf => h3 f.ty (by rw [← e3, hty]; exact List.mem_map_of_mem hf)
  have c1 := cols_eq (p + R.mulVec (auxF r).p + (R * (auxF r).R).mulVec (auxX r).p) fs n1
  have c2 := cols_eq (p + R.mulVec (auxF r).p + (R * (auxF r).R).mulVec (auxX r).p) gs n2
  have ec : ∀ q, gs.map (fun f => col q (sig f)) = fs.map fun f => col q (sig f) := by
    intro q
    have := congrArg (List.map (col q)) e4
    simpa [Function.comp_def] using this.symm
  rw [ec] at c2
  refine ⟨_, MountL.jac_eq wf.toolBoth hP e1 c1, MountL.jac_eq wf.toolBoth hP e2 c2, ?_, ?_⟩
  · have := congrArg List.length e3
    simp only [List.length_map] at this ⊢
    rw [this, wf.joints]
  · have e := e5 (p + R.mulVec (auxF r).p + (R * (auxF r).R).mulVec (auxX r).p)
    generalize List.map (fun f => col _ (sig f)) fs = L at e ⊢
    rw [List.getElem?_map, List.getElem?_map, e]

/-- The second and third joint of this robot turn about the same line; the configurations differ. -/
example : ∃ (r : Robot ℝ) (θ : List ℝ), r.WF ∧ (∀ t ∈ r.jointType, t ≠ 3) ∧ Spec.OneAxis r 1 ∧ θ.length = r.H.length ∧
    Spec.trade 1 5 θ = [1, 7, -2] := by
  refine ⟨{ H := [V3.ex, V3.ez, V3.ez], P := [0, V3.ex, V3.smul 4 V3.ez, V3.ex], jointType := [1, 0, 0] }, [1, 2, 3],
    ⟨rfl, rfl, by simp, by simp [IsUnit3], by simp, by simp, by simp, by simp⟩, by simp,
    ⟨0, V3.ez, V3.smul 4 V3.ez, rfl, rfl, rfl, rfl, rfl, .inl ⟨rfl, 4, rfl⟩⟩, rfl, ?_⟩
  simp only [Spec.trade, List.modify_succ_cons, List.modify_zero_cons, List.cons.injEq, and_true, true_and]
  norm_num
