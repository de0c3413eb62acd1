import Verif.Props.Rezero
import Verif.Props.Iter

/-!
# Property C114, continued: the iterative solver and the choice of the zero position

On the `XReal` instance, like C40 and C41.
-/
set_option autoImplicit false

namespace RezeroL

theorem body (pinv : Pinv XReal) (r : Robot ℝ) (wf : r.WF) (ht : ∀ t ∈ r.jointType, t ≠ 3) (c x : List ℝ) (lc : c.length = r.H.length)
    (lx : x.length = r.H.length) (hl : ∀ l, r.lower = some l → l.length = r.H.length)
    (hu : ∀ u, r.upper = some u → u.length = r.H.length) (T : Transform XReal) (Kp KR : M3 XReal) :
    iterBody pinv (Spec.rezero r c).up T Kp KR (x.map .fin) = iterBody pinv r.up T Kp KR ((List.zipWith (· + ·) c x).map .fin) := by
  simp only [iterBody, fwdkin_up, robotjacobian_up, C114_fwdkin r wf c x lc lx hl hu, C114_jacobian r wf ht c x lc lx hl hu]

theorem shift_sub (c x d : List ℝ) (h : c.length = x.length) :
    List.zipWith (· - ·) (List.zipWith (· + ·) c x) d = List.zipWith (· + ·) c (List.zipWith (· - ·) x d) := by
  induction c generalizing x d with
  | nil => simp
  | cons a c ih =>
    obtain _ | ⟨b, x⟩ := x
    · simp at h
    obtain _ | ⟨e, d⟩ := d
    · simp
    · simp [ih x d (by simpa using h), add_sub_assoc]

theorem loop (pinv : Pinv XReal) (hpinv : Spec.finitePinv pinv) (r : Robot ℝ) (wf : r.WF) (ht : ∀ t ∈ r.jointType, t ≠ 3) (c : List ℝ)
    (lc : c.length = r.H.length) (hl : ∀ l, r.lower = some l → l.length = r.H.length)
    (hu : ∀ u, r.upper = some u → u.length = r.H.length) (T : Transform ℝ) (hT : IsRot T.R) (Kp KR : M3 ℝ) (tol : XReal) (fuel : Nat)
    (x : List ℝ) (lx : x.length = r.H.length) :
    (∃ e, iterLoop pinv (Spec.rezero r c).up T.up Kp.up KR.up tol fuel (x.map .fin) = .error e ∧
      iterLoop pinv r.up T.up Kp.up KR.up tol fuel ((List.zipWith (· + ·) c x).map .fin) = .error e) ∨
    ∃ b y, y.length = r.H.length ∧ iterLoop pinv (Spec.rezero r c).up T.up Kp.up KR.up tol fuel (x.map .fin) = .ok (b, y.map .fin) ∧
      iterLoop pinv r.up T.up Kp.up KR.up tol fuel ((List.zipWith (· + ·) c x).map .fin) =
        .ok (b, (List.zipWith (· + ·) c y).map .fin) := by
  induction fuel generalizing x with
  | zero => exact .inr ⟨false, x, lx, rfl, rfl⟩
  | succ fuel ih =>
    simp only [iterLoop]
    rw [body pinv r wf ht c x lc lx hl hu]
    have lz : (List.zipWith (· + ·) c x).length = r.H.length := by simp [lc, lx]
    cases hb : iterBody pinv r.up T.up Kp.up KR.up ((List.zipWith (· + ·) c x).map .fin) with
    | error e => exact .inl ⟨e, rfl, rfl⟩
    | ok st =>
      obtain ⟨C, hC, hR⟩ := fwdkin_rigid r wf _ lz
      obtain ⟨k, θ, δ, _, _, _, _, hδ⟩ := iterBody_eval pinv hpinv r T C Kp KR _ hC hR hT st hb
      simp only [Except.bind_ok]
      by_cases hd : iterDone st tol = true
      · rw [if_pos hd, if_pos hd]
        exact .inr ⟨true, x, lx, rfl, rfl⟩
      rw [if_neg hd, if_neg hd, hδ]
      simp only [List.length_map]
      rw [lz, lx]
      by_cases hn : δ.length = r.H.length
      · rw [if_pos hn, if_pos hn, zipWith_fin, zipWith_fin, shift_sub c x δ (by omega)]
        exact ih _ (by simp [lx, hn])
      · rw [if_neg hn, if_neg hn]
        exact .inl ⟨.value, rfl, rfl⟩

/-- The turns added by the normalization depend on the difference of the joint values only. -/
theorem turns_fun : ∃ f : ℝ → ℝ → ℤ, (∀ s x, normLast none (XReal.fin s) (.fin x) = .ok (.fin (x + f s x * (2 * Real.pi)))) ∧
    ∀ c s x, f (c + s) (c + x) = f s x := by
  choose f hf1 hf2 using turns_eval
  refine ⟨f, fun s x => ?_, fun c s x => ?_⟩
  · simp only [normLast, hf1, XReal.abs_fin, XReal.zero_def, XReal.fin_lt, twoPi_fin, XReal.fin_mul, XReal.fin_add]
    split_ifs with h
    · rw [mul_comm]
    · have : (f s x : ℝ) = 0 := by simpa using h
      rw [this]; simp
  · have e : turns (XReal.fin (c + s)) (XReal.fin (c + x)) = turns (XReal.fin s) (XReal.fin x) := by
      simp only [turns, XReal.fin_sub, add_sub_add_left_eq_sub]
    rw [hf1, hf1] at e
    simpa using e

theorem call_fun {f : ℝ → ℝ → ℤ} (hf : ∀ s x, normLast none (XReal.fin s) (.fin x) = .ok (.fin (x + f s x * (2 * Real.pi))))
    (seed q : List ℝ) (n : Nat) (ls : seed.length = n) (lq : q.length = n) :
    (⟨none, some (seed.map .fin)⟩ : Normalizer XReal).callV (List.range n) [q.map .fin] =
      .ok [(List.zipWith (fun s x => x + f s x * (2 * Real.pi)) seed q).map .fin] := by
  have hnorm : ∀ i (h1 : i < seed.length) (x : ℝ), (⟨none, some (seed.map .fin)⟩ : Normalizer XReal).normalize i (.fin x) =
      .ok (some (.fin (x + f seed[i] x * (2 * Real.pi)))) := by
    intro i h1 x
    have e : getI (seed.map XReal.fin) i = .ok (.fin seed[i]) := getI_some (by simp [h1])
    simp [Normalizer.normalize, e, hf]
  have hmap : ((List.range n).zip (q.map XReal.fin)).mapM (fun jt => (⟨none, some (seed.map .fin)⟩ : Normalizer XReal).normalize jt.1 jt.2) =
      .ok ((List.zipWith (fun s x => x + f s x * (2 * Real.pi)) seed q).map fun y => some (XReal.fin y)) := by
    apply mapM_of_forall₂
    rw [List.forall₂_iff_get]
    refine ⟨by simp [ls, lq], fun i h1 h2 => ?_⟩
    have hi : i < n := by simpa [lq] using h1
    simp only [List.get_eq_getElem, List.getElem_zip, List.getElem_range, List.getElem_map, List.getElem_zipWith]
    exact hnorm i (by omega) _
  have hall : ((List.zipWith (fun s x => x + f s x * (2 * Real.pi)) seed q).map
      fun y => some (XReal.fin y)).all Option.isSome = true := by
    rw [List.all_map]; simp only [Function.comp_def, Option.isSome_some, List.all_eq_true, implies_true]
  have hfm : ∀ l : List ℝ, (l.map fun y => some (XReal.fin y)).filterMap id = l.map .fin := by
    intro l; induction l with
    | nil => rfl
    | cons a l ih => simp [ih]
  simp only [Normalizer.callV, mapM_cons', mapM_nil', hmap, Except.bind_ok, Except.pure_eq, hall, if_true, hfm]
  simp

theorem norm_shift {f : ℝ → ℝ → ℤ} (hf : ∀ c s x, f (c + s) (c + x) = f s x) (c s y : List ℝ) (ls : s.length = c.length)
    (ly : y.length = c.length) :
    List.zipWith (· - ·) (List.zipWith (fun s x => x + f s x * (2 * Real.pi)) (List.zipWith (· + ·) c s) (List.zipWith (· + ·) c y)) c =
      List.zipWith (fun s x => x + f s x * (2 * Real.pi)) s y := by
  induction c generalizing s y with
  | nil =>
    have h0 : s = [] := by simpa using ls
    simp [h0]
  | cons a c ih =>
    obtain _ | ⟨b, s⟩ := s
    · simp at ls
    obtain _ | ⟨d, y⟩ := y
    · simp at ly
    simp only [List.zipWith_cons_cons, hf, ih s y (by simpa using ls) (by simpa using ly), List.cons.injEq, and_true]
    ring

end RezeroL

open RezeroL

/-- **C114.** `iterative_invkin` on the robot described from `c`, with the seed counted from `c`, goes through the same poses: it reports
convergence, raises an exception or returns a joint vector exactly as on the robot itself, the joint vector counted from `c`.  All gains,
tolerances and numbers of steps; `pinv` is `np.linalg.pinv`, of which only finite entries are required. -/
theorem C114_iterative (pinv : Pinv XReal) (hpinv : Spec.finitePinv pinv) (r : Robot ℝ) (wf : r.WF) (ht : ∀ t ∈ r.jointType, t ≠ 3)
    (c seed : List ℝ) (lc : c.length = r.H.length) (ls : seed.length = r.H.length)
    (hl : ∀ l, r.lower = some l → l.length = r.H.length) (hu : ∀ u, r.upper = some u → u.length = r.H.length)
    (T : Transform ℝ) (hT : IsRot T.R) (Kp KR : M3 ℝ) (tol : XReal) (maxSteps : Int) :
    iterative_invkin pinv (Spec.rezero r c).up T.up (seed.map .fin) maxSteps Kp.up KR.up tol =
      (iterative_invkin pinv r.up T.up ((List.zipWith (· + ·) c seed).map .fin) maxSteps Kp.up KR.up tol).map
        fun z => (z.1, z.2.map fun q => List.zipWith (· - ·) q (c.map .fin)) := by
  have hN : ∀ (r : Robot ℝ) (s : List XReal), Normalizer.ofRobot r.up (some s) true = ⟨none, some s⟩ := by
    intro r s
    unfold Normalizer.ofRobot
    rcases r.up.lower with _ | _ <;> rcases r.up.upper with _ | _ <;> rfl
  have lt : r.up.jointType.length = r.H.length := wf.joints
  have lt' : (Spec.rezero r c).up.jointType.length = r.H.length := wf.joints
  have lz : (List.zipWith (· + ·) c seed).length = r.H.length := by simp [lc, ls]
  obtain ⟨f, f1, f2⟩ := turns_fun
  simp only [iterative_invkin, hN, lt, lt', List.length_map, ls, lz, if_true]
  rcases loop pinv hpinv r wf ht c lc hl hu T hT Kp KR tol maxSteps.toNat seed ls with ⟨e, e1, e2⟩ | ⟨b, y, ly, e1, e2⟩
  · rw [e1, e2]; rfl
  · rw [e1, e2]
    simp only [Except.bind_ok]
    split_ifs
    · rfl
    · rw [call_fun f1 seed y _ ls ly, call_fun f1 _ _ _ lz (by simp [lc, ly])]
      simp only [Except.bind_ok, Except.pure_eq, Except.map, List.map_cons, List.map_nil]
      rw [zipWith_fin, norm_shift f2 c seed y (by omega) (by omega)]

/-- Two turning joints, a gain-one iteration and a pseudoinverse that returns zero rows: the hypotheses are met. -/
example : ∃ r : Robot ℝ, r.WF ∧ (∀ t ∈ r.jointType, t ≠ 3) ∧ r.H.length = 2 ∧ Spec.finitePinv (fun _ => .ok [⟨0, 0⟩, ⟨0, 0⟩]) ∧
    (Spec.rezero r [1, 2]).H.length = 2 := by
  refine ⟨{ H := [V3.ez, V3.ez], P := [0, V3.ex, V3.ex], jointType := [0, 0] }, ⟨rfl, rfl, by simp, by simp [IsUnit3], by simp, by simp,
    by simp, by simp⟩, by simp, rfl, ?_, rfl⟩
  intro J rows h x hx
  cases h
  refine ⟨0, 0, ?_⟩
  simp only [List.mem_cons, List.not_mem_nil, or_false, or_self] at hx
  rw [hx]; rfl
