import Verif.Props.Jacobian
import Mathlib.Analysis.Calculus.ContDiff.Operations
import Mathlib.Analysis.SpecialFunctions.Trigonometric.Deriv
import Mathlib.Analysis.Calculus.MeanValue

/-! # Forward kinematics as a continuously differentiable function of the joint vector -/
set_option autoImplicit false

section
variable {E : Type} [NormedAddCommGroup E] [NormedSpace ℝ E]

/-- The components are continuously differentiable. -/
structure SmV (f : E → V3 ℝ) : Prop where
  x : ContDiff ℝ 1 fun q => (f q).x
  y : ContDiff ℝ 1 fun q => (f q).y
  z : ContDiff ℝ 1 fun q => (f q).z

/-- The entries are continuously differentiable. -/
structure SmM (f : E → M3 ℝ) : Prop where
  a00 : ContDiff ℝ 1 fun q => (f q).a00
  a01 : ContDiff ℝ 1 fun q => (f q).a01
  a02 : ContDiff ℝ 1 fun q => (f q).a02
  a10 : ContDiff ℝ 1 fun q => (f q).a10
  a11 : ContDiff ℝ 1 fun q => (f q).a11
  a12 : ContDiff ℝ 1 fun q => (f q).a12
  a20 : ContDiff ℝ 1 fun q => (f q).a20
  a21 : ContDiff ℝ 1 fun q => (f q).a21
  a22 : ContDiff ℝ 1 fun q => (f q).a22

theorem SmV.const (v : V3 ℝ) : SmV fun _ : E => v := ⟨contDiff_const, contDiff_const, contDiff_const⟩
theorem SmM.const (m : M3 ℝ) : SmM fun _ : E => m :=
  ⟨contDiff_const, contDiff_const, contDiff_const, contDiff_const, contDiff_const, contDiff_const, contDiff_const, contDiff_const, contDiff_const⟩
theorem SmV.add {f g : E → V3 ℝ} (hf : SmV f) (hg : SmV g) : SmV fun q => f q + g q := ⟨hf.x.add hg.x, hf.y.add hg.y, hf.z.add hg.z⟩
theorem SmV.sub {f g : E → V3 ℝ} (hf : SmV f) (hg : SmV g) : SmV fun q => f q - g q := ⟨hf.x.sub hg.x, hf.y.sub hg.y, hf.z.sub hg.z⟩
theorem SmV.smul {c : E → ℝ} {f : E → V3 ℝ} (hc : ContDiff ℝ 1 c) (hf : SmV f) : SmV fun q => V3.smul (c q) (f q) :=
  ⟨hc.mul hf.x, hc.mul hf.y, hc.mul hf.z⟩
theorem SmM.transpose {f : E → M3 ℝ} (hf : SmM f) : SmM fun q => (f q).transpose :=
  ⟨hf.a00, hf.a10, hf.a20, hf.a01, hf.a11, hf.a21, hf.a02, hf.a12, hf.a22⟩
theorem SmM.mulVec {f : E → M3 ℝ} {g : E → V3 ℝ} (hf : SmM f) (hg : SmV g) : SmV fun q => (f q).mulVec (g q) :=
  ⟨((hf.a00.mul hg.x).add (hf.a01.mul hg.y)).add (hf.a02.mul hg.z), ((hf.a10.mul hg.x).add (hf.a11.mul hg.y)).add (hf.a12.mul hg.z),
    ((hf.a20.mul hg.x).add (hf.a21.mul hg.y)).add (hf.a22.mul hg.z)⟩
theorem SmM.mul {f g : E → M3 ℝ} (hf : SmM f) (hg : SmM g) : SmM fun q => f q * g q := by
  obtain ⟨a, b, c, d, e, f', g', h, i⟩ := hf
  obtain ⟨a', b', c', d', e', f'', g'', h', i'⟩ := hg
  exact ⟨((a.mul a').add (b.mul d')).add (c.mul g''), ((a.mul b').add (b.mul e')).add (c.mul h'), ((a.mul c').add (b.mul f'')).add (c.mul i'),
    ((d.mul a').add (e.mul d')).add (f'.mul g''), ((d.mul b').add (e.mul e')).add (f'.mul h'), ((d.mul c').add (e.mul f'')).add (f'.mul i'),
    ((g'.mul a').add (h.mul d')).add (i.mul g''), ((g'.mul b').add (h.mul e')).add (i.mul h'), ((g'.mul c').add (h.mul f'')).add (i.mul i')⟩

theorem SmM.add {f g : E → M3 ℝ} (hf : SmM f) (hg : SmM g) : SmM fun q => f q + g q :=
  ⟨hf.a00.add hg.a00, hf.a01.add hg.a01, hf.a02.add hg.a02, hf.a10.add hg.a10, hf.a11.add hg.a11, hf.a12.add hg.a12, hf.a20.add hg.a20,
    hf.a21.add hg.a21, hf.a22.add hg.a22⟩
theorem SmM.smul {c : E → ℝ} {f : E → M3 ℝ} (hc : ContDiff ℝ 1 c) (hf : SmM f) : SmM fun q => M3.smul (c q) (f q) :=
  ⟨hc.mul hf.a00, hc.mul hf.a01, hc.mul hf.a02, hc.mul hf.a10, hc.mul hf.a11, hc.mul hf.a12, hc.mul hf.a20, hc.mul hf.a21, hc.mul hf.a22⟩

theorem SmM.rot (h : V3 ℝ) {θ : E → ℝ} (hθ : ContDiff ℝ 1 θ) : SmM fun q => rot h (θ q) := by
  have s : ContDiff ℝ 1 fun q => Real.sin (θ q) := Real.contDiff_sin.comp hθ
  have c : ContDiff ℝ 1 fun q => 1 - Real.cos (θ q) := contDiff_const.sub (Real.contDiff_cos.comp hθ)
  exact ((SmM.const 1).add (SmM.smul s (SmM.const (hat h)))).add (SmM.smul c (SmM.const (hat h * hat h)))

/-- The loop of `fwdkin` on joint values that depend smoothly on a parameter. -/
theorem fwdLoop_smooth (ts : List Nat) (hs Ps : List (V3 ℝ)) (fs : List (E → ℝ)) (lh : hs.length = ts.length) (lP : Ps.length = ts.length)
    (lf : fs.length = ts.length) (hf : ∀ f ∈ fs, ContDiff ℝ 1 f) (R : E → M3 ℝ) (p : E → V3 ℝ) (hR : SmM R) (hp : SmV p) :
    ∃ (R' : E → M3 ℝ) (p' : E → V3 ℝ), (∀ q, fwdLoop ts hs Ps (fs.map (· q)) (R q, p q) = .ok (R' q, p' q)) ∧ SmM R' ∧ SmV p' := by
  induction ts generalizing hs Ps fs R p with
  | nil => exact ⟨R, p, fun q => by rw [fwdLoop], hR, hp⟩
  | cons t ts ih =>
    obtain _ | ⟨h, hs⟩ := hs
    · simp at lh
    obtain _ | ⟨P, Ps⟩ := Ps
    · simp at lP
    obtain _ | ⟨f, fs⟩ := fs
    · simp at lf
    have hf0 := hf f (by simp)
    obtain ⟨R1, p1, e, s1, s2⟩ : ∃ (R1 : E → M3 ℝ) (p1 : E → V3 ℝ), (∀ q, fwdStep t h P (f q) (R q, p q) = (R1 q, p1 q)) ∧ SmM R1 ∧ SmV p1 := by
      have sr := hR.mul (SmM.rot h hf0)
      by_cases h1 : t = 0 ∨ t = 2
      · exact ⟨_, _, fun q => by simp only [fwdStep, if_pos h1], sr, hp.add (sr.mulVec (SmV.const P))⟩
      by_cases h2 : t = 1 ∨ t = 3
      · exact ⟨_, _, fun q => by simp only [fwdStep, if_neg h1, if_pos h2], hR,
          (hp.add (SmV.smul hf0 (hR.mulVec (SmV.const h)))).add (hR.mulVec (SmV.const P))⟩
      · exact ⟨_, _, fun q => by simp only [fwdStep, if_neg h1, if_neg h2], hR, hp.add (hR.mulVec (SmV.const P))⟩
    obtain ⟨R', p', e1, e2, e3⟩ := ih hs Ps fs (by simpa using lh) (by simpa using lP) (by simpa using lf) (fun f hf' => hf f (by simp [hf'])) R1 p1 s1 s2
    refine ⟨R', p', fun q => ?_, e2, e3⟩
    rw [List.map_cons, fwdLoop, e q, e1 q]

end

/-- Forward kinematics as a function of a vector. -/
theorem fwdkin_smooth (robot : Robot ℝ) (hs : robot.Sized) (n : Nat) (hn : robot.H.length = n) :
    ∃ T : (Fin n → ℝ) → Transform ℝ, (∀ q, fwdkin robot (List.ofFn q) true = .ok (T q)) ∧ SmM (fun q => (T q).R) ∧ SmV (fun q => (T q).p) := by
  obtain ⟨P0, Ps, hP, lP⟩ := hs.P_cons
  have hj := hs.joints
  obtain ⟨R, p, e, sR, sp⟩ := fwdLoop_smooth (E := Fin n → ℝ) robot.jointType robot.H Ps (List.ofFn fun i => fun q : Fin n → ℝ => q i) hj.symm (by omega)
    (by simp [hj, hn]) (fun f hf => by
      obtain ⟨i, rfl⟩ := (List.mem_ofFn' _ _).1 hf
      exact contDiff_apply ℝ ℝ i) (fun _ => 1) (fun _ => P0) (SmM.const 1) (SmV.const P0)
  refine ⟨fun q => applyAux robot ⟨R q, p q, none, none⟩, fun q => ?_, ?_, ?_⟩
  · have e := e q
    rw [List.map_ofFn] at e
    have e : fwdLoop robot.jointType robot.H Ps (List.ofFn q) (1, P0) = .ok (R q, p q) := e
    simp only [fwdkin, checkLimits, if_true, hP, e]
    rfl
  · simp only [applyAux_R]
    exact (SmM.const _).mul ((sR.mul (SmM.const _)).mul (SmM.const _))
  · simp only [applyAux_p]
    exact (SmV.const _).add ((SmM.const _).mulVec ((sp.add (sR.mulVec (SmV.const _))).add ((sR.mul (SmM.const _)).mulVec (SmV.const _))))

section
variable {E : Type} [NormedAddCommGroup E] [NormedSpace ℝ E]

/-- Derivative along a line. -/
theorem fderiv_of_line {g : E → ℝ} (hg : ContDiff ℝ 1 g) {q v : E} {d : ℝ} (h : HasDerivAt (fun s : ℝ => g (q + s • v)) d 0) : fderiv ℝ g q v = d := by
  have h1 : HasFDerivAt g (fderiv ℝ g q) (q + (0 : ℝ) • v) := by
    rw [zero_smul, add_zero]
    exact (hg.differentiable (by norm_num) q).hasFDerivAt
  have h2 : HasDerivAt (fun s : ℝ => q + s • v) v 0 := by
    have := ((hasDerivAt_id (0 : ℝ)).smul_const v).const_add q
    simpa using this
  exact (h1.comp_hasDerivAt (0 : ℝ) h2).unique h

/-- A continuously differentiable function is locally as close to its linear approximation as desired. -/
theorem linear_approx {g : E → ℝ} (hg : ContDiff ℝ 1 g) (a : E) {ε : ℝ} (hε : 0 < ε) :
    ∃ r > 0, ∀ x y, ‖x - a‖ < r → ‖y - a‖ < r → |g y - g x - fderiv ℝ g x (y - x)| ≤ ε * ‖y - x‖ := by
  have hc := (hg.continuous_fderiv (by norm_num)).continuousAt (x := a)
  rw [Metric.continuousAt_iff] at hc
  obtain ⟨r, r0, hr⟩ := hc (ε / 2) (by positivity)
  refine ⟨r, r0, fun x y hx hy => ?_⟩
  have hd : ∀ z ∈ Metric.ball a r, HasFDerivWithinAt g (fderiv ℝ g z) (Metric.ball a r) z := fun z _ =>
    (hg.differentiable (by norm_num) z).hasFDerivAt.hasFDerivWithinAt
  have hb : ∀ z ∈ Metric.ball a r, ‖fderiv ℝ g z - fderiv ℝ g x‖ ≤ ε := fun z hz => by
    have h1 := hr hz
    have h2 := hr (show dist x a < r by rwa [dist_eq_norm])
    rw [← dist_eq_norm]
    refine (dist_triangle_right _ _ (fderiv ℝ g a)).trans ?_
    linarith
  exact (convex_ball a r).norm_image_sub_le_of_norm_hasFDerivWithin_le' hd hb (by simpa [dist_eq_norm] using hx) (by simpa [dist_eq_norm] using hy)

end

theorem sumTop_ofFn {n : Nat} (c : Fin n → V6 ℝ) (v : Fin n → ℝ) :
    (sumTop (List.ofFn c) (List.ofFn v)).x = ∑ i, v i * (c i).top.x ∧ (sumTop (List.ofFn c) (List.ofFn v)).y = ∑ i, v i * (c i).top.y ∧
    (sumTop (List.ofFn c) (List.ofFn v)).z = ∑ i, v i * (c i).top.z := by
  induction n with
  | zero => simp [sumTop]
  | succ n ih =>
    obtain ⟨h1, h2, h3⟩ := ih (fun i => c i.succ) (fun i => v i.succ)
    simp [List.ofFn_succ, sumTop, Fin.sum_univ_succ, h1, h2, h3]

theorem sumBot_ofFn {n : Nat} (c : Fin n → V6 ℝ) (v : Fin n → ℝ) :
    (sumBot (List.ofFn c) (List.ofFn v)).x = ∑ i, v i * (c i).bot.x ∧ (sumBot (List.ofFn c) (List.ofFn v)).y = ∑ i, v i * (c i).bot.y ∧
    (sumBot (List.ofFn c) (List.ofFn v)).z = ∑ i, v i * (c i).bot.z := by
  induction n with
  | zero => simp [sumBot]
  | succ n ih =>
    obtain ⟨h1, h2, h3⟩ := ih (fun i => c i.succ) (fun i => v i.succ)
    simp [List.ofFn_succ, sumBot, Fin.sum_univ_succ, h1, h2, h3]

/-- The components are continuous. -/
structure CtV {E : Type} [TopologicalSpace E] (f : E → V3 ℝ) : Prop where
  x : Continuous fun q => (f q).x
  y : Continuous fun q => (f q).y
  z : Continuous fun q => (f q).z

/-- Forward kinematics and Jacobian in the frame of the tool, as functions of the joint vector. -/
structure BodyKin (robot : Robot ℝ) (n : Nat) where
  T : (Fin n → ℝ) → Transform ℝ
  col : (Fin n → ℝ) → Fin n → V6 ℝ
  fk : ∀ q, fwdkin robot (List.ofFn q) true = .ok (T q)
  rigid : ∀ q, IsRot (T q).R
  smR : SmM fun q => (T q).R
  smp : SmV fun q => (T q).p
  jac : ∀ q, ∃ J, robotjacobian robot (List.ofFn q) true = .ok J ∧
    J.map (fun c => (⟨(T q).R.transpose.mulVec c.top, (T q).R.transpose.mulVec c.bot⟩ : V6 ℝ)) = List.ofFn (col q)
  velR : ∀ q v, HasDerivM3 (fun s => (T (q + s • v)).R) ((T q).R * hat (sumTop (List.ofFn (col q)) (List.ofFn v))) 0
  velp : ∀ q v, HasDerivV3 (fun s => (T (q + s • v)).p) ((T q).R.mulVec (sumBot (List.ofFn (col q)) (List.ofFn v))) 0
  ctTop : ∀ i, CtV fun q => (col q i).top
  ctBot : ∀ i, CtV fun q => (col q i).bot

theorem bodyKin_exists (robot : Robot ℝ) (hw : robot.WF) (hty : ∀ t ∈ robot.jointType, t = 0 ∨ t = 1) (n : Nat) (hn : robot.H.length = n) :
    Nonempty (BodyKin robot n) := by
  obtain ⟨T, fk, smR, smp⟩ := fwdkin_smooth robot hw.sized n hn
  have rigid : ∀ q, IsRot (T q).R := fun q => by
    obtain ⟨P0, Ps, hP, -⟩ := hw.sized.P_cons
    obtain ⟨T', h1, h2, -⟩ := C17_fwdkin_chain robot hw (List.ofFn q) (by simp [hn]) P0 Ps hP
    rw [fk q] at h1
    cases h1
    exact h2
  have hJ : ∀ q : Fin n → ℝ, ∃ J, robotjacobian robot (List.ofFn q) true = .ok J ∧ J.length = n := fun q => by
    obtain ⟨J, hJ, lJ⟩ := robotjacobian_ok hw.sized (θ := List.ofFn q) (by simp [hn]) hty
    exact ⟨J, hJ, by rw [lJ, hn]⟩
  choose J hJ lJ using hJ
  have vel : ∀ q v : Fin n → ℝ, HasDerivM3 (fun s => (T (q + s • v)).R) (hat (sumTop (J q) (List.ofFn v)) * (T q).R) 0 ∧
      HasDerivV3 (fun s => (T (q + s • v)).p) (sumBot (J q) (List.ofFn v)) 0 := fun q v => by
    obtain ⟨J', T', h1, -, h3, h4, h5⟩ := C20_jacobian_velocity robot hw hty (List.ofFn fun i => fun s : ℝ => q i + s * v i) (List.ofFn v) 0 (by simp [hn]) (by
      rw [List.forall₂_iff_get]
      refine ⟨by simp, fun k h1 h2 => ?_⟩
      simp only [List.get_eq_getElem, List.getElem_ofFn]
      have := ((hasDerivAt_id (0 : ℝ)).mul_const (v ⟨k, by simpa using h1⟩)).const_add (q ⟨k, by simpa using h1⟩)
      simpa using this)
    have e : ∀ s : ℝ, (List.ofFn fun i => fun s : ℝ => q i + s * v i).map (· s) = List.ofFn (q + s • v) := fun s => by
      rw [List.map_ofFn]
      rfl
    have e0 : (List.ofFn fun i => fun s : ℝ => q i + s * v i).map (· 0) = List.ofFn q := by
      rw [e 0, zero_smul, add_zero]
    rw [e0, hJ q] at h1
    cases h1
    have eT : ∀ s, T' s = T (q + s • v) := fun s => by
      have := h3 s
      rw [e s, fk] at this
      exact (Except.ok.inj this).symm
    have eT0 : T' 0 = T q := by rw [eT 0, zero_smul, add_zero]
    rw [eT0] at h4
    simp only [eT] at h4 h5
    exact ⟨h4, h5⟩
  let col : (Fin n → ℝ) → Fin n → V6 ℝ := fun q i => ⟨(T q).R.transpose.mulVec ((J q)[i]'(by rw [lJ q]; exact i.2)).top,
    (T q).R.transpose.mulVec ((J q)[i]'(by rw [lJ q]; exact i.2)).bot⟩
  have hcol : ∀ q, (J q).map (fun c => (⟨(T q).R.transpose.mulVec c.top, (T q).R.transpose.mulVec c.bot⟩ : V6 ℝ)) = List.ofFn (col q) := fun q => by
    apply List.ext_getElem
    · simp [lJ q]
    · intro i h1 h2
      simp [col]
  have velR : ∀ q v, HasDerivM3 (fun s => (T (q + s • v)).R) ((T q).R * hat (sumTop (List.ofFn (col q)) (List.ofFn v))) 0 := fun q v => by
    refine (vel q v).1.congr_deriv ?_
    rw [← hcol, (rigid q).mul_hat, sumTop_map, M3.mulVec_mulVec, (rigid q).orth', M3.one_mulVec]
  have velp : ∀ q v, HasDerivV3 (fun s => (T (q + s • v)).p) ((T q).R.mulVec (sumBot (List.ofFn (col q)) (List.ofFn v))) 0 := fun q v => by
    refine (vel q v).2.congr_deriv ?_
    rw [← hcol, sumBot_map, M3.mulVec_mulVec, (rigid q).orth', M3.one_mulVec]
  have single : ∀ (q : Fin n → ℝ) (i : Fin n), sumTop (List.ofFn (col q)) (List.ofFn (Pi.single i 1)) = (col q i).top ∧
      sumBot (List.ofFn (col q)) (List.ofFn (Pi.single i 1)) = (col q i).bot := fun q i => by
    obtain ⟨a, b, c⟩ := sumTop_ofFn (col q) (Pi.single i 1)
    obtain ⟨d, e, f⟩ := sumBot_ofFn (col q) (Pi.single i 1)
    constructor <;> ext <;> simp [a, b, c, d, e, f, Pi.single_apply]
  let dR : Fin n → (Fin n → ℝ) → M3 ℝ := fun i q =>
    ⟨fderiv ℝ (fun q => (T q).R.a00) q (Pi.single i 1), fderiv ℝ (fun q => (T q).R.a01) q (Pi.single i 1), fderiv ℝ (fun q => (T q).R.a02) q (Pi.single i 1),
      fderiv ℝ (fun q => (T q).R.a10) q (Pi.single i 1), fderiv ℝ (fun q => (T q).R.a11) q (Pi.single i 1), fderiv ℝ (fun q => (T q).R.a12) q (Pi.single i 1),
      fderiv ℝ (fun q => (T q).R.a20) q (Pi.single i 1), fderiv ℝ (fun q => (T q).R.a21) q (Pi.single i 1), fderiv ℝ (fun q => (T q).R.a22) q (Pi.single i 1)⟩
  have hdR : ∀ i q, dR i q = (T q).R * hat (col q i).top := fun i q => by
    have v := velR q (Pi.single i 1)
    rw [(single q i).1] at v
    obtain ⟨d00, d01, d02, d10, d11, d12, d20, d21, d22⟩ := v
    simp only [dR, fderiv_of_line smR.a00 d00, fderiv_of_line smR.a01 d01, fderiv_of_line smR.a02 d02, fderiv_of_line smR.a10 d10, fderiv_of_line smR.a11 d11,
      fderiv_of_line smR.a12 d12, fderiv_of_line smR.a20 d20, fderiv_of_line smR.a21 d21, fderiv_of_line smR.a22 d22]
  refine ⟨⟨T, col, fk, rigid, smR, smp, fun q => ⟨J q, hJ q, hcol q⟩, velR, velp, fun i => ?_, fun i => ?_⟩⟩
  · have hM : ∀ q, (T q).R.transpose * dR i q = hat (col q i).top := fun q => by
      rw [hdR i q, ← M3.mul_assoc', (rigid q).orth, M3.one_mul']
    have e1 : ∀ q, (col q i).top = ⟨((T q).R.transpose * dR i q).a21, ((T q).R.transpose * dR i q).a02, ((T q).R.transpose * dR i q).a10⟩ := fun q => by
      rw [hM q]
      ext <;> simp
    have c := fun {g : (Fin n → ℝ) → ℝ} (hg : ContDiff ℝ 1 g) => hg.continuous
    have d := fun {g : (Fin n → ℝ) → ℝ} (hg : ContDiff ℝ 1 g) => (hg.continuous_fderiv (by norm_num)).clm_apply (continuous_const (y := (Pi.single i 1 : Fin n → ℝ)))
    simp only [e1]
    exact ⟨(((c smR.a02).mul (d smR.a01)).add ((c smR.a12).mul (d smR.a11))).add ((c smR.a22).mul (d smR.a21)),
      (((c smR.a00).mul (d smR.a02)).add ((c smR.a10).mul (d smR.a12))).add ((c smR.a20).mul (d smR.a22)),
      (((c smR.a01).mul (d smR.a00)).add ((c smR.a11).mul (d smR.a10))).add ((c smR.a21).mul (d smR.a20))⟩
  · have e1 : ∀ q, (col q i).bot = (T q).R.transpose.mulVec ⟨fderiv ℝ (fun q => (T q).p.x) q (Pi.single i 1), fderiv ℝ (fun q => (T q).p.y) q (Pi.single i 1),
        fderiv ℝ (fun q => (T q).p.z) q (Pi.single i 1)⟩ := fun q => by
      obtain ⟨v1, v2, v3⟩ := velp q (Pi.single i 1)
      rw [(single q i).2] at v1 v2 v3
      rw [fderiv_of_line smp.x v1, fderiv_of_line smp.y v2, fderiv_of_line smp.z v3]
      change _ = (T q).R.transpose.mulVec ((T q).R.mulVec (col q i).bot)
      rw [M3.mulVec_mulVec, (rigid q).orth, M3.one_mulVec]
    have c := fun {g : (Fin n → ℝ) → ℝ} (hg : ContDiff ℝ 1 g) => hg.continuous
    have d := fun {g : (Fin n → ℝ) → ℝ} (hg : ContDiff ℝ 1 g) => (hg.continuous_fderiv (by norm_num)).clm_apply (continuous_const (y := (Pi.single i 1 : Fin n → ℝ)))
    simp only [e1]
    exact ⟨(((c smR.a00).mul (d smp.x)).add ((c smR.a10).mul (d smp.y))).add ((c smR.a20).mul (d smp.z)),
      (((c smR.a01).mul (d smp.x)).add ((c smR.a11).mul (d smp.y))).add ((c smR.a21).mul (d smp.z)),
      (((c smR.a02).mul (d smp.x)).add ((c smR.a12).mul (d smp.y))).add ((c smR.a22).mul (d smp.z))⟩
