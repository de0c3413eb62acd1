import Verif.Props.TurnRound

/-!
# Property C119: self-motions do not depend on the first and the last joint, nor on base, flange and tool
-/
set_option autoImplicit false

/-- the motion of the tool, angular and linear velocity, that the Jacobian gives for the joint velocities `c` -/
noncomputable def Spec.tipSpeed : List (V6 ℝ) → List ℝ → V3 ℝ × V3 ℝ
  | k :: J, x :: c => (x • k.top + (Spec.tipSpeed J c).1, x • k.bot + (Spec.tipSpeed J c).2)
  | _, _ => (0, 0)

/-- The columns of `J'` are the motions of the columns of `J`, as seen at another point of the same rigid body and from a turned frame. -/
def Spec.SameBody (J J' : List (V6 ℝ)) : Prop :=
  ∃ (R : M3 ℝ) (d : V3 ℝ), IsRot R ∧ J' = J.map fun c => ⟨R.mulVec c.top, R.mulVec (c.bot + c.top.cross d)⟩

/-! ## Helper lemmas -/

namespace SelfMotionL
open TurnRoundL MountL

theorem axis_kept (t : Nat) (h P : V3 ℝ) (θ : ℝ) (Rp : M3 ℝ × V3 ℝ) : (fwdStep t h P θ Rp).1.mulVec h = Rp.1.mulVec h := by
  unfold fwdStep
  split_ifs
  · dsimp only; rw [← M3.mulVec_mulVec, rot_axis]
  · rfl
  · rfl

/-- the last joint value does not enter the columns -/
theorem last (ts : List Nat) (hs Ps : List (V3 ℝ)) (θ θ' : List ℝ) (lh : hs.length = ts.length) (lP : Ps.length = ts.length)
    (lθ : θ.length = ts.length) (lθ' : θ'.length = ts.length) (hd : θ.dropLast = θ'.dropLast) (Rp : M3 ℝ × V3 ℝ) :
    ∃ fs Rn pn fs' Rn' pn', jacLoop ts hs Ps θ Rp = .ok (fs, Rn, pn) ∧ jacLoop ts hs Ps θ' Rp = .ok (fs', Rn', pn') ∧ fs'.map sig = fs.map sig ∧
      fs.map (·.ty) = ts ∧ fs'.map (·.ty) = ts := by
  induction ts generalizing hs Ps θ θ' Rp with
  | nil => exact ⟨[], Rp.1, Rp.2, [], Rp.1, Rp.2, rfl, rfl, rfl, rfl, rfl⟩
  | cons t ts ih =>
    obtain _ | ⟨h, hs⟩ := hs
    · simp at lh
    obtain _ | ⟨P, Ps⟩ := Ps
    · simp at lP
    obtain _ | ⟨x, θ⟩ := θ
    · simp at lθ
    obtain _ | ⟨x', θ'⟩ := θ'
    · simp at lθ'
    obtain _ | ⟨y, θ⟩ := θ
    · obtain rfl : ts = [] := by simpa using lθ.symm
      obtain rfl : θ' = [] := by simpa using lθ'
      refine ⟨_, _, _, _, _, _, by simp only [jacLoop]; rfl, by simp only [jacLoop]; rfl, ?_, rfl, rfl⟩
      simp [sig, axis_kept]
    · obtain _ | ⟨y', θ'⟩ := θ'
      · rw [← lθ] at lθ'; simp at lθ'
      simp only [List.dropLast_cons₂, List.cons.injEq] at hd
      obtain ⟨rfl, hd⟩ := hd
      obtain ⟨fs, Rn, pn, fs', Rn', pn', e1, e2, e3, e4, e5⟩ := ih hs Ps (y :: θ) (y' :: θ') (by simpa using lh) (by simpa using lP)
        (by simpa using lθ) (by simpa using lθ') hd (fwdStep t h P x Rp)
      refine ⟨⟨t, Rp.2, (fwdStep t h P x Rp).1.mulVec h, x⟩ :: fs, Rn, pn, ⟨t, Rp.2, (fwdStep t h P x Rp).1.mulVec h, x⟩ :: fs', Rn', pn',
        ?_, ?_, ?_, ?_, ?_⟩
      · simp only [jacLoop]; rw [e1]; rfl
      · simp only [jacLoop]; rw [e2]; rfl
      · simp [e3]
      · simp [e4]
      · simp [e5]

/-- another first joint value turns or shifts all columns together -/
theorem first (t : Nat) (ht : t < 4) (h P : V3 ℝ) (hh : IsUnit3 h) (ts : List Nat) (hs Ps : List (V3 ℝ)) (x x' : ℝ) (θ : List ℝ)
    (lh : hs.length = ts.length) (lP : Ps.length = ts.length) (lθ : θ.length = ts.length) (P0 : V3 ℝ) :
    ∃ (G : M3 ℝ) (g : V3 ℝ) (fs : List (JointFrame ℝ)) (Rn : M3 ℝ) (pn : V3 ℝ) (fs' : List (JointFrame ℝ)) (Rn' : M3 ℝ) (pn' : V3 ℝ), IsRot G ∧
      jacLoop (t :: ts) (h :: hs) (P :: Ps) (x :: θ) (1, P0) = .ok (fs, Rn, pn) ∧
      jacLoop (t :: ts) (h :: hs) (P :: Ps) (x' :: θ) (1, P0) = .ok (fs', Rn', pn') ∧
      fs'.map sig = fs.map (fun f => sig (moved G g f)) := by
  have key : ∃ (G : M3 ℝ) (g : V3 ℝ), IsRot G ∧ fwdStep t h P x' (1, P0) = (G * (fwdStep t h P x (1, P0)).1 * (1 : M3 ℝ).transpose,
      g + G.mulVec (fwdStep t h P x (1, P0)).2) ∧ G.mulVec h = h ∧ (t = 0 → g + G.mulVec P0 = P0) := by
    have o : (1 : M3 ℝ).transpose = 1 := by ext <;> simp
    by_cases hr : IsRotary t
    · refine ⟨rot h (x' - x), P0 - (rot h (x' - x)).mulVec P0, rot_isRot h hh _, ?_, rot_axis _ _, fun _ => sub_add_cancel _ _⟩
      rw [fwdStep_rotary hr, fwdStep_rotary hr, o]
      dsimp only
      have e : rot h (x' - x) * rot h x = rot h x' := by rw [rot_mul h hh]; congr 1; ring
      rw [M3.one_mul', M3.one_mul', M3.mul_one', M3.mulVec_add, M3.mulVec_mulVec, e]
      simp only [Prod.mk.injEq, true_and]
      generalize (rot h (x' - x)).mulVec P0 = u
      abel
    · have hp : IsPrismatic t := by unfold IsRotary at hr; unfold IsPrismatic; omega
      refine ⟨1, (x' - x) • h, IsRot.one, ?_, M3.one_mulVec _, fun h0 => absurd (.inl h0) hr⟩
      rw [fwdStep_prismatic hp, fwdStep_prismatic hp, o]
      simp only [M3.one_mulVec, M3.mul_one', Prod.mk.injEq, true_and]
      ext <;> simp <;> ring
  obtain ⟨G, g, hG, k1, k2, k3⟩ := key
  obtain ⟨fs, Rn, pn, -, b2, -, -, b5⟩ := back ts hs Ps θ lh lP lθ 1 G (fwdStep t h P x (1, P0)).1 IsRot.one g (fwdStep t h P x (1, P0)).2
  have hid : ∀ l : List (V3 ℝ), l.map (1 : M3 ℝ).mulVec = l := by
    intro l
    have : (1 : M3 ℝ).mulVec = id := by funext v; exact M3.one_mulVec v
    rw [this, List.map_id]
  rw [hid, hid, ← k1] at b5
  refine ⟨G, g, ⟨t, P0, (fwdStep t h P x (1, P0)).1.mulVec h, x⟩ :: fs, Rn, pn, ⟨t, P0, (fwdStep t h P x' (1, P0)).1.mulVec h, x'⟩ :: fs.map (moved G g),
    G * Rn * (1 : M3 ℝ).transpose, g + G.mulVec pn, hG, ?_, ?_, ?_⟩
  · simp only [jacLoop]; rw [b2]; rfl
  · simp only [jacLoop]; rw [b5]; rfl
  · simp only [List.map_cons, List.map_map]
    congr 1
    simp only [sig, moved, axis_kept, M3.one_mulVec, k2]
    by_cases h0 : t = 0
    · simp only [h0, if_true, k3 h0]
    · simp [h0]

theorem col_moved (q : V3 ℝ) {G : M3 ℝ} (hG : IsRot G) (g : V3 ℝ) (f : JointFrame ℝ) (w : V3 ℝ) :
    col (g + G.mulVec (q + w)) (sig (moved G g f)) =
      ⟨G.mulVec (col q (sig f)).top, G.mulVec ((col q (sig f)).bot + (col q (sig f)).top.cross w)⟩ := by
  have z : G.mulVec 0 = 0 := by ext <;> simp
  have zc : (0 : V3 ℝ).cross w = 0 := by ext <;> simp
  by_cases h0 : f.ty = 0
  · simp only [col, sig, moved, h0, if_true]
    have d : g + G.mulVec (q + w) - (g + G.mulVec f.pO) = G.mulVec (q + w - f.pO) := by ext <;> simp <;> ring
    rw [d, ← hG.mulVec_cross]
    congr 2
    ext <;> simp <;> ring
  · by_cases h1 : f.ty = 1
    · simp [col, sig, moved, h1, z, zc]
    · simp [col, sig, moved, h0, h1, z, zc]

theorem speed_map (R : M3 ℝ) (d : V3 ℝ) (J : List (V6 ℝ)) (c : List ℝ) :
    Spec.tipSpeed (J.map fun k => ⟨R.mulVec k.top, R.mulVec (k.bot + k.top.cross d)⟩) c =
      (R.mulVec (Spec.tipSpeed J c).1, R.mulVec ((Spec.tipSpeed J c).2 + (Spec.tipSpeed J c).1.cross d)) := by
  have z : R.mulVec 0 = 0 := by ext <;> simp
  have zc : (0 : V3 ℝ).cross d = 0 := by ext <;> simp
  induction J generalizing c with
  | nil => simp [Spec.tipSpeed, z, zc]
  | cons k J ih =>
    obtain _ | ⟨x, c⟩ := c
    · simp [Spec.tipSpeed, z, zc]
    simp only [List.map_cons, Spec.tipSpeed, ih c, Prod.mk.injEq]
    constructor <;> ext <;> simp <;> ring

theorem rot_zero {R : M3 ℝ} (hR : IsRot R) {v : V3 ℝ} (h : R.mulVec v = 0) : v = 0 := by
  have := hR.transpose_mulVec_mulVec v
  rw [h] at this
  rw [← this]; ext <;> simp

end SelfMotionL

open SelfMotionL TurnRoundL MountL

/-! ## Theorems -/

/-- C119: let two robots have the same joints, with any bases, flanges and tools, and let their joint values differ at the first and the last joint only.
Without mobile joints, their Jacobians have the motions of the same rigid body as columns. -/
theorem C119_jacobian (r r' : Robot ℝ) (hw : r.WF) (hw' : r'.WF) (hH : r'.H = r.H) (hP : r'.P = r.P) (ht : r'.jointType = r.jointType)
    (h3 : ∀ t ∈ r.jointType, t ≠ 3) (θ θ' : List ℝ) (lθ : θ.length = r.H.length) (lθ' : θ'.length = r.H.length)
    (hθ : θ.tail.dropLast = θ'.tail.dropLast) :
    ∃ J J', robotjacobian r θ true = .ok J ∧ robotjacobian r' θ' true = .ok J' ∧ J.length = r.H.length ∧ Spec.SameBody J J' := by
  rcases hP0 : r.P with _ | ⟨P0, Ps⟩
  · have := hw.columns; simp [hP0] at this
  have lP : Ps.length = r.H.length := by have := hw.columns; rw [hP0] at this; simpa using this
  have main : ∃ (G : M3 ℝ) (g : V3 ℝ) (fs : List (JointFrame ℝ)) (Rn : M3 ℝ) (pn : V3 ℝ) (fs' : List (JointFrame ℝ)) (Rn' : M3 ℝ) (pn' : V3 ℝ),
      IsRot G ∧ jacLoop r.jointType r.H Ps θ (1, P0) = .ok (fs, Rn, pn) ∧ jacLoop r.jointType r.H Ps θ' (1, P0) = .ok (fs', Rn', pn') ∧
      fs'.map sig = fs.map (fun f => sig (moved G g f)) ∧ fs.map (·.ty) = r.jointType ∧ fs'.map (·.ty) = r.jointType := by
    have lj := hw.joints
    have un := hw.unit
    have ty := hw.types
    generalize r.H = hs at *
    generalize r.jointType = ts at *
    obtain _ | ⟨t, ts⟩ := ts
    · exact ⟨1, 0, [], 1, P0, [], 1, P0, IsRot.one, rfl, rfl, rfl, rfl, rfl⟩
    obtain _ | ⟨h, hs⟩ := hs
    · simp at lj
    obtain _ | ⟨P, Ps⟩ := Ps
    · simp at lP
    obtain _ | ⟨x, θ⟩ := θ
    · simp at lθ
    obtain _ | ⟨x', θ'⟩ := θ'
    · simp at lθ'
    simp only [List.tail_cons] at hθ
    simp only [List.length_cons, Nat.add_right_cancel_iff] at lj lP lθ lθ'
    obtain ⟨G, g, fs, Rn, pn, f1, R1, p1, hG, e1, e2, e3⟩ := first t (ty t (by simp)) h P (un h (by simp)) ts hs Ps x x' θ lj.symm
      (by omega) (by omega) P0
    have hd : (x' :: θ).dropLast = (x' :: θ').dropLast := by
      obtain _ | ⟨y, θ⟩ := θ
      · obtain rfl : θ' = [] := by apply List.eq_nil_of_length_eq_zero; rw [lθ', ← lθ]; rfl
        rfl
      · obtain _ | ⟨y', θ'⟩ := θ'
        · rw [← lθ] at lθ'; simp at lθ'
        · simp only [List.dropLast_cons₂, hθ]
    obtain ⟨f2, R2, p2, fs', Rn', pn', k1, k2, k3, k4, k5⟩ := last (t :: ts) (h :: hs) (P :: Ps) (x' :: θ) (x' :: θ') (by simp [lj]) (by simp; omega)
      (by simp; omega) (by simp; omega) hd (1, P0)
    rw [e2] at k1
    simp only [Except.ok.injEq, Prod.mk.injEq] at k1
    obtain ⟨rfl, -, -⟩ := k1
    obtain ⟨f3, R3, p3, j1, j2⟩ := jacLoop_ok (t :: ts) (h :: hs) (P :: Ps) (x :: θ) (by simp [lj]) (by simp; omega) (by simp; omega) (1, P0)
    rw [e1] at j1
    simp only [Except.ok.injEq, Prod.mk.injEq] at j1
    obtain ⟨rfl, -, -⟩ := j1
    exact ⟨G, g, fs, Rn, pn, fs', Rn', pn', hG, e1, k2, k3.trans e3, j2, k5⟩
  obtain ⟨G, g, fs, Rn, pn, fs', Rn', pn', hG, e1, e2, e3, e4, e5⟩ := main
  have nA : ∀ f ∈ fs, f.ty ≠ 3 := fun f hf => h3 f.ty (by rw [← e4]; exact List.mem_map_of_mem hf)
  have nB : ∀ f ∈ fs', f.ty ≠ 3 := fun f hf => h3 f.ty (by rw [← e5]; exact List.mem_map_of_mem hf)
  have hB := auxB_rot hw
  have hB' := auxB_rot hw'
  refine ⟨_, _, jac_eq hw.toolBoth hP0 e1 (cols_eq _ _ nA), jac_eq hw'.toolBoth (hP.trans hP0) (by rw [ht, hH]; exact e2) (cols_eq _ _ nB), ?_,
    (auxB r').R * G * (auxB r).R.transpose, ?_⟩
  · have := congrArg List.length e4
    simp only [List.length_map] at this ⊢
    rw [this, hw.joints]
  generalize pn + Rn.mulVec (auxF r).p + (Rn * (auxF r).R).mulVec (auxX r).p = q
  generalize pn' + Rn'.mulVec (auxF r').p + (Rn' * (auxF r').R).mulVec (auxX r').p = q'
  refine ⟨(auxB r).R.mulVec (G.transpose.mulVec (q' - g) - q), (hB'.mul hG).mul hB.transpose, ?_⟩
  have hc : (fs'.map fun f => col q' (sig f)) = (fs'.map sig).map (col q') := by simp
  have hq : q' = g + G.mulVec (q + (G.transpose.mulVec (q' - g) - q)) := by
    rw [add_sub_cancel, hG.mulVec_transpose_mulVec, add_sub_cancel]
  rw [hc, e3]
  simp only [List.map_map]
  refine List.map_congr_left fun f _ => ?_
  simp only [Function.comp_apply]
  generalize G.transpose.mulVec (q' - g) - q = w at hq
  rw [hq, col_moved q hG]
  generalize col q (sig f) = c
  simp only [← M3.mulVec_mulVec, ← hB.mulVec_cross, ← M3.mulVec_add, hB.transpose_mulVec_mulVec]

/-- C119: in particular the joint velocities that leave the tool at rest are the same: they, and with them the singular configurations, do not depend
on the values of the first and the last joint, nor on base, flange and tool. -/
theorem C119_self_motions (r r' : Robot ℝ) (hw : r.WF) (hw' : r'.WF) (hH : r'.H = r.H) (hP : r'.P = r.P) (ht : r'.jointType = r.jointType)
    (h3 : ∀ t ∈ r.jointType, t ≠ 3) (θ θ' : List ℝ) (lθ : θ.length = r.H.length) (lθ' : θ'.length = r.H.length)
    (hθ : θ.tail.dropLast = θ'.tail.dropLast) :
    ∃ J J', robotjacobian r θ true = .ok J ∧ robotjacobian r' θ' true = .ok J' ∧
      ∀ c : List ℝ, Spec.tipSpeed J c = (0, 0) ↔ Spec.tipSpeed J' c = (0, 0) := by
  obtain ⟨J, J', h1, h2, -, R, d, hR, rfl⟩ := C119_jacobian r r' hw hw' hH hP ht h3 θ θ' lθ lθ' hθ
  refine ⟨J, _, h1, h2, fun c => ?_⟩
  rw [speed_map]
  have z : R.mulVec 0 = 0 := by ext <;> simp
  have zc : (0 : V3 ℝ).cross d = 0 := by ext <;> simp
  constructor
  · intro h
    rw [h]; simp [z, zc]
  · intro h
    simp only [Prod.mk.injEq] at h
    obtain ⟨a, b⟩ := h
    have a' := rot_zero hR a
    have b' := rot_zero hR b
    rw [a', zc, add_zero] at b'
    exact Prod.ext a' b'

namespace SelfMotionL

/-- three parallel axes in a row -/
noncomputable def row : Robot ℝ :=
  { H := [V3.ez, V3.ez, V3.ez], P := [0, V3.ex, V3.ex, V3.ex], jointType := [0, 0, 0] }

/-- the same joints with a base and a tool -/
noncomputable def rowTool : Robot ℝ :=
  { row with
    Rtool := some ⟨0, -1, 0, 1, 0, 0, 0, 0, 1⟩
    ptool := some ⟨1, 2, 3⟩
    Tbase := some ⟨⟨0, 0, 1, 0, 1, 0, -1, 0, 0⟩, ⟨0, 5, 0⟩, none, none⟩ }

theorem row_wf : row.WF := by
  constructor <;> simp [row, IsUnit3, V3.ez]

theorem rowTool_wf : rowTool.WF := by
  constructor
  · rfl
  · rfl
  · simp [rowTool, row]
  · simp [rowTool, row, IsUnit3, V3.ez]
  · intro B hB; simp only [rowTool, Option.some.injEq] at hB; subst hB; exact ⟨by ext <;> norm_num, by norm_num [M3.det]⟩
  · simp [rowTool, row]
  · intro B hB; simp only [rowTool, Option.some.injEq] at hB; subst hB; exact ⟨by ext <;> norm_num, by norm_num [M3.det]⟩
  · simp [rowTool]

end SelfMotionL

/-- The stretched arm of three parallel joints has the self-motion `(1, -2, 1)`; so it has it for all values of the outer joints and with a tool. -/
example (x y : ℝ) : ∃ J', robotjacobian rowTool [x, 0, y] true = .ok J' ∧ Spec.tipSpeed J' [1, -2, 1] = (0, 0) := by
  obtain ⟨J, J', h1, h2, h⟩ := C119_self_motions row rowTool row_wf rowTool_wf rfl rfl rfl (by simp [row]) [0, 0, 0] [x, 0, y] rfl rfl rfl
  refine ⟨J', h2, (h _).1 ?_⟩
  have r0 : rot (V3.ez : V3 ℝ) 0 = 1 := by ext <;> simp [rot, V3.ez]
  simp [robotjacobian, checkLimits, row, jacLoop, fwdStep, jacCols, r0, bind, Except.bind, pure, Except.pure] at h1
  rw [← h1]
  simp only [Spec.tipSpeed, Prod.mk.injEq]
  constructor <;> ext <;> simp [V3.ez, V3.ex] <;> norm_num
