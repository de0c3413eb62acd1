import Verif.Props.TurnRound

/-!
# Property C120: the sense in which a joint is counted is a convention
-/
set_option autoImplicit false

/-- the robot whose joints marked by `true` are counted in the opposite sense: axis reversed, limits exchanged and negated -/
def Spec.recount (r : Robot ℝ) (bs : List Bool) : Robot ℝ :=
  { r with
    H := List.zipWith (fun b h => if b then -h else h) bs r.H
    lower := r.lower.bind fun l => r.upper.map fun u => List.zipWith (fun (b : Bool) (x : ℝ × ℝ) => if b then -x.2 else x.1) bs (l.zip u)
    upper := r.lower.bind fun l => r.upper.map fun u => List.zipWith (fun (b : Bool) (x : ℝ × ℝ) => if b then -x.1 else x.2) bs (l.zip u) }

/-- the same configuration as counted by that robot -/
def Spec.recounted (bs : List Bool) (θ : List ℝ) : List ℝ := List.zipWith (fun b x => if b then -x else x) bs θ

/-! ## Helper lemmas -/

namespace AxisSignL
open TurnRoundL MountL

theorem step (t : Nat) (h P : V3 ℝ) (b : Bool) (θ : ℝ) (Rp : M3 ℝ × V3 ℝ) :
    fwdStep t (if b then -h else h) P (if b then -θ else θ) Rp = fwdStep t h P θ Rp := by
  cases b
  · rfl
  · have e : rot (-h) (-θ) = rot h θ := by rw [rot_neg_axis, neg_neg]
    have e' : ∀ M : M3 ℝ, V3.smul (-θ) (M.mulVec (-h)) = V3.smul θ (M.mulVec h) := by intro M; ext <;> simp <;> ring
    simp only [if_true, fwdStep, e, e']

/-- the same frame with the axis reversed -/
noncomputable def turned (b : Bool) (f : JointFrame ℝ) : JointFrame ℝ := ⟨f.ty, f.pO, if b then -f.h else f.h, if b then -f.th else f.th⟩

theorem loop (ts : List Nat) (hs Ps : List (V3 ℝ)) (θs : List ℝ) (bs : List Bool) (lh : hs.length = ts.length) (lP : Ps.length = ts.length)
    (lθ : θs.length = ts.length) (lb : bs.length = ts.length) (Rp : M3 ℝ × V3 ℝ) :
    fwdLoop ts (List.zipWith (fun b h => if b then -h else h) bs hs) Ps (Spec.recounted bs θs) Rp = fwdLoop ts hs Ps θs Rp ∧
    ∃ fs R p, jacLoop ts hs Ps θs Rp = .ok (fs, R, p) ∧ fs.map (·.ty) = ts ∧
      jacLoop ts (List.zipWith (fun b h => if b then -h else h) bs hs) Ps (Spec.recounted bs θs) Rp = .ok (List.zipWith turned bs fs, R, p) := by
  induction ts generalizing hs Ps θs bs Rp with
  | nil =>
    obtain rfl := List.length_eq_zero_iff.1 lb
    obtain rfl := List.length_eq_zero_iff.1 lh
    obtain rfl := List.length_eq_zero_iff.1 lθ
    exact ⟨rfl, [], Rp.1, Rp.2, rfl, rfl, rfl⟩
  | cons t ts ih =>
    obtain _ | ⟨h, hs⟩ := hs
    · simp at lh
    obtain _ | ⟨P, Ps⟩ := Ps
    · simp at lP
    obtain _ | ⟨θ, θs⟩ := θs
    · simp at lθ
    obtain _ | ⟨b, bs⟩ := bs
    · simp at lb
    obtain ⟨i1, fs, R, p, i2, i3, i4⟩ := ih hs Ps θs bs (by simpa using lh) (by simpa using lP) (by simpa using lθ) (by simpa using lb)
      (fwdStep t h P θ Rp)
    refine ⟨?_, ⟨t, Rp.2, (fwdStep t h P θ Rp).1.mulVec h, θ⟩ :: fs, R, p, ?_, by simp [i3], ?_⟩
    · simp only [List.zipWith_cons_cons, Spec.recounted, fwdLoop, step]
      exact i1
    · simp only [jacLoop, i2]; rfl
    · simp only [List.zipWith_cons_cons, Spec.recounted, jacLoop, step]
      simp only [Spec.recounted] at i4
      rw [i4]
      have hn : ∀ (M : M3 ℝ) (x : V3 ℝ), M.mulVec (-x) = -(M.mulVec x) := by intro M x; ext <;> simp <;> ring
      cases b
      · rfl
      · simp only [bind, Except.bind, pure, Except.pure, turned, if_true, hn]

theorem limits (bs : List Bool) (θ l u : List ℝ) (l1 : θ.length = bs.length) (l2 : l.length = bs.length) (l3 : u.length = bs.length) :
    ((∀ x ∈ (Spec.recounted bs θ).zip (List.zipWith (fun (b : Bool) (x : ℝ × ℝ) => if b then -x.2 else x.1) bs (l.zip u)), x.2 ≤ x.1) ∧
      ∀ x ∈ (Spec.recounted bs θ).zip (List.zipWith (fun (b : Bool) (x : ℝ × ℝ) => if b then -x.1 else x.2) bs (l.zip u)), x.1 ≤ x.2) ↔
    ((∀ x ∈ θ.zip l, x.2 ≤ x.1) ∧ ∀ x ∈ θ.zip u, x.1 ≤ x.2) := by
  induction bs generalizing θ l u with
  | nil =>
    obtain rfl := List.length_eq_zero_iff.1 l1
    simp [Spec.recounted]
  | cons b bs ih =>
    obtain _ | ⟨x, θ⟩ := θ
    · simp at l1
    obtain _ | ⟨y, l⟩ := l
    · simp at l2
    obtain _ | ⟨z, u⟩ := u
    · simp at l3
    have i := ih θ l u (by simpa using l1) (by simpa using l2) (by simpa using l3)
    simp only [Spec.recounted] at i
    simp only [Spec.recounted, List.zip_cons_cons, List.zipWith_cons_cons, List.forall_mem_cons]
    cases b <;> simp only [if_true, Bool.false_eq_true, if_false, neg_le_neg_iff] <;> tauto

theorem check {r : Robot ℝ} {θ : List ℝ} {bs : List Bool} (lθ : θ.length = r.H.length) (lb : bs.length = r.H.length) (ig : Bool)
    (hl : ig = false → Spec.Limited r) :
    checkLimits (Spec.recount r bs) (Spec.recounted bs θ) ig = .ok () ↔ checkLimits r θ ig = .ok () := by
  cases ig
  · obtain ⟨l, u, h1, h2, h3, h4⟩ := hl rfl
    rw [check_iff h1 h2 (by omega) (by omega), ← limits bs θ l u (by omega) (by omega) (by omega)]
    refine check_iff (by simp [Spec.recount, h1, h2]) (by simp [Spec.recount, h1, h2]) ?_ ?_ <;> simp [Spec.recounted] <;> omega
  · simp [checkLimits]

theorem col_turned (q : V3 ℝ) (b : Bool) (f : JointFrame ℝ) :
    col q (sig (turned b f)) = if b then ⟨-(col q (sig f)).top, -(col q (sig f)).bot⟩ else col q (sig f) := by
  cases b
  · rfl
  · have c : ∀ x y : V3 ℝ, (-x).cross y = -(x.cross y) := by intro x y; ext <;> simp <;> ring
    by_cases h0 : f.ty = 0
    · simp [col, sig, turned, h0, c]
    · by_cases h1 : f.ty = 1
      · simp [col, sig, turned, h1]
      · simp [col, sig, turned, h0, h1]

end AxisSignL

open AxisSignL TurnRoundL MountL

/-! ## Theorems -/

/-- C120: the robot that counts some joints in the opposite sense, asked for the same configuration, accepts it exactly if the robot does and has the
same pose, with the same frame names. -/
theorem C120_fwdkin (r : Robot ℝ) (hw : r.WF) (bs : List Bool) (lb : bs.length = r.H.length) (θ : List ℝ) (lθ : θ.length = r.H.length) (ig : Bool)
    (hl : ig = false → Spec.Limited r) (T : Transform ℝ) :
    fwdkin (Spec.recount r bs) (Spec.recounted bs θ) ig = .ok T ↔ fwdkin r θ ig = .ok T := by
  rcases hP : r.P with _ | ⟨P0, Ps⟩
  · have := hw.columns; simp [hP] at this
  have lP : Ps.length = r.H.length := by have := hw.columns; rw [hP] at this; simpa using this
  obtain ⟨e, -⟩ := loop r.jointType r.H Ps θ bs hw.joints.symm (by rw [lP, hw.joints]) (by rw [lθ, hw.joints]) (by rw [lb, hw.joints]) (1, P0)
  obtain ⟨⟨R, p⟩, e1⟩ := fwdLoop_ok r.jointType r.H Ps θ hw.joints.symm (by rw [lP, hw.joints]) (by rw [lθ, hw.joints]) (1, P0)
  rw [kin_ok hP e1, kin_ok (r := Spec.recount r bs) hP (e.trans e1), check lθ lb ig hl]
  rfl

/-- C120: without mobile joints, its Jacobian has the columns of these joints negated. -/
theorem C120_jacobian (r : Robot ℝ) (hw : r.WF) (h3 : ∀ t ∈ r.jointType, t ≠ 3) (bs : List Bool) (lb : bs.length = r.H.length) (θ : List ℝ)
    (lθ : θ.length = r.H.length) :
    ∃ J, robotjacobian r θ true = .ok J ∧ J.length = r.H.length ∧
      robotjacobian (Spec.recount r bs) (Spec.recounted bs θ) true = .ok (List.zipWith (fun b c => if b then ⟨-c.top, -c.bot⟩ else c) bs J) := by
  rcases hP : r.P with _ | ⟨P0, Ps⟩
  · have := hw.columns; simp [hP] at this
  have lP : Ps.length = r.H.length := by have := hw.columns; rw [hP] at this; simpa using this
  obtain ⟨-, fs, R, p, e1, e2, e3⟩ := loop r.jointType r.H Ps θ bs hw.joints.symm (by rw [lP, hw.joints]) (by rw [lθ, hw.joints])
    (by rw [lb, hw.joints]) (1, P0)
  have n : ∀ f ∈ fs, f.ty ≠ 3 := fun f hf => h3 f.ty (by rw [← e2]; exact List.mem_map_of_mem hf)
  have n' : ∀ f ∈ List.zipWith turned bs fs, f.ty ≠ 3 := by
    intro f hf
    obtain ⟨i, hi, rfl⟩ := List.mem_iff_getElem.1 hf
    rw [List.getElem_zipWith]
    have hi' : i < fs.length := by simp at hi; omega
    exact n (fs[i]'hi') (List.getElem_mem hi')
  refine ⟨_, jac_eq hw.toolBoth hP e1 (cols_eq _ _ n), ?_, ?_⟩
  · have := congrArg List.length e2
    simp only [List.length_map] at this ⊢
    rw [this, hw.joints]
  · rw [jac_eq (r := Spec.recount r bs) hw.toolBoth hP e3 (cols_eq _ _ n')]
    congr 1
    have a1 : auxF (Spec.recount r bs) = auxF r := rfl
    have a2 : auxX (Spec.recount r bs) = auxX r := rfl
    have a3 : auxB (Spec.recount r bs) = auxB r := rfl
    rw [a1, a2, a3]
    generalize p + R.mulVec (auxF r).p + (R * (auxF r).R).mulVec (auxX r).p = q
    have hn : ∀ (M : M3 ℝ) (x : V3 ℝ), M.mulVec (-x) = -(M.mulVec x) := by intro M x; ext <;> simp <;> ring
    rw [List.map_map, List.map_map, List.map_zipWith, List.zipWith_map_right]
    congr 1
    funext b f
    simp only [Function.comp_apply, col_turned]
    cases b <;> simp [hn]

/-- C120: so the joint values that reach a pose inside the limits are the same configurations. -/
theorem C120_solutions (r : Robot ℝ) (hw : r.WF) (hl : Spec.Limited r) (bs : List Bool) (lb : bs.length = r.H.length) (T : Transform ℝ) (φ : List ℝ)
    (lφ : φ.length = r.H.length) :
    fwdkin (Spec.recount r bs) φ = .ok T ↔ ∃ θ, θ.length = r.H.length ∧ fwdkin r θ = .ok T ∧ φ = Spec.recounted bs θ := by
  have inv : ∀ (bs : List Bool) (φ : List ℝ), φ.length = bs.length → Spec.recounted bs (Spec.recounted bs φ) = φ := by
    intro bs
    induction bs with
    | nil => intro φ h; obtain rfl := List.length_eq_zero_iff.1 h; rfl
    | cons b bs ih =>
      intro φ h
      obtain _ | ⟨x, φ⟩ := φ
      · simp at h
      have := ih φ (by simpa using h)
      simp only [Spec.recounted, List.zipWith_cons_cons] at this ⊢
      rw [this]
      cases b <;> simp
  constructor
  · intro h
    refine ⟨Spec.recounted bs φ, by simp [Spec.recounted]; omega, ?_, (inv bs φ (by omega)).symm⟩
    rw [← C120_fwdkin r hw bs lb (Spec.recounted bs φ) (by simp [Spec.recounted]; omega) false (fun _ => hl), inv bs φ (by omega)]
    exact h
  · rintro ⟨θ, lθ, h, rfl⟩
    exact (C120_fwdkin r hw bs lb θ lθ false (fun _ => hl) T).2 h

/-- a rail with limits and a turning joint with limits, base and tool, the turning joint counted in the opposite sense -/
example : ∃ r : Robot ℝ, r.WF ∧ Spec.Limited r ∧ (∀ t ∈ r.jointType, t ≠ 3) ∧ (Spec.recount r [false, true]).H = [V3.ex, -V3.ez] ∧
    (Spec.recount r [false, true]).lower = some [0, -3] ∧ (Spec.recount r [false, true]).upper = some [1, 2] := by
  refine ⟨{
      H := [V3.ex, V3.ez]
      P := [⟨3, 0, 0⟩, ⟨0, 2, 0⟩, ⟨0, 0, 1⟩]
      jointType := [1, 0]
      lower := some [0, -2]
      upper := some [1, 3]
      Rtool := some ⟨0, -1, 0, 1, 0, 0, 0, 0, 1⟩
      ptool := some ⟨1, 2, 3⟩
      Tbase := some ⟨⟨0, 0, 1, 0, 1, 0, -1, 0, 0⟩, ⟨0, 5, 0⟩, none, none⟩ }, ?_, ⟨_, _, rfl, rfl, rfl, rfl⟩, by simp, by simp [Spec.recount],
      by simp [Spec.recount], by simp [Spec.recount]⟩
  constructor
  · rfl
  · rfl
  · simp
  · simp [IsUnit3, V3.ex, V3.ez]
  · intro B hB; simp only [Option.some.injEq] at hB; subst hB; exact ⟨by ext <;> norm_num, by norm_num [M3.det]⟩
  · simp
  · intro B hB; simp only [Option.some.injEq] at hB; subst hB; exact ⟨by ext <;> norm_num, by norm_num [M3.det]⟩
  · simp
