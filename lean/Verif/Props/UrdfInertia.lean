import Verif.Props.Urdf

/-!
# Properties C51 and C59: inertia in the URDF loader
-/
set_option autoImplicit false

/-! ## C51 -/

namespace Spec

/-- scalar product of twists/wrenches -/
def dot6 (a b : V6 ℝ) : ℝ := a.top.dot b.top + a.bot.dot b.bot

/-- the inertia tensor of a URDF link as a quadratic form, zero if not given -/
def tensorForm (i : Option (UInertia ℝ)) (w : V3 ℝ) : ℝ :=
  match i with
  | none => 0
  | some i => i.ixx * w.x^2 + i.iyy * w.y^2 + i.izz * w.z^2 + 2 * i.ixy * w.x * w.y + 2 * i.ixz * w.x * w.z + 2 * i.iyz * w.y * w.z

/-- centre of mass -/
def com (o : Option (UOrigin ℝ)) : V3 ℝ := (o.bind UOrigin.xyz).getD 0

/-- mass that the loader takes into account: links of at most a milligram count as massless -/
noncomputable def mass (x : Option (UInertial ℝ)) : ℝ :=
  match x.bind UInertial.mass with
  | none => 0
  | some m => if m ≤ 1/1000000 then 0 else m

end Spec

theorem lit_tiny : (lit (1/1000000) : ℝ) = 1/1000000 := by rw [lit_real]; norm_num

theorem convert_some {x : Option (UInertial ℝ)} {M : M6 ℝ} (h : convertInertial x = some M) : ∃ i m, x = some i ∧ i.mass = some m ∧ 1/1000000 < m ∧
    M = ⟨((originPose i.origin).1 * inertiaMatrix i.inertia) * (originPose i.origin).1.transpose +
      (M3.smul (m * (originPose i.origin).2.dot (originPose i.origin).2) 1 - M3.smul m (M3.outer (originPose i.origin).2 (originPose i.origin).2)),
      M3.smul m (hat (originPose i.origin).2), M3.smul (-m) (hat (originPose i.origin).2), M3.smul m 1⟩ := by
  rcases x with _ | i
  · cases h
  · rcases hm : i.mass with _ | m
    · simp [convertInertial, hm] at h
    · simp only [convertInertial, hm, lit_tiny] at h
      split_ifs at h with hle
      simp only [Option.some.injEq] at h
      exact ⟨i, m, rfl, hm, not_le.1 hle, h.symm⟩

theorem originPose_p (o : Option (UOrigin ℝ)) : (originPose o).2 = Spec.com o := by
  rcases o with _ | ⟨_ | x, r⟩ <;> rfl

theorem originPose_R (o : Option (UOrigin ℝ)) : IsRot (originPose o).1 ∧ ∀ v, (originPose o).1.mulVec v = Spec.rpyAct (o.bind UOrigin.rpy) v := by
  rcases o with _ | ⟨x, _ | a⟩
  · exact ⟨IsRot.one, fun v => by simp [originPose, Spec.rpyAct]⟩
  · exact ⟨IsRot.one, fun v => by simp [originPose, Spec.rpyAct]⟩
  · exact ⟨urdfRot_isRot a, fun v => urdfRot_mulVec a v⟩

theorem inertia_form (i : Option (UInertia ℝ)) (w : V3 ℝ) : w.dot ((inertiaMatrix i).mulVec w) = Spec.tensorForm i w := by
  rcases i with _ | i
  · simp [inertiaMatrix, Spec.tensorForm, V3.dot]
  · simp [inertiaMatrix, Spec.tensorForm, V3.dot]; ring

/-- C51: an inertial is left out exactly if it, its mass, or more than a milligram of mass is missing. -/
theorem C51_left_out (x : Option (UInertial ℝ)) : convertInertial x = none ↔ ∀ i m, x = some i → i.mass = some m → m ≤ 1/1000000 := by
  constructor
  · rintro h i m rfl hm
    by_contra hlt
    simp [convertInertial, hm, lit_tiny] at h
    simp at hlt; linarith
  · intro h
    rcases hc : convertInertial x with _ | M
    · rfl
    · obtain ⟨i, m, hx, hm, hlt, -⟩ := convert_some hc
      exact absurd (h i m hx hm) (not_le.2 hlt)

/-- C51: the spatial inertia of every URDF inertial is a symmetric matrix. -/
theorem C51_symmetric (x : Option (UInertial ℝ)) (M : M6 ℝ) (h : convertInertial x = some M) : M.transpose = M := by
  obtain ⟨i, m, -, -, -, rfl⟩ := convert_some h
  have hI : (inertiaMatrix i.inertia).transpose = inertiaMatrix i.inertia := by rcases i.inertia with _ | i <;> rfl
  generalize (originPose i.origin).1 = R
  generalize (originPose i.origin).2 = p
  generalize inertiaMatrix i.inertia = I at hI
  have c1 : I.a10 = I.a01 := congrArg M3.a01 hI
  have c2 : I.a20 = I.a02 := congrArg M3.a02 hI
  have c3 : I.a21 = I.a12 := congrArg M3.a12 hI
  unfold M6.transpose
  ext <;> simp [M3.outer, c1, c2, c3] <;> ring

/-- C51: its quadratic form is twice the kinetic energy of the link about its frame origin: for the angular velocity `w` in the frame of the inertial
(so `rpyAct rpy w` in the link frame) and the velocity `v` of the origin, the mass moves with the centre of mass and the tensor turns with `w`. -/
theorem C51_kinetic_energy (i : UInertial ℝ) (m : ℝ) (hm : i.mass = some m) (M : M6 ℝ) (h : convertInertial (some i) = some M) (w v : V3 ℝ) :
    let ω := Spec.rpyAct (i.origin.bind UOrigin.rpy) w
    let c := v + ω.cross (Spec.com i.origin)
    Spec.dot6 ⟨ω, v⟩ (M.mulVec ⟨ω, v⟩) = m * c.dot c + Spec.tensorForm i.inertia w := by
  obtain ⟨i', m', he, hm', -, rfl⟩ := convert_some h
  cases he
  rw [hm] at hm'; cases hm'
  obtain ⟨hR, hv⟩ := originPose_R i.origin
  intro ω c
  have hω : ω = (originPose i.origin).1.mulVec w := (hv w).symm
  have hw : (originPose i.origin).1.transpose.mulVec ω = w := by
    rw [hω, M3.mulVec_mulVec, hR.orth, M3.one_mulVec]
  have e1 : ω.dot ((((originPose i.origin).1 * inertiaMatrix i.inertia) * (originPose i.origin).1.transpose).mulVec ω) = Spec.tensorForm i.inertia w := by
    rw [← M3.mulVec_mulVec, hw, ← M3.mulVec_mulVec, ← inertia_form]
    rw [hω, hR.mulVec_dot]
  rw [originPose_p]
  simp only [Spec.dot6, M6.mulVec, M3.add_mulVec]
  have e2 : ∀ a b : V3 ℝ, ω.dot (a + b) = ω.dot a + ω.dot b := fun a b => by simp [V3.dot]; ring
  rw [e2, e2, e1]
  clear e1 e2 hw hω hv
  clear_value ω
  simp only [c]
  simp [V3.dot, M3.outer]; ring

/-- C51: it is positive semidefinite whenever the tensor is (or is not given). -/
theorem C51_psd (i : UInertial ℝ) (M : M6 ℝ) (h : convertInertial (some i) = some M) (hpsd : ∀ w, 0 ≤ Spec.tensorForm i.inertia w) (x : V6 ℝ) :
    0 ≤ Spec.dot6 x (M.mulVec x) := by
  obtain ⟨i', m, he, hm, hlt, -⟩ := convert_some h
  cases he
  obtain ⟨hR, hv⟩ := originPose_R i.origin
  have hx : Spec.rpyAct (i.origin.bind UOrigin.rpy) ((originPose i.origin).1.transpose.mulVec x.top) = x.top := by
    rw [← hv, M3.mulVec_mulVec, hR.orth', M3.one_mulVec]
  have := C51_kinetic_energy i m hm M h ((originPose i.origin).1.transpose.mulVec x.top) x.bot
  simp only [hx] at this
  rw [show x = ⟨x.top, x.bot⟩ from rfl, this]
  have := hpsd ((originPose i.origin).1.transpose.mulVec x.top)
  have hc : 0 ≤ (x.bot + x.top.cross (Spec.com i.origin)).dot (x.bot + x.top.cross (Spec.com i.origin)) := by
    simp only [V3.dot]; nlinarith [mul_self_nonneg (x.bot + x.top.cross (Spec.com i.origin)).x, mul_self_nonneg (x.bot + x.top.cross (Spec.com i.origin)).y, mul_self_nonneg (x.bot + x.top.cross (Spec.com i.origin)).z]
  have : 0 ≤ m := by linarith
  positivity

/-! masses along the chain -/

namespace Spec

/-- the link of that name -/
def inertialOf (u : Urdf ℝ) (name : String) : Option (UInertial ℝ) := (u.links.find? fun l => l.name == name).bind ULink.inertial

/-- sum of the linear (bottom right) blocks -/
def sumBr (Ms : List (M6 ℝ)) : M3 ℝ := (Ms.map M6.br).foldr (· + ·) 0

end Spec

/-- linear block, zero if absent -/
noncomputable def brOf (m : Option (M6 ℝ)) : M3 ℝ := match m with | none => 0 | some M => M.br

theorem M3.add_zero' (A : M3 ℝ) : A + 0 = A := by ext <;> simp
theorem M3.zero_add' (A : M3 ℝ) : 0 + A = A := by ext <;> simp
theorem M3.add_assoc' (A B C : M3 ℝ) : A + B + C = A + (B + C) := by ext <;> simp <;> ring

theorem brOf_append (a b : Option (M6 ℝ)) : brOf (appendInertia a b) = brOf a + brOf b := by
  rcases a with _ | a <;> rcases b with _ | b <;> simp [appendInertia, brOf, M3.add_zero', M3.zero_add', M6.add]

theorem brOf_convert (x : Option (UInertial ℝ)) : brOf (convertInertial x) = M3.smul (Spec.mass x) 1 := by
  rcases h : convertInertial x with _ | M
  · have h' := (C51_left_out x).1 h
    have : Spec.mass x = 0 := by
      rcases x with _ | i
      · rfl
      · rcases hm : i.mass with _ | m
        · simp [Spec.mass, hm]
        · simp [Spec.mass, hm]; intro hlt; have := h' i m rfl hm; linarith
    rw [this]; ext <;> simp [brOf]
  · obtain ⟨i, m, rfl, hm, hlt, rfl⟩ := convert_some h
    have : Spec.mass (some i) = m := by simp [Spec.mass, hm]; intro; linarith
    rw [this]; rfl

theorem link_inertial {u : Urdf ℝ} (hl : (u.links.map ULink.name).Nodup) {n : String} {l : ULink ℝ} (h : u.link n = .ok l) :
    l.inertial = Spec.inertialOf u n := by
  unfold Urdf.link at h
  split at h
  · rename_i l' hl'
    cases h
    have h1 : l ∈ u.links := by simpa using List.mem_of_find?_eq_some hl'
    have h2 : l.name = n := by simpa using List.find?_some hl'
    subst h2
    have h3 := find_unique (l := u.links.reverse) (f := ULink.name) (by rw [List.map_reverse, List.nodup_reverse]; exact hl) (x := l) (by simpa using h1)
    rw [List.reverse_reverse] at h3
    unfold Spec.inertialOf
    rw [h3]; rfl
  · cases h

/-- mass that a joint of the chain adds: that of its parent link, provided the child link has an inertial -/
noncomputable def Spec.jointMass (u : Urdf ℝ) (j : UJoint ℝ) : ℝ :=
  if (Spec.inertialOf u j.child).isSome then Spec.mass (Spec.inertialOf u j.parent) else 0

theorem jointInertia_br {u : Urdf ℝ} (hl : (u.links.map ULink.name).Nodup) {j : UJoint ℝ} {m m' : Option (M6 ℝ)} (h : jointInertia u j m = .ok m') :
    brOf m' = brOf m + M3.smul (Spec.jointMass u j) 1 := by
  obtain ⟨c, hc, h⟩ := Except.bind_eq_ok h
  have e := link_inertial hl hc
  rcases hi : c.inertial with _ | i
  · simp only [hi] at h; cases h
    rw [hi] at e
    unfold Spec.jointMass; rw [← e]; ext <;> simp
  · simp only [hi] at h
    obtain ⟨p, hp, h⟩ := Except.bind_eq_ok h
    cases h
    rw [hi] at e
    unfold Spec.jointMass; rw [← e, brOf_append, link_inertial hl hp, brOf_convert]; rfl

theorem foldr_snoc (l : List (Option (M6 ℝ))) (m : Option (M6 ℝ)) :
    ((l ++ [m]).map brOf).foldr (· + ·) 0 = (l.map brOf).foldr (· + ·) 0 + brOf m := by
  induction l with
  | nil => simp [M3.add_zero', M3.zero_add']
  | cons a l ih => simp only [List.cons_append, List.map_cons, List.foldr_cons, ih, M3.add_assoc']

theorem urdfLoop_br {u : Urdf ℝ} (hl : (u.links.map ULink.name).Nodup) (js : List (UJoint ℝ)) (s s' : UState ℝ) (h : urdfLoop u js s = .ok s') :
    (s'.M.map brOf).foldr (· + ·) 0 + brOf s'.m = (s.M.map brOf).foldr (· + ·) 0 + brOf s.m + M3.smul ((js.map (Spec.jointMass u)).sum) 1 := by
  induction js generalizing s with
  | nil => cases h; ext <;> simp
  | cons j js ih =>
    obtain ⟨s1, h1, h⟩ := Except.bind_eq_ok h
    rw [ih s1 h]
    have add : ∀ (A : M3 ℝ) (x y : ℝ), A + M3.smul x 1 + M3.smul y 1 = A + M3.smul (x + y) 1 := fun A x y => by ext <;> simp <;> ring
    obtain ⟨m, hm, ⟨hf, rfl⟩ | ⟨hf, a, ha, rfl⟩⟩ := urdfStep_ok h1
    · dsimp only
      rw [jointInertia_br hl hm, ← M3.add_assoc', add]; rfl
    · dsimp only
      rw [foldr_snoc, jointInertia_br hl hm, ← M3.add_assoc', show brOf (none : Option (M6 ℝ)) = 0 from rfl, M3.add_zero', add]; rfl

theorem masses_aux {u : Urdf ℝ} (hl : (u.links.map ULink.name).Nodup) {js : List (UJoint ℝ)} {s : UState ℝ} {last : UJoint ℝ} {link : ULink ℝ}
    {rt t : String} (chain : Spec.Chain u rt js t) (hlast : js.getLast? = some last) (loop : urdfLoop u js { p := 0, R := 1 } = .ok s)
    (hlink : u.link last.child = .ok link) {Ms : List (M6 ℝ)} (hM : noneIn (s.M ++ [appendInertia s.m (convertInertial link.inertial)]) = some Ms) :
    Ms.length = (Spec.moving js).length + 1 ∧
      Spec.sumBr Ms = M3.smul ((js.map (Spec.jointMass u)).sum + Spec.mass (Spec.inertialOf u t)) 1 := by
  rw [noneIn_eq_some] at hM
  have hli := link_inertial hl hlink
  rw [chain.1.last hlast] at hli
  have A := urdfLoop_adds js _ _ loop
  constructor
  · have e := congrArg List.length hM
    have := A.lM
    simp at e this; omega
  · have e := urdfLoop_br hl js _ _ loop
    have e2 := foldr_snoc s.M (appendInertia s.m (convertInertial link.inertial))
    rw [hM, List.map_map] at e2
    have e3 : (Ms.map (brOf ∘ some)) = Ms.map M6.br := rfl
    rw [e3, brOf_append, brOf_convert, ← M3.add_assoc', e, hli] at e2
    unfold Spec.sumBr
    rw [e2]
    ext <;> simp [brOf]

/-- C51: the masses of the loaded inertia matrices add up to those of the parent links of the joints (where the child link has an inertial) and of the
tip link. -/
theorem C51_masses (fuel : Nat) (u : Urdf ℝ) (hn : (u.joints.map UJoint.name).Nodup) (hl : (u.links.map ULink.name).Nodup) (root tip : Option String)
    (r : Robot ℝ) (h : urdfLoad fuel u root tip = .ok r) :
    ∃ rt t js, r.rootLink = some rt ∧ r.tipLink = some t ∧ Spec.Chain u rt js t ∧ ∀ Ms, r.M = some Ms →
      Ms.length = (Spec.moving js).length + 1 ∧
      Spec.sumBr Ms = M3.smul ((js.map (Spec.jointMass u)).sum + Spec.mass (Spec.inertialOf u t)) 1 := by
  obtain ⟨⟨rt, t, tips, js, last, link, s, -, -, -, chain, hlast, loop, hlink, robot_eq, -⟩⟩ := urdfLoad_loaded hn h
  refine ⟨rt, t, js, by rw [robot_eq], by rw [robot_eq], chain, fun Ms hM => ?_⟩
  rw [robot_eq] at hM
  exact masses_aux hl chain hlast loop hlink hM

/-- along a path, the parents and the tip are the root and the children -/
theorem Spec.Path.sum_links {u : Urdf ℝ} {a b : String} {js : List (UJoint ℝ)} (h : Spec.Path u a js b) (f : String → ℝ) :
    (js.map fun j => f j.parent).sum + f b = f a + (js.map fun j => f j.child).sum := by
  induction h with
  | nil l => simp
  | cons j js t hj _ ih => simp only [List.map_cons, List.sum_cons]; linarith

/-- C51: if every link has more than a milligram of mass, the robot has inertia matrices, and their masses add up to the mass of all links of the chain,
each counted once. -/
theorem C51_total_mass (fuel : Nat) (u : Urdf ℝ) (hn : (u.joints.map UJoint.name).Nodup) (hl : (u.links.map ULink.name).Nodup) (root tip : Option String)
    (r : Robot ℝ) (h : urdfLoad fuel u root tip = .ok r)
    (hm : ∀ l ∈ u.links, ∃ i m, l.inertial = some i ∧ i.mass = some m ∧ 1/1000000 < m) :
    ∃ rt t js Ms, r.rootLink = some rt ∧ r.tipLink = some t ∧ Spec.Chain u rt js t ∧ r.M = some Ms ∧
      Spec.sumBr Ms = M3.smul (Spec.mass (Spec.inertialOf u rt) + (js.map fun j => Spec.mass (Spec.inertialOf u j.child)).sum) 1 := by
  obtain ⟨⟨rt, t, tips, js, last, link, s, -, -, -, chain, hlast, loop, hlink, robot_eq, -⟩⟩ := urdfLoad_loaded hn h
  have convSome : ∀ (n : String) (l : ULink ℝ), u.link n = .ok l → l.inertial.isSome ∧ (convertInertial l.inertial).isSome := by
    intro n l hl'
    have : l ∈ u.links := by
      unfold Urdf.link at hl'
      split at hl'
      · rename_i l' h'; cases hl'; simpa using List.mem_of_find?_eq_some h'
      · cases hl'
    obtain ⟨i, m, hi, him, hlt⟩ := hm l this
    refine ⟨by simp [hi], ?_⟩
    rcases hc : convertInertial l.inertial with _ | M
    · have := (C51_left_out _).1 hc i m hi him; linarith
    · rfl
  -- all entries are present
  have ind : ∀ (js : List (UJoint ℝ)) (s s' : UState ℝ), urdfLoop u js s = .ok s' → (∀ x ∈ s.M, x.isSome) → (∀ x ∈ s'.M, x.isSome) ∧
      (∀ j ∈ js, ∃ c p, u.link j.child = .ok c ∧ u.link j.parent = .ok p) := by
    intro js
    induction js with
    | nil => intro s s' h hs; cases h; exact ⟨hs, by simp⟩
    | cons j js ih =>
      intro s s' h hs
      obtain ⟨s1, h1, h⟩ := Except.bind_eq_ok h
      have fact : ∀ m, jointInertia u j s.m = .ok m → m.isSome ∧ ∃ c p, u.link j.child = .ok c ∧ u.link j.parent = .ok p := by
        intro m hm'
        obtain ⟨c, hc, hm'⟩ := Except.bind_eq_ok hm'
        obtain ⟨i, hi⟩ := Option.isSome_iff_exists.1 (convSome _ _ hc).1
        simp only [hi] at hm'
        obtain ⟨p, hp, hm'⟩ := Except.bind_eq_ok hm'
        cases hm'
        obtain ⟨M, hM⟩ := Option.isSome_iff_exists.1 (convSome _ _ hp).2
        refine ⟨?_, c, p, hc, hp⟩
        rw [hM]; rcases s.m with _ | m <;> rfl
      obtain ⟨m, hm', ⟨hf, rfl⟩ | ⟨hf, a, ha, rfl⟩⟩ := urdfStep_ok h1
      · obtain ⟨g1, g2⟩ := ih _ _ h hs
        refine ⟨g1, fun k hk => ?_⟩
        rcases List.mem_cons.1 hk with rfl | hk
        · exact (fact m hm').2
        · exact g2 k hk
      · obtain ⟨g1, g2⟩ := ih _ _ h (by
          intro x hx
          rcases List.mem_append.1 hx with hx | hx
          · exact hs x hx
          · rw [List.mem_singleton] at hx; rw [hx]; exact (fact m hm').1)
        refine ⟨g1, fun k hk => ?_⟩
        rcases List.mem_cons.1 hk with rfl | hk
        · exact (fact m hm').2
        · exact g2 k hk
  obtain ⟨g1, g2⟩ := ind js _ _ loop (by simp)
  obtain ⟨Ms, hMs⟩ : ∃ Ms, noneIn (s.M ++ [appendInertia s.m (convertInertial link.inertial)]) = some Ms := by
    have all : ∀ x ∈ s.M ++ [appendInertia s.m (convertInertial link.inertial)], x.isSome := by
      intro x hx
      rcases List.mem_append.1 hx with hx | hx
      · exact g1 x hx
      · rw [List.mem_singleton] at hx; subst hx
        obtain ⟨M, hM⟩ := Option.isSome_iff_exists.1 (convSome _ _ hlink).2
        rw [hM]; rcases s.m with _ | m <;> rfl
    generalize s.M ++ [appendInertia s.m (convertInertial link.inertial)] = l at all
    induction l with
    | nil => exact ⟨[], rfl⟩
    | cons a l ih =>
      obtain ⟨x, rfl⟩ := Option.isSome_iff_exists.1 (all a (by simp))
      obtain ⟨Ms, h⟩ := ih fun y hy => all y (by simp [hy])
      exact ⟨x :: Ms, by simp [noneIn, h]⟩
  refine ⟨rt, t, js, Ms, by rw [robot_eq], by rw [robot_eq], chain, by rw [robot_eq]; exact hMs, ?_⟩
  rw [(masses_aux hl chain hlast loop hlink hMs).2]
  congr 1
  rw [← chain.1.sum_links fun n => Spec.mass (Spec.inertialOf u n)]
  congr 2
  apply List.map_congr_left
  intro j hj
  obtain ⟨c, p, hc, hp⟩ := g2 j hj
  unfold Spec.jointMass
  rw [← link_inertial hl hc, if_pos (convSome _ _ hc).1]

/-! kinetic energy along the chain -/

/-- twice the kinetic energy of a link that moves with the twist `x` (angular velocity, velocity of the origin of its frame); links that the loader
leaves out have none -/
def Spec.IsEnergy (i : Option (UInertial ℝ)) (x : V6 ℝ) (e : ℝ) : Prop :=
  match i with
  | none => e = 0
  | some i => (Spec.mass (some i) = 0 → e = 0) ∧ (Spec.mass (some i) ≠ 0 → ∀ w, Spec.rpyAct (i.origin.bind UOrigin.rpy) w = x.top →
      e = Spec.mass (some i) * (x.bot + x.top.cross (Spec.com i.origin)).dot (x.bot + x.top.cross (Spec.com i.origin)) + Spec.tensorForm i.inertia w)

/-- quadratic form, zero if absent -/
noncomputable def formOf (x : V6 ℝ) (m : Option (M6 ℝ)) : ℝ := match m with | none => 0 | some M => Spec.dot6 x (M.mulVec x)

theorem formOf_append (x : V6 ℝ) (a b : Option (M6 ℝ)) : formOf x (appendInertia a b) = formOf x a + formOf x b := by
  rcases a with _ | a <;> rcases b with _ | b <;> simp [appendInertia, formOf, M6.add, Spec.dot6, M6.mulVec, V3.dot]
  ring

theorem formOf_convert {i : Option (UInertial ℝ)} {x : V6 ℝ} {e : ℝ} (h : Spec.IsEnergy i x e) : formOf x (convertInertial i) = e := by
  rcases hc : convertInertial i with _ | M
  · have h' := (C51_left_out i).1 hc
    rcases i with _ | i
    · exact h.symm
    · refine (h.1 ?_).symm
      rcases hm : i.mass with _ | m
      · simp [Spec.mass, hm]
      · simp [Spec.mass, hm]; intro hlt; have := h' i m rfl hm; linarith
  · obtain ⟨j, m, rfl, hm, hlt, -⟩ := convert_some hc
    have e1 : Spec.mass (some j) = m := by simp [Spec.mass, hm]; intro; linarith
    obtain ⟨hR, hv⟩ := originPose_R j.origin
    have hx : Spec.rpyAct (j.origin.bind UOrigin.rpy) ((originPose j.origin).1.transpose.mulVec x.top) = x.top := by
      rw [← hv, M3.mulVec_mulVec, hR.orth', M3.one_mulVec]
    have h2 := h.2 (by rw [e1]; linarith) _ hx
    have h3 := C51_kinetic_energy j m hm M hc ((originPose j.origin).1.transpose.mulVec x.top) x.bot
    simp only [hx] at h3
    rw [h2, e1]
    exact h3

theorem jointInertia_form {u : Urdf ℝ} (hl : (u.links.map ULink.name).Nodup) {x : V6 ℝ} {E : String → ℝ}
    (hE : ∀ n, Spec.IsEnergy (Spec.inertialOf u n) x (E n)) {j : UJoint ℝ} {m m' : Option (M6 ℝ)} (h : jointInertia u j m = .ok m') :
    formOf x m' = formOf x m + if (Spec.inertialOf u j.child).isSome then E j.parent else 0 := by
  obtain ⟨c, hc, h⟩ := Except.bind_eq_ok h
  have e := link_inertial hl hc
  rcases hi : c.inertial with _ | i
  · simp only [hi] at h; cases h
    rw [hi] at e
    rw [← e]; simp
  · simp only [hi] at h
    obtain ⟨p, hp, h⟩ := Except.bind_eq_ok h
    cases h
    rw [hi] at e
    rw [← e, formOf_append, link_inertial hl hp, formOf_convert (hE _)]; simp

theorem urdfLoop_form {u : Urdf ℝ} (hl : (u.links.map ULink.name).Nodup) {x : V6 ℝ} {E : String → ℝ}
    (hE : ∀ n, Spec.IsEnergy (Spec.inertialOf u n) x (E n)) (js : List (UJoint ℝ)) (s s' : UState ℝ) (h : urdfLoop u js s = .ok s') :
    (s'.M.map (formOf x)).sum + formOf x s'.m = (s.M.map (formOf x)).sum + formOf x s.m +
      (js.map fun j => if (Spec.inertialOf u j.child).isSome then E j.parent else 0).sum := by
  induction js generalizing s with
  | nil => cases h; simp
  | cons j js ih =>
    obtain ⟨s1, h1, h⟩ := Except.bind_eq_ok h
    rw [ih s1 h]
    obtain ⟨m, hm, ⟨hf, rfl⟩ | ⟨hf, a, ha, rfl⟩⟩ := urdfStep_ok h1
    · dsimp only
      rw [jointInertia_form hl hE hm, List.map_cons, List.sum_cons]; ring
    · dsimp only
      rw [List.map_append, List.sum_append, List.map_cons, List.map_nil, List.sum_cons, List.sum_nil, jointInertia_form hl hE hm, List.map_cons,
        List.sum_cons, show formOf x (none : Option (M6 ℝ)) = 0 from rfl]; ring

/-- C51: nothing of the inertia of a link that is counted is lost where matrices are added up: whatever the common twist of the links, the loaded
matrices together have the kinetic energy of the parent links of the joints (where the child link has an inertial) and of the tip link. -/
theorem C51_energies (fuel : Nat) (u : Urdf ℝ) (hn : (u.joints.map UJoint.name).Nodup) (hl : (u.links.map ULink.name).Nodup) (root tip : Option String)
    (r : Robot ℝ) (h : urdfLoad fuel u root tip = .ok r) (x : V6 ℝ) (E : String → ℝ) (hE : ∀ n, Spec.IsEnergy (Spec.inertialOf u n) x (E n)) :
    ∃ rt t js, r.rootLink = some rt ∧ r.tipLink = some t ∧ Spec.Chain u rt js t ∧ ∀ Ms, r.M = some Ms →
      (Ms.map fun M => Spec.dot6 x (M.mulVec x)).sum =
        (js.map fun j => if (Spec.inertialOf u j.child).isSome then E j.parent else 0).sum + E t := by
  obtain ⟨⟨rt, t, tips, js, last, link, s, -, -, -, chain, hlast, loop, hlink, robot_eq, -⟩⟩ := urdfLoad_loaded hn h
  refine ⟨rt, t, js, by rw [robot_eq], by rw [robot_eq], chain, fun Ms hM => ?_⟩
  rw [robot_eq] at hM
  rw [noneIn_eq_some] at hM
  have hli := link_inertial hl hlink
  rw [chain.1.last hlast] at hli
  have e := urdfLoop_form hl hE js _ _ loop
  have e2 := congrArg (fun l => (l.map (formOf x)).sum) hM
  simp only [List.map_append, List.sum_append, List.map_cons, List.map_nil, List.sum_cons, List.sum_nil, formOf_append, hli, formOf_convert (hE t),
    List.map_map] at e2
  have e3 : Ms.map (formOf x ∘ some) = Ms.map fun M => Spec.dot6 x (M.mulVec x) := rfl
  rw [e3] at e2
  simp only [List.map_nil, List.sum_nil, formOf] at e
  have e4 : formOf x s.m = match s.m with | none => 0 | some M => Spec.dot6 x (M.mulVec x) := rfl
  rw [e4] at e2
  linarith

/-- every link has such an energy, whatever the twist -/
example (u : Urdf ℝ) (x : V6 ℝ) : ∃ E : String → ℝ, ∀ n, Spec.IsEnergy (Spec.inertialOf u n) x (E n) := by
  choose E hE using fun n => (⟨_, rfl⟩ : ∃ e, e = formOf x (convertInertial (Spec.inertialOf u n)))
  refine ⟨E, fun n => ?_⟩
  rw [hE n]
  rcases h : Spec.inertialOf u n with _ | i
  · rfl
  · rcases hc : convertInertial (some i) with _ | M
    · refine ⟨fun _ => rfl, fun h0 => absurd ?_ h0⟩
      rcases hm : i.mass with _ | m
      · simp [Spec.mass, hm]
      · have := (C51_left_out _).1 hc i m rfl hm
        simp only [Spec.mass, hm, Option.bind_some, if_pos this]
    · obtain ⟨j, m, hj, hm, hlt, -⟩ := convert_some hc
      cases hj
      have e1 : Spec.mass (some i) = m := by simp [Spec.mass, hm]; intro; linarith
      refine ⟨fun h0 => by rw [e1] at h0; linarith, fun _ w hw => ?_⟩
      have := C51_kinetic_energy i m hm M hc w x.bot
      simp only [hw] at this
      rw [e1]; exact this

theorem M6.add_transpose (A B : M6 ℝ) (hA : A.transpose = A) (hB : B.transpose = B) : (A.add B).transpose = A.add B := by
  rw [M6.ext_iff] at hA hB
  obtain ⟨a1, a2, a3, a4⟩ := hA
  obtain ⟨b1, b2, b3, b4⟩ := hB
  simp only [M6.transpose] at a1 a2 a3 a4 b1 b2 b3 b4
  have t : ∀ X Y : M3 ℝ, (X + Y).transpose = X.transpose + Y.transpose := fun X Y => by ext <;> simp
  simp only [M6.transpose, M6.add, t, a1, a2, a3, a4, b1, b2, b3, b4]

/-- C51: all loaded inertia matrices are symmetric. -/
theorem C51_loaded_symmetric (fuel : Nat) (u : Urdf ℝ) (hn : (u.joints.map UJoint.name).Nodup) (root tip : Option String)
    (r : Robot ℝ) (h : urdfLoad fuel u root tip = .ok r) (Ms : List (M6 ℝ)) (hM : r.M = some Ms) : ∀ M ∈ Ms, M.transpose = M := by
  obtain ⟨⟨rt, t, tips, js, last, link, s, -, -, -, chain, hlast, loop, hlink, robot_eq, -⟩⟩ := urdfLoad_loaded hn h
  rw [robot_eq] at hM
  rw [noneIn_eq_some] at hM
  have app : ∀ a b : Option (M6 ℝ), (∀ M, a = some M → M.transpose = M) → (∀ M, b = some M → M.transpose = M) →
      ∀ M, appendInertia a b = some M → M.transpose = M := by
    intro a b ha hb M hab
    rcases a with _ | a <;> rcases b with _ | b <;> simp only [appendInertia] at hab
    · cases hab
    · exact hb M hab
    · exact ha M hab
    · cases hab; exact M6.add_transpose _ _ (ha a rfl) (hb b rfl)
  have ind : ∀ (js : List (UJoint ℝ)) (s s' : UState ℝ), urdfLoop u js s = .ok s' →
      (∀ x ∈ s.M, ∀ M, x = some M → M.transpose = M) → (∀ M, s.m = some M → M.transpose = M) →
      (∀ x ∈ s'.M, ∀ M, x = some M → M.transpose = M) ∧ (∀ M, s'.m = some M → M.transpose = M) := by
    intro js
    induction js with
    | nil => intro s s' h a b; cases h; exact ⟨a, b⟩
    | cons j js ih =>
      intro s s' h a b
      obtain ⟨s1, h1, h⟩ := Except.bind_eq_ok h
      have fact : ∀ m, jointInertia u j s.m = .ok m → ∀ M, m = some M → M.transpose = M := by
        intro m hm
        obtain ⟨c, hc, hm⟩ := Except.bind_eq_ok hm
        rcases hi : c.inertial with _ | i
        · simp only [hi] at hm; cases hm; exact b
        · simp only [hi] at hm
          obtain ⟨p, hp, hm⟩ := Except.bind_eq_ok hm
          cases hm
          exact app _ _ b fun M hM => C51_symmetric _ M hM
      obtain ⟨m, hm', ⟨hf, rfl⟩ | ⟨hf, q, ha, rfl⟩⟩ := urdfStep_ok h1
      · exact ih _ _ h a (fact m hm')
      · refine ih _ _ h ?_ (by simp)
        intro x hx
        rcases List.mem_append.1 hx with hx | hx
        · exact a x hx
        · rw [List.mem_singleton] at hx; rw [hx]; exact fact m hm'
  obtain ⟨g1, g2⟩ := ind js _ _ loop (by simp) (by simp)
  intro M hMs
  have : some M ∈ s.M ++ [appendInertia s.m (convertInertial link.inertial)] := by rw [hM]; exact List.mem_map.2 ⟨M, hMs, rfl⟩
  rcases List.mem_append.1 this with h1 | h1
  · exact g1 _ h1 M rfl
  · rw [List.mem_singleton] at h1
    exact app _ _ g2 (fun M hM => C51_symmetric _ M hM) M h1.symm

/-! ## C59 -/

/-- C59 (`_partial`): if every link, including the root and the tip, has more than a milligram of mass, the loaded robot has inertia matrices, one for
each moving joint and one for the tip.  Missing from the property: links that do not move need mass too (`C59_massless_tip_false`,
`C59_massless_root_false`). -/
theorem C59_inertia_present_partial (fuel : Nat) (u : Urdf ℝ) (hn : (u.joints.map UJoint.name).Nodup) (hl : (u.links.map ULink.name).Nodup)
    (root tip : Option String) (r : Robot ℝ) (h : urdfLoad fuel u root tip = .ok r)
    (hm : ∀ l ∈ u.links, ∃ i m, l.inertial = some i ∧ i.mass = some m ∧ 1/1000000 < m) :
    ∃ Ms, r.M = some Ms ∧ Ms.length = r.H.length + 1 := by
  obtain ⟨rt, t, js, Ms, -, -, -, hM, -⟩ := C51_total_mass fuel u hn hl root tip r h hm
  obtain ⟨⟨rt, t, tips, js, last, link, s, -, -, -, chain, hlast, loop, hlink, robot_eq, -⟩⟩ := urdfLoad_loaded hn h
  refine ⟨Ms, hM, ?_⟩
  rw [robot_eq] at hM ⊢
  have := (masses_aux hl chain hlast loop hlink hM).1
  have A := (urdfLoop_adds js _ _ loop).lH
  simp at A ⊢
  omega

theorem urdfLoop_append {u : Urdf ℝ} (js ks : List (UJoint ℝ)) (s s' : UState ℝ) (h : urdfLoop u (js ++ ks) s = .ok s') :
    ∃ s1, urdfLoop u js s = .ok s1 ∧ urdfLoop u ks s1 = .ok s' := by
  induction js generalizing s with
  | nil => exact ⟨s, rfl, h⟩
  | cons j js ih =>
    obtain ⟨s0, h0, h⟩ := Except.bind_eq_ok h
    obtain ⟨s1, h1, h2⟩ := ih s0 h
    exact ⟨s1, by rw [urdfLoop, h0]; exact h1, h2⟩

/-- C59 is false: a robot whose tip is a massless frame (such as `tool0`) fixed to the last moving link has no inertia matrices, whatever the masses of
its links. -/
theorem C59_massless_tip_false (fuel : Nat) (u : Urdf ℝ) (hn : (u.joints.map UJoint.name).Nodup) (hl : (u.links.map ULink.name).Nodup)
    (hc : (u.joints.map UJoint.child).Nodup) (root : Option String) (t : String) (r : Robot ℝ) (h : urdfLoad fuel u root (some t) = .ok r)
    (rt : String) (hrt : r.rootLink = some rt) (js : List (UJoint ℝ)) (j f : UJoint ℝ) (hj : j.jointType ≠ "fixed") (hf : f.jointType = "fixed")
    (hchain : Spec.Chain u rt (js ++ [j, f]) t) (ht : Spec.inertialOf u t = none) : r.M = none := by
  obtain ⟨⟨rt', t', tips, ks, last, link, s, -, -, htip, chain, hlast, loop, hlink, robot_eq, -⟩⟩ := urdfLoad_loaded hn h
  cases htip
  obtain rfl : rt' = rt := by rw [robot_eq] at hrt; simpa using hrt
  obtain rfl := chain.unique hc hchain
  have hli := link_inertial hl hlink
  rw [chain.1.last hlast, ht] at hli
  have hfc : f.child = t := chain.1.last (by simp)
  rw [show js ++ [j, f] = (js ++ [j]) ++ [f] by simp] at loop
  obtain ⟨s1, hs1, hs2⟩ := urdfLoop_append _ _ _ _ loop
  obtain ⟨s0, -, hs1⟩ := urdfLoop_append _ _ _ _ hs1
  have m1 : s1.m = none := by
    obtain ⟨s1', h1, h2⟩ := Except.bind_eq_ok hs1
    cases h2
    obtain ⟨m, hm, ⟨hf', -⟩ | ⟨-, a, -, rfl⟩⟩ := urdfStep_ok h1
    · exact absurd hf' hj
    · rfl
  have m2 : s.m = none := by
    obtain ⟨s1', h1, h2⟩ := Except.bind_eq_ok hs2
    cases h2
    obtain ⟨m, hm, ⟨-, rfl⟩ | ⟨hf', -⟩⟩ := urdfStep_ok h1
    · obtain ⟨c, hc', hm⟩ := Except.bind_eq_ok hm
      have := link_inertial hl hc'
      rw [hfc, ht] at this
      simp only [this, m1] at hm
      cases hm; rfl
    · rw [hf] at hf'; simp at hf'
  rw [robot_eq]
  dsimp only
  rw [m2, hli, Option.eq_none_iff_forall_ne_some]
  intro Ms hMs
  rw [noneIn_eq_some] at hMs
  have : (none : Option (M6 ℝ)) ∈ Ms.map some := by rw [← hMs]; simp [appendInertia, convertInertial]
  simp at this

/-- C59 is false: a robot whose root link is massless (such as `world`) has no inertia matrices. -/
theorem C59_massless_root_false (fuel : Nat) (u : Urdf ℝ) (hn : (u.joints.map UJoint.name).Nodup) (hl : (u.links.map ULink.name).Nodup)
    (hc : (u.joints.map UJoint.child).Nodup) (root : Option String) (t : String) (r : Robot ℝ) (h : urdfLoad fuel u root (some t) = .ok r)
    (rt : String) (hrt : r.rootLink = some rt) (js : List (UJoint ℝ)) (j : UJoint ℝ) (hj : j.jointType ≠ "fixed")
    (hchain : Spec.Chain u rt (j :: js) t) (ht : Spec.inertialOf u rt = none) : r.M = none := by
  obtain ⟨⟨rt', t', tips, ks, last, link, s, -, -, htip, chain, hlast, loop, hlink, robot_eq, -⟩⟩ := urdfLoad_loaded hn h
  cases htip
  obtain rfl : rt' = rt := by rw [robot_eq] at hrt; simpa using hrt
  obtain rfl := chain.unique hc hchain
  have hp : j.parent = rt' := by
    have h := chain.1
    generalize hks : j :: js = ks at h
    cases h with
    | nil => cases hks
    | cons => cases hks; rfl
  obtain ⟨s1, h1, loop'⟩ := Except.bind_eq_ok loop
  have hs1 : none ∈ s1.M := by
    obtain ⟨m, hm, ⟨hf, -⟩ | ⟨-, a, -, rfl⟩⟩ := urdfStep_ok h1
    · exact absurd hf hj
    · have : m = none := by
        obtain ⟨c, hc', hm⟩ := Except.bind_eq_ok hm
        rcases hi : c.inertial with _ | i
        · simp only [hi] at hm; cases hm; rfl
        · simp only [hi] at hm
          obtain ⟨p, hp', hm⟩ := Except.bind_eq_ok hm
          have := link_inertial hl hp'
          rw [hp, ht] at this
          rw [this] at hm
          cases hm; rfl
      simp [this]
  have keep : ∀ (js : List (UJoint ℝ)) (s s' : UState ℝ), urdfLoop u js s = .ok s' → none ∈ s.M → none ∈ s'.M := by
    intro js
    induction js with
    | nil => intro s s' h hs; cases h; exact hs
    | cons k js ih =>
      intro s s' h hs
      obtain ⟨s2, h2, h⟩ := Except.bind_eq_ok h
      refine ih _ _ h ?_
      obtain ⟨m, hm, ⟨-, rfl⟩ | ⟨-, a, -, rfl⟩⟩ := urdfStep_ok h2
      · exact hs
      · exact List.mem_append_left _ hs
  have hs := keep js _ _ loop' hs1
  rw [robot_eq, Option.eq_none_iff_forall_ne_some]
  intro Ms hMs
  dsimp only at hMs
  rw [noneIn_eq_some] at hMs
  have : (none : Option (M6 ℝ)) ∈ Ms.map some := by rw [← hMs]; exact List.mem_append_left _ hs
  simp at this

/-! ## a concrete file -/

namespace UrdfDoc

def inertial : UInertial ℝ := ⟨some 2, some ⟨some ⟨0, 0, 1⟩, none⟩, some ⟨1, 0, 0, 1, 0, 1⟩⟩

/-- fixed mount, a revolute joint with limits, a prismatic joint -/
def mount : UJoint ℝ := { name := "mount", jointType := "fixed", parent := "world", child := "base", origin := some ⟨some ⟨0, 0, 1⟩, none⟩ }
def shoulder : UJoint ℝ :=
  { name := "shoulder", jointType := "revolute", parent := "base", child := "arm", origin := some ⟨some ⟨1, 0, 0⟩, none⟩, axis := some ⟨0, 0, 1⟩,
    limit := some ⟨some (-1), some 1, some 2, some 3⟩ }
def slide : UJoint ℝ :=
  { name := "slide", jointType := "prismatic", parent := "arm", child := "hand", axis := some ⟨1, 0, 0⟩, limit := some ⟨some 0, some 1, some 2, some 3⟩ }

def doc : Urdf ℝ :=
  { links := [⟨"world", some inertial⟩, ⟨"base", some inertial⟩, ⟨"arm", some inertial⟩, ⟨"hand", some inertial⟩]
    joints := [mount, shoulder, slide] }

theorem norm_one : iscloseD (V3.norm (⟨0, 0, 1⟩ : V3 ℝ)) 1 ∧ iscloseD (V3.norm (⟨1, 0, 0⟩ : V3 ℝ)) 1 := by
  constructor <;> (left; simp [V3.norm])

theorem chains : doc.getChain 5 "world" "hand" = .ok ["mount", "shoulder", "slide"] := by
  simp [Urdf.getChain, Urdf.chainLoop, Urdf.parentOf, doc, mount, shoulder, slide]

theorem joints : (["mount", "shoulder", "slide"] : List String).mapM doc.joint = .ok [mount, shoulder, slide] := by
  simp [mapM_cons', mapM_nil', Urdf.joint, doc, mount, shoulder, slide]

theorem root : doc.rootLink none = .ok "world" := by
  simp [Urdf.rootLink, Urdf.getRoot, Urdf.linkNames, doc, mount, shoulder, slide, Urdf.hasParent, List.eraseDups_cons]

theorem tips : doc.tipLinks 5 "world" = .ok ["hand"] := by
  have : doc.linkNames.filter (fun l => !doc.hasChild l) = ["hand"] := by
    simp [Urdf.linkNames, doc, mount, shoulder, slide, Urdf.hasChild, List.eraseDups_cons]
  have hv : doc.validTip 5 "world" "hand" = .ok true := by
    rw [Urdf.validTip, chains, Except.bind_ok, joints]
    simp [mount, shoulder, slide]
  simp [Urdf.tipLinks, this, Urdf.tipLoop, hv]

theorem links : doc.link "world" = .ok ⟨"world", some inertial⟩ ∧ doc.link "base" = .ok ⟨"base", some inertial⟩ ∧ doc.link "arm" = .ok ⟨"arm", some inertial⟩ ∧
    doc.link "hand" = .ok ⟨"hand", some inertial⟩ := by
  simp [Urdf.link, doc]

/-- the file loads -/
theorem load : ∃ r, urdfLoad 5 doc none none = .ok r ∧ r.H.length = 2 := by
  obtain ⟨l1, l2, l3, l4⟩ := links
  obtain ⟨n1, n2⟩ := norm_one
  have loop : ∃ s, urdfLoop doc [mount, shoulder, slide] { p := 0, R := 1 } = .ok s ∧ s.H = [⟨0, 0, 1⟩, ⟨1, 0, 0⟩] ∧ s.ty = [0, 1] ∧ s.P.length = 2 ∧
      s.M.length = 2 ∧ s.lower = [some (-1), some 0] ∧ s.upper = [some 1, some 1] ∧ s.vel = [some 2, some 2] ∧ s.names.length = 2 := by
    simp [urdfLoop, urdfStep, jointInertia, mount, shoulder, slide, l1, l2, l3, l4, addJoint, applyOrigin]
  obtain ⟨s, hs, e1, e2, e3, e4, e5, e6, e7, e8⟩ := loop
  have hM : ∀ l, noneIn (s.M ++ [l]) = none ∨ ∃ Ms, noneIn (s.M ++ [l]) = some Ms ∧ Ms.length = 3 := by
    intro l
    rcases h : noneIn (s.M ++ [l]) with _ | Ms
    · exact Or.inl rfl
    · right
      refine ⟨Ms, rfl, ?_⟩
      have := congrArg List.length ((noneIn_eq_some _ _).1 h)
      simp [e4] at this; omega
  unfold urdfLoad
  rw [root, Except.bind_ok, tips, Except.bind_ok]
  simp only [Urdf.tipLink, Except.bind_ok, chains, joints]
  simp only [List.getLast?_cons_cons, List.getLast?_singleton, urdfBuild, hs, Except.bind_ok, show slide.child = "hand" from rfl, l4]
  have hlim : limitPair s.lower s.upper = (some [-1, 0], some [1, 1]) := by rw [e5, e6]; rfl
  have htool : urdfTool s.R = (none, none) ∨ urdfTool s.R = (some s.R, some 0) := by unfold urdfTool; split <;> simp
  have hvel : noneIn s.vel = some [2, 2] := by rw [e7]; rfl
  rw [hlim, hvel]
  rcases hM (appendInertia s.m (convertInertial (some inertial))) with h1 | ⟨Ms, h1, h2⟩ <;> rcases htool with h3 | h3 <;> rw [h1, h3] <;>
    simp [Robot.init, pyAssert, lenOk, e1, e2, e3, e8, n1, n2, *]

/-- an arm with a massless tool frame -/
def flange : UJoint ℝ := { name := "flange", jointType := "fixed", parent := "arm", child := "tool0" }
def doc2 : Urdf ℝ :=
  { links := [⟨"base", some inertial⟩, ⟨"arm", some inertial⟩, ⟨"tool0", none⟩]
    joints := [shoulder, flange] }

theorem chain2 : doc2.getChain 5 "base" "tool0" = .ok ["shoulder", "flange"] := by
  simp [Urdf.getChain, Urdf.chainLoop, Urdf.parentOf, doc2, shoulder, flange]

theorem joints2 : (["shoulder", "flange"] : List String).mapM doc2.joint = .ok [shoulder, flange] := by
  simp [mapM_cons', mapM_nil', Urdf.joint, doc2, shoulder, flange]

theorem tips2 : doc2.tipLinks 5 "base" = .ok ["tool0"] := by
  have : doc2.linkNames.filter (fun l => !doc2.hasChild l) = ["tool0"] := by
    simp [Urdf.linkNames, doc2, shoulder, flange, Urdf.hasChild, List.eraseDups_cons]
  have hv : doc2.validTip 5 "base" "tool0" = .ok true := by
    rw [Urdf.validTip, chain2, Except.bind_ok, joints2]
    simp [shoulder, flange]
  simp [Urdf.tipLinks, this, Urdf.tipLoop, hv]

theorem links2 : doc2.link "base" = .ok ⟨"base", some inertial⟩ ∧ doc2.link "arm" = .ok ⟨"arm", some inertial⟩ ∧ doc2.link "tool0" = .ok ⟨"tool0", none⟩ := by
  simp [Urdf.link, doc2]

theorem load2 : ∃ r, urdfLoad 5 doc2 (some "base") (some "tool0") = .ok r ∧ r.rootLink = some "base" := by
  obtain ⟨l1, l2, l3⟩ := links2
  obtain ⟨n1, n2⟩ := norm_one
  have loop : ∃ s, urdfLoop doc2 [shoulder, flange] { p := 0, R := 1 } = .ok s ∧ s.H = [⟨0, 0, 1⟩] ∧ s.ty = [0] ∧ s.P.length = 1 ∧
      s.M.length = 1 ∧ s.lower = [some (-1)] ∧ s.upper = [some 1] ∧ s.vel = [some 2] ∧ s.names.length = 1 := by
    simp [urdfLoop, urdfStep, jointInertia, shoulder, flange, l1, l2, l3, addJoint, applyOrigin]
  obtain ⟨s, hs, e1, e2, e3, e4, e5, e6, e7, e8⟩ := loop
  have hM : ∀ l, noneIn (s.M ++ [l]) = none ∨ ∃ Ms, noneIn (s.M ++ [l]) = some Ms ∧ Ms.length = 2 := by
    intro l
    rcases h : noneIn (s.M ++ [l]) with _ | Ms
    · exact Or.inl rfl
    · right
      refine ⟨Ms, rfl, ?_⟩
      have := congrArg List.length ((noneIn_eq_some _ _).1 h)
      simp [e4] at this; omega
  have root : doc2.rootLink (some "base") = .ok "base" := by simp [Urdf.rootLink, Urdf.linkNames, doc2, List.mem_eraseDups]
  unfold urdfLoad
  rw [root, Except.bind_ok, tips2, Except.bind_ok]
  simp only [Urdf.tipLink, Except.bind_ok, chain2, joints2]
  simp only [List.getLast?_cons_cons, List.getLast?_singleton, urdfBuild, hs, Except.bind_ok, show flange.child = "tool0" from rfl, l3]
  have hlim : limitPair s.lower s.upper = (some [-1], some [1]) := by rw [e5, e6]; rfl
  have htool : urdfTool s.R = (none, none) ∨ urdfTool s.R = (some s.R, some 0) := by unfold urdfTool; split <;> simp
  have hvel : noneIn s.vel = some [2] := by rw [e7]; rfl
  rw [hlim, hvel]
  rcases hM (appendInertia s.m (convertInertial none)) with h1 | ⟨Ms, h1, h2⟩ <;> rcases htool with h3 | h3 <;> rw [h1, h3] <;>
    simp [Robot.init, pyAssert, lenOk, e1, e2, e3, e8, n1, *]

end UrdfDoc

-- non-vacuity of C48-C51: the file meets the hypotheses
example : (UrdfDoc.doc.joints.map UJoint.name).Nodup ∧ (UrdfDoc.doc.joints.map UJoint.child).Nodup ∧ (UrdfDoc.doc.links.map ULink.name).Nodup ∧
    (∀ j ∈ UrdfDoc.doc.joints, ∀ a, j.axis = some a → IsUnit3 a) ∧
    (∀ l ∈ UrdfDoc.doc.links, ∃ i m, l.inertial = some i ∧ i.mass = some m ∧ 1/1000000 < m) := by
  refine ⟨by simp [UrdfDoc.doc, UrdfDoc.mount, UrdfDoc.shoulder, UrdfDoc.slide], by simp [UrdfDoc.doc, UrdfDoc.mount, UrdfDoc.shoulder, UrdfDoc.slide],
    by simp [UrdfDoc.doc], by simp [UrdfDoc.doc, UrdfDoc.mount, UrdfDoc.shoulder, UrdfDoc.slide, IsUnit3], ?_⟩
  intro l hl
  refine ⟨UrdfDoc.inertial, 2, ?_, rfl, by norm_num⟩
  simp [UrdfDoc.doc] at hl
  rcases hl with rfl | rfl | rfl | rfl <;> rfl
example : ∃ r, urdfLoad 5 UrdfDoc.doc none none = .ok r ∧ r.H.length = 2 := UrdfDoc.load
-- C51: an inertial that is converted
example : ∃ M, convertInertial (some UrdfDoc.inertial) = some M := by
  rcases h : convertInertial (some UrdfDoc.inertial) with _ | M
  · have := (C51_left_out _).1 h _ 2 rfl rfl; norm_num at this
  · exact ⟨M, rfl⟩
example (w : V3 ℝ) : 0 ≤ Spec.tensorForm UrdfDoc.inertial.inertia w := by
  simp [Spec.tensorForm, UrdfDoc.inertial]; positivity

-- C59_massless_tip_false applies to the second file: every link but the tool frame has mass, yet the robot has no inertia matrices
example : ∃ r, urdfLoad 5 UrdfDoc.doc2 (some "base") (some "tool0") = .ok r ∧ r.M = none := by
  obtain ⟨r, h, hr⟩ := UrdfDoc.load2
  refine ⟨r, h, C59_massless_tip_false 5 UrdfDoc.doc2 ?_ ?_ ?_ _ _ r h "base" hr [] UrdfDoc.shoulder UrdfDoc.flange (by decide) rfl ?_ ?_⟩
  · simp [UrdfDoc.doc2, UrdfDoc.shoulder, UrdfDoc.flange]
  · simp [UrdfDoc.doc2]
  · simp [UrdfDoc.doc2, UrdfDoc.shoulder, UrdfDoc.flange]
  · refine ⟨.cons UrdfDoc.shoulder _ _ (by simp [UrdfDoc.doc2]) (.cons UrdfDoc.flange _ _ (by simp [UrdfDoc.doc2]) (.nil _)), ?_⟩
    simp [UrdfDoc.shoulder, UrdfDoc.flange]
  · simp [Spec.inertialOf, UrdfDoc.doc2]
