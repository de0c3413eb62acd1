import Verif.Model.Urdf
import Verif.Lemmas.ListM
import Mathlib.Data.List.Nodup

/-! # The URDF loader: chains and the main loop -/
set_option autoImplicit false

/-! ## specification of chains -/

namespace Spec
variable {α : Type}

/-- `js` leads from link `a` to link `b`: each joint starts where the previous one ended -/
inductive Path (u : Urdf α) : String → List (UJoint α) → String → Prop
  | nil (l : String) : Path u l [] l
  | cons (j : UJoint α) (js : List (UJoint α)) (t : String) (hj : j ∈ u.joints) (h : Path u j.child js t) : Path u j.parent (j :: js) t

/-- a path that does not return to its root -/
def Chain (u : Urdf α) (root : String) (js : List (UJoint α)) (tip : String) : Prop :=
  Path u root js tip ∧ ∀ j ∈ js, j.child ≠ root

/-- joints that move -/
def moving (js : List (UJoint α)) : List (UJoint α) := js.filter fun j => j.jointType ≠ "fixed"

end Spec

section
variable {α : Type}

theorem Spec.Path.snoc {u : Urdf α} {a b : String} {js : List (UJoint α)} (h : Spec.Path u a js b) {j : UJoint α} (hj : j ∈ u.joints)
    (hb : j.parent = b) : Spec.Path u a (js ++ [j]) j.child := by
  induction h with
  | nil l => subst hb; exact .cons j [] _ hj (.nil _)
  | cons k js t hk _ ih => exact .cons k _ _ hk (ih hb)

theorem Spec.Path.mem {u : Urdf α} {a b : String} {js : List (UJoint α)} (h : Spec.Path u a js b) : ∀ j ∈ js, j ∈ u.joints := by
  induction h with
  | nil l => simp
  | cons k js t hk _ ih =>
    intro j hj
    rcases List.mem_cons.1 hj with rfl | hj
    · exact hk
    · exact ih j hj

theorem Spec.Path.last {u : Urdf α} {a b : String} {js : List (UJoint α)} (h : Spec.Path u a js b) {l : UJoint α} (hl : js.getLast? = some l) :
    l.child = b := by
  induction h with
  | nil l => simp at hl
  | cons k js t hk h ih =>
    rcases js with _ | ⟨j, js⟩
    · simp at hl; subst hl
      generalize hc : k.child = c at h
      generalize he : ([] : List (UJoint α)) = e at h
      cases h with
      | nil => rfl
      | cons => cases he
    · exact ih (by simpa using hl)

/-- a nonempty path seen from its tip -/
theorem Spec.Path.unsnoc {u : Urdf α} {a b : String} {js : List (UJoint α)} (h : Spec.Path u a js b) :
    (js = [] ∧ a = b) ∨ ∃ ks k, js = ks ++ [k] ∧ k ∈ u.joints ∧ k.child = b ∧ Spec.Path u a ks k.parent := by
  induction h with
  | nil l => exact Or.inl ⟨rfl, rfl⟩
  | cons j js t hj h ih =>
    right
    rcases ih with ⟨rfl, e⟩ | ⟨ks, k, rfl, hk, hc, hp⟩
    · exact ⟨[], j, rfl, hj, e, .nil _⟩
    · exact ⟨j :: ks, k, rfl, hk, hc, .cons j ks _ hj hp⟩

theorem parentOf_ok {u : Urdf α} {l : String} {jp : String × String} (h : u.parentOf l = .ok jp) :
    ∃ j ∈ u.joints, j.child = l ∧ jp = (j.name, j.parent) := by
  unfold Urdf.parentOf at h
  split at h
  · rename_i j hj
    cases h
    refine ⟨j, by simpa using List.mem_of_find?_eq_some hj, by simpa using List.find?_some hj, rfl⟩
  · cases h

theorem find_unique {β : Type} {f : β → String} {l : List β} (hn : (l.map f).Nodup) {x : β} (hx : x ∈ l) :
    l.reverse.find? (fun y => f y == f x) = some x := by
  have key : ∀ y, l.reverse.find? (fun y => f y == f x) = some y → y = x := by
    intro y hy
    have h1 : y ∈ l := by simpa using List.mem_of_find?_eq_some hy
    have h2 : f y = f x := by simpa using List.find?_some hy
    exact List.inj_on_of_nodup_map hn h1 hx h2
  rcases h : l.reverse.find? (fun y => f y == f x) with _ | y
  · rw [List.find?_eq_none] at h
    have := h x (by simpa using hx)
    simp at this
  · rw [key y h]

theorem joint_of_mem {u : Urdf α} (hn : (u.joints.map UJoint.name).Nodup) {j : UJoint α} (hj : j ∈ u.joints) : u.joint j.name = .ok j := by
  unfold Urdf.joint; rw [find_unique hn hj]

theorem parentOf_of_mem {u : Urdf α} (hn : (u.joints.map UJoint.child).Nodup) {j : UJoint α} (hj : j ∈ u.joints) :
    u.parentOf j.child = .ok (j.name, j.parent) := by
  unfold Urdf.parentOf; rw [find_unique hn hj]

theorem chainLoop_ok {u : Urdf α} {root : String} (fuel : Nat) (link : String) (acc c : List String)
    (h : u.chainLoop root fuel link acc = .ok c) : ∃ js, Spec.Chain u root js link ∧ c = js.map UJoint.name ++ acc := by
  induction fuel generalizing link acc with
  | zero => cases h
  | succ fuel ih =>
    unfold Urdf.chainLoop at h
    split_ifs at h with hl
    · cases h; exact ⟨[], ⟨hl ▸ .nil _, by simp⟩, rfl⟩
    · obtain ⟨jp, h1, h⟩ := Except.bind_eq_ok h
      obtain ⟨j, hj, hc, rfl⟩ := parentOf_ok h1
      obtain ⟨js, ⟨hp, hr⟩, rfl⟩ := ih _ _ h
      refine ⟨js ++ [j], ⟨hc ▸ hp.snoc hj rfl, ?_⟩, by simp⟩
      intro k hk
      rcases List.mem_append.1 hk with hk | hk
      · exact hr k hk
      · rw [List.mem_singleton] at hk; subst hk; rw [hc]; exact hl

theorem chainLoop_of_chain {u : Urdf α} (hn : (u.joints.map UJoint.child).Nodup) {root : String} (fuel : Nat) (link : String)
    (acc : List String) (js : List (UJoint α)) (h : Spec.Chain u root js link) :
    u.chainLoop root fuel link acc = .ok (js.map UJoint.name ++ acc) ∨ u.chainLoop root fuel link acc = .error .diverge := by
  induction fuel generalizing link acc js with
  | zero => exact Or.inr rfl
  | succ fuel ih =>
    unfold Urdf.chainLoop
    obtain ⟨hp, hr⟩ := h
    rcases hp.unsnoc with ⟨rfl, e⟩ | ⟨ks, k, rfl, hk, rfl, hp'⟩
    · left; rw [if_pos e.symm]; rfl
    · rw [if_neg (hr k (by simp)), parentOf_of_mem hn hk, Except.bind_ok]
      have := ih k.parent (k.name :: acc) ks ⟨hp', fun j hj => hr j (by simp [hj])⟩
      simpa using this

/-- more fuel gives the same chain -/
theorem chainLoop_mono {u : Urdf α} {root : String} (fuel : Nat) (link : String) (acc : List String)
    (h : u.chainLoop root fuel link acc ≠ .error .diverge) : u.chainLoop root (fuel + 1) link acc = u.chainLoop root fuel link acc := by
  induction fuel generalizing link acc with
  | zero => exact absurd rfl h
  | succ fuel ih =>
    unfold Urdf.chainLoop at h ⊢
    split_ifs at h ⊢ with hl
    · rfl
    · rcases hp : u.parentOf link with e | jp
      · rfl
      · rw [hp, Except.bind_ok] at h
        rw [Except.bind_ok, Except.bind_ok]; exact ih _ _ h

theorem mapM_joint {u : Urdf α} (hn : (u.joints.map UJoint.name).Nodup) (js : List (UJoint α)) (h : ∀ j ∈ js, j ∈ u.joints) :
    (js.map UJoint.name).mapM u.joint = .ok js := by
  apply mapM_of_forall₂
  induction js with
  | nil => exact .nil
  | cons j js ih => exact .cons (joint_of_mem hn (h j (by simp))) (ih fun k hk => h k (by simp [hk]))

theorem getChain_joints {u : Urdf α} (hn : (u.joints.map UJoint.name).Nodup) {fuel : Nat} {root tip : String} {c : List String}
    (h : u.getChain fuel root tip = .ok c) : ∃ js, Spec.Chain u root js tip ∧ c.mapM u.joint = .ok js := by
  obtain ⟨js, hc, rfl⟩ := chainLoop_ok fuel tip [] c h
  exact ⟨js, hc, by rw [List.append_nil]; exact mapM_joint hn js hc.1.mem⟩

end

/-! ## the main loop -/

section
variable {α : Type} [Add α] [Sub α] [Mul α] [Div α] [Neg α] [Zero α] [One α] [LT α] [LE α]
  [DecidableLT α] [DecidableLE α] [Elem α]

/-- type number of a moving joint -/
def typeNo (j : UJoint α) : Nat := if j.jointType = "revolute" then 0 else 1

theorem urdfStep_ok {u : Urdf α} {j : UJoint α} {s s' : UState α} (h : urdfStep u j s = .ok s') :
    ∃ m, jointInertia u j s.m = .ok m ∧
    ((j.jointType = "fixed" ∧ s' = { s with p := (applyOrigin j.origin s.p s.R).1, R := (applyOrigin j.origin s.p s.R).2, m := m }) ∨
    ((j.jointType = "revolute" ∨ j.jointType = "prismatic") ∧ ∃ a, j.axis = some a ∧ s' =
        { P := s.P ++ [(applyOrigin j.origin s.p s.R).1], p := 0, R := (applyOrigin j.origin s.p s.R).2,
          H := s.H ++ [(applyOrigin j.origin s.p s.R).2.mulVec a], ty := s.ty ++ [typeNo j],
          lower := s.lower ++ [j.limit.bind ULimit.lower], upper := s.upper ++ [j.limit.bind ULimit.upper],
          vel := s.vel ++ [j.limit.bind ULimit.velocity], effort := s.effort ++ [j.limit.bind ULimit.effort],
          names := s.names ++ [j.name], M := s.M ++ [m], m := none })) := by
  obtain ⟨m, hm, h⟩ := Except.bind_eq_ok h
  refine ⟨m, hm, ?_⟩
  unfold addJoint at h
  split_ifs at h with h1 h2 h3
  · cases h; exact Or.inl ⟨h1, rfl⟩
  · right
    rcases ha : j.axis with _ | a
    · simp [ha] at h
    · simp only [ha] at h
      cases h
      exact ⟨h2, a, rfl, by simp [typeNo, h3]⟩
  · right
    rcases ha : j.axis with _ | a
    · simp [ha] at h
    · simp only [ha] at h
      cases h
      exact ⟨h2, a, rfl, by simp [typeNo, h3]⟩

/-- what the loop adds to the lists of its state -/
structure LoopAdds (js : List (UJoint α)) (s s' : UState α) : Prop where
  supported : ∀ j ∈ js, j.jointType = "fixed" ∨ j.jointType = "revolute" ∨ j.jointType = "prismatic"
  axes : ∀ j ∈ Spec.moving js, ∃ a, j.axis = some a
  ty : s'.ty = s.ty ++ (Spec.moving js).map typeNo
  lower : s'.lower = s.lower ++ (Spec.moving js).map fun j => j.limit.bind ULimit.lower
  upper : s'.upper = s.upper ++ (Spec.moving js).map fun j => j.limit.bind ULimit.upper
  vel : s'.vel = s.vel ++ (Spec.moving js).map fun j => j.limit.bind ULimit.velocity
  effort : s'.effort = s.effort ++ (Spec.moving js).map fun j => j.limit.bind ULimit.effort
  names : s'.names = s.names ++ (Spec.moving js).map UJoint.name
  lH : s'.H.length = s.H.length + (Spec.moving js).length
  lP : s'.P.length = s.P.length + (Spec.moving js).length
  lM : s'.M.length = s.M.length + (Spec.moving js).length

theorem urdfLoop_adds {u : Urdf α} (js : List (UJoint α)) (s s' : UState α) (h : urdfLoop u js s = .ok s') : LoopAdds js s s' := by
  induction js generalizing s with
  | nil => cases h; constructor <;> simp [Spec.moving]
  | cons j js ih =>
    obtain ⟨s1, h1, h⟩ := Except.bind_eq_ok h
    have A := ih s1 h
    obtain ⟨m, hm, ⟨hf, rfl⟩ | ⟨hf, a, ha, rfl⟩⟩ := urdfStep_ok h1
    · have e : Spec.moving (j :: js) = Spec.moving js := by simp [Spec.moving, hf]
      refine ⟨?_, by rw [e]; exact A.axes, by rw [e]; exact A.ty, by rw [e]; exact A.lower, by rw [e]; exact A.upper, by rw [e]; exact A.vel,
        by rw [e]; exact A.effort, by rw [e]; exact A.names, by rw [e]; exact A.lH, by rw [e]; exact A.lP, by rw [e]; exact A.lM⟩
      intro k hk
      rcases List.mem_cons.1 hk with rfl | hk
      · exact Or.inl hf
      · exact A.supported k hk
    · have hne : j.jointType ≠ "fixed" := by rcases hf with hf | hf <;> rw [hf] <;> decide
      have e : Spec.moving (j :: js) = j :: Spec.moving js := by simp [Spec.moving, hne]
      refine ⟨?_, ?_, by rw [e]; simpa using A.ty, by rw [e]; simpa using A.lower, by rw [e]; simpa using A.upper, by rw [e]; simpa using A.vel,
        by rw [e]; simpa using A.effort, by rw [e]; simpa using A.names, ?_, ?_, ?_⟩
      · intro k hk
        rcases List.mem_cons.1 hk with rfl | hk
        · exact Or.inr hf
        · exact A.supported k hk
      · rw [e]
        intro k hk
        rcases List.mem_cons.1 hk with rfl | hk
        · exact ⟨a, ha⟩
        · exact A.axes k hk
      · rw [e, A.lH]; simp; omega
      · rw [e, A.lP]; simp; omega
      · rw [e, A.lM]; simp; omega

theorem noneIn_eq_some {β : Type} (l : List (Option β)) (r : List β) : noneIn l = some r ↔ l = r.map some := by
  induction l generalizing r with
  | nil => cases r <;> simp [noneIn]
  | cons x l ih =>
    rcases x with _ | x
    · cases r <;> simp [noneIn]
    · rcases r with _ | ⟨y, r⟩
      · simp [noneIn]
      · simp only [noneIn, Option.map_eq_some_iff, List.map_cons, List.cons.injEq, Option.some.injEq]
        constructor
        · rintro ⟨a, ha, rfl, rfl⟩; exact ⟨rfl, (ih _).1 ha⟩
        · rintro ⟨rfl, h⟩; exact ⟨r, (ih _).2 h, rfl, rfl⟩

theorem noneIn_map {β γ : Type} (f : γ → Option β) (l : List γ) (r : List β) :
    noneIn (l.map f) = some r ↔ List.Forall₂ (fun a b => f a = some b) l r := by
  rw [noneIn_eq_some]
  induction l generalizing r with
  | nil => cases r <;> simp
  | cons a l ih => cases r <;> simp [ih]

/-- everything about a successful load -/
structure Loaded (u : Urdf α) (root tip : Option String) (fuel : Nat) (r : Robot α) where
  rt : String
  t : String
  tips : List String
  js : List (UJoint α)
  last : UJoint α
  lastLink : ULink α
  s : UState α
  root_eq : u.rootLink root = .ok rt
  tips_eq : u.tipLinks fuel rt = .ok tips
  tip_eq : Urdf.tipLink tip tips = .ok t
  chain : Spec.Chain u rt js t
  last_eq : js.getLast? = some last
  loop : urdfLoop u js { p := 0, R := 1 } = .ok s
  link_eq : u.link last.child = .ok lastLink
  robot_eq : r = {
    H := s.H, P := s.P ++ [s.p], jointType := s.ty, lower := (limitPair s.lower s.upper).1, upper := (limitPair s.lower s.upper).2,
    vel := noneIn s.vel, M := noneIn (s.M ++ [appendInertia s.m (convertInertial lastLink.inertial)]), Rtool := (urdfTool s.R).1,
    ptool := (urdfTool s.R).2, jointNames := some s.names, rootLink := some rt, tipLink := some t, effortLimit := noneIn s.effort }
  unit : ∀ h ∈ s.H, iscloseD h.norm 1

theorem init_ok' {H P : List (V3 α)} {jt : List Nat} {lo up vel acc : Option (List α)} {M : Option (List (M6 α))} {R : Option (M3 α)}
    {p : Option (V3 α)} {names : Option (List String)} {root tip : Option String} {Tf Tb : Option (Transform α)} {r : Robot α}
    (hl : lo = none ↔ up = none) (hR : R = none ↔ p = none)
    (h : Robot.init H P jt lo up vel acc M R p names root tip Tf Tb = .ok r) :
    r = { H := H, P := P, jointType := jt, lower := lo, upper := up, vel := vel, acc := acc, M := M, Rtool := R, ptool := p,
          jointNames := names, rootLink := root, tipLink := tip, Tflange := Tf, Tbase := Tb } ∧ ∀ h ∈ H, iscloseD h.norm 1 := by
  have assertOk : ∀ {c : Bool} {v : Unit}, pyAssert c = .ok v → c = true := by
    intro c v h; unfold pyAssert at h; split_ifs at h with hc; exact hc
  unfold Robot.init at h
  obtain ⟨_, h1, h⟩ := Except.bind_eq_ok h
  obtain ⟨_, _, h⟩ := Except.bind_eq_ok h
  obtain ⟨_, _, h⟩ := Except.bind_eq_ok h
  refine ⟨?_, by simpa using assertOk h1⟩
  rcases lo with _ | lo <;> rcases up with _ | up <;> simp only [reduceCtorEq, iff_true, iff_false, not_true_eq_false] at hl <;>
  rcases R with _ | R <;> rcases p with _ | p <;> simp only [reduceCtorEq, iff_true, iff_false, not_true_eq_false] at hR <;>
  · simp only [Except.bind_ok, Except.pure_eq] at h
    repeat (obtain ⟨_, _, h⟩ := Except.bind_eq_ok h)
    cases h; rfl

theorem urdfLoad_loaded {u : Urdf α} (hn : (u.joints.map UJoint.name).Nodup) {root tip : Option String} {fuel : Nat} {r : Robot α}
    (h : urdfLoad fuel u root tip = .ok r) : Nonempty (Loaded u root tip fuel r) := by
  obtain ⟨rt, h1, h⟩ := Except.bind_eq_ok h
  obtain ⟨tips, h2, h⟩ := Except.bind_eq_ok h
  obtain ⟨t, h3, h⟩ := Except.bind_eq_ok h
  obtain ⟨c, h4, h⟩ := Except.bind_eq_ok h
  obtain ⟨js, hc, hjs⟩ := getChain_joints hn h4
  rw [hjs, Except.bind_ok] at h
  rcases hl : js.getLast? with _ | last
  · simp [hl] at h
  · simp only [hl] at h
    obtain ⟨s, h5, h⟩ := Except.bind_eq_ok h
    obtain ⟨link, h6, h⟩ := Except.bind_eq_ok h
    obtain ⟨r0, h7, h⟩ := Except.bind_eq_ok h
    cases h
    obtain ⟨rfl, hu⟩ := init_ok' (by unfold limitPair; split <;> simp) (by unfold urdfTool; split <;> simp) h7
    exact ⟨⟨rt, t, tips, js, last, link, s, h1, h2, h3, hc, hl, h5, h6, rfl, hu⟩⟩

end
