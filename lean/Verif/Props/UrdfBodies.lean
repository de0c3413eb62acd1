import Verif.Props.UrdfInertia
import Verif.Props.UrdfWell

/-! # Property C111: the inertia matrices of a robot loaded from a URDF file belong to its bodies -/
set_option autoImplicit false

namespace Spec

/-- the links that move together, from the root on: a moving joint starts a new body -/
def bodies : List String → List (UJoint ℝ) → List (List String)
  | g, [] => [g]
  | g, j :: js => if j.jointType = "fixed" then bodies (g ++ [j.child]) js else g :: bodies [j.child] js

/-- A link of a body: its name, its orientation and the position of its frame in the frame of the body.  The frame of a body is that of
`fwdkin`: at the joint that moves the body, parallel to the root frame when all joint values are zero. -/
structure Member where
  link : String
  turn : V3 ℝ → V3 ℝ
  at' : V3 ℝ

/-- the bodies of a chain with the places of their links: `A` and `p` are orientation and position of the link reached so far -/
noncomputable def placedBodies : List Member → (V3 ℝ → V3 ℝ) → V3 ℝ → List (UJoint ℝ) → List (List Member)
  | g, _, _, [] => [g]
  | g, A, p, j :: js =>
    let A' : V3 ℝ → V3 ℝ := fun v => A (rpyAct (j.origin.bind UOrigin.rpy) v)
    if j.jointType = "fixed" then placedBodies (g ++ [⟨j.child, A', p + A ((j.origin.bind UOrigin.xyz).getD 0)⟩]) A' (p + A ((j.origin.bind UOrigin.xyz).getD 0)) js
    else g :: placedBodies [⟨j.child, A', 0⟩] A' 0 js

/-- twice the kinetic energy of a link while its body has the twist `x` (in the frame of the body): the link turns with the body, and the origin of its
frame has the velocity of that point of the body -/
def MemberEnergy (u : Urdf ℝ) (l : Member) (x : V6 ℝ) (e : ℝ) : Prop :=
  ∀ w z, l.turn w = x.top → l.turn z = x.bot + x.top.cross l.at' → IsEnergy (inertialOf u l.link) ⟨w, z⟩ e

/-- twice the kinetic energy of a body -/
def BodyEnergy (u : Urdf ℝ) (g : List Member) (x : V6 ℝ) (e : ℝ) : Prop := ∃ es, List.Forall₂ (fun l e => MemberEnergy u l x e) g es ∧ es.sum = e

/-- the matrices of the robot give the kinetic energies of its bodies -/
def InertiasRight (u : Urdf ℝ) (r : Robot ℝ) : Prop :=
  ∀ rt t js Ms, r.rootLink = some rt → r.tipLink = some t → Chain u rt js t → r.M = some Ms →
    ∀ x, List.Forall₂ (fun M g => BodyEnergy u g x (dot6 x (M.mulVec x))) Ms (placedBodies [⟨rt, id, 0⟩] id 0 js)

end Spec

theorem urdfLoop_bodies {u : Urdf ℝ} (hl : (u.links.map ULink.name).Nodup) {x : V6 ℝ} {E : String → ℝ}
    (hE : ∀ n, Spec.IsEnergy (Spec.inertialOf u n) x (E n)) {a t : String} {js : List (UJoint ℝ)} (hp : Spec.Path u a js t)
    (hi : ∀ j ∈ js, (Spec.inertialOf u j.child).isSome) (s s' : UState ℝ) (h : urdfLoop u js s = .ok s') (pre : List String)
    (hs : formOf x s.m = (pre.map E).sum) :
    s'.M.map (formOf x) ++ [formOf x s'.m + E t] = s.M.map (formOf x) ++ (Spec.bodies (pre ++ [a]) js).map fun g => (g.map E).sum := by
  induction hp generalizing s pre with
  | nil l => cases h; simp [Spec.bodies, hs]
  | cons j js t hj _ ih =>
    obtain ⟨s1, h1, h⟩ := Except.bind_eq_ok h
    have hc := hi j (by simp)
    obtain ⟨m, hm, ⟨hf, rfl⟩ | ⟨hf, b, hb, rfl⟩⟩ := urdfStep_ok h1
    · have e := jointInertia_form hl hE hm
      rw [if_pos hc, hs] at e
      rw [ih (fun k hk => hi k (by simp [hk])) _ h (pre ++ [j.parent]) (by rw [e]; simp)]
      simp [Spec.bodies, hf]
    · have e := jointInertia_form hl hE hm
      rw [if_pos hc, hs] at e
      have hne : j.jointType ≠ "fixed" := by rcases hf with hf | hf <;> rw [hf] <;> decide
      rw [ih (fun k hk => hi k (by simp [hk])) _ h [] (by simp [formOf])]
      simp [Spec.bodies, hne, e]

/-- C111: what the matrices are.  If every link of the chain has an inertial element, there is one matrix for each body, and its quadratic form is the sum of
the kinetic energies of the links of the body, each as if its own frame had the twist `x`. -/
theorem C111_bodies (fuel : Nat) (u : Urdf ℝ) (hn : (u.joints.map UJoint.name).Nodup) (hl : (u.links.map ULink.name).Nodup) (root tip : Option String)
    (r : Robot ℝ) (h : urdfLoad fuel u root tip = .ok r) :
    ∃ rt t js, r.rootLink = some rt ∧ r.tipLink = some t ∧ Spec.Chain u rt js t ∧ ((∀ j ∈ js, (Spec.inertialOf u j.child).isSome) →
      ∀ Ms, r.M = some Ms → ∀ (x : V6 ℝ) (E : String → ℝ), (∀ n, Spec.IsEnergy (Spec.inertialOf u n) x (E n)) →
        (Ms.map fun M => Spec.dot6 x (M.mulVec x)) = (Spec.bodies [rt] js).map fun g => (g.map E).sum) := by
  obtain ⟨⟨rt, t, tips, js, last, link, s, -, -, -, chain, hlast, loop, hlink, robot_eq, -⟩⟩ := urdfLoad_loaded hn h
  refine ⟨rt, t, js, by rw [robot_eq], by rw [robot_eq], chain, fun hi Ms hM x E hE => ?_⟩
  rw [robot_eq] at hM
  rw [noneIn_eq_some] at hM
  have hli := link_inertial hl hlink
  rw [chain.1.last hlast] at hli
  have e := urdfLoop_bodies hl hE chain.1 hi _ _ loop [] (by simp [formOf])
  have e2 := congrArg (fun l => l.map (formOf x)) hM
  simp only [List.map_append, List.map_cons, List.map_nil, formOf_append, hli, formOf_convert (hE t), List.map_map] at e2
  rw [e] at e2
  have e3 : Ms.map (formOf x ∘ some) = Ms.map fun M => Spec.dot6 x (M.mulVec x) := rfl
  rw [e3] at e2
  simpa using e2.symm

theorem energies_exist (u : Urdf ℝ) (x : V6 ℝ) : ∃ E : String → ℝ, ∀ n, Spec.IsEnergy (Spec.inertialOf u n) x (E n) := by
  choose E hE using fun n => (⟨_, rfl⟩ : ∃ e, e = formOf x (convertInertial (Spec.inertialOf u n)))
  refine ⟨E, fun n => ?_⟩
  rw [hE n]
  rcases h : Spec.inertialOf u n with _ | i
  · rfl
  · rcases hc : convertInertial (some i) with _ | M
    · refine ⟨fun _ => rfl, fun h0 => absurd ?_ h0⟩
      rcases hm : i.mass with _ | m
      · simp [Spec.mass, hm]
      · have := (C51_left_out _).1 hc i m rfl hm
        simp only [Spec.mass, hm, Option.bind_some, if_pos this]
    · obtain ⟨j, m, hj, hm, hlt, -⟩ := convert_some hc
      cases hj
      have e1 : Spec.mass (some i) = m := by simp [Spec.mass, hm]; intro; linarith
      refine ⟨fun h0 => by rw [e1] at h0; linarith, fun _ w hw => ?_⟩
      have := C51_kinetic_energy i m hm M hc w x.bot
      simp only [hw] at this
      rw [e1]; exact this

theorem placedBodies_plain (js : List (UJoint ℝ)) (hj : ∀ j ∈ js, ∀ v, Spec.rpyAct (j.origin.bind UOrigin.rpy) v = v)
    (hf : ∀ j ∈ js, j.jointType = "fixed" → (j.origin.bind UOrigin.xyz).getD 0 = 0) (g : List String) :
    Spec.placedBodies (g.map fun n => ⟨n, id, 0⟩) id 0 js = (Spec.bodies g js).map fun g => g.map fun n => ⟨n, id, 0⟩ := by
  induction js generalizing g with
  | nil => simp [Spec.placedBodies, Spec.bodies]
  | cons j js ih =>
    have e : (fun v : V3 ℝ => id (Spec.rpyAct (j.origin.bind UOrigin.rpy) v)) = id := funext fun v => hj j (by simp) v
    have z : (0 : V3 ℝ) + id (0 : V3 ℝ) = 0 := by ext <;> simp
    have ih := fun g => ih (fun k hk => hj k (by simp [hk])) (fun k hk => hf k (by simp [hk])) g
    simp only [Spec.placedBodies, Spec.bodies, e]
    by_cases h : j.jointType = "fixed"
    · rw [if_pos h, if_pos h, hf j (by simp) h, z, ← ih]; simp
    · rw [if_neg h, if_neg h, List.map_cons, ← ih]; simp

/-- C111 (`_partial`): the matrices are those of the bodies if every link that is the child of a joint has an inertial element, no joint has an orientation,
and fixed joints have no displacement, so that the frames of all links of a body are the frame of the body.  Missing: orientations
(`C111_turned_false`) and displaced fixed links (`C111_displaced_false`). -/
theorem C111_inertias_partial (fuel : Nat) (u : Urdf ℝ) (hn : (u.joints.map UJoint.name).Nodup) (hl : (u.links.map ULink.name).Nodup)
    (hch : (u.joints.map UJoint.child).Nodup) (root tip : Option String) (r : Robot ℝ) (h : urdfLoad fuel u root tip = .ok r)
    (hi : ∀ j ∈ u.joints, (Spec.inertialOf u j.child).isSome) (hj : ∀ j ∈ u.joints, ∀ v, Spec.rpyAct (j.origin.bind UOrigin.rpy) v = v)
    (hf : ∀ j ∈ u.joints, j.jointType = "fixed" → (j.origin.bind UOrigin.xyz).getD 0 = 0) : Spec.InertiasRight u r := by
  intro rt t js Ms h1 h2 hc hM x
  obtain ⟨rt', t', js', e1, e2, hc', main⟩ := C111_bodies fuel u hn hl root tip r h
  rw [h1] at e1; cases e1
  rw [h2] at e2; cases e2
  cases hc.unique hch hc'
  have mem := hc.1.mem
  obtain ⟨E, hE⟩ := energies_exist u x
  have key := main (fun j hj' => hi j (mem j hj')) Ms hM x E hE
  have pl := placedBodies_plain js (fun j h' => hj j (mem j h')) (fun j h' => hf j (mem j h')) [rt]
  rw [List.map_cons, List.map_nil] at pl
  rw [pl]
  have len : Ms.length = (Spec.bodies [rt] js).length := by simpa using congrArg List.length key
  refine List.forall₂_iff_get.2 ⟨by simpa using len, fun i h3 h4 => ?_⟩
  have k := congrArg (fun l => l[i]?) key
  have h5 : i < (Spec.bodies [rt] js).length := by omega
  simp only [List.getElem?_map, List.getElem?_eq_getElem h3, List.getElem?_eq_getElem h5, Option.map_some, Option.some.injEq] at k
  simp only [List.get_eq_getElem, List.getElem_map]
  rw [k]
  refine ⟨((Spec.bodies [rt] js)[i]).map E, ?_, rfl⟩
  rw [List.forall₂_map_left_iff, List.forall₂_map_right_iff, List.forall₂_same]
  intro n _ w z hw hz
  have e : (⟨w, z⟩ : V6 ℝ) = x := by
    ext1
    · exact hw
    · have : z = x.bot + x.top.cross 0 := hz
      rw [this]; ext <;> simp
  rw [e]
  exact hE n

theorem urdfLoad_ends {u : Urdf ℝ} (hn : (u.joints.map UJoint.name).Nodup) {fuel : Nat} {a b : String} {r : Robot ℝ}
    (h : urdfLoad fuel u (some a) (some b) = .ok r) : r.rootLink = some a ∧ r.tipLink = some b := by
  obtain ⟨Ld⟩ := urdfLoad_loaded hn h
  have e1 := Ld.root_eq
  have e2 := Ld.tip_eq
  unfold Urdf.rootLink at e1
  simp only at e1
  split_ifs at e1
  injection e1 with e1
  have e2 : b = Ld.t := by simpa [Urdf.tipLink] using e2
  rw [Ld.robot_eq]
  exact ⟨congrArg some e1.symm, congrArg some e2.symm⟩

/-! ## Wrong matrices -/

namespace UrdfDoc

/-- an arm turning about the vertical, with a tool fixed to it -/
noncomputable def gripperTurn (yaw : Option (V3 ℝ)) : UJoint ℝ :=
  { name := "turn", jointType := "revolute", parent := "base", child := "arm", origin := some ⟨none, yaw⟩, axis := some ⟨0, 0, 1⟩ }
noncomputable def gripperMount (d : V3 ℝ) : UJoint ℝ :=
  { name := "mount", jointType := "fixed", parent := "arm", child := "tool", origin := some ⟨some d, none⟩ }
noncomputable def gripper (yaw : Option (V3 ℝ)) (d : V3 ℝ) : Urdf ℝ :=
  { links := [⟨"base", some ⟨some 1, none, none⟩⟩, ⟨"arm", some ⟨some 1, none, some ⟨1, 0, 0, 0, 0, 0⟩⟩⟩, ⟨"tool", some ⟨some 1, none, none⟩⟩]
    joints := [gripperTurn yaw, gripperMount d] }

theorem gripper_forest (yaw : Option (V3 ℝ)) (d : V3 ℝ) : Spec.Forest (gripper yaw d) := by
  refine ⟨by simp [gripper, gripperTurn, gripperMount], by simp [gripper, gripperTurn, gripperMount], by simp [gripper, gripperTurn, gripperMount],
    fun l => if l = "base" then 0 else if l = "arm" then 1 else 2, by simp [gripper, gripperTurn, gripperMount]⟩

theorem gripper_chain (yaw : Option (V3 ℝ)) (d : V3 ℝ) : Spec.Chain (gripper yaw d) "base" (gripper yaw d).joints "tool" :=
  ⟨.cons (gripperTurn yaw) _ _ (by simp [gripper]) (.cons (gripperMount d) _ _ (by simp [gripper]) (.nil _)), by simp [gripper, gripperTurn, gripperMount]⟩

theorem gripper_loads (yaw : Option (V3 ℝ)) (d : V3 ℝ) : ∃ fuel r, urdfLoad fuel (gripper yaw d) (some "base") (some "tool") = .ok r := by
  obtain ⟨N, h⟩ := C91_outcome _ (gripper_forest yaw d) (some "base") (some "tool")
  refine ⟨N, h N le_rfl none ?_⟩
  refine .loads "base" "tool" _ (.inl ⟨rfl, by simp [gripper]⟩) (.inl rfl) (gripper_chain yaw d) (by simp [gripper]) ?_ ?_
  · intro j hj
    simp only [gripper, List.mem_cons, List.not_mem_nil, or_false] at hj
    rcases hj with rfl | rfl
    · exact .inr ⟨.inl rfl, _, rfl⟩
    · exact .inl rfl
  · intro j hj a ha
    simp only [Spec.moving, gripper, gripperTurn, gripperMount] at hj
    simp at hj
    subst hj
    cases ha
    norm_num

theorem gripper_inertial (yaw : Option (V3 ℝ)) (d : V3 ℝ) : Spec.inertialOf (gripper yaw d) "arm" = some ⟨some 1, none, some ⟨1, 0, 0, 0, 0, 0⟩⟩ ∧
    Spec.inertialOf (gripper yaw d) "tool" = some ⟨some 1, none, none⟩ := by
  constructor <;> simp [Spec.inertialOf, gripper]

/-- what the loader says the energy of arm and tool is, and what it is if the matrices are right -/
theorem gripper_energy (yaw : Option (V3 ℝ)) (d : V3 ℝ) : ∃ fuel r, urdfLoad fuel (gripper yaw d) (some "base") (some "tool") = .ok r ∧
    (Spec.InertiasRight (gripper yaw d) r → ∀ x : V6 ℝ,
      Spec.BodyEnergy (gripper yaw d) [⟨"arm", fun v => Spec.rpyAct yaw v, 0⟩, ⟨"tool", fun v => Spec.rpyAct yaw v, Spec.rpyAct yaw d⟩] x
        (2 * x.bot.dot x.bot + x.top.x ^ 2)) := by
  obtain ⟨fuel, r, h⟩ := gripper_loads yaw d
  refine ⟨fuel, r, h, fun right x => ?_⟩
  have F := gripper_forest yaw d
  have nl : ((gripper yaw d).links.map ULink.name).Nodup := by simp [gripper]
  obtain ⟨n1, n2⟩ := gripper_inertial yaw d
  obtain ⟨-, -, -, Ms, -, -, -, hM, -⟩ := C51_total_mass fuel _ F.names nl _ _ r h (by
    intro l hl
    simp only [gripper, List.mem_cons, List.not_mem_nil, or_false] at hl
    rcases hl with rfl | rfl | rfl <;> exact ⟨_, 1, rfl, rfl, by norm_num⟩)
  obtain ⟨rt, t, js, e1, e2, hc, main⟩ := C111_bodies fuel _ F.names nl _ _ r h
  obtain ⟨q1, q2⟩ := urdfLoad_ends F.names h
  rw [q1] at e1; cases e1
  rw [q2] at e2; cases e2
  cases hc.unique F.children (gripper_chain yaw d)
  obtain ⟨E, hE⟩ := energies_exist (gripper yaw d) x
  have key := main (by
    intro j hj
    simp only [gripper, List.mem_cons, List.not_mem_nil, or_false] at hj
    rcases hj with rfl | rfl
    · exact Option.isSome_iff_exists.2 ⟨_, n1⟩
    · exact Option.isSome_iff_exists.2 ⟨_, n2⟩) Ms hM x E hE
  have a := right "base" "tool" _ Ms q1 q2 (gripper_chain yaw d) hM x
  have b1 : Spec.bodies ["base"] (gripper yaw d).joints = [["base"], ["arm", "tool"]] := by
    simp [gripper, gripperTurn, gripperMount, Spec.bodies]
  have b2 : Spec.placedBodies [⟨"base", id, 0⟩] id 0 (gripper yaw d).joints =
      [[⟨"base", id, 0⟩], [⟨"arm", fun v => Spec.rpyAct yaw v, 0⟩, ⟨"tool", fun v => Spec.rpyAct yaw v, Spec.rpyAct yaw d⟩]] := by
    have z : (0 : V3 ℝ) + Spec.rpyAct yaw d = Spec.rpyAct yaw d := by ext <;> simp
    simp [gripper, gripperTurn, gripperMount, Spec.placedBodies, z]
    rfl
  rw [b1] at key
  rw [b2] at a
  have m1 : Spec.mass (some (⟨some 1, none, some ⟨1, 0, 0, 0, 0, 0⟩⟩ : UInertial ℝ)) = 1 := by norm_num [Spec.mass]
  have m2 : Spec.mass (some (⟨some 1, none, none⟩ : UInertial ℝ)) = 1 := by norm_num [Spec.mass]
  have z : x.bot + x.top.cross 0 = x.bot := by ext <;> simp
  have E1 := hE "arm"
  rw [n1] at E1
  have E1 := E1.2 (by rw [m1]; norm_num) x.top rfl
  rw [m1] at E1
  have E2 := hE "tool"
  rw [n2] at E2
  have E2 := E2.2 (by rw [m2]; norm_num) x.top rfl
  rw [m2] at E2
  simp only [Spec.com, Spec.tensorForm, Option.bind_none, Option.getD_none, z] at E1 E2
  cases a with
  | cons a1 a2 =>
    cases a2 with
    | cons a2 a3 =>
      cases a3
      simp only [List.map_cons, List.map_nil, List.cons.injEq, and_true] at key
      rw [key.2] at a2
      convert a2 using 1
      simp [E1, E2]; ring

/-- Energies of a body of two links. -/
theorem body_two {u : Urdf ℝ} {a b : Spec.Member} {x : V6 ℝ} {e : ℝ} (h : Spec.BodyEnergy u [a, b] x e) :
    ∃ e1 e2, Spec.MemberEnergy u a x e1 ∧ Spec.MemberEnergy u b x e2 ∧ e1 + e2 = e := by
  obtain ⟨es, h, rfl⟩ := h
  cases h with
  | cons h1 h =>
    cases h with
    | cons h2 h => cases h; exact ⟨_, _, h1, h2, by simp⟩

end UrdfDoc

open UrdfDoc in
/-- C111 is false: a tool that is fixed one metre from the axis of the arm counts as if it were on the axis. -/
theorem C111_displaced_false : ∃ fuel u r, Spec.Forest u ∧ urdfLoad fuel u (some "base") (some "tool") = .ok r ∧
    (∀ j ∈ u.joints, j.origin.bind UOrigin.rpy = none) ∧ ¬ Spec.InertiasRight u r := by
  obtain ⟨fuel, r, h, right⟩ := gripper_energy none ⟨1, 0, 0⟩
  refine ⟨fuel, _, r, gripper_forest _ _, h, by simp [gripper, gripperTurn, gripperMount], fun hr => ?_⟩
  obtain ⟨n1, n2⟩ := gripper_inertial none ⟨1, 0, 0⟩
  obtain ⟨e1, e2, h1, h2, he⟩ := body_two (right hr ⟨⟨0, 0, 1⟩, 0⟩)
  have m1 : Spec.mass (some (⟨some 1, none, some ⟨1, 0, 0, 0, 0, 0⟩⟩ : UInertial ℝ)) = 1 := by norm_num [Spec.mass]
  have m2 : Spec.mass (some (⟨some 1, none, none⟩ : UInertial ℝ)) = 1 := by norm_num [Spec.mass]
  have k1 := h1 ⟨0, 0, 1⟩ 0 rfl (by ext <;> simp [Spec.rpyAct])
  have k2 := h2 ⟨0, 0, 1⟩ ⟨0, 1, 0⟩ rfl (by ext <;> simp [Spec.rpyAct])
  rw [n1] at k1
  rw [n2] at k2
  have k1 := k1.2 (by rw [m1]; norm_num) ⟨0, 0, 1⟩ rfl
  have k2 := k2.2 (by rw [m2]; norm_num) ⟨0, 0, 1⟩ rfl
  rw [m1] at k1
  rw [m2] at k2
  simp [Spec.com, Spec.tensorForm, V3.dot] at k1 k2 he
  linarith

open UrdfDoc in
/-- C111 is false: the tensor of an arm whose frame is turned by a quarter turn is not turned, so its energy when turning about the x axis of the root frame
is that of turning about its own x axis. -/
theorem C111_turned_false : ∃ fuel u r, Spec.Forest u ∧ urdfLoad fuel u (some "base") (some "tool") = .ok r ∧
    (∀ j ∈ u.joints, (j.origin.bind UOrigin.xyz).getD 0 = 0) ∧ ¬ Spec.InertiasRight u r := by
  obtain ⟨fuel, r, h, right⟩ := gripper_energy (some ⟨0, 0, Real.pi / 2⟩) 0
  refine ⟨fuel, _, r, gripper_forest _ _, h, by simp [gripper, gripperTurn, gripperMount], fun hr => ?_⟩
  obtain ⟨n1, n2⟩ := gripper_inertial (some ⟨0, 0, Real.pi / 2⟩) 0
  obtain ⟨e1, e2, h1, h2, he⟩ := body_two (right hr ⟨⟨1, 0, 0⟩, 0⟩)
  have m1 : Spec.mass (some (⟨some 1, none, some ⟨1, 0, 0, 0, 0, 0⟩⟩ : UInertial ℝ)) = 1 := by norm_num [Spec.mass]
  have m2 : Spec.mass (some (⟨some 1, none, none⟩ : UInertial ℝ)) = 1 := by norm_num [Spec.mass]
  have k1 := h1 ⟨0, -1, 0⟩ 0 (by ext <;> simp [Spec.rpyAct, Spec.turnX, Spec.turnY, Spec.turnZ]) (by ext <;> simp [Spec.rpyAct, Spec.turnX, Spec.turnY, Spec.turnZ])
  have k2 := h2 ⟨0, -1, 0⟩ 0 (by ext <;> simp [Spec.rpyAct, Spec.turnX, Spec.turnY, Spec.turnZ]) (by ext <;> simp [Spec.rpyAct, Spec.turnX, Spec.turnY, Spec.turnZ])
  rw [n1] at k1
  rw [n2] at k2
  have k1 := k1.2 (by rw [m1]; norm_num) ⟨0, -1, 0⟩ rfl
  have k2 := k2.2 (by rw [m2]; norm_num) ⟨0, -1, 0⟩ rfl
  rw [m1] at k1
  rw [m2] at k2
  simp [Spec.com, Spec.tensorForm, V3.dot] at k1 k2 he
  linarith

open UrdfDoc in
/-- Non-vacuity of `C111_inertias_partial`: an arm with a tool at the axis, without orientations. -/
example : ∃ fuel r Ms, urdfLoad fuel (gripper none 0) (some "base") (some "tool") = .ok r ∧ r.M = some Ms ∧ Spec.InertiasRight (gripper none 0) r := by
  obtain ⟨fuel, r, h⟩ := gripper_loads none 0
  have F := gripper_forest none 0
  have nl : ((gripper none 0).links.map ULink.name).Nodup := by simp [gripper]
  obtain ⟨n1, n2⟩ := gripper_inertial none 0
  obtain ⟨-, -, -, Ms, -, -, -, hM, -⟩ := C51_total_mass fuel _ F.names nl _ _ r h (by
    intro l hl
    simp only [gripper, List.mem_cons, List.not_mem_nil, or_false] at hl
    rcases hl with rfl | rfl | rfl <;> exact ⟨_, 1, rfl, rfl, by norm_num⟩)
  refine ⟨fuel, r, Ms, h, hM, C111_inertias_partial fuel _ F.names nl F.children _ _ r h ?_ ?_ ?_⟩
  · intro j hj
    simp only [gripper, List.mem_cons, List.not_mem_nil, or_false] at hj
    rcases hj with rfl | rfl
    · exact Option.isSome_iff_exists.2 ⟨_, n1⟩
    · exact Option.isSome_iff_exists.2 ⟨_, n2⟩
  · simp [gripper, gripperTurn, gripperMount, Spec.rpyAct]
  · simp [gripper, gripperTurn, gripperMount]
