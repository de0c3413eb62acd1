import Verif.Lemmas.Urdf
import Mathlib.Data.List.Forall2

/-! # Two URDF files with the same names and joint types

The files may have numbers of different scalar types.  The search for the root, the tips and the chain only uses names and joint types. -/
set_option autoImplicit false

variable {α β : Type}

/-- same names and type -/
structure JSame (j : UJoint α) (k : UJoint β) : Prop where
  name : j.name = k.name
  type : j.jointType = k.jointType
  parent : j.parent = k.parent
  child : j.child = k.child

/-- same name, and both or none have an inertial -/
structure LSame (l : ULink α) (m : ULink β) : Prop where
  name : l.name = m.name
  inertial : l.inertial.isSome = m.inertial.isSome

/-- same links and joints in the same order -/
structure USame (R : UJoint α → UJoint β → Prop) (u : Urdf α) (v : Urdf β) : Prop where
  links : List.Forall₂ LSame u.links v.links
  joints : List.Forall₂ R u.joints v.joints
  rel : ∀ j k, R j k → JSame j k

theorem forall₂_find {γ δ : Type} {R : γ → δ → Prop} {l : List γ} {m : List δ} (h : List.Forall₂ R l m) {p : γ → Bool} {q : δ → Bool}
    (hpq : ∀ a b, R a b → p a = q b) : (l.find? p = none ∧ m.find? q = none) ∨ ∃ a b, l.find? p = some a ∧ m.find? q = some b ∧ R a b := by
  induction h with
  | nil => exact Or.inl ⟨rfl, rfl⟩
  | @cons a b l m hab _ ih =>
    have e := hpq a b hab
    rcases hp : p a with _ | _
    · rw [List.find?_cons, List.find?_cons, hp, ← e, hp]; exact ih
    · rw [List.find?_cons, List.find?_cons, hp, ← e, hp]; exact Or.inr ⟨a, b, rfl, rfl, hab⟩

theorem forall₂_any {γ δ : Type} {R : γ → δ → Prop} {l : List γ} {m : List δ} (h : List.Forall₂ R l m) {p : γ → Bool} {q : δ → Bool}
    (hpq : ∀ a b, R a b → p a = q b) : l.any p = m.any q := by
  induction h with
  | nil => rfl
  | cons hab _ ih => rw [List.any_cons, List.any_cons, ih, hpq _ _ hab]

theorem forall₂_all {γ δ : Type} {R : γ → δ → Prop} {l : List γ} {m : List δ} (h : List.Forall₂ R l m) {p : γ → Bool} {q : δ → Bool}
    (hpq : ∀ a b, R a b → p a = q b) : l.all p = m.all q := by
  induction h with
  | nil => rfl
  | cons hab _ ih => rw [List.all_cons, List.all_cons, ih, hpq _ _ hab]

theorem forall₂_map_eq {γ δ ε : Type} {R : γ → δ → Prop} {l : List γ} {m : List δ} (h : List.Forall₂ R l m) {f : γ → ε} {g : δ → ε}
    (hfg : ∀ a b, R a b → f a = g b) : l.map f = m.map g := by
  induction h with
  | nil => rfl
  | cons hab _ ih => rw [List.map_cons, List.map_cons, ih, hfg _ _ hab]

/-- both computations fail with the same exception, or succeed with related results -/
def ExRel {γ δ : Type} (R : γ → δ → Prop) (x : Except PyErr γ) (y : Except PyErr δ) : Prop :=
  (∃ e, x = .error e ∧ y = .error e) ∨ ∃ a b, x = .ok a ∧ y = .ok b ∧ R a b

namespace USame
variable {R : UJoint α → UJoint β → Prop} {u : Urdf α} {v : Urdf β} (h : USame R u v)
include h

theorem linkNames : u.linkNames = v.linkNames := by
  unfold Urdf.linkNames
  rw [forall₂_map_eq h.links fun a b hab => hab.name]

theorem link (n : String) : ExRel LSame (u.link n) (v.link n) := by
  unfold Urdf.link
  rcases forall₂_find (List.forall₂_reverse_iff.2 h.links) (p := fun l => l.name == n) (q := fun l => l.name == n)
    (fun a b hab => by rw [hab.name]) with ⟨h1, h2⟩ | ⟨a, b, h1, h2, hab⟩
  · exact Or.inl ⟨.key, by rw [h1], by rw [h2]⟩
  · exact Or.inr ⟨a, b, by rw [h1], by rw [h2], hab⟩

theorem joint (n : String) : ExRel R (u.joint n) (v.joint n) := by
  unfold Urdf.joint
  rcases forall₂_find (List.forall₂_reverse_iff.2 h.joints) (p := fun l => l.name == n) (q := fun l => l.name == n)
    (fun a b hab => by rw [(h.rel a b hab).name]) with ⟨h1, h2⟩ | ⟨a, b, h1, h2, hab⟩
  · exact Or.inl ⟨.key, by rw [h1], by rw [h2]⟩
  · exact Or.inr ⟨a, b, by rw [h1], by rw [h2], hab⟩

theorem parentOf (n : String) : u.parentOf n = v.parentOf n := by
  unfold Urdf.parentOf
  rcases forall₂_find (List.forall₂_reverse_iff.2 h.joints) (p := fun l => l.child == n) (q := fun l => l.child == n)
    (fun a b hab => by rw [(h.rel a b hab).child]) with ⟨h1, h2⟩ | ⟨a, b, h1, h2, hab⟩
  · rw [h1, h2]
  · rw [h1, h2]
    simp only [(h.rel a b hab).name, (h.rel a b hab).parent]

theorem hasParent (n : String) : u.hasParent n = v.hasParent n :=
  forall₂_any h.joints fun a b hab => by rw [(h.rel a b hab).child]

theorem hasChild (n : String) : u.hasChild n = v.hasChild n :=
  forall₂_any h.joints fun a b hab => by rw [(h.rel a b hab).parent]

theorem getRoot : u.getRoot = v.getRoot := by
  unfold Urdf.getRoot
  simp only [h.linkNames, h.hasParent]

theorem rootLink (r : Option String) : u.rootLink r = v.rootLink r := by
  unfold Urdf.rootLink
  rw [h.linkNames, h.getRoot]

theorem getChain (fuel : Nat) (root tip : String) : u.getChain fuel root tip = v.getChain fuel root tip := by
  unfold Urdf.getChain
  generalize ([] : List String) = acc
  induction fuel generalizing tip acc with
  | zero => rfl
  | succ fuel ih =>
    unfold Urdf.chainLoop
    rw [h.parentOf]
    simp only [ih]

theorem mapM_joint (c : List String) : ExRel (List.Forall₂ R) (c.mapM u.joint) (c.mapM v.joint) := by
  induction c with
  | nil => exact Or.inr ⟨[], [], rfl, rfl, .nil⟩
  | cons n c ih =>
    rw [mapM_cons', mapM_cons']
    rcases h.joint n with ⟨e, h1, h2⟩ | ⟨a, b, h1, h2, hab⟩
    · rw [h1, h2]; exact Or.inl ⟨e, rfl, rfl⟩
    · rw [h1, h2, Except.bind_ok, Except.bind_ok]
      rcases ih with ⟨e, h1, h2⟩ | ⟨as, bs, h1, h2, habs⟩
      · rw [h1, h2]; exact Or.inl ⟨e, rfl, rfl⟩
      · rw [h1, h2]; exact Or.inr ⟨a :: as, b :: bs, rfl, rfl, .cons hab habs⟩

theorem validTip (fuel : Nat) (root l : String) : u.validTip fuel root l = v.validTip fuel root l := by
  unfold Urdf.validTip
  rw [h.getChain]
  rcases v.getChain fuel root l with e | c
  · rfl
  · rw [Except.bind_ok, Except.bind_ok]
    rcases h.mapM_joint c with ⟨e, h1, h2⟩ | ⟨as, bs, h1, h2, hab⟩
    · rw [h1, h2]; rfl
    · rw [h1, h2, Except.bind_ok, Except.bind_ok,
        forall₂_any hab (p := fun j => j.jointType == "floating") (q := fun j => j.jointType == "floating")
          (fun a b hab => by rw [(h.rel a b hab).type]),
        forall₂_all hab (p := fun j => j.jointType == "fixed") (q := fun j => j.jointType == "fixed")
          (fun a b hab => by rw [(h.rel a b hab).type])]

theorem tipLinks (fuel : Nat) (root : String) : u.tipLinks fuel root = v.tipLinks fuel root := by
  unfold Urdf.tipLinks
  simp only [h.linkNames, h.hasChild]
  generalize v.linkNames.filter _ = ls
  induction ls with
  | nil => rfl
  | cons l ls ih =>
    unfold Urdf.tipLoop
    rw [h.validTip, ih]

end USame
