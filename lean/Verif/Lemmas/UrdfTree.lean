import Verif.Props.UrdfInertia
import Verif.Props.RobotCtor

/-!
# The URDF loader on files whose links form trees
-/
set_option autoImplicit false

namespace Spec
variable {α : Type}

/-- The joints of the file have distinct names, connect declared links, no link is the child of two joints, and there is no cycle: links
can be given depths such that every joint leads deeper. -/
structure Forest (u : Urdf α) : Prop where
  names : (u.joints.map UJoint.name).Nodup
  children : (u.joints.map UJoint.child).Nodup
  declared : ∀ j ∈ u.joints, j.parent ∈ u.links.map ULink.name ∧ j.child ∈ u.links.map ULink.name
  acyclic : ∃ d : String → ℕ, ∀ j ∈ u.joints, d j.parent < d j.child

/-- a link that is nobody's child -/
def IsTop (u : Urdf α) (l : String) : Prop := l ∈ u.links.map ULink.name ∧ ∀ j ∈ u.joints, j.child ≠ l

/-- `rt` is the root link: the one that is asked for, or the only one that is nobody's child -/
def RootIs (u : Urdf α) (root : Option String) (rt : String) : Prop :=
  (root = some rt ∧ rt ∈ u.links.map ULink.name) ∨ (root = none ∧ ∀ l, IsTop u l ↔ l = rt)

/-- `t` is the tip link: the one that is asked for, or the only valid one -/
def TipIs (u : Urdf α) (rt : String) (tip : Option String) (t : String) : Prop :=
  tip = some t ∨ (tip = none ∧ ∀ t', ValidTip u rt t' ↔ t' = t)

/-- a joint that the loader takes: fixed, or moving with an axis -/
def Takes (j : UJoint α) : Prop :=
  j.jointType = "fixed" ∨ ((j.jointType = "revolute" ∨ j.jointType = "prismatic") ∧ ∃ a, j.axis = some a)

/-- length of an axis is 1 within the tolerance of the robot constructor -/
def UnitAxis (j : UJoint ℝ) : Prop :=
  ∀ a, j.axis = some a → |Real.sqrt (a.x * a.x + a.y * a.y + a.z * a.z) - 1| ≤ 1/100000000 + 1/100000

end Spec

section
variable {α : Type}

theorem parentOf_none {u : Urdf α} {l : String} {e : PyErr} (h : u.parentOf l = .error e) : e = .key ∧ ∀ j ∈ u.joints, j.child ≠ l := by
  unfold Urdf.parentOf at h
  split at h
  · cases h
  · rename_i hn
    cases h
    refine ⟨rfl, fun j hj hc => ?_⟩
    rw [List.find?_eq_none] at hn
    have := hn j (by simpa using hj)
    simp [hc] at this

theorem chainLoop_total {u : Urdf α} {d : String → ℕ} (hd : ∀ j ∈ u.joints, d j.parent < d j.child)
    (hc : (u.joints.map UJoint.child).Nodup) {root : String} (fuel : Nat) (link : String) (acc : List String) (hf : d link < fuel) :
    (∃ js, Spec.Chain u root js link ∧ u.chainLoop root fuel link acc = .ok (js.map UJoint.name ++ acc)) ∨
    ((¬ ∃ js, Spec.Chain u root js link) ∧ u.chainLoop root fuel link acc = .error .key) := by
  induction fuel generalizing link acc with
  | zero => omega
  | succ fuel ih =>
    unfold Urdf.chainLoop
    split_ifs with hl
    · exact .inl ⟨[], ⟨hl ▸ .nil _, by simp⟩, rfl⟩
    rcases hp : u.parentOf link with e | jp
    · obtain ⟨rfl, hno⟩ := parentOf_none hp
      right
      refine ⟨?_, rfl⟩
      rintro ⟨js, hp, -⟩
      rcases hp.unsnoc with ⟨-, e⟩ | ⟨ks, k, -, hk, hkc, -⟩
      · exact hl e.symm
      · exact hno k hk hkc
    · obtain ⟨j, hj, hjc, rfl⟩ := parentOf_ok hp
      rw [Except.bind_ok]
      have hlt := hd j hj
      rw [hjc] at hlt
      rcases ih j.parent (j.name :: acc) (by omega) with ⟨js, ⟨h1, h2⟩, h3⟩ | ⟨h1, h2⟩
      · left
        refine ⟨js ++ [j], ⟨hjc ▸ h1.snoc hj rfl, ?_⟩, by simpa using h3⟩
        intro k hk
        rcases List.mem_append.1 hk with hk | hk
        · exact h2 k hk
        · rw [List.mem_singleton] at hk; subst hk; rw [hjc]; exact hl
      · right
        refine ⟨?_, h2⟩
        rintro ⟨js, hp, hr⟩
        rcases hp.unsnoc with ⟨-, e⟩ | ⟨ks, k, rfl, hk, hkc, hkp⟩
        · exact hl e.symm
        · obtain rfl := List.inj_on_of_nodup_map hc hj hk (hjc.trans hkc.symm)
          exact h1 ⟨ks, hkp, fun x hx => hr x (by simp [hx])⟩

theorem tipLoop_total {u : Urdf α} (hn : (u.joints.map UJoint.name).Nodup) {d : String → ℕ} (hd : ∀ j ∈ u.joints, d j.parent < d j.child)
    (hc : (u.joints.map UJoint.child).Nodup) {rt : String} {fuel : Nat} (ls : List String) (hf : ∀ l ∈ ls, d l < fuel) :
    ∃ tips, u.tipLoop fuel rt ls = .ok tips ∧ tips.Sublist ls := by
  induction ls with
  | nil => exact ⟨[], rfl, .slnil⟩
  | cons l ls ih =>
    obtain ⟨tips, h1, h2⟩ := ih fun x hx => hf x (by simp [hx])
    unfold Urdf.tipLoop
    have hv : (∃ b, u.validTip fuel rt l = .ok b) ∨ u.validTip fuel rt l = .error .key := by
      unfold Urdf.validTip Urdf.getChain
      rcases chainLoop_total hd hc fuel l [] (hf l (by simp)) with ⟨js, hjs, h⟩ | ⟨-, h⟩
      · rw [h, Except.bind_ok, List.append_nil, mapM_joint hn js hjs.1.mem, Except.bind_ok]
        exact .inl ⟨_, rfl⟩
      · rw [h]; exact .inr rfl
    rcases hv with ⟨b, hv⟩ | hv
    · rw [hv]
      cases b
      · exact ⟨tips, h1, h2.cons _⟩
      · simp only [h1, Except.bind_ok]
        exact ⟨l :: tips, rfl, h2.cons_cons _⟩
    · rw [hv]
      exact ⟨tips, h1, h2.cons _⟩

theorem eraseDups_nodup (l : List String) : l.eraseDups.Nodup := by
  generalize hn : l.length = n
  induction n using Nat.strong_induction_on generalizing l with
  | _ n ih =>
    rcases l with _ | ⟨a, l⟩
    · simp
    · rw [List.eraseDups_cons, List.nodup_cons]
      refine ⟨?_, ih _ ?_ _ rfl⟩
      · rw [List.mem_eraseDups]
        simp
      · have := List.length_filter_le (fun b => !b == a) l
        simp only [List.length_cons] at hn
        omega

theorem linkNames_nodup (u : Urdf α) : u.linkNames.Nodup := eraseDups_nodup _

theorem mem_linkNames {u : Urdf α} {l : String} : l ∈ u.linkNames ↔ l ∈ u.links.map ULink.name := by
  rw [Urdf.linkNames, List.mem_eraseDups]

theorem tips_one {u : Urdf α} (hn : (u.joints.map UJoint.name).Nodup) {d : String → ℕ} (hd : ∀ j ∈ u.joints, d j.parent < d j.child)
    (hc : (u.joints.map UJoint.child).Nodup) {rt : String} {fuel : Nat} (hf : ∀ l ∈ u.linkNames, d l < fuel) :
    ∃ tips, u.tipLinks fuel rt = .ok tips ∧ tips.Nodup ∧ ∀ t, t ∈ tips ↔ Spec.ValidTip u rt t := by
  obtain ⟨tips, h1, h2⟩ := tipLoop_total (rt := rt) (fuel := fuel) hn hd hc (u.linkNames.filter fun l => !u.hasChild l)
    fun l hl => hf l (List.mem_filter.1 hl).1
  exact ⟨tips, h1, h2.nodup ((linkNames_nodup u).filter _), tipLinks_mem hn hc h1⟩

/-- `get_root` finds the only top link, or fails an assertion -/
theorem getRoot_total (u : Urdf α) : (∃ rt, u.getRoot = .ok rt ∧ ∀ l, Spec.IsTop u l ↔ l = rt) ∨
    ((¬ ∃ rt, ∀ l, Spec.IsTop u l ↔ l = rt) ∧ u.getRoot = .error .assertion) := by
  have ht : ∀ l ∈ u.linkNames, (u.hasParent l = false ↔ Spec.IsTop u l) := by
    intro l hl
    rw [mem_linkNames] at hl
    unfold Urdf.hasParent Spec.IsTop
    simp only [hl, true_and, List.any_eq_false, beq_iff_eq]
  have err : ∀ (ls : List String) (o : Option String) (e : PyErr), ls.foldlM (fun (root : Option String) l =>
      if u.hasParent l then (.ok root : Except PyErr _) else if root.isNone then .ok (some l) else .error .assertion) o = .error e →
      e = .assertion ∧ (ls.Nodup → (∀ a, o = some a → a ∉ ls) →
        ∃ a b, a ≠ b ∧ (o = some a ∨ (a ∈ ls ∧ u.hasParent a = false)) ∧ b ∈ ls ∧ u.hasParent b = false) := by
    intro ls
    induction ls with
    | nil => intro o e h; rw [List.foldlM_nil] at h; cases h
    | cons l ls ih =>
      intro o e h
      rw [List.foldlM_cons] at h
      by_cases hp : u.hasParent l
      · rw [if_pos hp, Except.bind_ok] at h
        obtain ⟨h1, h2⟩ := ih o e h
        refine ⟨h1, fun hn ho => ?_⟩
        obtain ⟨a, b, hab, h3, h4, h5⟩ := h2 (List.nodup_cons.1 hn).2 fun a e hm => ho a e (by simp [hm])
        exact ⟨a, b, hab, h3.imp_right fun h => ⟨by simp [h.1], h.2⟩, by simp [h4], h5⟩
      · rw [if_neg hp] at h
        have hp' : u.hasParent l = false := by simpa using hp
        rcases o with _ | r
        · simp only [Option.isNone_none, if_true, Except.bind_ok] at h
          obtain ⟨h1, h2⟩ := ih _ e h
          refine ⟨h1, fun hn _ => ?_⟩
          obtain ⟨a, b, hab, h3, h4, h5⟩ := h2 (List.nodup_cons.1 hn).2 (by rintro a ⟨⟩; exact (List.nodup_cons.1 hn).1)
          refine ⟨a, b, hab, .inr ?_, by simp [h4], h5⟩
          rcases h3 with h3 | h3
          · cases h3; exact ⟨by simp, hp'⟩
          · exact ⟨by simp [h3.1], h3.2⟩
        · simp only [Option.isNone_some, Bool.false_eq_true, if_false] at h
          cases h
          refine ⟨rfl, fun _ ho => ⟨r, l, ?_, .inl rfl, by simp, hp'⟩⟩
          rintro rfl
          exact ho _ rfl (by simp)
  rcases hg : u.getRoot with e | rt
  · right
    unfold Urdf.getRoot at hg
    rcases hfo : u.linkNames.foldlM (fun (root : Option String) l =>
      if u.hasParent l then (.ok root : Except PyErr _) else if root.isNone then .ok (some l) else .error .assertion) none with e' | o
    · rw [hfo] at hg
      cases hg
      obtain ⟨rfl, h2⟩ := err _ _ _ hfo
      refine ⟨?_, rfl⟩
      rintro ⟨rt, hrt⟩
      obtain ⟨a, b, hab, h3 | h3, h4, h5⟩ := h2 (linkNames_nodup u) (by simp)
      · cases h3
      · exact hab (((hrt a).1 ((ht a h3.1).1 h3.2)).trans ((hrt b).1 ((ht b h4).1 h5)).symm)
    · rw [hfo, Except.bind_ok] at hg
      rcases o with _ | r
      · cases hg
        refine ⟨?_, rfl⟩
        rintro ⟨rt, hrt⟩
        have keep : ∀ (ls : List String) (o : Option String), ls.foldlM (fun (root : Option String) l =>
            if u.hasParent l then (.ok root : Except PyErr _) else if root.isNone then .ok (some l) else .error .assertion) o = .ok none →
            o = none ∧ ∀ l ∈ ls, u.hasParent l = true := by
          intro ls
          induction ls with
          | nil => intro o h; rw [List.foldlM_nil] at h; cases h; simp
          | cons l ls ih =>
            intro o h
            rw [List.foldlM_cons] at h
            obtain ⟨o1, h1, h⟩ := Except.bind_eq_ok h
            obtain ⟨rfl, h2⟩ := ih o1 h
            split_ifs at h1 with hp hq
            · cases h1
              exact ⟨rfl, by simpa using ⟨hp, h2⟩⟩
            · cases h1
        have := (keep _ _ hfo).2 rt (mem_linkNames.2 ((hrt rt).2 rfl).1)
        rw [(ht rt (mem_linkNames.2 ((hrt rt).2 rfl).1)).2 ((hrt rt).2 rfl)] at this
        cases this
      · cases hg
  · exact .inl ⟨rt, rfl, getRoot_spec hg⟩

end

section
variable {α : Type} [Add α] [Sub α] [Mul α] [Div α] [Neg α] [Zero α] [One α] [LT α] [LE α]
  [DecidableLT α] [DecidableLE α] [Elem α]

omit [Add α] [Sub α] [Mul α] [Div α] [Neg α] [Zero α] [One α] [LT α] [LE α] [DecidableLT α] [DecidableLE α] [Elem α] in
theorem link_declared {u : Urdf α} {l : String} (h : l ∈ u.links.map ULink.name) : ∃ x, u.link l = .ok x := by
  unfold Urdf.link
  split
  · exact ⟨_, rfl⟩
  · rename_i hn
    rw [List.find?_eq_none] at hn
    obtain ⟨x, hx, rfl⟩ := List.mem_map.1 h
    have := hn x (by simpa using hx)
    simp at this

theorem jointInertia_total {u : Urdf α} {j : UJoint α} (h : j.parent ∈ u.links.map ULink.name ∧ j.child ∈ u.links.map ULink.name)
    (m : Option (M6 α)) : ∃ m', jointInertia u j m = .ok m' := by
  unfold jointInertia
  obtain ⟨x, hx⟩ := link_declared h.2
  obtain ⟨y, hy⟩ := link_declared h.1
  rw [hx, Except.bind_ok]
  split
  · exact ⟨_, rfl⟩
  · rw [hy, Except.bind_ok]; exact ⟨_, rfl⟩

/-- a joint that is not taken -/
theorem urdfStep_bad {u : Urdf α} {j : UJoint α} (h : j.parent ∈ u.links.map ULink.name ∧ j.child ∈ u.links.map ULink.name) (s : UState α) :
    (Spec.Takes j → ∃ s', urdfStep u j s = .ok s') ∧
    (j.jointType ≠ "fixed" → j.jointType ≠ "revolute" → j.jointType ≠ "prismatic" → urdfStep u j s = .error .assertion) ∧
    (j.jointType = "revolute" ∨ j.jointType = "prismatic" → j.axis = none → urdfStep u j s = .error .value) := by
  obtain ⟨m, hm⟩ := jointInertia_total h s.m
  unfold urdfStep
  rw [hm, Except.bind_ok]
  unfold addJoint
  refine ⟨?_, ?_, ?_⟩
  · rintro (hf | ⟨hf, a, ha⟩)
    · rw [if_pos hf]; exact ⟨_, rfl⟩
    · have hne : j.jointType ≠ "fixed" := by rcases hf with hf | hf <;> rw [hf] <;> decide
      rw [if_neg hne, if_pos hf, ha]
      exact ⟨_, rfl⟩
  · intro h1 h2 h3
    rw [if_neg h1, if_neg (by simp [h2, h3])]
  · intro hf ha
    have hne : j.jointType ≠ "fixed" := by rcases hf with hf | hf <;> rw [hf] <;> decide
    rw [if_neg hne, if_pos hf, ha]

theorem urdfLoop_takes {u : Urdf α} (js : List (UJoint α)) (h : ∀ j ∈ js, j.parent ∈ u.links.map ULink.name ∧ j.child ∈ u.links.map ULink.name)
    (ht : ∀ j ∈ js, Spec.Takes j) (s : UState α) : ∃ s', urdfLoop u js s = .ok s' := by
  induction js generalizing s with
  | nil => exact ⟨_, rfl⟩
  | cons j js ih =>
    unfold urdfLoop
    obtain ⟨s1, h1⟩ := (urdfStep_bad (h j (by simp)) s).1 (ht j (by simp))
    rw [h1, Except.bind_ok]
    exact ih (fun k hk => h k (by simp [hk])) (fun k hk => ht k (by simp [hk])) s1

theorem urdfLoop_bad {u : Urdf α} (a b : List (UJoint α)) (x : UJoint α)
    (h : ∀ j ∈ a ++ x :: b, j.parent ∈ u.links.map ULink.name ∧ j.child ∈ u.links.map ULink.name)
    (ht : ∀ j ∈ a, Spec.Takes j) {e : PyErr} (he : ∀ s, urdfStep u x s = .error e) (s : UState α) : urdfLoop u (a ++ x :: b) s = .error e := by
  induction a generalizing s with
  | nil =>
    show urdfLoop u (x :: b) s = _
    unfold urdfLoop
    rw [he]
    rfl
  | cons j js ih =>
    show urdfLoop u (j :: (js ++ x :: b)) s = _
    unfold urdfLoop
    obtain ⟨s1, h1⟩ := (urdfStep_bad (h j (by simp)) s).1 (ht j (by simp))
    rw [h1, Except.bind_ok]
    exact ih (fun k hk => h k (by simp at hk ⊢; tauto)) (fun k hk => ht k (by simp [hk])) s1

end

/-- the axes of the loop state are those of the joints, rotated -/
theorem urdfLoop_axes {u : Urdf ℝ} (js : List (UJoint ℝ)) (s s' : UState ℝ) (h : urdfLoop u js s = .ok s') (hR : IsRot s.R) :
    ∃ H, s'.H = s.H ++ H ∧ List.Forall₂ (fun j v => ∃ a, j.axis = some a ∧ V3.norm v = V3.norm a) (Spec.moving js) H := by
  induction js generalizing s with
  | nil => cases h; exact ⟨[], by simp, .nil⟩
  | cons j js ih =>
    obtain ⟨s1, h1, h⟩ := Except.bind_eq_ok h
    have hR1 := applyOrigin_rot j.origin s.p s.R hR
    obtain ⟨m, hm, ⟨hf, rfl⟩ | ⟨hf, a, ha, rfl⟩⟩ := urdfStep_ok h1
    · have e : Spec.moving (j :: js) = Spec.moving js := by simp [Spec.moving, hf]
      rw [e]
      obtain ⟨H, h2, h3⟩ := ih _ h hR1
      exact ⟨H, h2, h3⟩
    · have hne : j.jointType ≠ "fixed" := by rcases hf with hf | hf <;> rw [hf] <;> decide
      have e : Spec.moving (j :: js) = j :: Spec.moving js := by simp [Spec.moving, hne]
      obtain ⟨H, h2, h3⟩ := ih _ h hR1
      rw [e]
      refine ⟨(applyOrigin j.origin s.p s.R).2.mulVec a :: H, by rw [h2, List.append_assoc, List.singleton_append], .cons ⟨a, ha, ?_⟩ h3⟩
      have := hR1.mulVec_dot a a
      simp only [V3.dot] at this
      simp only [V3.norm, this]
