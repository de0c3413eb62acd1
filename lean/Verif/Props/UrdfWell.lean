import Verif.Lemmas.UrdfTree

/-!
# C91: which URDF files load, and what is raised for the others

The file is a forest (`Spec.Forest`); `Spec.RootIs`, `Spec.TipIs`, `Spec.ValidTip` and `Spec.Chain` say which chain is meant.
-/
set_option autoImplicit false

/-- What the loader does with a file: `none` if a robot is returned, otherwise the exception. -/
inductive Spec.Outcome (u : Urdf ℝ) (root tip : Option String) : Option PyErr → Prop
  /-- the root that is asked for is not in the file -/
  | badRoot (r : String) : root = some r → r ∉ u.links.map ULink.name → Outcome u root tip (some .assertion)
  /-- no root is asked for and there is not exactly one link that is nobody's child -/
  | noRoot : root = none → (¬ ∃ rt, ∀ l, Spec.IsTop u l ↔ l = rt) → Outcome u root tip (some .assertion)
  /-- no tip is asked for and there is not exactly one valid tip -/
  | manyTips (rt : String) : Spec.RootIs u root rt → tip = none → (¬ ∃ t, ∀ t', Spec.ValidTip u rt t' ↔ t' = t) →
      Outcome u root tip (some .assertion)
  /-- the tip that is asked for is not reached from the root -/
  | unreachable (rt t : String) : Spec.RootIs u root rt → tip = some t → (¬ ∃ js, Spec.Chain u rt js t) → Outcome u root tip (some .key)
  /-- the tip that is asked for is the root -/
  | empty (rt : String) : Spec.RootIs u root rt → tip = some rt → Outcome u root tip (some .assertion)
  /-- the first joint of the chain that is not taken is of another type -/
  | badType (rt t : String) (a b : List (UJoint ℝ)) (x : UJoint ℝ) : Spec.RootIs u root rt → Spec.TipIs u rt tip t →
      Spec.Chain u rt (a ++ x :: b) t → (∀ j ∈ a, Spec.Takes j) → x.jointType ≠ "fixed" → x.jointType ≠ "revolute" → x.jointType ≠ "prismatic" →
      Outcome u root tip (some .assertion)
  /-- the first joint of the chain that is not taken has no axis -/
  | noAxis (rt t : String) (a b : List (UJoint ℝ)) (x : UJoint ℝ) : Spec.RootIs u root rt → Spec.TipIs u rt tip t →
      Spec.Chain u rt (a ++ x :: b) t → (∀ j ∈ a, Spec.Takes j) → x.jointType = "revolute" ∨ x.jointType = "prismatic" → x.axis = none →
      Outcome u root tip (some .value)
  /-- all joints are taken, but the axis of one that moves does not have unit length -/
  | badAxis (rt t : String) (js : List (UJoint ℝ)) : Spec.RootIs u root rt → Spec.TipIs u rt tip t → Spec.Chain u rt js t → js ≠ [] →
      (∀ j ∈ js, Spec.Takes j) → (∃ j ∈ Spec.moving js, ¬ Spec.UnitAxis j) → Outcome u root tip (some .assertion)
  /-- everything is as it should be -/
  | loads (rt t : String) (js : List (UJoint ℝ)) : Spec.RootIs u root rt → Spec.TipIs u rt tip t → Spec.Chain u rt js t → js ≠ [] →
      (∀ j ∈ js, Spec.Takes j) → (∀ j ∈ Spec.moving js, Spec.UnitAxis j) → Outcome u root tip none

/-- C91: every file that is a forest has an outcome. -/
theorem C91_exhaustive (u : Urdf ℝ) (root tip : Option String) : ∃ o, Spec.Outcome u root tip o := by
  classical
  have hroot : (∃ rt, Spec.RootIs u root rt) ∨ Spec.Outcome u root tip (some .assertion) := by
    rcases root with _ | r
    · by_cases h : ∃ rt, ∀ l, Spec.IsTop u l ↔ l = rt
      · obtain ⟨rt, h⟩ := h
        exact .inl ⟨rt, .inr ⟨rfl, h⟩⟩
      · exact .inr (.noRoot rfl h)
    · by_cases h : r ∈ u.links.map ULink.name
      · exact .inl ⟨r, .inl ⟨rfl, h⟩⟩
      · exact .inr (.badRoot r rfl h)
  rcases hroot with ⟨rt, hrt⟩ | h
  swap
  · exact ⟨_, h⟩
  have htip : (∃ t js, Spec.TipIs u rt tip t ∧ Spec.Chain u rt js t ∧ js ≠ []) ∨ ∃ o, Spec.Outcome u root tip o := by
    rcases tip with _ | t
    · by_cases h : ∃ t, ∀ t', Spec.ValidTip u rt t' ↔ t' = t
      · obtain ⟨t, h⟩ := h
        obtain ⟨-, -, js, hjs, ⟨j, hj, -⟩, -⟩ := (h t).2 rfl
        exact .inl ⟨t, js, .inr ⟨rfl, h⟩, hjs, List.ne_nil_of_mem hj⟩
      · exact .inr ⟨_, .manyTips rt hrt rfl h⟩
    · by_cases h : ∃ js, Spec.Chain u rt js t
      · obtain ⟨js, hjs⟩ := h
        by_cases hn : js = []
        · subst hn
          rcases hjs.1.unsnoc with ⟨-, rfl⟩ | ⟨_, _, e, -⟩
          · exact .inr ⟨_, .empty rt hrt rfl⟩
          · simp at e
        · exact .inl ⟨t, js, .inl rfl, hjs, hn⟩
      · exact .inr ⟨_, .unreachable rt t hrt rfl h⟩
  rcases htip with ⟨t, js, ht, hjs, hne⟩ | h
  swap
  · exact h
  by_cases hk : ∀ j ∈ js, Spec.Takes j
  · by_cases hu : ∀ j ∈ Spec.moving js, Spec.UnitAxis j
    · exact ⟨_, .loads rt t js hrt ht hjs hne hk hu⟩
    · push Not at hu
      exact ⟨_, .badAxis rt t js hrt ht hjs hne hk hu⟩
  · have first : ∀ js : List (UJoint ℝ), (¬ ∀ j ∈ js, Spec.Takes j) → ∃ a x b, js = a ++ x :: b ∧ (∀ j ∈ a, Spec.Takes j) ∧ ¬ Spec.Takes x := by
      intro js
      induction js with
      | nil => intro h; exact absurd (by simp) h
      | cons j js ih =>
        intro h
        by_cases hj : Spec.Takes j
        · obtain ⟨a, x, b, rfl, h1, h2⟩ := ih fun hh => h (by simpa using ⟨hj, hh⟩)
          exact ⟨j :: a, x, b, rfl, by simpa using ⟨hj, h1⟩, h2⟩
        · exact ⟨[], j, js, rfl, by simp, hj⟩
    obtain ⟨a, x, b, rfl, h1, h2⟩ := first js hk
    unfold Spec.Takes at h2
    push Not at h2
    by_cases hm : x.jointType = "revolute" ∨ x.jointType = "prismatic"
    · refine ⟨_, .noAxis rt t a b x hrt ht hjs h1 hm ?_⟩
      rw [Option.eq_none_iff_forall_ne_some]
      exact h2.2 hm
    · push Not at hm
      exact ⟨_, .badType rt t a b x hrt ht hjs h1 h2.1 hm.1 hm.2⟩

/-- C91: and that outcome is what the loader does, given time (the number of steps is bounded by the file). -/
theorem C91_outcome (u : Urdf ℝ) (hu : Spec.Forest u) (root tip : Option String) : ∃ N, ∀ fuel ≥ N, ∀ o, Spec.Outcome u root tip o →
    match o with
    | none => ∃ r, urdfLoad fuel u root tip = .ok r
    | some e => urdfLoad fuel u root tip = .error e := by
  obtain ⟨hn, hc, hdecl, d, hd⟩ := hu
  refine ⟨(u.linkNames.map d).sum + tip.elim 0 d + 1, fun fuel hfuel o ho => ?_⟩
  have hleaf : ∀ l ∈ u.linkNames, d l < fuel := by
    intro l hl
    have : d l ≤ (u.linkNames.map d).sum := List.le_sum_of_mem (List.mem_map_of_mem hl)
    omega
  have htipd : ∀ t, tip = some t → d t < fuel := by
    rintro t rfl
    simp only [Option.elim_some] at hfuel
    omega
  have hroot : ∀ {rt}, Spec.RootIs u root rt → u.rootLink root = .ok rt := by
    intro rt h
    unfold Urdf.rootLink
    rcases h with ⟨rfl, h⟩ | ⟨rfl, h⟩
    · simp only [mem_linkNames.2 h, if_true]
    · simp only
      rcases getRoot_total u with ⟨rt', e, h'⟩ | ⟨h', -⟩
      · rw [e, (h' rt).1 ((h rt).2 rfl)]
      · exact absurd ⟨rt, h⟩ h'
  obtain ⟨tips, htips⟩ : ∃ tips : String → List String, ∀ rt, u.tipLinks fuel rt = .ok (tips rt) ∧ (tips rt).Nodup ∧
      ∀ t, t ∈ tips rt ↔ Spec.ValidTip u rt t :=
    Classical.skolem.1 fun rt => tips_one hn hd hc hleaf
  have htip : ∀ {rt t}, Spec.TipIs u rt tip t → Urdf.tipLink tip (tips rt) = .ok t := by
    intro rt t h
    rcases h with rfl | ⟨rfl, h⟩
    · rfl
    · obtain ⟨-, hnd, hm⟩ := htips rt
      have : tips rt = [t] := by
        have : ∀ x, x ∈ tips rt ↔ x = t := fun x => (hm x).trans (h x)
        generalize tips rt = l at this hnd
        rcases l with _ | ⟨a, _ | ⟨b, l⟩⟩
        · have := (this t).2 rfl; simp at this
        · rw [(this a).1 (by simp)]
        · have h1 := (this a).1 (by simp)
          have h2 := (this b).1 (by simp)
          subst h1
          subst h2
          simp at hnd
      rw [this]
      rfl
  have htd : ∀ {rt t}, Spec.TipIs u rt tip t → d t < fuel := by
    intro rt t h
    rcases h with h | ⟨-, h⟩
    · exact htipd t h
    · exact hleaf t (mem_linkNames.2 ((h t).2 rfl).1)
  have hchain : ∀ {rt t js}, Spec.TipIs u rt tip t → Spec.Chain u rt js t → u.getChain fuel rt t = .ok (js.map UJoint.name) := by
    intro rt t js ht hjs
    unfold Urdf.getChain
    rcases chainLoop_total hd hc (root := rt) fuel t [] (htd ht) with ⟨ks, hks, h⟩ | ⟨h, -⟩
    · rw [h, hks.unique hc hjs, List.append_nil]
    · exact absurd ⟨js, hjs⟩ h
  have start : ∀ {rt t js last}, Spec.RootIs u root rt → Spec.TipIs u rt tip t → Spec.Chain u rt js t → js.getLast? = some last →
      urdfLoad fuel u root tip = urdfBuild u rt t js last := by
    intro rt t js last hr ht hjs hl
    unfold urdfLoad
    rw [hroot hr, Except.bind_ok, (htips rt).1, Except.bind_ok, htip ht, Except.bind_ok, hchain ht hjs, Except.bind_ok,
      mapM_joint hn js hjs.1.mem, Except.bind_ok, hl]
  have hdj : ∀ {rt t js}, Spec.Chain u rt js t → ∀ j ∈ js, j.parent ∈ u.links.map ULink.name ∧ j.child ∈ u.links.map ULink.name :=
    fun h j hj => hdecl j (h.1.mem j hj)
  have build : ∀ {rt t js last}, Spec.Chain u rt js t → js.getLast? = some last → (∀ j ∈ js, Spec.Takes j) →
      ∃ s link, urdfLoop u js { p := 0, R := 1 } = .ok s ∧ u.link last.child = .ok link ∧
        List.Forall₂ (fun j v => ∃ a, j.axis = some a ∧ V3.norm v = V3.norm a) (Spec.moving js) s.H := by
    intro rt t js last hjs hl hk
    obtain ⟨s, hs⟩ := urdfLoop_takes js (hdj hjs) hk { p := 0, R := 1 }
    obtain ⟨link, hlink⟩ := link_declared (hdj hjs last (List.mem_of_getLast? hl)).2
    obtain ⟨H, h1, h2⟩ := urdfLoop_axes js _ s hs IsRot.one
    rw [List.nil_append] at h1
    rw [h1.symm] at h2
    exact ⟨s, link, hs, hlink, h2⟩
  rcases ho with ⟨r, hr, hnot⟩ | ⟨hr, hnot⟩ | ⟨rt, hr, htp, hnot⟩ | ⟨rt, t, hr, htp, hnot⟩ | ⟨rt, hr, htp⟩ | ⟨rt, t, a, b, x, hr, ht, hjs, hk, h1, h2, h3⟩ |
    ⟨rt, t, a, b, x, hr, ht, hjs, hk, h1, h2⟩ | ⟨rt, t, js, hr, ht, hjs, hne, hk, hbad⟩ | ⟨rt, t, js, hr, ht, hjs, hne, hk, hgood⟩
  · show urdfLoad fuel u root tip = .error .assertion
    unfold urdfLoad Urdf.rootLink
    subst hr
    simp only [mem_linkNames, hnot, if_false]
    rfl
  · show urdfLoad fuel u root tip = .error .assertion
    unfold urdfLoad Urdf.rootLink
    subst hr
    rcases getRoot_total u with ⟨rt', -, h'⟩ | ⟨-, e⟩
    · exact absurd ⟨rt', h'⟩ hnot
    · simp only [e]; rfl
  · show urdfLoad fuel u root tip = .error .assertion
    unfold urdfLoad
    rw [hroot hr, Except.bind_ok, (htips rt).1, Except.bind_ok]
    subst htp
    unfold Urdf.tipLink
    split
    · rename_i h; cases h
    · split
      · rename_i t e
        refine absurd ⟨t, fun t' => ?_⟩ hnot
        rw [← (htips rt).2.2, e, List.mem_singleton]
      · rfl
  · show urdfLoad fuel u root tip = .error .key
    unfold urdfLoad
    rw [hroot hr, Except.bind_ok, (htips rt).1, Except.bind_ok, htip (.inl htp), Except.bind_ok]
    unfold Urdf.getChain
    rcases chainLoop_total hd hc (root := rt) fuel t [] (htipd t htp) with ⟨ks, hks, -⟩ | ⟨-, h⟩
    · exact absurd ⟨ks, hks⟩ hnot
    · rw [h]; rfl
  · show urdfLoad fuel u root tip = .error .assertion
    unfold urdfLoad
    rw [hroot hr, Except.bind_ok, (htips rt).1, Except.bind_ok, htip (.inl htp), Except.bind_ok,
      hchain (.inl htp) (⟨.nil _, by simp⟩ : Spec.Chain u rt [] rt)]
    rfl
  · show urdfLoad fuel u root tip = .error .assertion
    obtain ⟨last, hl⟩ : ∃ last, (a ++ x :: b).getLast? = some last := by
      rw [← Option.isSome_iff_exists]; simp
    rw [start hr ht hjs hl]
    unfold urdfBuild
    rw [urdfLoop_bad a b x (hdj hjs) hk fun s => (urdfStep_bad (hdj hjs x (by simp)) s).2.1 h1 h2 h3]
    rfl
  · show urdfLoad fuel u root tip = .error .value
    obtain ⟨last, hl⟩ : ∃ last, (a ++ x :: b).getLast? = some last := by
      rw [← Option.isSome_iff_exists]; simp
    rw [start hr ht hjs hl]
    unfold urdfBuild
    rw [urdfLoop_bad a b x (hdj hjs) hk fun s => (urdfStep_bad (hdj hjs x (by simp)) s).2.2 h1 h2]
    rfl
  · show urdfLoad fuel u root tip = .error .assertion
    obtain ⟨last, hl⟩ : ∃ last, js.getLast? = some last := by
      rw [← Option.isSome_iff_exists]; simpa using hne
    obtain ⟨s, link, hs, hlink, hH⟩ := build hjs hl hk
    rw [start hr ht hjs hl]
    unfold urdfBuild
    rw [hs, Except.bind_ok, hlink, Except.bind_ok]
    simp only
    rw [C16_ctor_raises]
    · rfl
    rintro ⟨hunit, -⟩
    obtain ⟨j, hj, hbad⟩ := hbad
    refine hbad fun a ha => ?_
    obtain ⟨v, hv, a', ha', e⟩ := Forall₂.exists_right hH hj
    rw [ha] at ha'
    cases ha'
    have := hunit v hv
    simp only [V3.norm, sqrt_real] at e
    rwa [e] at this
  · show ∃ r, urdfLoad fuel u root tip = .ok r
    obtain ⟨last, hl⟩ : ∃ last, js.getLast? = some last := by
      rw [← Option.isSome_iff_exists]; simpa using hne
    obtain ⟨s, link, hs, hlink, hH⟩ := build hjs hl hk
    rw [start hr ht hjs hl]
    unfold urdfBuild
    rw [hs, Except.bind_ok, hlink, Except.bind_ok]
    simp only
    have A := urdfLoop_adds js _ s hs
    have lm : ∀ {β : Type} (f : UJoint ℝ → Option β) (L : List β), noneIn ((Spec.moving js).map f) = some L → L.length = (Spec.moving js).length := by
      intro β f L h
      rw [noneIn_map] at h
      exact h.length_eq.symm
    have lH : s.H.length = (Spec.moving js).length := hH.length_eq.symm
    have hlo := A.lower
    have hup := A.upper
    have hve := A.vel
    have hna := A.names
    have hty := A.ty
    have hlP := A.lP
    have hlM := A.lM
    simp only [List.nil_append, List.length_nil, Nat.zero_add] at hlo hup hve hna hty hlP hlM
    rw [(C16_ctor_iff _ _ _ _ _ _ _ _ _ _ _ _ _ _ _ _).2 ⟨?_, rfl⟩]
    · exact ⟨_, rfl⟩
    refine ⟨?_, ?_, ?_, ?_, ?_, ?_, ?_, ?_, ?_⟩
    · intro v hv
      obtain ⟨j, hj, a, ha, e⟩ := Forall₂.exists_left hH hv
      have := hgood j hj a ha
      simp only [V3.norm, sqrt_real] at e
      rwa [e]
    · intro t ht
      rw [hty] at ht
      obtain ⟨j, -, rfl⟩ := List.mem_map.1 ht
      unfold typeNo
      split_ifs
      · exact .inl rfl
      · exact .inr (.inl rfl)
    · rw [List.length_append, hlP, lH]; rfl
    · rw [hty, List.length_map, lH]
    · intro l u' h1 h2
      rw [hlo, hup] at h1 h2
      unfold limitPair at h1 h2
      split at h1
      · rename_i l' u'' e1 e2
        simp only [e1, e2] at h2
        cases h1
        cases h2
        exact ⟨(lm _ _ e1).trans lH.symm, (lm _ _ e2).trans lH.symm⟩
      · cases h1
    · intro v h
      rw [hve] at h
      exact (lm _ _ h).trans lH.symm
    · intro a h
      cases h
    · intro m h
      rw [noneIn_eq_some] at h
      have := congrArg List.length h
      rw [List.length_append, hlM, List.length_map, List.length_singleton] at this
      rw [← this, lH]
    · intro n h
      cases h
      rw [hna, List.length_map, lH]

/-- C91: a file loads exactly if its outcome says so. -/
theorem C91_loads_iff (u : Urdf ℝ) (hu : Spec.Forest u) (root tip : Option String) : ∃ N, ∀ fuel ≥ N,
    (∃ r, urdfLoad fuel u root tip = .ok r) ↔ Spec.Outcome u root tip none := by
  obtain ⟨N, h⟩ := C91_outcome u hu root tip
  refine ⟨N, fun fuel hf => ⟨?_, fun ho => h fuel hf none ho⟩⟩
  rintro ⟨r, hr⟩
  obtain ⟨o, ho⟩ := C91_exhaustive u root tip
  rcases o with _ | e
  · exact ho
  · have := h fuel hf _ ho
    simp only [hr] at this
    cases this

namespace UrdfDoc

/-- a fixed mount and one joint, of the given type and axis -/
def one (type : String) (axis : Option (V3 ℝ)) : Urdf ℝ :=
  { links := [⟨"base", none⟩, ⟨"stand", none⟩, ⟨"arm", none⟩]
    joints := [{ name := "mount", jointType := "fixed", parent := "base", child := "stand" },
               { name := "turn", jointType := type, parent := "stand", child := "arm", axis := axis }] }

theorem one_forest (type : String) (axis : Option (V3 ℝ)) : Spec.Forest (one type axis) := by
  refine ⟨by simp [one], by simp [one], by simp [one], fun l => if l = "base" then 0 else if l = "stand" then 1 else 2, by simp [one]⟩

theorem one_root (type : String) (axis : Option (V3 ℝ)) : Spec.RootIs (one type axis) none "base" := by
  refine .inr ⟨rfl, fun l => ?_⟩
  simp only [Spec.IsTop, one, List.map_cons, List.map_nil, List.mem_cons, List.not_mem_nil, or_false, forall_eq_or_imp, forall_eq]
  constructor
  · rintro ⟨rfl | rfl | rfl, h1, h2⟩
    · rfl
    · exact absurd rfl h1
    · exact absurd rfl h2
  · rintro rfl
    exact ⟨.inl rfl, by decide, by decide⟩

theorem one_chain (type : String) (axis : Option (V3 ℝ)) : Spec.Chain (one type axis) "base" (one type axis).joints "arm" := by
  refine ⟨?_, by simp [one]⟩
  refine .cons { name := "mount", jointType := "fixed", parent := "base", child := "stand" } _ _ (by simp [one]) ?_
  exact .cons { name := "turn", jointType := type, parent := "stand", child := "arm", axis := axis } _ _ (by simp [one]) (.nil _)

theorem one_tip (type : String) (axis : Option (V3 ℝ)) (h1 : type ≠ "fixed") (h2 : type ≠ "floating") : Spec.TipIs (one type axis) "base" none "arm" := by
  refine .inr ⟨rfl, fun t => ⟨?_, ?_⟩⟩
  · rintro ⟨h, h', -⟩
    simp only [one, List.map_cons, List.map_nil, List.mem_cons, List.not_mem_nil, or_false, forall_eq_or_imp, forall_eq] at h h'
    rcases h with rfl | rfl | rfl
    · exact absurd rfl h'.1
    · exact absurd rfl h'.2
    · rfl
  · rintro rfl
    refine ⟨by simp [one], by simp [one], _, one_chain type axis, ?_, ?_⟩
    · exact ⟨{ name := "turn", jointType := type, parent := "stand", child := "arm", axis := axis }, by simp [one], h1⟩
    · simp [one, h2]

/-- a root link, and a cycle of two links with a leaf -/
def cycle : Urdf ℝ :=
  { links := [⟨"base", none⟩, ⟨"a", none⟩, ⟨"b", none⟩, ⟨"tip", none⟩]
    joints := [{ name := "j1", jointType := "revolute", parent := "a", child := "b", axis := some ⟨0, 0, 1⟩ },
               { name := "j2", jointType := "revolute", parent := "b", child := "a", axis := some ⟨0, 0, 1⟩ },
               { name := "j3", jointType := "revolute", parent := "a", child := "tip", axis := some ⟨0, 0, 1⟩ }] }

end UrdfDoc

/-- a file that loads -/
example : Spec.Outcome (UrdfDoc.one "revolute" (some ⟨0, 0, 1⟩)) none none none := by
  refine .loads "base" "arm" _ (UrdfDoc.one_root _ _) (UrdfDoc.one_tip _ _ (by decide) (by decide)) (UrdfDoc.one_chain _ _) (by simp [UrdfDoc.one]) ?_ ?_
  · intro j hj
    simp only [UrdfDoc.one, List.mem_cons, List.not_mem_nil, or_false] at hj
    rcases hj with rfl | rfl
    · exact .inl rfl
    · exact .inr ⟨.inl rfl, _, rfl⟩
  · intro j hj a ha
    simp only [Spec.moving, UrdfDoc.one] at hj
    simp at hj
    subst hj
    cases ha
    norm_num

/-- a tip that is not in the file -/
example : Spec.Outcome (UrdfDoc.one "revolute" (some ⟨0, 0, 1⟩)) none (some "stand2") (some .key) := by
  refine .unreachable "base" "stand2" (UrdfDoc.one_root _ _) rfl ?_
  rintro ⟨js, h, -⟩
  rcases h.unsnoc with ⟨-, e⟩ | ⟨ks, k, -, hk, hkc, -⟩
  · exact absurd e (by decide)
  · simp only [UrdfDoc.one, List.mem_cons, List.not_mem_nil, or_false] at hk
    rcases hk with rfl | rfl
    · exact absurd hkc (by decide)
    · exact absurd hkc (by decide)

/-- C91, 'a valid file loads' is false: a moving joint may leave out its axis, which is then the x axis by the URDF format; the loader raises
ValueError. -/
theorem C91_default_axis_false : ∃ N, ∀ fuel ≥ N, urdfLoad fuel (UrdfDoc.one "revolute" none) none none = .error .value := by
  obtain ⟨N, h⟩ := C91_outcome _ (UrdfDoc.one_forest "revolute" none) none none
  refine ⟨N, fun fuel hf => h fuel hf (some .value) ?_⟩
  exact .noAxis "base" "arm" [{ name := "mount", jointType := "fixed", parent := "base", child := "stand" }] []
    { name := "turn", jointType := "revolute", parent := "stand", child := "arm", axis := none } (UrdfDoc.one_root _ _)
    (UrdfDoc.one_tip _ _ (by decide) (by decide)) (UrdfDoc.one_chain _ _) (by simp [Spec.Takes]) (.inl rfl) rfl

/-- C91, 'a valid file loads' is false: continuous joints, i.e. rotary joints without limits, are refused, whatever their axis. -/
theorem C91_continuous_false (axis : Option (V3 ℝ)) : ∃ N, ∀ fuel ≥ N, urdfLoad fuel (UrdfDoc.one "continuous" axis) none none = .error .assertion := by
  obtain ⟨N, h⟩ := C91_outcome _ (UrdfDoc.one_forest "continuous" axis) none none
  refine ⟨N, fun fuel hf => h fuel hf (some .assertion) ?_⟩
  exact .badType "base" "arm" [{ name := "mount", jointType := "fixed", parent := "base", child := "stand" }] []
    { name := "turn", jointType := "continuous", parent := "stand", child := "arm", axis := axis } (UrdfDoc.one_root _ _)
    (UrdfDoc.one_tip _ _ (by decide) (by decide)) (UrdfDoc.one_chain _ _) (by simp [Spec.Takes]) (by simp) (by simp) (by simp)

/-- C91: without `Spec.Forest` the loader need not end: on a file with a cycle it runs out of every number of steps. -/
theorem C91_cycle_diverges (fuel : Nat) (tip : Option String) : urdfLoad fuel UrdfDoc.cycle none tip = .error .diverge := by
  have hp : UrdfDoc.cycle.parentOf "a" = .ok ("j2", "b") ∧ UrdfDoc.cycle.parentOf "b" = .ok ("j1", "a") ∧
      UrdfDoc.cycle.parentOf "tip" = .ok ("j3", "a") := by
    simp [Urdf.parentOf, UrdfDoc.cycle]
  have loop : ∀ (fuel : Nat) (l : String) (acc : List String), l = "a" ∨ l = "b" ∨ l = "tip" →
      UrdfDoc.cycle.chainLoop "base" fuel l acc = .error .diverge := by
    intro fuel
    induction fuel with
    | zero => intros; rfl
    | succ fuel ih =>
      intro l acc hl
      unfold Urdf.chainLoop
      rcases hl with rfl | rfl | rfl
      · rw [if_neg (by decide), hp.1, Except.bind_ok]; exact ih _ _ (by simp)
      · rw [if_neg (by decide), hp.2.1, Except.bind_ok]; exact ih _ _ (by simp)
      · rw [if_neg (by decide), hp.2.2, Except.bind_ok]; exact ih _ _ (by simp)
  have hroot : UrdfDoc.cycle.rootLink none = .ok "base" := by
    simp [Urdf.rootLink, Urdf.getRoot, Urdf.linkNames, UrdfDoc.cycle, Urdf.hasParent, List.eraseDups_cons]
  have hleaf : ∃ ls, UrdfDoc.cycle.linkNames.filter (fun l => !UrdfDoc.cycle.hasChild l) = "base" :: "tip" :: ls := by
    simp [Urdf.linkNames, UrdfDoc.cycle, Urdf.hasChild, List.eraseDups_cons]
  obtain ⟨ls, hls⟩ := hleaf
  unfold urdfLoad
  rw [hroot, Except.bind_ok]
  unfold Urdf.tipLinks
  rw [hls]
  rcases fuel with _ | fuel
  · rfl
  · have h1 : UrdfDoc.cycle.validTip (fuel + 1) "base" "base" = .ok false := by
      unfold Urdf.validTip Urdf.getChain Urdf.chainLoop
      rw [if_pos rfl]
      rfl
    have h2 : UrdfDoc.cycle.validTip (fuel + 1) "base" "tip" = .error .diverge := by
      unfold Urdf.validTip Urdf.getChain
      rw [loop _ _ _ (by simp)]
      rfl
    unfold Urdf.tipLoop
    rw [h1]
    simp only
    unfold Urdf.tipLoop
    rw [h2]
    rfl
