import Verif.Props.UrdfWell

/-!
# Property C117: URDF files in which joints are made fixed
-/
set_option autoImplicit false

/-- the file in which the joints whose names are not kept are made fixed; nothing else is changed -/
def Spec.fixAllBut (keep : String → Bool) (u : Urdf ℝ) : Urdf ℝ :=
  { u with joints := u.joints.map fun j => if keep j.name then j else { j with jointType := "fixed" } }

namespace UrdfFixed

/-- what happens to one joint -/
def fx (keep : String → Bool) (j : UJoint ℝ) : UJoint ℝ := if keep j.name then j else { j with jointType := "fixed" }

variable {keep : String → Bool}

@[simp] theorem fx_name (j : UJoint ℝ) : (fx keep j).name = j.name := by unfold fx; split <;> rfl
@[simp] theorem fx_parent (j : UJoint ℝ) : (fx keep j).parent = j.parent := by unfold fx; split <;> rfl
@[simp] theorem fx_child (j : UJoint ℝ) : (fx keep j).child = j.child := by unfold fx; split <;> rfl
@[simp] theorem fx_origin (j : UJoint ℝ) : (fx keep j).origin = j.origin := by unfold fx; split <;> rfl
@[simp] theorem fx_axis (j : UJoint ℝ) : (fx keep j).axis = j.axis := by unfold fx; split <;> rfl

theorem joints_eq (u : Urdf ℝ) : (Spec.fixAllBut keep u).joints = u.joints.map (fx keep) := rfl
theorem links_eq (u : Urdf ℝ) : (Spec.fixAllBut keep u).links = u.links := rfl

theorem forest {u : Urdf ℝ} (hu : Spec.Forest u) : Spec.Forest (Spec.fixAllBut keep u) := by
  obtain ⟨hn, hc, hd, d, ha⟩ := hu
  refine ⟨?_, ?_, ?_, d, ?_⟩
  · rw [joints_eq, List.map_map]; convert hn using 2; funext j; simp
  · rw [joints_eq, List.map_map]; convert hc using 2; funext j; simp
  · rw [joints_eq, links_eq]; simpa using hd
  · rw [joints_eq]; simpa using ha

theorem rootLink_eq (u : Urdf ℝ) (root : Option String) : (Spec.fixAllBut keep u).rootLink root = u.rootLink root := by
  have h : (Spec.fixAllBut keep u).hasParent = u.hasParent := by
    funext l
    unfold Urdf.hasParent
    rw [joints_eq, List.any_map]
    congr 1
    funext j; simp
  unfold Urdf.rootLink Urdf.getRoot
  rw [h]
  rfl

theorem rootIs {u : Urdf ℝ} {root : Option String} {rt : String} (h : Spec.RootIs u root rt) : Spec.RootIs (Spec.fixAllBut keep u) root rt := by
  unfold Spec.RootIs Spec.IsTop at *
  rw [joints_eq, links_eq]
  simpa using h

theorem path {u : Urdf ℝ} {a b : String} {js : List (UJoint ℝ)} (h : Spec.Path u a js b) : Spec.Path (Spec.fixAllBut keep u) a (js.map (fx keep)) b := by
  induction h with
  | nil l => exact .nil l
  | cons j js t hj h ih =>
    have := Spec.Path.cons (u := Spec.fixAllBut keep u) (fx keep j) (js.map (fx keep)) t (by rw [joints_eq]; exact List.mem_map_of_mem hj)
      (by simpa using ih)
    simpa using this

theorem chain {u : Urdf ℝ} {a b : String} {js : List (UJoint ℝ)} (h : Spec.Chain u a js b) : Spec.Chain (Spec.fixAllBut keep u) a (js.map (fx keep)) b :=
  ⟨path h.1, by simpa using h.2⟩

theorem moving_cons (j : UJoint ℝ) (js : List (UJoint ℝ)) :
    Spec.moving (j :: js) = if j.jointType = "fixed" then Spec.moving js else j :: Spec.moving js := by
  unfold Spec.moving
  by_cases h : j.jointType = "fixed" <;> simp [h]

theorem fx_fixed (j : UJoint ℝ) : (fx keep j).jointType = "fixed" ↔ keep j.name = false ∨ j.jointType = "fixed" := by
  unfold fx
  cases h : keep j.name <;> simp

theorem moving_fx (js : List (UJoint ℝ)) : Spec.moving (js.map (fx keep)) = (Spec.moving js).filter fun j => keep j.name := by
  induction js with
  | nil => rfl
  | cons j js ih =>
    rw [List.map_cons, moving_cons, moving_cons, ih]
    by_cases hj : j.jointType = "fixed"
    · rw [if_pos ((fx_fixed j).2 (.inr hj)), if_pos hj]
    · cases hk : keep j.name
      · rw [if_pos ((fx_fixed j).2 (.inl hk)), if_neg hj]; simp [hk]
      · have e : fx keep j = j := by simp [fx, hk]
        rw [e, if_neg hj, if_neg hj]; simp [hk]

theorem names_fx (js : List (UJoint ℝ)) : (Spec.moving (js.map (fx keep))).map UJoint.name = ((Spec.moving js).map UJoint.name).filter keep := by
  rw [moving_fx, List.filter_map]; rfl

theorem motion_zero (j : UJoint ℝ) (v : V3 ℝ) : Spec.motionAct j 0 v = v := by
  unfold Spec.motionAct
  split
  · rfl
  · split
    · ext <;> simp
    · ext <;> simp

theorem act_fx (val : String → ℝ) (h0 : ∀ n, keep n = false → val n = 0) (js : List (UJoint ℝ)) (v : V3 ℝ) :
    Spec.urdfAct (js.map (fx keep)) (((Spec.moving (js.map (fx keep))).map UJoint.name).map val) v =
      Spec.urdfAct js (((Spec.moving js).map UJoint.name).map val) v := by
  induction js with
  | nil => rfl
  | cons j js ih =>
    rw [List.map_cons, moving_cons, moving_cons]
    by_cases hj : j.jointType = "fixed"
    · rw [if_pos ((fx_fixed j).2 (.inr hj)), if_pos hj, Spec.urdfAct.eq_def, Spec.urdfAct.eq_def (j :: js)]
      simp only [if_pos ((fx_fixed (keep := keep) j).2 (.inr hj)), if_pos hj, fx_origin, ih]
    · cases hk : keep j.name
      · rw [if_pos ((fx_fixed j).2 (.inl hk)), if_neg hj, Spec.urdfAct.eq_def, Spec.urdfAct.eq_def (j :: js)]
        simp only [if_pos ((fx_fixed (keep := keep) j).2 (.inl hk)), if_neg hj, fx_origin, ih, List.map_cons, h0 _ hk, motion_zero]
      · have e : fx keep j = j := by simp [fx, hk]
        rw [e, if_neg hj, if_neg hj, Spec.urdfAct.eq_def, Spec.urdfAct.eq_def (j :: js)]
        simp only [if_neg hj, List.map_cons, ih]

end UrdfFixed

open UrdfFixed in
/-- C117: take a file whose links form trees and which loads with a given tip, and make any choice of its joints fixed.  Then the new file loads as
well, with the same root and tip; the joints of the robot are those that were kept, in the same order; and for all joint values (by joint name)
that are zero at the joints made fixed, both robots have the same pose. -/
theorem C117_fixed_joints (u : Urdf ℝ) (hu : Spec.Forest u) (hax : ∀ j ∈ u.joints, ∀ a, j.axis = some a → IsUnit3 a) (keep : String → Bool)
    (root : Option String) (t : String) :
    ∃ N, ∀ fuel ≥ N, ∀ r, urdfLoad fuel u root (some t) = .ok r →
      ∃ r' names, urdfLoad fuel (Spec.fixAllBut keep u) root (some t) = .ok r' ∧ r'.rootLink = r.rootLink ∧ r'.tipLink = r.tipLink ∧
        r.jointNames = some names ∧ r'.jointNames = some (names.filter keep) ∧
        ∀ val : String → ℝ, (∀ n, keep n = false → val n = 0) →
          ∃ T T', fwdkin r (names.map val) true = .ok T ∧ fwdkin r' ((names.filter keep).map val) true = .ok T' ∧ T'.R = T.R ∧ T'.p = T.p := by
  have hu' := forest (keep := keep) hu
  obtain ⟨N, h1⟩ := C91_loads_iff u hu root (some t)
  obtain ⟨N', h2⟩ := C91_loads_iff _ hu' root (some t)
  refine ⟨max N N', fun fuel hf r hr => ?_⟩
  have ho := (h1 fuel (le_trans (le_max_left _ _) hf)).1 ⟨r, hr⟩
  have ho' : Spec.Outcome (Spec.fixAllBut keep u) root (some t) none := by
    cases ho with
    | loads rt t' js hrt ht hjs hne hk hun =>
      have ht' : t' = t := by
        rcases ht with h | ⟨h, -⟩
        · cases h; rfl
        · cases h
      subst ht'
      refine .loads rt t' (js.map (fx keep)) (rootIs hrt) (.inl rfl) (chain hjs) (by simpa using hne) ?_ ?_
      · intro j hj
        obtain ⟨i, hi, rfl⟩ := List.mem_map.1 hj
        have := hk i hi
        unfold fx
        split
        · exact this
        · exact .inl rfl
      · intro j hj
        rw [moving_fx] at hj
        exact hun j (List.mem_filter.1 hj).1
  obtain ⟨r', hr'⟩ := (h2 fuel (le_trans (le_max_right _ _) hf)).2 ho'
  obtain ⟨L⟩ := urdfLoad_loaded hu.names hr
  obtain ⟨L'⟩ := urdfLoad_loaded hu'.names hr'
  have ert : L'.rt = L.rt := by
    have := L'.root_eq
    rw [rootLink_eq, L.root_eq] at this
    exact (Except.ok.inj this).symm
  have et : t = L.t := Except.ok.inj L.tip_eq
  have et' : L'.t = L.t := (Except.ok.inj L'.tip_eq).symm.trans et
  have ejs : L'.js = L.js.map (fx keep) := by
    refine Spec.Chain.unique hu'.children L'.chain ?_
    rw [ert, et']
    exact chain L.chain
  have hn : L.s.names = (Spec.moving L.js).map UJoint.name := by simpa using (urdfLoop_adds _ _ _ L.loop).names
  have hn' : L'.s.names = ((Spec.moving L.js).map UJoint.name).filter keep := by
    rw [← names_fx, ← ejs]; simpa using (urdfLoop_adds _ _ _ L'.loop).names
  refine ⟨r', (Spec.moving L.js).map UJoint.name, hr', ?_, ?_, ?_, ?_, fun val h0 => ?_⟩
  · rw [congrArg Robot.rootLink L'.robot_eq, congrArg Robot.rootLink L.robot_eq, ert]
  · rw [congrArg Robot.tipLink L'.robot_eq, congrArg Robot.tipLink L.robot_eq, et']
  · rw [congrArg Robot.jointNames L.robot_eq, hn]
  · rw [congrArg Robot.jointNames L'.robot_eq, hn']
  · obtain ⟨T, hT, -, hact, -⟩ := loaded_fwdkin L (fun j hj => hax j (L.chain.1.mem j hj)) (((Spec.moving L.js).map UJoint.name).map val) (by simp)
    obtain ⟨T', hT', -, hact', -⟩ := loaded_fwdkin L' (by
      intro j hj a ha
      rw [ejs] at hj
      obtain ⟨i, hi, rfl⟩ := List.mem_map.1 hj
      rw [fx_axis] at ha
      exact hax i (L.chain.1.mem i hi) a ha) ((((Spec.moving L.js).map UJoint.name).filter keep).map val) (by rw [ejs, ← names_fx]; simp)
    have e : ∀ v, T'.act v = T.act v := by
      intro v
      rw [hact, hact', ejs, ← names_fx]
      exact act_fx val h0 _ v
    exact ⟨T, T', hT, hT', C17_act_determines T' T e⟩

/-- the file with a mount and one joint loads, with and without the joint fixed -/
example : ∃ N, ∀ fuel ≥ N, ∃ r r', urdfLoad fuel (UrdfDoc.one "revolute" (some ⟨0, 0, 1⟩)) none (some "arm") = .ok r ∧ r.jointNames = some ["turn"] ∧
    urdfLoad fuel (Spec.fixAllBut (fun n => n != "turn") (UrdfDoc.one "revolute" (some ⟨0, 0, 1⟩))) none (some "arm") = .ok r' ∧
    r'.jointNames = some [] := by
  have hf := UrdfDoc.one_forest "revolute" (some ⟨0, 0, 1⟩)
  obtain ⟨N1, h1⟩ := C91_loads_iff _ hf none (some "arm")
  obtain ⟨N2, h2⟩ := C117_fixed_joints _ hf (by
    intro j hj a ha
    simp only [UrdfDoc.one, List.mem_cons, List.not_mem_nil, or_false] at hj
    rcases hj with rfl | rfl
    · cases ha
    · cases ha; simp [IsUnit3]) (fun n => n != "turn") none "arm"
  refine ⟨max N1 N2, fun fuel hfu => ?_⟩
  obtain ⟨r, hr⟩ := (h1 fuel (le_trans (le_max_left _ _) hfu)).2 (by
    refine .loads "base" "arm" _ (UrdfDoc.one_root _ _) (.inl rfl) (UrdfDoc.one_chain _ _) (by simp [UrdfDoc.one]) ?_ ?_
    · intro j hj
      simp only [UrdfDoc.one, List.mem_cons, List.not_mem_nil, or_false] at hj
      rcases hj with rfl | rfl
      · exact .inl rfl
      · exact .inr ⟨.inl rfl, _, rfl⟩
    · intro j hj a ha
      simp only [Spec.moving, UrdfDoc.one] at hj
      simp at hj
      subst hj
      cases ha
      norm_num)
  obtain ⟨r', names, hr', -, -, hn, hn', -⟩ := h2 fuel (le_trans (le_max_right _ _) hfu) r hr
  obtain ⟨L⟩ := urdfLoad_loaded hf.names hr
  have e : names = ["turn"] := by
    have et : L.t = "arm" := (Except.ok.inj L.tip_eq).symm
    have er : L.rt = "base" := by
      have h := L.root_eq
      simp [Urdf.rootLink, Urdf.getRoot, UrdfDoc.one, Urdf.linkNames, Urdf.hasParent, List.eraseDups, List.eraseDupsBy, List.eraseDupsBy.loop] at h
      exact h.symm
    have ec := Spec.Chain.unique hf.children (by have := L.chain; rwa [et, er] at this) (UrdfDoc.one_chain _ _)
    have hs : L.s.names = (Spec.moving L.js).map UJoint.name := by simpa using (urdfLoop_adds _ _ _ L.loop).names
    have : r.jointNames = some L.s.names := congrArg Robot.jointNames L.robot_eq
    rw [hn, hs, ec] at this
    simpa [Spec.moving, UrdfDoc.one] using this
  subst e
  exact ⟨r, r', hr, hn, hr', by simpa using hn'⟩

/-- C117, 'a file still loads after a joint is made fixed, whether or not a tip is given' is false: if the tip is left to be found, making the only
moving joint fixed leaves no valid tip, and the loader raises AssertionError. -/
theorem C117_tip_left_out_false : ∃ N, ∀ fuel ≥ N, (∃ r, urdfLoad fuel (UrdfDoc.one "revolute" (some ⟨0, 0, 1⟩)) none none = .ok r) ∧
    urdfLoad fuel (Spec.fixAllBut (fun n => n != "turn") (UrdfDoc.one "revolute" (some ⟨0, 0, 1⟩))) none none = .error .assertion := by
  have e : Spec.fixAllBut (fun n => n != "turn") (UrdfDoc.one "revolute" (some ⟨0, 0, 1⟩)) = UrdfDoc.one "fixed" (some ⟨0, 0, 1⟩) := by
    simp [Spec.fixAllBut, UrdfDoc.one]
  obtain ⟨N1, h1⟩ := C91_outcome _ (UrdfDoc.one_forest "revolute" (some ⟨0, 0, 1⟩)) none none
  obtain ⟨N2, h2⟩ := C91_outcome _ (UrdfDoc.one_forest "fixed" (some ⟨0, 0, 1⟩)) none none
  refine ⟨max N1 N2, fun fuel hf => ⟨h1 fuel (le_trans (le_max_left _ _) hf) none ?_, ?_⟩⟩
  · refine .loads "base" "arm" _ (UrdfDoc.one_root _ _) (UrdfDoc.one_tip _ _ (by decide) (by decide)) (UrdfDoc.one_chain _ _) (by simp [UrdfDoc.one]) ?_ ?_
    · intro j hj
      simp only [UrdfDoc.one, List.mem_cons, List.not_mem_nil, or_false] at hj
      rcases hj with rfl | rfl
      · exact .inl rfl
      · exact .inr ⟨.inl rfl, _, rfl⟩
    · intro j hj a ha
      simp only [Spec.moving, UrdfDoc.one] at hj
      simp at hj
      subst hj
      cases ha
      norm_num
  · rw [e]
    refine h2 fuel (le_trans (le_max_right _ _) hf) (some .assertion) (.manyTips "base" (UrdfDoc.one_root _ _) rfl ?_)
    rintro ⟨t, ht⟩
    obtain ⟨-, -, js, hjs, ⟨j, hj, hne⟩, -⟩ := (ht t).2 rfl
    have hm := hjs.1.mem j hj
    simp only [UrdfDoc.one, List.mem_cons, List.not_mem_nil, or_false] at hm
    rcases hm with rfl | rfl <;> exact hne rfl
