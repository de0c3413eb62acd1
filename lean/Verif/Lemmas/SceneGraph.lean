import Verif.Lemmas.Eigen
import Verif.Lemmas.Names
import Verif.Lemmas.Kin
import Verif.Lemmas.ListM
import Mathlib.Data.List.Nodup

/-! # Scene graphs built by `robot_to_scene_graph` -/
set_option autoImplicit false

namespace Spec

/-- The motion of a joint at position `q` in its own frame: turn about, or slide along, its (normalized) axis. -/
noncomputable def motion (j : TJoint ℝ) (q : ℝ) : Iso ℝ :=
  match j.type with
  | .fixed => ⟨1, 0⟩
  | .revolute => ⟨rot (j.axis.sdiv j.axis.norm) q, 0⟩
  | .prismatic => ⟨1, V3.smul q (j.axis.sdiv j.axis.norm)⟩

/-- `PoseIn joints q root l T`: with joint positions `q` (by joint name), link `l` is at pose `T` relative to link `root`. -/
inductive PoseIn (joints : List (TJoint ℝ)) (q : String → ℝ) (root : String) : String → Iso ℝ → Prop
  | root : PoseIn joints q root root ⟨1, 0⟩
  | step (j : TJoint ℝ) (T : Iso ℝ) (hj : j ∈ joints) (hT : PoseIn joints q root j.parent T) :
      PoseIn joints q root j.child (T * j.origin * motion j (q j.name))

/-- `Reach joints root l`: a chain of joints leads from link `root` to link `l`. -/
inductive Reach {α : Type} (joints : List (TJoint α)) (root : String) : String → Prop
  | root : Reach joints root root
  | step (j : TJoint α) (hj : j ∈ joints) (h : Reach joints root j.parent) : Reach joints root j.child

theorem Reach.mono {α : Type} {js js' : List (TJoint α)} {root l : String} (hs : ∀ j ∈ js, j ∈ js') (h : Reach js root l) :
    Reach js' root l := by
  induction h with
  | root => exact .root
  | step j hj _ ih => exact .step j (hs j hj) ih

theorem Reach.trans {α : Type} {js : List (TJoint α)} {a b c : String} (h : Reach js a b) (h' : Reach js b c) : Reach js a c := by
  induction h' with
  | root => exact h
  | step j hj _ ih => exact .step j hj ih

/-- a link that can be reached has a pose -/
theorem Reach.pose {js : List (TJoint ℝ)} {root l : String} (h : Reach js root l) (q : String → ℝ) : ∃ T, PoseIn js q root l T := by
  induction h with
  | root => exact ⟨_, .root⟩
  | step j hj _ ih => obtain ⟨T, hT⟩ := ih; exact ⟨_, .step j T hj hT⟩

/-- A graph that is a tree below `root`: names are unique, every link but the root is moved by exactly one joint, and every link can
be reached from the root. -/
structure IsTree {α : Type} (root : String) (sg : SGraph α) : Prop where
  links_nodup : sg.links.Nodup
  names_nodup : (sg.joints.map (·.name)).Nodup
  child_nodup : (sg.joints.map (·.child)).Nodup
  child_mem : ∀ j ∈ sg.joints, j.child ∈ sg.links
  parent_mem : ∀ j ∈ sg.joints, j.parent ∈ sg.links
  root_mem : root ∈ sg.links
  root_child : ∀ j ∈ sg.joints, j.child ≠ root
  reach : ∀ l ∈ sg.links, Reach sg.joints root l

/-- In a tree every link has at most one pose. -/
theorem IsTree.pose_unique {root : String} {sg : SGraph ℝ} (h : IsTree root sg) {q : String → ℝ} {l : String} {T T' : Iso ℝ}
    (h1 : PoseIn sg.joints q root l T) (h2 : PoseIn sg.joints q root l T') : T = T' := by
  induction h1 generalizing T' with
  | root =>
    generalize hr : root = r at h2
    cases h2 with
    | root => rfl
    | step j T hj hT => exact absurd hr.symm (h.root_child j hj)
  | step j T hj hT ih =>
    generalize hr : j.child = r at h2
    cases h2 with
    | root => exact absurd hr (h.root_child j hj)
    | step j' T' hj' hT' =>
      have e : j = j' := List.inj_on_of_nodup_map h.child_nodup hj hj' hr
      subst e
      rw [ih hT']

end Spec

section
variable {α : Type} [Add α] [Sub α] [Mul α] [Div α] [Neg α] [Zero α] [One α] [LT α] [LE α]
  [DecidableLT α] [DecidableLE α] [Elem α]

theorem addLinkJoint_iff {sg sg' : SGraph α} {l : String} {j : TJoint α} :
    sg.addLinkJoint l j = .ok sg' ↔ l ∉ sg.links ∧ j.name ∉ sg.joints.map (·.name) ∧ j.parent ∈ sg.links ++ [l] ∧
      j.child ∈ sg.links ++ [l] ∧ sg' = ⟨sg.links ++ [l], sg.joints ++ [j]⟩ := by
  unfold SGraph.addLinkJoint
  split_ifs with h1 h2
  · constructor
    · intro h; cases h
    · rintro ⟨h, h', -⟩; rcases h1 with h1 | h1 <;> contradiction
  · push_neg at h1
    constructor
    · intro h; cases h; exact ⟨h1.1, h1.2, h2.1, h2.2, rfl⟩
    · rintro ⟨-, -, -, -, rfl⟩; rfl
  · constructor
    · intro h; cases h
    · rintro ⟨-, -, h, h', -⟩; exact absurd ⟨h, h'⟩ h2

theorem IsTree.addLinkJoint {root : String} {sg sg' : SGraph α} (hg : Spec.IsTree root sg) {l : String} {j : TJoint α}
    (hc : j.child = l) (hp : j.parent ∈ sg.links) (h : sg.addLinkJoint l j = .ok sg') : Spec.IsTree root sg' := by
  obtain ⟨h1, h2, h3, h4, rfl⟩ := addLinkJoint_iff.1 h
  refine ⟨?_, ?_, ?_, ?_, ?_, ?_, ?_, ?_⟩
  · rw [List.nodup_append]
    refine ⟨hg.links_nodup, List.nodup_singleton _, ?_⟩
    simp only [List.mem_singleton]
    rintro a ha b rfl rfl; exact h1 ha
  · rw [List.map_append, List.nodup_append]
    refine ⟨hg.names_nodup, List.nodup_singleton _, ?_⟩
    simp only [List.map_cons, List.map_nil, List.mem_singleton]
    rintro a ha b rfl rfl; exact h2 ha
  · rw [List.map_append, List.nodup_append]
    refine ⟨hg.child_nodup, List.nodup_singleton _, ?_⟩
    simp only [List.map_cons, List.map_nil, List.mem_singleton]
    rintro a ha b rfl rfl
    obtain ⟨k, hk, e⟩ := List.mem_map.1 ha
    exact h1 (hc ▸ e ▸ hg.child_mem k hk)
  · intro k hk
    simp only [List.mem_append, List.mem_singleton] at hk ⊢
    rcases hk with hk | rfl
    · exact Or.inl (hg.child_mem k hk)
    · exact Or.inr hc
  · intro k hk
    simp only [List.mem_append, List.mem_singleton] at hk ⊢
    rcases hk with hk | rfl
    · exact Or.inl (hg.parent_mem k hk)
    · exact Or.inl hp
  · simp [hg.root_mem]
  · intro k hk
    simp only [List.mem_append, List.mem_singleton] at hk
    rcases hk with hk | rfl
    · exact hg.root_child k hk
    · intro e; exact h1 (hc ▸ e ▸ hg.root_mem)
  · have mono : ∀ k ∈ sg.joints, k ∈ sg.joints ++ [j] := fun k hk => List.mem_append_left _ hk
    intro k hk
    rcases List.mem_append.1 hk with hk | hk
    · exact (hg.reach k hk).mono mono
    · rw [List.mem_singleton.1 hk, ← hc]
      exact .step j (by simp) ((hg.reach _ hp).mono mono)

/-- the Tesseract type of a joint type number -/
def tType (t : Nat) : TJointType := if t = 0 then .revolute else .prismatic

/-- The joints that the loop adds: one per joint of the robot, in a chain of links. -/
inductive ChainJs : Nat → String → List Nat → List (V3 α) → List (V3 α) → List String → List (TLimits α) → List (TJoint α) → Prop
  | nil (i : Nat) (parent : String) (H P : List (V3 α)) (names : List String) : ChainJs i parent [] H P names [] []
  | cons (i : Nat) (parent : String) (t : Nat) (ht : t = 0 ∨ t = 1) (ts : List Nat) (h p : V3 α) (H P : List (V3 α)) (nm : String)
      (names : List String) (lim : TLimits α) (lims : List (TLimits α)) (js : List (TJoint α))
      (hr : ChainJs (i + 1) (linkName i) ts H P names lims js) :
      ChainJs i parent (t :: ts) (h :: H) (p :: P) (nm :: names) (lim :: lims)
        (⟨nm, tType t, toIsometry ⟨1, p, none, none⟩, h, parent, linkName i, some lim⟩ :: js)

/-- The limits read by the loop. -/
inductive LimsOf : List (TLimits α) → List α → List α → List α → List α → Prop
  | nil (a b c d : List α) : LimsOf [] a b c d
  | cons (l u v a : α) (ls us vs as : List α) (r : List (TLimits α)) (hr : LimsOf r ls us vs as) :
      LimsOf (⟨l, u, lit 1000, v, a⟩ :: r) (l :: ls) (u :: us) (v :: vs) (a :: as)

theorem hd_ok {β : Type} {l : List β} {x : β} (h : hd l = .ok x) : ∃ t, l = x :: t := by
  cases l with
  | nil => cases h
  | cons y t => cases h; exact ⟨t, rfl⟩

theorem hdO_ok {β : Type} {l : Option (List β)} {x : β} (h : hdO l = .ok x) : ∃ t, l = some (x :: t) := by
  cases l with
  | none => cases h
  | some l => obtain ⟨t, rfl⟩ := hd_ok h; exact ⟨t, rfl⟩

theorem getLinkAndJoint_ok {h p : V3 α} {t : Nat} {l u v a e : α} {ln jn pa : String} {j : TJoint α}
    (hj : getLinkAndJoint h p t l u v a e ln jn pa = .ok j) :
    (t = 0 ∨ t = 1) ∧ j = ⟨jn, tType t, toIsometry ⟨1, p, none, none⟩, h, pa, ln, some ⟨l, u, e, v, a⟩⟩ := by
  unfold getLinkAndJoint at hj
  by_cases h0 : t = 0
  · subst h0; simp [bind, Except.bind, pure, Except.pure] at hj; exact ⟨Or.inl rfl, hj.symm⟩
  · by_cases h1 : t = 1
    · subst h1; simp [bind, Except.bind, pure, Except.pure] at hj; exact ⟨Or.inr rfl, hj.symm⟩
    · simp [h0, h1, bind, Except.bind] at hj

theorem getLinkAndJoint_eq {h p : V3 α} {t : Nat} {l u v a e : α} {ln jn pa : String} (ht : t = 0 ∨ t = 1) :
    getLinkAndJoint h p t l u v a e ln jn pa =
      .ok ⟨jn, tType t, toIsometry ⟨1, p, none, none⟩, h, pa, ln, some ⟨l, u, e, v, a⟩⟩ := by
  rcases ht with rfl | rfl <;> rfl

/-- What a successful run of the loop means. -/
theorem sgLoop_ok {root : String} {i : Nat} {parent : String} {ts : List Nat} {H P : List (V3 α)} {lo up ve ac : Option (List α)}
    {names : List String} {sg sg' : SGraph α} (hg : Spec.IsTree root sg) (hp : parent ∈ sg.links)
    (h : sgLoop i parent ts H P lo up ve ac names sg = .ok sg') :
    ∃ js lims, ChainJs i parent ts H P names lims js ∧ Spec.IsTree root sg' ∧
      sg' = ⟨sg.links ++ (List.range' i ts.length).map linkName, sg.joints ++ js⟩ ∧
      (ts ≠ [] → ∃ l u v a, lo = some l ∧ up = some u ∧ ve = some v ∧ ac = some a ∧ LimsOf lims l u v a) := by
  induction ts generalizing i parent H P lo up ve ac names sg with
  | nil =>
    simp only [sgLoop] at h
    cases h
    exact ⟨[], [], .nil _ _ _ _ _, hg, by simp, fun h => absurd rfl h⟩
  | cons t ts ih =>
    simp only [sgLoop] at h
    obtain ⟨x, hx, h⟩ := Except.bind_eq_ok h
    obtain ⟨p, hp', h⟩ := Except.bind_eq_ok h
    obtain ⟨l, hl, h⟩ := Except.bind_eq_ok h
    obtain ⟨u, hu, h⟩ := Except.bind_eq_ok h
    obtain ⟨v, hv, h⟩ := Except.bind_eq_ok h
    obtain ⟨a, ha, h⟩ := Except.bind_eq_ok h
    obtain ⟨nm, hn, h⟩ := Except.bind_eq_ok h
    obtain ⟨j, hj, h⟩ := Except.bind_eq_ok h
    obtain ⟨sg1, hs, h⟩ := Except.bind_eq_ok h
    obtain ⟨H, rfl⟩ := hd_ok hx
    obtain ⟨P, rfl⟩ := hd_ok hp'
    obtain ⟨ls, rfl⟩ := hdO_ok hl
    obtain ⟨us, rfl⟩ := hdO_ok hu
    obtain ⟨vs, rfl⟩ := hdO_ok hv
    obtain ⟨as, rfl⟩ := hdO_ok ha
    obtain ⟨names, rfl⟩ := hd_ok hn
    obtain ⟨ht, rfl⟩ := getLinkAndJoint_ok hj
    have hg1 := IsTree.addLinkJoint hg (by rfl) hp hs
    obtain ⟨h1, h2, h3, h4, rfl⟩ := addLinkJoint_iff.1 hs
    obtain ⟨js, lims, hjs, hg', e, hlim⟩ := ih hg1 (by simp) h
    refine ⟨_, _, .cons i parent t ht ts x p H P nm names ⟨l, u, lit 1000, v, a⟩ lims js hjs, hg', ?_, ?_⟩
    · rw [e]; simp [List.range'_succ]
    · intro _
      refine ⟨_, _, _, _, rfl, rfl, rfl, rfl, .cons l u v a ls us vs as lims ?_⟩
      by_cases hts : ts = []
      · subst hts; cases hjs; exact .nil _ _ _ _
      · obtain ⟨_, _, _, _, e1, e2, e3, e4, hl'⟩ := hlim hts
        simp only [Option.map_some, List.tail_cons, Option.some.injEq] at e1 e2 e3 e4
        subst e1 e2 e3 e4; exact hl'

/-- When the loop succeeds. -/
theorem sgLoop_succeeds {i : Nat} {parent : String} {ts : List Nat} {H P : List (V3 α)} {lo up ve ac : List α}
    {names : List String} {sg : SGraph α} (ht : ∀ t ∈ ts, t = 0 ∨ t = 1) (lH : ts.length ≤ H.length) (lP : ts.length ≤ P.length)
    (ll : ts.length ≤ lo.length) (lu : ts.length ≤ up.length) (lv : ts.length ≤ ve.length) (la : ts.length ≤ ac.length)
    (ln : names.length = ts.length) (hn : names.Nodup) (hd1 : ∀ n ∈ names, n ∉ sg.joints.map (·.name))
    (hl : ∀ k, i ≤ k → linkName k ∉ sg.links) (hp : parent ∈ sg.links) :
    ∃ sg', sgLoop i parent ts H P (some lo) (some up) (some ve) (some ac) names sg = .ok sg' ∧
      sg'.joints.map (·.name) = sg.joints.map (·.name) ++ names ∧
      sg'.links = sg.links ++ (List.range' i ts.length).map linkName := by
  induction ts generalizing i parent H P lo up ve ac names sg with
  | nil =>
    have : names = [] := List.eq_nil_of_length_eq_zero (by simpa using ln)
    exact ⟨sg, rfl, by simp [this], by simp⟩
  | cons t ts ih =>
    obtain _ | ⟨h, H⟩ := H
    · simp at lH
    obtain _ | ⟨p, P⟩ := P
    · simp at lP
    obtain _ | ⟨l, lo⟩ := lo
    · simp at ll
    obtain _ | ⟨u, up⟩ := up
    · simp at lu
    obtain _ | ⟨v, ve⟩ := ve
    · simp at lv
    obtain _ | ⟨a, ac⟩ := ac
    · simp at la
    obtain _ | ⟨nm, names⟩ := names
    · simp at ln
    simp only [List.length_cons, Nat.add_le_add_iff_right] at lH lP ll lu lv la
    simp only [List.length_cons, Nat.add_right_cancel_iff] at ln
    obtain ⟨hnm, hn⟩ := List.nodup_cons.1 hn
    set j : TJoint α := ⟨nm, tType t, toIsometry ⟨1, p, none, none⟩, h, parent, linkName i, some ⟨l, u, lit 1000, v, a⟩⟩ with hj
    have hadd : sg.addLinkJoint (linkName i) j = .ok ⟨sg.links ++ [linkName i], sg.joints ++ [j]⟩ :=
      addLinkJoint_iff.2 ⟨hl i le_rfl, hd1 nm (by simp), by simp [hj, hp], by simp [hj], rfl⟩
    obtain ⟨sg', e1, e2, e3⟩ := ih (i := i + 1) (parent := linkName i) (sg := ⟨sg.links ++ [linkName i], sg.joints ++ [j]⟩)
      (fun x hx => ht x (by simp [hx])) lH lP ll lu lv la ln hn
      (by
        intro n hnn
        simp only [List.map_append, List.map_cons, List.map_nil, List.mem_append, List.mem_singleton, not_or]
        exact ⟨hd1 n (by simp [hnn]), fun e => hnm (by rw [← show n = nm from e]; exact hnn)⟩)
      (by
        intro k hk
        simp only [List.mem_append, List.mem_singleton, not_or]
        exact ⟨hl k (by omega), fun e => by have := linkName_inj e; omega⟩)
      (by simp)
    refine ⟨sg', ?_, ?_, ?_⟩
    · have hgl : getLinkAndJoint h p t l u v a (lit 1000) (linkName i) nm parent = .ok j := getLinkAndJoint_eq (ht t (by simp))
      simp only [sgLoop, hd, hdO, Except.bind_ok, hgl, hadd, List.tail_cons, Option.map_some]
      exact e1
    · rw [e2]; simp [hj]
    · rw [e3]; simp [List.range'_succ]

end

section
variable {α : Type} [Add α] [Sub α] [Mul α] [Div α] [Neg α] [Zero α] [One α] [LT α] [LE α]
  [DecidableLT α] [DecidableLE α] [Elem α]

/-- the link after the flange has been added -/
def tipF (robot : Robot α) : String := if robot.Tflange.isSome then "flange" else "chain_tip"

/-- flange joint and link, if any -/
def flangeJs (robot : Robot α) : List (TJoint α) := match robot.Tflange with
  | none => []
  | some T => [getFixedJoint T "flange" "tip_to_flange" "chain_tip"]

def flangeLs (robot : Robot α) : List String := if robot.Tflange.isSome then ["flange"] else []

/-- tool joint and link, if any -/
def toolJs (robot : Robot α) : List (TJoint α) := match robot.Rtool, robot.ptool with
  | some R, some p => [getFixedJoint ⟨R, p, none, none⟩ "tool_tcp" "tip_to_tool" (tipF robot)]
  | _, _ => []

def toolLs (robot : Robot α) : List String := if robot.Rtool.isSome ∧ robot.ptool.isSome then ["tool_tcp"] else []

/-- The joint names that `robot_to_scene_graph` uses. -/
def sgJointNames (robot : Robot α) : List String := match robot.jointNames with
  | none => (List.range robot.jointType.length).map defaultJointName
  | some l => l

/-- The link names of the scene graph. -/
def sgLinkNames (robot : Robot α) : List String :=
  ["base_link"] ++ (List.range robot.jointType.length).map linkName ++ ["chain_tip"] ++ flangeLs robot ++ toolLs robot

/-- The contents of the scene graph of a robot with `m + 1` joints. -/
structure SgContents (robot : Robot α) (r : SgResult α) where
  m : Nat
  len : robot.jointType.length = m + 1
  js : List (TJoint α)
  lims : List (TLimits α)
  chain : ChainJs 0 "base_link" robot.jointType robot.H robot.P (sgJointNames robot) lims js
  limits : ∃ l u v a, robot.lower = some l ∧ robot.upper = some u ∧ robot.vel = some v ∧ robot.acc = some a ∧ LimsOf lims l u v a
  pN : V3 α
  hpN : robot.P[m + 1]? = some pN
  links_eq : r.sg.links = sgLinkNames robot
  joints_eq : r.sg.joints = js ++ [getFixedJoint ⟨1, pN, none, none⟩ "chain_tip" (linkName m ++ "_to_chain_tip") (linkName m)] ++
    flangeJs robot ++ toolJs robot
  linkNames_eq : r.linkNames = sgLinkNames robot
  names_len : (sgJointNames robot).length = m + 1
  jointNames_eq : r.jointNames = sgJointNames robot
  chainNames_eq : r.chainNames = ["base_link"] ++ (List.range (m + 1)).map linkName
  tree : Spec.IsTree "base_link" r.sg

theorem sgFlange_ok {root : String} {robot : Robot α} {sg : SGraph α} {names : List String} {r : SGraph α × String × List String}
    (hg : Spec.IsTree root sg) (hp : "chain_tip" ∈ sg.links) (h : sgFlange robot sg "chain_tip" names = .ok r) :
    Spec.IsTree root r.1 ∧ r = (⟨sg.links ++ flangeLs robot, sg.joints ++ flangeJs robot⟩, tipF robot, names ++ flangeLs robot) := by
  unfold sgFlange at h
  unfold flangeJs flangeLs tipF
  cases hT : robot.Tflange with
  | none => rw [hT] at h; cases h; simp [hg]
  | some T =>
    rw [hT] at h
    obtain ⟨sg1, h1, h⟩ := Except.bind_eq_ok h
    cases h
    have := IsTree.addLinkJoint hg (by rfl) hp h1
    obtain ⟨-, -, -, -, rfl⟩ := addLinkJoint_iff.1 h1
    exact ⟨this, by simp⟩

theorem sgTool_ok {root : String} {robot : Robot α} {sg : SGraph α} {names : List String} {r : SGraph α × String × List String}
    (hg : Spec.IsTree root sg) (hp : tipF robot ∈ sg.links) (h : sgTool robot sg (tipF robot) names = .ok r) :
    Spec.IsTree root r.1 ∧ r.1 = ⟨sg.links ++ toolLs robot, sg.joints ++ toolJs robot⟩ ∧ r.2.2 = names ++ toolLs robot := by
  unfold sgTool at h
  unfold toolJs toolLs
  cases hR : robot.Rtool with
  | none => rw [hR] at h; cases h; simp [hg]
  | some R =>
    cases hpt : robot.ptool with
    | none => rw [hR, hpt] at h; cases h; simp [hg]
    | some p =>
      rw [hR, hpt] at h
      obtain ⟨sg1, h1, h⟩ := Except.bind_eq_ok h
      cases h
      have := IsTree.addLinkJoint hg (by rfl) hp h1
      obtain ⟨-, -, -, -, rfl⟩ := addLinkJoint_iff.1 h1
      exact ⟨this, by simp⟩

theorem pyAssert_ok {c : Bool} {u : Unit} (h : pyAssert c = .ok u) : c = true := by
  unfold pyAssert at h; split_ifs at h; assumption

theorem getLast?_range_map (m : Nat) : ((List.range (m + 1)).map linkName).getLast? = some (linkName m) := by
  rw [List.range_succ]; simp

theorem robotToSceneGraph_contents {robot : Robot α} {r : SgResult α} (h : robotToSceneGraph robot = .ok r) :
    Nonempty (SgContents robot r) := by
  unfold robotToSceneGraph at h
  obtain ⟨sg0, h0, h⟩ := Except.bind_eq_ok h
  obtain ⟨_, hl, h⟩ := Except.bind_eq_ok h
  obtain ⟨sg1, h1, h⟩ := Except.bind_eq_ok h
  obtain ⟨pN, hpN, h⟩ := Except.bind_eq_ok h
  obtain ⟨last, hlast, h⟩ := Except.bind_eq_ok h
  obtain ⟨sg2, h2, h⟩ := Except.bind_eq_ok h
  obtain ⟨r3, h3, h⟩ := Except.bind_eq_ok h
  obtain ⟨r4, h4, h⟩ := Except.bind_eq_ok h
  cases h
  have e0 : sg0 = ⟨["base_link"], []⟩ := by
    simp [SGraph.addLink, SGraph.empty] at h0; exact h0.symm
  subst e0
  have hg0 : Spec.IsTree "base_link" (⟨["base_link"], []⟩ : SGraph α) :=
    ⟨by simp, by simp, by simp, by simp, by simp, by simp, by simp, by simp; exact .root⟩
  obtain ⟨js, lims, hjs, hg1, e1, hlim⟩ := sgLoop_ok hg0 (by simp) h1
  have hln := pyAssert_ok hl
  obtain ⟨m, hm⟩ : ∃ m, robot.jointType.length = m + 1 := by
    cases hn : robot.jointType.length with
    | succ m => exact ⟨m, rfl⟩
    | zero => rw [hn] at hlast; simp [orElseGet] at hlast
  rw [hm, getLast?_range_map] at hlast
  cases hlast
  subst e1
  have hmem : linkName m ∈ ["base_link"] ++ List.map linkName (List.range' 0 robot.jointType.length) := by
    rw [hm]; simp only [List.mem_append, List.mem_map]
    right; exact ⟨m, by simp, rfl⟩
  have hg2 := IsTree.addLinkJoint hg1 (by rfl) hmem h2
  obtain ⟨-, -, -, -, e2⟩ := addLinkJoint_iff.1 h2
  subst e2
  obtain ⟨hg3, e3⟩ := sgFlange_ok hg2 (by simp) h3
  subst e3
  obtain ⟨hg4, e4, e5⟩ := sgTool_ok hg3 (by unfold tipF flangeLs; split_ifs <;> simp) h4
  have hP : robot.P[m + 1]? = some pN := by
    unfold getI at hpN; rw [hm] at hpN
    split at hpN
    · rename_i hx; cases hpN; exact hx
    · cases hpN
  have hnames : sgJointNames robot = match robot.jointNames with
      | none => (List.range robot.jointType.length).map defaultJointName
      | some l => l := rfl
  refine ⟨⟨m, hm, js, lims, ?_, hlim (by intro h; rw [h] at hm; simp at hm), pN, hP, ?_, ?_, ?_, ?_, ?_, ?_, hg4⟩⟩
  · exact hjs
  · rw [e4]; simp [sgLinkNames, List.range_eq_range']
  · rw [e4]; simp
  · simp only; rw [e5]; simp [sgLinkNames]
  · rw [← hm]; exact beq_iff_eq.1 hln
  · rfl
  · simp only; rw [hm]

end

/-! ## Poses in the scene graph -/

@[simp] theorem Iso.mul_R (A B : Iso ℝ) : (A * B).R = A.R * B.R := rfl
@[simp] theorem Iso.mul_p (A B : Iso ℝ) : (A * B).p = A.p + A.R.mulVec B.p := rfl

/-- last link of a chain of `n` joints starting at link number `i` -/
def lastLink (i : Nat) (parent : String) : Nat → String
  | 0 => parent
  | n + 1 => linkName (i + n)

theorem lastLink_succ (i : Nat) (parent : String) (n : Nat) : lastLink (i + 1) (linkName i) n = lastLink i parent (n + 1) := by
  cases n with
  | zero => rfl
  | succ n => simp only [lastLink]; rw [show i + 1 + n = i + (n + 1) by omega]

theorem sdiv_norm_unit {h : V3 ℝ} (hu : IsUnit3 h) : h.sdiv h.norm = h := by
  have : h.norm = 1 := by
    unfold IsUnit3 at hu; simp only [V3.norm, sqrt_real, hu, Real.sqrt_one]
  rw [this]; ext <;> simp [V3.sdiv]

theorem chain_pose {joints : List (TJoint ℝ)} {q : String → ℝ} {root pre : String} {i : Nat} {parent : String} {ts : List Nat}
    {H P : List (V3 ℝ)} {names : List String} {lims : List (TLimits ℝ)} {js : List (TJoint ℝ)}
    (hc : ChainJs i parent ts H P names lims js) (hu : ∀ h ∈ H, IsUnit3 h) (hmem : ∀ j ∈ js, j.withPrefix pre ∈ joints)
    {R : M3 ℝ} {p0 : V3 ℝ} (hpose : Spec.PoseIn joints q root (pre ++ parent) ⟨R, p0⟩) {pN : V3 ℝ}
    (hN : P[ts.length]? = some pN) :
    ∃ P0 Ps R' p', P = P0 :: Ps ∧ Spec.PoseIn joints q root (pre ++ lastLink i parent ts.length) ⟨R', p'⟩ ∧
      fwdLoop ts H Ps (names.map fun n => q (pre ++ n)) (R, p0 + R.mulVec P0) = .ok (R', p' + R'.mulVec pN) := by
  induction hc generalizing R p0 with
  | nil i parent H P names =>
    obtain _ | ⟨P0, Ps⟩ := P
    · simp at hN
    · simp at hN
      subst hN
      exact ⟨P0, Ps, R, p0, rfl, hpose, by simp [fwdLoop]⟩
  | cons i parent t ht ts h p H P nm names lim lims js hr ih =>
    have hj := hmem _ (List.mem_cons_self)
    have hstep := Spec.PoseIn.step _ _ hj hpose
    have horig : toIsometry (⟨1, p, none, none⟩ : Transform ℝ) = ⟨1, p⟩ := toIsometry_real IsRot.one
    have hh := sdiv_norm_unit (hu h (by simp))
    simp only [TJoint.withPrefix, horig] at hstep
    simp only [List.length_cons, List.getElem?_cons_succ] at hN
    have hm' : ∀ j ∈ js, j.withPrefix pre ∈ joints := fun j hj => hmem j (by simp [hj])
    have hu' : ∀ h ∈ H, IsUnit3 h := fun x hx => hu x (by simp [hx])
    rcases ht with rfl | rfl
    · have e : (⟨R, p0⟩ : Iso ℝ) * ⟨1, p⟩ * (⟨rot h (q (pre ++ nm)), 0⟩ : Iso ℝ) =
          ⟨R * rot h (q (pre ++ nm)), p0 + R.mulVec p⟩ := by
        apply Iso.ext
        · simp [M3.mul_one']
        · simp only [Iso.mul_p, Iso.mul_R]
          ext <;> simp
      simp only [Spec.motion, tType, if_pos, hh] at hstep
      rw [e] at hstep
      obtain ⟨P0, Ps, R', p', rfl, h1, h2⟩ := ih hu' hm' hstep hN
      refine ⟨p, P0 :: Ps, R', p', rfl, ?_, ?_⟩
      · rw [List.length_cons, ← lastLink_succ]; exact h1
      · simp only [List.map_cons, fwdLoop]
        rw [fwdStep_rotary (Or.inl rfl)]; exact h2
    · have e : (⟨R, p0⟩ : Iso ℝ) * ⟨1, p⟩ * (⟨1, V3.smul (q (pre ++ nm)) h⟩ : Iso ℝ) =
          ⟨R, p0 + R.mulVec p + V3.smul (q (pre ++ nm)) (R.mulVec h)⟩ := by
        apply Iso.ext
        · simp [M3.mul_one']
        · simp only [Iso.mul_p, Iso.mul_R]
          ext <;> simp <;> ring
      simp only [Spec.motion, tType, if_neg (show ¬ (1 : Nat) = 0 by decide), hh] at hstep
      rw [e] at hstep
      obtain ⟨P0, Ps, R', p', rfl, h1, h2⟩ := ih hu' hm' hstep hN
      refine ⟨p, P0 :: Ps, R', p', rfl, ?_, ?_⟩
      · rw [List.length_cons, ← lastLink_succ]; exact h1
      · simp only [List.map_cons, fwdLoop]
        rw [fwdStep_prismatic (Or.inl rfl)]; exact h2

/-! ## Inserting a robot into an environment -/

section
variable {α : Type}

theorem insert_iff {env sg e : SGraph α} {pre : String} :
    env.insert sg pre = some e ↔ (∀ l ∈ sg.links, pre ++ l ∉ env.links) ∧
      (∀ j ∈ sg.joints, pre ++ j.name ∉ env.joints.map (·.name)) ∧
      e = ⟨env.links ++ sg.links.map (pre ++ ·), env.joints ++ sg.joints.map (·.withPrefix pre)⟩ := by
  unfold SGraph.insert
  split_ifs with h
  · simp only [false_iff, not_and, reduceCtorEq]
    intro h1 h2
    rw [Bool.or_eq_true, List.any_eq_true, List.any_eq_true] at h
    rcases h with ⟨l, hl, h⟩ | ⟨j, hj, h⟩
    · exact absurd (of_decide_eq_true h) (h1 l hl)
    · exact absurd (of_decide_eq_true h) (h2 j hj)
  · rw [Bool.or_eq_true, List.any_eq_true, List.any_eq_true] at h
    push_neg at h
    constructor
    · intro e; cases e
      exact ⟨fun l hl => of_decide_eq_false (by simpa using h.1 l hl), fun j hj => of_decide_eq_false (by simpa using h.2 j hj), rfl⟩
    · rintro ⟨-, -, rfl⟩; rfl

theorem insertWith_iff {env sg e : SGraph α} {j : TJoint α} {pre : String} :
    env.insertWith sg j pre = some e ↔ j.parent ∈ env.links ∧ j.child ∈ sg.links.map (pre ++ ·) ∧
      j.name ∉ env.joints.map (·.name) ∧ (∀ l ∈ sg.links, pre ++ l ∉ env.links) ∧
      (∀ k ∈ sg.joints, pre ++ k.name ∉ env.joints.map (·.name)) ∧ (∀ k ∈ sg.joints, pre ++ k.name ≠ j.name) ∧
      e = ⟨env.links ++ sg.links.map (pre ++ ·), env.joints ++ sg.joints.map (·.withPrefix pre) ++ [j]⟩ := by
  unfold SGraph.insertWith
  split_ifs with h
  · simp only [false_iff, reduceCtorEq]
    rintro ⟨h1, h2, h3, -⟩
    rcases h with h | h | h
    · exact h h1
    · exact h h2
    · exact h3 h
  · push_neg at h
    cases hi : env.insert sg pre with
    | none =>
      simp only [false_iff, reduceCtorEq]
      rintro ⟨-, -, -, h4, h5, -, -⟩
      have := insert_iff.2 ⟨h4, h5, rfl⟩
      rw [hi] at this; cases this
    | some e1 =>
      obtain ⟨h4, h5, rfl⟩ := insert_iff.1 hi
      simp only
      split_ifs with h6
      · simp only [false_iff, reduceCtorEq]
        rintro ⟨-, -, h3, -, -, h7, -⟩
        rw [List.map_append, List.mem_append] at h6
        rcases h6 with h6 | h6
        · exact h3 h6
        · rw [List.map_map, List.mem_map] at h6
          obtain ⟨k, hk, e⟩ := h6
          exact h7 k hk e
      · constructor
        · intro e; cases e
          refine ⟨h.1, h.2.1, h.2.2, h4, h5, ?_, rfl⟩
          intro k hk e
          apply h6
          rw [List.map_append, List.mem_append, List.map_map]
          right
          exact List.mem_map.2 ⟨k, hk, e⟩
        · rintro ⟨-, -, -, -, -, -, rfl⟩; rfl

theorem append_inj_right {pre a b : String} (h : pre ++ a = pre ++ b) : a = b := by
  rw [← String.toList_inj, String.toList_append, String.toList_append] at h
  exact String.toList_inj.1 (List.append_cancel_left h)

/-- Inserting a tree into a tree gives a tree. -/
theorem Spec.Reach.withPrefix {js : List (TJoint α)} {root l : String} {pre : String} (h : Spec.Reach js root l) :
    Spec.Reach (js.map (·.withPrefix pre)) (pre ++ root) (pre ++ l) := by
  induction h with
  | root => exact .root
  | step j hj _ ih => exact .step (j.withPrefix pre) (List.mem_map.2 ⟨j, hj, rfl⟩) ih

theorem IsTree.insertWith {root b : String} {env sg e : SGraph α} {j : TJoint α} {pre : String} (he : Spec.IsTree root env)
    (hs : Spec.IsTree b sg) (hc : j.child = pre ++ b) (h : env.insertWith sg j pre = some e) : Spec.IsTree root e := by
  obtain ⟨h1, h2, h3, h4, h5, h6, rfl⟩ := insertWith_iff.1 h
  have inj : Function.Injective (pre ++ ·) := fun a b h => append_inj_right h
  have hb : j.child ∈ sg.links.map (pre ++ ·) := h2
  refine ⟨?_, ?_, ?_, ?_, ?_, ?_, ?_, ?_⟩
  · rw [List.nodup_append]
    refine ⟨he.links_nodup, hs.links_nodup.map inj, ?_⟩
    rintro a ha c hc rfl
    obtain ⟨l, hl, rfl⟩ := List.mem_map.1 hc
    exact h4 l hl ha
  · simp only [List.map_append, List.map_map, List.map_cons, List.map_nil]
    rw [List.nodup_append, List.nodup_append]
    refine ⟨⟨he.names_nodup, ?_, ?_⟩, List.nodup_singleton _, ?_⟩
    · have : (sg.joints.map ((fun x => x.name) ∘ fun x => x.withPrefix pre)) = (sg.joints.map (·.name)).map (pre ++ ·) := by
        rw [List.map_map]; rfl
      rw [this]; exact hs.names_nodup.map inj
    · rintro a ha c hc rfl
      obtain ⟨k, hk, e⟩ := List.mem_map.1 hc
      exact h5 k hk (by rw [show pre ++ k.name = a from e]; exact ha)
    · rintro a ha c hc rfl
      rw [List.mem_singleton] at hc
      subst hc
      rcases List.mem_append.1 ha with ha | ha
      · exact h3 ha
      · obtain ⟨k, hk, e⟩ := List.mem_map.1 ha
        exact h6 k hk e
  · simp only [List.map_append, List.map_map, List.map_cons, List.map_nil]
    rw [List.nodup_append, List.nodup_append]
    refine ⟨⟨he.child_nodup, ?_, ?_⟩, List.nodup_singleton _, ?_⟩
    · have : (sg.joints.map ((fun x => x.child) ∘ fun x => x.withPrefix pre)) = (sg.joints.map (·.child)).map (pre ++ ·) := by
        rw [List.map_map]; rfl
      rw [this]; exact hs.child_nodup.map inj
    · rintro a ha c hc rfl
      obtain ⟨k, hk, e⟩ := List.mem_map.1 hc
      obtain ⟨k', hk', e'⟩ := List.mem_map.1 ha
      exact h4 k.child (hs.child_mem k hk) (by rw [show pre ++ k.child = a from e, ← e']; exact he.child_mem k' hk')
    · rintro a ha c hc' rfl
      rw [List.mem_singleton] at hc'
      subst hc'
      rcases List.mem_append.1 ha with ha | ha
      · obtain ⟨k', hk', e'⟩ := List.mem_map.1 ha
        exact h4 b hs.root_mem (by rw [← hc, ← e']; exact he.child_mem k' hk')
      · obtain ⟨k, hk, e⟩ := List.mem_map.1 ha
        exact hs.root_child k hk (append_inj_right (show pre ++ k.child = pre ++ b from e.trans hc))
  · intro k hk
    simp only [List.mem_append, List.mem_singleton, List.mem_map] at hk
    rcases hk with (hk | ⟨k', hk', rfl⟩) | rfl
    · exact List.mem_append_left _ (he.child_mem k hk)
    · exact List.mem_append_right _ (List.mem_map.2 ⟨_, hs.child_mem k' hk', rfl⟩)
    · exact List.mem_append_right _ hb
  · intro k hk
    simp only [List.mem_append, List.mem_singleton, List.mem_map] at hk
    rcases hk with (hk | ⟨k', hk', rfl⟩) | rfl
    · exact List.mem_append_left _ (he.parent_mem k hk)
    · exact List.mem_append_right _ (List.mem_map.2 ⟨_, hs.parent_mem k' hk', rfl⟩)
    · exact List.mem_append_left _ h1
  · exact List.mem_append_left _ he.root_mem
  · intro k hk e
    simp only [List.mem_append, List.mem_singleton, List.mem_map] at hk
    rcases hk with (hk | ⟨k', hk', rfl⟩) | rfl
    · exact he.root_child k hk e
    · exact h4 _ (hs.child_mem k' hk') (by rw [show pre ++ k'.child = root from e]; exact he.root_mem)
    · exact h4 b hs.root_mem (by rw [← hc, e]; exact he.root_mem)
  · have m1 : ∀ k ∈ env.joints, k ∈ env.joints ++ sg.joints.map (·.withPrefix pre) ++ [j] := fun k hk => by simp [hk]
    have m2 : ∀ k ∈ sg.joints.map (·.withPrefix pre), k ∈ env.joints ++ sg.joints.map (·.withPrefix pre) ++ [j] := fun k hk =>
      List.mem_append_left _ (List.mem_append_right _ hk)
    intro k hk
    rcases List.mem_append.1 hk with hk | hk
    · exact (he.reach k hk).mono m1
    · obtain ⟨l, hl, rfl⟩ := List.mem_map.1 hk
      have hj : Spec.Reach (env.joints ++ sg.joints.map (·.withPrefix pre) ++ [j]) root j.child := .step j (by simp) ((he.reach _ h1).mono m1)
      rw [hc] at hj
      exact hj.trans ((hs.reach l hl).withPrefix.mono m2)

end

theorem Iso.mul_assoc' (A B C : Iso ℝ) : A * B * C = A * (B * C) := by
  apply Iso.ext
  · simp [M3.mul_assoc']
  · simp only [Iso.mul_p, Iso.mul_R, M3.mulVec_add, ← M3.mulVec_mulVec]
    rw [add_assoc]

theorem Iso.mul_one' (A : Iso ℝ) : A * ⟨1, 0⟩ = A := by
  apply Iso.ext
  · simp [M3.mul_one']
  · simp only [Iso.mul_p]; ext <;> simp

/-- Poses compose. -/
theorem Spec.PoseIn.trans {joints : List (TJoint ℝ)} {q : String → ℝ} {root b l : String} {B T : Iso ℝ}
    (hB : Spec.PoseIn joints q root b B) (hT : Spec.PoseIn joints q b l T) : Spec.PoseIn joints q root l (B * T) := by
  induction hT with
  | root => rw [Iso.mul_one']; exact hB
  | step j T hj _ ih =>
    have := Spec.PoseIn.step j _ hj ih
    rwa [Iso.mul_assoc', Iso.mul_assoc', ← Iso.mul_assoc' T] at this

theorem Spec.PoseIn.fixed {joints : List (TJoint ℝ)} {q : String → ℝ} {root : String} {j : TJoint ℝ} {T : Iso ℝ}
    (hT : Spec.PoseIn joints q root j.parent T) (hj : j ∈ joints) (ht : j.type = .fixed) :
    Spec.PoseIn joints q root j.child (T * j.origin) := by
  have := Spec.PoseIn.step j _ hj hT
  rw [Spec.motion, ht, Iso.mul_one'] at this
  exact this

/-- The last link of the scene graph. -/
def sgTip {α : Type} (robot : Robot α) : String :=
  if robot.Rtool.isSome ∧ robot.ptool.isSome then "tool_tcp" else if robot.Tflange.isSome then "flange" else "chain_tip"

theorem sgLinkNames_getLast? {α : Type} (robot : Robot α) : (sgLinkNames robot).getLast? = some (sgTip robot) := by
  unfold sgLinkNames sgTip toolLs flangeLs
  split_ifs <;> simp [List.getLast?_cons, List.getLast?_append]

/-- Pose of the tip link relative to the base link, in any environment that contains the robot's joints under a prefix. -/
theorem sg_tip_pose {robot : Robot ℝ} {r : SgResult ℝ} (C : SgContents robot r) (hu : ∀ h ∈ robot.H, IsUnit3 h)
    (hF : ∀ F, robot.Tflange = some F → IsRot F.R) (hR : ∀ R, robot.Rtool = some R → IsRot R)
    {joints : List (TJoint ℝ)} {pre : String} (hmem : ∀ j ∈ r.sg.joints, j.withPrefix pre ∈ joints) (q : String → ℝ) :
    ∃ T, fwdkin { robot with Tbase := none } ((sgJointNames robot).map fun n => q (pre ++ n)) true = .ok T ∧
      Spec.PoseIn joints q (pre ++ "base_link") (pre ++ sgTip robot) ⟨T.R, T.p⟩ := by
  obtain ⟨m, len, js, lims, chain, -, pN, hpN, -, joints_eq, -, -, -, -, -⟩ := C
  rw [joints_eq] at hmem
  have hN : robot.P[robot.jointType.length]? = some pN := by rw [len]; exact hpN
  obtain ⟨P0, Ps, R', p', hP, hpose, hloop⟩ := chain_pose chain hu (fun j hj => hmem j (by simp [hj]))
    (Spec.PoseIn.root (joints := joints) (q := q) (root := pre ++ "base_link")) hN
  rw [len] at hpose
  simp only [lastLink, Nat.zero_add] at hpose
  -- the chain tip
  have htip := Spec.PoseIn.fixed (j := (getFixedJoint ⟨1, pN, none, none⟩ "chain_tip" (linkName m ++ "_to_chain_tip") (linkName m)).withPrefix pre)
    hpose (hmem _ (by simp)) rfl
  have e1 : toIsometry (⟨1, pN, none, none⟩ : Transform ℝ) = ⟨1, pN⟩ := toIsometry_real IsRot.one
  simp only [TJoint.withPrefix, getFixedJoint, e1] at htip
  have e2 : (⟨R', p'⟩ : Iso ℝ) * ⟨1, pN⟩ = ⟨R', p' + R'.mulVec pN⟩ := by
    apply Iso.ext
    · simp [M3.mul_one']
    · rfl
  rw [e2] at htip
  have hz : (0 : V3 ℝ) + (1 : M3 ℝ).mulVec P0 = P0 := by ext <;> simp
  rw [hz] at hloop
  have hfk : fwdkin { robot with Tbase := none } ((sgJointNames robot).map fun n => q (pre ++ n)) true =
      .ok (applyAux { robot with Tbase := none } ⟨R', p' + R'.mulVec pN, none, none⟩) := by
    simp only [fwdkin, checkLimits, if_true, Except.bind_ok, hP, hloop, Except.pure_eq]
  refine ⟨_, hfk, ?_⟩
  -- the flange
  set TF : Transform ℝ := match robot.Tflange with
    | some F => (⟨R', p' + R'.mulVec pN, none, none⟩ : Transform ℝ) * F
    | none => ⟨R', p' + R'.mulVec pN, none, none⟩ with hTF
  have hflange : Spec.PoseIn joints q (pre ++ "base_link") (pre ++ tipF robot) ⟨TF.R, TF.p⟩ := by
    cases hfl : robot.Tflange with
    | none => simp only [tipF, hTF, hfl]; exact htip
    | some F =>
      have hj : (getFixedJoint F "flange" "tip_to_flange" "chain_tip").withPrefix pre ∈ joints :=
        hmem _ (by simp [flangeJs, hfl])
      have := Spec.PoseIn.fixed (j := (getFixedJoint F "flange" "tip_to_flange" "chain_tip").withPrefix pre) htip hj rfl
      simp only [TJoint.withPrefix, getFixedJoint, toIsometry_real (hF F hfl)] at this
      simp only [tipF, hTF, hfl]
      exact this
  -- the tool
  have haux : applyAux { robot with Tbase := none } ⟨R', p' + R'.mulVec pN, none, none⟩ =
      match robot.Rtool, robot.ptool with
      | some R, some p => TF * ⟨R, p, none, none⟩
      | _, _ => TF := by
    simp only [applyAux, hTF]
    cases robot.Tflange <;> cases robot.Rtool <;> cases robot.ptool <;> rfl
  rw [haux]
  cases hRt : robot.Rtool with
  | none => simp only [sgTip, hRt]; simpa [tipF] using hflange
  | some R =>
    cases hpt : robot.ptool with
    | none => simp only [sgTip, hRt, hpt]; simpa [tipF] using hflange
    | some p =>
      have hj : (getFixedJoint ⟨R, p, none, none⟩ "tool_tcp" "tip_to_tool" (tipF robot)).withPrefix pre ∈ joints :=
        hmem _ (by simp [toolJs, hRt, hpt])
      have := Spec.PoseIn.fixed (j := (getFixedJoint ⟨R, p, none, none⟩ "tool_tcp" "tip_to_tool" (tipF robot)).withPrefix pre)
        hflange hj rfl
      simp only [TJoint.withPrefix, getFixedJoint] at this
      rw [toIsometry_real (T := ⟨R, p, none, none⟩) (hR R hRt)] at this
      simp only [sgTip, hRt, hpt, Option.isSome_some, and_self, if_true]
      exact this
