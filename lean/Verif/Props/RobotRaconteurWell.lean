import Verif.Props.RobotRaconteurFrames

/-!
# C88: the Robot Raconteur loader accepts well-formed documents

The robot it returns is the one in the document; for documents that are not well formed, which exception is raised.
-/
set_option autoImplicit false

namespace Spec
variable {α : Type}

/-- a number of the document that can be compared: an integer, a truth value (0 or 1), or a float -/
inductive IsNum : Yaml XReal → ℝ → Prop
  | int (n : Int) : IsNum (.int n) n
  | bool (b : Bool) : IsNum (.bool b) (if b then 1 else 0)
  | num (x : ℝ) : IsNum (.num (.fin x)) x

/-- a mapping in which the entry `key` is missing or null -/
def absent (d : Yaml α) (key : String) : Prop := (∃ l, d = .dict l) ∧ ¬ ∃ v, given d key v

/-- the pose of the base in the document, if any -/
inductive BaseOf (parse : String → Option XReal) (doc : Yaml XReal) : Option (Transform XReal) → Prop
  | noInfo : absent doc "device_info" → BaseOf parse doc none
  | noPose (info : Yaml XReal) : given doc "device_info" info → absent info "device_origin_pose" → BaseOf parse doc none
  | pose (info o d : Yaml XReal) (T : Transform XReal) : given doc "device_info" info → given info "device_origin_pose" o → field o "pose" d → IsPose parse d T →
      BaseOf parse doc (some T)

/-- the tool on the flange and the name of the tip link; `tip` is the name of the flange -/
inductive ToolOf (parse : String → Option XReal) (chain : Yaml XReal) (tip : Option String) : Option (Transform XReal) → Option String → Prop
  | noTool : absent chain "current_tool" → ToolOf parse chain tip none tip
  | noTcp (tool : Yaml XReal) : given chain "current_tool" tool → absent tool "tcp" → ToolOf parse chain tip none tip
  | noInfo (tool tcp : Yaml XReal) (T : Transform XReal) : given chain "current_tool" tool → given tool "tcp" tcp → IsPose parse tcp T → absent tool "device_info" →
      ToolOf parse chain tip (some T) tip
  | device (tool tcp info dev : Yaml XReal) (T : Transform XReal) (s : String) : given chain "current_tool" tool → given tool "tcp" tcp → IsPose parse tcp T →
      given tool "device_info" info → field info "device" dev → IsName dev s → ToolOf parse chain tip (some T) (some s)

/-- the name of the root link, if any -/
inductive RootOf (chain : Yaml XReal) : Option String → Prop
  | missing : (∃ l, chain = .dict l) → (¬ ∃ v, field chain "link_identifiers" v) → RootOf chain none
  | empty : field chain "link_identifiers" (.list []) → RootOf chain none
  | null (tl : List (Yaml XReal)) : field chain "link_identifiers" (.list (.null :: tl)) → RootOf chain none
  | name (x : Yaml XReal) (tl : List (Yaml XReal)) (s : String) : field chain "link_identifiers" (.list (x :: tl)) → IsName x s → RootOf chain (some s)

/-- the name of the flange, if any -/
inductive FlangeOf (chain : Yaml XReal) : Option String → Prop
  | null : field chain "flange_identifier" .null → FlangeOf chain none
  | name (x : Yaml XReal) (s : String) : field chain "flange_identifier" x → IsName x s → FlangeOf chain (some s)

/-- one joint of a robot -/
structure JointEntry where
  ty : Nat
  lower : XReal
  upper : XReal
  vel : XReal
  acc : XReal
  name : String

/-- The joint numbers of the chain are numbers that increase, and from the second on less than the number of joints of the document. -/
def Numbers (doc chain : Yaml XReal) (nums info : List (Yaml XReal)) (ns : List ℝ) : Prop :=
  field chain "joint_numbers" (.list nums) ∧ field doc "joint_info" (.list info) ∧ List.Forall₂ IsNum nums ns ∧ ns.IsChain (· < ·) ∧ ∀ n ∈ ns.tail, n < info.length

/-- The document and its chain are well formed and describe the robot `r`. -/
structure Describes (parse : String → Option XReal) (doc chain : Yaml XReal) (r : Robot XReal) : Prop where
  numbers : ∃ nums info ns, Numbers doc chain nums info ns ∧ nums.length = r.H.length
  axes : ∃ Hs, field chain "H" (.list Hs) ∧ List.Forall₂ (IsVec parse) Hs r.H
  unit : ∀ h ∈ r.H, iscloseD h.norm 1
  links : ∃ Ps, field chain "P" (.list Ps) ∧ List.Forall₂ (IsVec parse) Ps r.P ∧ r.P.length = r.H.length + 1
  joints : ∃ (info : List (Yaml XReal)) (js : List JointEntry), field doc "joint_info" (.list info) ∧
    List.Forall₂ (fun j e => JointData parse j e.ty e.lower e.upper e.vel e.acc e.name) (info.take r.H.length) js ∧ js.length = r.H.length ∧
    r.jointType = js.map (·.ty) ∧ r.lower = some (js.map (·.lower)) ∧ r.upper = some (js.map (·.upper)) ∧ r.vel = some (js.map (·.vel)) ∧
    r.acc = some (js.map (·.acc)) ∧ r.jointNames = some (js.map (·.name))
  flange : ∃ d T, field chain "flange_pose" d ∧ IsPose parse d T ∧ r.Tflange = some T
  tool : ∃ tip T, FlangeOf chain tip ∧ ToolOf parse chain tip T r.tipLink ∧ r.Rtool = T.map Transform.R ∧ r.ptool = T.map Transform.p
  base : BaseOf parse doc r.Tbase
  root : RootOf chain r.rootLink
  inertia : r.M = none ∧ r.effortLimit = none

end Spec

section
variable {parse : String → Option XReal}

theorem len_list {α : Type} (l : List (Yaml α)) : (Yaml.list l).len = .ok l.length := rfl

theorem isNum_ge {a b : Yaml XReal} {x y : ℝ} (ha : Spec.IsNum a x) (hb : Spec.IsNum b y) : a.ge b = .ok (decide (y ≤ x)) := by
  have lf : ∀ n : Int, (lit (n : Rat) : XReal) = .fin n := RRDoc.intFin
  have xle : ∀ s t : ℝ, (XReal.fin s ≤ XReal.fin t) ↔ s ≤ t := fun s t => Iff.rfl
  have bi : ∀ b : Bool, ((if b then (1 : Int) else 0 : Int) : ℝ) = if b then 1 else 0 := fun b => by cases b <;> simp
  cases ha <;> cases hb <;> unfold Yaml.ge <;> simp only [lf, xle, ← bi, Int.cast_le]

theorem index_get {α : Type} {l : List (Yaml α)} {i : Nat} {x : Yaml α} (h : l[i]? = some x) : (Yaml.list l).index i = .ok x := by rw [index_list, h]

/-- a loop over the indices of a list -/
theorem mapM_index {β γ : Type} (l : List (Yaml β)) (f : Yaml β → Except PyErr γ) (n : Nat) (hn : n ≤ l.length) :
    ((List.range n).mapM fun (i : Nat) => do f (← (Yaml.list l).index i)) = (l.take n).mapM f := by
  induction n with
  | zero => rfl
  | succ n ih =>
    have e : l.take (n + 1) = l.take n ++ [l[n]] := by rw [List.take_succ_eq_append_getElem (by omega)]
    rw [List.range_succ, List.mapM_append, ih (by omega), e, List.mapM_append]
    congr 1
    funext x
    rw [mapM_cons', mapM_cons', index_get (List.getElem?_eq_getElem (by omega : n < l.length)), Except.bind_ok]
    rfl

theorem checkList_ok {α : Type} (l : List (Yaml α)) {n : Nat} (h : l.length = n) : rrCheckList (Yaml.list l) (some n) = .ok () := by
  simp [rrCheckList, Yaml.isNone, len_list, h]

/-- a loop of checks that raise `e` -/
theorem mapM_checks {β : Type} {f : β → Except PyErr Unit} {e : PyErr} {l : List β} (h : ∀ a ∈ l, f a = .ok () ∨ f a = .error e) :
    (∀ a ∈ l, f a = .ok ()) ∧ (∃ r, l.mapM f = .ok r) ∨ (∃ a ∈ l, f a = .error e) ∧ l.mapM f = .error e := by
  induction l with
  | nil => exact .inl ⟨by simp, [], rfl⟩
  | cons a l ih =>
    rcases h a (by simp) with ha | ha
    · rcases ih fun b hb => h b (by simp [hb]) with ⟨h1, r, hr⟩ | ⟨⟨b, hb, h1⟩, hr⟩
      · refine .inl ⟨fun b hb => ?_, () :: r, by rw [mapM_cons', ha, Except.bind_ok, hr]; rfl⟩
        rcases List.mem_cons.1 hb with rfl | hb
        · exact ha
        · exact h1 b hb
      · exact .inr ⟨⟨b, by simp [hb], h1⟩, by rw [mapM_cons', ha, Except.bind_ok, hr]; rfl⟩
    · exact .inr ⟨⟨a, by simp, ha⟩, by rw [mapM_cons', ha]; rfl⟩

theorem increasing_iff {ns : List ℝ} {m : ℝ} : (ns.IsChain (· < ·) ∧ ∀ n ∈ ns.tail, n < m) ↔
    ∀ (i : Nat) (hi : i + 1 < ns.length), ns[i] < ns[i + 1] ∧ ns[i + 1] < m := by
  rw [List.isChain_iff_getElem]
  constructor
  · rintro ⟨h1, h2⟩ i hi
    refine ⟨h1 i hi, h2 _ ?_⟩
    have : ns[i + 1] = ns.tail[i]'(by simp; omega) := by simp
    rw [this]
    exact List.getElem_mem _
  · intro h
    refine ⟨fun i hi => (h i hi).1, fun n hn => ?_⟩
    obtain ⟨i, hi, rfl⟩ := List.getElem_of_mem hn
    simp only [List.getElem_tail]
    exact (h i (by simp at hi; omega)).2

theorem checkNumbers_eq {doc : Yaml XReal} {nums info : List (Yaml XReal)} {ns : List ℝ} (hi : Spec.field doc "joint_info" (.list info))
    (hn : List.Forall₂ Spec.IsNum nums ns) :
    ((ns.IsChain (· < ·) ∧ ∀ n ∈ ns.tail, n < info.length) ∧ rrCheckNumbers doc (.list nums) nums.length = .ok ()) ∨
    (¬ (ns.IsChain (· < ·) ∧ ∀ n ∈ ns.tail, n < info.length) ∧ rrCheckNumbers doc (.list nums) nums.length = .error .value) := by
  have len := hn.length_eq
  have num : ∀ (i : Nat) (h : i < nums.length), Spec.IsNum nums[i] (ns[i]'(by omega)) := fun i h => (List.forall₂_iff_get.1 hn).2 i h (by omega)
  have step : ∀ (i : Nat) (h : i + 1 < nums.length), (do
      let a ← (Yaml.list nums).index ((1 + i - 1 : Nat) : Int)
      let b ← (Yaml.list nums).index ((1 + i : Nat) : Int)
      if ← a.ge b then .error .value
      else
        let k ← (← doc.item "joint_info").len
        if ← b.ge (.int k) then (.error .value : Except PyErr Unit) else .ok ()) =
      if ns[i]'(by omega) < ns[i + 1]'(by omega) ∧ ns[i + 1]'(by omega) < info.length then .ok () else .error .value := by
    intro i h
    rw [show 1 + i - 1 = i by omega, show 1 + i = i + 1 by omega, index_get (List.getElem?_eq_getElem (by omega : i < nums.length)),
      index_get (List.getElem?_eq_getElem h), Except.bind_ok, Except.bind_ok, isNum_ge (num i (by omega)) (num (i + 1) h), Except.bind_ok, (item_iff _ _ _).2 hi,
      Except.bind_ok, len_list, Except.bind_ok, isNum_ge (num (i + 1) h) (.int _), Except.bind_ok]
    simp only [decide_eq_true_eq, Int.cast_natCast]
    by_cases h1 : ns[i] < ns[i + 1]
    · by_cases h2 : ns[i + 1] < info.length
      · rw [if_neg (by linarith), if_neg (by linarith), if_pos ⟨h1, h2⟩]
      · rw [if_neg (by linarith), if_pos (by linarith), if_neg (fun h => h2 h.2)]
    · rw [if_pos (by linarith), if_neg (fun h => h1 h.1)]
  have key := mapM_checks (l := List.range' 1 (nums.length - 1)) (e := .value) (f := fun i => (do
      let a ← (Yaml.list nums).index (i - 1 : Nat)
      let b ← (Yaml.list nums).index i
      if ← a.ge b then .error .value
      else
        let k ← (← doc.item "joint_info").len
        if ← b.ge (.int k) then (.error .value : Except PyErr Unit) else .ok ())) (by
    intro a ha
    obtain ⟨i, hi, rfl⟩ := List.mem_range'.1 ha
    rw [one_mul, step i (by omega)]
    split_ifs
    · exact .inl rfl
    · exact .inr rfl)
  rw [increasing_iff]
  unfold rrCheckNumbers
  rcases key with ⟨h1, r, hr⟩ | ⟨⟨a, ha, h1⟩, hr⟩
  · refine .inl ⟨fun i hi => ?_, by rw [hr]; rfl⟩
    have := h1 (1 + i) (List.mem_range'.2 ⟨i, by omega, by omega⟩)
    rw [step i (by omega)] at this
    by_contra hc
    rw [if_neg hc] at this
    cases this
  · refine .inr ⟨fun h => ?_, by rw [hr]; rfl⟩
    obtain ⟨i, hi, rfl⟩ := List.mem_range'.1 ha
    rw [one_mul, step i (by omega), if_pos (h i (by omega))] at h1
    cases h1

theorem isName_ok {d : Yaml XReal} {s : String} (h : Spec.IsName d s) : rrIdentifierName d = .ok s ∧ d.isNone = false := by
  rcases h with rfl | ⟨l, rfl, h⟩
  · exact ⟨rfl, rfl⟩
  · refine ⟨?_, rfl⟩
    simp [rrIdentifierName, Yaml.item, h]

theorem toTransform_ok {d : Yaml XReal} {T : Transform XReal} (h : Spec.IsPose parse d T) : rrToTransform parse d = .ok T := by
  obtain ⟨o, p, q, h1, ⟨w, x, y, z, q1, q2, q3, q4, q5, q6, q7, q8⟩, hv, hR, hp, hc⟩ := h
  have hq : rrToQvec parse o = .ok q := by
    rw [← item_iff] at q1 q2 q3 q4
    rw [← toFloat_iff] at q5 q6 q7 q8
    simp [rrToQvec, q1, q2, q3, q4, q5, q6, q7, q8]
  obtain ⟨R, t, pa, ch⟩ := T
  replace hv := (rrToVec3_iff _ _ _).2 hv
  simp only at hR hp hc hv
  subst hR hp hc
  unfold rrToTransform
  rcases h1 with ⟨g1, g2⟩ | ⟨g0, g1, g2⟩
  · rw [if_pos ((hasKey_iff _ _).2 ⟨_, g1⟩), (item_iff _ _ _).2 g1, Except.bind_ok, hq, Except.bind_ok, (item_iff _ _ _).2 g2, Except.bind_ok, hv]
    rfl
  · rw [if_neg (fun h => g0 ((hasKey_iff _ _).1 h)), (item_iff _ _ _).2 g1, Except.bind_ok, hq, Except.bind_ok, (item_iff _ _ _).2 g2, Except.bind_ok, hv]
    rfl

theorem get_given {d v : Yaml XReal} {k : String} (h : Spec.given d k v) : d.get k = .ok v ∧ v.isNone = false := by
  obtain ⟨⟨l, rfl, h⟩, hv⟩ := h
  exact ⟨by simp [Yaml.get, h], by cases v <;> simp_all [Yaml.isNone]⟩

theorem get_absent {d : Yaml XReal} {k : String} (h : Spec.absent d k) : d.get k = .ok .null := by
  obtain ⟨⟨l, rfl⟩, h⟩ := h
  rw [Yaml.get]
  rcases hl : l.lookup k with _ | x
  · rfl
  · by_cases hx : x = .null
    · rw [hx]; rfl
    · exact absurd ⟨x, ⟨l, rfl, hl⟩, hx⟩ h

theorem base_ok {doc : Yaml XReal} {T : Option (Transform XReal)} (h : Spec.BaseOf parse doc T) : rrBase parse doc = .ok T := by
  unfold rrBase
  cases h with
  | noInfo h => rw [get_absent h]; rfl
  | noPose info h1 h2 =>
    rw [(get_given h1).1, Except.bind_ok, if_neg (by simp [(get_given h1).2]), get_absent h2]; rfl
  | pose info o d T h1 h2 h3 h4 =>
    rw [(get_given h1).1, Except.bind_ok, if_neg (by simp [(get_given h1).2]), (get_given h2).1, Except.bind_ok, if_neg (by simp [(get_given h2).2]),
      (item_iff _ _ _).2 h3, Except.bind_ok, toTransform_ok h4]
    rfl

theorem tool_ok {chain : Yaml XReal} {tip tip' : Option String} {T : Option (Transform XReal)} (h : Spec.ToolOf parse chain tip T tip') :
    rrCurrentTool parse chain tip = .ok (T, tip') := by
  unfold rrCurrentTool
  cases h with
  | noTool h => rw [get_absent h]; rfl
  | noTcp tool h1 h2 => rw [(get_given h1).1, Except.bind_ok, if_neg (by simp [(get_given h1).2]), get_absent h2]; rfl
  | noInfo tool tcp T h1 h2 h3 h4 =>
    rw [(get_given h1).1, Except.bind_ok, if_neg (by simp [(get_given h1).2]), (get_given h2).1, Except.bind_ok, if_neg (by simp [(get_given h2).2]),
      toTransform_ok h3, Except.bind_ok, get_absent h4]
    rfl
  | device tool tcp info dev T s h1 h2 h3 h4 h5 h6 =>
    rw [(get_given h1).1, Except.bind_ok, if_neg (by simp [(get_given h1).2]), (get_given h2).1, Except.bind_ok, if_neg (by simp [(get_given h2).2]),
      toTransform_ok h3, Except.bind_ok, (get_given h4).1, Except.bind_ok, if_neg (by simp [(get_given h4).2]), (item_iff _ _ _).2 h5, Except.bind_ok, (isName_ok h6).1]
    rfl

theorem root_ok {chain : Yaml XReal} {o : Option String} (h : Spec.RootOf chain o) : rrRootLink chain = .ok o := by
  unfold rrRootLink
  cases h with
  | missing h1 h2 => rw [if_neg (fun h => h2 ((hasKey_iff _ _).1 h))]; rfl
  | empty h => rw [if_pos ((hasKey_iff _ _).2 ⟨_, h⟩), (item_iff _ _ _).2 h]; rfl
  | null tl h => rw [if_pos ((hasKey_iff _ _).2 ⟨_, h⟩), (item_iff _ _ _).2 h]; simp [len_list, Yaml.index, Yaml.pyIdx, Yaml.isNone]
  | name x tl s h1 h2 =>
    rw [if_pos ((hasKey_iff _ _).2 ⟨_, h1⟩), (item_iff _ _ _).2 h1]
    simp [len_list, Yaml.index, Yaml.pyIdx, isName_ok h2]

theorem flange_ok {chain : Yaml XReal} {o : Option String} (h : Spec.FlangeOf chain o) : ∃ fid, chain.item "flange_identifier" = .ok fid ∧ rrTip fid = .ok o := by
  cases h with
  | null h => exact ⟨_, (item_iff _ _ _).2 h, rfl⟩
  | name x s h1 h2 =>
    refine ⟨x, (item_iff _ _ _).2 h1, ?_⟩
    rw [rrTip, (isName_ok h2).2, (isName_ok h2).1]
    rfl

theorem joint_ok {j : Yaml XReal} {e : Spec.JointEntry} (h : Spec.JointData parse j e.ty e.lower e.upper e.vel e.acc e.name) :
    rrJoint parse j = .ok ⟨e.ty, e.lower, e.upper, e.vel, e.acc, e.name⟩ := by
  obtain ⟨ty, lower, upper, vel, acc, name⟩ := e
  obtain ⟨ht, ⟨lim, a, b, c, d, h1, h2, h3, h4, h5, g2, g3, g4, g5⟩, hn⟩ := h
  simp only at ht g2 g3 g4 g5 hn ⊢
  have hnn : lim.isNone = false := by obtain ⟨l, rfl, -⟩ := h2; rfl
  have t : ∃ t, j.item "joint_type" = .ok t ∧ rrType t = .ok ty := by
    rcases ht with ⟨h, rfl⟩ | ⟨h, rfl⟩
    · exact ⟨_, (item_iff _ _ _).2 h, rfl⟩
    · exact ⟨_, (item_iff _ _ _).2 h, by simp [rrType, Yaml.eqStr]⟩
  have n : ∃ i, j.item "joint_identifier" = .ok i ∧ rrName i = .ok name := by
    rcases hn with ⟨h, rfl⟩ | ⟨i, h, hi⟩
    · exact ⟨_, (item_iff _ _ _).2 h, rfl⟩
    · exact ⟨_, (item_iff _ _ _).2 h, by rw [rrName, (isName_ok hi).2, (isName_ok hi).1]; rfl⟩
  obtain ⟨t, t1, t2⟩ := t
  obtain ⟨i, i1, i2⟩ := n
  rw [← item_iff] at h1 h2 h3 h4 h5
  rw [← toFloat_iff] at g2 g3 g4 g5
  simp [rrJoint, t1, t2, h1, hnn, h2, h3, h4, h5, g2, g3, g4, g5, i1, i2]

theorem index_nat {α : Type} {cs : List (Yaml α)} {chain : Yaml α} {c : Nat} (h : cs[c]? = some chain) : (Yaml.list cs).index (c : Int) = .ok chain := index_get h

theorem vecs_ok {Hs : List (Yaml XReal)} {H : List (V3 XReal)} (h : List.Forall₂ (Spec.IsVec parse) Hs H) {n : Nat} (hn : H.length = n) :
    ((List.range n).mapM fun (i : Nat) => do rrToVec3 parse (← (Yaml.list Hs).index i)) = .ok H := by
  rw [mapM_index _ _ _ (by rw [h.length_eq, hn]), List.take_of_length_le (by rw [h.length_eq, hn])]
  exact mapM_of_forall₂ (h.imp fun _ _ h => (rrToVec3_iff _ _ _).2 h)

/-- C88: the loader accepts every well-formed document and returns the robot the document describes. -/
theorem C88_accepts (doc chain : Yaml XReal) (cs : List (Yaml XReal)) (c : Nat) (hcs : Spec.field doc "chains" (.list cs)) (hc : cs[c]? = some chain)
    (r : Robot XReal) (h : Spec.Describes parse doc chain r) : rrLoadRobot parse doc c = .ok r := by
  obtain ⟨⟨nums, info, ns, ⟨n1, n2, n3, n4⟩, n5⟩, ⟨Hs, H1, H2⟩, hunit, ⟨Ps, P1, P2, P3⟩, ⟨info', js, j1, j2, j3, r1, r2, r3, r4, r5, r6⟩, ⟨fp, fT, f1, f2, f3⟩,
    ⟨tip, T, t1, t2, t3, t4⟩, hbase, hroot, hM, hE⟩ := h
  obtain ⟨rH, rP, rt, rlo, rup, rv, ra, rM, rR, rp, rn, rr, rtip, rf, rb, re⟩ := r
  simp only at *
  subst r1 r2 r3 r4 r5 r6 f3 t3 t4 hM hE
  obtain ⟨fid, fl1, fl2⟩ := flange_ok t1
  have hcl : c < cs.length := (List.getElem?_eq_some_iff.1 hc).1
  have hck : rrCheckNumbers doc (.list nums) nums.length = .ok () := by
    rcases checkNumbers_eq n2 n3 with ⟨-, h⟩ | ⟨h, -⟩
    · exact h
    · exact absurd n4 h
  have hinfo : info' = info := by
    obtain ⟨l, rfl, e⟩ := n2
    obtain ⟨l', e', e''⟩ := j1
    cases e'
    rw [e] at e''
    cases e''
    rfl
  subst hinfo
  have hlen : rH.length ≤ info'.length := by
    have := j2.length_eq
    rw [j3, List.length_take] at this
    omega
  have hjs : ((List.range rH.length).mapM fun (i : Nat) => do
      let info ← doc.item "joint_info"
      rrJoint parse (← info.index i)) = .ok (js.map fun e => (⟨e.ty, e.lower, e.upper, e.vel, e.acc, e.name⟩ : RRJoint XReal)) := by
    simp only [(item_iff _ _ _).2 n2, Except.bind_ok]
    rw [mapM_index _ _ _ hlen]
    refine mapM_of_forall₂ ?_
    rw [List.forall₂_map_right_iff]
    exact j2.imp fun _ _ h => joint_ok h
  unfold rrLoadRobot
  rw [(item_iff _ _ _).2 hcs, Except.bind_ok]
  rw [show rrCheckList (Yaml.list cs) = .ok () from rfl, Except.bind_ok, len_list, Except.bind_ok, if_neg (by omega), index_nat hc, Except.bind_ok, (item_iff _ _ _).2 n1,
    Except.bind_ok, len_list, Except.bind_ok, hck, Except.bind_ok, (item_iff _ _ _).2 H1, Except.bind_ok, checkList_ok Hs (by rw [H2.length_eq, n5]), Except.bind_ok,
    (item_iff _ _ _).2 P1, Except.bind_ok, checkList_ok Ps (by rw [P2.length_eq, n5, P3]), Except.bind_ok, vecs_ok H2 n5.symm, Except.bind_ok,
    vecs_ok P2 (by rw [P3, n5]), Except.bind_ok, n5, hjs, Except.bind_ok, root_ok hroot, Except.bind_ok, fl1, Except.bind_ok, fl2, Except.bind_ok, (item_iff _ _ _).2 f1,
    Except.bind_ok, toTransform_ok f2, Except.bind_ok, tool_ok t2, Except.bind_ok]
  simp only
  rw [base_ok hbase, Except.bind_ok]
  have ty : ∀ e ∈ js, e.ty ∈ [0, 1, 2, 3] := by
    intro e he
    obtain ⟨j, -, hj⟩ := Forall₂.exists_left j2 he
    rcases hj.type with ⟨-, h⟩ | ⟨-, h⟩ <;> simp [h]
  unfold Robot.init
  have u1 : (rH.all fun h => decide (iscloseD h.norm 1)) = true := by simpa using hunit
  have u2 : ((js.map (·.ty)).all fun j => j ∈ [0, 1, 2, 3]) = true := by
    rw [List.all_eq_true]
    intro j hj
    obtain ⟨e, he, rfl⟩ := List.mem_map.1 hj
    simpa using ty e he
  simp only [List.map_map, Function.comp_def]
  rw [u1, u2]
  cases T <;> simp [pyAssert, lenOk, P3, j3]

/-! ## documents that are not well formed -/

namespace Spec

/-- an entry that is no number, and the exception that converting it raises -/
inductive FloatFault (parse : String → Option XReal) : Yaml XReal → PyErr → Prop
  | list (l : List (Yaml XReal)) : FloatFault parse (.list l) .value
  | dict (l : List (String × Yaml XReal)) : FloatFault parse (.dict l) .type
  | str (s : String) : parse s = none → FloatFault parse (.str s) .value

/-- an entry that is no vector, and the exception: not a mapping, one component missing, or one component not a number -/
inductive VecFault (parse : String → Option XReal) (d : Yaml XReal) : PyErr → Prop
  | scalar : (¬ ∃ l, d = .dict l) → VecFault parse d .type
  | missing (key : String) : (∃ l, d = .dict l) → key ∈ ["x", "y", "z"] → (¬ ∃ v, field d key v) → VecFault parse d .key
  | x (a b c : Yaml XReal) (v w : XReal) (e : PyErr) : field d "x" a → field d "y" b → field d "z" c → FloatFault parse a e → IsFloat parse b v →
      IsFloat parse c w → VecFault parse d e
  | y (a b c : Yaml XReal) (v w : XReal) (e : PyErr) : field d "x" a → field d "y" b → field d "z" c → IsFloat parse a v → FloatFault parse b e →
      IsFloat parse c w → VecFault parse d e
  | z (a b c : Yaml XReal) (v w : XReal) (e : PyErr) : field d "x" a → field d "y" b → field d "z" c → IsFloat parse a v → IsFloat parse b w →
      FloatFault parse c e → VecFault parse d e

/-- a joint that is not well formed, and the exception -/
inductive JointFault (parse : String → Option XReal) (j : Yaml XReal) : PyErr → Prop
  | scalar : (¬ ∃ l, j = .dict l) → JointFault parse j .type
  | noType : (∃ l, j = .dict l) → (¬ ∃ t, field j "joint_type" t) → JointFault parse j .key
  | type (t : Yaml XReal) : field j "joint_type" t → t ≠ .str "revolute" → t ≠ .str "prismatic" → JointFault parse j .value
  | noLimits (s : String) : field j "joint_type" (.str s) → s = "revolute" ∨ s = "prismatic" → (¬ ∃ l, field j "joint_limits" l) → JointFault parse j .key
  | limits (s : String) : field j "joint_type" (.str s) → s = "revolute" ∨ s = "prismatic" → field j "joint_limits" .null → JointFault parse j .value
  | noLower (s : String) (lim : Yaml XReal) : field j "joint_type" (.str s) → s = "revolute" ∨ s = "prismatic" → field j "joint_limits" lim →
      (∃ l, lim = .dict l) → (¬ ∃ v, field lim "lower" v) → JointFault parse j .key
  | lower (s : String) (lim a : Yaml XReal) (e : PyErr) : field j "joint_type" (.str s) → s = "revolute" ∨ s = "prismatic" → field j "joint_limits" lim →
      field lim "lower" a → FloatFault parse a e → JointFault parse j e
  | noUpper (s : String) (lim a : Yaml XReal) (v : XReal) : field j "joint_type" (.str s) → s = "revolute" ∨ s = "prismatic" → field j "joint_limits" lim →
      field lim "lower" a → IsFloat parse a v → (¬ ∃ v, field lim "upper" v) → JointFault parse j .key
  | upper (s : String) (lim a b : Yaml XReal) (v : XReal) (e : PyErr) : field j "joint_type" (.str s) → s = "revolute" ∨ s = "prismatic" →
      field j "joint_limits" lim → field lim "lower" a → IsFloat parse a v → field lim "upper" b → FloatFault parse b e → JointFault parse j e

/-- `x` is the first entry of the list that is not as it should be -/
def FirstBad {β : Type} (good : β → Prop) (l : List β) (x : β) : Prop := ∃ a b, l = a ++ x :: b ∧ ∀ y ∈ a, good y

end Spec

theorem mapM_first {β γ : Type} {f : β → Except PyErr γ} {good : β → Prop} {l : List β} {x : β} {e : PyErr} (h : Spec.FirstBad good l x)
    (hg : ∀ y, good y → ∃ r, f y = .ok r) (hx : f x = .error e) : l.mapM f = .error e := by
  obtain ⟨a, b, rfl, ha⟩ := h
  induction a with
  | nil => rw [List.nil_append, mapM_cons', hx]; rfl
  | cons y a ih =>
    obtain ⟨r, hr⟩ := hg y (ha y (by simp))
    rw [List.cons_append, mapM_cons', hr, Except.bind_ok, ih fun z hz => ha z (by simp [hz])]
    rfl

theorem range_split {m n : Nat} (h : m < n) : ∃ rest, List.range n = List.range m ++ m :: rest := by
  obtain ⟨k, rfl⟩ := Nat.exists_eq_add_of_lt h
  exact ⟨(List.range k).map fun i => m + (i + 1), by rw [Nat.add_assoc, List.range_add, List.range_succ_eq_map]; simp⟩

theorem item_scalar {d : Yaml XReal} (h : ¬ ∃ l, d = .dict l) (k : String) : d.item k = .error .type := by
  cases d <;> first | rfl | exact absurd ⟨_, rfl⟩ h

theorem item_missing {d : Yaml XReal} {k : String} (h : ∃ l, d = .dict l) (hk : ¬ ∃ v, Spec.field d k v) : d.item k = .error .key := by
  obtain ⟨l, rfl⟩ := h
  rcases hl : l.lookup k with _ | v
  · simp [Yaml.item, hl]
  · exact absurd ⟨v, l, rfl, hl⟩ hk

theorem toFloat_fault {a : Yaml XReal} {e : PyErr} (h : Spec.FloatFault parse a e) : a.toFloat parse = .error e := by
  cases h with
  | list l => rfl
  | dict l => rfl
  | str s h => simp [Yaml.toFloat, h]

theorem item_cases {d : Yaml XReal} (h : ∃ l, d = .dict l) (k : String) : d.item k = .error .key ∨ ∃ v, d.item k = .ok v := by
  by_cases hk : ∃ v, Spec.field d k v
  · obtain ⟨v, hv⟩ := hk
    exact .inr ⟨v, (item_iff _ _ _).2 hv⟩
  · exact .inl (item_missing h hk)

theorem vec_fault {d : Yaml XReal} {e : PyErr} (h : Spec.VecFault parse d e) : rrToVec3 parse d = .error e := by
  unfold rrToVec3
  cases h with
  | scalar h => rw [item_scalar h]; rfl
  | missing key h hk hf =>
    have he := item_missing h hf
    simp only [List.mem_cons, List.not_mem_nil, or_false] at hk
    rcases hk with rfl | rfl | rfl
    · rw [he]; rfl
    · rcases item_cases h "x" with hx | ⟨v, hx⟩ <;> rw [hx]
      · rfl
      · rw [Except.bind_ok, he]; rfl
    · rcases item_cases h "x" with hx | ⟨v, hx⟩ <;> rw [hx]
      · rfl
      · rw [Except.bind_ok]
        rcases item_cases h "y" with hx | ⟨v, hx⟩ <;> rw [hx]
        · rfl
        · rw [Except.bind_ok, he]; rfl
  | x a b c v w e h1 h2 h3 g1 g2 g3 =>
    rw [(item_iff _ _ _).2 h1, (item_iff _ _ _).2 h2, (item_iff _ _ _).2 h3, Except.bind_ok, Except.bind_ok, Except.bind_ok, toFloat_fault g1]
    rfl
  | y a b c v w e h1 h2 h3 g1 g2 g3 =>
    rw [(item_iff _ _ _).2 h1, (item_iff _ _ _).2 h2, (item_iff _ _ _).2 h3, Except.bind_ok, Except.bind_ok, Except.bind_ok, (toFloat_iff _ _ _).2 g1, toFloat_fault g2]
    rfl
  | z a b c v w e h1 h2 h3 g1 g2 g3 =>
    rw [(item_iff _ _ _).2 h1, (item_iff _ _ _).2 h2, (item_iff _ _ _).2 h3, Except.bind_ok, Except.bind_ok, Except.bind_ok, (toFloat_iff _ _ _).2 g1,
      (toFloat_iff _ _ _).2 g2, toFloat_fault g3]
    rfl

theorem type_ok {s : String} (h : s = "revolute" ∨ s = "prismatic") : ∃ n, rrType (Yaml.str s : Yaml XReal) = .ok n := by
  rcases h with rfl | rfl
  · exact ⟨0, rfl⟩
  · exact ⟨1, by simp [rrType, Yaml.eqStr]⟩

theorem field_isDict {d v : Yaml XReal} {k : String} (h : Spec.field d k v) : ∃ l, d = .dict l := ⟨h.choose, h.choose_spec.1⟩

theorem isNone_dict {d : Yaml XReal} (h : ∃ l, d = .dict l) : d.isNone = false := by obtain ⟨l, rfl⟩ := h; rfl

theorem joint_fault {j : Yaml XReal} {e : PyErr} (h : Spec.JointFault parse j e) : rrJoint parse j = .error e := by
  unfold rrJoint
  cases h with
  | scalar h => rw [item_scalar h]; rfl
  | noType h h1 => rw [item_missing h h1]; rfl
  | type t h1 h2 h3 =>
    have : rrType t = .error .value := by
      cases t <;> simp_all [rrType, Yaml.eqStr]
    rw [(item_iff _ _ _).2 h1, Except.bind_ok, this]; rfl
  | noLimits s h1 h2 h3 =>
    obtain ⟨n, hn⟩ := type_ok h2
    rw [(item_iff _ _ _).2 h1, Except.bind_ok, hn, Except.bind_ok, item_missing (field_isDict h1) h3]; rfl
  | limits s h1 h2 h3 =>
    obtain ⟨n, hn⟩ := type_ok h2
    rw [(item_iff _ _ _).2 h1, Except.bind_ok, hn, Except.bind_ok, (item_iff _ _ _).2 h3]; rfl
  | noLower s lim h1 h2 h3 h4 h5 =>
    obtain ⟨n, hn⟩ := type_ok h2
    rw [(item_iff _ _ _).2 h1, Except.bind_ok, hn, Except.bind_ok, (item_iff _ _ _).2 h3, Except.bind_ok, isNone_dict h4, item_missing h4 h5]; rfl
  | lower s lim a e h1 h2 h3 h4 h5 =>
    obtain ⟨n, hn⟩ := type_ok h2
    rw [(item_iff _ _ _).2 h1, Except.bind_ok, hn, Except.bind_ok, (item_iff _ _ _).2 h3, Except.bind_ok, isNone_dict (field_isDict h4), (item_iff _ _ _).2 h4,
      Except.bind_ok, toFloat_fault h5]; rfl
  | noUpper s lim a v h1 h2 h3 h4 h5 h6 =>
    obtain ⟨n, hn⟩ := type_ok h2
    rw [(item_iff _ _ _).2 h1, Except.bind_ok, hn, Except.bind_ok, (item_iff _ _ _).2 h3, Except.bind_ok, isNone_dict (field_isDict h4), (item_iff _ _ _).2 h4,
      Except.bind_ok, (toFloat_iff _ _ _).2 h5, item_missing (field_isDict h4) h6]; rfl
  | upper s lim a b v e h1 h2 h3 h4 h5 h6 h7 =>
    obtain ⟨n, hn⟩ := type_ok h2
    rw [(item_iff _ _ _).2 h1, Except.bind_ok, hn, Except.bind_ok, (item_iff _ _ _).2 h3, Except.bind_ok, isNone_dict (field_isDict h4), (item_iff _ _ _).2 h4,
      Except.bind_ok, (toFloat_iff _ _ _).2 h5, Except.bind_ok,
      (item_iff _ _ _).2 h6, Except.bind_ok, toFloat_fault h7]; rfl

/-- C88: a document that is not a mapping raises TypeError, one without `chains` KeyError, one with `chains: null` ValueError, and a chain number that is not less
than the number of chains ValueError. -/
theorem C88_chains (doc : Yaml XReal) (c : Int) :
    ((¬ ∃ l, doc = .dict l) → rrLoadRobot parse doc c = .error .type) ∧
    ((∃ l, doc = .dict l) → (¬ ∃ v, Spec.field doc "chains" v) → rrLoadRobot parse doc c = .error .key) ∧
    (Spec.field doc "chains" .null → rrLoadRobot parse doc c = .error .value) ∧
    ∀ cs, Spec.field doc "chains" (.list cs) → (cs.length : Int) ≤ c → rrLoadRobot parse doc c = .error .value := by
  refine ⟨fun h => ?_, fun h h1 => ?_, fun h => ?_, fun cs h h1 => ?_⟩ <;> unfold rrLoadRobot
  · rw [item_scalar h]; rfl
  · rw [item_missing h h1]; rfl
  · rw [(item_iff _ _ _).2 h]; rfl
  · rw [(item_iff _ _ _).2 h, Except.bind_ok, show rrCheckList (Yaml.list cs) = .ok () from rfl, Except.bind_ok, len_list, Except.bind_ok, if_pos h1]

/-- C88: `joint_numbers: null` raises TypeError, and numbers that do not increase or are from the second on not less than the number of joints raise ValueError. -/
theorem C88_numbers (doc chain : Yaml XReal) (cs : List (Yaml XReal)) (c : Nat) (hcs : Spec.field doc "chains" (.list cs)) (hc : cs[c]? = some chain) :
    (Spec.field chain "joint_numbers" .null → rrLoadRobot parse doc c = .error .type) ∧
    ∀ nums info ns, Spec.field chain "joint_numbers" (.list nums) → Spec.field doc "joint_info" (.list info) → List.Forall₂ Spec.IsNum nums ns →
      ¬ (ns.IsChain (· < ·) ∧ ∀ n ∈ ns.tail, n < info.length) → rrLoadRobot parse doc c = .error .value := by
  have hcl : c < cs.length := (List.getElem?_eq_some_iff.1 hc).1
  have e : rrCheckList (Yaml.list cs) = .ok () := rfl
  refine ⟨fun h => ?_, fun nums info ns h1 h2 h3 h4 => ?_⟩ <;> unfold rrLoadRobot <;>
    rw [(item_iff _ _ _).2 hcs, Except.bind_ok, e, Except.bind_ok, len_list, Except.bind_ok, if_neg (by omega), index_nat hc, Except.bind_ok]
  · rw [(item_iff _ _ _).2 h]; rfl
  · rw [(item_iff _ _ _).2 h1, Except.bind_ok, len_list, Except.bind_ok]
    rcases checkNumbers_eq h2 h3 with ⟨h, -⟩ | ⟨-, h⟩
    · exact absurd h h4
    · rw [h]; rfl

/-- C88: with good joint numbers, `H` or `P` null or with the wrong number of entries raises ValueError. -/
theorem C88_counts (doc chain : Yaml XReal) (cs : List (Yaml XReal)) (c : Nat) (hcs : Spec.field doc "chains" (.list cs)) (hc : cs[c]? = some chain)
    (nums info : List (Yaml XReal)) (ns : List ℝ) (hn : Spec.Numbers doc chain nums info ns) :
    (Spec.field chain "H" .null → rrLoadRobot parse doc c = .error .value) ∧
    (∀ Hs, Spec.field chain "H" (.list Hs) → Hs.length ≠ nums.length → rrLoadRobot parse doc c = .error .value) ∧
    ∀ Hs, Spec.field chain "H" (.list Hs) → Hs.length = nums.length →
      (Spec.field chain "P" .null → rrLoadRobot parse doc c = .error .value) ∧
      ∀ Ps, Spec.field chain "P" (.list Ps) → Ps.length ≠ nums.length + 1 → rrLoadRobot parse doc c = .error .value := by
  obtain ⟨n1, n2, n3, n4⟩ := hn
  have hcl : c < cs.length := (List.getElem?_eq_some_iff.1 hc).1
  have e : rrCheckList (Yaml.list cs) = .ok () := rfl
  have hck : rrCheckNumbers doc (.list nums) nums.length = .ok () := by
    rcases checkNumbers_eq n2 n3 with ⟨-, h⟩ | ⟨h, -⟩
    · exact h
    · exact absurd n4 h
  have bad : ∀ (l : List (Yaml XReal)) (n : Nat), l.length ≠ n → rrCheckList (Yaml.list l) (some n) = .error .value := by
    intro l n h
    simp [rrCheckList, Yaml.isNone, len_list, h]
  refine ⟨fun h => ?_, fun Hs h h1 => ?_, fun Hs h h1 => ⟨fun h2 => ?_, fun Ps h2 h3 => ?_⟩⟩ <;> unfold rrLoadRobot <;>
    rw [(item_iff _ _ _).2 hcs, Except.bind_ok, e, Except.bind_ok, len_list, Except.bind_ok, if_neg (by omega), index_nat hc, Except.bind_ok, (item_iff _ _ _).2 n1,
      Except.bind_ok, len_list, Except.bind_ok, hck, Except.bind_ok, (item_iff _ _ _).2 h, Except.bind_ok]
  · rfl
  · rw [bad _ _ h1]; rfl
  · rw [checkList_ok _ h1, Except.bind_ok, (item_iff _ _ _).2 h2]; rfl
  · rw [checkList_ok _ h1, Except.bind_ok, (item_iff _ _ _).2 h2, Except.bind_ok, bad _ _ h3]; rfl

/-- C88: with the right counts, the first axis or link vector that is no vector of three numbers decides the exception. -/
theorem C88_vectors (doc chain : Yaml XReal) (cs : List (Yaml XReal)) (c : Nat) (hcs : Spec.field doc "chains" (.list cs)) (hc : cs[c]? = some chain)
    (nums info : List (Yaml XReal)) (ns : List ℝ) (hn : Spec.Numbers doc chain nums info ns) (Hs Ps : List (Yaml XReal)) (hH : Spec.field chain "H" (.list Hs))
    (hHl : Hs.length = nums.length) (hP : Spec.field chain "P" (.list Ps)) (hPl : Ps.length = nums.length + 1) (x : Yaml XReal) (e : PyErr) (hx : Spec.VecFault parse x e) :
    (Spec.FirstBad (fun y => ∃ v, Spec.IsVec parse y v) Hs x → rrLoadRobot parse doc c = .error e) ∧
    ((∀ y ∈ Hs, ∃ v, Spec.IsVec parse y v) → Spec.FirstBad (fun y => ∃ v, Spec.IsVec parse y v) Ps x → rrLoadRobot parse doc c = .error e) := by
  obtain ⟨n1, n2, n3, n4⟩ := hn
  have hcl : c < cs.length := (List.getElem?_eq_some_iff.1 hc).1
  have e0 : rrCheckList (Yaml.list cs) = .ok () := rfl
  have hck : rrCheckNumbers doc (.list nums) nums.length = .ok () := by
    rcases checkNumbers_eq n2 n3 with ⟨-, h⟩ | ⟨h, -⟩
    · exact h
    · exact absurd n4 h
  have good : ∀ y, (∃ v, Spec.IsVec parse y v) → ∃ r, rrToVec3 parse y = .ok r := fun y ⟨v, h⟩ => ⟨v, (rrToVec3_iff _ _ _).2 h⟩
  refine ⟨fun h => ?_, fun h0 h => ?_⟩ <;> unfold rrLoadRobot <;>
    rw [(item_iff _ _ _).2 hcs, Except.bind_ok, e0, Except.bind_ok, len_list, Except.bind_ok, if_neg (by omega), index_nat hc, Except.bind_ok, (item_iff _ _ _).2 n1,
      Except.bind_ok, len_list, Except.bind_ok, hck, Except.bind_ok, (item_iff _ _ _).2 hH, Except.bind_ok, checkList_ok Hs hHl, Except.bind_ok,
      (item_iff _ _ _).2 hP, Except.bind_ok, checkList_ok Ps hPl, Except.bind_ok, mapM_index _ _ _ hHl.ge, List.take_of_length_le hHl.le]
  · rw [mapM_first h good (vec_fault hx)]; rfl
  · obtain ⟨H, hH'⟩ : ∃ H, List.Forall₂ (Spec.IsVec parse) Hs H := by
      clear * - h0
      induction Hs with
      | nil => exact ⟨[], .nil⟩
      | cons a l ih =>
        obtain ⟨v, hv⟩ := h0 a (by simp)
        obtain ⟨H, hH⟩ := ih fun y hy => h0 y (by simp [hy])
        exact ⟨v :: H, .cons hv hH⟩
    rw [mapM_of_forall₂ (hH'.imp fun _ _ h => (rrToVec3_iff _ _ _).2 h), Except.bind_ok, mapM_index _ _ _ hPl.ge, List.take_of_length_le hPl.le,
      mapM_first h good (vec_fault hx)]; rfl

/-- C88: with good vectors, the first entry of `joint_info` that is not well formed decides the exception; `joint_info: null` (which only a chain with at most one
joint reaches) raises TypeError and too few entries raise IndexError. -/
theorem C88_joints (doc chain : Yaml XReal) (cs : List (Yaml XReal)) (c : Nat) (hcs : Spec.field doc "chains" (.list cs)) (hc : cs[c]? = some chain)
    (nums Hs Ps : List (Yaml XReal)) (n1 : Spec.field chain "joint_numbers" (.list nums)) (H P : List (V3 XReal)) (hH : Spec.field chain "H" (.list Hs))
    (hHv : List.Forall₂ (Spec.IsVec parse) Hs H)
    (hHl : Hs.length = nums.length) (hP : Spec.field chain "P" (.list Ps)) (hPv : List.Forall₂ (Spec.IsVec parse) Ps P) (hPl : Ps.length = nums.length + 1) :
    (nums.length = 1 → Spec.field doc "joint_info" .null → rrLoadRobot parse doc c = .error .type) ∧
    ∀ info ns, Spec.Numbers doc chain nums info ns →
      (info.length < nums.length → (∀ j ∈ info, ∃ ty lo up v a name, Spec.JointData parse j ty lo up v a name) → rrLoadRobot parse doc c = .error .index) ∧
      ∀ x e, Spec.JointFault parse x e → Spec.FirstBad (fun j => ∃ ty lo up v a name, Spec.JointData parse j ty lo up v a name) (info.take nums.length) x →
        rrLoadRobot parse doc c = .error e := by
  have hcl : c < cs.length := (List.getElem?_eq_some_iff.1 hc).1
  have e0 : rrCheckList (Yaml.list cs) = .ok () := rfl
  have good : ∀ j, (∃ ty lo up v a name, Spec.JointData parse j ty lo up v a name) → ∃ r, rrJoint parse j = .ok r :=
    fun j ⟨ty, lo, up, v, a, name, h⟩ => ⟨_, joint_ok (e := ⟨ty, lo, up, v, a, name⟩) h⟩
  have start : ∀ (e : PyErr), rrCheckNumbers doc (.list nums) nums.length = .ok () → ((List.range nums.length).mapM fun (i : Nat) => do
      let info ← doc.item "joint_info"
      rrJoint parse (← info.index i)) = .error e → rrLoadRobot parse doc c = .error e := by
    intro e hck h
    unfold rrLoadRobot
    rw [(item_iff _ _ _).2 hcs, Except.bind_ok, e0, Except.bind_ok, len_list, Except.bind_ok, if_neg (by omega), index_nat hc, Except.bind_ok, (item_iff _ _ _).2 n1,
      Except.bind_ok, len_list, Except.bind_ok, hck, Except.bind_ok, (item_iff _ _ _).2 hH, Except.bind_ok, checkList_ok Hs hHl, Except.bind_ok,
      (item_iff _ _ _).2 hP, Except.bind_ok, checkList_ok Ps hPl, Except.bind_ok, vecs_ok hHv (by rw [← hHv.length_eq, hHl]), Except.bind_ok,
      vecs_ok hPv (by rw [← hPv.length_eq, hPl]), Except.bind_ok, h]
    rfl
  constructor
  · intro h1 h2
    rw [h1] at start
    refine start _ rfl ?_
    rw [show List.range 1 = [0] from rfl, mapM_cons', (item_iff _ _ _).2 h2]
    rfl
  · rintro info ns ⟨-, n2, n3, n4⟩
    have hck : rrCheckNumbers doc (.list nums) nums.length = .ok () := by
      rcases checkNumbers_eq n2 n3 with ⟨-, h⟩ | ⟨h, -⟩
      · exact h
      · exact absurd n4 h
    simp only [(item_iff _ _ _).2 n2, Except.bind_ok] at start
    constructor
    · intro hl hg
      refine start _ hck ?_
      have : Spec.FirstBad (fun i => i < info.length) (List.range nums.length) info.length := by
        obtain ⟨rest, h⟩ := range_split hl
        exact ⟨_, rest, h, fun y hy => List.mem_range.1 hy⟩
      refine mapM_first this (fun i hi => ?_) ?_
      · rw [index_get (List.getElem?_eq_getElem hi), Except.bind_ok]
        exact good _ (hg _ (List.getElem_mem hi))
      · rw [index_list]
        simp
    · intro x e hx hf
      refine start _ hck ?_
      obtain ⟨a, b, hab, ha⟩ := hf
      have hlen := congrArg List.length hab
      simp only [List.length_take, List.length_append, List.length_cons] at hlen
      obtain ⟨rest, h⟩ := range_split (show a.length < nums.length by omega)
      have at' : ∀ i, i < nums.length → info[i]? = (a ++ x :: b)[i]? := fun i hi => by rw [← hab, List.getElem?_take_of_lt hi]
      refine mapM_first (good := fun i => i < a.length) ⟨_, rest, h, fun y hy => List.mem_range.1 hy⟩ (fun i hi => ?_) ?_
      · rw [index_list, at' i (by omega), List.getElem?_append_left hi, List.getElem?_eq_getElem hi]
        exact good _ (ha _ (List.getElem_mem hi))
      · rw [index_list, at' _ (by omega), List.getElem?_append_right (le_refl _)]
        simpa using joint_fault hx

end

/-! Non-vacuity of C88: the document with all the entries, and a chain with the joint numbers 0 and 2 out of three joints; the same chain with a fault in each place. -/

namespace RRDoc

theorem isVec (parse : String → Option XReal) (x y z : Int) : Spec.IsVec parse (vec x y z) ⟨.fin x, .fin y, .fin z⟩ := (rrToVec3_iff _ _ _).1 (toVec3 parse x y z)

theorem isPose (parse : String → Option XReal) : Spec.IsPose parse pose poseT := rrToTransform_spec (toPose parse)

theorem isJoint (parse : String → Option XReal) (name : String) (n : Int) : Spec.JointData parse (joint name (.int n)) 0 (.fin n) (.fin 2) (.fin 1) (.fin 1) name :=
  rrJoint_spec _ _ _ (toJoint parse name (.int n) (.fin n) (by simp [Yaml.toFloat]))

theorem unitZ : iscloseD (V3.norm (⟨.fin 0, .fin 0, .fin 1⟩ : V3 XReal)) (.fin 1) := by
  have : V3.norm (⟨.fin 0, .fin 0, .fin 1⟩ : V3 XReal) = .fin 1 := by
    have := V3.up_norm (⟨0, 0, 1⟩ : V3 ℝ)
    simpa [V3.norm, V3.up, V3.map] using this
  rw [this]
  left; simp

/-- a chain with two joints; `H`, `P` and the numbers are given -/
def chain2 (numbers H P : Yaml XReal) : Yaml XReal :=
  .dict [("joint_numbers", numbers), ("H", H), ("P", P), ("flange_identifier", .null), ("flange_pose", pose)]

def doc2 (chain : Yaml XReal) (joints : Yaml XReal) : Yaml XReal := .dict [("chains", .list [chain]), ("joint_info", joints)]

def numbers2 (a b : Int) : Yaml XReal := .list [.int a, .int b]
def axes2 : Yaml XReal := .list [vec 0 0 1, vec 0 0 1]
def links2 : Yaml XReal := .list [vec 0 0 0, vec 0 0 1, vec 1 0 0]
def joints2 : List (Yaml XReal) := [joint "a" (.int (-1)), joint "b" (.int (-2)), joint "c" (.int (-3))]

theorem doc2_chains (chain joints : Yaml XReal) : Spec.field (doc2 chain joints) "chains" (.list [chain]) := ⟨_, rfl, rfl⟩
theorem doc2_joints (chain joints : Yaml XReal) : Spec.field (doc2 chain joints) "joint_info" joints := ⟨_, rfl, by simp [List.lookup_cons]⟩
theorem chain2_numbers (n h p : Yaml XReal) : Spec.field (chain2 n h p) "joint_numbers" n := ⟨_, rfl, rfl⟩
theorem chain2_H (n h p : Yaml XReal) : Spec.field (chain2 n h p) "H" h := ⟨_, rfl, by simp [List.lookup_cons]⟩
theorem chain2_P (n h p : Yaml XReal) : Spec.field (chain2 n h p) "P" p := ⟨_, rfl, by simp [List.lookup_cons]⟩

theorem isNums (a b : Int) : List.Forall₂ Spec.IsNum [.int a, .int b] [(a : ℝ), (b : ℝ)] := .cons (.int a) (.cons (.int b) .nil)

theorem numbersOk (h p : Yaml XReal) : Spec.Numbers (doc2 (chain2 (numbers2 0 2) h p) (.list joints2)) (chain2 (numbers2 0 2) h p) [.int 0, .int 2] joints2
    [((0 : Int) : ℝ), ((2 : Int) : ℝ)] :=
  ⟨chain2_numbers _ _ _, doc2_joints _ _, isNums 0 2, by norm_num, by norm_num [joints2]⟩

end RRDoc

/-- the document with the joint numbers 0 and 2 -/
example (parse : String → Option XReal) : ∃ r, r.jointNames = some ["a", "b"] ∧
    Spec.Describes parse (RRDoc.doc2 (RRDoc.chain2 (RRDoc.numbers2 0 2) RRDoc.axes2 RRDoc.links2) (.list RRDoc.joints2))
      (RRDoc.chain2 (RRDoc.numbers2 0 2) RRDoc.axes2 RRDoc.links2) r := by
  refine ⟨{ H := [⟨.fin 0, .fin 0, .fin 1⟩, ⟨.fin 0, .fin 0, .fin 1⟩],
            P := [⟨.fin 0, .fin 0, .fin 0⟩, ⟨.fin 0, .fin 0, .fin 1⟩, ⟨.fin 1, .fin 0, .fin 0⟩], jointType := [0, 0],
            lower := some [.fin (-1), .fin (-2)], upper := some [.fin 2, .fin 2], vel := some [.fin 1, .fin 1], acc := some [.fin 1, .fin 1],
            jointNames := some ["a", "b"], Tflange := some RRDoc.poseT }, rfl, ⟨_, _, _, RRDoc.numbersOk _ _, rfl⟩,
    ⟨_, RRDoc.chain2_H _ _ _, ?_⟩, ?_, ⟨_, RRDoc.chain2_P _ _ _, ?_, rfl⟩,
    ⟨_, [⟨0, .fin (-1), .fin 2, .fin 1, .fin 1, "a"⟩, ⟨0, .fin (-2), .fin 2, .fin 1, .fin 1, "b"⟩], RRDoc.doc2_joints _ _, ?_, rfl, rfl, rfl, rfl, rfl, rfl, rfl⟩,
    ⟨RRDoc.pose, _, ⟨_, rfl, by simp [List.lookup_cons]⟩, RRDoc.isPose _, rfl⟩,
    ⟨none, none, .null ⟨_, rfl, by simp [List.lookup_cons]⟩, .noTool ⟨⟨_, rfl⟩, ?_⟩, rfl, rfl⟩, .noInfo ⟨⟨_, rfl⟩, ?_⟩, .missing ⟨_, rfl⟩ ?_, rfl, rfl⟩
  · have := RRDoc.isVec parse 0 0 1
    simp only [Int.cast_zero, Int.cast_one] at this
    exact .cons this (.cons this .nil)
  · simp [RRDoc.unitZ]
  · have h1 := RRDoc.isVec parse 0 0 0
    have h2 := RRDoc.isVec parse 0 0 1
    have h3 := RRDoc.isVec parse 1 0 0
    simp only [Int.cast_zero, Int.cast_one] at h1 h2 h3
    exact .cons h1 (.cons h2 (.cons h3 .nil))
  · have h1 := RRDoc.isJoint parse "a" (-1)
    have h2 := RRDoc.isJoint parse "b" (-2)
    simp only [Int.cast_neg, Int.cast_one, Int.cast_ofNat] at h1 h2
    exact .cons h1 (.cons h2 .nil)
  · rintro ⟨v, ⟨l, hl, h⟩, -⟩
    cases hl
    simp [List.lookup_cons] at h
  · rintro ⟨v, ⟨l, hl, h⟩, -⟩
    cases hl
    simp [List.lookup_cons] at h
  · rintro ⟨v, l, hl, h⟩
    cases hl
    simp [List.lookup_cons] at h

/-- the document with all the entries -/
example (parse : String → Option XReal) : Spec.Describes parse RRDoc.docFull RRDoc.chainFull
    { RRDoc.robot "a" (.fin (-1)) with rootLink := some "base_link", tipLink := some "gripper", Tbase := some RRDoc.poseT, Rtool := some RRDoc.poseT.R,
                                       ptool := some RRDoc.poseT.p } := by
  have h0 := RRDoc.isVec parse 0 0 0
  have h1 := RRDoc.isVec parse 0 0 1
  have h2 := RRDoc.isJoint parse "a" (-1)
  simp only [Int.cast_zero, Int.cast_one, Int.cast_neg] at h0 h1 h2
  refine ⟨⟨[.int 0], [RRDoc.joint "a" (.int (-1))], [((0 : Int) : ℝ)], ⟨⟨_, rfl, rfl⟩, ⟨_, rfl, by simp [List.lookup_cons]⟩, .cons (.int 0) .nil, by simp, by simp⟩, rfl⟩,
    ⟨[RRDoc.vec 0 0 1], ⟨_, rfl, by simp [List.lookup_cons]⟩, .cons h1 .nil⟩, by simp [RRDoc.robot, RRDoc.unitZ],
    ⟨[RRDoc.vec 0 0 0, RRDoc.vec 0 0 1], ⟨_, rfl, by simp [List.lookup_cons]⟩, .cons h0 (.cons h1 .nil), rfl⟩,
    ⟨[RRDoc.joint "a" (.int (-1))], [⟨0, .fin (-1), .fin 2, .fin 1, .fin 1, "a"⟩], ⟨_, rfl, by simp [List.lookup_cons]⟩, .cons h2 .nil, rfl, rfl, rfl, rfl, rfl, rfl, rfl⟩,
    ⟨RRDoc.pose, _, ⟨_, rfl, by simp [List.lookup_cons]⟩, RRDoc.isPose _, rfl⟩,
    ⟨some "flange", some RRDoc.poseT, .name (.dict [("name", .str "flange")]) _ ⟨_, rfl, by simp [List.lookup_cons]⟩ (.inr ⟨_, rfl, rfl⟩),
      .device (.dict [("tcp", RRDoc.pose), ("device_info", .dict [("device", .dict [("name", .str "gripper")])])]) RRDoc.pose
        (.dict [("device", .dict [("name", .str "gripper")])]) (.dict [("name", .str "gripper")]) _ _ ⟨⟨_, rfl, by simp [List.lookup_cons]⟩, by simp⟩
        ⟨⟨_, rfl, rfl⟩, by simp [RRDoc.pose]⟩ (RRDoc.isPose _) ⟨⟨_, rfl, by simp [List.lookup_cons]⟩, by simp⟩ ⟨_, rfl, rfl⟩ (.inr ⟨_, rfl, rfl⟩), rfl, rfl⟩,
    .pose (.dict [("device_origin_pose", .dict [("pose", RRDoc.pose)])]) (.dict [("pose", RRDoc.pose)]) RRDoc.pose _ ⟨⟨_, rfl, rfl⟩, by simp⟩ ⟨⟨_, rfl, rfl⟩, by simp⟩
      ⟨_, rfl, rfl⟩ (RRDoc.isPose _),
    .name (.str "base_link") [.str "link_1"] _ ⟨_, rfl, by simp [List.lookup_cons]⟩ (.inl rfl), rfl, rfl⟩

/-- joint numbers that decrease -/
example (parse : String → Option XReal) :
    rrLoadRobot parse (RRDoc.doc2 (RRDoc.chain2 (RRDoc.numbers2 2 0) RRDoc.axes2 RRDoc.links2) (.list RRDoc.joints2)) (0 : Nat) = .error .value :=
  (C88_numbers _ _ _ 0 (RRDoc.doc2_chains _ _) rfl).2 _ _ _ (RRDoc.chain2_numbers _ _ _) (RRDoc.doc2_joints _ _) (RRDoc.isNums 2 0) (by norm_num)

/-- one axis too many -/
example (parse : String → Option XReal) :
    rrLoadRobot parse (RRDoc.doc2 (RRDoc.chain2 (RRDoc.numbers2 0 2) RRDoc.links2 RRDoc.links2) (.list RRDoc.joints2)) (0 : Nat) = .error .value :=
  (C88_counts _ _ _ 0 (RRDoc.doc2_chains _ _) rfl _ _ _ (RRDoc.numbersOk _ _)).2.1 _ (RRDoc.chain2_H _ _ _) (by simp)

/-- the second axis is a list -/
example (parse : String → Option XReal) :
    rrLoadRobot parse (RRDoc.doc2 (RRDoc.chain2 (RRDoc.numbers2 0 2) (.list [RRDoc.vec 0 0 1, .list [.int 0, .int 0, .int 1]]) RRDoc.links2) (.list RRDoc.joints2)) (0 : Nat) =
      .error .type :=
  (C88_vectors _ _ _ 0 (RRDoc.doc2_chains _ _) rfl _ _ _ (RRDoc.numbersOk _ _) [RRDoc.vec 0 0 1, .list [.int 0, .int 0, .int 1]]
    [RRDoc.vec 0 0 0, RRDoc.vec 0 0 1, RRDoc.vec 1 0 0] (RRDoc.chain2_H _ _ _) rfl (RRDoc.chain2_P _ _ _) rfl _ _
    (.scalar (by simp))).1 ⟨[RRDoc.vec 0 0 1], [], rfl, fun y hy => by rw [List.mem_singleton.1 hy]; exact ⟨_, RRDoc.isVec parse 0 0 1⟩⟩

/-- the second joint has an unknown type -/
example (parse : String → Option XReal) :
    rrLoadRobot parse (RRDoc.doc2 (RRDoc.chain2 (.list [.int 0, .int 1]) RRDoc.axes2 RRDoc.links2)
      (.list [RRDoc.joint "a" (.int (-1)), .dict [("joint_type", .str "continuous")]])) (0 : Nat) = .error .value :=
  ((C88_joints _ _ _ 0 (RRDoc.doc2_chains _ _) rfl [.int 0, .int 1] [RRDoc.vec 0 0 1, RRDoc.vec 0 0 1]
    [RRDoc.vec 0 0 0, RRDoc.vec 0 0 1, RRDoc.vec 1 0 0] (RRDoc.chain2_numbers _ _ _) _ _ (RRDoc.chain2_H _ _ _)
    (.cons (RRDoc.isVec parse 0 0 1) (.cons (RRDoc.isVec parse 0 0 1) .nil)) rfl (RRDoc.chain2_P _ _ _)
    (.cons (RRDoc.isVec parse 0 0 0) (.cons (RRDoc.isVec parse 0 0 1) (.cons (RRDoc.isVec parse 1 0 0) .nil))) rfl).2
    [RRDoc.joint "a" (.int (-1)), .dict [("joint_type", .str "continuous")]] _
    ⟨RRDoc.chain2_numbers _ _ _, RRDoc.doc2_joints _ _, RRDoc.isNums 0 1, by norm_num, by simp⟩).2 _ _ (.type (.str "continuous") ⟨_, rfl, rfl⟩ (by simp) (by simp))
    ⟨[RRDoc.joint "a" (.int (-1))], [], rfl, fun y hy => by rw [List.mem_singleton.1 hy]; exact ⟨_, _, _, _, _, _, RRDoc.isJoint parse "a" (-1)⟩⟩
