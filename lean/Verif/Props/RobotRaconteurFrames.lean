import Verif.Props.RobotRaconteur

/-! # Property C65: frames and link names of a loaded Robot Raconteur document -/
set_option autoImplicit false

namespace Spec
variable {α : Type}

/-- the mapping `d` has an entry `key: v` that is not null -/
def given (d : Yaml α) (key : String) (v : Yaml α) : Prop := field d key v ∧ v ≠ .null

/-- a mapping with w, x, y, z -/
def IsQuat (parse : String → Option XReal) (d : Yaml XReal) (q : V4 XReal) : Prop :=
  ∃ w x y z, field d "w" w ∧ field d "x" x ∧ field d "y" y ∧ field d "z" z ∧ IsFloat parse w q.w ∧ IsFloat parse x q.x ∧
    IsFloat parse y q.y ∧ IsFloat parse z q.z

/-- a pose: orientation and position, or else rotation and translation -/
def IsPose (parse : String → Option XReal) (d : Yaml XReal) (T : Transform XReal) : Prop :=
  ∃ (o p : Yaml XReal) (q : V4 XReal), ((field d "orientation" o ∧ field d "position" p) ∨
      ((¬ ∃ x, field d "orientation" x) ∧ field d "rotation" o ∧ field d "translation" p)) ∧
    IsQuat parse o q ∧ IsVec parse p T.p ∧ T.R = q2R q ∧ T.parent = none ∧ T.child = none

/-- the first element of a list (or the first letter of a string) -/
def First (l x : Yaml α) : Prop := (∃ tl, l = .list (x :: tl)) ∨ ∃ s c tl, l = .str s ∧ s.toList = c :: tl ∧ x = .str (String.ofList [c])

end Spec

theorem hasKey_iff {α : Type} (d : Yaml α) (k : String) : d.hasKey k = true ↔ ∃ v, Spec.field d k v := by
  unfold Yaml.hasKey Spec.field
  cases d <;> simp [Option.isSome_iff_exists]

theorem get_ok {α : Type} {d v : Yaml α} {k : String} (h : d.get k = .ok v) :
    (v = .null ∧ ¬ ∃ w, Spec.given d k w) ∨ (v.isNone = false ∧ Spec.given d k v) := by
  unfold Yaml.get at h
  cases d <;> simp at h
  rename_i l
  rcases hl : l.lookup k with _ | x
  · rw [hl] at h
    refine Or.inl ⟨h.symm, ?_⟩
    rintro ⟨w, ⟨l', e, h'⟩, -⟩
    cases e
    rw [hl] at h'
    cases h'
  · rw [hl] at h
    simp at h
    subst h
    by_cases hx : x = .null
    · refine Or.inl ⟨hx, ?_⟩
      rintro ⟨w, ⟨l', e, h'⟩, hw⟩
      cases e
      rw [hl] at h'
      cases h'
      exact hw hx
    · exact Or.inr ⟨by cases x <;> simp_all [Yaml.isNone], ⟨l, rfl, hl⟩, hx⟩

theorem rrToQvec_spec {parse : String → Option XReal} {d : Yaml XReal} {q : V4 XReal} (h : rrToQvec parse d = .ok q) : Spec.IsQuat parse d q := by
  obtain ⟨w, h0, h⟩ := Except.bind_eq_ok h
  obtain ⟨x, h1, h⟩ := Except.bind_eq_ok h
  obtain ⟨y, h2, h⟩ := Except.bind_eq_ok h
  obtain ⟨z, h3, h⟩ := Except.bind_eq_ok h
  obtain ⟨w', g0, h⟩ := Except.bind_eq_ok h
  obtain ⟨x', g1, h⟩ := Except.bind_eq_ok h
  obtain ⟨y', g2, h⟩ := Except.bind_eq_ok h
  obtain ⟨z', g3, h⟩ := Except.bind_eq_ok h
  cases h
  rw [item_iff] at h0 h1 h2 h3
  rw [toFloat_iff] at g0 g1 g2 g3
  exact ⟨w, x, y, z, h0, h1, h2, h3, g0, g1, g2, g3⟩

theorem rrToTransform_spec {parse : String → Option XReal} {d : Yaml XReal} {T : Transform XReal} (h : rrToTransform parse d = .ok T) :
    Spec.IsPose parse d T := by
  unfold rrToTransform at h
  split_ifs at h with hk
  all_goals
    obtain ⟨o, h1, h⟩ := Except.bind_eq_ok h
    obtain ⟨q, h2, h⟩ := Except.bind_eq_ok h
    obtain ⟨p, h3, h⟩ := Except.bind_eq_ok h
    obtain ⟨v, h4, h⟩ := Except.bind_eq_ok h
    cases h
    rw [item_iff] at h1 h3
    rw [rrToVec3_iff] at h4
  · exact ⟨o, p, q, Or.inl ⟨h1, h3⟩, rrToQvec_spec h2, h4, rfl, rfl, rfl⟩
  · exact ⟨o, p, q, Or.inr ⟨fun hx => hk ((hasKey_iff _ _).2 hx), h1, h3⟩, rrToQvec_spec h2, h4, rfl, rfl, rfl⟩

/-- C65: in a loaded robot the flange transform, the base transform, the tool, the root link name and the tip link name are those of
the document: the tip is the tool device when the current tool has a tcp and a device, and the flange otherwise; entries that are missing
or null give no transform and no name. -/
theorem C65_frames (parse : String → Option XReal) (doc chain : Yaml XReal) (cs : List (Yaml XReal)) (c : Nat)
    (hcs : Spec.field doc "chains" (.list cs)) (hc : cs[c]? = some chain) (r : Robot XReal) (h : rrLoadRobot parse doc c = .ok r) :
    -- flange
    (∃ d T, Spec.field chain "flange_pose" d ∧ Spec.IsPose parse d T ∧ r.Tflange = some T) ∧
    -- base
    ((∃ info o d T, Spec.given doc "device_info" info ∧ Spec.given info "device_origin_pose" o ∧ Spec.field o "pose" d ∧
        Spec.IsPose parse d T ∧ r.Tbase = some T) ∨
      (¬ ∃ info o, Spec.given doc "device_info" info ∧ Spec.given info "device_origin_pose" o) ∧ r.Tbase = none) ∧
    -- tool
    ((∃ tool tcp T, Spec.given chain "current_tool" tool ∧ Spec.given tool "tcp" tcp ∧ Spec.IsPose parse tcp T ∧ r.Rtool = some T.R ∧
        r.ptool = some T.p) ∨
      (¬ ∃ tool tcp, Spec.given chain "current_tool" tool ∧ Spec.given tool "tcp" tcp) ∧ r.Rtool = none ∧ r.ptool = none) ∧
    -- tip link
    ((∃ tool tcp info dev s, Spec.given chain "current_tool" tool ∧ Spec.given tool "tcp" tcp ∧ Spec.given tool "device_info" info ∧
        Spec.field info "device" dev ∧ Spec.IsName dev s ∧ r.tipLink = some s) ∨
      (¬ ∃ tool tcp info, Spec.given chain "current_tool" tool ∧ Spec.given tool "tcp" tcp ∧ Spec.given tool "device_info" info) ∧
        ((∃ id s, Spec.given chain "flange_identifier" id ∧ Spec.IsName id s ∧ r.tipLink = some s) ∨
          Spec.field chain "flange_identifier" .null ∧ r.tipLink = none)) ∧
    -- root link
    ((∃ ids x s, Spec.field chain "link_identifiers" ids ∧ Spec.First ids x ∧ x ≠ .null ∧ Spec.IsName x s ∧ r.rootLink = some s) ∨
      (¬ ∃ ids x, Spec.field chain "link_identifiers" ids ∧ Spec.First ids x ∧ x ≠ .null) ∧ r.rootLink = none) := by
  obtain ⟨A⟩ := rrLoad_accepted parse doc c r h
  have fu : ∀ {d v w : Yaml XReal} {k : String}, Spec.field d k v → Spec.field d k w → v = w := by
    rintro d v w k ⟨l, rfl, h1⟩ ⟨l', h2, h3⟩
    cases h2; rw [h1] at h3; cases h3; rfl
  have e1 := fu hcs A.chains
  have e1 : cs = A.cs := by cases e1; rfl
  have e2 := A.chain_eq
  rw [← e1, if_pos (by omega), Int.toNat_natCast, hc] at e2
  have e2 : chain = A.chain := by simpa using e2
  obtain ⟨tool, root, tip, tip', flange, base, fid, fp, h1, h2, h3, h4, h5, h6, h7, r1, r2, r3, r4, r5, r6⟩ := A.frames
  rw [← e2] at h1 h2 h4 h6
  clear hcs hc e1 e2
  have gu : ∀ {d v w : Yaml XReal} {k : String}, Spec.given d k v → Spec.given d k w → v = w := fun a b => fu a.1 b.1
  refine ⟨⟨fp, flange, h4, rrToTransform_spec h5, r3⟩, ?_, ?_, ?_, ?_⟩
  · -- base
    rw [r4]
    unfold rrBase at h7
    obtain ⟨info, g1, h7⟩ := Except.bind_eq_ok h7
    rcases get_ok g1 with ⟨rfl, k1⟩ | ⟨n1, g1⟩
    · cases h7
      exact Or.inr ⟨fun ⟨i, o, hi, _⟩ => k1 ⟨i, hi⟩, rfl⟩
    · rw [if_neg (by simp [n1])] at h7
      obtain ⟨o, g2, h7⟩ := Except.bind_eq_ok h7
      rcases get_ok g2 with ⟨rfl, k2⟩ | ⟨n2, g2⟩
      · cases h7
        refine Or.inr ⟨fun ⟨i, o, hi, ho⟩ => ?_, rfl⟩
        rw [← gu g1 hi] at ho
        exact k2 ⟨o, ho⟩
      · rw [if_neg (by simp [n2])] at h7
        obtain ⟨d, g3, h7⟩ := Except.bind_eq_ok h7
        obtain ⟨T, g4, h7⟩ := Except.bind_eq_ok h7
        cases h7
        exact Or.inl ⟨info, o, d, T, g1, g2, (item_iff _ _ _).1 g3, rrToTransform_spec g4, rfl⟩
  · -- tool
    rw [r5, r6]
    unfold rrCurrentTool at h6
    obtain ⟨tl, g1, h6⟩ := Except.bind_eq_ok h6
    rcases get_ok g1 with ⟨rfl, k1⟩ | ⟨n1, g1⟩
    · cases h6
      exact Or.inr ⟨fun ⟨i, o, hi, _⟩ => k1 ⟨i, hi⟩, rfl, rfl⟩
    · rw [if_neg (by simp [n1])] at h6
      obtain ⟨tcp, g2, h6⟩ := Except.bind_eq_ok h6
      rcases get_ok g2 with ⟨rfl, k2⟩ | ⟨n2, g2⟩
      · cases h6
        refine Or.inr ⟨fun ⟨i, o, hi, ho⟩ => ?_, rfl, rfl⟩
        rw [← gu g1 hi] at ho
        exact k2 ⟨o, ho⟩
      · rw [if_neg (by simp [n2])] at h6
        obtain ⟨T, g3, h6⟩ := Except.bind_eq_ok h6
        obtain ⟨info, g4, h6⟩ := Except.bind_eq_ok h6
        have : tool = some T := by
          split_ifs at h6
          · cases h6; rfl
          · obtain ⟨d, -, h6⟩ := Except.bind_eq_ok h6
            obtain ⟨d, -, h6⟩ := Except.bind_eq_ok h6
            cases h6; rfl
        subst this
        exact Or.inl ⟨tl, tcp, T, g1, g2, rrToTransform_spec g3, rfl, rfl⟩
  · -- tip
    rw [r2]
    have ftip : (∃ id s, Spec.given chain "flange_identifier" id ∧ Spec.IsName id s ∧ tip = some s) ∨
        Spec.field chain "flange_identifier" .null ∧ tip = none := by
      unfold rrTip at h3
      split_ifs at h3 with hn
      · rw [isNone_iff] at hn
        subst hn
        cases h3
        exact Or.inr ⟨h2, rfl⟩
      · rw [isNone_iff] at hn
        rcases hs : rrIdentifierName fid with e | s
        · rw [hs] at h3; cases h3
        · rw [hs] at h3
          cases h3
          exact Or.inl ⟨fid, s, ⟨h2, hn⟩, rrIdentifierName_spec _ _ hs, rfl⟩
    unfold rrCurrentTool at h6
    obtain ⟨tl, g1, h6⟩ := Except.bind_eq_ok h6
    rcases get_ok g1 with ⟨rfl, k1⟩ | ⟨n1, g1⟩
    · cases h6
      exact Or.inr ⟨fun ⟨i, _, _, hi, _⟩ => k1 ⟨i, hi⟩, ftip⟩
    · rw [if_neg (by simp [n1])] at h6
      obtain ⟨tcp, g2, h6⟩ := Except.bind_eq_ok h6
      rcases get_ok g2 with ⟨rfl, k2⟩ | ⟨n2, g2⟩
      · cases h6
        refine Or.inr ⟨fun ⟨i, o, _, hi, ho, _⟩ => ?_, ftip⟩
        rw [← gu g1 hi] at ho
        exact k2 ⟨o, ho⟩
      · rw [if_neg (by simp [n2])] at h6
        obtain ⟨T, g3, h6⟩ := Except.bind_eq_ok h6
        obtain ⟨info, g4, h6⟩ := Except.bind_eq_ok h6
        rcases get_ok g4 with ⟨rfl, k4⟩ | ⟨n4, g4⟩
        · cases h6
          refine Or.inr ⟨fun ⟨i, _, o, hi, _, ho⟩ => ?_, ftip⟩
          rw [← gu g1 hi] at ho
          exact k4 ⟨o, ho⟩
        · rw [if_neg (by simp [n4])] at h6
          obtain ⟨dev, g5, h6⟩ := Except.bind_eq_ok h6
          obtain ⟨s, g6, h6⟩ := Except.bind_eq_ok h6
          cases h6
          exact Or.inl ⟨tl, tcp, info, dev, s, g1, g2, g4, (item_iff _ _ _).1 g5, rrIdentifierName_spec _ _ g6, rfl⟩
  · -- root
    rw [r1]
    unfold rrRootLink at h1
    split_ifs at h1 with hk
    · obtain ⟨ids, g1, h1⟩ := Except.bind_eq_ok h1
      rw [item_iff] at g1
      obtain ⟨n, g2, h1⟩ := Except.bind_eq_ok h1
      have first : ∀ x, ids.index 0 = .ok x → Spec.First ids x := by
        intro x hx
        unfold Yaml.index Yaml.pyIdx at hx
        cases ids with
        | list l =>
          rcases l with _ | ⟨a, l⟩
          · simp at hx
          · simp at hx
            subst hx
            exact Or.inl ⟨l, rfl⟩
        | str s =>
          simp only at hx
          rcases hs : s.toList with _ | ⟨a, l⟩
          · simp [hs] at hx
          · simp [hs] at hx
            subst hx
            exact Or.inr ⟨s, a, l, rfl, hs, rfl⟩
        | _ => simp at hx
      have uniq : ∀ x y, Spec.First ids x → Spec.First ids y → x = y := by
        rintro x y (⟨l, rfl⟩ | ⟨s, a, l, rfl, h1, rfl⟩) (⟨l', h'⟩ | ⟨s', a', l', h', h2, rfl⟩)
        · cases h'; rfl
        · cases h'
        · cases h'
        · cases h'
          rw [h1] at h2
          cases h2
          rfl
      split_ifs at h1 with hp
      · obtain ⟨x, g3, h1⟩ := Except.bind_eq_ok h1
        have hf := first x g3
        split_ifs at h1 with hn
        · cases h1
          rw [isNone_iff] at hn
          refine Or.inr ⟨fun ⟨i, y, hi, hy, hy'⟩ => ?_, rfl⟩
          rw [← fu g1 hi] at hy
          exact hy' ((uniq y x hy hf).trans hn)
        · obtain ⟨s, g4, h1⟩ := Except.bind_eq_ok h1
          cases h1
          rw [isNone_iff] at hn
          exact Or.inl ⟨ids, x, s, g1, hf, hn, rrIdentifierName_spec _ _ g4, rfl⟩
      · cases h1
        refine Or.inr ⟨fun ⟨i, y, hi, hy, _⟩ => ?_, rfl⟩
        rw [← fu g1 hi] at hy
        rcases hy with ⟨l, rfl⟩ | ⟨s, a, l, rfl, h1, -⟩
        · cases g2
          simp at hp
        · cases g2
          rw [h1] at hp
          simp at hp
    · cases h1
      exact Or.inr ⟨fun ⟨i, y, hi, _⟩ => hk ((hasKey_iff _ _).2 ⟨i, hi⟩), rfl⟩

/-! Non-vacuity of C65: a document with all the entries, and one with none of the optional ones. -/

namespace RRDoc

/-- a chain with one joint, link names and a tool -/
def chainFull : Yaml XReal :=
  .dict [("joint_numbers", .list [.int 0]), ("H", .list [vec 0 0 1]), ("P", .list [vec 0 0 0, vec 0 0 1]),
    ("link_identifiers", .list [.str "base_link", .str "link_1"]), ("flange_identifier", .dict [("name", .str "flange")]),
    ("flange_pose", pose),
    ("current_tool", .dict [("tcp", pose), ("device_info", .dict [("device", .dict [("name", .str "gripper")])])])]

def docFull : Yaml XReal :=
  .dict [("device_info", .dict [("device_origin_pose", .dict [("pose", pose)])]), ("chains", .list [chainFull]),
    ("joint_info", .list [joint "a" (.int (-1))])]

/-- the identity, as the quaternion of `pose` gives it -/
noncomputable def poseT : Transform XReal := ⟨q2R ⟨.fin 1, .fin 0, .fin 0, .fin 0⟩, ⟨.fin 0, .fin 0, .fin 0⟩, none, none⟩

theorem loadFull (parse : String → Option XReal) : rrLoadRobot parse docFull 0 = .ok
    { robot "a" (.fin (-1)) with rootLink := some "base_link", tipLink := some "gripper", Tbase := some poseT, Rtool := some poseT.R,
                                 ptool := some poseT.p } := by
  have hn : iscloseD (V3.norm (⟨.fin 0, .fin 0, .fin 1⟩ : V3 XReal)) (.fin 1) := by
    have : V3.norm (⟨.fin 0, .fin 0, .fin 1⟩ : V3 XReal) = .fin 1 := by
      have := V3.up_norm (⟨0, 0, 1⟩ : V3 ℝ)
      simpa [V3.norm, V3.up, V3.map] using this
    rw [this]
    left; simp
  have hl : (Yaml.int (-1) : Yaml XReal).toFloat parse = .ok (.fin (-1)) := by simp [Yaml.toFloat]
  have e1 : docFull.item "chains" = .ok (.list [chainFull]) := by simp [docFull, Yaml.item, List.lookup_cons]
  have e2 : docFull.item "joint_info" = .ok (.list [joint "a" (.int (-1))]) := by simp [docFull, Yaml.item, List.lookup_cons]
  have e3 : (Yaml.list [chainFull]).index 0 = .ok chainFull := by simp [Yaml.index, Yaml.pyIdx]
  have e4 : chainFull.item "joint_numbers" = .ok (.list [.int 0]) := by simp [chainFull, Yaml.item, List.lookup_cons]
  have e5 : chainFull.item "H" = .ok (.list [vec 0 0 1]) := by simp [chainFull, Yaml.item, List.lookup_cons]
  have e6 : chainFull.item "P" = .ok (.list [vec 0 0 0, vec 0 0 1]) := by simp [chainFull, Yaml.item, List.lookup_cons]
  have e7 : chainFull.item "flange_identifier" = .ok (.dict [("name", .str "flange")]) := by simp [chainFull, Yaml.item, List.lookup_cons]
  have e8 : chainFull.item "flange_pose" = .ok pose := by simp [chainFull, Yaml.item, List.lookup_cons]
  have e9 : rrRootLink chainFull = .ok (some "base_link") := by
    simp [rrRootLink, chainFull, Yaml.hasKey, Yaml.item, List.lookup_cons, Yaml.len, Yaml.index, Yaml.pyIdx, Yaml.isNone, rrIdentifierName]
  have e10 : rrCurrentTool parse chainFull (some "flange") = .ok (some poseT, some "gripper") := by
    simp [rrCurrentTool, chainFull, Yaml.get, Yaml.item, List.lookup_cons, Yaml.isNone, rrIdentifierName, toPose, poseT]
    simp [pose]
  have e11 : rrBase parse docFull = .ok (some poseT) := by
    simp [rrBase, docFull, Yaml.get, Yaml.item, List.lookup_cons, Yaml.isNone, toPose, poseT]
  have e12 : rrTip (Yaml.dict [("name", .str "flange")] : Yaml XReal) = .ok (some "flange") := by
    simp [rrTip, Yaml.isNone, rrIdentifierName, Yaml.item, Except.map]
  have e13 : rrCheckNumbers docFull (.list [.int 0]) 1 = .ok () := rfl
  have i0 : ∀ (a : Yaml XReal) (l : List (Yaml XReal)), (Yaml.list (a :: l)).index ((0 : Nat) : Int) = .ok a := fun a l => by
    rw [index_list]; rfl
  have i1 : ∀ (a b : Yaml XReal) (l : List (Yaml XReal)), (Yaml.list (a :: b :: l)).index ((1 : Nat) : Int) = .ok b := fun a b l => by
    rw [index_list]; rfl
  have r1 : List.range 1 = [0] := rfl
  have r2 : List.range (1 + 1) = [0, 1] := rfl
  have l1 : ∀ l : List (Yaml XReal), (Yaml.list l).len = .ok l.length := fun _ => rfl
  have k0 : rrCheckList (Yaml.list [chainFull]) = .ok () := rfl
  have k1 : rrCheckList (Yaml.list [vec 0 0 1]) (some 1) = .ok () := rfl
  have k2 : rrCheckList (Yaml.list [vec 0 0 0, vec 0 0 1]) (some (1 + 1)) = .ok () := rfl
  have hcc : ¬ ((1 : Nat) : Int) ≤ 0 := by omega
  unfold rrLoadRobot
  simp only [e1, Except.bind_ok, k0, l1, List.length_singleton, if_neg hcc, e3, e4, e13, e5, k1, e6, k2, r1, r2, mapM_cons', mapM_nil', i0, i1,
    toVec3, e2, toJoint parse "a" _ _ hl, e9, e7, e12, e8, toPose, e10, e11]
  simp [Robot.init, pyAssert, hn, lenOk, robot]

end RRDoc

example (parse : String → Option XReal) : ∃ r cs chain, Spec.field RRDoc.docFull "chains" (.list cs) ∧ cs[0]? = some chain ∧
    rrLoadRobot parse RRDoc.docFull 0 = .ok r ∧ r.rootLink = some "base_link" ∧ r.tipLink = some "gripper" ∧ r.Tbase.isSome ∧ r.Rtool.isSome :=
  ⟨_, [RRDoc.chainFull], RRDoc.chainFull, (item_iff _ _ _).1 (by simp [RRDoc.docFull, Yaml.item, List.lookup_cons]), rfl,
    RRDoc.loadFull parse, rfl, rfl, rfl, rfl⟩

example (parse : String → Option XReal) : ∃ r, rrLoadRobot parse (RRDoc.doc (.int 0) [RRDoc.joint "a" (.int (-1))]) 0 = .ok r ∧
    (∃ T, r.Tflange = some T) ∧ r.Rtool = none ∧ r.rootLink = none := by
  refine ⟨_, RRDoc.load parse (.int 0) "a" (.int (-1)) (.fin (-1)) (by simp [Yaml.toFloat]) [] 0 (Or.inl rfl), ⟨_, rfl⟩, rfl, rfl⟩
