import Verif.Model.RobotRaconteur
import Verif.Lemmas.ListM
import Verif.Props.Kinematics
import Verif.Props.TransformProps

/-!
# Properties C45-C47: the Robot Raconteur loader
-/
set_option autoImplicit false

/-! ## specification: what a document says -/

namespace Spec
variable {α : Type}

/-- the mapping `d` has the entry `key: v` -/
def field (d : Yaml α) (key : String) (v : Yaml α) : Prop := ∃ l, d = .dict l ∧ l.lookup key = some v

/-- the number that a scalar of the document stands for; `null` stands for NaN -/
inductive IsFloat (parse : String → Option XReal) : Yaml XReal → XReal → Prop
  | num (x : XReal) : IsFloat parse (.num x) x
  | int (n : Int) : IsFloat parse (.int n) (.fin n)
  | bool (b : Bool) : IsFloat parse (.bool b) (.fin (if b then 1 else 0))
  | null : IsFloat parse .null .nan
  | str (s : String) (x : XReal) (h : parse s = some x) : IsFloat parse (.str s) x

/-- a mapping with x, y, z -/
def IsVec (parse : String → Option XReal) (d : Yaml XReal) (v : V3 XReal) : Prop :=
  ∃ a b c, field d "x" a ∧ field d "y" b ∧ field d "z" c ∧ IsFloat parse a v.x ∧ IsFloat parse b v.y ∧ IsFloat parse c v.z

/-- a name is a string or a mapping with a `name` -/
def IsName (d : Yaml XReal) (s : String) : Prop := d = .str s ∨ field d "name" (.str s)

/-- what an entry of `joint_info` says about its joint -/
structure JointData (parse : String → Option XReal) (j : Yaml XReal) (ty : Nat) (lower upper vel acc : XReal) (name : String) :
    Prop where
  type : (field j "joint_type" (.str "revolute") ∧ ty = 0) ∨ (field j "joint_type" (.str "prismatic") ∧ ty = 1)
  limits : ∃ lim a b c d, field j "joint_limits" lim ∧ field lim "lower" a ∧ field lim "upper" b ∧ field lim "velocity" c ∧
    field lim "acceleration" d ∧ IsFloat parse a lower ∧ IsFloat parse b upper ∧ IsFloat parse c vel ∧ IsFloat parse d acc
  name : (field j "joint_identifier" .null ∧ name = "") ∨ ∃ i, field j "joint_identifier" i ∧ IsName i name

end Spec

/-! ## the helpers meet the specification -/

section
variable {α : Type}

theorem item_iff (d : Yaml α) (k : String) (v : Yaml α) : d.item k = .ok v ↔ Spec.field d k v := by
  unfold Yaml.item Spec.field
  cases d <;> simp
  rename_i l
  rcases h : l.lookup k with _ | x <;> simp

theorem isNone_iff (d : Yaml α) : d.isNone = true ↔ d = .null := by cases d <;> simp [Yaml.isNone]

theorem eqStr_iff (d : Yaml α) (s : String) : d.eqStr s = true ↔ d = .str s := by cases d <;> simp [Yaml.eqStr]

theorem index_list (l : List (Yaml α)) (i : Nat) : (Yaml.list l).index i = match l[i]? with | some v => .ok v | none => .error .index := by
  unfold Yaml.index Yaml.pyIdx
  simp only [Int.natCast_nonneg, if_true, Nat.cast_lt, Int.toNat_natCast]
  by_cases h : i < l.length
  · simp [h]
  · simp [h, List.getElem?_eq_none (not_lt.1 h)]

end

theorem toFloat_iff (parse : String → Option XReal) (d : Yaml XReal) (x : XReal) : d.toFloat parse = .ok x ↔ Spec.IsFloat parse d x := by
  have h0 : (0 / 0 : XReal) = .nan := XReal.zero_div_zero
  have intFin : ∀ n : Int, (lit (n : Rat) : XReal) = .fin n := fun n => by rw [XReal.lit_fin]; simp
  constructor
  · intro h
    cases d with
    | null => rw [Yaml.toFloat, h0] at h; cases h; exact .null
    | bool b => cases b <;> (cases h; exact .bool _)
    | int n =>
      cases h
      exact intFin n ▸ .int n
    | num y => cases h; exact .num _
    | str s =>
      unfold Yaml.toFloat at h
      rcases hp : parse s with _ | y
      · simp [hp] at h
      · simp only [hp] at h; cases h; exact .str _ _ hp
    | list l => cases h
    | dict l => cases h
  · intro h
    cases h with
    | num => rfl
    | int n => rw [Yaml.toFloat, intFin]
    | bool b => cases b <;> rfl
    | null => rw [Yaml.toFloat, h0]
    | str s x h => simp [Yaml.toFloat, h]

theorem rrToVec3_iff (parse : String → Option XReal) (d : Yaml XReal) (v : V3 XReal) : rrToVec3 parse d = .ok v ↔ Spec.IsVec parse d v := by
  constructor
  · intro h
    obtain ⟨a, ha, h⟩ := Except.bind_eq_ok h
    obtain ⟨b, hb, h⟩ := Except.bind_eq_ok h
    obtain ⟨c, hc, h⟩ := Except.bind_eq_ok h
    obtain ⟨x, hx, h⟩ := Except.bind_eq_ok h
    obtain ⟨y, hy, h⟩ := Except.bind_eq_ok h
    obtain ⟨z, hz, h⟩ := Except.bind_eq_ok h
    cases h
    exact ⟨a, b, c, (item_iff _ _ _).1 ha, (item_iff _ _ _).1 hb, (item_iff _ _ _).1 hc, (toFloat_iff _ _ _).1 hx,
      (toFloat_iff _ _ _).1 hy, (toFloat_iff _ _ _).1 hz⟩
  · rintro ⟨a, b, c, ha, hb, hc, hx, hy, hz⟩
    rw [← item_iff] at ha hb hc
    rw [← toFloat_iff] at hx hy hz
    simp [rrToVec3, ha, hb, hc, hx, hy, hz]

theorem rrIdentifierName_spec (d : Yaml XReal) (s : String) (h : rrIdentifierName d = .ok s) : Spec.IsName d s := by
  unfold rrIdentifierName at h
  split at h
  · cases h; exact Or.inl rfl
  · obtain ⟨n, hn, h⟩ := Except.bind_eq_ok h
    split at h
    · cases h; exact Or.inr ((item_iff _ _ _).1 hn)
    · cases h

theorem rrJoint_spec (parse : String → Option XReal) (j : Yaml XReal) (r : RRJoint XReal) (h : rrJoint parse j = .ok r) :
    Spec.JointData parse j r.ty r.lower r.upper r.vel r.acc r.name := by
  obtain ⟨t, ht, h⟩ := Except.bind_eq_ok h
  obtain ⟨ty, hty, h⟩ := Except.bind_eq_ok h
  obtain ⟨lim, hlim, h⟩ := Except.bind_eq_ok h
  split_ifs at h with hn
  obtain ⟨a, ha, h⟩ := Except.bind_eq_ok h
  obtain ⟨lo, hlo, h⟩ := Except.bind_eq_ok h
  obtain ⟨b, hb, h⟩ := Except.bind_eq_ok h
  obtain ⟨up, hup, h⟩ := Except.bind_eq_ok h
  obtain ⟨c, hc, h⟩ := Except.bind_eq_ok h
  obtain ⟨vel, hvel, h⟩ := Except.bind_eq_ok h
  obtain ⟨d, hd, h⟩ := Except.bind_eq_ok h
  obtain ⟨acc, hacc, h⟩ := Except.bind_eq_ok h
  obtain ⟨i, hi, h⟩ := Except.bind_eq_ok h
  obtain ⟨name, hname, h⟩ := Except.bind_eq_ok h
  cases h
  rw [item_iff] at ht hlim ha hb hc hd hi
  rw [toFloat_iff] at hlo hup hvel hacc
  refine ⟨?_, ⟨lim, a, b, c, d, hlim, ha, hb, hc, hd, hlo, hup, hvel, hacc⟩, ?_⟩
  · unfold rrType at hty; split_ifs at hty with h1 h2
    · cases hty; rw [eqStr_iff] at h1; subst h1; exact Or.inl ⟨ht, rfl⟩
    · cases hty; rw [eqStr_iff] at h2; subst h2; exact Or.inr ⟨ht, rfl⟩
  · unfold rrName at hname; split_ifs at hname with h1
    · cases hname; rw [isNone_iff] at h1; subst h1; exact Or.inl ⟨hi, rfl⟩
    · exact Or.inr ⟨i, hi, rrIdentifierName_spec _ _ hname⟩

/-- The constructor stores what it is given and checks the sizes. -/
theorem init_ok {α : Type} [Add α] [Sub α] [Mul α] [Div α] [Neg α] [Zero α] [One α] [LT α] [LE α]
    [DecidableLT α] [DecidableLE α] [Elem α] {H P : List (V3 α)} {jt : List Nat} {lo up vel acc : List α}
    {Rt : Option (M3 α)} {pt : Option (V3 α)} {names : List String} {root tip : Option String} {Tf Tb : Option (Transform α)}
    {r : Robot α} (h : Robot.init H P jt (some lo) (some up) (some vel) (some acc) none Rt pt (some names) root tip Tf Tb = .ok r) :
    (r.H = H ∧ r.P = P ∧ r.jointType = jt ∧ r.lower = some lo ∧ r.upper = some up ∧ r.vel = some vel ∧ r.acc = some acc ∧
      r.jointNames = some names ∧ r.rootLink = root ∧ r.tipLink = tip ∧ r.Tflange = Tf ∧ r.Tbase = Tb) ∧
    H.length + 1 = P.length ∧ H.length = jt.length ∧ lo.length = jt.length ∧ up.length = jt.length ∧ vel.length = jt.length ∧
    acc.length = jt.length ∧ names.length = jt.length ∧ ∀ h ∈ H, iscloseD h.norm 1 := by
  have ab : ∀ {β : Type} (b : Bool) (f : Unit → Except PyErr β) (r : β), (pyAssert b >>= f) = .ok r → b = true ∧ f () = .ok r := by
    intro β b f r h; cases b <;> simp_all [pyAssert]
  unfold Robot.init at h
  obtain ⟨h1, h⟩ := ab _ _ _ h
  obtain ⟨h2, h⟩ := ab _ _ _ h
  obtain ⟨h3, h⟩ := ab _ _ _ h
  simp only at h
  obtain ⟨h5, h⟩ := ab _ _ _ h
  obtain ⟨h6, h⟩ := ab _ _ _ h
  obtain ⟨h7, h⟩ := ab _ _ _ h
  obtain ⟨h8, h⟩ := ab _ _ _ h
  obtain ⟨h9, h⟩ := ab _ _ _ h
  obtain ⟨h10, h⟩ := ab _ _ _ h
  cases h
  simp [lenOk] at h3 h5 h6 h7 h8 h10 h1
  exact ⟨⟨rfl, rfl, rfl, rfl, rfl, rfl, rfl, rfl, rfl, rfl, rfl, rfl⟩, h3.1, h3.2, h5, h6, h7, h8, h10, h1⟩

theorem init_tool {α : Type} [Add α] [Sub α] [Mul α] [Div α] [Neg α] [Zero α] [One α] [LT α] [LE α]
    [DecidableLT α] [DecidableLE α] [Elem α] {H P : List (V3 α)} {jt : List Nat} {lo up vel acc : List α}
    {tool : Option (Transform α)} {names : List String} {root tip : Option String} {Tf Tb : Option (Transform α)}
    {r : Robot α} (h : Robot.init H P jt (some lo) (some up) (some vel) (some acc) none (tool.map Transform.R) (tool.map Transform.p)
      (some names) root tip Tf Tb = .ok r) : r.Rtool = tool.map Transform.R ∧ r.ptool = tool.map Transform.p := by
  have ab : ∀ {β : Type} (b : Bool) (f : Unit → Except PyErr β) (r : β), (pyAssert b >>= f) = .ok r → b = true ∧ f () = .ok r := by
    intro β b f r h; cases b <;> simp_all [pyAssert]
  unfold Robot.init at h
  obtain ⟨-, h⟩ := ab _ _ _ h
  obtain ⟨-, h⟩ := ab _ _ _ h
  obtain ⟨-, h⟩ := ab _ _ _ h
  simp only at h
  obtain ⟨-, h⟩ := ab _ _ _ h
  obtain ⟨-, h⟩ := ab _ _ _ h
  obtain ⟨-, h⟩ := ab _ _ _ h
  obtain ⟨-, h⟩ := ab _ _ _ h
  obtain ⟨-, h⟩ := ab _ _ _ h
  obtain ⟨-, h⟩ := ab _ _ _ h
  cases h
  cases tool <;> exact ⟨rfl, rfl⟩

/-- What an accepted document looks like. -/
structure RRAccepted (parse : String → Option XReal) (doc : Yaml XReal) (c : Int) (r : Robot XReal) where
  cs : List (Yaml XReal)
  chains : Spec.field doc "chains" (.list cs)
  chain : Yaml XReal
  bound : c < cs.length
  lower : -(cs.length : Int) ≤ c
  chain_eq : cs[(if 0 ≤ c then c else c + cs.length).toNat]? = some chain
  numbers : Yaml XReal
  numbers_eq : Spec.field chain "joint_numbers" numbers
  n : Nat
  n_eq : numbers.len = .ok n
  check : rrCheckNumbers doc numbers n = .ok ()
  cH : Yaml XReal
  cH_eq : Spec.field chain "H" cH
  cH_len : cH.len = .ok n
  cP : Yaml XReal
  cP_eq : Spec.field chain "P" cP
  cP_len : cP.len = .ok (n + 1)
  H : List (V3 XReal)
  H_eq : List.Forall₂ (fun (i : Nat) v => ∃ d, cH.index i = .ok d ∧ Spec.IsVec parse d v) (List.range n) H
  P : List (V3 XReal)
  P_eq : List.Forall₂ (fun (i : Nat) v => ∃ d, cP.index i = .ok d ∧ Spec.IsVec parse d v) (List.range (n + 1)) P
  js : List (RRJoint XReal)
  js_eq : List.Forall₂ (fun (i : Nat) (x : RRJoint XReal) => ∃ info j, Spec.field doc "joint_info" info ∧ info.index i = .ok j ∧
    Spec.JointData parse j x.ty x.lower x.upper x.vel x.acc x.name) (List.range n) js
  init : ∃ tool root tip flange base, Robot.init H P (js.map RRJoint.ty) (some (js.map RRJoint.lower)) (some (js.map RRJoint.upper)) (some (js.map RRJoint.vel))
      (some (js.map RRJoint.acc)) none (Option.map Transform.R tool) (Option.map Transform.p tool) (some (js.map RRJoint.name)) root tip
      (some flange) base = .ok r
  frames : ∃ tool root tip tip' flange base fid fp, rrRootLink chain = .ok root ∧ Spec.field chain "flange_identifier" fid ∧ rrTip fid = .ok tip ∧
    Spec.field chain "flange_pose" fp ∧ rrToTransform parse fp = .ok flange ∧ rrCurrentTool parse chain tip = .ok (tool, tip') ∧
    rrBase parse doc = .ok base ∧ r.rootLink = root ∧ r.tipLink = tip' ∧ r.Tflange = some flange ∧ r.Tbase = base ∧
    r.Rtool = tool.map Transform.R ∧ r.ptool = tool.map Transform.p

theorem rrLoad_accepted (parse : String → Option XReal) (doc : Yaml XReal) (c : Int) (r : Robot XReal)
    (h : rrLoadRobot parse doc c = .ok r) : Nonempty (RRAccepted parse doc c r) := by
  obtain ⟨chains, h1, h⟩ := Except.bind_eq_ok h
  obtain ⟨_, h2, h⟩ := Except.bind_eq_ok h
  obtain ⟨len, h3, h⟩ := Except.bind_eq_ok h
  split_ifs at h with hc
  obtain ⟨chain, h4, h⟩ := Except.bind_eq_ok h
  obtain ⟨numbers, h5, h⟩ := Except.bind_eq_ok h
  obtain ⟨n, h6, h⟩ := Except.bind_eq_ok h
  obtain ⟨_, h7, h⟩ := Except.bind_eq_ok h
  obtain ⟨cH, h8, h⟩ := Except.bind_eq_ok h
  obtain ⟨_, h9, h⟩ := Except.bind_eq_ok h
  obtain ⟨cP, h10, h⟩ := Except.bind_eq_ok h
  obtain ⟨_, h11, h⟩ := Except.bind_eq_ok h
  obtain ⟨H, h12, h⟩ := Except.bind_eq_ok h
  obtain ⟨P, h13, h⟩ := Except.bind_eq_ok h
  obtain ⟨js, h14, h⟩ := Except.bind_eq_ok h
  obtain ⟨root, h15, h⟩ := Except.bind_eq_ok h
  obtain ⟨fid, h16, h⟩ := Except.bind_eq_ok h
  obtain ⟨tip, h17, h⟩ := Except.bind_eq_ok h
  obtain ⟨fp, h18, h⟩ := Except.bind_eq_ok h
  obtain ⟨flange, h19, h⟩ := Except.bind_eq_ok h
  obtain ⟨⟨tool, tip'⟩, h20, h⟩ := Except.bind_eq_ok h
  obtain ⟨base, h21, hfin⟩ := Except.bind_eq_ok h
  rw [item_iff] at h1 h5 h8 h10
  have hcl : ∀ (d : Yaml XReal) (m : Nat), rrCheckList d (some m) = .ok () → d.len = .ok m := by
    intro d m hd
    unfold rrCheckList at hd
    split_ifs at hd
    obtain ⟨k, hk, hd⟩ := Except.bind_eq_ok hd
    split_ifs at hd with hkm
    rw [hk, not_not.1 hkm]
  obtain ⟨cs, rfl⟩ : ∃ cs, chains = .list cs := by
    obtain ⟨l, rfl, -⟩ := h5
    unfold Yaml.index at h4
    split at h4
    · exact ⟨_, rfl⟩
    · exfalso; split at h4 <;> (try split at h4) <;> cases h4
    · cases h4
    · cases h4
  cases h3
  have hidx : cs[(if 0 ≤ c then c else c + cs.length).toNat]? = some chain ∧ -(cs.length : Int) ≤ c := by
    unfold Yaml.index Yaml.pyIdx at h4
    simp only at h4
    split_ifs at h4 with g1 g2 g2
    · simp only at h4
      rw [if_pos g1]
      split at h4
      · rename_i x hx; cases h4; exact ⟨hx, by omega⟩
      · cases h4
    · simp only at h4
      rw [if_neg g1]
      split at h4
      · rename_i x hx; cases h4; exact ⟨hx, by omega⟩
      · cases h4
  have vec : ∀ (d : Yaml XReal) (m : Nat) (l : List (V3 XReal)),
      ((List.range m).mapM fun (i : Nat) => do rrToVec3 parse (← d.index i)) = .ok l →
      List.Forall₂ (fun (i : Nat) v => ∃ x, d.index i = .ok x ∧ Spec.IsVec parse x v) (List.range m) l := by
    intro d m l hl
    refine (forall₂_of_mapM hl).imp fun i v hv => ?_
    obtain ⟨x, hx, hv⟩ := Except.bind_eq_ok hv
    exact ⟨x, hx, (rrToVec3_iff _ _ _).1 hv⟩
  refine ⟨⟨cs, h1, chain, by omega, hidx.2, hidx.1, numbers, h5, n, h6, h7, cH, h8, hcl _ _ h9, cP, h10, hcl _ _ h11, H, vec _ _ _ h12, P,
    vec _ _ _ h13, js, ?_, ⟨tool, root, tip', flange, base, hfin⟩, tool, root, tip, tip', flange, base, fid, fp, h15, (item_iff _ _ _).1 h16, h17,
    (item_iff _ _ _).1 h18, h19, h20, h21, (init_ok hfin).1.2.2.2.2.2.2.2.2.1, (init_ok hfin).1.2.2.2.2.2.2.2.2.2.1,
    (init_ok hfin).1.2.2.2.2.2.2.2.2.2.2.1, (init_ok hfin).1.2.2.2.2.2.2.2.2.2.2.2, (init_tool hfin).1, (init_tool hfin).2⟩⟩
  refine (forall₂_of_mapM h14).imp fun i x hx => ?_
  obtain ⟨info, hi, hx⟩ := Except.bind_eq_ok hx
  obtain ⟨j, hj, hx⟩ := Except.bind_eq_ok hx
  exact ⟨info, j, (item_iff _ _ _).1 hi, hj, rrJoint_spec parse j x hx⟩

/-! ## C45 -/

/-- C45 (`_partial`: the property has `joint_info[joint_numbers[i]]`; the code uses `joint_info[i]`, so the joint numbers have to be
`0, 1, 2, …`, see `C45_joint_numbers_false`): joint `i` of the returned robot has the type, limits and name of
`joint_info[joint_numbers[i]]`. -/
theorem C45_joint_data_partial (parse : String → Option XReal) (doc chain : Yaml XReal) (cs nums : List (Yaml XReal)) (c : Nat)
    (hcs : Spec.field doc "chains" (.list cs)) (hc : cs[c]? = some chain) (hn : Spec.field chain "joint_numbers" (.list nums))
    (hseq : ∀ (i : Nat) (h : i < nums.length), nums[i] = .int i) (r : Robot XReal) (h : rrLoadRobot parse doc c = .ok r) :
    r.jointType.length = nums.length ∧ ∀ (i k : Nat), nums[i]? = some (.int k) → ∃ info j ty lo up vel acc name,
      Spec.field doc "joint_info" (.list info) ∧ info[k]? = some j ∧ Spec.JointData parse j ty lo up vel acc name ∧
      r.jointType[i]? = some ty ∧ (∃ l, r.lower = some l ∧ l[i]? = some lo) ∧ (∃ l, r.upper = some l ∧ l[i]? = some up) ∧
      (∃ l, r.vel = some l ∧ l[i]? = some vel) ∧ (∃ l, r.acc = some l ∧ l[i]? = some acc) ∧
      (∃ l, r.jointNames = some l ∧ l[i]? = some name) := by
  obtain ⟨A⟩ := rrLoad_accepted parse doc c r h
  have fu : ∀ {d v w : Yaml XReal} {k : String}, Spec.field d k v → Spec.field d k w → v = w := by
    rintro d v w k ⟨l, rfl, h1⟩ ⟨l', h2, h3⟩
    cases h2; rw [h1] at h3; cases h3; rfl
  have e1 := fu hcs A.chains
  have e1 : cs = A.cs := by cases e1; rfl
  have e2 := A.chain_eq
  rw [← e1, if_pos (by omega), Int.toNat_natCast, hc] at e2
  have e2 : chain = A.chain := by simpa using e2
  have e3 : A.numbers = .list nums := (fu hn (e2 ▸ A.numbers_eq)).symm
  have e4 : A.n = nums.length := by have := A.n_eq; rw [e3] at this; simpa [Yaml.len] using this.symm
  obtain ⟨tool, root, tip, flange, base, hinit⟩ := A.init
  obtain ⟨⟨-, -, i1, i2, i3, i4, i5, i6, -⟩, -⟩ := init_ok hinit
  have ljs : A.js.length = nums.length := by rw [← e4, ← A.js_eq.length_eq, List.length_range]
  refine ⟨by rw [i1, List.length_map, ljs], fun i k hk => ?_⟩
  have hi : i < nums.length := by
    by_contra hlt; rw [List.getElem?_eq_none (not_lt.1 hlt)] at hk; cases hk
  have hik : k = i := by
    rw [List.getElem?_eq_getElem hi, hseq i hi] at hk
    simp at hk; omega
  subst hik
  have hj := (List.forall₂_iff_get.1 A.js_eq).2 k (by simp [e4, hi]) (by omega)
  obtain ⟨info, j, hinfo, hj, hd⟩ := hj
  simp only [List.get_eq_getElem, List.getElem_range] at hj hd
  obtain ⟨info, rfl⟩ : ∃ l, info = .list l := by
    obtain ⟨⟨⟨l, rfl, -⟩, -⟩ | ⟨⟨l, rfl, -⟩, -⟩, -, -⟩ := hd <;>
    · unfold Yaml.index at hj
      split at hj
      · exact ⟨_, rfl⟩
      · exfalso; split at hj <;> (try split at hj) <;> cases hj
      · cases hj
      · cases hj
  rw [index_list] at hj
  have hk' : A.js[k]? = some A.js[k] := List.getElem?_eq_getElem (by omega)
  refine ⟨info, j, _, _, _, _, _, _, hinfo, ?_, hd, ?_, ⟨_, i2, ?_⟩, ⟨_, i3, ?_⟩, ⟨_, i4, ?_⟩, ⟨_, i5, ?_⟩, ⟨_, i6, ?_⟩⟩
  · split at hj
    · rename_i x hx; cases hj; exact hx
    · cases hj
  · rw [i1, List.getElem?_map, hk']; rfl
  all_goals rw [List.getElem?_map, hk']; rfl

/-! ## small documents -/

namespace RRDoc

def vec (x y z : Int) : Yaml XReal := .dict [("x", .int x), ("y", .int y), ("z", .int z)]

def pose : Yaml XReal :=
  .dict [("orientation", .dict [("w", .int 1), ("x", .int 0), ("y", .int 0), ("z", .int 0)]), ("position", vec 0 0 0)]

def joint (name : String) (lower : Yaml XReal) : Yaml XReal :=
  .dict [("joint_type", .str "revolute"),
    ("joint_limits", .dict [("lower", lower), ("upper", .int 2), ("velocity", .int 1), ("acceleration", .int 1)]),
    ("joint_identifier", .str name)]

/-- a chain with one joint about z -/
def chain (number : Yaml XReal) : Yaml XReal :=
  .dict [("joint_numbers", .list [number]), ("H", .list [vec 0 0 1]), ("P", .list [vec 0 0 0, vec 0 0 1]),
    ("flange_identifier", .null), ("flange_pose", pose)]

def doc (number : Yaml XReal) (joints : List (Yaml XReal)) : Yaml XReal :=
  .dict [("chains", .list [chain number]), ("joint_info", .list joints)]

/-- the robot with one joint -/
noncomputable def robot (name : String) (lower : XReal) : Robot XReal :=
  { H := [⟨.fin 0, .fin 0, .fin 1⟩], P := [⟨.fin 0, .fin 0, .fin 0⟩, ⟨.fin 0, .fin 0, .fin 1⟩], jointType := [0], lower := some [lower],
    upper := some [.fin 2], vel := some [.fin 1], acc := some [.fin 1], jointNames := some [name],
    Tflange := some ⟨q2R ⟨.fin 1, .fin 0, .fin 0, .fin 0⟩, ⟨.fin 0, .fin 0, .fin 0⟩, none, none⟩ }

theorem intFin (n : Int) : (lit (n : Rat) : XReal) = .fin n := by rw [XReal.lit_fin]; simp

theorem toVec3 (parse : String → Option XReal) (x y z : Int) : rrToVec3 parse (vec x y z) = .ok ⟨.fin x, .fin y, .fin z⟩ := by
  simp [rrToVec3, vec, Yaml.item, List.lookup_cons, Yaml.toFloat, intFin]

theorem toPose (parse : String → Option XReal) : rrToTransform parse pose =
    .ok ⟨q2R ⟨.fin 1, .fin 0, .fin 0, .fin 0⟩, ⟨.fin 0, .fin 0, .fin 0⟩, none, none⟩ := by
  have := toVec3 parse 0 0 0
  simp [rrToTransform, pose, Yaml.hasKey, Yaml.item, List.lookup_cons, rrToQvec, Yaml.toFloat, intFin, this]

theorem toJoint (parse : String → Option XReal) (name : String) (lo : Yaml XReal) (lower : XReal)
    (hl : lo.toFloat parse = .ok lower) : rrJoint parse (joint name lo) = .ok ⟨0, lower, .fin 2, .fin 1, .fin 1, name⟩ := by
  have h1 : ∀ n : Int, (Yaml.int n : Yaml XReal).toFloat parse = .ok (.fin n) := fun n => by simp [Yaml.toFloat, intFin]
  simp [rrJoint, joint, Yaml.item, List.lookup_cons, rrType, Yaml.eqStr, Yaml.isNone, hl, h1, rrName, rrIdentifierName]

/-- Loading it, whatever the joint number in the chain is, and for chain number 0 as well as -1. -/
theorem load (parse : String → Option XReal) (number : Yaml XReal) (name : String) (lo : Yaml XReal) (lower : XReal)
    (hl : lo.toFloat parse = .ok lower) (joints : List (Yaml XReal)) (c : Int) (hc : c = 0 ∨ c = -1) :
    rrLoadRobot parse (doc number (joint name lo :: joints)) c = .ok (robot name lower) := by
  have hn : iscloseD (V3.norm (⟨.fin 0, .fin 0, .fin 1⟩ : V3 XReal)) (.fin 1) := by
    have : V3.norm (⟨.fin 0, .fin 0, .fin 1⟩ : V3 XReal) = .fin 1 := by
      have := V3.up_norm (⟨0, 0, 1⟩ : V3 ℝ)
      simpa [V3.norm, V3.up, V3.map] using this
    rw [this]
    left; simp
  have e1 : (doc number (joint name lo :: joints)).item "chains" = .ok (.list [chain number]) := by simp [doc, Yaml.item, List.lookup_cons]
  have e2 : (doc number (joint name lo :: joints)).item "joint_info" = .ok (.list (joint name lo :: joints)) := by simp [doc, Yaml.item, List.lookup_cons]
  have e3 : (Yaml.list [chain number]).index c = .ok (chain number) := by
    rcases hc with rfl | rfl <;> simp [Yaml.index, Yaml.pyIdx]
  have e4 : (chain number).item "joint_numbers" = .ok (.list [number]) := by simp [chain, Yaml.item, List.lookup_cons]
  have e5 : (chain number).item "H" = .ok (.list [vec 0 0 1]) := by simp [chain, Yaml.item, List.lookup_cons]
  have e6 : (chain number).item "P" = .ok (.list [vec 0 0 0, vec 0 0 1]) := by simp [chain, Yaml.item, List.lookup_cons]
  have e7 : (chain number).item "flange_identifier" = .ok .null := by simp [chain, Yaml.item, List.lookup_cons]
  have e8 : (chain number).item "flange_pose" = .ok pose := by simp [chain, Yaml.item, List.lookup_cons]
  have e9 : rrRootLink (chain number) = .ok none := by simp [rrRootLink, chain, Yaml.hasKey, List.lookup_cons]
  have e10 : rrCurrentTool parse (chain number) none = .ok (none, none) := by simp [rrCurrentTool, chain, Yaml.get, List.lookup_cons, Yaml.isNone]
  have e11 : rrBase parse (doc number (joint name lo :: joints)) = .ok none := by simp [rrBase, doc, Yaml.get, List.lookup_cons, Yaml.isNone]
  have e12 : rrTip (Yaml.null : Yaml XReal) = .ok none := rfl
  have e13 : rrCheckNumbers (doc number (joint name lo :: joints)) (.list [number]) 1 = .ok () := rfl
  have i0 : ∀ (a : Yaml XReal) (l : List (Yaml XReal)), (Yaml.list (a :: l)).index ((0 : Nat) : Int) = .ok a := fun a l => by
    rw [index_list]; rfl
  have i1 : ∀ (a b : Yaml XReal) (l : List (Yaml XReal)), (Yaml.list (a :: b :: l)).index ((1 : Nat) : Int) = .ok b := fun a b l => by
    rw [index_list]; rfl
  have r1 : List.range 1 = [0] := rfl
  have r2 : List.range (1 + 1) = [0, 1] := rfl
  have l1 : ∀ l : List (Yaml XReal), (Yaml.list l).len = .ok l.length := fun _ => rfl
  have k0 : rrCheckList (Yaml.list [chain number]) = .ok () := rfl
  have k1 : rrCheckList (Yaml.list [vec 0 0 1]) (some 1) = .ok () := rfl
  have k2 : rrCheckList (Yaml.list [vec 0 0 0, vec 0 0 1]) (some (1 + 1)) = .ok () := rfl
  have hcc : ¬ ((1 : Nat) : Int) ≤ c := by omega
  unfold rrLoadRobot
  simp only [e1, Except.bind_ok, k0, l1, List.length_singleton, if_neg hcc, e3, e4, e13, e5, k1, e6, k2, r1, r2, mapM_cons', mapM_nil', i0, i1,
    toVec3, e2, toJoint parse name lo lower hl, e9, e7, e12, e8, toPose, e10, e11]
  simp [Robot.init, pyAssert, hn, lenOk, robot]

end RRDoc

/-- C45 is false: a chain whose only joint number is 1 gets the data of joint 0. -/
theorem C45_joint_numbers_false (parse : String → Option XReal) : ∃ r,
    rrLoadRobot parse (RRDoc.doc (.int 1) [RRDoc.joint "a" (.int (-1)), RRDoc.joint "b" (.int (-2))]) = .ok r ∧
    r.jointNames = some ["a"] ∧ r.lower = some [.fin (-1)] := by
  refine ⟨_, RRDoc.load parse (.int 1) "a" (.int (-1)) (.fin (-1)) ?_ _ 0 (Or.inl rfl), rfl, rfl⟩
  simp [Yaml.toFloat, RRDoc.intFin]

-- non-vacuity of C45_joint_data_partial: the same document with joint number 0
example (parse : String → Option XReal) : ∃ r, rrLoadRobot parse (RRDoc.doc (.int 0) [RRDoc.joint "a" (.int (-1))]) 0 = .ok r ∧
    r.jointType.length = 1 := by
  refine ⟨_, RRDoc.load parse (.int 0) "a" (.int (-1)) (.fin (-1)) (by simp [Yaml.toFloat, RRDoc.intFin]) [] 0 (Or.inl rfl), rfl⟩

/-! ## C46 -/

/-- C46 (`_partial`): what the loader guarantees when it returns a robot.  The chain number is below the number of chains; the
sizes of `H` and `P` match and the vectors are those of the document; integer joint numbers are increasing, and those after the
first are below the number of joints; every joint is revolute or prismatic and its limits are given; all arrays of the robot have one
entry per joint and the axes have unit length.  Missing from the property: negative chain numbers are accepted
(`C46_negative_chain_false`), the first joint number is not checked (`C46_first_number_false`), and limits may be null, i.e. NaN
(`C46_null_limit_false`). -/
theorem C46_accepts_partial (parse : String → Option XReal) (doc : Yaml XReal) (c : Int) (r : Robot XReal)
    (h : rrLoadRobot parse doc c = .ok r) : ∃ (cs : List (Yaml XReal)) (chain numbers : Yaml XReal),
    Spec.field doc "chains" (.list cs) ∧ c < cs.length ∧ (0 ≤ c → cs[c.toNat]? = some chain) ∧ chain ∈ cs ∧
    Spec.field chain "joint_numbers" numbers ∧ numbers.len = .ok r.H.length ∧
    -- sizes and vectors
    (∃ Ps, Spec.field chain "P" (.list Ps) ∧ List.Forall₂ (Spec.IsVec parse) Ps r.P) ∧
    (∀ i (hi : i < r.H.length), ∃ Hs d, Spec.field chain "H" (.list Hs) ∧ Hs.length = r.H.length ∧ Hs[i]? = some d ∧ Spec.IsVec parse d r.H[i]) ∧
    -- joint numbers
    (∀ nums, numbers = .list nums → ∀ (i : Nat) (a b : Int), nums[i]? = some (.int a) → nums[i + 1]? = some (.int b) →
      a < b ∧ ∃ info n, Spec.field doc "joint_info" info ∧ info.len = .ok n ∧ b < n) ∧
    -- joints
    (∀ i, i < r.H.length → ∃ info j ty lo up vel acc name, Spec.field doc "joint_info" info ∧ info.index i = .ok j ∧
      Spec.JointData parse j ty lo up vel acc name ∧ r.jointType[i]? = some ty ∧ (ty = 0 ∨ ty = 1)) ∧
    -- robot invariants
    r.P.length = r.H.length + 1 ∧ r.jointType.length = r.H.length ∧ (∃ l, r.lower = some l ∧ l.length = r.H.length) ∧
    (∃ l, r.upper = some l ∧ l.length = r.H.length) ∧ (∃ l, r.vel = some l ∧ l.length = r.H.length) ∧
    (∃ l, r.acc = some l ∧ l.length = r.H.length) ∧ (∃ l, r.jointNames = some l ∧ l.length = r.H.length) ∧
    (∀ h ∈ r.H, iscloseD h.norm 1) := by
  obtain ⟨A⟩ := rrLoad_accepted parse doc c r h
  obtain ⟨tool, root, tip, flange, base, hinit⟩ := A.init
  obtain ⟨⟨i1, i2, i3, i4, i5, i6, i7, i8, -⟩, j1, j2, j3, j4, j5, j6, j7, j8⟩ := init_ok hinit
  have lH : A.H.length = A.n := by rw [← A.H_eq.length_eq, List.length_range]
  have listOf : ∀ (d x : Yaml XReal) (i : Nat) (k : String) (v : Yaml XReal), d.index i = .ok x → Spec.field x k v → ∃ l, d = .list l := by
    rintro d x i k v hd ⟨l, rfl, -⟩
    unfold Yaml.index at hd
    split at hd
    · exact ⟨_, rfl⟩
    · exfalso; split at hd <;> (try split at hd) <;> cases hd
    · cases hd
    · cases hd
  have getOf : ∀ (l : List (Yaml XReal)) (i : Nat) (x : Yaml XReal), (Yaml.list l).index i = .ok x → l[i]? = some x := by
    intro l i x hx
    rw [index_list] at hx
    split at hx
    · rename_i y hy; cases hx; exact hy
    · cases hx
  refine ⟨A.cs, A.chain, A.numbers, A.chains, A.bound, ?_, List.mem_of_getElem? A.chain_eq, A.numbers_eq, ?_, ?_, ?_, ?_, ?_, ?_, ?_, ?_, ?_, ?_, ?_, ?_, ?_⟩
  · intro hc; have := A.chain_eq; rwa [if_pos hc] at this
  · rw [i1, lH]; exact A.n_eq
  · obtain ⟨lP, hP⟩ := List.forall₂_iff_get.1 A.P_eq
    obtain ⟨d, hd, hv⟩ := hP 0 (by simp) (by omega)
    obtain ⟨_, _, _, hx, -⟩ := hv
    obtain ⟨Ps, hPs⟩ := listOf _ _ _ _ _ hd hx
    have hlen : Ps.length = A.n + 1 := by have := A.cP_len; rw [hPs] at this; simpa [Yaml.len] using this
    refine ⟨Ps, hPs ▸ A.cP_eq, ?_⟩
    rw [i2, List.forall₂_iff_get]
    refine ⟨by rw [hlen, ← lP, List.length_range], fun i h1 h2 => ?_⟩
    obtain ⟨d, hd, hv⟩ := hP i (by simp; omega) h2
    rw [hPs] at hd
    have := getOf _ _ _ hd
    simp only [List.get_eq_getElem, List.getElem_range, List.getElem?_eq_getElem h1] at this
    simp only [List.get_eq_getElem] at hv ⊢
    cases this; exact hv
  · intro i hi
    have hi' : i < A.H.length := by rw [← i1]; exact hi
    obtain ⟨lHs, hH⟩ := List.forall₂_iff_get.1 A.H_eq
    obtain ⟨d, hd, hv⟩ := hH i (by simp; omega) hi'
    have hv' := hv
    obtain ⟨_, _, _, hx, -⟩ := hv
    obtain ⟨Hs, hHs⟩ := listOf _ _ _ _ _ hd hx
    have hlen : Hs.length = A.n := by have := A.cH_len; rw [hHs] at this; simpa [Yaml.len] using this
    refine ⟨Hs, d, hHs ▸ A.cH_eq, by rw [hlen, i1, lH], ?_, ?_⟩
    · rw [hHs] at hd
      have := getOf _ _ _ hd
      simpa using this
    · simpa [i1] using hv'
  · intro nums hnums i a b ha hb
    have hn : A.n = nums.length := by have := A.n_eq; rw [hnums] at this; simpa [Yaml.len] using this.symm
    obtain ⟨u, hu, -⟩ := Except.bind_eq_ok A.check
    have hb' : i + 1 < nums.length := by
      by_contra hlt; rw [List.getElem?_eq_none (not_lt.1 hlt)] at hb; cases hb
    have hu := forall₂_of_mapM hu
    obtain ⟨lu, hu⟩ := List.forall₂_iff_get.1 hu
    simp only [List.length_range'] at lu
    have := hu i (by simp; omega) (by omega)
    simp only [List.get_eq_getElem, List.getElem_range'] at this
    have idx : ∀ (k : Nat) (x : Yaml XReal), nums[k]? = some x → A.numbers.index k = .ok x := by
      intro k x hk; rw [hnums, index_list, hk]
    rw [show 1 + 1 * i - 1 = i by omega, show 1 + 1 * i = i + 1 by omega, idx _ _ ha, idx _ _ hb, Except.bind_ok, Except.bind_ok] at this
    simp only [Yaml.ge, Except.bind_ok] at this
    by_cases hab : b ≤ a
    · simp [hab] at this
    · simp only [hab, decide_false] at this
      simp only [Bool.false_eq_true, if_false] at this
      obtain ⟨info, hinfo, this⟩ := Except.bind_eq_ok this
      obtain ⟨n, hn', this⟩ := Except.bind_eq_ok this
      refine ⟨by omega, info, n, (item_iff _ _ _).1 hinfo, hn', ?_⟩
      by_contra hbn
      have : (n : Int) ≤ b := by omega
      simp_all
  · intro i hi
    rw [i1, lH] at hi
    obtain ⟨lj, hj⟩ := List.forall₂_iff_get.1 A.js_eq
    obtain ⟨info, j, h1, h2, h3⟩ := hj i (by simpa using hi) (by rw [← lj]; simpa using hi)
    simp only [List.get_eq_getElem, List.getElem_range] at h2 h3
    refine ⟨info, j, _, _, _, _, _, _, h1, h2, h3, ?_, ?_⟩
    · rw [i3, List.getElem?_map, List.getElem?_eq_getElem (by rw [← lj]; simpa using hi)]; rfl
    · rcases h3.type with ⟨-, h⟩ | ⟨-, h⟩
      · exact Or.inl h
      · exact Or.inr h
  · rw [i1, i2, ← j1]
  · rw [i1, i3, j2]
  · exact ⟨_, i4, by rw [i1, j2, j3]⟩
  · exact ⟨_, i5, by rw [i1, j2, j4]⟩
  · exact ⟨_, i6, by rw [i1, j2, j5]⟩
  · exact ⟨_, i7, by rw [i1, j2, j6]⟩
  · exact ⟨_, i8, by rw [i1, j2, j7]⟩
  · rw [i1]; exact j8

/-- C46 is false: joint number 7 of a document with one joint is accepted (and ignored). -/
theorem C46_first_number_false (parse : String → Option XReal) :
    ∃ r, rrLoadRobot parse (RRDoc.doc (.int 7) [RRDoc.joint "a" (.int (-1))]) = .ok r :=
  ⟨_, RRDoc.load parse (.int 7) "a" (.int (-1)) (.fin (-1)) (by simp [Yaml.toFloat, RRDoc.intFin]) [] 0 (Or.inl rfl)⟩

/-- C46 is false: chain number -1 is accepted. -/
theorem C46_negative_chain_false (parse : String → Option XReal) :
    ∃ r, rrLoadRobot parse (RRDoc.doc (.int 0) [RRDoc.joint "a" (.int (-1))]) (-1) = .ok r :=
  ⟨_, RRDoc.load parse (.int 0) "a" (.int (-1)) (.fin (-1)) (by simp [Yaml.toFloat, RRDoc.intFin]) [] (-1) (Or.inr rfl)⟩

/-- C46 is false: a null limit is accepted as NaN; the robot then rejects every joint value. -/
theorem C46_null_limit_false (parse : String → Option XReal) : ∃ r,
    rrLoadRobot parse (RRDoc.doc (.int 0) [RRDoc.joint "a" .null]) = .ok r ∧ r.lower = some [.nan] ∧
    ∀ x, fwdkin r [x] = .error .assertion := by
  refine ⟨_, RRDoc.load parse (.int 0) "a" .null .nan ((toFloat_iff _ _ _).2 .null) [] 0 (Or.inl rfl), rfl, fun x => ?_⟩
  have : ¬ (XReal.nan ≤ x) := by simp [XReal.le_iff, XReal.le]
  simp [fwdkin, checkLimits, RRDoc.robot, bcast, pyAssert, this]

/-! ## C47 -/

/-- C47: the combined loader succeeds exactly when the robot loads and the tool document has a tcp pose and a device name; the
result is the loaded robot with the tool transform and the tip link name replaced, everything else unchanged. -/
theorem C47_tool_replaces (parse : String → Option XReal) (doc tool : Yaml XReal) (c : Int) (r' : Robot XReal) :
    rrLoadRobotTool parse doc tool c = .ok r' ↔ ∃ r tcp T info dev tip, rrLoadRobot parse doc c = .ok r ∧ Spec.field tool "tcp" tcp ∧
      rrToTransform parse tcp = .ok T ∧ Spec.field tool "device_info" info ∧ Spec.field info "device" dev ∧
      rrIdentifierName dev = .ok tip ∧ r' = { r with Rtool := some T.R, ptool := some T.p, tipLink := some tip } := by
  constructor
  · intro h
    obtain ⟨r, h1, h⟩ := Except.bind_eq_ok h
    obtain ⟨tcp, h2, h⟩ := Except.bind_eq_ok h
    obtain ⟨T, h3, h⟩ := Except.bind_eq_ok h
    obtain ⟨info, h4, h⟩ := Except.bind_eq_ok h
    obtain ⟨dev, h5, h⟩ := Except.bind_eq_ok h
    obtain ⟨tip, h6, h⟩ := Except.bind_eq_ok h
    cases h
    exact ⟨r, tcp, T, info, dev, tip, h1, (item_iff _ _ _).1 h2, h3, (item_iff _ _ _).1 h4, (item_iff _ _ _).1 h5, h6, rfl⟩
  · rintro ⟨r, tcp, T, info, dev, tip, h1, h2, h3, h4, h5, h6, rfl⟩
    rw [← item_iff] at h2 h4 h5
    simp [rrLoadRobotTool, h1, h2, h3, h4, h5, h6]

/-- C47: the pose read for the tool is the position and the rotation of the quaternion in the document. -/
theorem C47_tcp_pose (parse : String → Option XReal) (tcp : Yaml XReal) (T : Transform XReal) (h : rrToTransform parse tcp = .ok T) :
    ∃ (o p : Yaml XReal) (q : V4 XReal),
      ((Spec.field tcp "orientation" o ∧ Spec.field tcp "position" p) ∨ (Spec.field tcp "rotation" o ∧ Spec.field tcp "translation" p)) ∧
      (∃ w x y z, Spec.field o "w" w ∧ Spec.field o "x" x ∧ Spec.field o "y" y ∧ Spec.field o "z" z ∧ Spec.IsFloat parse w q.w ∧
        Spec.IsFloat parse x q.x ∧ Spec.IsFloat parse y q.y ∧ Spec.IsFloat parse z q.z) ∧
      T.R = q2R q ∧ Spec.IsVec parse p T.p := by
  have quat : ∀ (d : Yaml XReal) (q : V4 XReal), rrToQvec parse d = .ok q → ∃ w x y z, Spec.field d "w" w ∧ Spec.field d "x" x ∧
      Spec.field d "y" y ∧ Spec.field d "z" z ∧ Spec.IsFloat parse w q.w ∧ Spec.IsFloat parse x q.x ∧ Spec.IsFloat parse y q.y ∧
      Spec.IsFloat parse z q.z := by
    intro d q h
    obtain ⟨w, h0, h⟩ := Except.bind_eq_ok h
    obtain ⟨x, h1, h⟩ := Except.bind_eq_ok h
    obtain ⟨y, h2, h⟩ := Except.bind_eq_ok h
    obtain ⟨z, h3, h⟩ := Except.bind_eq_ok h
    obtain ⟨w', g0, h⟩ := Except.bind_eq_ok h
    obtain ⟨x', g1, h⟩ := Except.bind_eq_ok h
    obtain ⟨y', g2, h⟩ := Except.bind_eq_ok h
    obtain ⟨z', g3, h⟩ := Except.bind_eq_ok h
    cases h
    rw [item_iff] at h0 h1 h2 h3
    rw [toFloat_iff] at g0 g1 g2 g3
    exact ⟨w, x, y, z, h0, h1, h2, h3, g0, g1, g2, g3⟩
  unfold rrToTransform at h
  split_ifs at h
  all_goals
    obtain ⟨o, h1, h⟩ := Except.bind_eq_ok h
    obtain ⟨q, h2, h⟩ := Except.bind_eq_ok h
    obtain ⟨p, h3, h⟩ := Except.bind_eq_ok h
    obtain ⟨v, h4, h⟩ := Except.bind_eq_ok h
    cases h
    rw [item_iff] at h1 h3
  · exact ⟨o, p, q, Or.inl ⟨h1, h3⟩, quat _ _ h2, rfl, (rrToVec3_iff _ _ _).1 h4⟩
  · exact ⟨o, p, q, Or.inr ⟨h1, h3⟩, quat _ _ h2, rfl, (rrToVec3_iff _ _ _).1 h4⟩

/-- C47: forward kinematics of the robot with the tool is forward kinematics of the bare robot composed with the tool transform,
for every robot and every joint vector. -/
theorem C47_tool_fwdkin (r : Robot ℝ) (T : Transform ℝ) (tip : Option String) (θ : List ℝ) (ign : Bool) (A : Transform ℝ)
    (h : fwdkin { r with Rtool := none, ptool := none } θ ign = .ok A) :
    ∃ B, fwdkin { r with Rtool := some T.R, ptool := some T.p, tipLink := tip } θ ign = .ok B ∧ SamePose B (A * T) := by
  unfold fwdkin at h ⊢
  obtain ⟨u, h1, h⟩ := Except.bind_eq_ok h
  have h1' : checkLimits { r with Rtool := some T.R, ptool := some T.p, tipLink := tip } θ ign = .ok u := h1
  rw [h1', Except.bind_ok]
  rcases hP : r.P with _ | ⟨P0, Ps⟩
  · simp [hP] at h
  · simp only [hP] at h ⊢
    obtain ⟨⟨R, p⟩, h2, h⟩ := Except.bind_eq_ok h
    rw [h2, Except.bind_ok]
    cases h
    refine ⟨_, rfl, ?_⟩
    unfold applyAux
    rcases r.Tflange with _ | F <;> rcases r.Tbase with _ | B <;> simp only [C13_mul_assoc] <;> exact ⟨rfl, rfl⟩

-- non-vacuity of C47: a tool document that loads, together with the one-joint robot
example (parse : String → Option XReal) : ∃ r',
    rrLoadRobotTool parse (RRDoc.doc (.int 0) [RRDoc.joint "a" (.int (-1))])
      (.dict [("tcp", RRDoc.pose), ("device_info", .dict [("device", .dict [("name", .str "gripper")])])]) 0 = .ok r' ∧
    r'.tipLink = some "gripper" := by
  have h := RRDoc.load parse (.int 0) "a" (.int (-1)) (.fin (-1)) (by simp [Yaml.toFloat, RRDoc.intFin]) [] 0 (Or.inl rfl)
  refine ⟨_, (C47_tool_replaces _ _ _ _ _).2 ⟨_, RRDoc.pose, _, .dict [("device", .dict [("name", .str "gripper")])],
    .dict [("name", .str "gripper")], "gripper", h, ⟨_, rfl, by simp⟩, RRDoc.toPose parse, ⟨_, rfl, by simp [List.lookup_cons]⟩, ⟨_, rfl, by simp⟩,
    by simp [rrIdentifierName, Yaml.item], rfl⟩, rfl⟩

-- non-vacuity of C47_tool_fwdkin: a robot with no joints
example : ∃ A, fwdkin { ({ H := [], P := [⟨1, 2, 3⟩], jointType := [] } : Robot ℝ) with Rtool := none, ptool := none } [] false = .ok A := by
  simp [fwdkin, checkLimits, fwdLoop, bcast]
