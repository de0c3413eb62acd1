import Verif.Lemmas.FlDataAux
import Verif.Lemmas.FlUrdf
import Verif.Lemmas.FlQuat
import Verif.Props.RobotRaconteurFrames
import Verif.Props.TesseractOutcome

/-! # The Robot Raconteur loader in floating-point arithmetic -/
set_option autoImplicit false

namespace Spec
variable {F : FSys}

mutual
/-- The document `d'` is the document `d` with its numbers read with relative error `ε`; integers are those of `d` and convert to floating
point with that error, and no coordinate (an entry x, y, z or w) is null. -/
inductive DocNear (ε : ℝ) : Yaml (Fl F) → Yaml ℝ → Prop
  | null : DocNear ε .null .null
  | bool (b : Bool) : DocNear ε (.bool b) (.bool b)
  | int (n : Int) (h : (lit (n : Rat) : Fl F).Near n (ε * |(n : ℝ)|)) : DocNear ε (.int n) (.int n)
  | num (x' : Fl F) (x : ℝ) (h : x'.Near x (ε * |x|)) : DocNear ε (.num x') (.num x)
  | str (s : String) : DocNear ε (.str s) (.str s)
  | list (l' : List (Yaml (Fl F))) (l : List (Yaml ℝ)) (h : ListNear ε l' l) : DocNear ε (.list l') (.list l)
  | dict (l' : List (String × Yaml (Fl F))) (l : List (String × Yaml ℝ)) (h : ItemsNear ε l' l) : DocNear ε (.dict l') (.dict l)
inductive ListNear (ε : ℝ) : List (Yaml (Fl F)) → List (Yaml ℝ) → Prop
  | nil : ListNear ε [] []
  | cons {d' d l' l} (h : DocNear ε d' d) (t : ListNear ε l' l) : ListNear ε (d' :: l') (d :: l)
inductive ItemsNear (ε : ℝ) : List (String × Yaml (Fl F)) → List (String × Yaml ℝ) → Prop
  | nil : ItemsNear ε [] []
  | cons {d' d l' l} (k : String) (hk : k ∈ ["x", "y", "z", "w"] → d ≠ .null) (h : DocNear ε d' d) (t : ItemsNear ε l' l) :
      ItemsNear ε ((k, d') :: l') ((k, d) :: l)
end

/-- `d` is a part of a document -/
inductive Part {α : Type} (d : Yaml α) : Yaml α → Prop
  | refl : Part d d
  | elem (l : List (Yaml α)) (v : Yaml α) (hv : v ∈ l) (h : Part d v) : Part d (.list l)
  | item (l : List (String × Yaml α)) (k : String) (v : Yaml α) (hv : (k, v) ∈ l) (h : Part d v) : Part d (.dict l)

/-- the number an entry of a document stands for -/
inductive Number (parse : String → Option ℝ) : Yaml ℝ → ℝ → Prop
  | num (x : ℝ) : Number parse (.num x) x
  | int (n : Int) : Number parse (.int n) n
  | bool (b : Bool) : Number parse (.bool b) (if b then 1 else 0)
  | str (s : String) (x : ℝ) (h : parse s = some x) : Number parse (.str s) x

/-- every mapping with numbers w, x, y, z in the document is a unit quaternion -/
def UnitQuats (parse : String → Option ℝ) (doc : Yaml ℝ) : Prop :=
  ∀ d (q : V4 ℝ) a b c e, Part d doc → field d "w" a → field d "x" b → field d "y" c → field d "z" e → Number parse a q.w → Number parse b q.x →
    Number parse c q.y → Number parse e q.z → IsUnit4 q

/-- all joint numbers in the document are integers -/
def IntegerNumbers (doc : Yaml ℝ) : Prop :=
  ∀ d l, Part d doc → field d "joint_numbers" (.list l) → ∀ a ∈ l, ∃ n, a = .int n

end Spec

namespace RRFl
variable {F : FSys} {ε : ℝ} {d' : Yaml (Fl F)} {d : Yaml ℝ}

theorem lookup_near {l' : List (String × Yaml (Fl F))} {l : List (String × Yaml ℝ)} (k : String) : Spec.ItemsNear ε l' l →
    Option.Rel (fun v' v => Spec.DocNear ε v' v ∧ (k ∈ ["x", "y", "z", "w"] → v ≠ .null)) (l'.lookup k) (l.lookup k) := by
  induction l generalizing l' with
  | nil => rintro ⟨⟩; exact .none
  | cons e l ih =>
    rintro (_ | ⟨k2, hk, h, t⟩)
    rw [List.lookup_cons, List.lookup_cons]
    by_cases hkk : k = k2
    · subst hkk
      simpa using And.intro h hk
    · rw [show (k == k2) = false by simpa using hkk]
      exact ih t

theorem item_near (h : Spec.DocNear ε d' d) {k : String} {v : Yaml ℝ} (hv : d.item k = .ok v) :
    ∃ v', d'.item k = .ok v' ∧ Spec.DocNear ε v' v ∧ (k ∈ ["x", "y", "z", "w"] → v ≠ .null) := by
  cases h with
  | dict l' l h =>
    have := lookup_near k h
    simp only [Yaml.item] at hv ⊢
    revert this hv
    generalize l'.lookup k = a
    generalize l.lookup k = b
    rintro hv (⟨h1, h2⟩ | _)
    · cases hv
      exact ⟨_, rfl, h1, h2⟩
    · cases hv
  | _ => cases hv

theorem get_near (h : Spec.DocNear ε d' d) {k : String} {v : Yaml ℝ} (hv : d.get k = .ok v) :
    ∃ v', d'.get k = .ok v' ∧ Spec.DocNear ε v' v := by
  cases h with
  | dict l' l h =>
    have := lookup_near k h
    simp only [Yaml.get] at hv ⊢
    revert this hv
    generalize l'.lookup k = a
    generalize l.lookup k = b
    rintro hv (⟨h1, h2⟩ | _)
    · cases hv
      exact ⟨_, rfl, h1⟩
    · cases hv
      exact ⟨_, rfl, .null⟩
  | _ => cases hv

theorem hasKey_near (h : Spec.DocNear ε d' d) (k : String) : d'.hasKey k = d.hasKey k := by
  cases h with
  | dict l' l h =>
    have := lookup_near k h
    simp only [Yaml.hasKey]
    revert this
    generalize l'.lookup k = a
    generalize l.lookup k = b
    rintro (_ | _) <;> rfl
  | _ => rfl

theorem listNear_length {l' : List (Yaml (Fl F))} {l : List (Yaml ℝ)} (h : Spec.ListNear ε l' l) : l'.length = l.length := by
  induction l generalizing l' with
  | nil => cases h; rfl
  | cons d l ih =>
    obtain _ | ⟨h, t⟩ := h
    simp [ih t]

theorem itemsNear_length {l' : List (String × Yaml (Fl F))} {l : List (String × Yaml ℝ)} (h : Spec.ItemsNear ε l' l) : l'.length = l.length := by
  induction l generalizing l' with
  | nil => cases h; rfl
  | cons d l ih =>
    obtain _ | ⟨k, hk, h, t⟩ := h
    simp [ih t]

theorem listNear_get {l' : List (Yaml (Fl F))} {l : List (Yaml ℝ)} (h : Spec.ListNear ε l' l) (i : Nat) :
    Option.Rel (Spec.DocNear ε) l'[i]? l[i]? := by
  induction l generalizing l' i with
  | nil => cases h; simpa using .none
  | cons d l ih =>
    obtain _ | ⟨h, t⟩ := h
    cases i with
    | zero => simpa using h
    | succ i => simpa using ih t i

theorem index_near (h : Spec.DocNear ε d' d) {i : Int} {v : Yaml ℝ} (hv : d.index i = .ok v) :
    ∃ v', d'.index i = .ok v' ∧ Spec.DocNear ε v' v := by
  cases h with
  | list l' l h =>
    simp only [Yaml.index] at hv ⊢
    rw [listNear_length h]
    generalize Yaml.pyIdx l.length i = o at hv ⊢
    rcases o with _ | k
    · cases hv
    have := listNear_get h k
    dsimp only at hv ⊢
    revert this hv
    generalize l'[k]? = a
    generalize l[k]? = b
    rintro hv (h | _)
    · cases hv
      exact ⟨_, rfl, h⟩
    · cases hv
  | str s =>
    simp only [Yaml.index] at hv ⊢
    generalize Yaml.pyIdx s.toList.length i = o at hv ⊢
    rcases o with _ | k
    · cases hv
    dsimp only at hv ⊢
    generalize s.toList[k]? = c at hv ⊢
    rcases c with _ | c
    · cases hv
    · cases hv
      exact ⟨_, rfl, .str _⟩
  | _ => cases hv

theorem len_near (h : Spec.DocNear ε d' d) : d'.len = d.len := by
  cases h with
  | list l' l h => simp [Yaml.len, listNear_length h]
  | dict l' l h => simp [Yaml.len, itemsNear_length h]
  | _ => rfl

theorem isNone_near (h : Spec.DocNear ε d' d) : d'.isNone = d.isNone := by cases h <;> rfl

theorem eqStr_near (h : Spec.DocNear ε d' d) (s : String) : d'.eqStr s = d.eqStr s := by cases h <;> rfl

theorem checkList_near (h : Spec.DocNear ε d' d) (n : Option Nat) : rrCheckList d' n = rrCheckList d n := by
  unfold rrCheckList
  rw [isNone_near h, len_near h]

theorem name_near (h : Spec.DocNear ε d' d) {s : String} (hs : rrIdentifierName d = .ok s) : rrIdentifierName d' = .ok s := by
  cases h with
  | str s => exact hs
  | dict l' l h =>
    simp only [rrIdentifierName] at hs ⊢
    obtain ⟨n, h1, hs⟩ := Except.bind_eq_ok hs
    obtain ⟨n', k1, k2, -⟩ := item_near (.dict l' l h) h1
    rw [k1, Except.bind_ok]
    cases k2 with
    | str t => exact hs
    | _ => cases hs
  | _ => cases hs

variable {parse' : String → Option (Fl F)} {parse : String → Option ℝ}

theorem toFloat_near (hp : ∀ s x, parse s = some x → ∃ x', parse' s = some x' ∧ x'.Near x (ε * |x|)) (ε0 : 0 ≤ ε) (h : Spec.DocNear ε d' d) {x : ℝ}
    (hx : d.toFloat parse = .ok x) : ∃ x', d'.toFloat parse' = .ok x' ∧ (d ≠ .null → x'.Near x (ε * |x|) ∧ Spec.Number parse d x) := by
  cases h with
  | null => exact ⟨_, rfl, fun h => absurd rfl h⟩
  | bool b =>
    cases hx
    refine ⟨_, rfl, fun _ => ⟨?_, .bool b⟩⟩
    cases b
    · exact Fl.near_zero.mono (by positivity)
    · exact Fl.near_one.mono (by positivity)
  | int n h =>
    cases hx
    refine ⟨_, rfl, fun _ => ?_⟩
    have e : (lit (n : Rat) : ℝ) = n := by simp [lit, Elem.lit]
    rw [e]
    exact ⟨h, .int n⟩
  | num x' x h =>
    cases hx
    exact ⟨_, rfl, fun _ => ⟨h, .num _⟩⟩
  | str s =>
    simp only [Yaml.toFloat] at hx ⊢
    rcases hs : parse s with _ | y
    · rw [hs] at hx; cases hx
    · rw [hs] at hx
      cases hx
      obtain ⟨x', h1, h2⟩ := hp s _ hs
      rw [h1]
      exact ⟨_, rfl, fun _ => ⟨h2, .str s _ hs⟩⟩
  | list l' l h => cases hx
  | dict l' l h => cases hx

theorem norm_rel {v w : V3 ℝ} (ε0 : 0 ≤ ε) (hx : |w.x - v.x| ≤ ε * |v.x|) (hy : |w.y - v.y| ≤ ε * |v.y|) (hz : |w.z - v.z| ≤ ε * |v.z|) :
    (w - v).norm ≤ ε * v.norm := by
  have sq : ∀ {a b : ℝ}, |a| ≤ ε * |b| → a * a ≤ ε ^ 2 * (b * b) := by
    intro a b h
    have := mul_self_le_mul_self (abs_nonneg a) h
    rw [abs_mul_abs_self] at this
    have e := abs_mul_abs_self b
    nlinarith
  rw [V3.norm_eq, V3.norm_eq]
  have : ε * Real.sqrt (v.dot v) = Real.sqrt (ε ^ 2 * v.dot v) := by
    rw [Real.sqrt_mul (by positivity), Real.sqrt_sq ε0]
  rw [this]
  apply Real.sqrt_le_sqrt
  have h1 := sq hx
  have h2 := sq hy
  have h3 := sq hz
  simp only [V3.dot, V3.sub_x, V3.sub_y, V3.sub_z]
  linarith

theorem toVec3_near (hp : ∀ s x, parse s = some x → ∃ x', parse' s = some x' ∧ x'.Near x (ε * |x|)) (ε0 : 0 ≤ ε) (h : Spec.DocNear ε d' d) {v : V3 ℝ}
    (hv : rrToVec3 parse d = .ok v) : ∃ v', rrToVec3 parse' d' = .ok v' ∧ Spec.VNear v' v (ε * v.norm) := by
  obtain ⟨a, ha, hv⟩ := Except.bind_eq_ok hv
  obtain ⟨b, hb, hv⟩ := Except.bind_eq_ok hv
  obtain ⟨c, hc, hv⟩ := Except.bind_eq_ok hv
  obtain ⟨x, hx, hv⟩ := Except.bind_eq_ok hv
  obtain ⟨y, hy, hv⟩ := Except.bind_eq_ok hv
  obtain ⟨z, hz, hv⟩ := Except.bind_eq_ok hv
  cases hv
  obtain ⟨a', a1, a2, a3⟩ := item_near h ha
  obtain ⟨b', b1, b2, b3⟩ := item_near h hb
  obtain ⟨c', c1, c2, c3⟩ := item_near h hc
  obtain ⟨x', x1, x2⟩ := toFloat_near hp ε0 a2 hx
  obtain ⟨y', y1, y2⟩ := toFloat_near hp ε0 b2 hy
  obtain ⟨z', z1, z2⟩ := toFloat_near hp ε0 c2 hz
  obtain ⟨⟨p, hp1, hp2⟩, -⟩ := x2 (a3 (by simp))
  obtain ⟨⟨q, hq1, hq2⟩, -⟩ := y2 (b3 (by simp))
  obtain ⟨⟨r, hr1, hr2⟩, -⟩ := z2 (c3 (by simp))
  obtain ⟨x'⟩ := x'
  obtain ⟨y'⟩ := y'
  obtain ⟨z'⟩ := z'
  cases hp1; cases hq1; cases hr1
  refine ⟨_, ?_, ⟨p, q, r⟩, rfl, norm_rel ε0 hp2 hq2 hr2⟩
  unfold rrToVec3
  rw [a1, Except.bind_ok, b1, Except.bind_ok, c1, Except.bind_ok, x1, Except.bind_ok, y1, Except.bind_ok, z1, Except.bind_ok]
  rfl

/-! ## parts of a document -/

theorem part_trans {α : Type} {a b c : Yaml α} (h : Spec.Part a b) (k : Spec.Part b c) : Spec.Part a c := by
  induction k with
  | refl => exact h
  | elem l v hv _ ih => exact .elem l v hv ih
  | item l k v hv _ ih => exact .item l k v hv ih

theorem lookup_mem {α : Type} {l : List (String × Yaml α)} {k : String} {v : Yaml α} (h : l.lookup k = some v) : (k, v) ∈ l := by
  induction l with
  | nil => cases h
  | cons e l ih =>
    obtain ⟨k2, v2⟩ := e
    rw [List.lookup_cons] at h
    by_cases hk : k = k2
    · subst hk
      simp at h
      simp [h]
    · rw [show (k == k2) = false by simpa using hk] at h
      simp [ih h]

theorem item_part {α : Type} {d v : Yaml α} {k : String} (h : d.item k = .ok v) : Spec.Part v d := by
  rw [item_iff] at h
  obtain ⟨l, rfl, h⟩ := h
  exact .item l k v (lookup_mem h) .refl

theorem get_part {α : Type} {d v : Yaml α} {k : String} (h : d.get k = .ok v) (hv : v.isNone = false) : Spec.Part v d := by
  cases d with
  | dict l =>
    simp only [Yaml.get] at h
    rcases hl : l.lookup k with _ | x
    · rw [hl] at h; cases h; cases hv
    · rw [hl] at h
      cases h
      exact .item l k _ (lookup_mem hl) .refl
  | _ => cases h

theorem index_part {α : Type} {d v : Yaml α} {i : Int} (h : d.index i = .ok v) : Spec.Part v d ∨ ∃ s, v = .str s := by
  cases d with
  | list l =>
    left
    simp only [Yaml.index] at h
    generalize Yaml.pyIdx l.length i = o at h
    rcases o with _ | k
    · cases h
    dsimp only at h
    rcases hl : l[k]? with _ | x
    · rw [hl] at h; cases h
    · rw [hl] at h
      cases h
      exact .elem l _ (List.mem_of_getElem? hl) .refl
  | str s =>
    right
    simp only [Yaml.index] at h
    generalize Yaml.pyIdx s.toList.length i = o at h
    rcases o with _ | k
    · cases h
    dsimp only at h
    generalize s.toList[k]? = c at h
    rcases c with _ | c
    · cases h
    · cases h
      exact ⟨_, rfl⟩
  | _ => cases h

/-! ## poses -/

theorem toQvec_near (hp : ∀ s x, parse s = some x → ∃ x', parse' s = some x' ∧ x'.Near x (ε * |x|)) (ε0 : 0 ≤ ε) (h : Spec.DocNear ε d' d) {q : V4 ℝ}
    (hv : rrToQvec parse d = .ok q) {doc : Yaml ℝ} (hd : Spec.Part d doc) (hu : Spec.UnitQuats parse doc) :
    ∃ q', rrToQvec parse' d' = .ok q' ∧ Spec.QNear q' q ε ∧ IsUnit4 q := by
  obtain ⟨i, hi, hv⟩ := Except.bind_eq_ok hv
  obtain ⟨a, ha, hv⟩ := Except.bind_eq_ok hv
  obtain ⟨b, hb, hv⟩ := Except.bind_eq_ok hv
  obtain ⟨c, hc, hv⟩ := Except.bind_eq_ok hv
  obtain ⟨w, hw, hv⟩ := Except.bind_eq_ok hv
  obtain ⟨x, hx, hv⟩ := Except.bind_eq_ok hv
  obtain ⟨y, hy, hv⟩ := Except.bind_eq_ok hv
  obtain ⟨z, hz, hv⟩ := Except.bind_eq_ok hv
  cases hv
  obtain ⟨i', i1, i2, i3⟩ := item_near h hi
  obtain ⟨a', a1, a2, a3⟩ := item_near h ha
  obtain ⟨b', b1, b2, b3⟩ := item_near h hb
  obtain ⟨c', c1, c2, c3⟩ := item_near h hc
  obtain ⟨w', w1, w2⟩ := toFloat_near hp ε0 i2 hw
  obtain ⟨x', x1, x2⟩ := toFloat_near hp ε0 a2 hx
  obtain ⟨y', y1, y2⟩ := toFloat_near hp ε0 b2 hy
  obtain ⟨z', z1, z2⟩ := toFloat_near hp ε0 c2 hz
  obtain ⟨nw, mw⟩ := w2 (i3 (by simp))
  obtain ⟨nx, mx⟩ := x2 (a3 (by simp))
  obtain ⟨ny, my⟩ := y2 (b3 (by simp))
  obtain ⟨nz, mz⟩ := z2 (c3 (by simp))
  have unit : IsUnit4 (⟨w, x, y, z⟩ : V4 ℝ) := hu d _ i a b c hd ((item_iff _ _ _).1 hi) ((item_iff _ _ _).1 ha) ((item_iff _ _ _).1 hb)
    ((item_iff _ _ _).1 hc) mw mx my mz
  obtain ⟨bw, bx, by', bz⟩ := Fl.unit4_abs unit
  have le : ∀ {t : ℝ}, |t| ≤ 1 → ε * |t| ≤ ε := fun h => mul_le_of_le_one_right ε0 h
  refine ⟨⟨w', x', y', z'⟩, ?_, ⟨nw.mono (le bw), nx.mono (le bx), ny.mono (le by'), nz.mono (le bz)⟩, unit⟩
  unfold rrToQvec
  rw [i1, Except.bind_ok, a1, Except.bind_ok, b1, Except.bind_ok, c1, Except.bind_ok, w1, Except.bind_ok, x1, Except.bind_ok, y1, Except.bind_ok, z1, Except.bind_ok]
  rfl

theorem toTransform_near (hp : ∀ s x, parse s = some x → ∃ x', parse' s = some x' ∧ x'.Near x (ε * |x|)) (hε : F.u ≤ ε) (hε' : ε ≤ 1 / 1000)
    (h : Spec.DocNear ε d' d) {T : Transform ℝ}
    (hT : rrToTransform parse d = .ok T) {doc : Yaml ℝ} (hd : Spec.Part d doc) (hu : Spec.UnitQuats parse doc) :
    ∃ T', rrToTransform parse' d' = .ok T' ∧ Spec.TNearE (222 * ε) T' T := by
  have ε0 := F.u_nonneg.trans hε
  unfold rrToTransform at hT ⊢
  rw [hasKey_near h]
  split_ifs at hT with hk
  all_goals
    obtain ⟨o, h1, hT⟩ := Except.bind_eq_ok hT
    obtain ⟨q, h2, hT⟩ := Except.bind_eq_ok hT
    obtain ⟨p, h3, hT⟩ := Except.bind_eq_ok hT
    obtain ⟨v, h4, hT⟩ := Except.bind_eq_ok hT
    cases hT
    obtain ⟨o', o1, o2, -⟩ := item_near h h1
    obtain ⟨p', p1, p2, -⟩ := item_near h h3
    obtain ⟨q', q1, q2, q3⟩ := toQvec_near hp ε0 o2 h2 (part_trans (item_part h1) hd) hu
    obtain ⟨v', v1, v2⟩ := toVec3_near hp ε0 p2 h4
    refine ⟨⟨q2R q', v', none, none⟩, ?_, C05_q2R_isRot q q3, Fl.q2R_near q3 hε hε' q2, Fl.VNear.mono v2 ?_⟩
    · first
        | rw [if_pos hk]
        | rw [if_neg hk]
      rw [o1, Except.bind_ok, q1, Except.bind_ok, p1, Except.bind_ok, v1, Except.bind_ok]
      rfl
    · exact mul_le_mul_of_nonneg_right (by linarith) v.norm_nonneg

/-! ## joints, names, frames -/

theorem ok_near (hp : ∀ s x, parse s = some x → ∃ x', parse' s = some x' ∧ x'.Near x (ε * |x|)) (ε0 : 0 ≤ ε) (h : Spec.DocNear ε d' d) {k : String}
    {v : Yaml ℝ} {x : ℝ} (hv : d.item k = .ok v) (hx : v.toFloat parse = .ok x) : ∃ v' x', d'.item k = .ok v' ∧ v'.toFloat parse' = .ok x' := by
  obtain ⟨v', h1, h2, -⟩ := item_near h hv
  obtain ⟨x', h3, -⟩ := toFloat_near hp ε0 h2 hx
  exact ⟨v', x', h1, h3⟩

theorem joint_near (hp : ∀ s x, parse s = some x → ∃ x', parse' s = some x' ∧ x'.Near x (ε * |x|)) (ε0 : 0 ≤ ε) (h : Spec.DocNear ε d' d) {j : RRJoint ℝ}
    (hj : rrJoint parse d = .ok j) : ∃ j', rrJoint parse' d' = .ok j' ∧ j'.ty = j.ty ∧ j'.name = j.name := by
  obtain ⟨t, h1, hj⟩ := Except.bind_eq_ok hj
  obtain ⟨ty, h2, hj⟩ := Except.bind_eq_ok hj
  obtain ⟨lim, h3, hj⟩ := Except.bind_eq_ok hj
  split_ifs at hj with hl
  obtain ⟨a, a1, hj⟩ := Except.bind_eq_ok hj
  obtain ⟨x, x1, hj⟩ := Except.bind_eq_ok hj
  obtain ⟨b, b1, hj⟩ := Except.bind_eq_ok hj
  obtain ⟨y, y1, hj⟩ := Except.bind_eq_ok hj
  obtain ⟨c, c1, hj⟩ := Except.bind_eq_ok hj
  obtain ⟨z, z1, hj⟩ := Except.bind_eq_ok hj
  obtain ⟨e, e1, hj⟩ := Except.bind_eq_ok hj
  obtain ⟨w, w1, hj⟩ := Except.bind_eq_ok hj
  obtain ⟨i, i1, hj⟩ := Except.bind_eq_ok hj
  obtain ⟨s, s1, hj⟩ := Except.bind_eq_ok hj
  cases hj
  obtain ⟨t', t1, t2, -⟩ := item_near h h1
  obtain ⟨lim', l1, l2, -⟩ := item_near h h3
  obtain ⟨a', x', a2, x2⟩ := ok_near hp ε0 l2 a1 x1
  obtain ⟨b', y', b2, y2⟩ := ok_near hp ε0 l2 b1 y1
  obtain ⟨c', z', c2, z2⟩ := ok_near hp ε0 l2 c1 z1
  obtain ⟨e', w', e2, w2⟩ := ok_near hp ε0 l2 e1 w1
  obtain ⟨i', i2, i3, -⟩ := item_near h i1
  have ty2 : rrType t' = .ok ty := by
    unfold rrType at h2 ⊢
    rw [eqStr_near t2, eqStr_near t2]
    exact h2
  have s2 : rrName i' = .ok s := by
    unfold rrName at s1 ⊢
    rw [isNone_near i3]
    split_ifs at s1 ⊢ with hi
    · exact s1
    · exact name_near i3 s1
  refine ⟨⟨ty, x', y', z', w', s⟩, ?_, rfl, rfl⟩
  unfold rrJoint
  rw [t1, Except.bind_ok, ty2, Except.bind_ok, l1, Except.bind_ok, isNone_near l2, if_neg hl, a2, Except.bind_ok, x2, Except.bind_ok, b2, Except.bind_ok,
    y2, Except.bind_ok, c2, Except.bind_ok, z2, Except.bind_ok, e2, Except.bind_ok, w2, Except.bind_ok, i2, Except.bind_ok, s2, Except.bind_ok]
  rfl

theorem root_near (h : Spec.DocNear ε d' d) {o : Option String} (ho : rrRootLink d = .ok o) : rrRootLink d' = .ok o := by
  unfold rrRootLink at ho ⊢
  rw [hasKey_near h]
  split_ifs at ho ⊢ with hk
  · obtain ⟨l, h1, ho⟩ := Except.bind_eq_ok ho
    obtain ⟨n, h2, ho⟩ := Except.bind_eq_ok ho
    obtain ⟨l', k1, k2, -⟩ := item_near h h1
    rw [k1, Except.bind_ok, len_near k2, h2, Except.bind_ok]
    split_ifs at ho ⊢ with hn
    · obtain ⟨x, h3, ho⟩ := Except.bind_eq_ok ho
      obtain ⟨x', k3, k4⟩ := index_near k2 h3
      rw [k3, Except.bind_ok, isNone_near k4]
      split_ifs at ho ⊢ with hx
      · exact ho
      · obtain ⟨s, h4, ho⟩ := Except.bind_eq_ok ho
        rw [name_near k4 h4]
        exact ho
    · exact ho
  · exact ho

theorem tip_near (h : Spec.DocNear ε d' d) {o : Option String} (ho : rrTip d = .ok o) : rrTip d' = .ok o := by
  unfold rrTip at ho ⊢
  rw [isNone_near h]
  split_ifs at ho ⊢ with hk
  · exact ho
  · rcases hs : rrIdentifierName d with e | s
    · rw [hs] at ho; cases ho
    · rw [name_near h hs]
      rw [hs] at ho
      exact ho

theorem tool_near (hp : ∀ s x, parse s = some x → ∃ x', parse' s = some x' ∧ x'.Near x (ε * |x|)) (hε : F.u ≤ ε) (hε' : ε ≤ 1 / 1000)
    (h : Spec.DocNear ε d' d) {tip t : Option String} {T : Option (Transform ℝ)} (hT : rrCurrentTool parse d tip = .ok (T, t)) {doc : Yaml ℝ}
    (hd : Spec.Part d doc) (hu : Spec.UnitQuats parse doc) :
    ∃ T', rrCurrentTool parse' d' tip = .ok (T', t) ∧ Option.Rel (Spec.TNearE (222 * ε)) T' T := by
  obtain ⟨tool, h1, hT⟩ := Except.bind_eq_ok hT
  obtain ⟨tool', k1, k2⟩ := get_near h h1
  unfold rrCurrentTool
  rw [k1, Except.bind_ok, isNone_near k2]
  split_ifs at hT ⊢ with g1
  · cases hT
    exact ⟨none, rfl, .none⟩
  obtain ⟨tcp, h2, hT⟩ := Except.bind_eq_ok hT
  obtain ⟨tcp', k3, k4⟩ := get_near k2 h2
  rw [k3, Except.bind_ok, isNone_near k4]
  split_ifs at hT ⊢ with g2
  · cases hT
    exact ⟨none, rfl, .none⟩
  obtain ⟨B, h3, hT⟩ := Except.bind_eq_ok hT
  obtain ⟨B', k5, k6⟩ := toTransform_near hp hε hε' k4 h3 (part_trans (get_part h2 (by simpa using g2)) (part_trans (get_part h1 (by simpa using g1)) hd)) hu
  rw [k5, Except.bind_ok]
  obtain ⟨info, h4, hT⟩ := Except.bind_eq_ok hT
  obtain ⟨info', k7, k8⟩ := get_near k2 h4
  rw [k7, Except.bind_ok, isNone_near k8]
  split_ifs at hT ⊢ with g3
  · cases hT
    exact ⟨some B', rfl, .some k6⟩
  obtain ⟨dev, h5, hT⟩ := Except.bind_eq_ok hT
  obtain ⟨s, h6, hT⟩ := Except.bind_eq_ok hT
  cases hT
  obtain ⟨dev', k9, k10, -⟩ := item_near k8 h5
  rw [k9, Except.bind_ok, name_near k10 h6, Except.bind_ok]
  exact ⟨some B', rfl, .some k6⟩

theorem base_near (hp : ∀ s x, parse s = some x → ∃ x', parse' s = some x' ∧ x'.Near x (ε * |x|)) (hε : F.u ≤ ε) (hε' : ε ≤ 1 / 1000)
    (h : Spec.DocNear ε d' d) {T : Option (Transform ℝ)} (hT : rrBase parse d = .ok T) (hu : Spec.UnitQuats parse d) :
    ∃ T', rrBase parse' d' = .ok T' ∧ Option.Rel (Spec.TNearE (222 * ε)) T' T := by
  obtain ⟨info, h1, hT⟩ := Except.bind_eq_ok hT
  obtain ⟨info', k1, k2⟩ := get_near h h1
  unfold rrBase
  rw [k1, Except.bind_ok, isNone_near k2]
  split_ifs at hT ⊢ with g1
  · cases hT
    exact ⟨none, rfl, .none⟩
  obtain ⟨o, h2, hT⟩ := Except.bind_eq_ok hT
  obtain ⟨o', k3, k4⟩ := get_near k2 h2
  rw [k3, Except.bind_ok, isNone_near k4]
  split_ifs at hT ⊢ with g2
  · cases hT
    exact ⟨none, rfl, .none⟩
  obtain ⟨p, h3, hT⟩ := Except.bind_eq_ok hT
  obtain ⟨B, h4, hT⟩ := Except.bind_eq_ok hT
  cases hT
  obtain ⟨p', k5, k6, -⟩ := item_near k4 h3
  obtain ⟨B', k7, k8⟩ := toTransform_near hp hε hε' k6 h4
    (part_trans (item_part h3) (part_trans (get_part h2 (by simpa using g2)) (get_part h1 (by simpa using g1)))) hu
  rw [k5, Except.bind_ok, k7, Except.bind_ok]
  exact ⟨some B', rfl, .some k8⟩

/-! ## joint numbers -/

theorem ge_same {a' b' : Yaml (Fl F)} {a b : Yaml ℝ} (ha : Spec.DocNear ε a' a) (hb : Spec.DocNear ε b' b) (na : ∀ x, a ≠ .num x)
    (nb : ∀ x, b ≠ .num x) : a'.ge b' = a.ge b := by
  cases ha with
  | num x' x h => exact absurd rfl (na x)
  | _ => cases hb with
    | num x' x h => exact absurd rfl (nb x)
    | _ => rfl

theorem ge_int {b' : Yaml (Fl F)} {b : Yaml ℝ} (hb : Spec.DocNear ε b' b) (nb : ∀ x, b ≠ .num x) (k : Int) : b'.ge (.int k) = b.ge (.int k) := by
  cases hb with
  | num x' x h => exact absurd rfl (nb x)
  | _ => rfl

theorem mapM_near {β γ δ : Type} {R : δ → γ → Prop} {f : β → Except PyErr γ} {g : β → Except PyErr δ} : ∀ {l : List β} {ys : List γ},
    (∀ a ∈ l, ∀ y, f a = .ok y → ∃ x, g a = .ok x ∧ R x y) → l.mapM f = .ok ys → ∃ xs, l.mapM g = .ok xs ∧ List.Forall₂ R xs ys
  | [], ys, _, hy => by
    cases hy
    exact ⟨[], rfl, .nil⟩
  | a :: l, ys, h, hy => by
    rw [mapM_cons'] at hy
    obtain ⟨y, h1, hy⟩ := Except.bind_eq_ok hy
    obtain ⟨yt, h2, hy⟩ := Except.bind_eq_ok hy
    cases hy
    obtain ⟨x, k1, k2⟩ := h a (by simp) y h1
    obtain ⟨xt, k3, k4⟩ := mapM_near (fun b hb => h b (by simp [hb])) h2
    exact ⟨x :: xt, by rw [mapM_cons', k1, Except.bind_ok, k3]; rfl, .cons k2 k4⟩

theorem index_not_num {numbers a : Yaml ℝ} {i : Int} (hn : ∀ l, numbers = .list l → ∀ a ∈ l, ∃ n, a = .int n) (h : numbers.index i = .ok a) :
    ∀ x, a ≠ .num x := by
  rintro x rfl
  cases numbers with
  | list l =>
    simp only [Yaml.index] at h
    generalize Yaml.pyIdx l.length i = o at h
    rcases o with _ | k
    · cases h
    dsimp only at h
    rcases hl : l[k]? with _ | y
    · rw [hl] at h; cases h
    · rw [hl] at h
      cases h
      obtain ⟨n, hn⟩ := hn l rfl _ (List.mem_of_getElem? hl)
      cases hn
  | str s =>
    simp only [Yaml.index] at h
    generalize Yaml.pyIdx s.toList.length i = o at h
    rcases o with _ | k
    · cases h
    dsimp only at h
    generalize s.toList[k]? = c at h
    rcases c with _ | c <;> cases h
  | _ => cases h

theorem numbers_near {doc' numbers' : Yaml (Fl F)} {doc numbers : Yaml ℝ} (hd : Spec.DocNear ε doc' doc) (hn : Spec.DocNear ε numbers' numbers)
    (hi : ∀ l, numbers = .list l → ∀ a ∈ l, ∃ n, a = .int n) {n : Nat} {v : Unit} (h : rrCheckNumbers doc numbers n = .ok v) :
    rrCheckNumbers doc' numbers' n = .ok () := by
  obtain ⟨ys, h1, -⟩ := Except.bind_eq_ok h
  obtain ⟨xs, k1, -⟩ := mapM_near (R := fun _ _ => True) (g := fun i => do
    let a ← numbers'.index (i - 1 : Nat)
    let b ← numbers'.index i
    if ← a.ge b then .error .value
    else
      let k ← (← doc'.item "joint_info").len
      if ← b.ge (.int k) then .error .value else .ok ()) (fun i _ y hy => by
      obtain ⟨a, a1, hy⟩ := Except.bind_eq_ok hy
      obtain ⟨b, b1, hy⟩ := Except.bind_eq_ok hy
      obtain ⟨c, c1, hy⟩ := Except.bind_eq_ok hy
      obtain ⟨a', a2, a3⟩ := index_near hn a1
      obtain ⟨b', b2, b3⟩ := index_near hn b1
      have na := index_not_num hi a1
      have nb := index_not_num hi b1
      rw [a2, Except.bind_ok, b2, Except.bind_ok, ge_same a3 b3 na nb, c1, Except.bind_ok]
      split_ifs at hy ⊢ with hc
      obtain ⟨info, i1, hy⟩ := Except.bind_eq_ok hy
      obtain ⟨k, l1, hy⟩ := Except.bind_eq_ok hy
      obtain ⟨e, e1, hy⟩ := Except.bind_eq_ok hy
      obtain ⟨info', i2, i3, -⟩ := item_near hd i1
      rw [i2, Except.bind_ok, len_near i3, l1, Except.bind_ok, ge_int b3 nb, e1, Except.bind_ok]
      split_ifs at hy ⊢ with he
      exact ⟨_, rfl, trivial⟩) h1
  unfold rrCheckNumbers
  rw [k1]
  rfl

end RRFl
