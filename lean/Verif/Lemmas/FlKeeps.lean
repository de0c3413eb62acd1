import Verif.Lemmas.FlSub2
import Verif.Lemmas.FlNorm
import Verif.Lemmas.FlAxis
import Verif.Lemmas.ListM
import Verif.Props.RoundingSubE

/-!
# What the loops of the inverse kinematics need to know about `normalize_joints`

`Fl.Keeps N S e`: the calls return for angles of at most `S`, and keep angles up to `e`.  `Fl.Follows N q A S D e`: a candidate of at most `S j` for joint `j` of the joint vector `q` is never dropped.  Without limits and
last joint values both hold with `e = 0`.
-/
set_option autoImplicit false

namespace Fl
variable {F : FSys}

/-! ## Sizes of the computed angles -/

theorem arctan2_fin_le' (hF : Spec.InvAcc F) {a b : Fl F} {v : ℝ} (h : (Elem.arctan2 b a : Fl F).val = .fin v) : |v| ≤ 16 / 5 := by
  change (match b.val, a.val with
      | .fin y, .fin x => XReal.fin (F.arctan2F y x)
      | _, _ => .nan) = _ at h
  split at h
  · cases h; exact hF.arctan2_le _ _
  · cases h

theorem subproblem2_le (hF : Spec.InvAcc F) {p q k1 k2 : V3 (Fl F)} {l : List (Fl F × Fl F)} (h : subproblem2 p q k1 k2 = .ok l) {z : Fl F × Fl F} (hz : z ∈ l)
    {x : ℝ} (hx : z.1.val = .fin x) : |x| ≤ 16 / 5 := by
  have neg : ∀ {t : Fl F} {p q k : V3 (Fl F)} {x : ℝ}, subproblem1 p q k = .ok t → (-t).val = .fin x → |x| ≤ 16 / 5 := by
    intro t p q k x h hx
    change -t.val = _ at hx
    rcases hv : t.val with _ | _ | _ | v <;> rw [hv] at hx <;> cases hx
    rw [abs_neg]
    exact subproblem1_le hF h hv
  unfold subproblem2 at h
  dsimp only at h
  split_ifs at h
  iterate 2 (cases h; cases hz)
  · obtain ⟨a, ha, h⟩ := Except.bind_eq_ok h
    obtain ⟨b, hb, h⟩ := Except.bind_eq_ok h
    cases h
    rw [List.mem_singleton] at hz
    subst hz
    exact neg hb hx
  · obtain ⟨a, ha, h⟩ := Except.bind_eq_ok h
    obtain ⟨b, hb, h⟩ := Except.bind_eq_ok h
    obtain ⟨c, hc, h⟩ := Except.bind_eq_ok h
    obtain ⟨d, hd, h⟩ := Except.bind_eq_ok h
    cases h
    rw [List.mem_cons, List.mem_singleton] at hz
    rcases hz with rfl | rfl
    · exact neg ha hx
    · exact neg hb hx
  · cases h; cases hz
  · obtain ⟨a, ha, h⟩ := Except.bind_eq_ok h
    obtain ⟨b, hb, h⟩ := Except.bind_eq_ok h
    cases h
    rw [List.mem_singleton] at hz
    subst hz
    exact neg hb hx
  · obtain ⟨a, ha, h⟩ := Except.bind_eq_ok h
    obtain ⟨b, hb, h⟩ := Except.bind_eq_ok h
    obtain ⟨c, hc, h⟩ := Except.bind_eq_ok h
    obtain ⟨d, hd, h⟩ := Except.bind_eq_ok h
    cases h
    rw [List.mem_cons, List.mem_singleton] at hz
    rcases hz with rfl | rfl
    · exact neg ha hx
    · exact neg hb hx

theorem sub_eq_fin {a b : XReal} {s : ℝ} (h : a - b = .fin s) : ∃ x y, a = .fin x ∧ b = .fin y ∧ x - y = s := by
  cases a <;> cases b <;> first | (injection h with h; exact ⟨_, _, rfl, rfl, h⟩) | cases h

theorem sum_le {a b x s t : ℝ} (ha : |a| ≤ s) (hb : |b| ≤ t) (hst : s + t ≤ 10) (h : F.round (.fin (a + b)) = .fin x) : |x| ≤ s + t + 1 / 50 := by
  have hu := F.u_le
  have hab : |a + b| ≤ s + t := (abs_add_le a b).trans (add_le_add ha hb)
  obtain ⟨v, hv, hd⟩ := Near.addE (ε := F.u) 12 (k := 0) (l := 0) (S := s + t) (by rw [zero_mul]; exact near_of (F := F) a) (by rw [zero_mul]; exact near_of b) le_rfl
    (by linarith) hab (by linarith) (by linarith) (by norm_num)
  change F.round (.fin (a + b)) = .fin v at hv
  rw [h] at hv
  cases hv
  have := abs_add_le (x - (a + b)) (a + b)
  rw [sub_add_cancel] at this
  linarith

theorem subproblem3_le (hF : Spec.InvAcc F) {p q k : V3 (Fl F)} {d : Fl F} {l : List (Fl F)} (h : subproblem3 p q k d = .ok l) {t : Fl F} (ht : t ∈ l)
    {x : ℝ} (hx : t.val = .fin x) : |x| ≤ 13 / 2 := by
  have phi : ∀ {b : Fl F} {x : ℝ}, (Elem.arccos b).val = .fin x → |x| ≤ 63 / 20 := by
    intro b x h
    change XReal.onFin (fun x => -1 ≤ x ∧ x ≤ 1) F.arccosF b.val = _ at h
    rcases hb : b.val with _ | _ | _ | v <;> rw [hb] at h
    iterate 3 cases h
    unfold XReal.onFin at h
    dsimp only at h
    split_ifs at h with hc
    cases h
    have h1 := hF.arccos v hc.1 hc.2
    have h2 := Real.arccos_nonneg v
    have h3 := Real.arccos_le_pi v
    have := Real.pi_lt_d4
    have hu := F.u_le
    have := abs_add_le (F.arccosF v - Real.arccos v) (Real.arccos v)
    rw [sub_add_cancel, abs_of_nonneg h2] at this
    linarith
  unfold subproblem3 at h
  dsimp only at h
  split_ifs at h
  · cases h; cases ht
  · obtain ⟨a, ha, h⟩ := Except.bind_eq_ok h
    cases h
    rw [List.mem_cons, List.mem_singleton] at ht
    rcases ht with rfl | rfl
    · obtain ⟨y, hy, -⟩ := round_eq_fin (F := F) hx
      obtain ⟨v, w, hv, hw, rfl⟩ := add_eq_fin hy
      change F.round (_ + _) = _ at hx
      rw [hy] at hx
      exact (sum_le (subproblem1_le hF ha hv) (phi hw) (by norm_num) hx).trans (by norm_num)
    · obtain ⟨y, hy, -⟩ := round_eq_fin (F := F) hx
      obtain ⟨v, w, hv, hw, rfl⟩ := sub_eq_fin hy
      change F.round (_ - _) = _ at hx
      rw [hy, sub_eq_add_neg] at hx
      have pw := phi hw
      rw [← abs_neg] at pw
      exact (sum_le (subproblem1_le hF ha hv) pw (by norm_num) hx).trans (by norm_num)
  · obtain ⟨a, ha, h⟩ := Except.bind_eq_ok h
    cases h
    rw [List.mem_singleton] at ht
    subst ht
    exact (subproblem1_le hF ha hx).trans (by norm_num)

theorem neg_eq_fin {a : Fl F} {x : ℝ} (h : (-a).val = .fin x) : a.val = .fin (-x) := by
  change -a.val = _ at h
  rcases hv : a.val with _ | _ | _ | v <;> rw [hv] at h <;> cases h
  rw [neg_neg]

theorem subproblem2_le2 (hF : Spec.InvAcc F) {p q k1 k2 : V3 (Fl F)} {l : List (Fl F × Fl F)} (h : subproblem2 p q k1 k2 = .ok l) {z : Fl F × Fl F} (hz : z ∈ l)
    {x : ℝ} (hx : z.2.val = .fin x) : |x| ≤ 16 / 5 := by
  unfold subproblem2 at h
  dsimp only at h
  split_ifs at h
  iterate 2 (cases h; cases hz)
  · obtain ⟨a, ha, h⟩ := Except.bind_eq_ok h
    obtain ⟨b, hb, h⟩ := Except.bind_eq_ok h
    cases h
    rw [List.mem_singleton] at hz
    subst hz
    exact subproblem1_le hF ha hx
  · obtain ⟨a, ha, h⟩ := Except.bind_eq_ok h
    obtain ⟨b, hb, h⟩ := Except.bind_eq_ok h
    obtain ⟨c, hc, h⟩ := Except.bind_eq_ok h
    obtain ⟨d, hd, h⟩ := Except.bind_eq_ok h
    cases h
    rw [List.mem_cons, List.mem_singleton] at hz
    rcases hz with rfl | rfl
    · exact subproblem1_le hF hc hx
    · exact subproblem1_le hF hd hx
  · cases h; cases hz
  · obtain ⟨a, ha, h⟩ := Except.bind_eq_ok h
    obtain ⟨b, hb, h⟩ := Except.bind_eq_ok h
    cases h
    rw [List.mem_singleton] at hz
    subst hz
    exact subproblem1_le hF ha hx
  · obtain ⟨a, ha, h⟩ := Except.bind_eq_ok h
    obtain ⟨b, hb, h⟩ := Except.bind_eq_ok h
    obtain ⟨c, hc, h⟩ := Except.bind_eq_ok h
    obtain ⟨d, hd, h⟩ := Except.bind_eq_ok h
    cases h
    rw [List.mem_cons, List.mem_singleton] at hz
    rcases hz with rfl | rfl
    · exact subproblem1_le hF hc hx
    · exact subproblem1_le hF hd hx

theorem subproblem4_le (hF : Spec.InvAcc F) {p q k : V3 (Fl F)} {d t : Fl F} (ht : t ∈ subproblem4 p q k d) {x : ℝ} (hx : t.val = .fin x) : |x| ≤ 8 := by
  have psi : ∀ {b : Fl F} {x : ℝ}, (Elem.arcsin b).val = .fin x → |x| ≤ 79 / 50 := by
    intro b x h
    change XReal.onFin (fun x => -1 ≤ x ∧ x ≤ 1) F.arcsinF b.val = _ at h
    rcases hb : b.val with _ | _ | _ | v <;> rw [hb] at h
    iterate 3 cases h
    unfold XReal.onFin at h
    dsimp only at h
    split_ifs at h with hc
    cases h
    have h1 := hF.arcsin v hc.1 hc.2
    have h2 := abs_le.2 ⟨by linarith [Real.neg_pi_div_two_le_arcsin v], Real.arcsin_le_pi_div_two v⟩
    have := Real.pi_lt_d4
    have hu := F.u_le
    have := abs_add_le (F.arcsinF v - Real.arcsin v) (Real.arcsin v)
    rw [sub_add_cancel] at this
    linarith
  have phi : ∀ {a b : Fl F} {x : ℝ}, (-Elem.arctan2 a b).val = .fin x → |x| ≤ 16 / 5 := by
    intro a b x h
    rw [← abs_neg]
    exact arctan2_fin_le' hF (neg_eq_fin h)
  have ppi : ∀ {x : ℝ}, (Elem.pi : Fl F).val = .fin x → |x| ≤ 317 / 100 := by
    intro x h
    change F.round (.fin Real.pi) = _ at h
    have h0 : F.round (.fin (Real.pi + 0)) = .fin x := by rwa [add_zero]
    have p4 : Real.pi ≤ 3.15 := by linarith [Real.pi_lt_d4]
    have := sum_le (s := 3.15) (t := 0) (by rw [abs_of_pos Real.pi_pos]; exact p4) (by simp) (by norm_num) h0
    linarith
  unfold subproblem4 at ht
  dsimp only at ht
  split_ifs at ht
  · cases ht
  · rw [List.mem_cons, List.mem_singleton] at ht
    rcases ht with rfl | rfl
    · obtain ⟨y, hy, -⟩ := round_eq_fin (F := F) hx
      obtain ⟨v, w, hv, hw, rfl⟩ := add_eq_fin hy
      change F.round (_ + _) = _ at hx
      rw [hy] at hx
      exact (sum_le (phi hv) (psi hw) (by norm_num) hx).trans (by norm_num)
    · obtain ⟨y, hy, -⟩ := round_eq_fin (F := F) hx
      obtain ⟨v, w, hv, hw, rfl⟩ := add_eq_fin hy
      change F.round (_ + _) = _ at hx
      rw [hy] at hx
      obtain ⟨y', hy', -⟩ := round_eq_fin (F := F) hv
      obtain ⟨v', w', hv', hw', rfl⟩ := sub_eq_fin hy'
      change F.round (_ - _) = _ at hv
      rw [hy', sub_eq_add_neg] at hv
      have pw := psi hw'
      rw [← abs_neg] at pw
      have h8 := sum_le (phi hv') pw (by norm_num) hv
      exact (sum_le h8 (ppi hw) (by norm_num) hx).trans (by norm_num)

/-! ## The computed angles are floating-point numbers -/

section
variable (hE : Spec.ExactRnd F)
include hE

theorem subproblem1_rep {p q k : V3 (Fl F)} {th : Fl F} (h : subproblem1 p q k = .ok th) : RepS th := by
  rcases subproblem1_cases p q k with h1 | h1 | ⟨y, z, h1 | h1⟩
  · rw [h1] at h; cases h
  · rw [h1] at h; cases h
    exact RepS.of Rep.zero
  · rw [h1] at h; cases h
    exact repS_mul hE _ _
  · rw [h1] at h; cases h
    exact RepS.neg hE (repS_mul hE _ _)

theorem subproblem2_rep {p q k1 k2 : V3 (Fl F)} {l : List (Fl F × Fl F)} (h : subproblem2 p q k1 k2 = .ok l) {z : Fl F × Fl F} (hz : z ∈ l) :
    RepS z.1 ∧ RepS z.2 := by
  unfold subproblem2 at h
  dsimp only at h
  split_ifs at h
  iterate 2 (cases h; cases hz)
  · obtain ⟨a, ha, h⟩ := Except.bind_eq_ok h
    obtain ⟨b, hb, h⟩ := Except.bind_eq_ok h
    cases h
    rw [List.mem_singleton] at hz
    subst hz
    exact ⟨RepS.neg hE (subproblem1_rep hE hb), subproblem1_rep hE ha⟩
  · obtain ⟨a, ha, h⟩ := Except.bind_eq_ok h
    obtain ⟨b, hb, h⟩ := Except.bind_eq_ok h
    obtain ⟨c, hc, h⟩ := Except.bind_eq_ok h
    obtain ⟨d, hd, h⟩ := Except.bind_eq_ok h
    cases h
    rw [List.mem_cons, List.mem_singleton] at hz
    rcases hz with rfl | rfl
    · exact ⟨RepS.neg hE (subproblem1_rep hE ha), subproblem1_rep hE hc⟩
    · exact ⟨RepS.neg hE (subproblem1_rep hE hb), subproblem1_rep hE hd⟩
  · cases h; cases hz
  · obtain ⟨a, ha, h⟩ := Except.bind_eq_ok h
    obtain ⟨b, hb, h⟩ := Except.bind_eq_ok h
    cases h
    rw [List.mem_singleton] at hz
    subst hz
    exact ⟨RepS.neg hE (subproblem1_rep hE hb), subproblem1_rep hE ha⟩
  · obtain ⟨a, ha, h⟩ := Except.bind_eq_ok h
    obtain ⟨b, hb, h⟩ := Except.bind_eq_ok h
    obtain ⟨c, hc, h⟩ := Except.bind_eq_ok h
    obtain ⟨d, hd, h⟩ := Except.bind_eq_ok h
    cases h
    rw [List.mem_cons, List.mem_singleton] at hz
    rcases hz with rfl | rfl
    · exact ⟨RepS.neg hE (subproblem1_rep hE ha), subproblem1_rep hE hc⟩
    · exact ⟨RepS.neg hE (subproblem1_rep hE hb), subproblem1_rep hE hd⟩

theorem subproblem3_rep {p q k : V3 (Fl F)} {d : Fl F} {l : List (Fl F)} (h : subproblem3 p q k d = .ok l) {t : Fl F} (ht : t ∈ l) : RepS t := by
  unfold subproblem3 at h
  dsimp only at h
  split_ifs at h
  · cases h; cases ht
  · obtain ⟨a, ha, h⟩ := Except.bind_eq_ok h
    cases h
    rw [List.mem_cons, List.mem_singleton] at ht
    rcases ht with rfl | rfl
    · exact repS_add hE _ _
    · exact repS_sub hE _ _
  · obtain ⟨a, ha, h⟩ := Except.bind_eq_ok h
    cases h
    rw [List.mem_singleton] at ht
    subst ht
    exact subproblem1_rep hE ha

theorem subproblem4_rep {p q k : V3 (Fl F)} {d t : Fl F} (ht : t ∈ subproblem4 p q k d) : RepS t := by
  unfold subproblem4 at ht
  dsimp only at ht
  split_ifs at ht
  · cases ht
  · rw [List.mem_cons, List.mem_singleton] at ht
    rcases ht with rfl | rfl
    · exact repS_add hE _ _
    · exact repS_add hE _ _

end

/-! ## What is needed of `normalize_joints` -/

/-- The computed angle, if finite, is at most `S`. -/
def Sz (S : ℝ) (x : Fl F) : Prop := ∀ v, x.val = .fin v → |v| ≤ S

/-- The computed angle is finite, at most `S`, and a floating-point number. -/
structure Good (S : ℝ) (x : Fl F) : Prop where
  fin : ∃ v, x.val = .fin v
  sz : Sz S x
  rep : RepS x

/-- The computed angle, if finite, is at most `S`, and a floating-point number if the results of operations are. -/
structure Made (S : ℝ) (x : Fl F) : Prop where
  sz : Sz S x
  rep : Spec.ExactRnd F → RepS x

theorem _root_.Spec.AngNear.fin {x : Fl F} {θ d : ℝ} (h : Spec.AngNear x θ d) : ∃ v, x.val = .fin v := by
  obtain ⟨n, v, hv, -⟩ := h
  exact ⟨v, hv⟩

/-- The same angle, up to `e`. -/
def Same (e : ℝ) (y x : Fl F) : Prop := ∀ {θ d : ℝ}, Spec.AngNear x θ d → Spec.AngNear y θ (d + e)

theorem Same.refl (x : Fl F) : Same 0 x x := fun h => by rwa [add_zero]

/-- The calls return for angles of at most `S`, and what they return are the same angles up to `e`. -/
structure Keeps (N : Normalizer (Fl F)) (S e : ℝ) : Prop where
  nonneg : 0 ≤ e
  one : ∀ {j : ℕ} {x : Fl F}, j < 6 → Good S x → ∃ o, N.one j x = .ok o ∧ ∀ y, o = some y → Same e y x
  callS : ∀ {j : ℕ} {l : List (Fl F)}, j < 6 → (∀ x ∈ l, Good S x) → ∃ l', N.callS j l = .ok l' ∧ ∀ y ∈ l', ∃ x ∈ l, Same e y x
  callV : ∀ {i j : ℕ} {l : List (Fl F × Fl F)}, i < 6 → j < 6 → (∀ z ∈ l, Good S z.1 ∧ Good S z.2) →
    ∃ l', N.callV [i, j] (l.map fun z => [z.1, z.2]) = .ok l' ∧ ∀ z ∈ l', ∃ w ∈ l, ∃ a b, z = [a, b] ∧ Same e a w.1 ∧ Same e b w.2

/-- If the calls return, an angle of at most `S j` within `d ≤ D` of joint `j` of `q` stays in the list, perhaps moved by whole turns and `e`; `A j y d` says in which sense it is then near. -/
structure Follows (N : Normalizer (Fl F)) (q : ℕ → ℝ) (A : ℕ → Fl F → ℝ → Prop) (S : ℕ → ℝ) (D e : ℝ) : Prop where
  nonneg : 0 ≤ e
  ang : ∀ {j : ℕ} {y : Fl F} {d : ℝ}, A j y d → Spec.AngNear y (q j) d
  mono : ∀ {j : ℕ} {y : Fl F} {d d' : ℝ}, A j y d → d ≤ d' → A j y d'
  one : ∀ {j : ℕ} {x : Fl F} {d : ℝ} {o : Option (Fl F)}, j < 6 → Made (S j) x → Spec.AngNear x (q j) d → d ≤ D → N.one j x = .ok o →
    ∃ y, o = some y ∧ A j y (d + e)
  callS : ∀ {j : ℕ} {x : Fl F} {d : ℝ} {l l' : List (Fl F)}, j < 6 → x ∈ l → Made (S j) x → Spec.AngNear x (q j) d → d ≤ D → N.callS j l = .ok l' →
    ∃ y ∈ l', A j y (d + e)
  callV : ∀ {i j : ℕ} {z : Fl F × Fl F} {d : ℝ} {l : List (Fl F × Fl F)} {l' : List (List (Fl F))}, i < 6 → j < 6 → z ∈ l → Made (S i) z.1 → Made (S j) z.2 →
    Spec.AngNear z.1 (q i) d → Spec.AngNear z.2 (q j) d → d ≤ D → N.callV [i, j] (l.map fun z => [z.1, z.2]) = .ok l' →
    ∃ a b, [a, b] ∈ l' ∧ A i a (d + e) ∧ A j b (d + e)

/-- Angles of at most `S` are at most `T` after a call. -/
def Bounded (N : Normalizer (Fl F)) (S T : ℝ) : Prop := ∀ {j : ℕ} {x y : Fl F}, j < 6 → Good S x → N.normalize j x = .ok (some y) → Sz T y

/-! ## Without limits and last joint values, `normalize_joints` does nothing -/

theorem one_free {α : Type} [Add α] [Sub α] [Mul α] [Div α] [Neg α] [Zero α] [One α] [LT α] [LE α]
    [DecidableLT α] [DecidableLE α] [Elem α] (j : Nat) (q : α) : Normalizer.one ⟨none, none⟩ j q = .ok (some q) := by
  rfl

theorem callS_free {α : Type} [Add α] [Sub α] [Mul α] [Div α] [Neg α] [Zero α] [One α] [LT α] [LE α]
    [DecidableLT α] [DecidableLE α] [Elem α] (j : Nat) (l : List α) : Normalizer.callS ⟨none, none⟩ j l = .ok l := by
  have : l.mapM (Normalizer.normalize (⟨none, none⟩ : Normalizer α) j) = .ok (l.map some) := by
    induction l with
    | nil => rfl
    | cons a l ih => rw [List.mapM_cons, ih]; rfl
  rw [Normalizer.callS, this, Except.bind_ok]
  show Except.ok _ = _
  congr 1
  simp

theorem callV_free {α : Type} [Add α] [Sub α] [Mul α] [Div α] [Neg α] [Zero α] [One α] [LT α] [LE α]
    [DecidableLT α] [DecidableLE α] [Elem α] (i j : Nat) (l : List (α × α)) :
    Normalizer.callV ⟨none, none⟩ [i, j] (l.map fun z => [z.1, z.2]) = .ok (l.map fun z => [z.1, z.2]) := by
  have : (l.map fun z => [z.1, z.2]).mapM (fun t1 => do
      let t3 ← ([i, j].zip t1).mapM fun jt => Normalizer.normalize (⟨none, none⟩ : Normalizer α) jt.1 jt.2
      return if t3.all Option.isSome then some (t3.filterMap id) else none : List α → Except PyErr (Option (List α))) =
      .ok (l.map fun z => some [z.1, z.2]) := by
    induction l with
    | nil => rfl
    | cons a l ih => rw [List.map_cons, List.mapM_cons, ih]; rfl
  rw [Normalizer.callV, this, Except.bind_ok]
  show Except.ok _ = _
  congr 1
  induction l with
  | nil => rfl
  | cons a l ih => simp

theorem Keeps.free (S : ℝ) : Keeps (⟨none, none⟩ : Normalizer (Fl F)) S 0 where
  nonneg := le_rfl
  one _ _ := ⟨_, one_free _ _, fun y h => by cases h; exact Same.refl _⟩
  callS _ _ := ⟨_, callS_free _ _, fun y h => ⟨y, h, Same.refl _⟩⟩
  callV _ _ _ := ⟨_, callV_free _ _ _, fun z h => by
    obtain ⟨w, hw, rfl⟩ := List.mem_map.1 h
    exact ⟨w, hw, _, _, rfl, Same.refl _, Same.refl _⟩⟩

theorem Bounded.free (S : ℝ) : Bounded (⟨none, none⟩ : Normalizer (Fl F)) S S := by
  intro j x y _ hx h
  cases h
  exact hx.sz

theorem Follows.free (q : ℕ → ℝ) (S : ℕ → ℝ) (D : ℝ) : Follows (⟨none, none⟩ : Normalizer (Fl F)) q (fun j y d => Spec.AngNear y (q j) d) S D 0 where
  nonneg := le_rfl
  ang h := h
  mono h hd := AngNear.mono' h hd
  one _ _ h _ ho := by
    rw [one_free] at ho; cases ho
    exact ⟨_, rfl, by rwa [add_zero]⟩
  callS _ hx _ h _ hl := by
    rw [callS_free] at hl; cases hl
    exact ⟨_, hx, by rwa [add_zero]⟩
  callV _ _ hz _ _ h1 h2 _ hl := by
    rw [callV_free] at hl; cases hl
    exact ⟨_, _, List.mem_map.2 ⟨_, hz, rfl⟩, by rwa [add_zero], by rwa [add_zero]⟩

end Fl
