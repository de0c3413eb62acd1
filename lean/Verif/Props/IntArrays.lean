import Verif.Model.IntArrays
import Verif.Props.Jacobian
import Verif.Lemmas.Normalize
import Verif.Lemmas.Opw
import Verif.Props.TesseractParams
import Mathlib.NumberTheory.Real.Irrational
import Mathlib.Analysis.Real.Pi.Irrational
import Mathlib.Analysis.Real.Pi.Bounds

/-!
# Property C103: arrays of integers
-/
set_option autoImplicit false

/-! ## Helper lemmas -/

theorem storeInt_real (x : ℝ) : storeInt x = (Real.trunc x : ℝ) := by
  show (((Real.trunc x : ℤ) : ℚ) : ℝ) = _
  simp

theorem storeInt_int (k : ℤ) : storeInt (k : ℝ) = k := by rw [storeInt_real, trunc_int]

theorem trunc_lt {x : ℝ} : x - 1 < Real.trunc x ∧ (Real.trunc x : ℝ) < x + 1 := by
  unfold Real.trunc
  split_ifs
  · exact ⟨by linarith [Int.lt_floor_add_one x], by linarith [Int.floor_le x]⟩
  · exact ⟨by linarith [Int.le_ceil x], by linarith [Int.ceil_lt_add_one x]⟩

/-- a vector all of whose entries are integers -/
def Spec.IntVec (θ : List ℝ) : Prop := ∀ x ∈ θ, ∃ k : ℤ, x = k

/-- What holds of the configurations found when the joints before `i` have been treated. -/
def IntInv (θ : List ℝ) (i : Nat) (E : List (List ℝ)) : Prop :=
  ∀ e ∈ E, Spec.IntVec e ∧ e.length = θ.length ∧ (∃ j < i, e[j]? ≠ θ[j]?) ∧ ∀ j, i ≤ j → e[j]? = θ[j]?

theorem IntVec.modify {e : List ℝ} (h : Spec.IntVec e) (i : Nat) (f : ℝ → ℝ) : Spec.IntVec (e.modify i fun x => storeInt (f x)) := by
  intro x hx
  obtain ⟨j, hj⟩ := List.mem_iff_getElem?.1 hx
  rw [List.getElem?_modify] at hj
  cases he : e[j]? with
  | none => rw [he] at hj; cases hj
  | some y =>
    rw [he] at hj
    by_cases hij : i = j
    · have hj' : storeInt (f y) = x := by simpa [hij] using hj
      exact ⟨Real.trunc (f y), by rw [← hj', storeInt_real]⟩
    · have hj' : y = x := by simpa [hij] using hj
      rw [← hj']
      exact h y (List.mem_iff_getElem?.2 ⟨j, he⟩)

theorem equivJoint_inv (θ : List ℝ) (hθ : Spec.IntVec θ) (i nu nl : Nat) (hi : i < θ.length) (E : List (List ℝ)) (hE : IntInv θ i E) :
    IntInv θ (i + 1) (equivJointStored storeInt θ i nu nl E) := by
  have step : ∀ (f : ℝ → ℝ), (∀ x, x + 1 < f x ∨ f x < x - 1) → ∀ t ∈ E ++ [θ],
      Spec.IntVec (shiftJoint t i fun x => storeInt (f x)) ∧ (shiftJoint t i fun x => storeInt (f x)).length = θ.length ∧
      (∃ j < i + 1, (shiftJoint t i fun x => storeInt (f x))[j]? ≠ θ[j]?) ∧
      ∀ j, i + 1 ≤ j → (shiftJoint t i fun x => storeInt (f x))[j]? = θ[j]? := by
    intro f hf t ht
    unfold shiftJoint
    have hti : t[i]? = θ[i]? ∧ Spec.IntVec t ∧ t.length = θ.length ∧ ∀ j, i ≤ j → t[j]? = θ[j]? := by
      rcases List.mem_append.1 ht with h | h
      · obtain ⟨a, b, -, d⟩ := hE t h
        exact ⟨d i le_rfl, a, b, d⟩
      · rw [List.mem_singleton.1 h]; exact ⟨rfl, hθ, rfl, fun _ _ => rfl⟩
    obtain ⟨h1, h2, h3, h4⟩ := hti
    refine ⟨IntVec.modify h2 i f, by rw [List.length_modify, h3], ⟨i, Nat.lt_succ_self i, ?_⟩, fun j hj => ?_⟩
    · rw [List.getElem?_modify, h1, List.getElem?_eq_getElem hi]
      intro e
      have e' : storeInt (f θ[i]) = θ[i] := by simpa using e
      rw [storeInt_real] at e'
      have := @trunc_lt (f θ[i])
      rcases hf θ[i] with h | h
      · linarith [this.1, this.2]
      · linarith [this.1, this.2]
    · rw [List.getElem?_modify, h4 j (by omega)]
      have : i ≠ j := by omega
      simp [this]
  intro e he
  unfold equivJointStored at he
  rcases List.mem_append.1 he with he | he
  · obtain ⟨a, b, ⟨j, hj, hne⟩, d⟩ := hE e he
    exact ⟨a, b, ⟨j, by omega, hne⟩, fun k hk => d k (by omega)⟩
  have tp : ∀ j : Nat, 1 < (twoPi : ℝ) * lit ((j + 1 : Nat) : Rat) := by
    intro j
    have h2 : (twoPi : ℝ) = 2 * Real.pi := by
      show ((2 : ℚ) : ℝ) * Real.pi = _
      norm_num
    have h3 : (lit ((j + 1 : Nat) : Rat) : ℝ) = (j : ℝ) + 1 := by
      show (((j + 1 : Nat) : ℚ) : ℝ) = _
      push_cast; ring
    rw [h2, h3]
    have := Real.two_le_pi
    have hj : (0 : ℝ) ≤ j := Nat.cast_nonneg j
    nlinarith
  rcases List.mem_append.1 he with he | he
  · obtain ⟨j, -, he⟩ := List.mem_flatMap.1 he
    obtain ⟨t, ht, rfl⟩ := List.mem_map.1 he
    exact step _ (fun x => Or.inl (by linarith [tp j])) t ht
  · obtain ⟨j, -, he⟩ := List.mem_flatMap.1 he
    obtain ⟨t, ht, rfl⟩ := List.mem_map.1 he
    exact step _ (fun x => Or.inr (by linarith [tp j])) t ht

theorem equivFold_inv (types : List Nat) (θ : List ℝ) (hθ : Spec.IntVec θ) (l : List (ℝ × ℝ)) (i : Nat) (hl : i + l.length = θ.length)
    (E E' : List (List ℝ)) (hE : IntInv θ i E)
    (h : (l.zipIdx i).foldlM (init := E) (fun equiv x => (do
      if 0 < x.1.1 ∨ 0 < x.1.2 then
        let ty ← getI types x.2
        if ty ≠ 0 then return equiv
        let nu ← rangeLen x.1.1
        let nl ← rangeLen x.1.2
        return equivJointStored storeInt θ x.2 nu nl equiv
      else return equiv : Except PyErr (List (List ℝ)))) = .ok E') : IntInv θ θ.length E' := by
  have mono : ∀ E, IntInv θ i E → IntInv θ (i + 1) E := fun E hE e he => by
    obtain ⟨a, b, ⟨j, hj, hne⟩, d⟩ := hE e he
    exact ⟨a, b, ⟨j, by omega, hne⟩, fun k hk => d k (by omega)⟩
  induction l generalizing i E with
  | nil =>
    simp only [List.zipIdx_nil, List.foldlM_nil] at h
    cases h
    simp only [List.length_nil, add_zero] at hl
    rw [← hl]; exact hE
  | cons x l ih =>
    simp only [List.zipIdx_cons, List.foldlM_cons] at h
    obtain ⟨E1, h1, h⟩ := Except.bind_eq_ok h
    simp only [List.length_cons] at hl
    have hE1 : IntInv θ (i + 1) E1 := by
      split_ifs at h1 with hp
      · obtain ⟨ty, -, h1⟩ := Except.bind_eq_ok h1
        split_ifs at h1 with ht
        · cases h1; exact mono E hE
        · obtain ⟨nu, -, h1⟩ := Except.bind_eq_ok h1
          obtain ⟨nl, -, h1⟩ := Except.bind_eq_ok h1
          cases h1
          exact equivJoint_inv θ hθ i nu nl (by omega) E hE
      · cases h1; exact mono E hE
    refine ih (i + 1) (by omega) E1 hE1 h (fun E hE e he => ?_)
    obtain ⟨a, b, ⟨j, hj, hne⟩, d⟩ := hE e he
    exact ⟨a, b, ⟨j, by omega, hne⟩, fun k hk => d k (by omega)⟩

/-- an integer is not a whole number of turns away from another integer -/
theorem turns_int (a b n : ℤ) (h : (b : ℝ) = a + n * (2 * Real.pi)) : b = a := by
  by_cases hn : n = 0
  · subst hn; simp at h; exact_mod_cast h
  · exfalso
    have hi := irrational_pi
    apply hi
    refine ⟨((b - a : ℤ) : ℚ) / ((2 * n : ℤ) : ℚ), ?_⟩
    have hn' : (n : ℝ) ≠ 0 := by exact_mod_cast hn
    push_cast
    field_simp
    linarith

theorem shiftTurns_int : ∀ (ts : List Nat) (θ e : List ℝ) (ns : List ℤ), Spec.IntVec θ → Spec.IntVec e → e = shiftTurns ts θ ns → e = θ
  | [], θ, _, _, _, _, h => by cases θ <;> exact h
  | _ :: _, [], _, _, _, _, h => h
  | _ :: _, _ :: _, _, [], _, _, h => h
  | t :: ts, x :: θ, e, n :: ns, hθ, he, h => by
    simp only [shiftTurns] at h
    subst h
    have ih := shiftTurns_int ts θ _ ns (fun y hy => hθ y (List.mem_cons_of_mem _ hy)) (fun y hy => he y (List.mem_cons_of_mem _ hy)) rfl
    rw [ih]
    congr 1
    obtain ⟨b, hb⟩ := he _ List.mem_cons_self
    obtain ⟨a, ha⟩ := hθ x List.mem_cons_self
    split_ifs with ht
    · rw [if_pos ht] at hb
      rw [hb, ha]
      rw [ha] at hb
      rw [turns_int a b n hb.symm]
    · rfl

/-- a vector of integers -/
def Spec.Int3 (v : V3 ℝ) : Prop := ∃ a b c : ℤ, v = ⟨a, b, c⟩

theorem Spec.Int3.bend {v : V3 ℝ} (h : Spec.Int3 v) : Spec.Int3 ((rot V3.ey (-Elem.pi / lit 2)).mulVec v) := by
  obtain ⟨a, b, c, rfl⟩ := h
  rw [bend_rot]
  exact ⟨-c, b, a, by ext <;> simp⟩

theorem Spec.Int3.store {v : V3 ℝ} (h : Spec.Int3 v) : storeInt3 v = v := by
  obtain ⟨a, b, c, rfl⟩ := h
  simp only [storeInt3, storeInt_int]

/-- all columns of `P2` and `H2` that can change consist of integers -/
def OpwInt (s : OpwState ℝ) : Prop := ∀ v ∈ [s.p2, s.p3, s.p4, s.p5, s.p6, s.h2, s.h3, s.h4, s.h5], Spec.Int3 v

theorem bendInt_eq (s : OpwState ℝ) (h : OpwInt s) : s.bendInt = s.bend ∧ Spec.Int3 s.bend.p2 := by
  have hs : ∀ v ∈ [s.p2, s.p3, s.p4, s.p5, s.p6, s.h2, s.h3, s.h4, s.h5],
      storeInt3 ((rot V3.ey (-Elem.pi / lit 2)).mulVec v) = (rot V3.ey (-Elem.pi / lit 2)).mulVec v :=
    fun v hv => (h v hv).bend.store
  simp only [List.forall_mem_cons, List.not_mem_nil, false_imp_iff, implies_true, and_true] at hs
  obtain ⟨e1, e2, e3, e4, e5, e6, e7, e8, e9⟩ := hs
  have b2 : s.bend2Int = s.bend2 := by
    unfold OpwState.bend2Int OpwState.bend2
    simp only [e1, e2, e3, e4, e5, e6, e7, e8, e9]
  have b3 : s.bend3Int = s.bend3 := by
    unfold OpwState.bend3Int OpwState.bend3
    simp only [e2, e3, e4, e5, e7, e8, e9]
  have hp := h s.p2 (by simp)
  constructor
  · unfold OpwState.bendInt OpwState.bend
    rw [b2, b3]
  · unfold OpwState.bend
    split_ifs
    · exact hp.bend
    · exact hp
    · exact hp.bend
    · exact hp

theorem bend_p2_norm (s : OpwState ℝ) : s.bend.p2.x ^ 2 + s.bend.p2.z ^ 2 = s.p2.x ^ 2 + s.p2.z ^ 2 := by
  have : (((rot V3.ey (-Elem.pi / lit 2)).mulVec s.p2).x) ^ 2 + (((rot V3.ey (-Elem.pi / lit 2)).mulVec s.p2).z) ^ 2 =
      s.p2.x ^ 2 + s.p2.z ^ 2 := by
    rw [bend_rot]; simp; ring
  unfold OpwState.bend
  split_ifs
  · exact this
  · rfl
  · exact this
  · rfl

theorem straightenInt_eq (s : OpwState ℝ) (h : Spec.Int3 s.p2) :
    s.straightenInt = { s.straighten with p2 := ⟨s.straighten.p2.x, s.straighten.p2.y, (Real.trunc s.straighten.p2.z : ℝ)⟩ } ∧
    s.straighten.p2.z ^ 2 = s.p2.x ^ 2 + s.p2.z ^ 2 := by
  obtain ⟨a, b, c, hv⟩ := h
  unfold OpwState.straightenInt OpwState.straighten
  split_ifs with hc
  · have ha : a = 0 := by
      have := iscloseD_zero hc
      rw [hv] at this
      simp only at this
      by_contra hne
      have h1 : (1 : ℝ) ≤ |(a : ℝ)| := by exact_mod_cast Int.one_le_abs hne
      linarith
    refine ⟨?_, ?_⟩
    · obtain ⟨p2, p3, p4, p5, p6, h2, h3, h4, h5, o1, o2⟩ := s
      simp only at hv
      subst hv
      simp only [trunc_int]
    · rw [hv, ha]; simp
  · have hrot : (rot V3.ey (-Elem.arctan2 s.p2.x s.p2.z)).mulVec s.p2 = ⟨0, b, Real.sqrt (s.p2.z * s.p2.z + s.p2.x * s.p2.x)⟩ := by
      rw [rot_ey_mulVec]
      obtain ⟨h1, h2⟩ := polar_arg s.p2.z s.p2.x
      show (⟨Real.cos (-Complex.arg ⟨s.p2.z, s.p2.x⟩) * s.p2.x + Real.sin (-Complex.arg ⟨s.p2.z, s.p2.x⟩) * s.p2.z, s.p2.y,
        -Real.sin (-Complex.arg ⟨s.p2.z, s.p2.x⟩) * s.p2.x + Real.cos (-Complex.arg ⟨s.p2.z, s.p2.x⟩) * s.p2.z⟩ : V3 ℝ) = _
      rw [Real.cos_neg, Real.sin_neg]
      have hk : ∀ k φ, k * Real.cos φ = s.p2.z → k * Real.sin φ = s.p2.x →
          (⟨Real.cos φ * s.p2.x + -Real.sin φ * s.p2.z, s.p2.y, - -Real.sin φ * s.p2.x + Real.cos φ * s.p2.z⟩ : V3 ℝ) = ⟨0, s.p2.y, k⟩ := by
        intro k φ g1 g2
        have := Real.sin_sq_add_cos_sq φ
        ext
        · show Real.cos φ * s.p2.x + -Real.sin φ * s.p2.z = 0
          rw [← g1, ← g2]; ring
        · rfl
        · show - -Real.sin φ * s.p2.x + Real.cos φ * s.p2.z = k
          rw [← g1, ← g2]
          linear_combination k * this
      rw [hk _ _ h1 h2]
      rw [show s.p2.y = (b : ℝ) by rw [hv]]
    simp only [hrot]
    refine ⟨?_, ?_⟩
    · simp only [storeInt3, storeInt_real, trunc_int]
      have h0 : Real.trunc (0 : ℝ) = 0 := by have := trunc_int 0; simpa using this
      rw [h0]; simp
    · rw [Real.sq_sqrt (by nlinarith [sq_nonneg s.p2.z, sq_nonneg s.p2.x])]; ring

theorem npRound_int (k : ℤ) (n : Nat) : npRound n (k : ℝ) = k := by
  have h10 : (0 : ℝ) < 10 ^ n := by positivity
  have e : (lit (10 ^ n) : ℝ) = 10 ^ n := by show ((10 ^ n : ℚ) : ℝ) = _; push_cast; rfl
  have hr : ∀ m : ℤ, (Elem.rint (m : ℝ) : ℝ) = m := by
    intro m
    have h1 : (Elem.rint (m : ℝ) : ℝ) = (Real.rintEven (m : ℝ) : ℝ) := rfl
    rw [h1]
    have := rintEven_err (m : ℝ)
    have h3 : |((Real.rintEven (m : ℝ) - m : ℤ) : ℝ)| ≤ 1 / 2 := by push_cast; exact this
    have h2 : |(Real.rintEven (m : ℝ) - m : ℤ)| < 1 := by
      have : ((|(Real.rintEven (m : ℝ) - m : ℤ)| : ℤ) : ℝ) < 1 := by push_cast; push_cast at h3; linarith
      exact_mod_cast this
    have := Int.abs_lt_one_iff.1 h2
    have : Real.rintEven (m : ℝ) = m := by omega
    rw [this]
  unfold npRound
  rw [e]
  have : (k : ℝ) * 10 ^ n = ((k * 10 ^ n : ℤ) : ℝ) := by push_cast; rfl
  rw [this, hr]
  push_cast
  field_simp

theorem Except.bind_congr' {ε α β : Type} {x : Except ε α} {f g : α → Except ε β} (R : Except ε β → Except ε β → Prop)
    (hr : ∀ e, R (.error e) (.error e)) (h : ∀ a, R (f a) (g a)) : R (x >>= f) (x >>= g) := by
  cases x with
  | error e => exact hr e
  | ok a => exact h a

/-- The result for an array of integers against the result for the same array of floats: the same exception, or the same parameters
with the fraction of the upper arm dropped. -/
def Spec.CutUpper (r2 : ℝ) (float int : Except PyErr (OpwParams ℝ)) : Prop :=
  (∃ e, float = .error e ∧ int = .error e) ∨
  ∃ q w, float = .ok q ∧ w ^ 2 = r2 ∧ |q.c2 - w| ≤ 1 / 2 / 10 ^ 6 ∧ int = .ok { q with c2 := (Real.trunc w : ℝ) }

/-! ## C103 -/

/-- C103: for arrays of floats the functions with conversion on assignment are those of the rest of the model. -/
theorem C103_floats {α : Type} [Add α] [Sub α] [Mul α] [Div α] [Neg α] [Zero α] [One α] [LT α] [LE α]
    [DecidableLT α] [DecidableLE α] [Elem α] (robot : Robot α) (θs : List (List α)) (last : Option (List α)) :
    equivalentStored id robot θs last = equivalent_configurations robot θs last := rfl

/-- C103 fails for `equivalent_configurations`: given a joint vector in an array of integers, no vector it returns is equivalent to
it: each is another vector of integers, and differs from the given one by something that is not a whole number of turns. -/
theorem C103_equivalent_false (robot : Robot ℝ) (lo up θ : List ℝ) (hlo : robot.lower = some lo) (hup : robot.upper = some up)
    (ll : lo.length = θ.length) (lu : up.length = θ.length) (hθ : Spec.IntVec θ) (sols : List (List ℝ))
    (h : equivalentStored storeInt robot [θ] = .ok sols) :
    ∀ θ' ∈ sols, θ' ≠ θ ∧ Spec.IntVec θ' ∧ ∀ ts ns, θ' ≠ shiftTurns ts θ ns := by
  unfold equivalentStored at h
  obtain ⟨E, h1, h⟩ := Except.bind_eq_ok h
  obtain ⟨_, -, h⟩ := Except.bind_eq_ok h
  have hE : sols = E := by cases h; rfl
  subst hE
  have h1' : equivOneStored storeInt robot θ = .ok sols := by
    cases he : equivOneStored storeInt robot θ with
    | error e => simp [forAppend, he, bind, Except.bind] at h1
    | ok E' => simp [forAppend, he, bind, Except.bind, pure, Except.pure] at h1; rw [h1]
  unfold equivOneStored at h1'
  rw [hlo, hup] at h1'
  simp only [bcast, if_pos lu, if_pos ll.symm, Except.bind_ok] at h1'
  rw [if_pos (by simp [ll, lu])] at h1'
  have hinv := equivFold_inv robot.jointType θ hθ _ 0 (by simp [ll, lu]) [] sols (fun e he => by cases he) h1'
  intro θ' hθ'
  obtain ⟨a, b, ⟨j, -, hne⟩, -⟩ := hinv θ' hθ'
  have hd : θ' ≠ θ := fun e => hne (by rw [e])
  exact ⟨hd, a, fun ts ns e => hd (shiftTurns_int ts θ θ' ns hθ a e)⟩

/-- C103, on the parameters of the OPW solver: a robot whose matrices `H` and `P` are arrays of integers gives the same exception
as with arrays of floats, or the same parameters except for the length of the upper arm, whose fraction is lost. -/
theorem C103_opw_partial (robot : Robot ℝ) (p0 p1 p2 p3 p4 p5 p6 : V3 ℝ) (hP : robot.P = [p0, p1, p2, p3, p4, p5, p6])
    (iH : ∀ h ∈ robot.H, Spec.Int3 h) (iP : ∀ p ∈ robot.P, Spec.Int3 p) :
    Spec.CutUpper (p2.x ^ 2 + p2.z ^ 2) (robotToOpw robot) (robotToOpwInt robot) := by
  have err : ∀ e, Spec.CutUpper (p2.x ^ 2 + p2.z ^ 2) (.error e) (.error e) := fun e => Or.inl ⟨e, rfl, rfl⟩
  unfold robotToOpw robotToOpwInt
  cases robot.Tflange with
  | none => exact err _
  | some F =>
    simp only
    refine Except.bind_congr' _ err fun _ => Except.bind_congr' _ err fun _ => Except.bind_congr' _ err fun _ => ?_
    rw [hP] at iP ⊢
    rcases hH : robot.H with _ | ⟨h0, _ | ⟨h1, _ | ⟨h2, _ | ⟨h3, _ | ⟨h4, _ | ⟨h5, _ | ⟨_, _⟩⟩⟩⟩⟩⟩⟩ <;> try exact err _
    rw [hH] at iH
    refine Except.bind_congr' _ err fun _ => Except.bind_congr' _ err fun _ => Except.bind_congr' _ err fun _ =>
      Except.bind_congr' _ err fun _ => Except.bind_congr' _ err fun _ => Except.bind_congr' _ err fun _ => ?_
    have hint : OpwInt ⟨p2, p3, p4, p5, p6, h2, h3, h4, h5, 0, 0⟩ := by
      intro v hv
      simp only [List.mem_cons, List.not_mem_nil, or_false] at hv
      rcases hv with rfl | rfl | rfl | rfl | rfl | rfl | rfl | rfl | rfl
      · exact iP _ (by simp)
      · exact iP _ (by simp)
      · exact iP _ (by simp)
      · exact iP _ (by simp)
      · exact iP _ (by simp)
      · exact iH _ (by simp)
      · exact iH _ (by simp)
      · exact iH _ (by simp)
      · exact iH _ (by simp)
    obtain ⟨b1, b2⟩ := bendInt_eq _ hint
    obtain ⟨s1, s2⟩ := straightenInt_eq _ b2
    rw [b1, s1]
    rw [bend_p2_norm] at s2
    generalize (OpwState.mk p2 p3 p4 p5 p6 h2 h3 h4 h5 0 0).bend.straighten = t at s1 s2 ⊢
    unfold OpwState.params
    refine Except.bind_congr' _ err fun _ => Except.bind_congr' _ err fun _ => Except.bind_congr' _ err fun _ => ?_
    refine Or.inr ⟨_, t.p2.z, rfl, s2, npRound_err 6 _, ?_⟩
    simp only [npRound_int]
    rfl

/-- C103 fails for the parameters of the OPW solver: an integer upper arm of squared length `n` that is not the square of an integer
comes out at least `|√n - k|` wrong for the nearest integer `k`, whatever the rest of the robot. -/
theorem C103_opw_false (robot : Robot ℝ) (p0 p1 p2 p3 p4 p5 p6 : V3 ℝ) (hP : robot.P = [p0, p1, p2, p3, p4, p5, p6])
    (iH : ∀ h ∈ robot.H, Spec.Int3 h) (iP : ∀ p ∈ robot.P, Spec.Int3 p) (q : OpwParams ℝ) (hq : robotToOpw robot = .ok q)
    (d : ℝ) (hd : 1 / 10 ^ 6 < d) (hn : ∀ w : ℝ, w ^ 2 = p2.x ^ 2 + p2.z ^ 2 → ∀ k : ℤ, d ≤ |w - k|) :
    ∃ q', robotToOpwInt robot = .ok q' ∧ d / 2 < |q'.c2 - q.c2| := by
  rcases C103_opw_partial robot p0 p1 p2 p3 p4 p5 p6 hP iH iP with ⟨e, he, -⟩ | ⟨q', w, h1, h2, h3, h4⟩
  · rw [hq] at he; cases he
  · rw [hq] at h1; cases h1
    refine ⟨_, h4, ?_⟩
    have := hn w h2 (Real.trunc w)
    have tri : |w - (Real.trunc w : ℝ)| ≤ |q.c2 - w| + |(Real.trunc w : ℝ) - q.c2| := by
      have e : w - (Real.trunc w : ℝ) = -((q.c2 - w) + ((Real.trunc w : ℝ) - q.c2)) := by ring
      rw [e, abs_neg]; exact abs_add_le _ _
    show d / 2 < |(Real.trunc w : ℝ) - q.c2|
    norm_num at h3 hd
    linarith

/-! ## Examples -/

/-- one rotary joint with limits of ±7 rad -/
noncomputable def exOneTurn : Robot ℝ :=
  { H := [V3.ez], P := [0, V3.ex], jointType := [0], lower := some [-7], upper := some [7], vel := none, acc := none }

theorem exOneTurn_int : equivalentStored storeInt exOneTurn [[0]] = .ok [[6], [-6]] := by
  have hp1 := Real.pi_gt_three
  have hp2 := Real.pi_lt_d2
  have h2 : (twoPi : ℝ) = 2 * Real.pi := by
    show ((2 : ℚ) : ℝ) * Real.pi = _
    norm_num
  have hf : Elem.floorDiv (7 : ℝ) twoPi = 1 := by
    rw [h2]
    show ((⌊(7 : ℝ) / (2 * Real.pi)⌋ : ℤ) : ℝ) = 1
    have : ⌊(7 : ℝ) / (2 * Real.pi)⌋ = 1 := by
      rw [Int.floor_eq_iff]
      constructor
      · rw [le_div_iff₀ (by linarith)]; push_cast; linarith
      · rw [div_lt_iff₀ (by linarith)]; push_cast; linarith
    rw [this]; simp
  have ht : Elem.toInt (1 : ℝ) = some 1 := by
    show some (Real.trunc (1 : ℝ)) = some 1
    have := trunc_int 1
    push_cast at this
    rw [this]
  have hr : rangeLen (1 : ℝ) = .ok 1 := by simp [rangeLen, ht]
  have one : (lit ((0 + 1 : Nat) : Rat) : ℝ) = 1 := by
    show (((0 + 1 : Nat) : ℚ) : ℝ) = 1
    norm_num
  have u : storeInt ((0 : ℝ) + twoPi * lit ((0 + 1 : Nat) : Rat)) = 6 := by
    rw [one, h2, storeInt_real, Real.trunc, if_pos (by linarith)]
    have : ⌊(0 : ℝ) + 2 * Real.pi * 1⌋ = 6 := by
      rw [Int.floor_eq_iff]; push_cast; constructor <;> linarith
    rw [this]; norm_num
  have d : storeInt ((0 : ℝ) - twoPi * lit ((0 + 1 : Nat) : Rat)) = -6 := by
    rw [one, h2, storeInt_real, Real.trunc, if_neg (by linarith)]
    have : ⌈(0 : ℝ) - 2 * Real.pi * 1⌉ = -6 := by
      rw [Int.ceil_eq_iff]; push_cast; constructor <;> linarith
    rw [this]; norm_num
  have ej : equivJointStored storeInt [0] 0 1 1 ([] : List (List ℝ)) = [[6], [-6]] := by
    unfold equivJointStored
    simp only [List.range_one, List.flatMap_cons, List.flatMap_nil, List.nil_append, List.map_cons, List.map_nil, shiftJoint, List.append_nil,
      List.modify_cons, if_true, u, d, List.cons_append]
  have eo : equivOneStored storeInt exOneTurn [0] = .ok [[6], [-6]] := by
    unfold equivOneStored exOneTurn
    simp [bcast, hf, getI, hr, ej, bind, Except.bind, pure, Except.pure]
  unfold equivalentStored
  simp [forAppend, eo, bind, Except.bind, pure, Except.pure, List.mapM_cons, allcloseEffect, bcast, sortByLast]

-- with floats the same call gives a whole turn in each direction, with integers none of the two
example : ∀ θ' ∈ [[(6 : ℝ)], [-6]], ∀ ts ns, θ' ≠ shiftTurns ts [0] ns := fun θ' h =>
  (C103_equivalent_false exOneTurn [-7] [7] [0] rfl rfl rfl rfl (fun x hx => ⟨0, by simpa using hx⟩) _ exOneTurn_int θ' h).2.2

/-- a horizontal arm in integers whose upper arm leans forward -/
noncomputable def exIntArm : Robot ℝ :=
  { exAbb with
    P := [⟨0, 0, 1⟩, ⟨0, 0, 0⟩, ⟨1, 0, 1⟩, ⟨0, 0, 0⟩, ⟨1, 0, 0⟩, ⟨1, 0, 0⟩, ⟨0, 0, 0⟩] }

-- the upper arm of length √2 is returned with the length 1
example : ∃ q q', robotToOpw exIntArm = .ok q ∧ robotToOpwInt exIntArm = .ok q' ∧ 1 / 10 < |q'.c2 - q.c2| := by
  have harm : Spec.OpwArm exIntArm V3.ex 1 1 1 1 1 1 1 ⟨0, 0, 0⟩ ⟨1, 0, 1⟩ ⟨0, 0, 0⟩ 1 1 0 := by
    refine ⟨rfl, by simp, ?_, ?_, none, none, rfl⟩
    · simp only [exIntArm, exAbb, List.cons.injEq, and_true]
      refine ⟨?_, ?_, ?_, ?_, ?_, ?_⟩ <;> ext <;> simp
    · simp only [exIntArm, List.cons.injEq, and_true]
      refine ⟨?_, ?_, ?_, ?_, ?_, ?_, ?_⟩ <;> first | trivial | (ext <;> simp)
  obtain ⟨q, hq, -⟩ := C55_opw_partial _ _ _ _ _ _ _ _ _ _ _ _ _ _ harm
  have ii : ∀ a b c : ℤ, Spec.Int3 ⟨a, b, c⟩ := fun a b c => ⟨a, b, c, rfl⟩
  have iH : ∀ h ∈ exIntArm.H, Spec.Int3 h := by
    intro h hh
    simp only [exIntArm, exAbb, List.mem_cons, List.not_mem_nil, or_false] at hh
    rcases hh with rfl | rfl | rfl | rfl | rfl | rfl
    · exact ⟨0, 0, 1, by ext <;> simp⟩
    · exact ⟨0, 1, 0, by ext <;> simp⟩
    · exact ⟨0, 1, 0, by ext <;> simp⟩
    · exact ⟨1, 0, 0, by ext <;> simp⟩
    · exact ⟨0, 1, 0, by ext <;> simp⟩
    · exact ⟨1, 0, 0, by ext <;> simp⟩
  have iP : ∀ p ∈ exIntArm.P, Spec.Int3 p := by
    intro h hh
    simp only [exIntArm, List.mem_cons, List.not_mem_nil, or_false] at hh
    rcases hh with rfl | rfl | rfl | rfl | rfl | rfl | rfl
    · exact ⟨0, 0, 1, by ext <;> simp⟩
    · exact ⟨0, 0, 0, by ext <;> simp⟩
    · exact ⟨1, 0, 1, by ext <;> simp⟩
    · exact ⟨0, 0, 0, by ext <;> simp⟩
    · exact ⟨1, 0, 0, by ext <;> simp⟩
    · exact ⟨1, 0, 0, by ext <;> simp⟩
    · exact ⟨0, 0, 0, by ext <;> simp⟩
  obtain ⟨q', h1, h2⟩ := C103_opw_false exIntArm _ _ _ _ _ _ _ rfl iH iP q hq (2 / 5) (by norm_num) (by
    intro w hw k
    simp only at hw
    norm_num at hw
    by_contra hlt
    rw [not_le, abs_lt] at hlt
    obtain ⟨h1, h2⟩ := hlt
    have b1 : w < 1.42 := by nlinarith
    have b2 : -1.42 < w := by nlinarith
    have b3 : 1.41 < w ∨ w < -1.41 := by
      by_contra hc
      rw [not_or, not_lt, not_lt] at hc
      nlinarith [hc.1, hc.2]
    rcases b3 with b3 | b3
    · have k1 : (1 : ℝ) < k := by norm_num at b3 ⊢; linarith
      have k2 : (k : ℝ) < 2 := by norm_num at b1 ⊢; linarith
      have : (1 : ℤ) < k := by exact_mod_cast k1
      have : k < (2 : ℤ) := by exact_mod_cast k2
      omega
    · have k1 : (k : ℝ) < -1 := by norm_num at b3 ⊢; linarith
      have k2 : (-2 : ℝ) < k := by norm_num at b2 ⊢; linarith
      have : k < (-1 : ℤ) := by exact_mod_cast k1
      have : (-2 : ℤ) < k := by exact_mod_cast k2
      omega)
  exact ⟨q, q', hq, h1, by linarith⟩
