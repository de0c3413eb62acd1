import Verif.Lemmas.Up
import Verif.Lemmas.Kin

/-!
# Properties C13, C14, C15, C21: the `Transform` class and the auxiliary robot transforms
-/
set_option autoImplicit false


/-! ## C13 -/

/-- Equality of the geometric content (rotation and position), whatever the frame ids. -/
def SamePose (A B : Transform ℝ) : Prop := A.R = B.R ∧ A.p = B.p

/-- C13: composition is associative, frame ids included. -/
theorem C13_mul_assoc (A B C : Transform ℝ) : A * B * C = A * (B * C) := by
  apply Transform.ext
  · simp [M3.mul_assoc']
  · simp [M3.mulVec_add, M3.mulVec_mulVec, add_assoc]
  · rfl
  · rfl

/-- C13: `identity_transform()` is neutral on both sides. -/
theorem C13_identity (T : Transform ℝ) :
    SamePose (identityTransform * T) T ∧ SamePose (T * identityTransform) T := by
  refine ⟨⟨?_, ?_⟩, ?_, ?_⟩ <;> simp [identityTransform]

/-- C13: `inv` is a two-sided inverse, for every rigid transform. -/
theorem C13_inv (T : Transform ℝ) (h : T.IsRigid) :
    SamePose (T * T.inv) identityTransform ∧ SamePose (T.inv * T) identityTransform := by
  refine ⟨⟨?_, ?_⟩, ?_, ?_⟩
  · exact h.orth'
  · simp [Transform.inv, M3.mulVec_neg, IsRot.mulVec_transpose_mulVec h, identityTransform]
  · exact h.orth
  · simp [Transform.inv, identityTransform]

/-- C13: the inverse of a product, frame ids included. -/
theorem C13_inv_mul (A B : Transform ℝ) (hA : A.IsRigid) : (A * B).inv = B.inv * A.inv := by
  apply Transform.ext
  · exact M3.transpose_mul _ _
  · change -(((A.R * B.R).transpose).mulVec (A.p + A.R.mulVec B.p)) =
      -(B.R.transpose.mulVec B.p) + B.R.transpose.mulVec (-(A.R.transpose.mulVec A.p))
    rw [M3.transpose_mul, ← M3.mulVec_mulVec, M3.mulVec_add, IsRot.transpose_mulVec_mulVec hA, M3.mulVec_add,
      M3.mulVec_neg]
    abel
  · rfl
  · rfl

/-- C13: rigid transforms are closed under composition and inverse, and the identity is one. -/
theorem C13_rigid (A B : Transform ℝ) (hA : A.IsRigid) (hB : B.IsRigid) :
    (A * B).IsRigid ∧ A.inv.IsRigid ∧ (identityTransform : Transform ℝ).IsRigid :=
  ⟨IsRot.mul hA hB, IsRot.transpose hA, IsRot.one⟩

/-- C13: composition acts on points as successive application, and the inverse undoes it. -/
theorem C13_act (A B : Transform ℝ) (v : V3 ℝ) :
    (A * B).act v = A.act (B.act v) ∧ (A.IsRigid → A.inv.act (A.act v) = v) ∧
      (identityTransform : Transform ℝ).act v = v := by
  refine ⟨?_, fun h => ?_, ?_⟩
  · simp [Transform.act, M3.mulVec_add, M3.mulVec_mulVec, add_assoc]
  · simp [Transform.act, Transform.inv, M3.mulVec_add, IsRot.transpose_mulVec_mulVec h]
  · simp [Transform.act, identityTransform]

-- non-vacuity: a rigid transform that is neither a pure rotation nor a pure translation
example : Transform.IsRigid ⟨⟨0, -1, 0, 1, 0, 0, 0, 0, 1⟩, ⟨1, 2, 3⟩, some "a", some "b"⟩ := by
  refine ⟨?_, ?_⟩
  · ext <;> norm_num
  · norm_num [M3.det]

/-! ## C14 -/

/-- C14: in `T0 * T1 * ... * Tn`, for any `n`, the parent is that of `T0` and the child that of the last factor. -/
theorem C14_chain (T0 : Transform ℝ) (Ts : List (Transform ℝ)) :
    (Ts.foldl (· * ·) T0).parent = T0.parent ∧
    (Ts.foldl (· * ·) T0).child = ((T0 :: Ts).getLast (by simp)).child := by
  induction Ts generalizing T0 with
  | nil => exact ⟨rfl, rfl⟩
  | cons T Ts ih =>
    obtain ⟨h1, h2⟩ := ih (T0 * T)
    refine ⟨h1, ?_⟩
    rw [List.foldl_cons, h2]
    cases Ts with
    | nil => rfl
    | cons U Us => simp

/-- C14: `inv` swaps the two ids and is an involution on them. -/
theorem C14_inv (T : Transform ℝ) :
    T.inv.parent = T.child ∧ T.inv.child = T.parent ∧ T.inv.inv.parent = T.parent ∧ T.inv.inv.child = T.child :=
  ⟨rfl, rfl, rfl, rfl⟩

/-- C14: the inverse of a chain runs from the last child to the first parent. -/
theorem C14_inv_chain (T0 : Transform ℝ) (Ts : List (Transform ℝ)) :
    (Ts.foldl (· * ·) T0).inv.parent = ((T0 :: Ts).getLast (by simp)).child ∧
    (Ts.foldl (· * ·) T0).inv.child = T0.parent := by
  obtain ⟨h1, h2⟩ := C14_chain T0 Ts
  exact ⟨h2, h1⟩

example : ([⟨1, 0, some "b", some "c"⟩, ⟨1, 0, some "c", some "d"⟩].foldl (· * ·)
    (⟨1, 0, some "a", some "b"⟩ : Transform ℝ)).child = some "d" := rfl

/-! ## C15 -/

/-- The twelve numbers of a transform. -/
def Transform.entries {α : Type} (T : Transform α) : List α :=
  [T.R.a00, T.R.a01, T.R.a02, T.R.a10, T.R.a11, T.R.a12, T.R.a20, T.R.a21, T.R.a22, T.p.x, T.p.y, T.p.z]

private theorem isclose_self (x : XReal) (r t : ℝ) (hr : 0 ≤ r) (ht : 0 ≤ t) :
    isclose x x (.fin r) (.fin t) ↔ x ≠ .nan := by
  cases x with
  | nan => simp [isclose, feq]
  | pinf => exact ⟨fun _ h => (by cases h), fun _ => Or.inl ⟨trivial, trivial⟩⟩
  | ninf => exact ⟨fun _ h => (by cases h), fun _ => Or.inl ⟨trivial, trivial⟩⟩
  | fin a => simp [isclose]

private theorem isclose_nan_left (x : XReal) (r t : XReal) : ¬ isclose .nan x r t := by
  simp [isclose, feq]

private theorem isclose_nan_right (x : XReal) (r t : XReal) : ¬ isclose x .nan r t := by
  simp [isclose, feq]

/-- C15: `T == T` exactly when no entry is NaN (infinite entries are allowed). -/
theorem C15_eq_refl (T : Transform XReal) : T.eq T = true ↔ ∀ x ∈ T.entries, x ≠ XReal.nan := by
  simp only [Transform.eq, Transform.allIsclose, M3.toList, V3.toList, List.zip_cons_cons, List.zip_nil_right,
    List.all_cons, List.all_nil, Bool.and_true, Bool.and_eq_true, decide_eq_true_eq, XReal.lit_fin,
    isclose_self _ _ _ (show (0:ℝ) ≤ ((1/1000000 : ℚ) : ℝ) by norm_num)
      (show (0:ℝ) ≤ ((1/100000000 : ℚ) : ℝ) by norm_num), Transform.entries, List.forall_mem_cons]
  simp
  tauto

/-- C15: `isclose` is reflexive in the same sense, for every tolerance `tol ≥ 0`. -/
theorem C15_isclose_refl (T : Transform XReal) (tol : ℝ) (ht : 0 ≤ tol) :
    T.isclose T (.fin tol) = true ↔ ∀ x ∈ T.entries, x ≠ XReal.nan := by
  simp only [Transform.isclose, Transform.allIsclose, M3.toList, V3.toList, List.zip_cons_cons, List.zip_nil_right,
    List.all_cons, List.all_nil, Bool.and_true, Bool.and_eq_true, decide_eq_true_eq, XReal.lit_fin,
    isclose_self _ _ _ (show (0:ℝ) ≤ ((1/100000 : ℚ) : ℝ) by norm_num) ht, Transform.entries, List.forall_mem_cons]
  simp
  tauto

private theorem allIsclose_nan (r t : XReal) (a b : List XReal) (h : a.length = b.length)
    (hn : XReal.nan ∈ a ∨ XReal.nan ∈ b) : Transform.allIsclose a b r t = false := by
  induction a generalizing b with
  | nil =>
    rcases hn with hn | hn
    · simp at hn
    · have hb : b = [] := List.eq_nil_of_length_eq_zero (by simpa using h.symm)
      simp [hb] at hn
  | cons x a ih =>
    cases b with
    | nil => simp at h
    | cons y b =>
      simp only [Transform.allIsclose, List.zip_cons_cons, List.all_cons, Bool.and_eq_false_iff, decide_eq_false_iff_not]
      by_cases h1 : x = .nan
      · left; rw [h1]; exact isclose_nan_left _ _ _
      by_cases h2 : y = .nan
      · left; rw [h2]; exact isclose_nan_right _ _ _
      right
      apply ih b (by simpa using h)
      rcases hn with hn | hn
      · left; simpa [Ne.symm h1] using hn
      · right; simpa [Ne.symm h2] using hn

/-- C15: a NaN anywhere on either side compares unequal to everything, under `==` and under `isclose`. -/
theorem C15_nan_never_equal (A B : Transform XReal) (tol : XReal)
    (h : XReal.nan ∈ A.entries ∨ XReal.nan ∈ B.entries) : A.eq B = false ∧ A.isclose B tol = false := by
  have hsplit : (XReal.nan ∈ A.R.toList ∨ XReal.nan ∈ B.R.toList) ∨ (XReal.nan ∈ A.p.toList ∨ XReal.nan ∈ B.p.toList) := by
    simp only [Transform.entries, M3.toList, V3.toList, List.mem_cons, List.not_mem_nil, or_false] at *
    tauto
  simp only [Transform.eq, Transform.isclose, Bool.and_eq_false_iff]
  rcases hsplit with h | h
  · exact ⟨.inl (allIsclose_nan _ _ _ _ rfl h), .inl (allIsclose_nan _ _ _ _ rfl h)⟩
  · exact ⟨.inr (allIsclose_nan _ _ _ _ rfl h), .inr (allIsclose_nan _ _ _ _ rfl h)⟩

private theorem allIsclose_real (r t : ℝ) (a b : List ℝ) (hr : 0 ≤ r) (ht : 0 ≤ t) :
    Transform.allIsclose a b r t = true ↔ ∀ ab ∈ a.zip b, |ab.1 - ab.2| ≤ t + r * |ab.2| := by
  simp only [Transform.allIsclose, List.all_eq_true, decide_eq_true_eq, isclose, feq_real, abs_real]
  constructor
  · intro h ab hab
    rcases h ab hab with h | h
    · rw [h]; simp; positivity
    · exact h
  · intro h ab hab; exact .inr (h ab hab)

/-- C15: what `==` means on real entries: each pair of entries within `1e-8 + 1e-6 |b|`. -/
theorem C15_eq_iff (A B : Transform ℝ) : A.eq B = true ↔
    ∀ ab ∈ A.entries.zip B.entries, |ab.1 - ab.2| ≤ 1/100000000 + 1/1000000 * |ab.2| := by
  simp only [Transform.eq, Bool.and_eq_true]
  rw [allIsclose_real _ _ _ _ (by norm_num) (by norm_num), allIsclose_real _ _ _ _ (by norm_num) (by norm_num)]
  simp only [Transform.entries, M3.toList, V3.toList, List.zip_cons_cons, List.zip_nil_right, List.forall_mem_cons,
    lit_real]
  norm_num
  tauto

/-- C15: what `isclose` means on real entries. -/
theorem C15_isclose_iff (A B : Transform ℝ) (tol : ℝ) (ht : 0 ≤ tol) : A.isclose B tol = true ↔
    ∀ ab ∈ A.entries.zip B.entries, |ab.1 - ab.2| ≤ tol + 1/100000 * |ab.2| := by
  simp only [Transform.isclose, Bool.and_eq_true]
  rw [allIsclose_real _ _ _ _ (by norm_num) ht, allIsclose_real _ _ _ _ (by norm_num) ht]
  simp only [Transform.entries, M3.toList, V3.toList, List.zip_cons_cons, List.zip_nil_right, List.forall_mem_cons,
    lit_real]
  norm_num
  tauto

/-- C15: `isclose` is monotone in the tolerance. -/
theorem C15_isclose_mono (A B : Transform ℝ) (t1 t2 : ℝ) (h1 : 0 ≤ t1) (h : t1 ≤ t2)
    (hc : A.isclose B t1 = true) : A.isclose B t2 = true := by
  rw [C15_isclose_iff _ _ _ h1] at hc
  rw [C15_isclose_iff _ _ _ (h1.trans h)]
  intro ab hab
  linarith [hc ab hab]

/-- C15, symmetry with slack: `A == B` implies `B.isclose(A, 2e-8)`.  Missing for the full claim: `B == A` itself,
which is false in general (`C15_eq_symm_false`) because `np.isclose` scales its tolerance by the second operand. -/
theorem C15_eq_symm_partial (A B : Transform ℝ) (h : A.eq B = true) : B.isclose A (2/100000000) = true := by
  rw [C15_eq_iff] at h
  rw [C15_isclose_iff _ _ _ (by norm_num)]
  intro ab hab
  have hm : (ab.2, ab.1) ∈ A.entries.zip B.entries := by
    rw [List.mem_iff_getElem] at hab ⊢
    obtain ⟨i, hi, e⟩ := hab
    refine ⟨i, by simpa [and_comm] using hi, ?_⟩
    rw [List.getElem_zip] at e ⊢
    rw [← e]
  have h1 := h _ hm
  simp only at h1
  have h2 := abs_sub_abs_le_abs_sub ab.1 ab.2
  rw [abs_sub_comm] at h1
  have := abs_nonneg ab.2
  linarith

/-- C15: `==` is not symmetric. -/
theorem C15_eq_symm_false : ∃ A B : Transform ℝ, A.IsRigid ∧ B.IsRigid ∧ A.eq B = true ∧ B.eq A = false := by
  refine ⟨⟨1, ⟨1, 0, 0⟩, none, none⟩, ⟨1, ⟨1 + 10100005/10000000000000, 0, 0⟩, none, none⟩, IsRot.one, IsRot.one, ?_, ?_⟩
  · rw [C15_eq_iff]
    simp [Transform.entries]
    rw [abs_of_pos, abs_of_pos] <;> norm_num
  · rw [← Bool.not_eq_true, C15_eq_iff]
    simp [Transform.entries]
    rw [abs_of_pos] <;> norm_num

-- tests of the executable model on floats: close transforms equal, distant ones not
#guard Transform.eq (α := Float) ⟨1, ⟨1, 0, 0⟩, none, none⟩ ⟨1, ⟨1.0000001, 0, 0⟩, none, none⟩
#guard !Transform.eq (α := Float) ⟨1, ⟨1, 0, 0⟩, none, none⟩ ⟨1, ⟨1.001, 0, 0⟩, none, none⟩

/-! ## C21 -/

/-- Every auxiliary transform the robot carries is rigid. -/
structure AuxRigid (robot : Robot ℝ) : Prop where
  base : ∀ B, robot.Tbase = some B → B.IsRigid
  flange : ∀ F, robot.Tflange = some F → F.IsRigid
  tool : ∀ R, robot.Rtool = some R → IsRot R

private theorem mul_cancel {R : M3 ℝ} (h : IsRot R) (Y : M3 ℝ) :
    R * (R.transpose * Y) = Y ∧ R.transpose * (R * Y) = Y := by
  rw [← M3.mul_assoc', ← M3.mul_assoc', h.orth, h.orth']; simp

/-- C21: `unapply` undoes `apply` for all presence combinations of tool, flange and base. -/
theorem C21_unapply_apply (robot : Robot ℝ) (h : AuxRigid robot) (T : Transform ℝ) :
    SamePose (unapplyAux robot (applyAux robot T)) T := by
  obtain ⟨hb, hf, ht⟩ := h
  rcases robot with ⟨_, _, _, _, _, _, _, _, R, p, _, _, _, F, B, _⟩
  simp only at hb hf ht
  have hb' : ∀ X, B = some X → ∀ Y, X.R.transpose * (X.R * Y) = Y ∧ X.R * (X.R.transpose * Y) = Y ∧
      X.R * X.R.transpose = 1 ∧ X.R.transpose * X.R = 1 :=
    fun X e Y => ⟨(mul_cancel (hb X e) Y).2, (mul_cancel (hb X e) Y).1, IsRot.orth' (hb X e), IsRot.orth (hb X e)⟩
  have hf' : ∀ X, F = some X → ∀ Y, X.R.transpose * (X.R * Y) = Y ∧ X.R * (X.R.transpose * Y) = Y ∧
      X.R * X.R.transpose = 1 ∧ X.R.transpose * X.R = 1 :=
    fun X e Y => ⟨(mul_cancel (hf X e) Y).2, (mul_cancel (hf X e) Y).1, IsRot.orth' (hf X e), IsRot.orth (hf X e)⟩
  have ht' : ∀ X, R = some X → ∀ Y, X.transpose * (X * Y) = Y ∧ X * (X.transpose * Y) = Y ∧
      X * X.transpose = 1 ∧ X.transpose * X = 1 :=
    fun X e Y => ⟨(mul_cancel (ht X e) Y).2, (mul_cancel (ht X e) Y).1, IsRot.orth' (ht X e), IsRot.orth (ht X e)⟩
  rcases B with _ | B <;> rcases F with _ | F <;> rcases R with _ | R <;> rcases p with _ | p <;>
    simp only [forall_and, Option.some.injEq, forall_eq', reduceCtorEq, IsEmpty.forall_iff, implies_true,
      and_self, forall_const] at hb' hf' ht' <;>
    constructor <;>
    simp [unapplyAux, applyAux, Transform.inv, M3.mul_assoc', M3.mulVec_add, M3.mulVec_neg, M3.mulVec_mulVec,
      hb', hf', ht'] <;> try abel

/-- C21: `apply` undoes `unapply`. -/
theorem C21_apply_unapply (robot : Robot ℝ) (h : AuxRigid robot) (T : Transform ℝ) :
    SamePose (applyAux robot (unapplyAux robot T)) T := by
  obtain ⟨hb, hf, ht⟩ := h
  rcases robot with ⟨_, _, _, _, _, _, _, _, R, p, _, _, _, F, B, _⟩
  simp only at hb hf ht
  have hb' : ∀ X, B = some X → ∀ Y, X.R.transpose * (X.R * Y) = Y ∧ X.R * (X.R.transpose * Y) = Y ∧
      X.R * X.R.transpose = 1 ∧ X.R.transpose * X.R = 1 :=
    fun X e Y => ⟨(mul_cancel (hb X e) Y).2, (mul_cancel (hb X e) Y).1, IsRot.orth' (hb X e), IsRot.orth (hb X e)⟩
  have hf' : ∀ X, F = some X → ∀ Y, X.R.transpose * (X.R * Y) = Y ∧ X.R * (X.R.transpose * Y) = Y ∧
      X.R * X.R.transpose = 1 ∧ X.R.transpose * X.R = 1 :=
    fun X e Y => ⟨(mul_cancel (hf X e) Y).2, (mul_cancel (hf X e) Y).1, IsRot.orth' (hf X e), IsRot.orth (hf X e)⟩
  have ht' : ∀ X, R = some X → ∀ Y, X.transpose * (X * Y) = Y ∧ X * (X.transpose * Y) = Y ∧
      X * X.transpose = 1 ∧ X.transpose * X = 1 :=
    fun X e Y => ⟨(mul_cancel (ht X e) Y).2, (mul_cancel (ht X e) Y).1, IsRot.orth' (ht X e), IsRot.orth (ht X e)⟩
  rcases B with _ | B <;> rcases F with _ | F <;> rcases R with _ | R <;> rcases p with _ | p <;>
    simp only [forall_and, Option.some.injEq, forall_eq', reduceCtorEq, IsEmpty.forall_iff, implies_true,
      and_self, forall_const] at hb' hf' ht' <;>
    constructor <;>
    simp [unapplyAux, applyAux, Transform.inv, M3.mul_assoc', M3.mulVec_add, M3.mulVec_neg, M3.mulVec_mulVec,
      hb', hf', ht'] <;> try abel

-- non-vacuity: a robot carrying all three transforms, none of them the identity
example : AuxRigid
    { H := []
      P := []
      jointType := []
      Rtool := some ⟨0, -1, 0, 1, 0, 0, 0, 0, 1⟩
      ptool := some ⟨1, 2, 3⟩
      Tflange := some ⟨⟨1, 0, 0, 0, 0, -1, 0, 1, 0⟩, ⟨0, 0, 1⟩, none, none⟩
      Tbase := some ⟨⟨0, 0, 1, 0, 1, 0, -1, 0, 0⟩, ⟨0, 5, 0⟩, none, none⟩ } := by
  refine ⟨fun B hB => ?_, fun F hF => ?_, fun R hR => ?_⟩
  · simp only [Option.some.injEq] at hB; subst hB; exact ⟨by ext <;> norm_num, by norm_num [M3.det]⟩
  · simp only [Option.some.injEq] at hF; subst hF; exact ⟨by ext <;> norm_num, by norm_num [M3.det]⟩
  · simp only [Option.some.injEq] at hR; subst hR; exact ⟨by ext <;> norm_num, by norm_num [M3.det]⟩
