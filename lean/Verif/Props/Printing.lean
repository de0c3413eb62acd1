import Verif.Model.Printing
import Verif.Props.TransformProps

/-! # Property C106: what the printed form of a transform tells -/
set_option autoImplicit false

namespace Printing

/-- the characters of `indentLines` -/
def indentC (k : Nat) (s : List Char) : List Char := s.flatMap fun c => if c = '\n' then '\n' :: List.replicate k ' ' else [c]

theorem indentC_nil (k : Nat) : indentC k [] = [] := rfl
theorem indentC_newline (k : Nat) (s : List Char) : indentC k ('\n' :: s) = '\n' :: (List.replicate k ' ' ++ indentC k s) := by simp [indentC]
theorem indentC_cons (k : Nat) {c : Char} (h : c ≠ '\n') (s : List Char) : indentC k (c :: s) = c :: indentC k s := by simp [indentC, h]

/-- `j` spaces and a letter are not `k > j` spaces -/
theorem spaces_ne {j k : Nat} (h : j < k) (r s : List Char) : List.replicate j ' ' ++ 'p' :: r ≠ List.replicate k ' ' ++ s := by
  intro e
  have := congrArg (fun l : List Char => l[j]?) e
  simp only [List.getElem?_append_right, List.length_replicate, le_refl, Nat.sub_self, List.getElem?_cons_zero] at this
  rw [List.getElem?_append_left (by simpa using h), List.getElem?_replicate] at this
  simp [h] at this

theorem split_newline : ∀ {l l' r r' : List Char}, '\n' ∉ l → '\n' ∉ l' → l ++ '\n' :: r = l' ++ '\n' :: r' → l = l' ∧ r = r'
  | [], [], _, _, _, _, e => by simpa using e
  | [], c :: l', _, _, _, h', e => by
    simp only [List.nil_append, List.cons_append, List.cons.injEq] at e
    exact absurd (e.1 ▸ List.mem_cons_self) h'
  | c :: l, [], _, _, h, _, e => by
    simp only [List.nil_append, List.cons_append, List.cons.injEq] at e
    exact absurd (e.1 ▸ List.mem_cons_self) h
  | c :: l, c' :: l', r, r', h, h', e => by
    simp only [List.cons_append, List.cons.injEq] at e
    obtain ⟨h1, h2⟩ := split_newline (l := l) (l' := l') (fun k => h (by simp [k])) (fun k => h' (by simp [k])) e.2
    exact ⟨by rw [e.1, h1], h2⟩

/-- The indented text is determined by what is printed before a line that is less indented. -/
theorem split_indent {j k : Nat} (hj : j < k) : ∀ {s s' r r' : List Char},
    indentC k s ++ '\n' :: (List.replicate j ' ' ++ 'p' :: r) = indentC k s' ++ '\n' :: (List.replicate j ' ' ++ 'p' :: r') → s = s' ∧ r = r'
  | [], [], r, r', e => by simpa [indentC_nil] using e
  | [], c :: s', r, r', e => by
    exfalso
    by_cases hc : c = '\n'
    · subst hc
      rw [indentC_newline, indentC_nil] at e
      simp only [List.nil_append, List.cons_append, List.cons.injEq, true_and, List.append_assoc] at e
      exact spaces_ne hj _ _ e
    · rw [indentC_cons k hc, indentC_nil] at e
      simp only [List.nil_append, List.cons_append, List.cons.injEq] at e
      exact hc e.1.symm
  | c :: s, [], r, r', e => by
    exfalso
    by_cases hc : c = '\n'
    · subst hc
      rw [indentC_newline, indentC_nil] at e
      simp only [List.nil_append, List.cons_append, List.cons.injEq, true_and, List.append_assoc] at e
      exact spaces_ne hj _ _ e.symm
    · rw [indentC_cons k hc, indentC_nil] at e
      simp only [List.nil_append, List.cons_append, List.cons.injEq] at e
      exact hc e.1
  | c :: s, c' :: s', r, r', e => by
    by_cases hc : c = '\n'
    · subst hc
      by_cases hc' : c' = '\n'
      · subst hc'
        rw [indentC_newline, indentC_newline] at e
        simp only [List.cons_append, List.cons.injEq, true_and, List.append_assoc, List.append_cancel_left_eq] at e
        obtain ⟨h1, h2⟩ := split_indent hj e
        exact ⟨by rw [h1], h2⟩
      · rw [indentC_newline, indentC_cons k hc'] at e
        simp only [List.cons_append, List.cons.injEq] at e
        exact absurd e.1.symm hc'
    · by_cases hc' : c' = '\n'
      · subst hc'
        rw [indentC_newline, indentC_cons k hc] at e
        simp only [List.cons_append, List.cons.injEq] at e
        exact absurd e.1 hc
      · rw [indentC_cons k hc, indentC_cons k hc'] at e
        simp only [List.cons_append, List.cons.injEq] at e
        obtain ⟨h1, h2⟩ := split_indent hj e.2
        exact ⟨by rw [e.1, h1], h2⟩

/-- the characters of the lines of the frame ids and of the last line -/
def tailC (pad : List Char) (pa ch : Option (List Char)) (e : List Char) : List Char :=
  (match pa with
    | some s => pad ++ "parent_frame_id = \"".toList ++ s ++ ['"', '\n']
    | none => []) ++
  (match ch with
    | some s => pad ++ "child_frame_id = \"".toList ++ s ++ ['"', '\n']
    | none => []) ++ e

theorem quote_line {s s' r r' : List Char} (hs : '\n' ∉ s) (hs' : '\n' ∉ s')
    (e : s ++ '"' :: '\n' :: r = s' ++ '"' :: '\n' :: r') : s = s' ∧ r = r' := by
  obtain ⟨h1, h2⟩ := split_newline (l := s ++ ['"']) (l' := s' ++ ['"']) (r := r) (r' := r') (by simpa using hs) (by simpa using hs') (by simpa using e)
  exact ⟨by simpa using h1, h2⟩

theorem tailC_inj (pad e : List Char) (hp : ∀ r, e ≠ pad ++ 'p' :: r) (hc : ∀ r, e ≠ pad ++ 'c' :: r) {pa ch pa' ch' : Option (List Char)}
    (h1 : ∀ s ∈ pa, '\n' ∉ s) (h2 : ∀ s ∈ ch, '\n' ∉ s) (h1' : ∀ s ∈ pa', '\n' ∉ s) (h2' : ∀ s ∈ ch', '\n' ∉ s)
    (h : tailC pad pa ch e = tailC pad pa' ch' e) : pa = pa' ∧ ch = ch' := by
  have inner : tailC pad none ch e = tailC pad none ch' e → ch = ch' := by
    intro h
    cases ch with
    | none =>
      cases ch' with
      | none => rfl
      | some s' => exact absurd (by simpa [tailC] using h) (hc ("hild_frame_id = \"".toList ++ s' ++ '"' :: '\n' :: e))
    | some s =>
      cases ch' with
      | none => exact absurd (by simpa [tailC] using h.symm) (hc ("hild_frame_id = \"".toList ++ s ++ '"' :: '\n' :: e))
      | some s' =>
        simp only [tailC, List.nil_append, List.append_assoc, List.append_cancel_left_eq, List.cons_append] at h
        rw [(quote_line (h2 s rfl) (h2' s' rfl) h).1]
  have cross : ∀ (ch : Option (List Char)) (s r : List Char),
      tailC pad none ch e ≠ pad ++ 'p' :: r := by
    intro ch s r h
    cases ch with
    | none => exact hp r (by simpa [tailC] using h)
    | some s' => simp [tailC] at h
  have lead : ∀ (s : List Char) (ch : Option (List Char)), tailC pad (some s) ch e
      = pad ++ 'p' :: ("arent_frame_id = \"".toList ++ (s ++ '"' :: '\n' :: tailC pad none ch e)) := by
    intro s ch
    simp [tailC]
  cases pa with
  | none =>
    cases pa' with
    | none => exact ⟨rfl, inner h⟩
    | some s' => exact absurd (h.trans (lead s' ch')) (cross ch s' _)
  | some s =>
    cases pa' with
    | none => exact absurd (h.symm.trans (lead s ch)) (cross ch' s _)
    | some s' =>
      rw [lead, lead] at h
      simp only [List.append_cancel_left_eq, List.cons.injEq, true_and] at h
      obtain ⟨e1, e2⟩ := quote_line (h1 s rfl) (h1' s' rfl) h
      exact ⟨by rw [e1], inner e2⟩

theorem toList_ext {a b : Option String} (h : a.map String.toList = b.map String.toList) : a = b := by
  cases a <;> cases b <;> simp_all [String.toList_inj]

variable {α : Type}

theorem toList_indent (k : Nat) (s : String) : (indentLines k s).toList = indentC k s.toList := by
  simp [indentLines, indentC]

theorem str_toList (f : M3 α → String) (g : V3 α → String) (T : Transform α) : (T.str f g).toList
    = "R = ".toList ++ (indentC 4 (f T.R).toList ++ '\n' :: ([] ++ 'p' :: (" = ".toList ++ ((g T.p).toList ++ '\n' ::
        tailC [] (T.parent.map String.toList) (T.child.map String.toList) ['\n'])))) := by
  obtain ⟨R, p, pa, ch⟩ := T
  cases pa <;> cases ch <;> simp [Transform.str, Transform.idLines, joinLines, toList_indent, tailC]

theorem repr_toList (f : M3 α → String) (g : V3 α → String) (T : Transform α) : (T.repr f g).toList
    = "Transform(\n    R = ".toList ++ (indentC 8 (f T.R).toList ++ '\n' :: (List.replicate 4 ' ' ++ 'p' :: (" = ".toList ++ ((g T.p).toList ++ '\n' ::
        tailC (List.replicate 4 ' ') (T.parent.map String.toList) (T.child.map String.toList) [')', '\n'])))) := by
  obtain ⟨R, p, pa, ch⟩ := T
  cases pa <;> cases ch <;> simp [Transform.repr, Transform.idLines, joinLines, toList_indent, tailC, List.replicate]

end Printing

namespace Spec

/-- a frame id, if there is one, is printed on one line -/
def OneLine (s : Option String) : Prop := ∀ t ∈ s, '\n' ∉ t.toList

end Spec

open Printing

variable {α : Type}

private theorem one {s : Option String} (h : Spec.OneLine s) : ∀ t ∈ s.map String.toList, '\n' ∉ t := by
  intro t ht
  obtain ⟨u, hu, rfl⟩ := Option.mem_map.mp ht
  exact h u hu

/-- **C106**: two transforms whose frame ids have no line break have the same `str` exactly if the texts of their arrays agree and they
have the same frame ids, an absent id being different from an empty one.  `strR` and `strP` are numpy's texts of the rotation and of the
position; the text of the rotation may have any number of lines, that of the position has one. -/
theorem C106_str_partial (strR : M3 α → String) (strP : V3 α → String) (hP : ∀ v, '\n' ∉ (strP v).toList) (A B : Transform α)
    (hA : Spec.OneLine A.parent ∧ Spec.OneLine A.child) (hB : Spec.OneLine B.parent ∧ Spec.OneLine B.child) :
    A.str strR strP = B.str strR strP ↔ strR A.R = strR B.R ∧ strP A.p = strP B.p ∧ A.parent = B.parent ∧ A.child = B.child := by
  constructor
  · intro h
    have h := congrArg String.toList h
    rw [str_toList, str_toList, List.append_cancel_left_eq] at h
    obtain ⟨h1, h2⟩ := split_indent (j := 0) (by decide) h
    rw [List.append_cancel_left_eq] at h2
    obtain ⟨h3, h4⟩ := split_newline (hP _) (hP _) h2
    obtain ⟨h5, h6⟩ := tailC_inj _ _ (by simp) (by simp) (one hA.1) (one hA.2) (one hB.1) (one hB.2) h4
    exact ⟨String.toList_inj.mp h1, String.toList_inj.mp h3, toList_ext h5, toList_ext h6⟩
  · rintro ⟨h1, h2, h3, h4⟩
    simp only [Transform.str, Transform.idLines, h1, h2, h3, h4]

/-- **C106**: the same for `repr`. -/
theorem C106_repr_partial (reprR : M3 α → String) (reprP : V3 α → String) (hP : ∀ v, '\n' ∉ (reprP v).toList) (A B : Transform α)
    (hA : Spec.OneLine A.parent ∧ Spec.OneLine A.child) (hB : Spec.OneLine B.parent ∧ Spec.OneLine B.child) :
    A.repr reprR reprP = B.repr reprR reprP ↔ reprR A.R = reprR B.R ∧ reprP A.p = reprP B.p ∧ A.parent = B.parent ∧ A.child = B.child := by
  constructor
  · intro h
    have h := congrArg String.toList h
    rw [repr_toList, repr_toList, List.append_cancel_left_eq] at h
    obtain ⟨h1, h2⟩ := split_indent (j := 4) (by decide) h
    rw [List.append_cancel_left_eq] at h2
    obtain ⟨h3, h4⟩ := split_newline (hP _) (hP _) h2
    obtain ⟨h5, h6⟩ := tailC_inj _ _ (by simp [List.replicate]) (by simp [List.replicate]) (one hA.1) (one hA.2) (one hB.1) (one hB.2) h4
    exact ⟨String.toList_inj.mp h1, String.toList_inj.mp h3, toList_ext h5, toList_ext h6⟩
  · rintro ⟨h1, h2, h3, h4⟩
    simp only [Transform.repr, Transform.idLines, h1, h2, h3, h4]

/-- **C106** (negative): without the condition on the frame ids the claim is false for both forms, whatever the texts of the arrays are:
one transform with a parent id only and one with both ids print alike. -/
theorem C106_print_false (textR : M3 α → String) (textP : V3 α → String) (R : M3 α) (p : V3 α) :
    (∃ A B : Transform α, A.R = R ∧ B.R = R ∧ A.p = p ∧ B.p = p ∧ A.child = none ∧ B.child = some "b" ∧ A.str textR textP = B.str textR textP) ∧
    (∃ A B : Transform α, A.R = R ∧ B.R = R ∧ A.p = p ∧ B.p = p ∧ A.child = none ∧ B.child = some "b" ∧ A.repr textR textP = B.repr textR textP) := by
  refine ⟨⟨⟨R, p, some "a\"\nchild_frame_id = \"b", none⟩, ⟨R, p, some "a", some "b"⟩, rfl, rfl, rfl, rfl, rfl, rfl, ?_⟩,
    ⟨⟨R, p, some "a\"\n    child_frame_id = \"b", none⟩, ⟨R, p, some "a", some "b"⟩, rfl, rfl, rfl, rfl, rfl, rfl, ?_⟩⟩
  · apply String.toList_inj.mp
    rw [str_toList, str_toList]
    simp [tailC]
  · apply String.toList_inj.mp
    rw [repr_toList, repr_toList]
    simp [tailC, List.replicate]

/-- **C106**: `A != B` is the negation of `A == B`, and so is the method `__neq__`, so that a transform differs from itself exactly if
one of its numbers is NaN. -/
theorem C106_ne (A B : Transform XReal) :
    (A.ne B = true ↔ ¬ A.eq B = true) ∧ A.neq B = A.ne B ∧ (A.ne A = true ↔ ∃ x ∈ A.entries, x = XReal.nan) := by
  refine ⟨by simp [Transform.ne], rfl, ?_⟩
  rw [show (A.ne A = true ↔ ¬ A.eq A = true) by simp [Transform.ne], C15_eq_refl]
  push Not
  rfl

/-- **C106**: `==` does not look at the frame ids, so there are transforms with the same numbers that are equal and print differently. -/
theorem C106_eq_not_print (strR : M3 ℝ → String) (strP : V3 ℝ → String) (hP : ∀ v, '\n' ∉ (strP v).toList) (A : Transform ℝ)
    (hA : Spec.OneLine A.parent ∧ Spec.OneLine A.child) :
    ∃ B : Transform ℝ, A.eq B = true ∧ B.eq A = true ∧ A.str strR strP ≠ B.str strR strP := by
  have self : ∀ B : Transform ℝ, B.R = A.R → B.p = A.p → A.eq B = true ∧ B.eq A = true := by
    intro B h1 h2
    rw [C15_eq_iff, C15_eq_iff, show B.entries = A.entries by simp [Transform.entries, h1, h2]]
    refine ⟨?_, ?_⟩ <;>
    · intro ab hab
      rw [List.zip_eq_zipWith, List.zipWith_self, List.mem_map] at hab
      obtain ⟨x, -, rfl⟩ := hab
      simp only [sub_self, abs_zero]
      positivity
  by_cases h : A.child = some ""
  · refine ⟨⟨A.R, A.p, A.parent, none⟩, (self _ rfl rfl).1, (self _ rfl rfl).2, fun e => ?_⟩
    have := ((C106_str_partial strR strP hP A ⟨A.R, A.p, A.parent, none⟩ hA ⟨hA.1, by simp [Spec.OneLine]⟩).mp e).2.2.2
    simp [h] at this
  · refine ⟨⟨A.R, A.p, A.parent, some ""⟩, (self _ rfl rfl).1, (self _ rfl rfl).2, fun e => ?_⟩
    exact h ((C106_str_partial strR strP hP A ⟨A.R, A.p, A.parent, some ""⟩ hA ⟨hA.1, by simp [Spec.OneLine]⟩).mp e).2.2.2

/-- The hypotheses are met by ids with quotes and spaces, and the printed form is the expected one. -/
example : Spec.OneLine (some "tool \"0\"") ∧
    (Transform.mk (M3.one : M3 ℝ) ⟨1, 2, 3⟩ (some "base") none).str (fun _ => "[[1 0 0]\n [0 1 0]\n [0 0 1]]") (fun _ => "[1 2 3]")
      = "R = [[1 0 0]\n     [0 1 0]\n     [0 0 1]]\np = [1 2 3]\nparent_frame_id = \"base\"\n\n" := by
  refine ⟨by simp [Spec.OneLine], ?_⟩
  rfl
