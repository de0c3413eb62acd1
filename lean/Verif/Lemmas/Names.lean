import Verif.Model.Tesseract
import Std.Data.String.ToNat

/-! # Link and joint names of the scene graph -/
set_option autoImplicit false

/-- All pieces of a character list that follow an underscore. -/
def usuf : List Char → List (List Char)
  | [] => []
  | c :: cs => if c = '_' then cs :: usuf cs else usuf cs

theorem usuf_append (a b : List Char) : usuf (a ++ b) = (usuf a).map (· ++ b) ++ usuf b := by
  induction a with
  | nil => simp [usuf]
  | cons c cs ih =>
    by_cases h : c = '_' <;> simp [usuf, h, ih]

theorem mem_usuf (a b : List Char) : b ∈ usuf (a ++ '_' :: b) := by
  rw [usuf_append]; simp [usuf]

theorem usuf_eq_nil {l : List Char} (h : '_' ∉ l) : usuf l = [] := by
  induction l with
  | nil => rfl
  | cons c cs ih =>
    simp only [List.mem_cons, not_or] at h
    simp [usuf, Ne.symm h.1, ih h.2]

@[simp] theorem usuf_digits (n : Nat) : usuf (Nat.toDigits 10 n) = [] := usuf_eq_nil (by simp)

/-- Two prefixed names with different prefixes can agree only when one name is a piece of the other after an underscore. -/
theorem prefixed_eq {n1 n2 a b : List Char} (h : n1 ++ '_' :: a = n2 ++ '_' :: b) :
    n1 = n2 ∧ a = b ∨ b ∈ usuf a ∨ a ∈ usuf b := by
  rcases List.append_eq_append_iff.1 h with ⟨s, h1, h2⟩ | ⟨s, h1, h2⟩
  · obtain _ | ⟨c, s⟩ := s
    · left; simp at h1 h2; exact ⟨h1.symm, h2⟩
    · right; left
      simp only [List.cons_append, List.cons.injEq] at h2
      rw [h2.2]; exact mem_usuf _ _
  · obtain _ | ⟨c, s⟩ := s
    · left; simp at h1 h2; exact ⟨h1, h2.symm⟩
    · right; right
      simp only [List.cons_append, List.cons.injEq] at h2
      rw [h2.2]; exact mem_usuf _ _

theorem digits_inj {m n : Nat} (h : Nat.toDigits 10 m = Nat.toDigits 10 n) : m = n := by
  apply Nat.repr_injective
  rw [← String.toList_inj, Nat.toList_repr, Nat.toList_repr, h]

theorem digits_isDigit {n : Nat} {c : Char} (h : c ∈ Nat.toDigits 10 n) : c.isDigit = true :=
  Nat.isDigit_of_mem_toDigits (by decide) (by decide) h

theorem digits_not_mem {n : Nat} {c : Char} (h : c.isDigit = false) : c ∉ Nat.toDigits 10 n := by
  intro hc; rw [digits_isDigit hc] at h; cases h

/-- A number's digits do not continue with something starting with a given letter -/
theorem digits_cons_ne {n : Nat} {c : Char} {cs : List Char} (h : c.isDigit = false) : Nat.toDigits 10 n ≠ c :: cs := by
  intro e
  exact digits_not_mem (n := n) h (by rw [e]; simp)

theorem digits_append_ne {n : Nat} {c : Char} {cs ds : List Char} (h : c.isDigit = false) :
    Nat.toDigits 10 n ++ ds ≠ c :: cs := by
  intro e
  rcases hd : Nat.toDigits 10 n with _ | ⟨d, l⟩
  · exact absurd hd Nat.toDigits_ne_nil
  · rw [hd] at e
    simp only [List.cons_append, List.cons.injEq] at e
    have := digits_isDigit (n := n) (c := d) (by rw [hd]; simp)
    rw [e.1, h] at this; cases this

theorem linkName_toList (i : Nat) : (linkName i).toList = "link_".toList ++ Nat.toDigits 10 (i + 1) := by
  simp [linkName, String.toList_append, toString]

theorem defaultJointName_toList (i : Nat) :
    (defaultJointName i).toList = "joint_".toList ++ Nat.toDigits 10 (i + 1) := by
  simp [defaultJointName, String.toList_append, toString]

theorem linkName_inj {i j : Nat} (h : linkName i = linkName j) : i = j := by
  rw [← String.toList_inj, linkName_toList, linkName_toList] at h
  have := digits_inj (List.append_cancel_left h)
  omega

theorem defaultJointName_inj {i j : Nat} (h : defaultJointName i = defaultJointName j) : i = j := by
  rw [← String.toList_inj, defaultJointName_toList, defaultJointName_toList] at h
  have := digits_inj (List.append_cancel_left h)
  omega

/-- The names of links in a robot's scene graph. -/
inductive IsLinkName : String → Prop
  | base : IsLinkName "base_link"
  | link (i : Nat) : IsLinkName (linkName i)
  | tip : IsLinkName "chain_tip"
  | flange : IsLinkName "flange"
  | tool : IsLinkName "tool_tcp"

/-- The names of joints in the scene graph of a robot without joint names of its own. -/
inductive IsJointName : String → Prop
  | joint (i : Nat) : IsJointName (defaultJointName i)
  | tip (i : Nat) : IsJointName (linkName i ++ "_to_chain_tip")
  | flange : IsJointName "tip_to_flange"
  | tool : IsJointName "tip_to_tool"

theorem IsLinkName.no_suffix {a b : String} (ha : IsLinkName a) (hb : IsLinkName b) : b.toList ∉ usuf a.toList := by
  intro h
  cases ha <;> cases hb <;>
    simp [usuf, linkName_toList] at h
  all_goals
    first
    | exact digits_cons_ne (by decide) h
    | exact digits_cons_ne (by decide) h.symm

theorem IsJointName.no_suffix {a b : String} (ha : IsJointName a) (hb : IsJointName b) : b.toList ∉ usuf a.toList := by
  intro h
  cases ha <;> cases hb <;>
    simp [usuf, usuf_append, linkName_toList, defaultJointName_toList, String.toList_append] at h
  all_goals
    first
    | exact digits_cons_ne (by decide) h.symm
    | exact digits_append_ne (by decide) h.symm
