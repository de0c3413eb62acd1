import Verif.Model.Invkin
import Verif.Lemmas.Up
import Mathlib.Data.List.Sort
import Mathlib.Data.List.Perm.Basic

/-! # Lists in `Except`, insertion sort by key -/
set_option autoImplicit false

variable {β γ δ : Type}

@[simp] theorem Except.bind_ok (x : β) (f : β → Except PyErr γ) : (Except.ok x >>= f) = f x := rfl
@[simp] theorem Except.bind_error (e : PyErr) (f : β → Except PyErr γ) : ((Except.error e : Except PyErr β) >>= f) = .error e := rfl
@[simp] theorem Except.pure_eq (x : β) : (pure x : Except PyErr β) = .ok x := rfl

theorem Except.bind_eq_ok {x : Except PyErr β} {f : β → Except PyErr γ} {y : γ} (h : (x >>= f) = .ok y) :
    ∃ a, x = .ok a ∧ f a = .ok y := by
  cases x with
  | error e => exact absurd h (by simp)
  | ok a => exact ⟨a, rfl, h⟩

theorem mapM_nil' (f : β → Except PyErr γ) : ([] : List β).mapM f = .ok [] := rfl

theorem mapM_cons' (f : β → Except PyErr γ) (a : β) (l : List β) :
    (a :: l).mapM f = (f a >>= fun b => l.mapM f >>= fun bs => .ok (b :: bs)) := by
  rw [List.mapM_cons]; rfl

/-- a successful `mapM` is related entry by entry to its input -/
theorem forall₂_of_mapM {f : β → Except PyErr γ} {l : List β} {r : List γ} (h : l.mapM f = .ok r) :
    List.Forall₂ (fun a b => f a = .ok b) l r := by
  induction l generalizing r with
  | nil => rw [mapM_nil'] at h; cases h; exact .nil
  | cons a l ih =>
    rw [mapM_cons'] at h
    obtain ⟨b, hb, h⟩ := Except.bind_eq_ok h
    obtain ⟨bs, hbs, h⟩ := Except.bind_eq_ok h
    cases h
    exact .cons hb (ih hbs)

theorem mapM_of_forall₂ {f : β → Except PyErr γ} {l : List β} {r : List γ} (h : List.Forall₂ (fun a b => f a = .ok b) l r) :
    l.mapM f = .ok r := by
  induction h with
  | nil => rfl
  | cons h1 _ ih => rw [mapM_cons', h1, Except.bind_ok, ih]; rfl

theorem mapM_ok_of_forall {f : β → Except PyErr γ} {l : List β} {g : β → γ} (h : ∀ a ∈ l, f a = .ok (g a)) :
    l.mapM f = .ok (l.map g) := by
  induction l with
  | nil => rfl
  | cons a l ih =>
    rw [mapM_cons', h a (by simp), Except.bind_ok, ih (fun b hb => h b (by simp [hb]))]; rfl

theorem exists_mapM_ok {f : β → Except PyErr γ} {l : List β} (h : ∀ a ∈ l, ∃ b, f a = .ok b) : ∃ r, l.mapM f = .ok r := by
  induction l with
  | nil => exact ⟨[], rfl⟩
  | cons a l ih =>
    obtain ⟨b, hb⟩ := h a (by simp)
    obtain ⟨r, hr⟩ := ih fun c hc => h c (by simp [hc])
    exact ⟨b :: r, by rw [mapM_cons', hb, Except.bind_ok, hr]; rfl⟩

theorem Forall₂.exists_left {R : β → γ → Prop} {l : List β} {r : List γ} (h : List.Forall₂ R l r) {b : γ} (hb : b ∈ r) :
    ∃ a ∈ l, R a b := by
  induction h with
  | nil => simp at hb
  | cons h1 _ ih =>
    rcases List.mem_cons.1 hb with rfl | hb
    · exact ⟨_, by simp, h1⟩
    · obtain ⟨a, ha, hR⟩ := ih hb; exact ⟨a, by simp [ha], hR⟩

theorem Forall₂.exists_right {R : β → γ → Prop} {l : List β} {r : List γ} (h : List.Forall₂ R l r) {a : β} (ha : a ∈ l) :
    ∃ b ∈ r, R a b := by
  induction h with
  | nil => simp at ha
  | cons h1 _ ih =>
    rcases List.mem_cons.1 ha with rfl | ha
    · exact ⟨_, by simp, h1⟩
    · obtain ⟨b, hb, hR⟩ := ih ha; exact ⟨b, by simp [hb], hR⟩

theorem mem_forAppend {l : List β} {f : β → Except PyErr (List γ)} {r : List γ} (h : forAppend l f = .ok r) {y : γ} (hy : y ∈ r) :
    ∃ a ∈ l, ∃ b, f a = .ok b ∧ y ∈ b := by
  obtain ⟨bs, hbs, h⟩ := Except.bind_eq_ok h
  cases h
  obtain ⟨b, hb, hyb⟩ := List.mem_flatten.1 hy
  obtain ⟨a, ha, e⟩ := Forall₂.exists_left (forall₂_of_mapM hbs) hb
  exact ⟨a, ha, b, e, hyb⟩

theorem forAppend_mem {l : List β} {f : β → Except PyErr (List γ)} {r : List γ} (h : forAppend l f = .ok r) {a : β} (ha : a ∈ l) :
    ∃ b, f a = .ok b ∧ ∀ y ∈ b, y ∈ r := by
  obtain ⟨bs, hbs, h⟩ := Except.bind_eq_ok h
  cases h
  obtain ⟨b, hb, e⟩ := Forall₂.exists_right (forall₂_of_mapM hbs) ha
  exact ⟨b, e, fun y hy => List.mem_flatten.2 ⟨b, hb, hy⟩⟩

@[simp] theorem forAppend_nil (f : β → Except PyErr (List γ)) : forAppend [] f = .ok [] := rfl

theorem exists_forAppend_ok {f : β → Except PyErr (List γ)} {l : List β} (h : ∀ a ∈ l, ∃ b, f a = .ok b) :
    ∃ r, forAppend l f = .ok r := by
  obtain ⟨r, hr⟩ := exists_mapM_ok h
  exact ⟨r.flatten, by rw [forAppend, hr]; rfl⟩

/-- if the first body raises, so does the loop -/
theorem forAppend_error {f : β → Except PyErr (List γ)} {a : β} {l : List β} {e : PyErr} (h : f a = .error e) :
    forAppend (a :: l) f = .error e := by
  rw [forAppend, mapM_cons', h]; rfl

theorem getI_some {l : List β} {i : Nat} {x : β} (h : l[i]? = some x) : getI l i = .ok x := by simp [getI, h]
theorem getI_ok {l : List β} {i : Nat} {x : β} (h : getI l i = .ok x) : l[i]? = some x := by
  unfold getI at h
  split at h
  · rename_i y hy; cases h; exact hy
  · exact absurd h (by simp)

/-! ### Sorting -/
section
variable {α : Type} [Add α] [Sub α] [Mul α] [Div α] [Neg α] [Zero α] [One α] [LT α] [LE α]
  [DecidableLT α] [DecidableLE α] [Elem α]

theorem insertKey_perm (x : α × β) (l : List (α × β)) : (insertKey x l).Perm (x :: l) := by
  induction l with
  | nil => exact .refl _
  | cons y ys ih =>
    unfold insertKey
    split_ifs
    · exact (ih.cons y).trans (.swap x y ys)
    · exact .refl _

theorem foldr_insertKey_perm (l : List (α × β)) : (l.foldr insertKey []).Perm l := by
  induction l with
  | nil => exact .refl _
  | cons x xs ih => exact (insertKey_perm x _).trans (ih.cons x)

theorem argsortBy_perm (l : List (α × β)) : (argsortBy l).Perm (l.map Prod.snd) := (foldr_insertKey_perm l).map _

end

/-! ### Order used by the sort, on `XReal` -/

theorem XReal.lt_iff (a b : XReal) : a < b ↔ XReal.lt a b := Iff.rfl
theorem XReal.le_iff (a b : XReal) : a ≤ b ↔ XReal.le a b := Iff.rfl

theorem XReal.feq_self {a : XReal} : feq a a ↔ a ≠ .nan := by
  cases a <;> simp [feq, XReal.le_iff, XReal.le]

theorem npLt_asymm {a b : XReal} (h : npLt a b) : ¬ npLt b a := by
  unfold npLt at *
  rw [XReal.feq_self, XReal.feq_self] at *
  cases a <;> cases b <;> simp_all [XReal.lt_iff, XReal.lt]
  exact h.le

theorem not_npLt_trans {a b c : XReal} (h1 : ¬ npLt b a) (h2 : ¬ npLt c b) : ¬ npLt c a := by
  unfold npLt at *
  rw [XReal.feq_self, XReal.feq_self] at *
  cases a <;> cases b <;> cases c <;> simp_all [XReal.lt_iff, XReal.lt]
  exact le_trans h1 h2

theorem insertKey_sorted (x : XReal × β) (l : List (XReal × β)) (h : l.Pairwise fun a b => ¬ npLt b.1 a.1) :
    (insertKey x l).Pairwise fun a b => ¬ npLt b.1 a.1 := by
  induction l with
  | nil => simp [insertKey]
  | cons y ys ih =>
    unfold insertKey
    rw [List.pairwise_cons] at h
    split_ifs with hlt
    · rw [List.pairwise_cons]
      refine ⟨fun z hz => ?_, ih h.2⟩
      rcases List.mem_cons.1 ((insertKey_perm x ys).mem_iff.1 hz) with rfl | hz
      · exact npLt_asymm hlt
      · exact h.1 z hz
    · rw [List.pairwise_cons]
      refine ⟨fun z hz => ?_, List.pairwise_cons.2 h⟩
      rcases List.mem_cons.1 hz with rfl | hz
      · exact hlt
      · exact not_npLt_trans hlt (h.1 z hz)

theorem foldr_insertKey_sorted (l : List (XReal × β)) : (l.foldr insertKey []).Pairwise fun a b => ¬ npLt b.1 a.1 := by
  induction l with
  | nil => simp
  | cons x xs ih => exact insertKey_sorted x _ ih

/-- if every key is a function of its value, the sorted values are pairwise ordered by that function -/
theorem argsortBy_sorted (l : List (XReal × β)) (d : β → XReal) (h : ∀ x ∈ l, x.1 = d x.2) :
    (argsortBy l).Pairwise fun a b => ¬ npLt (d b) (d a) := by
  unfold argsortBy
  rw [List.pairwise_map]
  refine (foldr_insertKey_sorted l).imp_of_mem fun {a b} ha hb hab => ?_
  rw [← h a ((foldr_insertKey_perm l).mem_iff.1 ha), ← h b ((foldr_insertKey_perm l).mem_iff.1 hb)]
  exact hab
