import Verif.Model.Warnings
import Verif.Lemmas.ListM

/-! # Calls with their warnings -/
set_option autoImplicit false

namespace Warned
variable {β γ : Type}

theorem bind_out (m : Warned β) (f : β → Warned γ) : (m >>= f).out = m.out >>= fun a => (f a).out := by
  show (m.andThen f).out = _
  unfold andThen
  cases m.out <;> rfl

theorem pure_out (a : β) : (pure a : Warned β).out = .ok a := rfl
theorem quiet_out (m : Except PyErr β) : (quiet m).out = m := rfl
theorem warn_out (w : Warning) : (warn w).out = .ok () := rfl

theorem ite_out {c : Prop} [Decidable c] (a b : Warned β) : (if c then a else b).out = if c then a.out else b.out := by
  split <;> rfl

theorem pure_warns (a : β) : (pure a : Warned β).warns = [] := rfl
theorem quiet_warns (m : Except PyErr β) : (quiet m).warns = [] := rfl

/-- a warning of two statements is one of the first, or of the second if the first returned -/
theorem mem_bind {m : Warned β} {f : β → Warned γ} {w : Warning} :
    w ∈ (m >>= f).warns ↔ w ∈ m.warns ∨ ∃ a, m.out = .ok a ∧ w ∈ (f a).warns := by
  show w ∈ (m.andThen f).warns ↔ _
  unfold andThen
  rcases h : m.out with e | a
  · simp
  · simp

theorem mem_warn {w w' : Warning} : w ∈ (warn w').warns ↔ w = w' := by simp [warn]
theorem not_mem_pure {w : Warning} {a : β} : ¬ w ∈ (pure a : Warned β).warns := by simp [pure_warns]
theorem not_mem_quiet {w : Warning} {m : Except PyErr β} : ¬ w ∈ (quiet m).warns := by simp [quiet_warns]

theorem mem_quiet_bind {m : Except PyErr β} {f : β → Warned γ} {w : Warning} :
    w ∈ (quiet m >>= f).warns ↔ ∃ a, m = .ok a ∧ w ∈ (f a).warns := by
  rw [mem_bind]; simp [quiet_warns, quiet_out]

end Warned

theorem bind_ok_self {β : Type} (m : Except PyErr β) : (m >>= fun a => Except.ok a) = m := by cases m <;> rfl

theorem forAppend_cons {β γ : Type} (f : β → Except PyErr (List γ)) (x : β) (xs : List β) :
    forAppend (x :: xs) f = (f x >>= fun r => forAppend xs f >>= fun rs => .ok (r ++ rs)) := by
  unfold forAppend
  rw [List.mapM_cons]
  cases h1 : f x with
  | error e => rfl
  | ok r =>
    cases h2 : List.mapM f xs with
    | error e => rfl
    | ok rs => simp [Except.bind_ok, pure, Except.pure]

theorem forAppendW_out {β γ : Type} (f : β → Warned (List γ)) (l : List β) :
    (forAppendW f l).out = forAppend l fun x => (f x).out := by
  induction l with
  | nil => rfl
  | cons x xs ih =>
    rw [forAppendW, forAppend_cons, ← ih]
    simp only [Warned.bind_out, Warned.pure_out]

/-- a warning of a loop is one of a body -/
theorem mem_forAppendW {β γ : Type} {f : β → Warned (List γ)} {l : List β} {w : Warning} (h : w ∈ (forAppendW f l).warns) :
    ∃ x ∈ l, w ∈ (f x).warns := by
  induction l with
  | nil => exact absurd h Warned.not_mem_pure
  | cons x xs ih =>
    rw [forAppendW, Warned.mem_bind] at h
    rcases h with h | ⟨a, -, h⟩
    · exact ⟨x, by simp, h⟩
    · rw [Warned.mem_bind] at h
      rcases h with h | ⟨b, -, h⟩
      · obtain ⟨y, hy, h⟩ := ih h
        exact ⟨y, by simp [hy], h⟩
      · exact absurd h Warned.not_mem_pure

/-- if the loop ends, a warning of a body is one of the loop -/
theorem forAppendW_mem {β γ : Type} {f : β → Warned (List γ)} {l : List β} {r : List γ} (ho : (forAppendW f l).out = .ok r) {x : β}
    (hx : x ∈ l) {w : Warning} (h : w ∈ (f x).warns) : w ∈ (forAppendW f l).warns := by
  induction l generalizing r with
  | nil => cases hx
  | cons y ys ih =>
    rw [forAppendW, Warned.bind_out] at ho
    obtain ⟨a, ha, ho⟩ := Except.bind_eq_ok ho
    rw [Warned.bind_out] at ho
    obtain ⟨b, hb, -⟩ := Except.bind_eq_ok ho
    rw [forAppendW, Warned.mem_bind]
    rcases List.mem_cons.1 hx with rfl | hx
    · exact .inl h
    · refine .inr ⟨a, ha, ?_⟩
      rw [Warned.mem_bind]
      exact .inl (ih hb hx)

/-- if the loop ends, so does every body -/
theorem forAppendW_ok {β γ : Type} {f : β → Warned (List γ)} {l : List β} {r : List γ} (ho : (forAppendW f l).out = .ok r) {x : β}
    (hx : x ∈ l) : ∃ s, (f x).out = .ok s := by
  induction l generalizing r with
  | nil => cases hx
  | cons y ys ih =>
    rw [forAppendW, Warned.bind_out] at ho
    obtain ⟨a, ha, ho⟩ := Except.bind_eq_ok ho
    rw [Warned.bind_out] at ho
    obtain ⟨b, hb, -⟩ := Except.bind_eq_ok ho
    rcases List.mem_cons.1 hx with rfl | hx
    · exact ⟨a, ha⟩
    · exact ih hb hx

section
variable {α : Type} [Add α] [Sub α] [Mul α] [Div α] [Neg α] [Zero α] [One α] [LT α] [LE α]
  [DecidableLT α] [DecidableLE α] [Elem α]

theorem subproblem1W_out (p q k : V3 α) : (subproblem1W p q k).out = subproblem1 p q k := by
  unfold subproblem1W subproblem1
  simp only [Warned.ite_out, Warned.bind_out, Warned.pure_out, Warned.quiet_out, Warned.warn_out, Except.bind_ok, ite_self]
  simp only [bind_ok_self]
  rfl

theorem subproblem2W_out (p q k1 k2 : V3 α) : (subproblem2W p q k1 k2).out = subproblem2 p q k1 k2 := by
  unfold subproblem2W subproblem2
  simp only [Warned.ite_out, Warned.bind_out, Warned.pure_out, Warned.warn_out, Except.bind_ok, subproblem1W_out]
  rfl

theorem subproblem3W_out (p q k : V3 α) (d : α) : (subproblem3W p q k d).out = subproblem3 p q k d := by
  unfold subproblem3W subproblem3
  simp only [Warned.ite_out, Warned.bind_out, Warned.pure_out, Warned.warn_out, Except.bind_ok, subproblem1W_out]
  rfl

theorem r6LastW_out (N : Normalizer α) (h3 h4 h5 : V3 α) (R06 R03 : M3 α) (q1 q2 q3 q4 q5 : α) :
    (r6LastW N h3 h4 h5 R06 R03 q1 q2 q3 q4 q5).out = r6Last N h3 h4 h5 R06 R03 q1 q2 q3 q4 q5 := by
  unfold r6LastW r6Last
  simp only [Warned.bind_out, Warned.quiet_out, subproblem1W_out]
  rfl

theorem r6ElbowW_out (N : Normalizer α) (h1 h2 h3 h4 h5 P2 P3 : V3 α) (R06 R01 : M3 α) (p26 : V3 α) (q1 q3 : α) :
    (r6ElbowW N h1 h2 h3 h4 h5 P2 P3 R06 R01 p26 q1 q3).out = r6Elbow N h1 h2 h3 h4 h5 P2 P3 R06 R01 p26 q1 q3 := by
  unfold r6ElbowW r6Elbow
  simp only [Warned.bind_out, Warned.quiet_out, subproblem1W_out]
  congr 1; funext q2
  congr 1; funext o
  cases o with
  | none => rfl
  | some q2 =>
    simp only [Warned.bind_out, Warned.quiet_out, subproblem2W_out, forAppendW_out]
    congr 1; funext Q
    congr 1; funext Q'
    congr 1; funext t
    rcases t with _ | ⟨a, _ | ⟨b, _ | _⟩⟩
    · rfl
    · rfl
    · exact r6LastW_out ..
    · rfl

theorem r6ShoulderW_out (N : Normalizer α) (h0 h1 h2 h3 h4 h5 P0 P1 P2 P3 P6 : V3 α) (R06 : M3 α) (p0T : V3 α) (q1 : α) :
    (r6ShoulderW N h0 h1 h2 h3 h4 h5 P0 P1 P2 P3 P6 R06 p0T q1).out = r6Shoulder N h0 h1 h2 h3 h4 h5 P0 P1 P2 P3 P6 R06 p0T q1 := by
  unfold r6ShoulderW r6Shoulder
  simp only [Warned.bind_out, Warned.quiet_out, subproblem3W_out, forAppendW_out, r6ElbowW_out]

theorem r6SearchW_out (H P : List (V3 α)) (N : Normalizer α) (R06 : M3 α) (p0T : V3 α) :
    (r6SearchW H P N R06 p0T).out = r6Search H P N R06 p0T := by
  unfold r6SearchW r6Search
  split
  · simp only [Warned.bind_out, Warned.quiet_out, subproblem4W, forAppendW_out, Except.bind_ok]
    congr 1; funext Q
    congr 1; funext q
    rw [r6ShoulderW_out]
  · rename_i hn
    split
    · exact absurd rfl (hn _ _ _ _ _ _ _ _ _ _ _ _ _ _ _ rfl)
    · rfl

theorem urElbowW_out (N : Normalizer α) (h1 h2 h4 h5 P2 P3 : V3 α) (R06 R01 R04 : M3 α) (p23p : V3 α) (q1 q24 q5 q3 : α) :
    (urElbowW N h1 h2 h4 h5 P2 P3 R06 R01 R04 p23p q1 q24 q5 q3).out = urElbow N h1 h2 h4 h5 P2 P3 R06 R01 R04 p23p q1 q24 q5 q3 := by
  unfold urElbowW urElbow
  simp only [Warned.bind_out, Warned.quiet_out, subproblem1W_out]
  congr 1; funext q2
  congr 1; funext o
  cases o with
  | none => rfl
  | some q2 =>
    simp only [Warned.bind_out, Warned.quiet_out]
    congr 1; funext o
    cases o with
    | none => rfl
    | some q4 =>
      simp only [Warned.bind_out, Warned.quiet_out, subproblem1W_out]
      rfl

theorem urWristW_out (N : Normalizer α) (h0 h1 h2 h3 h4 h5 P0 P1 P2 P3 P4 : V3 α) (R06 : M3 α) (p04 : V3 α) (q1 q24 q5 : α) :
    (urWristW N h0 h1 h2 h3 h4 h5 P0 P1 P2 P3 P4 R06 p04 q1 q24 q5).out =
      urWrist N h0 h1 h2 h3 h4 h5 P0 P1 P2 P3 P4 R06 p04 q1 q24 q5 := by
  unfold urWristW urWrist
  simp only [Warned.bind_out, Warned.quiet_out, subproblem3W_out, forAppendW_out, urElbowW_out]

theorem urShoulderW_out (N : Normalizer α) (h0 h1 h2 h3 h4 h5 P0 P1 P2 P3 P4 : V3 α) (R06 : M3 α) (p04 : V3 α) (q1 : α) :
    (urShoulderW N h0 h1 h2 h3 h4 h5 P0 P1 P2 P3 P4 R06 p04 q1).out = urShoulder N h0 h1 h2 h3 h4 h5 P0 P1 P2 P3 P4 R06 p04 q1 := by
  unfold urShoulderW urShoulder
  simp only [Warned.bind_out, subproblem2W_out, forAppendW_out, urWristW_out]

theorem urSearchW_out (H P : List (V3 α)) (N : Normalizer α) (R06 : M3 α) (p0T : V3 α) :
    (urSearchW H P N R06 p0T).out = urSearch H P N R06 p0T := by
  unfold urSearchW urSearch
  split
  · simp only [Warned.bind_out, Warned.quiet_out, subproblem4W, forAppendW_out, Except.bind_ok]
    congr 1; funext Q
    congr 1; funext q
    rw [urShoulderW_out]
  · rename_i hn
    split
    · exact absurd rfl (hn _ _ _ _ _ _ _ _ _ _ _ _ _ _ _ rfl)
    · rfl

theorem robot6W_out (robot : Robot α) (pose : Transform α) (last : Option (List α)) :
    (robot6W robot pose last).out = (robot6_sphericalwrist_invkin robot pose last).2 := by
  unfold robot6W robot6_sphericalwrist_invkin
  simp only [Warned.bind_out, Warned.quiet_out, r6SearchW_out]

theorem urW_out (robot : Robot α) (pose : Transform α) (last : Option (List α)) :
    (urW robot pose last).out = ur_invkin robot pose last := by
  unfold urW ur_invkin
  simp only [Warned.bind_out, Warned.quiet_out, urSearchW_out]
  cases allcloseCols urAxesNeg robot.H with
  | error e => rfl
  | ok a =>
    simp only [Except.bind_ok]
    cases a with
    | true => rfl
    | false =>
      simp only [Bool.false_eq_true, if_false]
      cases allcloseCols urAxesPos robot.H <;> rfl

end
