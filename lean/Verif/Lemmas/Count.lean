import Verif.Lemmas.Robot6
import Verif.Lemmas.Complete
import Verif.Lemmas.Ur
import Verif.Props.InvkinMisc

/-! # Lemmas on how many rows the analytic solvers list, and on rows that are listed twice -/
set_option autoImplicit false

section
variable {β γ : Type}

theorem mapM_length {f : β → Except PyErr γ} {l : List β} {r : List γ} (h : l.mapM f = .ok r) : r.length = l.length :=
  (forall₂_of_mapM h).length_eq.symm

theorem forAppend_length {l : List β} {f : β → Except PyErr (List γ)} {r : List γ} {c : Nat} (h : forAppend l f = .ok r)
    (hf : ∀ x ∈ l, ∀ s, f x = .ok s → s.length ≤ c) : r.length ≤ l.length * c := by
  obtain ⟨rs, h1, h2⟩ := Except.bind_eq_ok h
  cases h2
  have := forall₂_of_mapM h1
  clear h h1
  induction this with
  | nil => simp
  | @cons a b l rs hab _ ih =>
    simp only [List.flatten_cons, List.length_append, List.length_cons]
    have h1 := hf a (by simp) b hab
    have h2 := ih fun x hx => hf x (by simp [hx])
    rw [Nat.add_mul, one_mul]; omega

/-- a relation that holds within each block and between blocks holds between all that the loop appends -/
theorem forAppend_pairwise {l : List β} {f : β → Except PyErr (List γ)} {r : List γ} {R : β → β → Prop} {D : γ → γ → Prop}
    (h : forAppend l f = .ok r) (hl : l.Pairwise R) (hin : ∀ x ∈ l, ∀ s, f x = .ok s → s.Pairwise D)
    (hout : ∀ x ∈ l, ∀ y ∈ l, R x y → ∀ s t, f x = .ok s → f y = .ok t → ∀ a ∈ s, ∀ b ∈ t, D a b) : r.Pairwise D := by
  obtain ⟨rs, h1, h2⟩ := Except.bind_eq_ok h
  cases h2
  have := forall₂_of_mapM h1
  clear h h1
  induction this with
  | nil => simp
  | @cons a b l rs hab hrest ih =>
    rw [List.flatten_cons, List.pairwise_append]
    rw [List.pairwise_cons] at hl
    refine ⟨hin a (by simp) b hab, ih hl.2 (fun x hx => hin x (by simp [hx])) (fun x hx y hy => hout x (by simp [hx]) y (by simp [hy])), ?_⟩
    intro u hu v hv
    rw [List.mem_flatten] at hv
    obtain ⟨t, ht, hv⟩ := hv
    obtain ⟨y, hy, hyt⟩ := Forall₂.exists_left hrest ht
    exact hout a (by simp) y (by simp [hy]) (hl.1 y hy) b t hab hyt u hu v hv

/-- a relation on the arguments that carries over to the results present -/
theorem mapM_filterMap_pairwise {f : β → Except PyErr (Option γ)} {l : List β} {r : List (Option γ)} {R : β → β → Prop}
    {D : γ → γ → Prop} (h : l.mapM f = .ok r) (hl : l.Pairwise R)
    (hf : ∀ x ∈ l, ∀ y ∈ l, R x y → ∀ a b, f x = .ok (some a) → f y = .ok (some b) → D a b) : (r.filterMap id).Pairwise D := by
  have := forall₂_of_mapM h
  clear h
  induction this with
  | nil => simp
  | @cons a b l rs hab hrest ih =>
    rw [List.pairwise_cons] at hl
    have ih' := ih hl.2 fun x hx y hy => hf x (by simp [hx]) y (by simp [hy])
    rcases b with _ | b
    · simpa using ih'
    · rw [List.filterMap_cons_some (f := id) rfl, List.pairwise_cons]
      refine ⟨fun c hc => ?_, ih'⟩
      rw [List.mem_filterMap] at hc
      obtain ⟨x, hx, rfl⟩ := hc
      obtain ⟨y, hy, hyx⟩ := Forall₂.exists_left hrest hx
      exact hf a (by simp) y (by simp [hy]) (hl.1 y hy) b c hab hyx
end

section
variable {α : Type} [Add α] [Sub α] [Mul α] [Div α] [Neg α] [Zero α] [One α] [LT α] [LE α]
  [DecidableLT α] [DecidableLE α] [Elem α]

theorem pruneSort_length {β : Type} (l : List (β × α × Bool)) : (pruneSort l).length ≤ l.length := by
  simp only [pruneSort]
  split_ifs
  · rw [List.length_map]; exact List.length_filter_le _ _
  · rw [(argsortBy_perm _).length_eq]; simp

theorem pruneSort_pairwise {β : Type} {l : List (β × α × Bool)} {D : β → β → Prop} (hs : Symmetric D)
    (h : (l.map Prod.fst).Pairwise D) : (pruneSort l).Pairwise D := by
  simp only [pruneSort]
  split_ifs
  · exact (h.sublist ((List.filter_sublist (l := l)).map _))
  · refine List.Pairwise.perm ?_ (argsortBy_perm _).symm (fun {x y} h => hs h)
    simpa [Function.comp_def] using h

theorem callS_length {N : Normalizer α} {j : Nat} {θs r : List α} (h : N.callS j θs = .ok r) : r.length ≤ θs.length := by
  obtain ⟨ts, h1, h2⟩ := Except.bind_eq_ok h
  have h0 : (ts.filterMap id).length ≤ θs.length := (List.length_filterMap_le _ _).trans (mapM_length h1).le
  rcases hl : N.last with _ | last
  · rw [hl] at h2; cases h2; exact h0
  · rw [hl] at h2
    simp only at h2
    split_ifs at h2
    · cases h2; exact h0
    · obtain ⟨x, -, h4⟩ := Except.bind_eq_ok h2
      cases h4
      refine (pruneSort_length _).trans ?_
      rw [List.length_map]; exact h0

theorem callV_length {N : Normalizer α} {js : List Nat} {θs r : List (List α)} (h : N.callV js θs = .ok r) : r.length ≤ θs.length := by
  obtain ⟨ts, h1, h2⟩ := Except.bind_eq_ok h
  have h0 : (ts.filterMap id).length ≤ θs.length := (List.length_filterMap_le _ _).trans (mapM_length h1).le
  rcases hl : N.last with _ | last
  · rw [hl] at h2; cases h2; exact h0
  · rw [hl] at h2
    simp only at h2
    split_ifs at h2
    · cases h2; exact h0
    · obtain ⟨x, -, h4⟩ := Except.bind_eq_ok h2
      cases h4
      refine (pruneSort_length _).trans ?_
      rw [List.length_map]; exact h0

theorem callS_pairwise {N : Normalizer α} {j : Nat} {θs r : List α} {R D : α → α → Prop} (hs : Symmetric D) (h : N.callS j θs = .ok r)
    (hl : θs.Pairwise R) (hf : ∀ x ∈ θs, ∀ y ∈ θs, R x y → ∀ a b, N.normalize j x = .ok (some a) → N.normalize j y = .ok (some b) → D a b) :
    r.Pairwise D := by
  obtain ⟨ts, h1, h2⟩ := Except.bind_eq_ok h
  have h0 := mapM_filterMap_pairwise h1 hl hf
  rcases hl : N.last with _ | last
  · rw [hl] at h2; cases h2; exact h0
  · rw [hl] at h2
    simp only at h2
    split_ifs at h2
    · cases h2; exact h0
    · obtain ⟨x, -, h4⟩ := Except.bind_eq_ok h2
      cases h4
      apply pruneSort_pairwise hs
      simpa [Function.comp_def] using h0

theorem callV_pairwise {N : Normalizer α} {js : List Nat} {θs r : List (List α)} {R D : List α → List α → Prop} (hs : Symmetric D)
    (h : N.callV js θs = .ok r) (hl : θs.Pairwise R)
    (hf : ∀ x ∈ θs, ∀ y ∈ θs, R x y → ∀ a b, List.Forall₂ (fun jt t => N.normalize jt.1 jt.2 = .ok (some t)) (js.zip x) a →
      List.Forall₂ (fun jt t => N.normalize jt.1 jt.2 = .ok (some t)) (js.zip y) b → D a b) :
    r.Pairwise D := by
  obtain ⟨ts, h1, h2⟩ := Except.bind_eq_ok h
  have key : ∀ (x a : List α), (do
      let t3 ← (js.zip x).mapM fun jt => N.normalize jt.1 jt.2
      return if t3.all Option.isSome then some (t3.filterMap id) else none : Except PyErr (Option (List α))) = .ok (some a) →
      List.Forall₂ (fun jt t => N.normalize jt.1 jt.2 = .ok (some t)) (js.zip x) a := by
    intro x a h4
    obtain ⟨t3, h5, h6⟩ := Except.bind_eq_ok h4
    simp only [Except.pure_eq, Except.ok.injEq] at h6
    split_ifs at h6 with ha
    · cases h6
      exact mapM_option h5 ha
  have h0 := mapM_filterMap_pairwise (D := D) h1 hl fun x hx y hy hR a b e1 e2 => hf x hx y hy hR a b (key x a e1) (key y b e2)
  rcases hl : N.last with _ | last
  · rw [hl] at h2; cases h2; exact h0
  · rw [hl] at h2
    simp only at h2
    split_ifs at h2
    · cases h2; exact h0
    · obtain ⟨x, -, h4⟩ := Except.bind_eq_ok h2
      cases h4
      apply pruneSort_pairwise hs
      simpa [Function.comp_def] using h0

theorem sortByLast_perm {rows sols : List (List α)} {last : Option (List α)} (h : sortByLast rows last = .ok sols) : sols.Perm rows := by
  rcases last with _ | last
  · cases h; exact .refl _
  · obtain ⟨d, h1, h2⟩ := Except.bind_eq_ok h
    cases h2
    refine (argsortBy_perm d).trans (List.Perm.of_eq ?_)
    simp only [rowDist] at h1
    split_ifs at h1 with h0
    have := forall₂_of_mapM h1
    clear h h1 h0
    induction this with
    | nil => rfl
    | @cons a b l rs hab _ ih =>
      obtain ⟨e, -, h4⟩ := Except.bind_eq_ok hab
      cases h4
      simp [ih]

/-! ## Numbers of rows -/

theorem subproblem4_length (p q k : V3 α) (d : α) : (subproblem4 p q k d).length ≤ 2 := by
  simp only [subproblem4]; split_ifs <;> simp

theorem subproblem3_length {p q k : V3 α} {d : α} {l : List α} (h : subproblem3 p q k d = .ok l) : l.length ≤ 2 := by
  simp only [subproblem3] at h
  split_ifs at h
  · cases h; simp
  · obtain ⟨θ, -, h⟩ := Except.bind_eq_ok h
    cases h; simp
  · obtain ⟨θ, -, h⟩ := Except.bind_eq_ok h
    cases h; simp

theorem subproblem2_length {p q k1 k2 : V3 α} {l : List (α × α)} (h : subproblem2 p q k1 k2 = .ok l) : l.length ≤ 2 := by
  simp only [subproblem2] at h
  split_ifs at h
  all_goals first
    | (cases h; simp; done)
    | (obtain ⟨_, -, h⟩ := Except.bind_eq_ok h
       obtain ⟨_, -, h⟩ := Except.bind_eq_ok h
       first
         | (cases h; simp; done)
         | (obtain ⟨_, -, h⟩ := Except.bind_eq_ok h
            obtain ⟨_, -, h⟩ := Except.bind_eq_ok h
            cases h; simp; done))

theorem r6Last_rows {N : Normalizer α} {h3 h4 h5 : V3 α} {R06 R03 : M3 α} {q1 q2 q3 q4 q5 : α} {s : List (List α)}
    (h : r6Last N h3 h4 h5 R06 R03 q1 q2 q3 q4 q5 = .ok s) : s.length ≤ 1 ∧ ∀ t ∈ s, t.length = 6 := by
  simp only [r6Last] at h
  obtain ⟨q6, -, h⟩ := Except.bind_eq_ok h
  obtain ⟨x, -, h⟩ := Except.bind_eq_ok h
  rcases x with _ | x <;> cases h <;> simp

theorem r6Elbow_rows {N : Normalizer α} {h1 h2 h3 h4 h5 P2 P3 : V3 α} {R06 R01 : M3 α} {p26 : V3 α} {q1 q3 : α} {s : List (List α)}
    (h : r6Elbow N h1 h2 h3 h4 h5 P2 P3 R06 R01 p26 q1 q3 = .ok s) : s.length ≤ 2 ∧ ∀ t ∈ s, t.length = 6 := by
  simp only [r6Elbow] at h
  obtain ⟨q2, -, h⟩ := Except.bind_eq_ok h
  obtain ⟨x, -, h⟩ := Except.bind_eq_ok h
  rcases x with _ | x
  · cases h; simp
  · obtain ⟨Q, e, h⟩ := Except.bind_eq_ok h
    obtain ⟨Q', e', h⟩ := Except.bind_eq_ok h
    have hl := callV_length e'
    have hQ := subproblem2_length e
    rw [List.length_map] at hl
    constructor
    · have := forAppend_length (c := 1) h fun t _ s hs => by
        rcases t with _ | ⟨a, _ | ⟨b, _ | ⟨c, t⟩⟩⟩
        · cases hs
        · cases hs
        · exact (r6Last_rows hs).1
        · cases hs
      omega
    · intro t ht
      obtain ⟨y, -, sl, hy, ht⟩ := mem_forAppend h ht
      rcases y with _ | ⟨a, _ | ⟨b, _ | ⟨c, y⟩⟩⟩
      · cases hy
      · cases hy
      · exact (r6Last_rows hy).2 t ht
      · cases hy

theorem r6Search_rows {H P : List (V3 α)} {N : Normalizer α} {R06 : M3 α} {p0T : V3 α} {s : List (List α)}
    (h : r6Search H P N R06 p0T = .ok s) : s.length ≤ 8 ∧ ∀ t ∈ s, t.length = 6 := by
  simp only [r6Search] at h
  split at h
  · obtain ⟨Q1, e1, h⟩ := Except.bind_eq_ok h
    have l1 := (callS_length e1).trans (subproblem4_length _ _ _ _)
    constructor
    · have := forAppend_length (c := 4) h fun q1 _ s hs => by
        simp only [r6Shoulder] at hs
        obtain ⟨Q3, e3, hs⟩ := Except.bind_eq_ok hs
        obtain ⟨Q3', e3', hs⟩ := Except.bind_eq_ok hs
        have l3 := (callS_length e3').trans (subproblem3_length e3)
        have := forAppend_length (c := 2) hs fun q3 _ s hs => (r6Elbow_rows hs).1
        omega
      omega
    · intro t ht
      obtain ⟨q1, -, sl, hs, ht⟩ := mem_forAppend h ht
      simp only [r6Shoulder] at hs
      obtain ⟨Q3, e3, hs⟩ := Except.bind_eq_ok hs
      obtain ⟨Q3', e3', hs⟩ := Except.bind_eq_ok hs
      obtain ⟨q3, -, sl', hs, ht⟩ := mem_forAppend hs ht
      exact (r6Elbow_rows hs).2 t ht
  · cases h

theorem urElbow_rows {N : Normalizer α} {h1 h2 h4 h5 P2 P3 : V3 α} {R06 R01 R04 : M3 α} {v : V3 α} {q1 q24 q5 q3 : α} {s : List (List α)}
    (h : urElbow N h1 h2 h4 h5 P2 P3 R06 R01 R04 v q1 q24 q5 q3 = .ok s) : s.length ≤ 1 ∧ ∀ t ∈ s, t.length = 6 := by
  simp only [urElbow] at h
  obtain ⟨q2, -, h⟩ := Except.bind_eq_ok h
  obtain ⟨x, -, h⟩ := Except.bind_eq_ok h
  rcases x with _ | x
  · cases h; simp
  obtain ⟨x4, -, h⟩ := Except.bind_eq_ok h
  rcases x4 with _ | x4
  · cases h; simp
  obtain ⟨q6, -, h⟩ := Except.bind_eq_ok h
  obtain ⟨x6, -, h⟩ := Except.bind_eq_ok h
  rcases x6 with _ | x6 <;> cases h <;> simp

theorem urSearch_rows {H P : List (V3 α)} {N : Normalizer α} {R06 : M3 α} {p0T : V3 α} {s : List (List α)}
    (h : urSearch H P N R06 p0T = .ok s) : s.length ≤ 8 ∧ ∀ t ∈ s, t.length = 6 := by
  simp only [urSearch] at h
  split at h
  · obtain ⟨Q1, e1, h⟩ := Except.bind_eq_ok h
    have l1 := (callS_length e1).trans (subproblem4_length _ _ _ _)
    constructor
    · have := forAppend_length (c := 4) h fun q1 _ s hs => by
        simp only [urShoulder] at hs
        obtain ⟨Q, e, hs⟩ := Except.bind_eq_ok hs
        have l2 := subproblem2_length e
        have := forAppend_length (c := 2) hs fun x _ s hs => by
          simp only [urWrist] at hs
          obtain ⟨Q3, e3, hs⟩ := Except.bind_eq_ok hs
          obtain ⟨Q3', e3', hs⟩ := Except.bind_eq_ok hs
          have l3 := (callS_length e3').trans (subproblem3_length e3)
          have := forAppend_length (c := 1) hs fun q3 _ s hs => (urElbow_rows hs).1
          omega
        omega
      omega
    · intro t ht
      obtain ⟨q1, -, sl, hs, ht⟩ := mem_forAppend h ht
      simp only [urShoulder] at hs
      obtain ⟨Q, e, hs⟩ := Except.bind_eq_ok hs
      obtain ⟨x, -, sl', hs, ht⟩ := mem_forAppend hs ht
      simp only [urWrist] at hs
      obtain ⟨Q3, e3, hs⟩ := Except.bind_eq_ok hs
      obtain ⟨Q3', e3', hs⟩ := Except.bind_eq_ok hs
      obtain ⟨q3, -, sl', hs, ht⟩ := mem_forAppend hs ht
      exact (urElbow_rows hs).2 t ht
  · cases h
end
