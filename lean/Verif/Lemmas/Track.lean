import Verif.Props.Ur

/-! # The first solution when the last joint values are those of the pose -/
set_option autoImplicit false

theorem rowDist_self (l : List ℝ) : Spec.dist l l = 0 := by
  have : (l.zipWith (fun x y => (x - y) ^ 2) l).sum = 0 := by
    induction l with
    | nil => rfl
    | cons a l ih => simp [ih]
  rw [Spec.dist, this, Real.sqrt_zero]

theorem rowDist_eq_zero : ∀ {a b : List ℝ}, a.length = b.length → Spec.dist a b ≤ 0 → a = b := by
  have nn : ∀ a b : List ℝ, 0 ≤ (a.zipWith (fun x y => (x - y) ^ 2) b).sum := by
    intro a
    induction a with
    | nil => intro b; simp
    | cons x a ih =>
      intro b
      cases b with
      | nil => simp
      | cons y b => simp only [List.zipWith_cons_cons, List.sum_cons]; nlinarith [ih b, sq_nonneg (x - y)]
  have key : ∀ a b : List ℝ, a.length = b.length → (a.zipWith (fun x y => (x - y) ^ 2) b).sum ≤ 0 → a = b := by
    intro a
    induction a with
    | nil => intro b h _; cases b with
      | nil => rfl
      | cons => cases h
    | cons x a ih =>
      intro b h hs
      cases b with
      | nil => cases h
      | cons y b =>
        simp only [List.zipWith_cons_cons, List.sum_cons] at hs
        have h1 := nn a b
        have h2 := sq_nonneg (x - y)
        have h3 : (x - y) ^ 2 = 0 := by linarith
        rw [ih b (by simpa using h) (by linarith), sub_eq_zero.1 (pow_eq_zero_iff (two_ne_zero) |>.1 h3)]
  intro a b h hd
  rw [Spec.dist, Real.sqrt_le_iff] at hd
  exact key a b h (by simpa using hd.2)

/-- the last joint values come first, if they are among the rows -/
theorem sortByLast_head {rows sols : List (List XReal)} {l : List ℝ} (h : sortByLast rows (some (l.map .fin)) = .ok sols)
    (hf : ∀ s ∈ rows, ∃ a : List ℝ, s = a.map .fin ∧ a.length = l.length) (hm : l.map .fin ∈ rows) :
    sols.head? = some (l.map .fin) := by
  have hp := sortByLast_mem h
  have hs := sortByLast_sorted h
  rcases sols with _ | ⟨s, sols⟩
  · exact absurd (hp.mem_iff.2 hm) (by simp)
  obtain ⟨a, rfl, ha⟩ := hf s (hp.mem_iff.1 (by simp))
  rcases List.mem_cons.1 (hp.mem_iff.2 hm) with e | e
  · rw [e]; rfl
  · have := C34_first_closest _ _ _ hs _ e a l l rfl rfl rfl ha rfl
    rw [rowDist_self] at this
    rw [rowDist_eq_zero ha this]; rfl

/-- sorting returns for rows of the right size -/
theorem sortByLast_total {rows : List (List XReal)} {l : List ℝ} (hne : rows ≠ []) (hf : ∀ s ∈ rows, s.length = l.length) :
    ∃ sols, sortByLast rows (some (l.map .fin)) = .ok sols := by
  obtain ⟨d, hd⟩ : ∃ d, rowDist rows (l.map XReal.fin) = .ok d := by
    rw [rowDist, if_neg (by simpa using hne)]
    refine exists_mapM_ok fun s hs => ?_
    have e : bcast s (l.map XReal.fin) = .ok (s.zip (l.map XReal.fin)) := by
      unfold bcast
      rw [if_pos (by rw [hf s hs, List.length_map])]
    rw [e, Except.bind_ok]
    exact ⟨_, rfl⟩
  simp only [sortByLast, hd, Except.bind_ok]
  exact ⟨_, rfl⟩

/-- not a number, or an angle of at most half a turn -/
def HalfTurn (a : XReal) : Prop := a = .nan ∨ ∃ t : ℝ, a = .fin t ∧ |t| ≤ Real.pi

theorem HalfTurn.neg {a : XReal} (h : HalfTurn a) : HalfTurn (-a) := by
  rcases h with rfl | ⟨t, rfl, h⟩
  · exact .inl rfl
  · exact .inr ⟨-t, rfl, by rwa [abs_neg]⟩

/-- `subproblem1` returns angles of at most half a turn -/
theorem subproblem1_range {p q k : V3 XReal} {a : XReal} (h : subproblem1 p q k = .ok a) : HalfTurn a := by
  have hpi := Real.pi_pos
  have key : ∀ a b : XReal, HalfTurn ((lit 2 : XReal) * Elem.arctan2 (Elem.sqrt a) (Elem.sqrt b)) := by
    intro a b
    rcases hy : Elem.sqrt a with _ | _ | _ | y <;> rcases hz : Elem.sqrt b with _ | _ | _ | z <;> try (exact .inl rfl)
    have hz0 : 0 ≤ z := by
      rcases b with _ | _ | _ | b <;> try (cases hz; done)
      simp only [Elem.sqrt] at hz
      split_ifs at hz
      cases hz
      exact Real.sqrt_nonneg _
    rw [XReal.arctan2_fin]
    have := (Complex.abs_arg_le_pi_div_two_iff (z := ⟨z, y⟩)).2 hz0
    have h2 : (lit 2 : XReal) = .fin 2 := by simp [lit, Elem.lit]
    rw [h2, XReal.fin_mul]
    refine .inr ⟨_, rfl, ?_⟩
    rw [abs_mul, abs_of_pos (by norm_num : (0 : ℝ) < 2)]
    linarith
  have key0 : ∀ p q k : V3 XReal, subproblem0 p q k = .ok a → HalfTurn a := by
    intro p q k h
    simp only [subproblem0] at h
    obtain ⟨_, -, h⟩ := Except.bind_eq_ok h
    split_ifs at h
    · rw [← Except.ok.inj h]; exact (key _ _).neg
    · rw [← Except.ok.inj h]; exact key _ _
  simp only [subproblem1] at h
  split_ifs at h
  · cases h
    exact .inr ⟨0, rfl, by rw [abs_zero]; exact hpi.le⟩
  · exact key0 _ _ _ h

theorem subproblem2_range {p q k1 k2 : V3 XReal} {Q : List (XReal × XReal)} (h : subproblem2 p q k1 k2 = .ok Q) {x : XReal × XReal}
    (hx : x ∈ Q) : HalfTurn x.1 ∧ HalfTurn x.2 := by
  simp only [subproblem2] at h
  split_ifs at h
  all_goals first
    | (cases h; cases hx; done)
    | (obtain ⟨t11, e1, h⟩ := Except.bind_eq_ok h
       obtain ⟨t12, e2, h⟩ := Except.bind_eq_ok h
       obtain ⟨t21, e3, h⟩ := Except.bind_eq_ok h
       obtain ⟨t22, e4, h⟩ := Except.bind_eq_ok h
       cases h
       simp only [List.mem_cons, List.not_mem_nil, or_false] at hx
       rcases hx with rfl | rfl
       · exact ⟨(subproblem1_range e1).neg, subproblem1_range e3⟩
       · exact ⟨(subproblem1_range e2).neg, subproblem1_range e4⟩)
    | (obtain ⟨t2, e2, h⟩ := Except.bind_eq_ok h
       obtain ⟨t1, e1, h⟩ := Except.bind_eq_ok h
       cases h
       rw [List.mem_singleton] at hx
       subst hx
       exact ⟨(subproblem1_range e1).neg, subproblem1_range e2⟩)

/-- how the fourth and fifth entries of a row come about -/
theorem urSearch_angles {H P : List (V3 XReal)} {N : Normalizer XReal} {R06 : M3 XReal} {p0T : V3 XReal} {sols : List (List XReal)}
    (h : urSearch H P N R06 p0T = .ok sols) {s : List XReal} (hs : s ∈ sols) :
    ∃ q1 q2 q3 q4 q5 q6 q24, s = [q1, q2, q3, q4, q5, q6] ∧ HalfTurn q24 ∧ HalfTurn q5 ∧
      N.normalize 3 (q24 - q2 - q3) = .ok (some q4) := by
  unfold urSearch at h
  split at h
  swap
  · cases h
  obtain ⟨Q1, e1, h⟩ := Except.bind_eq_ok h
  obtain ⟨q1, m1, s1, h, hs⟩ := mem_forAppend h hs
  obtain ⟨Q, eQ, h⟩ := Except.bind_eq_ok h
  obtain ⟨⟨q24, q5⟩, m5, s5, h, hs⟩ := mem_forAppend h hs
  obtain ⟨b24, b5⟩ := subproblem2_range eQ m5
  obtain ⟨Q3, -, h⟩ := Except.bind_eq_ok h
  obtain ⟨Q3', e3, h⟩ := Except.bind_eq_ok h
  obtain ⟨q3, m3, s3, h, hs⟩ := mem_forAppend h hs
  obtain ⟨q2r, -, h⟩ := Except.bind_eq_ok h
  obtain ⟨q2, e2, h⟩ := Except.bind_eq_ok h
  rcases q2 with _ | q2
  · cases h; cases hs
  obtain ⟨q4, e4, h⟩ := Except.bind_eq_ok h
  rcases q4 with _ | q4
  · cases h; cases hs
  obtain ⟨q6r, -, h⟩ := Except.bind_eq_ok h
  obtain ⟨q6, e6, h⟩ := Except.bind_eq_ok h
  rcases q6 with _ | q6
  · cases h; cases hs
  cases h
  rw [List.mem_singleton] at hs
  exact ⟨q1, q2, q3, q4, q5, q6, q24, hs, b24, b5, one_mem e4⟩
