import Verif.Lemmas.Distinct

/-! Helper lemmas for C89: at the end of the lateral reach of the shoulder everything is listed twice. -/

set_option autoImplicit false

section
variable {α : Type} [Add α] [Sub α] [Mul α] [Div α] [Neg α] [Zero α] [One α] [LT α] [LE α]
  [DecidableLT α] [DecidableLE α] [Elem α]

/-- what is given twice comes back twice or not at all -/
theorem callS_twice {N : Normalizer α} {j : Nat} {x : α} {r : List α} (h : N.callS j [x, x] = .ok r) : r = [] ∨ ∃ y, r = [y, y] := by
  obtain ⟨ts, h1, h2⟩ := Except.bind_eq_ok h
  simp only [List.mapM_cons, List.mapM_nil] at h1
  obtain ⟨t, e1, h1⟩ := Except.bind_eq_ok h1
  rw [e1] at h1
  simp only [Except.bind_ok, Except.pure_eq] at h1
  cases h1
  rcases t with _ | t
  · rcases hl : N.last with _ | last <;> rw [hl] at h2 <;> cases h2 <;> exact .inl rfl
  right
  refine ⟨t, ?_⟩
  have e : List.filterMap id [some t, some t] = [t, t] := rfl
  rcases hl : N.last with _ | last
  · rw [hl] at h2; cases h2; rfl
  rw [hl] at h2
  simp only [e, List.length_cons, List.length_nil] at h2
  rw [if_neg (by omega)] at h2
  obtain ⟨y, -, h2⟩ := Except.bind_eq_ok h2
  cases h2
  simp only [pruneSort, List.map_cons, List.map_nil, List.filter_cons, List.filter_nil]
  have es : ∀ c : α, argsortBy [(c, t), (c, t)] = [t, t] := by
    intro c
    simp only [argsortBy, List.foldr_cons, List.foldr_nil, insertKey]
    split_ifs <;> rfl
  split_ifs with h1 h3 h3
  · exact absurd h3 (by simp)
  · exact es _
  · exact absurd h3 (by simp)
  · exact es _

theorem forAppend_twice {β γ : Type} {x : β} {f : β → Except PyErr (List γ)} {r : List γ} (h : forAppend [x, x] f = .ok r) :
    ∃ A, r = A ++ A := by
  obtain ⟨rs, h1, h2⟩ := Except.bind_eq_ok h
  simp only [List.mapM_cons, List.mapM_nil] at h1
  obtain ⟨A, e1, h1⟩ := Except.bind_eq_ok h1
  rw [e1] at h1
  cases h1
  cases h2
  exact ⟨A, by simp⟩

theorem forAppend_callS_twice {γ : Type} {N : Normalizer α} {j : Nat} {x : α} {Q : List α} {f : α → Except PyErr (List γ)} {r : List γ}
    (h : N.callS j [x, x] = .ok Q) (hr : forAppend Q f = .ok r) : ∃ A, r = A ++ A := by
  rcases callS_twice h with rfl | ⟨y, rfl⟩
  · cases hr; exact ⟨[], rfl⟩
  · exact forAppend_twice hr
end

/-- at the maximum of the projection `subproblem4` lists its one solution twice -/
theorem subproblem4_twice (p q k : V3 ℝ) {d : ℝ} (ha : 0 < Spec.sp4amp p q k) (hd : d = Spec.sp4mid p q k + Spec.sp4amp p q k) :
    ∃ t : ℝ, subproblem4 p.up q.up k.up (.fin d) = [.fin t, .fin t] := by
  have e : (d - Spec.sp4mid p q k) / Spec.sp4amp p q k = 1 := by rw [hd, add_sub_cancel_left, div_self ha.ne']
  refine ⟨-Complex.arg ⟨p.dot (k.cross q), -p.dot (k.cross (k.cross q))⟩ + Real.pi / 2, ?_⟩
  rw [subproblem4_up]
  simp only [XReal.fin_div _ ha.ne', e]
  rw [if_neg (by simp), XReal.arcsin_fin (by norm_num) le_rfl, Real.arcsin_one]
  simp only [XReal.fin_add, XReal.fin_sub]
  congr 3
  ring

/-- the lateral position of a point turned about an axis perpendicular to the y axis -/
theorem sp4_lateral {q k : V3 ℝ} (hk : IsUnit3 k) (h : V3.ey.dot k = 0) :
    Spec.sp4mid V3.ey q k = 0 ∧ Spec.sp4amp V3.ey q k = (k.cross q).norm := by
  have hk' : k.x * k.x + k.y * k.y + k.z * k.z = 1 := hk
  have h' : k.y = 0 := by simpa [V3.dot] using h
  rw [h'] at hk'
  have e : V3.ey.dot (k.cross (k.cross q)) = -q.y := by
    simp [V3.dot, h']
    linear_combination (-q.y) * hk'
  refine ⟨by rw [Spec.sp4mid, e]; simp [V3.dot], ?_⟩
  rw [Spec.sp4amp, V3.norm_eq, e]
  congr 1
  simp [V3.dot, h']
  linear_combination (-q.y ^ 2) * hk'

section
variable {h0 h1 h2 h3 h4 h5 P0 P1 P2 P3 P4 P5 P6 p0T : V3 ℝ} {R06 : M3 ℝ} {r : Robot ℝ} {last : Option (List ℝ)}

theorem shoulder_twice {v : V3 ℝ} {d : ℝ} (u0 : IsUnit3 h0) (hu : V3.ey.dot h0 = 0) (hd : d = (h0.cross v).norm) (hs : h0.cross v ≠ 0) :
    ∃ t : ℝ, subproblem4 V3.ey.up v.up (-h0).up (.fin d) = [.fin t, .fin t] := by
  have un : IsUnit3 (-h0) := by
    have := u0; simp only [IsUnit3] at this ⊢; simpa using this
  obtain ⟨e1, e2⟩ := sp4_lateral (q := v) un (by rw [V3.dot_neg, hu, neg_zero])
  have e3 : (-h0).cross v = -(h0.cross v) := by ext <;> simp <;> ring
  rw [e3, V3.norm_neg] at e2
  exact subproblem4_twice V3.ey v (-h0) (by rw [e2]; exact V3.norm_pos hs) (by rw [e1, e2, hd, zero_add])

theorem r6Search_twice {P4 P5 : V3 XReal} (u0 : IsUnit3 h0) (hu : V3.ey.dot h0 = 0)
    (hd : V3.ey.dot (P1 + P2 + P3) = (h0.cross (p0T - R06.mulVec P6)).norm) (hs : h0.cross (p0T - R06.mulVec P6) ≠ 0)
    {sols : List (List XReal)}
    (h : r6Search [h0.up, h1.up, h2.up, h3.up, h4.up, h5.up] [P0.up, P1.up, P2.up, P3.up, P4, P5, P6.up] (upNormalizer r last)
      R06.up p0T.up = .ok sols) : ∃ A, sols = A ++ A := by
  obtain ⟨t, e⟩ := shoulder_twice u0 hu hd hs
  simp only [r6Search, V3.up_ey, V3.up_add, V3.up_dot, M3.up_mulVec, V3.up_sub, V3.up_neg] at h e
  rw [e] at h
  obtain ⟨Q1, c1, h⟩ := Except.bind_eq_ok h
  exact forAppend_callS_twice c1 h

theorem urSearch_twice {k : V3 ℝ}
    (hd : V3.ey.dot (P1 + P2 + P3 + P4) = (V3.ez.cross (p0T - R06.mulVec (P6 + P5))).norm)
    (hs : V3.ez.cross (p0T - R06.mulVec (P6 + P5)) ≠ 0) {sols : List (List XReal)}
    (h : urSearch [V3.ez.up, k.up, k.up, k.up, (-V3.ez : V3 ℝ).up, k.up] [P0.up, P1.up, P2.up, P3.up, P4.up, P5.up, P6.up]
      (upNormalizer r last) R06.up p0T.up = .ok sols) : ∃ A, sols = A ++ A := by
  obtain ⟨t, e⟩ := shoulder_twice ez_unit (by simp [V3.dot]) hd hs
  simp only [urSearch, V3.up_ey, V3.up_add, V3.up_dot, M3.up_mulVec, V3.up_sub, V3.up_neg] at h e
  rw [e] at h
  obtain ⟨Q1, c1, h⟩ := Except.bind_eq_ok h
  exact forAppend_callS_twice c1 h
end
