import Verif.Lemmas.WarningsReal

/-! # The warnings of the analytic solvers -/
set_option autoImplicit false

/-- for all vectors and unit axes, `subproblem3` returns the empty list exactly if no rotation gives the distance -/
theorem sub3_empty_iff {p q k : V3 ℝ} {d : ℝ} (hk : IsUnit3 k) (hd : 0 ≤ d) :
    subproblem3 p.up q.up k.up (.fin d) = .ok [] ↔ ∀ φ : ℝ, (q + (rot k φ).mulVec p).norm ≠ d := by
  by_cases hon : k.cross p = 0 ∨ k.cross q = 0
  · obtain ⟨h0, h1, h2⟩ := C25_subproblem3_on_axis p q k d hk hon hd
    by_cases hc : (q + p).norm = d
    · rw [h2 hc]
      constructor
      · intro h; cases h
      · intro h; exact absurd ((h0 0).trans hc) (h 0)
    · rw [h1 hc]
      simp only [true_iff]
      intro φ; rw [h0 φ]; exact hc
  · push Not at hon
    obtain ⟨ts, e, h1, -⟩ := C25_subproblem3_partial p q k d hk hon.1 hon.2 hd
    rw [e, ← h1]
    simp

/-- the elbow angles solve their equation exactly, unless the directions of upper arm and forearm nearly coincide -/
theorem sub3_exact {p q k : V3 ℝ} {d : ℝ} (hk : IsUnit3 k) (hd : 0 ≤ d)
    (hb : Spec.dir p k = Spec.dir q k ∨ snap ≤ (Spec.dir p k - Spec.dir q k).norm) {l : List XReal}
    (h : subproblem3 p.up q.up k.up (.fin d) = .ok l) {x : XReal} (hx : x ∈ l) :
    ∃ t : ℝ, x = .fin t ∧ (q + (rot k t).mulVec p).norm = d := by
  by_cases hon : k.cross p = 0 ∨ k.cross q = 0
  · obtain ⟨h0, h1, h2⟩ := C25_subproblem3_on_axis p q k d hk hon hd
    by_cases hc : (q + p).norm = d
    · rw [h2 hc] at h; cases h
    · rw [h1 hc] at h; cases h; cases hx
  · push Not at hon
    obtain ⟨ts, e, -, -, -, h1⟩ := C25_subproblem3_partial p q k d hk hon.1 hon.2 hd
    rw [e] at h; cases h
    obtain ⟨t, ht, rfl⟩ := List.mem_map.1 hx
    exact ⟨t, rfl, (h1 hb).1 t ht⟩

/-- the wrist of either solver: no warning, whatever is asked -/
theorem wrist2W_quiet {h3 h4 h5 : V3 ℝ} (u3 : IsUnit3 h3) (u4 : IsUnit3 h4) (u5 : IsUnit3 h5) (h34 : h3.dot h4 = 0) (h45 : h4.dot h5 = 0)
    {A : M3 ℝ} (hA : IsRot A) {w : Warning} : w ∉ (subproblem2W h5.up (A.mulVec h5).up h3.up h4.up).warns := by
  have hq : IsUnit3 (A.mulVec h5) := by
    have := hA.dot_mulVec h5 h5
    rw [u5.dot] at this
    exact this
  refine sub2W_quiet u3 u4 (by rw [h34]; rw [npEps_real]; norm_num) (by rw [u5.dot, hq.dot]) ?_ (.inr (V3.norm_eq_one u5))
  rw [Spec.disc, u5.dot, V3.dot_comm h5, h45, h34]
  have c := V3.abs_dot_le (A.mulVec h5) h3
  rw [V3.norm_eq_one hq, V3.norm_eq_one u3, mul_one] at c
  have := (sq_le_one_iff_abs_le_one _).2 c
  simp only [ne_eq, OfNat.ofNat_ne_zero, not_false_eq_true, zero_pow, mul_zero, zero_mul, sub_zero, div_one, zero_add]
  linarith

theorem wrist2W_nan {p k1 k2 : V3 ℝ} (h : npEps ≤ 1 - k1.dot k2 ^ 2) {w : Warning} :
    w ∉ (subproblem2W p.up ⟨.nan, .nan, .nan⟩ k1.up k2.up).warns ∧
    ∀ Q, subproblem2 p.up ⟨.nan, .nan, .nan⟩ k1.up k2.up ≠ .ok Q := by
  have hpar : ¬ |1 - k1.dot k2 * k1.dot k2| < npEps := by
    have := npEps_pos; rw [← sq, abs_of_nonneg (by linarith)]; linarith
  have e : ∀ v : V3 XReal, (⟨.nan, .nan, .nan⟩ : V3 XReal).dot v = .nan := fun v => by simp [V3.dot]
  constructor
  · intro hw
    unfold subproblem2W at hw
    simp only [V3.up_dot, XReal.fin_mul, XReal.one_def, XReal.fin_sub, XReal.abs_fin, XReal.npEps_fin, XReal.fin_lt, e] at hw
    rw [if_neg hpar] at hw
    simp [XReal.nan_lt, XReal.lit_fin] at hw
    rw [Warned.mem_bind, sub1W_mem, subproblem1W_out, subproblem1_nan _ _ _ (.inl rfl)] at hw
    rcases hw with ⟨-, -, -, θ, h⟩ | ⟨a, h, -⟩ <;> cases h
  · intro Q hQ
    unfold subproblem2 at hQ
    simp only [V3.up_dot, XReal.fin_mul, XReal.one_def, XReal.fin_sub, XReal.abs_fin, XReal.npEps_fin, XReal.fin_lt, e] at hQ
    rw [if_neg hpar] at hQ
    simp [XReal.nan_lt, XReal.lit_fin] at hQ
    obtain ⟨t, h, -⟩ := Except.bind_eq_ok hQ
    rw [subproblem1_nan _ _ _ (.inl rfl)] at h
    cases h

/-- without limits and last joint values the normalizer keeps every value -/
theorem callS_keeps_free {r : Robot ℝ} (hlim : ¬ ∃ lo up, r.lower = some lo ∧ r.upper = some up) {j : Nat} {l l' : List XReal} {x : XReal}
    (h : (upNormalizer r none).callS j l = .ok l') (hx : x ∈ l) : x ∈ l' := by
  obtain ⟨ts, hf, rfl⟩ := C28_call_no_last _ rfl j l l' h
  clear h
  induction hf with
  | nil => cases hx
  | @cons a b l ts e _ ih =>
    simp only [Normalizer.normalize, upNormalizer_no_limits hlim] at e
    cases e
    rcases List.mem_cons.1 hx with rfl | hx
    · simp
    · rw [List.filterMap_cons]
      exact List.mem_cons_of_mem _ (ih hx)

/-- every first joint value that is right is among the candidates, up to a multiple of `2π` -/
theorem shoulder_listed {h0 v : V3 ℝ} {d q1 : ℝ} (u0 : IsUnit3 h0) (h0y : V3.ey.dot h0 = 0) (hs : h0.cross v ≠ 0)
    (e1 : V3.ey.dot ((rot h0 q1).transpose.mulVec v) = d) :
    ∃ t : ℝ, XReal.fin t ∈ subproblem4 V3.ey.up v.up (-h0).up (.fin d) ∧ ∃ n : ℤ, q1 = t + n * (2 * Real.pi) := by
  have un : IsUnit3 (-h0) := by
    have := u0; simp only [IsUnit3] at this ⊢; simpa using this
  have hamp : 0 < Spec.sp4amp V3.ey v (-h0) := by
    rw [sp4amp_eq ey_unit un (by rw [V3.dot_neg, h0y, neg_zero])]
    refine V3.norm_pos ?_
    intro e
    apply hs
    simp only [V3.ext_iff] at e ⊢
    simp at e ⊢
    refine ⟨?_, ?_, ?_⟩ <;> linarith
  have e1' : V3.ey.dot ((rot (-h0) q1).mulVec v) = d := by rw [rot_neg_axis, rot_neg]; exact e1
  have hr : |d - Spec.sp4mid V3.ey v (-h0)| ≤ Spec.sp4amp V3.ey v (-h0) := by
    rw [abs_le]
    constructor
    · by_contra hc
      exact (C26_subproblem4_below_nan V3.ey v (-h0) _ (not_le.1 hc)).2 q1 e1'
    · by_contra hc
      exact (C26_subproblem4_above V3.ey v (-h0) _ (not_le.1 hc)).2 q1 e1'
  obtain ⟨t1, t2, eQ, -, -, hall⟩ := C26_subproblem4_partial V3.ey v (-h0) _ hamp hr
  obtain ⟨n, h | h⟩ := hall q1 e1'
  · exact ⟨t1, by rw [eQ]; simp, n, h⟩
  · exact ⟨t2, by rw [eQ]; simp, n, h⟩

section
variable {h0 h1 h2 h3 h4 h5 P0 P1 P2 P3 P6 p0T : V3 ℝ} {R06 : M3 ℝ} {r : Robot ℝ} {last : Option (List ℝ)}

theorem r6LastW_quiet (u3 : IsUnit3 h3) (u4 : IsUnit3 h4) (h6 : IsRot R06) {R03 : M3 ℝ} (h03 : IsRot R03) {N : Normalizer XReal}
    {x1 x2 x3 : XReal} {q4 q5 : ℝ} {w : Warning} :
    w ∉ (r6LastW N h3.up h4.up h5.up R06.up R03.up x1 x2 x3 (.fin q4) (.fin q5)).warns := by
  simp only [r6LastW, rot_up, M3.up_mul, M3.up_transpose, M3.up_mulVec]
  rw [Warned.mem_bind]
  rintro (h | ⟨a, -, h⟩)
  · refine sub1W_same ?_ h
    rw [(((h03.mul ((rot_isRot h3 u3 q4).mul (rot_isRot h4 u4 q5))).transpose).mul h6).norm_mulVec]
  · exact Warned.not_mem_quiet h

theorem r6ElbowW_quiet (u1 : IsUnit3 h1) (u2 : IsUnit3 h2) (u3 : IsUnit3 h3) (u4 : IsUnit3 h4) (u5 : IsUnit3 h5) (h34 : h3.dot h4 = 0)
    (h45 : h4.dot h5 = 0) (h6 : IsRot R06) {R01 : M3 ℝ} (hR01 : IsRot R01) {x1 : XReal} {q3 : ℝ} {p26 : V3 ℝ}
    (hn : (P2 + (rot h2 q3).mulVec P3).norm = p26.norm) {w : Warning} :
    w ∉ (r6ElbowW (upNormalizer r last) h1.up h2.up h3.up h4.up h5.up P2.up P3.up R06.up R01.up p26.up x1 (.fin q3)).warns := by
  simp only [r6ElbowW, rot_up, M3.up_mulVec, V3.up_add]
  rw [Warned.mem_bind]
  rintro (h | ⟨q2r, e2, h⟩)
  · exact sub1W_same hn h
  rw [subproblem1W_out] at e2
  obtain ⟨θ2, rfl, -⟩ := subproblem1_close u1 e2
  obtain ⟨o, n2, h⟩ := Warned.mem_quiet_bind.1 h
  rcases o with _ | q2
  · exact Warned.not_mem_pure h
  obtain ⟨n, rfl⟩ := upNormalize_one n2
  simp only [rot_up, M3.up_mul, M3.up_transpose, M3.up_mulVec] at h
  set R03 := R01 * rot h1 (θ2 + n * (2 * Real.pi)) * rot h2 q3 with hR03
  have hr03 : IsRot R03 := (hR01.mul (rot_isRot h1 u1 _)).mul (rot_isRot h2 u2 _)
  rw [Warned.mem_bind] at h
  rcases h with h | ⟨Q45, e45, h⟩
  · exact wrist2W_quiet u3 u4 u5 h34 h45 (hr03.transpose.mul h6) h
  rw [subproblem2W_out] at e45
  obtain ⟨Q45', c45, h⟩ := Warned.mem_quiet_bind.1 h
  obtain ⟨t, mt, h⟩ := mem_forAppendW h
  obtain ⟨θ, mθ, hf⟩ := callV_mem c45 mt
  obtain ⟨y, my, rfl⟩ := List.mem_map.1 mθ
  obtain ⟨a, b, rfl, -⟩ := wrist_pair u3 u4 u5 h34 h45 (hr03.transpose.mul h6) e45 my
  obtain ⟨q4, _, n4, hf', rfl⟩ := List.forall₂_cons_left_iff.1 hf
  obtain ⟨q5, _, n5, hf'', rfl⟩ := List.forall₂_cons_left_iff.1 hf'
  cases hf''
  obtain ⟨i, rfl⟩ := normalize_shift n4
  obtain ⟨j, rfl⟩ := normalize_shift n5
  exact r6LastW_quiet u3 u4 h6 hr03 h

/-- Every warning of the search is about a first joint value that is tried and leaves the wrist centre out of reach of the elbow. -/
theorem r6SearchW_mem {P4 P5 : V3 XReal} (u0 : IsUnit3 h0) (u1 : IsUnit3 h1) (u2 : IsUnit3 h2) (u3 : IsUnit3 h3) (u4 : IsUnit3 h4)
    (u5 : IsUnit3 h5) (h34 : h3.dot h4 = 0) (h45 : h4.dot h5 = 0) (h6 : IsRot R06)
    (hb : Spec.dir P3 h2 = Spec.dir P2 h2 ∨ snap ≤ (Spec.dir P3 h2 - Spec.dir P2 h2).norm) {w : Warning}
    (h : w ∈ (r6SearchW [h0.up, h1.up, h2.up, h3.up, h4.up, h5.up] [P0.up, P1.up, P2.up, P3.up, P4, P5, P6.up] (upNormalizer r last)
      R06.up p0T.up).warns) :
    w = .distance ∧ ∃ q1 : ℝ, V3.ey.dot ((rot h0 q1).transpose.mulVec (p0T - R06.mulVec P6)) = V3.ey.dot (P1 + P2 + P3) ∧
      ∀ q3 : ℝ, (P2 + (rot h2 q3).mulVec P3).norm ≠ ((rot h0 q1).transpose.mulVec (p0T - R06.mulVec P6) - (P0 + P1)).norm := by
  simp only [r6SearchW, V3.up_ey, V3.up_add, V3.up_dot, M3.up_mulVec, V3.up_sub, V3.up_neg, subproblem4W] at h
  obtain ⟨Q1, eQ, h⟩ := Warned.mem_quiet_bind.1 h
  cases eQ
  obtain ⟨Q1', c1, h⟩ := Warned.mem_quiet_bind.1 h
  obtain ⟨x1, m1, h⟩ := mem_forAppendW h
  obtain ⟨θ1, mθ1, n1⟩ := callS_mem c1 m1
  simp only [r6ShoulderW] at h
  rw [Warned.mem_bind] at h
  rcases subproblem4_mem mθ1 with rfl | ⟨t1, rfl, e1⟩
  · exfalso
    have := normalize_nan n1; subst this
    have hp : ∀ v w : V3 XReal, ((rot h0.up .nan).transpose.mulVec v - w).norm = .nan := by
      intro v w; rw [rot_nan_mulVec]; simp [V3.norm]
    rw [hp] at h
    rcases h with h | ⟨Q3, -, h⟩
    · exact sub3W_nan h
    obtain ⟨Q3', c3, h⟩ := Warned.mem_quiet_bind.1 h
    obtain ⟨x3, m3, h⟩ := mem_forAppendW h
    simp only [r6ElbowW] at h
    rw [Warned.mem_bind, sub1W_mem, subproblem1W_out, subproblem1_nan _ _ _ (.inr (rot_nan_mulVec h0 _ _))] at h
    rcases h with ⟨-, -, -, θ, h⟩ | ⟨a, h, -⟩ <;> cases h
  obtain ⟨i1, rfl⟩ := normalize_shift n1
  rw [rot_neg_axis, rot_neg] at e1
  have e1' : V3.ey.dot ((rot h0 (t1 + i1 * (2 * Real.pi))).transpose.mulVec (p0T - R06.mulVec P6)) = V3.ey.dot (P1 + P2 + P3) := by
    rw [rot_periodic]; exact e1
  set q1 := t1 + i1 * (2 * Real.pi) with hq1
  simp only [rot_up, M3.up_transpose, M3.up_mulVec, V3.up_add, V3.up_sub, V3.up_norm] at h
  rcases h with h | ⟨Q3, e3, h⟩
  · obtain rfl := sub3W_only h
    rw [sub3W_distance, sub3_empty_iff u2 (V3.norm_nonneg _)] at h
    exact ⟨rfl, q1, e1', h⟩
  · exfalso
    rw [subproblem3W_out] at e3
    obtain ⟨Q3', c3, h⟩ := Warned.mem_quiet_bind.1 h
    obtain ⟨x3, m3, h⟩ := mem_forAppendW h
    obtain ⟨θ3, m3', n3⟩ := callS_mem c3 m3
    obtain ⟨t3, rfl, d3⟩ := sub3_exact u2 (V3.norm_nonneg _) hb e3 m3'
    obtain ⟨i3, rfl⟩ := normalize_shift n3
    refine r6ElbowW_quiet u1 u2 u3 u4 u5 h34 h45 h6 (rot_isRot h0 u0 q1) ?_ h
    rw [rot_periodic]; exact d3

/-- without limits and last joint values, if the search ends, every first joint value that is right and leaves the wrist centre out of
reach of the elbow gives a warning -/
theorem r6SearchW_distance {P4 P5 : V3 XReal} (u0 : IsUnit3 h0) (h0y : V3.ey.dot h0 = 0) (u2 : IsUnit3 h2)
    (hlim : ¬ ∃ lo up, r.lower = some lo ∧ r.upper = some up) (hs : h0.cross (p0T - R06.mulVec P6) ≠ 0) {sols : List (List XReal)}
    (ho : (r6SearchW [h0.up, h1.up, h2.up, h3.up, h4.up, h5.up] [P0.up, P1.up, P2.up, P3.up, P4, P5, P6.up] (upNormalizer r none)
      R06.up p0T.up).out = .ok sols) {q1 : ℝ}
    (e1 : V3.ey.dot ((rot h0 q1).transpose.mulVec (p0T - R06.mulVec P6)) = V3.ey.dot (P1 + P2 + P3))
    (e3 : ∀ q3 : ℝ, (P2 + (rot h2 q3).mulVec P3).norm ≠ ((rot h0 q1).transpose.mulVec (p0T - R06.mulVec P6) - (P0 + P1)).norm) :
    .distance ∈ (r6SearchW [h0.up, h1.up, h2.up, h3.up, h4.up, h5.up] [P0.up, P1.up, P2.up, P3.up, P4, P5, P6.up] (upNormalizer r none)
      R06.up p0T.up).warns := by
  simp only [r6SearchW, V3.up_ey, V3.up_add, V3.up_dot, M3.up_mulVec, V3.up_sub, V3.up_neg, subproblem4W] at ho ⊢
  set v := p0T - R06.mulVec P6 with hv
  obtain ⟨t, ht, n, hn⟩ := shoulder_listed u0 h0y hs e1
  rw [Warned.bind_out] at ho
  obtain ⟨_, eq1, ho⟩ := Except.bind_eq_ok ho
  cases eq1
  rw [Warned.bind_out] at ho
  obtain ⟨Q1, c1, ho⟩ := Except.bind_eq_ok ho
  rw [Warned.quiet_out] at c1
  refine Warned.mem_quiet_bind.2 ⟨_, rfl, Warned.mem_quiet_bind.2 ⟨Q1, c1, forAppendW_mem ho (callS_keeps_free hlim c1 ht) ?_⟩⟩
  simp only [r6ShoulderW, rot_up, M3.up_transpose, M3.up_mulVec, V3.up_add, V3.up_sub, V3.up_norm]
  rw [Warned.mem_bind, sub3W_distance, sub3_empty_iff u2 (V3.norm_nonneg _)]
  left
  rw [hn] at e3
  simpa only [rot_periodic] using e3
end

section
variable {k P0 P1 P2 P3 P4 P5 P6 p0T : V3 ℝ} {R06 : M3 ℝ} {r : Robot ℝ} {last : Option (List ℝ)}

theorem urElbowW_quiet (h6 : IsRot R06) {R01 R04 : M3 ℝ} (hR01 : IsRot R01) (hR04 : IsRot R04) {x1 x24 : XReal} {q3 q5 : ℝ}
    {p23 : V3 ℝ} (hn : (P2 + (rot k q3).mulVec P3).norm = p23.norm) {w : Warning} :
    w ∉ (urElbowW (upNormalizer r last) k.up k.up (-V3.ez : V3 ℝ).up k.up P2.up P3.up R06.up R01.up R04.up p23.up x1 x24 (.fin q5)
      (.fin q3)).warns := by
  simp only [urElbowW, rot_up, M3.up_mulVec, M3.up_mul, M3.up_transpose, V3.up_add]
  rw [Warned.mem_bind]
  rintro (h | ⟨q2, e2, h⟩)
  · exact sub1W_same (by rw [hR01.transpose.norm_mulVec]; exact hn) h
  obtain ⟨o, n2, h⟩ := Warned.mem_quiet_bind.1 h
  rcases o with _ | q2
  · exact Warned.not_mem_pure h
  obtain ⟨o, n4, h⟩ := Warned.mem_quiet_bind.1 h
  rcases o with _ | q4
  · exact Warned.not_mem_pure h
  rw [Warned.mem_bind] at h
  rcases h with h | ⟨a, -, h⟩
  · refine sub1W_same ?_ h
    rw [((hR04.mul (rot_isRot (-V3.ez) nez_unit q5)).transpose.mul h6).norm_mulVec]
  · exact Warned.not_mem_quiet h

/-- Every warning of the search is about a first joint value and a turn of the middle joints that are tried and leave the wrist out of
reach of the elbow. -/
theorem urSearchW_mem (s : k = V3.ey ∨ k = -V3.ey) (h6 : IsRot R06)
    (hb : Spec.dir P3 k = Spec.dir P2 k ∨ snap ≤ (Spec.dir P3 k - Spec.dir P2 k).norm) {w : Warning}
    (h : w ∈ (urSearchW [V3.ez.up, k.up, k.up, k.up, (-V3.ez : V3 ℝ).up, k.up] [P0.up, P1.up, P2.up, P3.up, P4.up, P5.up, P6.up]
      (upNormalizer r last) R06.up p0T.up).warns) :
    w = .distance ∧ ∃ q1 q24 q5 : ℝ, V3.ey.dot ((rot V3.ez q1).transpose.mulVec (p0T - R06.mulVec (P6 + P5))) = V3.ey.dot (P1 + P2 + P3 + P4) ∧
      (npEps ≤ 1 - (((rot V3.ez q1).transpose * R06).mulVec k).dot k ^ 2 →
        ((rot k q24 * rot (-V3.ez) q5).mulVec k - ((rot V3.ez q1).transpose * R06).mulVec k).norm ≤ 2 * snap) ∧
      ∀ q3 : ℝ, (P2 + (rot k q3).mulVec P3).norm ≠
        (p0T - R06.mulVec (P6 + P5) - P0 - (rot V3.ez q1).mulVec P1 - (rot V3.ez q1 * rot k q24).mulVec P4).norm := by
  have u := pm_unit s
  have hk4 : k.dot (-V3.ez : V3 ℝ) = 0 := by rcases s with rfl | rfl <;> simp [V3.dot]
  have h4k : (-V3.ez : V3 ℝ).dot k = 0 := by rcases s with rfl | rfl <;> simp [V3.dot]
  simp only [urSearchW, V3.up_ey, V3.up_add, V3.up_dot, M3.up_mulVec, V3.up_sub, V3.up_neg, subproblem4W] at h
  obtain ⟨Q1, eQ, h⟩ := Warned.mem_quiet_bind.1 h
  cases eQ
  obtain ⟨Q1', c1, h⟩ := Warned.mem_quiet_bind.1 h
  obtain ⟨x1, m1, h⟩ := mem_forAppendW h
  obtain ⟨θ1, mθ1, n1⟩ := callS_mem c1 m1
  simp only [urShoulderW] at h
  rw [Warned.mem_bind] at h
  rcases subproblem4_mem mθ1 with rfl | ⟨t1, rfl, e1⟩
  · exfalso
    have := normalize_nan n1; subst this
    have hp : ((rot V3.ez.up .nan).transpose * R06.up).mulVec k.up = ⟨.nan, .nan, .nan⟩ := by
      ext <;> simp [rot]
    rw [hp] at h
    rcases h with h | ⟨Q, e, -⟩
    · exact (wrist2W_nan (by rw [hk4]; rw [npEps]; norm_num)).1 h
    · rw [subproblem2W_out] at e
      exact (wrist2W_nan (w := .distance) (by rw [hk4]; rw [npEps]; norm_num)).2 _ e
  obtain ⟨i1, rfl⟩ := normalize_shift n1
  rw [rot_neg_axis, rot_neg] at e1
  have e1' : V3.ey.dot ((rot V3.ez (t1 + i1 * (2 * Real.pi))).transpose.mulVec (p0T - R06.mulVec (P6 + P5))) = V3.ey.dot (P1 + P2 + P3 + P4) := by
    rw [rot_periodic]; exact e1
  set q1 := t1 + i1 * (2 * Real.pi) with hq1
  have hr01 := rot_isRot V3.ez ez_unit q1
  simp only [rot_up, M3.up_transpose, M3.up_mul, M3.up_mulVec] at h
  rcases h with h | ⟨Q, e2, h⟩
  · exact absurd h (wrist2W_quiet u nez_unit u hk4 h4k (hr01.transpose.mul h6))
  rw [subproblem2W_out] at e2
  obtain ⟨y, my, h⟩ := mem_forAppendW h
  obtain ⟨q24, q5, rfl, hw⟩ := wrist_pair u nez_unit u hk4 h4k (hr01.transpose.mul h6) e2 my
  simp only [urWristW, rot_up, M3.up_mul, M3.up_mulVec, V3.up_sub, V3.up_norm] at h
  rw [Warned.mem_bind] at h
  rcases h with h | ⟨Q3, e3, h⟩
  · obtain rfl := sub3W_only h
    rw [sub3W_distance, sub3_empty_iff u (V3.norm_nonneg _)] at h
    exact ⟨rfl, q1, q24, q5, e1', hw, h⟩
  · exfalso
    rw [subproblem3W_out] at e3
    obtain ⟨Q3', c3, h⟩ := Warned.mem_quiet_bind.1 h
    obtain ⟨x3, m3, h⟩ := mem_forAppendW h
    obtain ⟨θ3, m3', n3⟩ := callS_mem c3 m3
    obtain ⟨t3, rfl, d3⟩ := sub3_exact u (V3.norm_nonneg _) hb e3 m3'
    obtain ⟨i3, rfl⟩ := normalize_shift n3
    refine urElbowW_quiet h6 hr01 (hr01.mul (rot_isRot k u q24)) ?_ h
    rw [rot_periodic]; exact d3

/-- without limits and last joint values, if the search ends, a first joint value that is right and leaves the wrist further away than the
links are long gives a warning -/
theorem urSearchW_distance (s : k = V3.ey ∨ k = -V3.ey) (h6 : IsRot R06)
    (hlim : ¬ ∃ lo up, r.lower = some lo ∧ r.upper = some up) (hs : V3.ez.cross (p0T - R06.mulVec (P6 + P5)) ≠ 0) {sols : List (List XReal)}
    (ho : (urSearchW [V3.ez.up, k.up, k.up, k.up, (-V3.ez : V3 ℝ).up, k.up] [P0.up, P1.up, P2.up, P3.up, P4.up, P5.up, P6.up]
      (upNormalizer r none) R06.up p0T.up).out = .ok sols) {q1 : ℝ}
    (e1 : V3.ey.dot ((rot V3.ez q1).transpose.mulVec (p0T - R06.mulVec (P6 + P5))) = V3.ey.dot (P1 + P2 + P3 + P4))
    (hw : npEps ≤ 1 - (((rot V3.ez q1).transpose * R06).mulVec k).dot k ^ 2)
    (hf : P2.norm + P3.norm + P4.norm < (p0T - R06.mulVec (P6 + P5) - P0 - (rot V3.ez q1).mulVec P1).norm) :
    .distance ∈ (urSearchW [V3.ez.up, k.up, k.up, k.up, (-V3.ez : V3 ℝ).up, k.up] [P0.up, P1.up, P2.up, P3.up, P4.up, P5.up, P6.up]
      (upNormalizer r none) R06.up p0T.up).warns := by
  have u := pm_unit s
  have hk4 : k.dot (-V3.ez : V3 ℝ) = 0 := by rcases s with rfl | rfl <;> simp [V3.dot]
  have h4k : (-V3.ez : V3 ℝ).dot k = 0 := by rcases s with rfl | rfl <;> simp [V3.dot]
  simp only [urSearchW, V3.up_ey, V3.up_add, V3.up_dot, M3.up_mulVec, V3.up_sub, V3.up_neg, subproblem4W] at ho ⊢
  set v := p0T - R06.mulVec (P6 + P5) with hv
  obtain ⟨t, ht, n, hn⟩ := shoulder_listed ez_unit (by simp [V3.dot]) hs e1
  rw [Warned.bind_out] at ho
  obtain ⟨_, eq1, ho⟩ := Except.bind_eq_ok ho
  cases eq1
  rw [Warned.bind_out] at ho
  obtain ⟨Q1, c1, ho⟩ := Except.bind_eq_ok ho
  rw [Warned.quiet_out] at c1
  have hmem := callS_keeps_free hlim c1 ht
  refine Warned.mem_quiet_bind.2 ⟨_, rfl, Warned.mem_quiet_bind.2 ⟨Q1, c1, forAppendW_mem ho hmem ?_⟩⟩
  obtain ⟨sl, hsl⟩ := forAppendW_ok ho hmem
  have hrt : rot (V3.ez : V3 ℝ) t = rot V3.ez q1 := by rw [hn, rot_periodic]
  have hr01 := rot_isRot V3.ez ez_unit q1
  simp only [urShoulderW, rot_up, M3.up_transpose, M3.up_mulVec, M3.up_mul, hrt] at hsl ⊢
  obtain ⟨l, e2, hlen, -⟩ := C24_subproblem2_partial k (((rot V3.ez q1).transpose * R06).mulVec k) k (-V3.ez) u nez_unit
    (by rw [(hr01.transpose.mul h6).dot_mulVec]) (by rw [hk4]; rw [npEps]; norm_num) (by rw [disc_wrist u hk4 h4k]; exact hw)
  rw [Warned.bind_out, subproblem2W_out, e2, Except.bind_ok] at hsl
  rw [Warned.mem_bind, subproblem2W_out, e2]
  right
  refine ⟨_, rfl, ?_⟩
  obtain ⟨x, hx⟩ := List.exists_mem_of_length_pos (l := l) (by omega)
  refine forAppendW_mem hsl (List.mem_map_of_mem hx) ?_
  simp only [urWristW, rot_up, M3.up_mul, M3.up_mulVec, V3.up_sub, V3.up_norm, hrt]
  rw [Warned.mem_bind, sub3W_distance, sub3_empty_iff u (V3.norm_nonneg _)]
  left
  intro φ h
  have h1 := V3.norm_add_le P2 ((rot k φ).mulVec P3)
  rw [(rot_isRot k u φ).norm_mulVec] at h1
  have h2 := V3.norm_add_le (v - P0 - (rot V3.ez q1).mulVec P1 - (rot V3.ez q1 * rot k x.1).mulVec P4) ((rot V3.ez q1 * rot k x.1).mulVec P4)
  rw [(hr01.mul (rot_isRot k u x.1)).norm_mulVec] at h2
  have e : v - P0 - (rot V3.ez q1).mulVec P1 - (rot V3.ez q1 * rot k x.1).mulVec P4 + (rot V3.ez q1 * rot k x.1).mulVec P4 =
      v - P0 - (rot V3.ez q1).mulVec P1 := by
    generalize (rot V3.ez q1 * rot k x.1).mulVec P4 = a
    ext <;> simp
  rw [e] at h2
  linarith
end
