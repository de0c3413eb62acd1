import Verif.Lemmas.Ur

/-! # Poses without solution -/
set_option autoImplicit false

/-- a rotation about `k` taking `p` to `q` exists when both have the same length and the same component along `k` -/
theorem exists_rot {p q k : V3 ℝ} (hk : IsUnit3 k) (h1 : p.dot p = q.dot q) (h2 : p.dot k = q.dot k) :
    ∃ θ : ℝ, (rot k θ).mulVec p = q := by
  have hpq := V3.perp_dot_self (p := p) hk
  rw [h1, h2, ← V3.perp_dot_self hk] at hpq
  by_cases hp : p.perp k = 0
  · have hq : q.perp k = 0 := V3.eq_zero_of_dot_self (by rw [← hpq, hp]; simp [V3.dot])
    exact ⟨0, by rw [rot_zero, M3.one_mulVec, V3.perp_add p k, V3.perp_add q k, hp, hq, h2]⟩
  · have hq : q.perp k ≠ 0 := fun hq => hp (V3.eq_zero_of_dot_self (by rw [hpq, hq]; simp [V3.dot]))
    obtain ⟨θ, -, -, e⟩ := exists_dir_angle hk hp hq
    refine ⟨θ, ?_⟩
    have hn : (p.perp k).norm = (q.perp k).norm := by rw [V3.norm_eq, V3.norm_eq, hpq]
    rw [V3.perp_add p k, V3.perp_add q k, M3.mulVec_add, rot_hsmul_axis, h2, perp_eq_dir hp, perp_eq_dir hq, M3.mulVec_hsmul, e, hn]

/-- `subproblem3` returns the empty list exactly when it should, on the axis or off it -/
theorem subproblem3_empty {p q k : V3 ℝ} {d : ℝ} (hk : IsUnit3 k) (hd : 0 ≤ d) (h : ∀ φ, (q + (rot k φ).mulVec p).norm ≠ d) :
    subproblem3 p.up q.up k.up (.fin d) = .ok [] := by
  by_cases hp : k.cross p = 0
  · refine (C25_subproblem3_on_axis p q k d hk (.inl hp) hd).2.1 ?_
    have := h 0
    rwa [rot_zero, M3.one_mulVec] at this
  by_cases hq : k.cross q = 0
  · refine (C25_subproblem3_on_axis p q k d hk (.inr hq) hd).2.1 ?_
    have := h 0
    rwa [rot_zero, M3.one_mulVec] at this
  obtain ⟨ts, e, he, -⟩ := C25_subproblem3_partial p q k d hk hp hq hd
  rw [e, he.2 h]; rfl

theorem callS_nil (N : Normalizer XReal) (j : Nat) : N.callS j [] = .ok [] := by
  rcases N with ⟨l, _ | x⟩ <;> rfl

theorem normalize_total_any {r : Robot ℝ} {n j : Nat} (hl : Spec.limitsSized r n) (hj : j < n) (x : XReal) :
    ∃ t, (upNormalizer r none).normalize j x = .ok t := by
  by_cases hlim : ∃ lo up, r.lower = some lo ∧ r.upper = some up
  · obtain ⟨lo, up, hlo, hup⟩ := hlim
    have := hl lo up hlo hup
    exact ⟨_, normalize_limits_eval hlo hup (List.getElem?_eq_getElem (by omega)) (List.getElem?_eq_getElem (by omega)) x⟩
  · simp only [Normalizer.normalize, upNormalizer_no_limits hlim, Except.bind_ok, Except.pure_eq]
    exact ⟨_, rfl⟩

theorem callS_total_any {r : Robot ℝ} {n j : Nat} (hl : Spec.limitsSized r n) (hj : j < n) (xs : List XReal) :
    ∃ l, (upNormalizer r none).callS j xs = .ok l := by
  obtain ⟨ts, hts⟩ := exists_mapM_ok (f := (upNormalizer r none).normalize j) (l := xs) fun a _ => normalize_total_any hl hj a
  exact ⟨ts.filterMap id, by rw [Normalizer.callS, hts]; rfl⟩

/-- NaN does not survive the limits -/
theorem normalize_nan_dropped {r : Robot ℝ} {lo up : List ℝ} (hlo : r.lower = some lo) (hup : r.upper = some up) {j : Nat} {x : XReal} :
    (upNormalizer r none).normalize j .nan ≠ .ok (some x) := by
  intro h
  simp only [Normalizer.normalize, upNormalizer_limits hlo hup] at h
  obtain ⟨l, e1, h⟩ := Except.bind_eq_ok h
  obtain ⟨u, e2, h⟩ := Except.bind_eq_ok h
  rw [Except.pure_eq, Except.bind_ok] at h
  dsimp only at h
  rw [normLimits_nan] at h
  cases h

theorem callS_free {r : Robot ℝ} (hlim : ¬ ∃ lo up, r.lower = some lo ∧ r.upper = some up) (j : Nat) (xs : List XReal) :
    (upNormalizer r none).callS j xs = .ok xs := by
  have hn : ∀ x, (upNormalizer r none).normalize j x = .ok (some x) := by
    intro x
    simp only [Normalizer.normalize, upNormalizer_no_limits hlim, Except.bind_ok, Except.pure_eq]
    rfl
  have hm : xs.mapM ((upNormalizer r none).normalize j) = .ok (xs.map some) := by
    induction xs with
    | nil => rfl
    | cons x xs ih => rw [mapM_cons', hn, Except.bind_ok, ih]; rfl
  rw [Normalizer.callS, hm]
  simp [upNormalizer, Normalizer.ofRobot]

theorem forAppend_empty {β γ : Type} {l : List β} {f : β → Except PyErr (List γ)} (h : ∀ x ∈ l, f x = .ok []) : forAppend l f = .ok [] := by
  rcases e : forAppend l f with err | s
  · obtain ⟨s, hs⟩ := exists_forAppend_ok (l := l) (f := f) fun x hx => ⟨_, h x hx⟩
    rw [hs] at e; cases e
  · rcases s with _ | ⟨a, s⟩
    · rfl
    · obtain ⟨x, hx, sl, hsl, ha⟩ := mem_forAppend e (List.mem_cons_self (a := a) (l := s))
      rw [h x hx] at hsl; cases hsl; cases ha

/-- first joint candidates: exact ones, and NaN below the range -/
theorem shoulder_cases {h0 W : V3 ℝ} {d : ℝ} (u0 : IsUnit3 h0) (h0y : V3.ey.dot h0 = 0) {r : Robot ℝ} (hl : Spec.limitsSized r 6)
    (hsh : (∃ lo up, r.lower = some lo ∧ r.upper = some up) ∨ -(h0.cross W).norm ≤ d ∧ (0 < (h0.cross W).norm ∨ 0 < d)) :
    ∃ Q, (upNormalizer r none).callS 0 (subproblem4 V3.ey.up W.up (-h0).up (.fin d)) = .ok Q ∧
      ∀ x ∈ Q, ∃ q1 : ℝ, x = .fin q1 ∧ V3.ey.dot ((rot h0 q1).transpose.mulVec W) = d := by
  obtain ⟨Q, hQ⟩ := callS_total_any hl (by norm_num : 0 < 6) (subproblem4 V3.ey.up W.up (-h0).up (.fin d))
  refine ⟨Q, hQ, fun x hx => ?_⟩
  obtain ⟨θ, mθ, n1⟩ := callS_mem hQ hx
  rcases subproblem4_mem mθ with rfl | ⟨t, rfl, ht⟩
  · exfalso
    rcases hsh with ⟨lo, up, hlo, hup⟩ | ⟨h1, h2⟩
    · exact normalize_nan_dropped hlo hup n1
    · have un : IsUnit3 (-h0) := by
        have := u0; simp only [IsUnit3] at this ⊢; simpa using this
      have hn : V3.ey.dot (-h0) = 0 := by rw [V3.dot_neg, h0y, neg_zero]
      have hamp : Spec.sp4amp V3.ey W (-h0) = (h0.cross W).norm := by
        rw [sp4amp_eq ey_unit un hn, show (-h0).cross W = -(h0.cross W) by ext <;> simp <;> ring, V3.norm_neg]
      have hmid := sp4mid_eq (q := W) un hn
      by_cases h3 : (h0.cross W).norm < d
      · rw [(C26_subproblem4_above V3.ey W (-h0) d (by rw [hamp, hmid, sub_zero]; exact h3)).1] at mθ
        cases mθ
      · rw [not_lt] at h3
        have hpos : 0 < (h0.cross W).norm := by
          rcases h2 with h2 | h2
          · exact h2
          · linarith
        obtain ⟨t1, t2, e, -⟩ := C26_subproblem4_partial V3.ey W (-h0) d (by rw [hamp]; exact hpos)
          (by rw [hamp, hmid, sub_zero, abs_le]; exact ⟨h1, h3⟩)
        rw [e] at mθ
        simp at mθ
  · obtain ⟨i, rfl⟩ := normalize_shift n1
    exact ⟨_, rfl, by rw [rot_periodic]; exact shoulder_eq ht⟩

section
variable {h0 h1 h2 h3 h4 h5 P0 P1 P2 P3 P6 p0T : V3 ℝ} {R06 : M3 ℝ} {r : Robot ℝ}

/-- lines 163-222: if the first three joints cannot put the wrist centre where it should be, the search finds nothing -/
theorem r6Search_unreachable {P4 P5 : V3 XReal} (u0 : IsUnit3 h0) (s1 : h1 = V3.ey ∨ h1 = -V3.ey) (s2 : h2 = V3.ey ∨ h2 = -V3.ey)
    {c : ℝ} (hP0 : P0 = c • h0) (h0y : V3.ey.dot h0 = 0) (hl : Spec.limitsSized r 6)
    (hsh : (∃ lo up, r.lower = some lo ∧ r.upper = some up) ∨ -(h0.cross (p0T - R06.mulVec P6)).norm ≤ V3.ey.dot (P1 + P2 + P3) ∧
      (0 < (h0.cross (p0T - R06.mulVec P6)).norm ∨ 0 < V3.ey.dot (P1 + P2 + P3)))
    (hun : ∀ q1 q2 q3 : ℝ, P0 + (rot h0 q1).mulVec (P1 + (rot h1 q2).mulVec (P2 + (rot h2 q3).mulVec P3)) ≠ p0T - R06.mulVec P6) :
    r6Search [h0.up, h1.up, h2.up, h3.up, h4.up, h5.up] [P0.up, P1.up, P2.up, P3.up, P4, P5, P6.up] (upNormalizer r none)
      R06.up p0T.up = .ok [] := by
  set W := p0T - R06.mulVec P6 with hW
  obtain ⟨Q, hQ, hx⟩ := shoulder_cases u0 h0y hl hsh
  simp only [r6Search, V3.up_ey, V3.up_add, V3.up_dot, M3.up_mulVec, V3.up_sub, V3.up_neg, ← hW]
  rw [hQ, Except.bind_ok]
  apply forAppend_empty
  intro x hx'
  obtain ⟨q1, rfl, hd⟩ := hx x hx'
  have hR := rot_isRot h0 u0 q1
  simp only [r6Shoulder, rot_up, M3.up_transpose, M3.up_mulVec, V3.up_add, V3.up_sub, V3.up_norm, ← hW]
  set p26 := (rot h0 q1).transpose.mulVec W - (P0 + P1) with hp26
  rw [subproblem3_empty (pm_unit s2) (V3.norm_nonneg _), Except.bind_ok, callS_nil, Except.bind_ok]
  · rfl
  · intro φ hφ
    have hey0 : V3.ey.dot P0 = 0 := by rw [hP0, V3.dot_hsmul, h0y, mul_zero]
    have hfix : (rot h0 q1).mulVec P0 = P0 := by rw [hP0, rot_hsmul_axis]
    obtain ⟨q2, hq2⟩ := exists_rot (pm_unit s1) (p := P2 + (rot h2 φ).mulVec P3) (q := p26)
      (by rw [← V3.norm_mul_self, hφ, V3.norm_mul_self])
      (pm_dot s1 (by rw [V3.dot_add, ey_rot_pm s2, hp26, V3.dot_sub, hd]; simp only [V3.dot_add, hey0]; ring))
    apply hun q1 q2 φ
    rw [hq2, hp26, M3.mulVec_add, M3.mulVec_sub, M3.mulVec_add _ P0, hfix, hR.mulVec_transpose_mulVec]
    generalize (rot h0 q1).mulVec P1 = a
    ext <;> simp <;> ring

/-- lines 163-222: without limits, a wrist centre that is too close to the first axis on the wrong side makes the search raise -/
theorem r6Search_below {P4 P5 : V3 XReal} (u0 : IsUnit3 h0) (h0y : V3.ey.dot h0 = 0)
    (hlim : ¬ ∃ lo up, r.lower = some lo ∧ r.upper = some up)
    (hb : V3.ey.dot (P1 + P2 + P3) < -(h0.cross (p0T - R06.mulVec P6)).norm ∨
      h0.cross (p0T - R06.mulVec P6) = 0 ∧ V3.ey.dot (P1 + P2 + P3) = 0) :
    ∃ e, r6Search [h0.up, h1.up, h2.up, h3.up, h4.up, h5.up] [P0.up, P1.up, P2.up, P3.up, P4, P5, P6.up] (upNormalizer r none)
      R06.up p0T.up = .error e := by
  rcases h : r6Search [h0.up, h1.up, h2.up, h3.up, h4.up, h5.up] [P0.up, P1.up, P2.up, P3.up, P4, P5, P6.up] (upNormalizer r none)
      R06.up p0T.up with e | sols
  · exact ⟨e, rfl⟩
  exfalso
  set W := p0T - R06.mulVec P6 with hW
  have un : IsUnit3 (-h0) := by
    have := u0; simp only [IsUnit3] at this ⊢; simpa using this
  have hn : V3.ey.dot (-h0) = 0 := by rw [V3.dot_neg, h0y, neg_zero]
  have hamp : Spec.sp4amp V3.ey W (-h0) = (h0.cross W).norm := by
    rw [sp4amp_eq ey_unit un hn, show (-h0).cross W = -(h0.cross W) by ext <;> simp <;> ring, V3.norm_neg]
  have hmid := sp4mid_eq (q := W) un hn
  have hQ : subproblem4 V3.ey.up W.up (-h0).up (.fin (V3.ey.dot (P1 + P2 + P3))) = [.nan, .nan] := by
    rcases hb with hb | ⟨hb, hb'⟩
    · exact (C26_subproblem4_below_nan V3.ey W (-h0) _ (by rw [hamp, hmid, sub_zero]; exact hb)).1
    · refine (C26_subproblem4_degenerate_nan V3.ey W (-h0) _ ?_ ?_).1
      · rw [hamp, hb]; simp [V3.norm_eq, V3.dot]
      · rw [hmid, hb']
  simp only [r6Search, V3.up_ey, V3.up_add, V3.up_dot, M3.up_mulVec, V3.up_sub, V3.up_neg, ← hW] at h
  rw [hQ, callS_free hlim, Except.bind_ok] at h
  obtain ⟨sl, h, -⟩ := forAppend_mem h (List.mem_cons_self (a := XReal.nan))
  simp only [r6Shoulder, M3.up_mulVec, V3.up_sub, V3.up_add, rot_nan_mulVec'] at h
  have hp : (⟨.nan, .nan, .nan⟩ - (P0 + P1).up : V3 XReal) = ⟨.nan, .nan, .nan⟩ := by ext <;> simp
  have hnn : (⟨.nan, .nan, .nan⟩ : V3 XReal).norm = .nan := by simp [V3.norm]
  rw [hp, hnn] at h
  obtain ⟨Q3, e3, h⟩ := Except.bind_eq_ok h
  rw [callS_free hlim, Except.bind_ok] at h
  have hne : ∃ x, x ∈ Q3 := by
    simp [subproblem3] at e3
    obtain ⟨θ, -, e⟩ := Except.bind_eq_ok e3
    cases e
    exact ⟨θ, by simp⟩
  obtain ⟨x, hx⟩ := hne
  obtain ⟨sl3, h, -⟩ := forAppend_mem h hx
  simp only [r6Elbow] at h
  obtain ⟨q2, e2, h⟩ := Except.bind_eq_ok h
  rw [subproblem1_nan _ _ _ (.inr rfl)] at e2
  cases e2
end

section
variable {k P0 P1 P2 P3 P4 P5 P6 p0T : V3 ℝ} {R06 : M3 ℝ} {r : Robot ℝ}

/-- lines 261-320: if the first four joints cannot put the point where the axes of joints 4 and 5 meet where it should be, the search
finds nothing -/
theorem urSearch_unreachable (s : k = V3.ey ∨ k = -V3.ey) {c : ℝ} (hP0 : P0 = c • V3.ez) (h6 : IsRot R06) (hl : Spec.limitsSized r 6)
    (hsh : (∃ lo up, r.lower = some lo ∧ r.upper = some up) ∨
      -(V3.ez.cross (p0T - R06.mulVec (P6 + P5))).norm ≤ V3.ey.dot (P1 + P2 + P3 + P4) ∧
      (0 < (V3.ez.cross (p0T - R06.mulVec (P6 + P5))).norm ∨ 0 < V3.ey.dot (P1 + P2 + P3 + P4)))
    (hns : ∀ q1 : ℝ, V3.ey.dot ((rot V3.ez q1).transpose.mulVec (p0T - R06.mulVec (P6 + P5))) = V3.ey.dot (P1 + P2 + P3 + P4) →
      npEps ≤ 1 - (V3.ey.dot ((rot V3.ez q1).transpose.mulVec (R06.mulVec V3.ey))) ^ 2)
    (hun : ∀ q1 q2 q3 q4 q5 : ℝ, P0 + (rot V3.ez q1).mulVec (P1 + (rot k q2).mulVec (P2 + (rot k q3).mulVec (P3 + (rot k q4).mulVec P4))) =
      p0T - R06.mulVec (P6 + P5) → 2 * snap ≤ ((rot V3.ez q1 * (rot k q2 * rot k q3 * rot k q4) * rot (-V3.ez) q5).mulVec k - R06.mulVec k).norm) :
    urSearch [V3.ez.up, k.up, k.up, k.up, (-V3.ez : V3 ℝ).up, k.up] [P0.up, P1.up, P2.up, P3.up, P4.up, P5.up, P6.up]
      (upNormalizer r none) R06.up p0T.up = .ok [] := by
  have u := pm_unit s
  set W := p0T - R06.mulVec (P6 + P5) with hW
  obtain ⟨Q, hQ, hx⟩ := shoulder_cases (h0 := V3.ez) ez_unit (by simp [V3.dot]) hl hsh
  simp only [urSearch, V3.up_ey, V3.up_add, V3.up_dot, M3.up_mulVec, V3.up_sub, V3.up_neg, ← hW]
  rw [hQ, Except.bind_ok]
  apply forAppend_empty
  intro x hx'
  obtain ⟨q1, rfl, hd⟩ := hx x hx'
  have hns := hns q1 hd
  have hr01 := rot_isRot V3.ez ez_unit q1
  have h34 : k.dot (-V3.ez : V3 ℝ) = 0 := by rcases s with rfl | rfl <;> simp [V3.dot]
  have h45 : (-V3.ez : V3 ℝ).dot k = 0 := by rw [V3.dot_comm, h34]
  have hsq : npEps ≤ 1 - (((rot V3.ez q1).transpose * R06).mulVec k).dot k ^ 2 := by
    refine hns.trans (le_of_eq ?_)
    rw [← M3.mulVec_mulVec, V3.dot_comm]
    rcases s with rfl | rfl
    · rfl
    · rw [M3.mulVec_neg, M3.mulVec_neg, V3.dot_neg, V3.neg_dot, neg_neg]
  have h16 : IsRot ((rot V3.ez q1).transpose * R06) := hr01.transpose.mul h6
  obtain ⟨l, e, -, hs, -⟩ := C24_subproblem2_partial k (((rot V3.ez q1).transpose * R06).mulVec k) k (-V3.ez) u nez_unit
    (by rw [h16.dot_mulVec]) (by rw [h34, npEps]; norm_num) (by rw [disc_wrist u h34 h45]; exact hsq)
  simp only [urShoulder, rot_up, M3.up_transpose, M3.up_mul, M3.up_mulVec]
  rw [e, Except.bind_ok]
  apply forAppend_empty
  intro a ha
  obtain ⟨x, hx, rfl⟩ := List.mem_map.1 ha
  have hclose := (hs x hx).1
  rw [← M3.mulVec_mulVec _ R06, ← hr01.norm_mulVec, M3.mulVec_sub, hr01.mulVec_transpose_mulVec, M3.mulVec_mulVec,
    M3.mulVec_mulVec] at hclose
  simp only [urWrist, rot_up, M3.up_transpose, M3.up_mul, M3.up_mulVec, V3.up_sub, V3.up_norm]
  set v := W - P0 - (rot V3.ez q1).mulVec P1 - (rot V3.ez q1 * rot k x.1).mulVec P4 with hv
  have hfix : (rot V3.ez q1).mulVec P0 = P0 := by rw [hP0, rot_hsmul_axis]
  have hfix' : (rot V3.ez q1).transpose.mulVec P0 = P0 := by
    conv_lhs => rw [← hfix]
    exact hr01.transpose_mulVec_mulVec P0
  have ew : (rot V3.ez q1).transpose.mulVec v = (rot V3.ez q1).transpose.mulVec W - P0 - P1 - (rot k x.1).mulVec P4 := by
    rw [hv, M3.mulVec_sub, M3.mulVec_sub, M3.mulVec_sub, hfix', hr01.transpose_mulVec_mulVec, M3.mulVec_mulVec, ← M3.mul_assoc',
      hr01.orth, M3.one_mul']
  have eyP0 : V3.ey.dot P0 = 0 := by rw [hP0]; simp [V3.dot]
  rw [subproblem3_empty u (V3.norm_nonneg _), Except.bind_ok, callS_nil, Except.bind_ok]
  · rfl
  · intro φ hφ
    obtain ⟨q2, hq2⟩ := exists_rot u (p := P2 + (rot k φ).mulVec P3) (q := (rot V3.ez q1).transpose.mulVec v)
      (by rw [hr01.transpose.dot_mulVec, ← V3.norm_mul_self, hφ, V3.norm_mul_self])
      (pm_dot s (by rw [ew, V3.dot_add, ey_rot_pm s, V3.dot_sub, V3.dot_sub, V3.dot_sub, hd, ey_rot_pm s, eyP0]; simp only [V3.dot_add]; ring))
    have e24 : rot k q2 * rot k φ * rot k (x.1 - q2 - φ) = rot k x.1 := by rw [rot_add3 u]; congr 1; ring
    refine absurd (hun q1 q2 φ (x.1 - q2 - φ) x.2 ?_) (by rw [e24]; exact not_le.2 hclose)
    have h2 := congrArg (rot V3.ez q1).mulVec hq2
    rw [hr01.mulVec_transpose_mulVec, hv, ← e24] at h2
    simp only [M3.mulVec_add, M3.mulVec_mulVec, M3.mul_assoc'] at h2 ⊢
    generalize (rot V3.ez q1).mulVec P1 = a1 at h2 ⊢
    generalize (rot V3.ez q1 * rot k q2).mulVec P2 = a2 at h2 ⊢
    generalize (rot V3.ez q1 * (rot k q2 * rot k φ)).mulVec P3 = a3 at h2 ⊢
    generalize (rot V3.ez q1 * (rot k q2 * (rot k φ * rot k (x.1 - q2 - φ)))).mulVec P4 = a4 at h2 ⊢
    have h3 : W = a2 + a3 + P0 + a1 + a4 := by
      rw [h2]; ext <;> simp <;> ring
    rw [h3]
    ext <;> simp <;> ring

/-- lines 261-320: without limits, a wrist too close to the first axis on the wrong side makes the search raise -/
theorem urSearch_below (s : k = V3.ey ∨ k = -V3.ey) (hlim : ¬ ∃ lo up, r.lower = some lo ∧ r.upper = some up)
    (hb : V3.ey.dot (P1 + P2 + P3 + P4) < -(V3.ez.cross (p0T - R06.mulVec (P6 + P5))).norm ∨
      V3.ez.cross (p0T - R06.mulVec (P6 + P5)) = 0 ∧ V3.ey.dot (P1 + P2 + P3 + P4) = 0) :
    ∃ e, urSearch [V3.ez.up, k.up, k.up, k.up, (-V3.ez : V3 ℝ).up, k.up] [P0.up, P1.up, P2.up, P3.up, P4.up, P5.up, P6.up]
      (upNormalizer r none) R06.up p0T.up = .error e := by
  rcases h : urSearch [V3.ez.up, k.up, k.up, k.up, (-V3.ez : V3 ℝ).up, k.up] [P0.up, P1.up, P2.up, P3.up, P4.up, P5.up, P6.up]
      (upNormalizer r none) R06.up p0T.up with e | sols
  · exact ⟨e, rfl⟩
  exfalso
  set W := p0T - R06.mulVec (P6 + P5) with hW
  have hn : V3.ey.dot (-V3.ez : V3 ℝ) = 0 := by simp [V3.dot]
  have hamp : Spec.sp4amp V3.ey W (-V3.ez) = (V3.ez.cross W).norm := by
    rw [sp4amp_eq ey_unit nez_unit hn, show (-V3.ez : V3 ℝ).cross W = -(V3.ez.cross W) by ext <;> simp, V3.norm_neg]
  have hmid := sp4mid_eq (q := W) nez_unit hn
  have hQ : subproblem4 V3.ey.up W.up (-V3.ez : V3 ℝ).up (.fin (V3.ey.dot (P1 + P2 + P3 + P4))) = [.nan, .nan] := by
    rcases hb with hb | ⟨hb, hb'⟩
    · exact (C26_subproblem4_below_nan V3.ey W (-V3.ez) _ (by rw [hamp, hmid, sub_zero]; exact hb)).1
    · refine (C26_subproblem4_degenerate_nan V3.ey W (-V3.ez) _ ?_ ?_).1
      · rw [hamp, hb]; simp [V3.norm_eq, V3.dot]
      · rw [hmid, hb']
  simp only [urSearch, V3.up_ey, V3.up_add, V3.up_dot, M3.up_mulVec, V3.up_sub, V3.up_neg, ← hW] at h
  rw [hQ, callS_free hlim, Except.bind_ok] at h
  obtain ⟨sl, h, -⟩ := forAppend_mem h (List.mem_cons_self (a := XReal.nan))
  simp only [urShoulder] at h
  have hv : ((rot V3.ez.up XReal.nan).transpose * R06.up).mulVec k.up = ⟨.nan, .nan, .nan⟩ := by
    ext <;> simp [rot]
  rw [hv] at h
  obtain ⟨Q, e2, -⟩ := Except.bind_eq_ok h
  have h34 : k.dot (-V3.ez : V3 ℝ) = 0 := by rcases s with rfl | rfl <;> simp [V3.dot]
  simp only [subproblem2, V3.up_dot, h34] at e2
  simp [V3.dot] at e2
  split_ifs at e2 with hc
  · rw [npEps_real] at hc
    norm_num at hc
  · obtain ⟨t, e, -⟩ := Except.bind_eq_ok e2
    rw [subproblem1_nan _ _ _ (.inl rfl)] at e
    cases e
end

/-! ## The wrist reaches every orientation -/

theorem rot_ext_of_two {A B : M3 ℝ} (hA : IsRot A) (hB : IsRot B) {a b : V3 ℝ} (ua : IsUnit3 a) (ub : IsUnit3 b) (hab : a.dot b = 0)
    (ea : A.mulVec a = B.mulVec a) (eb : A.mulVec b = B.mulVec b) : A = B := by
  have ec : A.mulVec (a.cross b) = B.mulVec (a.cross b) := by rw [hA.mulVec_cross, hB.mulVec_cross, ea, eb]
  have hd : ∀ w : V3 ℝ, w = (w.dot a) • a + (w.dot b) • b + (w.dot (a.cross b)) • (a.cross b) := by
    intro w
    simp only [IsUnit3] at ua ub
    simp only [V3.dot] at hab
    ext <;> simp [V3.dot] <;> grind
  have hv : ∀ w, A.mulVec w = B.mulVec w := by
    intro w
    rw [hd w]
    simp only [M3.mulVec_add, M3.mulVec_hsmul, ea, eb, ec]
  have h1 := hv V3.ex
  have h2 := hv V3.ey
  have h3 := hv V3.ez
  rw [V3.ext_iff] at h1 h2 h3
  ext <;> simp at h1 h2 h3 <;> tauto

theorem wrist_exists {h3 h4 h5 : V3 ℝ} (u3 : IsUnit3 h3) (u4 : IsUnit3 h4) (u5 : IsUnit3 h5) (h34 : h3.dot h4 = 0) (h45 : h4.dot h5 = 0)
    {A : M3 ℝ} (hA : IsRot A) : ∃ q4 q5 q6 : ℝ, rot h3 q4 * rot h4 q5 * rot h5 q6 = A := by
  set w := A.mulVec h5 with hw
  have uw : w.dot w = 1 := by rw [hw, hA.dot_mulVec, u5.dot]
  set x := w.dot h3 with hx
  have hx1 : 0 ≤ 1 - x ^ 2 := by
    have := V3.perp_dot_self (p := w) u3
    rw [uw, ← hx] at this
    have h0 : 0 ≤ (w.perp h3).dot (w.perp h3) := by simp only [V3.dot]; nlinarith [sq_nonneg (w.perp h3).x, sq_nonneg (w.perp h3).y, sq_nonneg (w.perp h3).z]
    nlinarith
  set y := Real.sqrt (1 - x ^ 2) with hy
  have hy2 : y * y = 1 - x ^ 2 := Real.mul_self_sqrt hx1
  set v : V3 ℝ := x • h3 + y • (h4.cross h3) with hv
  have c1 : (h4.cross h3).dot h3 = 0 := by simp [V3.dot]; ring
  have c2 : (h4.cross h3).dot h4 = 0 := by simp [V3.dot]; ring
  have c3 : (h4.cross h3).dot (h4.cross h3) = 1 := by
    have : (h4.cross h3).dot (h4.cross h3) = h4.dot h4 * h3.dot h3 - h3.dot h4 ^ 2 := by simp [V3.dot]; ring
    rw [this, u4.dot, u3.dot, h34]; norm_num
  have v3 : v.dot h3 = x := by rw [hv, V3.add_dot, V3.hsmul_dot, V3.hsmul_dot, u3.dot, c1]; ring
  have v4 : v.dot h4 = 0 := by rw [hv, V3.add_dot, V3.hsmul_dot, V3.hsmul_dot, h34, c2]; ring
  have vv : v.dot v = 1 := by
    rw [hv, V3.add_dot, V3.dot_add, V3.dot_add, V3.hsmul_dot, V3.hsmul_dot, V3.hsmul_dot, V3.hsmul_dot, V3.dot_hsmul, V3.dot_hsmul,
      V3.dot_hsmul, V3.dot_hsmul, u3.dot, c3, c1, V3.dot_comm h3, c1]
    nlinarith
  obtain ⟨q5, e5⟩ := exists_rot u4 (p := h5) (q := v) (by rw [u5.dot, vv]) (by rw [V3.dot_comm, h45, v4])
  obtain ⟨q4, e4⟩ := exists_rot u3 (p := v) (q := w) (by rw [vv, uw]) (by rw [v3])
  have hC : IsRot (rot h3 q4 * rot h4 q5) := (rot_isRot h3 u3 _).mul (rot_isRot h4 u4 _)
  have hB : IsRot ((rot h3 q4 * rot h4 q5).transpose * A) := hC.transpose.mul hA
  have hB5 : ((rot h3 q4 * rot h4 q5).transpose * A).mulVec h5 = h5 := by
    rw [← M3.mulVec_mulVec, ← hw, ← e4, ← e5, M3.mulVec_mulVec (rot h3 q4), hC.transpose_mulVec_mulVec]
  obtain ⟨q6, e6⟩ := exists_rot u5 (p := h4) (q := ((rot h3 q4 * rot h4 q5).transpose * A).mulVec h4) (by rw [hB.dot_mulVec])
    (by conv_rhs => rw [← hB5]
        rw [hB.dot_mulVec])
  refine ⟨q4, q5, q6, ?_⟩
  have : rot h5 q6 = (rot h3 q4 * rot h4 q5).transpose * A :=
    rot_ext_of_two (rot_isRot h5 u5 _) hB u4 u5 h45 e6 (by rw [rot_axis, hB5])
  rw [this, ← M3.mul_assoc', hC.orth', M3.one_mul']
