import Verif.Lemmas.IkParts
import Verif.Lemmas.RobotUp
import Verif.Props.InvkinMisc

/-! # The searches of the inverse kinematics on robots with finite entries -/
set_option autoImplicit false

/-! ## The normalizer -/

/-- The normalizer of a robot with finite entries and finite last joint values. -/
noncomputable def upNormalizer (r : Robot ℝ) (last : Option (List ℝ)) : Normalizer XReal :=
  Normalizer.ofRobot r.up (last.map (·.map .fin))

theorem normLast_shift {lims : Option (XReal × XReal)} {x θ : ℝ} {t : XReal} (h : normLast lims (.fin x) (.fin θ) = .ok t) :
    ∃ n : ℤ, t = .fin (θ + n * (2 * Real.pi)) := by
  obtain ⟨n, hn, -⟩ := turns_eval x θ
  have z : XReal.fin θ = .fin (θ + ((0 : ℤ) : ℝ) * (2 * Real.pi)) := by simp
  simp only [normLast, hn] at h
  split_ifs at h
  · split at h
    · cases h
      exact ⟨n, by rw [twoPi_fin, XReal.fin_mul, XReal.fin_add, mul_comm]⟩
    · split at h
      · cases h
      · rename_i k hk
        split at h
        · rename_i t' ht'
          cases h
          have := List.mem_of_find?_eq_some ht'
          rw [List.mem_map] at this
          obtain ⟨i, -, rfl⟩ := this
          refine ⟨k - k.sign * (i : ℤ), ?_⟩
          rw [twoPi_fin, XReal.lit_fin, XReal.fin_mul, XReal.fin_add]
          congr 1; push_cast; ring
        · cases h
  · cases h; exact ⟨0, z⟩

/-- the two steps of `normalize` -/
theorem normalize_cases {N : Normalizer XReal} {j : Nat} {θ t : XReal} (h : N.normalize j θ = .ok (some t)) :
    ∃ lims t1, ((N.limits = none ∧ lims = none ∧ t1 = θ) ∨ (∃ l u, lims = some (l, u) ∧ normLimits l u θ = some t1)) ∧
      ((N.last = none ∧ t = t1) ∨ ∃ last x, N.last = some last ∧ getI last j = .ok x ∧ normLast lims x t1 = .ok t) := by
  rcases hlim : N.limits with _ | ⟨lo, up⟩
  · simp only [Normalizer.normalize, hlim, Except.pure_eq, Except.bind_ok] at h
    refine ⟨none, θ, .inl ⟨rfl, rfl, rfl⟩, ?_⟩
    rcases hl : N.last with _ | last
    · rw [hl] at h; cases h; exact .inl ⟨rfl, rfl⟩
    · rw [hl] at h
      obtain ⟨x, h1, h⟩ := Except.bind_eq_ok h
      obtain ⟨r, h2, h⟩ := Except.bind_eq_ok h
      cases h
      exact .inr ⟨last, x, rfl, h1, h2⟩
  · simp only [Normalizer.normalize, hlim] at h
    rcases hlo : getI lo j with e | l
    · rw [hlo] at h; cases h
    rcases hup : getI up j with e | u
    · rw [hlo, hup] at h; cases h
    simp only [hlo, hup, Except.pure_eq, Except.bind_ok] at h
    rcases hn : normLimits l u θ with _ | t1
    · rw [hn] at h; cases h
    rw [hn] at h
    refine ⟨some (l, u), t1, .inr ⟨l, u, rfl, hn⟩, ?_⟩
    rcases hl : N.last with _ | last
    · rw [hl] at h; cases h; exact .inl ⟨rfl, rfl⟩
    · rw [hl] at h
      obtain ⟨x, h1, h⟩ := Except.bind_eq_ok h
      obtain ⟨r, h2, h⟩ := Except.bind_eq_ok h
      cases h
      exact .inr ⟨last, x, rfl, h1, h2⟩

/-- what `normalize` returns for a finite angle is that angle plus whole turns -/
theorem normalize_shift {r : Robot ℝ} {last : Option (List ℝ)} {j : Nat} {θ : ℝ} {t : XReal}
    (h : (upNormalizer r last).normalize j (.fin θ) = .ok (some t)) : ∃ n : ℤ, t = .fin (θ + n * (2 * Real.pi)) := by
  obtain ⟨lims, t1, h1, h2⟩ := normalize_cases h
  have ht1 : ∃ n : ℤ, t1 = .fin (θ + n * (2 * Real.pi)) := by
    rcases h1 with ⟨-, -, rfl⟩ | ⟨l, u, -, h1⟩
    · exact ⟨0, by simp⟩
    · rcases normLimits_eval l u θ with ⟨k, e1, -⟩ | ⟨e1, -⟩
      · rw [e1] at h1; cases h1; exact ⟨k, rfl⟩
      · rw [e1] at h1; cases h1
  obtain ⟨n, rfl⟩ := ht1
  rcases h2 with ⟨-, rfl⟩ | ⟨last', x, h2, h3, h4⟩
  · exact ⟨n, rfl⟩
  · have e : last.map (·.map XReal.fin) = some last' := h2
    rw [Option.map_eq_some_iff] at e
    obtain ⟨last0, -, rfl⟩ := e
    have := getI_ok h3
    rw [List.getElem?_map, Option.map_eq_some_iff] at this
    obtain ⟨y, -, rfl⟩ := this
    obtain ⟨m, rfl⟩ := normLast_shift h4
    exact ⟨n + m, by push_cast; congr 1; ring⟩

theorem turns_nan (x : XReal) : turns x .nan = .nan := by
  have e1 : Elem.remainder XReal.nan (twoPi : XReal) = .nan := by rw [twoPi_fin]; rfl
  have e2 : Elem.floorDiv XReal.nan (twoPi : XReal) = .nan := by rw [twoPi_fin]; rfl
  simp [turns, e1, e2]

theorem normLast_nan (lims : Option (XReal × XReal)) (x : XReal) : normLast lims x .nan = .ok .nan := by
  simp [normLast, turns_nan]

/-- NaN stays NaN, if it is not dropped -/
theorem normalize_nan {N : Normalizer XReal} {j : Nat} {t : XReal} (h : N.normalize j .nan = .ok (some t)) : t = .nan := by
  obtain ⟨lims, t1, ⟨-, -, rfl⟩ | ⟨l, u, -, h1⟩, h2⟩ := normalize_cases h
  · rcases h2 with ⟨-, rfl⟩ | ⟨last', x, -, -, h4⟩
    · rfl
    · rw [normLast_nan] at h4; cases h4; rfl
  · rw [normLimits_nan] at h1; cases h1

/-! ## The shoulder -/

/-- Whatever `subproblem4` returns is NaN or a solution. -/
theorem subproblem4_mem {p q k : V3 ℝ} {d : ℝ} {x : XReal} (h : x ∈ subproblem4 p.up q.up k.up (.fin d)) :
    x = .nan ∨ ∃ t : ℝ, x = .fin t ∧ p.dot ((rot k t).mulVec q) = d := by
  by_cases h1 : Spec.sp4amp p q k < d - Spec.sp4mid p q k
  · rw [(C26_subproblem4_above p q k d h1).1] at h; cases h
  by_cases h2 : d - Spec.sp4mid p q k < -Spec.sp4amp p q k
  · rw [(C26_subproblem4_below_nan p q k d h2).1] at h
    left; simpa using h
  rcases (show 0 ≤ Spec.sp4amp p q k from Real.sqrt_nonneg _).eq_or_lt with h3 | h3
  · rw [(C26_subproblem4_degenerate_nan p q k d h3.symm (by linarith)).1] at h
    left; simpa using h
  · obtain ⟨t1, t2, e, e1, e2, -⟩ := C26_subproblem4_partial p q k d h3 (abs_le.2 ⟨by linarith, by linarith⟩)
    rw [e] at h
    right
    simp only [List.mem_cons, List.not_mem_nil, or_false] at h
    rcases h with rfl | rfl
    · exact ⟨t1, rfl, e1⟩
    · exact ⟨t2, rfl, e2⟩

/-- with a NaN shoulder angle, the vector to the elbow is NaN -/
theorem rot_nan_mulVec (h : V3 ℝ) (v w : V3 XReal) : (rot h.up .nan).transpose.mulVec v - w = ⟨.nan, .nan, .nan⟩ := by
  ext <;> simp [rot]

theorem ey_unit : IsUnit3 (V3.ey : V3 ℝ) := by simp [IsUnit3]

theorem pm_unit {k : V3 ℝ} (h : k = V3.ey ∨ k = -V3.ey) : IsUnit3 k := by
  rcases h with rfl | rfl <;> simp [IsUnit3]

theorem pm_same {k k' : V3 ℝ} (h : k = V3.ey ∨ k = -V3.ey) (h' : k' = V3.ey ∨ k' = -V3.ey) : k' = k ∨ k' = -k := by
  rcases h with rfl | rfl <;> rcases h' with rfl | rfl
  · exact .inl rfl
  · exact .inr rfl
  · right; ext <;> simp
  · exact .inl rfl

theorem pm_dot {k a b : V3 ℝ} (h : k = V3.ey ∨ k = -V3.ey) (e : V3.ey.dot a = V3.ey.dot b) : a.dot k = b.dot k := by
  rcases h with rfl | rfl
  · rw [V3.dot_comm a, V3.dot_comm b, e]
  · rw [V3.dot_neg, V3.dot_neg, V3.dot_comm a, V3.dot_comm b, e]

theorem IsRot.transpose_dot {R : M3 ℝ} (_h : IsRot R) (a b : V3 ℝ) : (R.transpose.mulVec a).dot b = a.dot (R.mulVec b) := by
  simp [V3.dot]; ring

theorem rot_hsmul_axis (k : V3 ℝ) (a c : ℝ) : (rot k a).mulVec (c • k) = c • k := by rw [M3.mulVec_hsmul, rot_axis]

/-- the equation solved by the shoulder angle -/
theorem shoulder_eq {h0 v : V3 ℝ} {t d : ℝ} (h : V3.ey.dot ((rot (-h0) t).mulVec v) = d) :
    V3.ey.dot ((rot h0 t).transpose.mulVec v) = d := by
  rwa [rot_neg_axis, rot_neg] at h

theorem upNormalize_one {r : Robot ℝ} {last : Option (List ℝ)} {j : Nat} {θ : ℝ} {t : XReal}
    (h : (upNormalizer r last).one j (.fin θ) = .ok (some t)) : ∃ n : ℤ, t = .fin (θ + n * (2 * Real.pi)) :=
  normalize_shift (one_mem h)

/-- the last joint of the wrist, in terms of the rotation `A` that the wrist has to produce and the rotation `R35` of its first two
joints -/
theorem wrist_last {h4 h5 : V3 ℝ} (u4 : IsUnit3 h4) (u5 : IsUnit3 h5) (h45 : h4.dot h5 = 0) {R05 R06 : M3 ℝ} (hR : IsRot R05)
    (h6 : IsRot R06) (hp : (R05.mulVec h5 - R06.mulVec h5).norm ≤ 2 * snap) {r : XReal}
    (hr : subproblem1 h4.up ((R05.transpose * R06).mulVec h4).up h5.up = .ok r) :
    ∃ θ : ℝ, r = .fin θ ∧ ∀ v, ((R05 * rot h5 θ).mulVec v - R06.mulVec v).norm ≤ 10 * snap * v.norm := by
  obtain ⟨θ, e, hv⟩ := last_joint_close u4 u5 h45 (hR.transpose.mul h6) (by
    rw [← hR.norm_mulVec, M3.mulVec_sub, M3.mulVec_mulVec, ← M3.mul_assoc', hR.orth', M3.one_mul', V3.norm_sub_comm]
    exact hp) hr
  refine ⟨θ, e, fun v => ?_⟩
  have := hv v
  rw [← hR.norm_mulVec, M3.mulVec_sub, M3.mulVec_mulVec, M3.mulVec_mulVec R05 (R05.transpose * R06), ← M3.mul_assoc' R05 R05.transpose,
    hR.orth', M3.one_mul'] at this
  exact this

section
variable {h0 h1 h2 h3 h4 h5 P0 P1 P2 P3 P6 p0T : V3 ℝ} {R06 : M3 ℝ} {r : Robot ℝ} {last : Option (List ℝ)}

/-- lines 208-222 -/
theorem r6Last_sound (u4 : IsUnit3 h4) (u5 : IsUnit3 h5) (h45 : h4.dot h5 = 0) (h6 : IsRot R06) {R03 : M3 ℝ}
    {x1 x2 x3 : XReal} {q4 q5 : ℝ} (hR05 : IsRot (R03 * (rot h3 q4 * rot h4 q5))) {sols : List (List XReal)}
    (h : r6Last (upNormalizer r last) h3.up h4.up h5.up R06.up R03.up x1 x2 x3 (.fin q4) (.fin q5) = .ok sols)
    {s : List XReal} (hs : s ∈ sols) :
    ∃ q6 : ℝ, s = [x1, x2, x3, .fin q4, .fin q5, .fin q6] ∧
      (((R03 * (rot h3 q4 * rot h4 q5)).mulVec h5 - R06.mulVec h5).norm ≤ 2 * snap → ∀ v : V3 ℝ,
        ((R03 * (rot h3 q4 * rot h4 q5) * rot h5 q6).mulVec v - R06.mulVec v).norm ≤ 10 * snap * v.norm) := by
  simp only [r6Last, rot_up, M3.up_mul, M3.up_transpose, M3.up_mulVec] at h
  obtain ⟨q6r, e6, h⟩ := Except.bind_eq_ok h
  obtain ⟨q6, n6, h⟩ := Except.bind_eq_ok h
  rcases q6 with _ | q6
  · cases h; cases hs
  cases h
  rw [List.mem_singleton] at hs
  obtain ⟨θ, rfl, -⟩ := subproblem1_close u5 e6
  obtain ⟨n, rfl⟩ := upNormalize_one n6
  refine ⟨_, hs, fun hp v => ?_⟩
  obtain ⟨θ', hθ', hv⟩ := wrist_last u4 u5 h45 hR05 h6 hp e6
  cases hθ'
  rw [rot_periodic]; exact hv v

/-- lines 184-222 -/
theorem r6Elbow_sound (s1 : h1 = V3.ey ∨ h1 = -V3.ey) (s2 : h2 = V3.ey ∨ h2 = -V3.ey) (u3 : IsUnit3 h3) (u4 : IsUnit3 h4)
    (u5 : IsUnit3 h5) (h34 : h3.dot h4 = 0) (h45 : h4.dot h5 = 0) (h6 : IsRot R06) {R01 : M3 ℝ} (hR01 : IsRot R01) {x1 : XReal}
    {q3 : ℝ} {p26 : V3 ℝ} {sols : List (List XReal)} {e : ℝ}
    (hel : ∀ x, subproblem1 (P2 + (rot h2 q3).mulVec P3).up p26.up h1.up = .ok x →
      ∃ θ : ℝ, x = .fin θ ∧ ((rot h1 θ).mulVec (P2 + (rot h2 q3).mulVec P3) - p26).norm ≤ e)
    (h : r6Elbow (upNormalizer r last) h1.up h2.up h3.up h4.up h5.up P2.up P3.up R06.up R01.up p26.up x1 (.fin q3) = .ok sols)
    {s : List XReal} (hs : s ∈ sols) :
    ∃ q2 q4 q5 q6 : ℝ, s = [x1, .fin q2, .fin q3, .fin q4, .fin q5, .fin q6] ∧
      ((rot h1 q2).mulVec (P2 + (rot h2 q3).mulVec P3) - p26).norm ≤ e ∧
      (npEps ≤ 1 - ((R01 * rot h1 q2 * rot h2 q3).mulVec h3).dot (R06.mulVec h5) ^ 2 → ∀ v : V3 ℝ,
        ((R01 * rot h1 q2 * rot h2 q3 * (rot h3 q4 * rot h4 q5) * rot h5 q6).mulVec v - R06.mulVec v).norm ≤ 10 * snap * v.norm) := by
  simp only [r6Elbow, rot_up, M3.up_mul, M3.up_transpose, M3.up_mulVec, V3.up_add] at h
  obtain ⟨q2r, e2, h⟩ := Except.bind_eq_ok h
  obtain ⟨q2, n2, h⟩ := Except.bind_eq_ok h
  rcases q2 with _ | q2
  · cases h; cases hs
  obtain ⟨θ2, rfl, hθ2⟩ := hel _ e2
  obtain ⟨n, rfl⟩ := upNormalize_one n2
  simp only [rot_up, M3.up_mul, M3.up_transpose, M3.up_mulVec] at h
  obtain ⟨Q45, e45, h⟩ := Except.bind_eq_ok h
  obtain ⟨Q45', c45, h⟩ := Except.bind_eq_ok h
  obtain ⟨t, m45, s45, h, hs⟩ := mem_forAppend h hs
  obtain ⟨θ45, mθ, n45⟩ := callV_mem c45 m45
  rw [List.mem_map] at mθ
  obtain ⟨y, hy, rfl⟩ := mθ
  set R03 := R01 * rot h1 (θ2 + n * (2 * Real.pi)) * rot h2 q3 with hR03
  have hr03 : IsRot R03 := (hR01.mul (rot_isRot h1 (pm_unit s1) _)).mul (rot_isRot h2 (pm_unit s2) _)
  obtain ⟨a, b, rfl, hab⟩ := wrist_pair u3 u4 u5 h34 h45 (hr03.transpose.mul h6) e45 hy
  obtain ⟨q4, _, n4, n45', rfl⟩ := List.forall₂_cons_left_iff.1 n45
  obtain ⟨q5, _, n5, n45'', rfl⟩ := List.forall₂_cons_left_iff.1 n45'
  cases n45''
  obtain ⟨i4, rfl⟩ := normalize_shift n4
  obtain ⟨i5, rfl⟩ := normalize_shift n5
  have hr35 : IsRot (rot h3 (a + i4 * (2 * Real.pi)) * rot h4 (b + i5 * (2 * Real.pi))) := (rot_isRot h3 u3 _).mul (rot_isRot h4 u4 _)
  obtain ⟨q6, rfl, hq6⟩ := r6Last_sound u4 u5 h45 h6 (hr03.mul hr35) h hs
  refine ⟨_, _, _, _, rfl, by rw [rot_periodic]; exact hθ2, fun hns v => ?_⟩
  apply hq6
  have := hab (by
    rw [← M3.mulVec_mulVec, hr03.transpose_dot, V3.dot_comm]; exact hns)
  rw [← hr03.norm_mulVec, M3.mulVec_sub, M3.mulVec_mulVec, M3.mulVec_mulVec R03 (R03.transpose * R06), ← M3.mul_assoc' R03 R03.transpose,
    hr03.orth', M3.one_mul'] at this
  rw [rot_periodic, rot_periodic]
  exact this

/-- lines 163-222: everything returned by the search is finite, places the wrist centre up to `(1+|P3|)·snap`, and away from the wrist
singularity gives the rotation up to `10·snap` -/
theorem r6Search_sound {P4 P5 : V3 XReal} (u0 : IsUnit3 h0) (s1 : h1 = V3.ey ∨ h1 = -V3.ey) (s2 : h2 = V3.ey ∨ h2 = -V3.ey)
    (u3 : IsUnit3 h3) (u4 : IsUnit3 h4) (u5 : IsUnit3 h5) (h34 : h3.dot h4 = 0) (h45 : h4.dot h5 = 0) {c : ℝ} (hP0 : P0 = c • h0)
    (hey : V3.ey.dot P0 = 0) (h6 : IsRot R06) {sols : List (List XReal)}
    (h : r6Search [h0.up, h1.up, h2.up, h3.up, h4.up, h5.up] [P0.up, P1.up, P2.up, P3.up, P4, P5, P6.up] (upNormalizer r last)
      R06.up p0T.up = .ok sols) {s : List XReal} (hs : s ∈ sols) :
    ∃ q1 q2 q3 q4 q5 q6 : ℝ, s = [.fin q1, .fin q2, .fin q3, .fin q4, .fin q5, .fin q6] ∧
      (P0 + (rot h0 q1).mulVec (P1 + (rot h1 q2).mulVec (P2 + (rot h2 q3).mulVec P3)) - (p0T - R06.mulVec P6)).norm
        ≤ (1 + P3.norm) * snap ∧
      (npEps ≤ 1 - ((rot h0 q1 * rot h1 q2 * rot h2 q3).mulVec h3).dot (R06.mulVec h5) ^ 2 → ∀ v : V3 ℝ,
        ((rot h0 q1 * rot h1 q2 * rot h2 q3 * (rot h3 q4 * rot h4 q5) * rot h5 q6).mulVec v - R06.mulVec v).norm
          ≤ 10 * snap * v.norm) := by
  have u2 := pm_unit s2
  simp only [r6Search, V3.up_ey, V3.up_add, V3.up_dot, M3.up_mulVec, V3.up_sub, V3.up_neg] at h
  obtain ⟨Q1, c1, h⟩ := Except.bind_eq_ok h
  obtain ⟨x1, m1, sl1, h, hs⟩ := mem_forAppend h hs
  obtain ⟨θ1, mθ1, n1⟩ := callS_mem c1 m1
  simp only [r6Shoulder] at h
  obtain ⟨Q3, e3, h⟩ := Except.bind_eq_ok h
  obtain ⟨Q3', c3, h⟩ := Except.bind_eq_ok h
  obtain ⟨x3, m3, sl3, h, hs⟩ := mem_forAppend h hs
  obtain ⟨θ3, mθ3, n3⟩ := callS_mem c3 m3
  rcases subproblem4_mem mθ1 with rfl | ⟨t1, rfl, ht1⟩
  · -- a NaN shoulder angle makes the elbow step raise
    exfalso
    have := normalize_nan n1; subst this
    simp only [r6Elbow] at h
    obtain ⟨q2r, e2, h⟩ := Except.bind_eq_ok h
    rw [subproblem1_nan _ _ _ (.inr (rot_nan_mulVec h0 _ _))] at e2
    cases e2
  obtain ⟨i1, rfl⟩ := normalize_shift n1
  set q1 := t1 + i1 * (2 * Real.pi) with hq1
  have hd : V3.ey.dot ((rot h0 q1).transpose.mulVec (p0T - R06.mulVec P6)) = V3.ey.dot (P1 + P2 + P3) := by
    rw [hq1, rot_periodic]; exact shoulder_eq ht1
  simp only [rot_up, M3.up_transpose, M3.up_mulVec, V3.up_add, V3.up_sub, V3.up_norm] at h e3
  set p26 := (rot h0 q1).transpose.mulVec (p0T - R06.mulVec P6) - (P0 + P1) with hp26
  obtain ⟨t3, rfl, hel⟩ := elbow_close (k' := h1) u2 (pm_same s2 s1) (pm_dot s2 (by
    rw [hp26, V3.dot_sub, hd, V3.dot_add, V3.dot_add, V3.dot_add, V3.dot_add, hey]; ring)) e3 mθ3
  obtain ⟨i3, rfl⟩ := normalize_shift n3
  have hr01 := rot_isRot h0 u0 q1
  obtain ⟨q2, q4, q5, q6, rfl, hpos, hrot⟩ := r6Elbow_sound s1 s2 u3 u4 u5 h34 h45 h6 hr01 (hel i3) h hs
  refine ⟨q1, q2, _, q4, q5, q6, rfl, ?_, hrot⟩
  rw [← hr01.norm_mulVec] at hpos
  have hfix : (rot h0 q1).mulVec P0 = P0 := by rw [hP0, rot_hsmul_axis]
  convert hpos using 2
  rw [hp26, M3.mulVec_sub, M3.mulVec_sub, hr01.mulVec_transpose_mulVec, M3.mulVec_add (rot h0 q1) P1, M3.mulVec_add (rot h0 q1) P0, hfix]
  generalize (rot h0 q1).mulVec P1 = a
  generalize (rot h0 q1).mulVec ((rot h1 q2).mulVec (P2 + (rot h2 (t3 + i3 * (2 * Real.pi))).mulVec P3)) = b
  ext <;> simp <;> ring
end

/-! ## Tool, flange and base -/

theorem unapplyAux_R (r : Robot ℝ) (T : Transform ℝ) :
    (unapplyAux r T).R = (auxB r).R.transpose * (T.R * (auxX r).R.transpose * (auxF r).R.transpose) := by
  rcases r with ⟨_, _, _, _, _, _, _, _, R, p, _, _, _, F, B, _⟩
  rcases B with _ | B <;> rcases F with _ | F <;> rcases R with _ | R <;> rcases p with _ | p <;>
    simp [unapplyAux, auxB, auxF, auxX, identityTransform, Transform.inv, M3.mul_assoc']

theorem unapplyAux_p (r : Robot ℝ) (T : Transform ℝ) :
    (unapplyAux r T).p = (auxB r).R.transpose.mulVec (T.p - (T.R * (auxX r).R.transpose).mulVec (auxX r).p -
      (T.R * (auxX r).R.transpose * (auxF r).R.transpose).mulVec (auxF r).p - (auxB r).p) := by
  rcases r with ⟨_, _, _, _, _, _, _, _, R, p, _, _, _, F, B, _⟩
  rcases B with _ | B <;> rcases F with _ | F <;> rcases R with _ | R <;> rcases p with _ | p <;>
    simp [unapplyAux, auxB, auxF, auxX, identityTransform, Transform.inv, M3.mul_assoc', ← M3.mulVec_mulVec, M3.mulVec_add, M3.mulVec_sub, M3.mulVec_neg] <;>
    ext <;> simp <;> ring

theorem apply_unapply_R {r : Robot ℝ} (hB : IsRot (auxB r).R) (hF : IsRot (auxF r).R) (hX : IsRot (auxX r).R) (T : Transform ℝ) :
    (applyAux r (unapplyAux r T)).R = T.R := by
  rw [applyAux_R, unapplyAux_R]
  simp only [M3.mul_assoc']
  rw [← M3.mul_assoc' (auxF r).R.transpose, hF.orth, M3.one_mul', hX.orth, M3.mul_one', ← M3.mul_assoc', hB.orth', M3.one_mul']

theorem apply_unapply_p {r : Robot ℝ} (hB : IsRot (auxB r).R) (hF : IsRot (auxF r).R) (T : Transform ℝ) :
    (applyAux r (unapplyAux r T)).p = T.p := by
  rw [applyAux_p, unapplyAux_R, unapplyAux_p]
  simp only [M3.mulVec_add]
  simp only [M3.mulVec_mulVec, ← M3.mul_assoc']
  rw [M3.mul_assoc' _ _ (auxF r).R, hF.orth, M3.mul_one', hB.orth', M3.one_mul', M3.one_mulVec]
  generalize (T.R * (auxX r).R.transpose).mulVec (auxX r).p = a
  generalize (T.R * (auxX r).R.transpose * (auxF r).R.transpose).mulVec (auxF r).p = b
  ext <;> simp <;> ring

theorem unapply_rot {r : Robot ℝ} (hB : IsRot (auxB r).R) (hF : IsRot (auxF r).R) (hX : IsRot (auxX r).R) {T : Transform ℝ}
    (hT : IsRot T.R) : IsRot (unapplyAux r T).R := by
  rw [unapplyAux_R]
  exact hB.transpose.mul ((hT.mul hX.transpose).mul hF.transpose)

/-- an error in the pose of the bare arm and what becomes of it with base, flange and tool -/
theorem aux_close {r : Robot ℝ} (hB : IsRot (auxB r).R) (hF : IsRot (auxF r).R) (hX : IsRot (auxX r).R) {T C : Transform ℝ}
    {ε δ : ℝ} (h1 : ∀ v : V3 ℝ, (C.R.mulVec v - (unapplyAux r T).R.mulVec v).norm ≤ ε * v.norm)
    (h2 : (C.p - (unapplyAux r T).p).norm ≤ δ) :
    (∀ v : V3 ℝ, ((applyAux r C).R.mulVec v - T.R.mulVec v).norm ≤ ε * v.norm) ∧
    ((applyAux r C).p - T.p).norm ≤ δ + ε * ((auxF r).p.norm + (auxX r).p.norm) := by
  rw [← apply_unapply_R hB hF hX T, ← apply_unapply_p hB hF T]
  set U := unapplyAux r T
  constructor
  · intro v
    rw [applyAux_R, applyAux_R]
    simp only [← M3.mulVec_mulVec, M3.mul_assoc']
    rw [← M3.mulVec_sub, hB.norm_mulVec]
    refine (h1 _).trans (le_of_eq ?_)
    rw [hF.norm_mulVec, hX.norm_mulVec]
  · rw [applyAux_p, applyAux_p]
    simp only [← M3.mulVec_mulVec]
    have e : ∀ a x y : V3 ℝ, a + x - (a + y) = x - y := by intro a x y; ext <;> simp
    rw [e, ← M3.mulVec_sub, hB.norm_mulVec]
    have g : C.p + C.R.mulVec (auxF r).p + C.R.mulVec ((auxF r).R.mulVec (auxX r).p) -
        (U.p + U.R.mulVec (auxF r).p + U.R.mulVec ((auxF r).R.mulVec (auxX r).p)) =
        (C.p - U.p) + (C.R.mulVec (auxF r).p - U.R.mulVec (auxF r).p) +
          (C.R.mulVec ((auxF r).R.mulVec (auxX r).p) - U.R.mulVec ((auxF r).R.mulVec (auxX r).p)) := by
      generalize C.R.mulVec (auxF r).p = a1
      generalize U.R.mulVec (auxF r).p = a2
      generalize C.R.mulVec ((auxF r).R.mulVec (auxX r).p) = a3
      generalize U.R.mulVec ((auxF r).R.mulVec (auxX r).p) = a4
      ext <;> simp <;> ring
    rw [g]
    have t1 := V3.norm_add_le ((C.p - U.p) + (C.R.mulVec (auxF r).p - U.R.mulVec (auxF r).p))
      (C.R.mulVec ((auxF r).R.mulVec (auxX r).p) - U.R.mulVec ((auxF r).R.mulVec (auxX r).p))
    have t2 := V3.norm_add_le (C.p - U.p) (C.R.mulVec (auxF r).p - U.R.mulVec (auxF r).p)
    have t3 := h1 (auxF r).p
    have t4 := h1 ((auxF r).R.mulVec (auxX r).p)
    rw [hF.norm_mulVec] at t4
    linarith

/-! ## The correction of `P` -/

theorem isZeroV_up (v : V3 ℝ) : isZeroV v.up ↔ v = 0 := by
  have this : ∀ x : ℝ, feq (XReal.fin x) 0 ↔ x = 0 := by
    intro x; rw [XReal.zero_def]; constructor
    · intro h; exact le_antisymm h.1 h.2
    · rintro rfl; exact ⟨(le_refl (0 : ℝ) :), (le_refl (0 : ℝ) :)⟩
  show (feq (XReal.fin v.x) 0 ∧ feq (XReal.fin v.y) 0 ∧ feq (XReal.fin v.z) 0) ↔ v = 0
  rw [this, this, this]
  constructor
  · rintro ⟨h1, h2, h3⟩; ext <;> simp [h1, h2, h3]
  · rintro rfl; simp

/-- when the corrections succeed, the offsets 4 and 5 are along the axes of joints 4 and 6 and have been moved to offsets 3 and 6 -/
theorem fixWrist_ok {h0 h1 h2 h3 h4 h5 P0 P1 P2 P3 P4 P5 P6 : V3 ℝ} {P' : List (V3 XReal)}
    (h : fixWrist [h0.up, h1.up, h2.up, h3.up, h4.up, h5.up] [P0.up, P1.up, P2.up, P3.up, P4.up, P5.up, P6.up] = (P', .ok ())) :
    P' = [P0.up, P1.up, P2.up, (P3 + P4).up, 0, 0, (P6 + P5).up] ∧ P4 = (P4.dot h3) • h3 ∧ P5 = (P5.dot h5) • h5 := by
  have z : ∀ a h : V3 ℝ, a - V3.smul (a.dot h) h = 0 → a = (a.dot h) • h := by
    intro a h e
    have e1 := congrArg V3.x e
    have e2 := congrArg V3.y e
    have e3 := congrArg V3.z e
    simp only [V3.sub_x, V3.sub_y, V3.sub_z, V3.smul_x, V3.smul_y, V3.smul_z, V3.zero_x, V3.zero_y, V3.zero_z, sub_eq_zero] at e1 e2 e3
    ext <;> simp only [V3.hsmul_x, V3.hsmul_y, V3.hsmul_z] <;> assumption
  have z0 : ∀ h : V3 ℝ, (0 : V3 ℝ) = ((0 : V3 ℝ).dot h) • h := by intro h; ext <;> simp [V3.dot]
  have a0 : ∀ a : V3 ℝ, a + 0 = a := by intro a; ext <;> simp
  have key : ∀ (L : List (V3 XReal)) (src ax dst : Nat) (a b hh : V3 ℝ) (L' : List (V3 XReal)) (H : List (V3 XReal)),
      L[src]? = some a.up → L[dst]? = some b.up → H[ax]? = some hh.up → moveColumn H L src ax dst = (L', .ok ()) →
      src ≠ dst → L' = (L.set dst (b + a).up).set src 0 ∧ a = (a.dot hh) • hh := by
    intro L src ax dst a b hh L' H e1 e2 e3 e4 hne
    simp only [moveColumn, e1, e2, e3] at e4
    split_ifs at e4 with c1 c2
    · cases e4
      have c1 := (isZeroV_up a).1 c1
      subst c1
      refine ⟨?_, z0 _⟩
      rw [a0]
      apply List.ext_getElem?
      intro i
      rw [List.getElem?_set, List.getElem?_set]
      split_ifs with i1 i2 i3 i4
      · subst i1; rw [e1]; rfl
      · subst i1
        simp only [List.length_set] at i2
        exact absurd (List.getElem?_eq_some_iff.1 e1).1 i2
      · subst i3; exact e2
      · subst i3; exact absurd (List.getElem?_eq_some_iff.1 e2).1 i4
      · rfl
    · cases e4
      rw [V3.up_dot, V3.up_smul, V3.up_sub, isZeroV_up] at c2
      exact ⟨by rw [V3.up_add], z _ _ c2⟩
    · cases e4
  unfold fixWrist at h
  rcases hm : moveColumn [h0.up, h1.up, h2.up, h3.up, h4.up, h5.up] [P0.up, P1.up, P2.up, P3.up, P4.up, P5.up, P6.up] 4 3 3 with ⟨L, e | u⟩
  · rw [hm] at h; cases h
  rw [hm] at h
  obtain ⟨k1, k2⟩ := key _ 4 3 3 P4 P3 h3 _ _ rfl rfl rfl hm (by decide)
  simp only [List.set_cons_succ, List.set_cons_zero] at k1
  subst k1
  obtain ⟨k3, k4⟩ := key _ 5 5 6 P5 P6 h5 _ _ rfl rfl rfl h (by decide)
  exact ⟨k3, k2, k4⟩
