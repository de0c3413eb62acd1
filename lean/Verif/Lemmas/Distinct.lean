import Verif.Lemmas.Count

/-! # When the analytic solvers list the same joint vector twice -/
set_option autoImplicit false

/-- two finite angles that are not the same angle, even with whole turns added -/
def Spec.turnsApart (x y : XReal) : Prop := ∃ s t : ℝ, x = .fin s ∧ y = .fin t ∧ ∀ n : ℤ, t ≠ s + n * (2 * Real.pi)

/-- two joint vectors of which some joint has angles that are apart -/
def Spec.differ (a b : List XReal) : Prop := ∃ (j : Nat) (x y : XReal), a[j]? = some x ∧ b[j]? = some y ∧ Spec.turnsApart x y

theorem Spec.turnsApart.symm {x y : XReal} (h : Spec.turnsApart x y) : Spec.turnsApart y x := by
  obtain ⟨s, t, rfl, rfl, h⟩ := h
  exact ⟨t, s, rfl, rfl, fun n e => h (-n) (by rw [e]; push_cast; ring)⟩

theorem Spec.differ.symm {a b : List XReal} (h : Spec.differ a b) : Spec.differ b a := by
  obtain ⟨j, x, y, h1, h2, h3⟩ := h
  exact ⟨j, y, x, h2, h1, h3.symm⟩

theorem Spec.turnsApart.shift {s t : ℝ} (h : Spec.turnsApart (.fin s) (.fin t)) (i j : ℤ) :
    Spec.turnsApart (.fin (s + i * (2 * Real.pi))) (.fin (t + j * (2 * Real.pi))) := by
  obtain ⟨s', t', e1, e2, h⟩ := h
  cases e1; cases e2
  exact ⟨_, _, rfl, rfl, fun n e => h (n + i - j) (by push_cast; linarith)⟩

/-! ## The shoulder -/

/-- the rate of change of what `subproblem4` solves -/
theorem sp4_derivative (p q : V3 ℝ) {k : V3 ℝ} (hk : IsUnit3 k) (θ : ℝ) : p.dot (k.cross ((rot k θ).mulVec q)) =
    Spec.sp4amp p q k * Real.cos (θ + Complex.arg ⟨p.dot (k.cross q), -p.dot (k.cross (k.cross q))⟩) := by
  obtain ⟨h1, h2⟩ := polar_arg (p.dot (k.cross q)) (-p.dot (k.cross (k.cross q)))
  rw [neg_mul_neg] at h1 h2
  have e : p.dot (k.cross ((rot k θ).mulVec q)) = Real.cos θ * p.dot (k.cross q) + Real.sin θ * p.dot (k.cross (k.cross q)) := by
    have hk' : k.x * k.x + k.y * k.y + k.z * k.z = 1 := hk
    simp [rot, V3.dot]
    generalize Real.cos θ = c
    generalize Real.sin θ = s
    linear_combination (-(1 - c) * (p.x * (k.y * q.z - k.z * q.y) + p.y * (k.z * q.x - k.x * q.z) + p.z * (k.x * q.y - k.y * q.x))) * hk'
  rw [e, Spec.sp4amp, Real.cos_add]
  linear_combination (-Real.cos θ) * h1 + (Real.sin θ) * h2

/-- the two shoulder angles are apart unless the lateral position of the wrist centre is at an extreme -/
theorem subproblem4_apart (p q : V3 ℝ) {k : V3 ℝ} (hk : IsUnit3 k) (d : ℝ) :
    (subproblem4 p.up q.up k.up (.fin d)).Pairwise fun x y =>
      ∀ s : ℝ, x = .fin s → p.dot (k.cross ((rot k s).mulVec q)) ≠ 0 → Spec.turnsApart x y := by
  by_cases h1 : Spec.sp4amp p q k < d - Spec.sp4mid p q k
  · rw [(C26_subproblem4_above p q k d h1).1]; exact .nil
  by_cases h2 : d - Spec.sp4mid p q k < -Spec.sp4amp p q k
  · rw [(C26_subproblem4_below_nan p q k d h2).1]
    refine List.pairwise_pair.2 fun s hs => ?_
    cases hs
  rcases (show 0 ≤ Spec.sp4amp p q k from Real.sqrt_nonneg _).eq_or_lt with h3 | h3
  · rw [(C26_subproblem4_degenerate_nan p q k d h3.symm (by linarith)).1]
    refine List.pairwise_pair.2 fun s hs => ?_
    cases hs
  set x := (d - Spec.sp4mid p q k) / Spec.sp4amp p q k with hx
  have x1 : x ≤ 1 := by rw [hx, div_le_one h3]; linarith
  have x2 : -1 ≤ x := by rw [hx, le_div_iff₀ h3]; linarith
  rw [subproblem4_up]
  set φ := Complex.arg ⟨p.dot (k.cross q), -p.dot (k.cross (k.cross q))⟩ with hφ
  simp only [XReal.fin_div _ h3.ne', ← hx]
  rw [if_neg (by simpa using x1), XReal.arcsin_fin x2 x1]
  refine List.pairwise_pair.2 fun s hs hne => ?_
  simp only [XReal.fin_add, XReal.fin_sub, XReal.fin.injEq] at hs ⊢
  rw [sp4_derivative p q hk, ← hφ, ← hs] at hne
  refine ⟨_, _, rfl, rfl, fun n e => hne ?_⟩
  have c1 : Real.cos (-φ + Real.arcsin x + φ) = Real.cos (Real.arcsin x) := by congr 1; ring
  have c2 : Real.cos (-φ + Real.arcsin x + φ) = -Real.cos (Real.arcsin x) := by
    rw [← Real.cos_pi_sub, ← Real.cos_add_int_mul_two_pi _ n]; congr 1; linarith
  rw [show Real.cos (-φ + Real.arcsin x + φ) = 0 by linarith, mul_zero]

/-! ## The elbow -/

theorem rot_half_turn {k v : V3 ℝ} (hk : IsUnit3 k) (hv : k.dot v = 0) (θ : ℝ) :
    (rot k (θ + Real.pi)).mulVec v = -((rot k θ).mulVec v) := by
  have hk' : k.x * k.x + k.y * k.y + k.z * k.z = 1 := hk
  have hv' : k.x * v.x + k.y * v.y + k.z * v.z = 0 := hv
  ext <;> simp [rot, Real.sin_add, Real.cos_add]
  · linear_combination (2 * k.x) * hv' - (2 * v.x) * hk'
  · linear_combination (2 * k.y) * hv' - (2 * v.y) * hk'
  · linear_combination (2 * k.z) * hv' - (2 * v.z) * hk'

/-- the two elbow angles are apart unless the forearm is folded back onto the upper arm -/
theorem subproblem3_apart {p q k : V3 ℝ} (hk : IsUnit3 k) {d : ℝ} (hd : 0 ≤ d) {l : List XReal}
    (h : subproblem3 p.up q.up k.up (.fin d) = .ok l) :
    l.Pairwise fun x y => ∀ s : ℝ, x = .fin s → snap ≤ ((rot k s).mulVec (Spec.dir p k) + Spec.dir q k).norm → Spec.turnsApart x y := by
  by_cases hon : k.cross p = 0 ∨ k.cross q = 0
  · obtain ⟨-, h1, h2⟩ := C25_subproblem3_on_axis p q k d hk hon hd
    by_cases hc : (q + p).norm = d
    · rw [h2 hc] at h; cases h
    · rw [h1 hc] at h; cases h; exact .nil
  push Not at hon
  have hp' := perp_ne hon.1
  have hq' := perp_ne hon.2
  rw [subproblem3_up hp' hq'] at h
  obtain ⟨θ, θ0, e1, -, -, e4⟩ := sp3_inner hk hp' hq'
  simp only [e1] at h
  generalize -((p.perp k).dot (p.perp k) + (q.perp k).dot (q.perp k) - (d * d - k.dot (p + q) * k.dot (p + q))) /
    (2 * (p.perp k).norm * (q.perp k).norm) = b at h
  have c2 := Real.arccos_le_pi b
  split_ifs at h with h1 h2
  · cases h; exact .nil
  · cases h
    refine List.pairwise_pair.2 fun s hs hne => ?_
    simp only [XReal.fin_add, XReal.fin_sub, XReal.fin.injEq] at hs ⊢
    refine ⟨_, _, rfl, rfl, fun n e => ?_⟩
    have hpi := Real.pi_pos
    have hn : Real.arccos b = -n * Real.pi := by linarith
    have hn1 : n = -1 := by
      have a1 : (0 : ℝ) < -n := by
        rw [hn] at h2; exact pos_of_mul_pos_left h2 hpi.le
      have a2 : (-n : ℝ) ≤ 1 := by
        rw [hn] at c2
        nlinarith
      have a1' : 0 < -n := by exact_mod_cast a1
      have a2' : -n ≤ 1 := by exact_mod_cast a2
      omega
    have hb : Real.arccos b = Real.pi := by rw [hn, hn1]; push_cast; ring
    rw [← hs, hb] at hne
    have key := rot_half_turn hk (dir_perp (p := p) hk) θ
    rw [key] at hne
    have e : -((rot k θ).mulVec (Spec.dir p k)) + Spec.dir q k = Spec.dir q k - (rot k θ).mulVec (Spec.dir p k) := by
      ext <;> simp <;> ring
    rw [e, V3.norm_sub_comm] at hne
    exact absurd e4 (not_lt.2 hne)
  · cases h; exact List.pairwise_singleton _ _

theorem subproblem3_fin {p q k : V3 ℝ} (hk : IsUnit3 k) {d : ℝ} (hd : 0 ≤ d) {l : List XReal}
    (h : subproblem3 p.up q.up k.up (.fin d) = .ok l) {x : XReal} (hx : x ∈ l) : ∃ t : ℝ, x = .fin t := by
  by_cases hon : k.cross p = 0 ∨ k.cross q = 0
  · obtain ⟨-, h1, h2⟩ := C25_subproblem3_on_axis p q k d hk hon hd
    by_cases hc : (q + p).norm = d
    · rw [h2 hc] at h; cases h
    · rw [h1 hc] at h; cases h; cases hx
  push Not at hon
  obtain ⟨ts, e, -⟩ := C25_subproblem3_partial p q k d hk hon.1 hon.2 hd
  rw [e] at h; cases h
  obtain ⟨t, -, rfl⟩ := List.mem_map.1 hx
  exact ⟨t, rfl⟩

/-! ## The wrist -/

/-- the first angles of the two wrist solutions are always apart: unless their end points are two tolerances apart, `subproblem2` returns
one solution only -/
theorem subproblem2_apart {p q k1 k2 : V3 ℝ} (u1 : IsUnit3 k1) (u2 : IsUnit3 k2) (hpq : p.dot p = q.dot q)
    (hax : npEps ≤ 1 - k1.dot k2 ^ 2) {l : List (XReal × XReal)} (h : subproblem2 p.up q.up k1.up k2.up = .ok l) :
    l.Pairwise fun x y => Spec.turnsApart x.1 y.1 := by
  have he := npEps_pos
  have hlt : k1.dot k2 ^ 2 < 1 := by linarith
  rw [Sp2.eval u1 u2 _ _ hax] at h
  by_cases hs : |Spec.disc p q k1 k2| < npEps
  · rw [if_pos hs] at h
    simp only [lt_irrefl, if_false, Real.sqrt_zero, zero_div, abs_zero, he, if_true] at h
    obtain ⟨t2, -, h⟩ := Except.bind_eq_ok h
    obtain ⟨t1, -, h⟩ := Except.bind_eq_ok h
    cases h
    exact List.pairwise_singleton _ _
  rw [if_neg hs] at h
  simp only at h
  split_ifs at h with h0 h1
  · cases h; exact .nil
  · obtain ⟨t2, -, h⟩ := Except.bind_eq_ok h
    obtain ⟨t1, -, h⟩ := Except.bind_eq_ok h
    cases h
    exact List.pairwise_singleton _ _
  · have hd0 := not_lt.1 h0
    rw [abs_of_nonneg hd0] at hs
    have hd := not_lt.1 hs
    obtain ⟨a, e1, h⟩ := Except.bind_eq_ok h
    obtain ⟨b, e2, h⟩ := Except.bind_eq_ok h
    obtain ⟨_, -, h⟩ := Except.bind_eq_ok h
    obtain ⟨_, -, h⟩ := Except.bind_eq_ok h
    cases h
    refine List.pairwise_pair.2 ?_
    have hg2 := Sp2.γ_sq (p := p) (q := q) u1 u2 hlt.ne hd0
    change subproblem1 q.up (Sp2.c p q k1 k2 (Sp2.γ p q k1 k2)).up k1.up = _ at e1
    change subproblem1 q.up (Sp2.c p q k1 k2 (-Sp2.γ p q k1 k2)).up k1.up = _ at e2
    set g := Sp2.γ p q k1 k2 with hg
    have hc : ∀ x : ℝ, x ^ 2 = g ^ 2 → ∀ r, subproblem1 q.up (Sp2.c p q k1 k2 x).up k1.up = .ok r →
        ∃ θ : ℝ, r = .fin θ ∧ ((rot k1 θ).mulVec q - Sp2.c p q k1 k2 x).norm < snap := by
      intro x hx r hr
      have cc := Sp2.c_dot_c (p := p) (q := q) u1 u2 hlt.ne x
      rw [hx, hg2, sub_add_cancel] at cc
      obtain ⟨θ, e, -, -, hn, -⟩ := subproblem1_sound u1 (by rw [cc, hpq]) (Sp2.c_dot_k1 (p := p) (q := q) u1 hlt.ne x).symm hr
      exact ⟨θ, e, hn⟩
    obtain ⟨θ1, rfl, n1⟩ := hc g rfl _ e1
    obtain ⟨θ2, rfl, n2⟩ := hc (-g) (by ring) _ e2
    refine ⟨_, _, XReal.fin_neg _, XReal.fin_neg _, fun n e => ?_⟩
    have e' : θ1 = θ2 + n * (2 * Real.pi) := by linarith
    rw [e', rot_periodic] at n1
    generalize (rot k1 θ2).mulVec q = v at n1 n2
    have hdiff : Sp2.c p q k1 k2 g - Sp2.c p q k1 k2 (-g) = (2 * g) • k1.cross k2 := by
      rw [Sp2.c_eq, Sp2.c_eq]; ext <;> simp <;> ring
    have hle : ((2 * g) • k1.cross k2).norm < 2 * snap := by
      rw [← hdiff]
      have : Sp2.c p q k1 k2 g - Sp2.c p q k1 k2 (-g) = (v - Sp2.c p q k1 k2 (-g)) - (v - Sp2.c p q k1 k2 g) := by
        ext <;> simp
      rw [this]
      exact (V3.norm_sub_le _ _).trans_lt (by linarith)
    have hsq := V3.norm_sq ((2 * g) • k1.cross k2)
    rw [V3.hsmul_dot, V3.dot_hsmul, Sp2.cross_sq u1 u2] at hsq
    have hsn : snap ^ 2 = npEps := by rw [snap_def, Real.sq_sqrt he.le]
    have h0 := V3.norm_nonneg ((2 * g) • k1.cross k2)
    nlinarith

/-! ## The spherical wrist search -/

theorem r6Last_form {N : Normalizer XReal} {h3 h4 h5 : V3 XReal} {R06 R03 : M3 XReal} {x1 x2 x3 x4 x5 : XReal} {s : List (List XReal)}
    (h : r6Last N h3 h4 h5 R06 R03 x1 x2 x3 x4 x5 = .ok s) : s.length ≤ 1 ∧ ∀ t ∈ s, ∃ x6, t = [x1, x2, x3, x4, x5, x6] := by
  refine ⟨(r6Last_rows h).1, ?_⟩
  simp only [r6Last] at h
  obtain ⟨q6, -, h⟩ := Except.bind_eq_ok h
  obtain ⟨x, -, h⟩ := Except.bind_eq_ok h
  rcases x with _ | x <;> cases h <;> simp

theorem pairwise_of_length_le_one {β : Type} {R : β → β → Prop} {l : List β} (h : l.length ≤ 1) : l.Pairwise R := by
  rcases l with _ | ⟨a, _ | ⟨b, l⟩⟩
  · exact .nil
  · exact List.pairwise_singleton _ _
  · simp at h

theorem r6Elbow_form {N : Normalizer XReal} {h1 h2 h3 h4 h5 P2 P3 : V3 XReal} {R06 R01 : M3 XReal} {p26 : V3 XReal} {x1 x3 : XReal}
    {s : List (List XReal)} (h : r6Elbow N h1 h2 h3 h4 h5 P2 P3 R06 R01 p26 x1 x3 = .ok s) :
    ∀ t ∈ s, ∃ x2 x4 x5 x6, t = [x1, x2, x3, x4, x5, x6] := by
  intro t ht
  simp only [r6Elbow] at h
  obtain ⟨q2, -, h⟩ := Except.bind_eq_ok h
  obtain ⟨x, -, h⟩ := Except.bind_eq_ok h
  rcases x with _ | x
  · cases h; cases ht
  · obtain ⟨Q, e, h⟩ := Except.bind_eq_ok h
    obtain ⟨Q', e', h⟩ := Except.bind_eq_ok h
    obtain ⟨y, -, sl, hy, ht⟩ := mem_forAppend h ht
    rcases y with _ | ⟨a, _ | ⟨b, _ | ⟨c, y⟩⟩⟩
    · cases hy
    · cases hy
    · obtain ⟨x6, rfl⟩ := (r6Last_form hy).2 t ht
      exact ⟨_, _, _, _, rfl⟩
    · cases hy

section
variable {h0 h1 h2 h3 h4 h5 P0 P1 P2 P3 P6 p0T : V3 ℝ} {R06 : M3 ℝ} {r : Robot ℝ} {last : Option (List ℝ)}

/-- the rows for one elbow angle differ in the fourth joint -/
theorem r6Elbow_differ (u1 : IsUnit3 h1) (u2 : IsUnit3 h2) (u3 : IsUnit3 h3) (u4 : IsUnit3 h4) (u5 : IsUnit3 h5) (h34 : h3.dot h4 = 0)
    (h45 : h4.dot h5 = 0) (h6 : IsRot R06) {R01 : M3 ℝ} (hR01 : IsRot R01) {x1 : XReal} {q3 : ℝ} {p26 : V3 ℝ} {sols : List (List XReal)}
    (h : r6Elbow (upNormalizer r last) h1.up h2.up h3.up h4.up h5.up P2.up P3.up R06.up R01.up p26.up x1 (.fin q3) = .ok sols) :
    sols.Pairwise Spec.differ := by
  simp only [r6Elbow, rot_up, M3.up_mul, M3.up_transpose, M3.up_mulVec, V3.up_add] at h
  obtain ⟨q2r, e2, h⟩ := Except.bind_eq_ok h
  obtain ⟨q2, n2, h⟩ := Except.bind_eq_ok h
  rcases q2 with _ | q2
  · cases h; exact .nil
  obtain ⟨θ2, rfl, -⟩ := subproblem1_close u1 e2
  obtain ⟨n, rfl⟩ := upNormalize_one n2
  simp only [rot_up, M3.up_mul, M3.up_transpose, M3.up_mulVec] at h
  obtain ⟨Q45, e45, h⟩ := Except.bind_eq_ok h
  obtain ⟨Q45', c45, h⟩ := Except.bind_eq_ok h
  set R03 := R01 * rot h1 (θ2 + n * (2 * Real.pi)) * rot h2 q3 with hR03
  have hr03 : IsRot R03 := (hR01.mul (rot_isRot h1 u1 _)).mul (rot_isRot h2 u2 _)
  have hap := subproblem2_apart u3 u4 (by rw [(hr03.transpose.mul h6).dot_mulVec]) (by rw [h34]; rw [npEps]; norm_num) e45
  have hfin : ∀ y ∈ Q45, ∃ a b : ℝ, y = (.fin a, .fin b) := fun y hy => by
    obtain ⟨a, b, e, -⟩ := wrist_pair u3 u4 u5 h34 h45 (hr03.transpose.mul h6) e45 hy
    exact ⟨a, b, e⟩
  have hap' : Q45'.Pairwise fun a b => ∃ x y x' y', a = [x, y] ∧ b = [x', y'] ∧ Spec.turnsApart x x' := by
    refine callV_pairwise ?_ c45 (R := fun a b => ∃ s t s' t' : ℝ, a = [.fin s, .fin t] ∧ b = [.fin s', .fin t'] ∧
      Spec.turnsApart (.fin s) (.fin s')) ?_ ?_
    · rintro a b ⟨x, y, x', y', rfl, rfl, h⟩
      exact ⟨x', y', x, y, rfl, rfl, h.symm⟩
    · rw [List.pairwise_map]
      refine hap.imp_of_mem fun {a b} ha hb hab => ?_
      obtain ⟨s, t, rfl⟩ := hfin a ha
      obtain ⟨s', t', rfl⟩ := hfin b hb
      exact ⟨s, t, s', t', rfl, rfl, hab⟩
    · rintro x - y - ⟨s, t, s', t', rfl, rfl, hst⟩ a b ha hb
      obtain ⟨q4, _, n4, ha', rfl⟩ := List.forall₂_cons_left_iff.1 ha
      obtain ⟨q5, _, -, ha'', rfl⟩ := List.forall₂_cons_left_iff.1 ha'
      cases ha''
      obtain ⟨q4', _, n4', hb', rfl⟩ := List.forall₂_cons_left_iff.1 hb
      obtain ⟨q5', _, -, hb'', rfl⟩ := List.forall₂_cons_left_iff.1 hb'
      cases hb''
      obtain ⟨i, rfl⟩ := normalize_shift n4
      obtain ⟨j, rfl⟩ := normalize_shift n4'
      exact ⟨_, _, _, _, rfl, rfl, hst.shift i j⟩
  refine forAppend_pairwise h hap' ?_ ?_
  · intro y _ s hs
    rcases y with _ | ⟨a, _ | ⟨b, _ | ⟨c, y⟩⟩⟩
    · cases hs
    · cases hs
    · exact pairwise_of_length_le_one (r6Last_form hs).1
    · cases hs
  · rintro _ - _ - ⟨x, y, x', y', rfl, rfl, hx⟩ s t hs ht a ha b hb
    obtain ⟨x6, rfl⟩ := (r6Last_form hs).2 a ha
    obtain ⟨x6', rfl⟩ := (r6Last_form ht).2 b hb
    exact ⟨3, x, x', rfl, rfl, hx⟩

/-- neither is the lateral position of the wrist centre `v` at an extreme of joint 1, nor the elbow folded, at the joint vector -/
def Spec.regularRow (h0 h2 P2 P3 v : V3 ℝ) (s : List XReal) : Prop :=
  ∃ q1 q3 : ℝ, s[0]? = some (.fin q1) ∧ s[2]? = some (.fin q3) ∧ V3.ey.dot (h0.cross ((rot h0 q1).transpose.mulVec v)) ≠ 0 ∧
    snap ≤ ((rot h2 q3).mulVec (Spec.dir P3 h2) + Spec.dir P2 h2).norm

theorem r6Search_differ {P4 P5 : V3 XReal} (u0 : IsUnit3 h0) (u1 : IsUnit3 h1) (u2 : IsUnit3 h2)
    (u3 : IsUnit3 h3) (u4 : IsUnit3 h4) (u5 : IsUnit3 h5) (h34 : h3.dot h4 = 0) (h45 : h4.dot h5 = 0) (h6 : IsRot R06)
    {sols : List (List XReal)}
    (h : r6Search [h0.up, h1.up, h2.up, h3.up, h4.up, h5.up] [P0.up, P1.up, P2.up, P3.up, P4, P5, P6.up] (upNormalizer r last)
      R06.up p0T.up = .ok sols) :
    sols.Pairwise fun a b => Spec.regularRow h0 h2 P2 P3 (p0T - R06.mulVec P6) a → Spec.regularRow h0 h2 P2 P3 (p0T - R06.mulVec P6) b →
      Spec.differ a b := by
  set v := p0T - R06.mulVec P6 with hv
  simp only [r6Search, V3.up_ey, V3.up_add, V3.up_dot, M3.up_mulVec, V3.up_sub, V3.up_neg] at h
  obtain ⟨Q1, c1, h⟩ := Except.bind_eq_ok h
  have un : IsUnit3 (-h0) := by
    have := u0; simp only [IsUnit3] at this ⊢; simpa using this
  have hlev : ∀ s : ℝ, V3.ey.dot ((-h0).cross ((rot (-h0) s).mulVec v)) = -V3.ey.dot (h0.cross ((rot h0 s).transpose.mulVec v)) := by
    intro s
    rw [rot_neg_axis, rot_neg, ← V3.dot_neg]
    congr 1
    ext <;> simp <;> ring
  set L : ℝ → ℝ := fun s => V3.ey.dot (h0.cross ((rot h0 s).transpose.mulVec v)) with hL
  have hLper : ∀ (s : ℝ) (n : ℤ), L (s + n * (2 * Real.pi)) = L s := by intro s n; simp only [hL, rot_periodic]
  have hap1 : Q1.Pairwise fun x y => ∀ s t : ℝ, x = .fin s → y = .fin t → L s ≠ 0 → L t ≠ 0 → Spec.turnsApart x y := by
    refine callS_pairwise ?_ c1 (subproblem4_apart V3.ey v un (V3.ey.dot (P1 + P2 + P3))) ?_
    · intro x y h s t hx hy h1 h2
      exact (h t s hy hx h2 h1).symm
    · intro x hx y hy hR a b na nb s t ha hb h1 h2
      subst ha; subst hb
      rcases subproblem4_mem hx with rfl | ⟨s0, rfl, -⟩
      · exact absurd (normalize_nan na) (by simp)
      rcases subproblem4_mem hy with rfl | ⟨t0, rfl, -⟩
      · exact absurd (normalize_nan nb) (by simp)
      obtain ⟨i, e1⟩ := normalize_shift na
      obtain ⟨j, e2⟩ := normalize_shift nb
      rw [e1, e2]
      cases e1; cases e2
      refine (hR s0 rfl ?_).shift i j
      rw [hlev]
      rw [hLper] at h1
      simpa using h1
  refine forAppend_pairwise h hap1 ?_ ?_
  · intro x1 m1 s1 hs1
    simp only [r6Shoulder] at hs1
    obtain ⟨Q3, e3, hs1⟩ := Except.bind_eq_ok hs1
    obtain ⟨Q3', c3, hs1⟩ := Except.bind_eq_ok hs1
    obtain ⟨θ1, mθ1, n1⟩ := callS_mem c1 m1
    rcases subproblem4_mem mθ1 with rfl | ⟨t1, rfl, -⟩
    · -- a NaN shoulder angle makes the elbow step raise
      have : s1 = [] := by
        rw [List.eq_nil_iff_forall_not_mem]
        intro t ht
        have := normalize_nan n1; subst this
        obtain ⟨x3, m3, sl3, hs1, hs⟩ := mem_forAppend hs1 ht
        simp only [r6Elbow] at hs1
        obtain ⟨q2r, e2, hs1⟩ := Except.bind_eq_ok hs1
        rw [subproblem1_nan _ _ _ (.inr (rot_nan_mulVec h0 _ _))] at e2
        cases e2
      rw [this]; exact .nil
    obtain ⟨i1, rfl⟩ := normalize_shift n1
    set q1 := t1 + i1 * (2 * Real.pi) with hq1
    simp only [rot_up, M3.up_transpose, M3.up_mulVec, V3.up_add, V3.up_sub, V3.up_norm] at hs1 e3
    have hr01 := rot_isRot h0 u0 q1
    have hfin : ∀ x ∈ Q3', ∃ q3 : ℝ, x = .fin q3 := by
      intro x hx
      obtain ⟨θ3, m3, n3⟩ := callS_mem c3 hx
      obtain ⟨t3, rfl⟩ := subproblem3_fin u2 (V3.norm_nonneg _) e3 m3
      obtain ⟨i3, rfl⟩ := normalize_shift n3
      exact ⟨_, rfl⟩
    have hap3 : Q3'.Pairwise fun x y => ∀ s t : ℝ, x = .fin s → y = .fin t →
        snap ≤ ((rot h2 s).mulVec (Spec.dir P3 h2) + Spec.dir P2 h2).norm →
        snap ≤ ((rot h2 t).mulVec (Spec.dir P3 h2) + Spec.dir P2 h2).norm → Spec.turnsApart x y := by
      refine callS_pairwise ?_ c3 (subproblem3_apart u2 (V3.norm_nonneg _) e3) ?_
      · intro x y h s t hx hy h1 h2
        exact (h t s hy hx h2 h1).symm
      · intro x hx y hy hR a b na nb s t ha hb h1 h2
        subst ha; subst hb
        obtain ⟨s0, rfl⟩ := subproblem3_fin u2 (V3.norm_nonneg _) e3 hx
        obtain ⟨t0, rfl⟩ := subproblem3_fin u2 (V3.norm_nonneg _) e3 hy
        obtain ⟨i, e1⟩ := normalize_shift na
        obtain ⟨j, e2⟩ := normalize_shift nb
        rw [e1, e2]
        cases e1; cases e2
        rw [rot_periodic] at h1
        exact (hR s0 rfl h1).shift i j
    refine forAppend_pairwise hs1 hap3 ?_ ?_
    · intro x3 m3 s3 hs3
      obtain ⟨q3, rfl⟩ := hfin x3 m3
      exact (r6Elbow_differ u1 u2 u3 u4 u5 h34 h45 h6 hr01 hs3).imp fun h _ _ => h
    · intro x _ y _ hR s t hs ht a ha b hb ra rb
      obtain ⟨_, _, _, _, rfl⟩ := r6Elbow_form hs a ha
      obtain ⟨_, _, _, _, rfl⟩ := r6Elbow_form ht b hb
      obtain ⟨-, q3, -, e3, -, f3⟩ := ra
      obtain ⟨-, q3', -, e3', -, f3'⟩ := rb
      cases e3; cases e3'
      exact ⟨2, _, _, rfl, rfl, hR _ _ rfl rfl f3 f3'⟩
  · intro x _ y _ hR s t hs ht a ha b hb ra rb
    have shape : ∀ (x : XReal) (s : List (List XReal)), r6Shoulder (upNormalizer r last) h0.up h1.up h2.up h3.up h4.up h5.up P0.up P1.up P2.up P3.up P6.up
        R06.up p0T.up x = .ok s → ∀ a ∈ s, a[0]? = some x := by
      intro x s hs a ha
      simp only [r6Shoulder] at hs
      obtain ⟨Q3, e3, hs⟩ := Except.bind_eq_ok hs
      obtain ⟨Q3', c3, hs⟩ := Except.bind_eq_ok hs
      obtain ⟨x3, -, sl, hs, ha⟩ := mem_forAppend hs ha
      obtain ⟨_, _, _, _, rfl⟩ := r6Elbow_form hs a ha
      rfl
    have ea := shape x s hs a ha
    have eb := shape y t ht b hb
    obtain ⟨q1, -, e1, -, f1, -⟩ := ra
    obtain ⟨q1', -, e1', -, f1', -⟩ := rb
    refine ⟨0, x, y, ea, eb, hR q1 q1' ?_ ?_ f1 f1'⟩
    · rw [ea] at e1; exact Option.some.inj e1
    · rw [eb] at e1'; exact Option.some.inj e1'
end

/-! ## The UR search -/

theorem urElbow_form {N : Normalizer XReal} {h1 h2 h4 h5 P2 P3 : V3 XReal} {R06 R01 R04 : M3 XReal} {v : V3 XReal} {x1 x24 x5 x3 : XReal}
    {s : List (List XReal)} (h : urElbow N h1 h2 h4 h5 P2 P3 R06 R01 R04 v x1 x24 x5 x3 = .ok s) :
    ∀ t ∈ s, ∃ x2 x4 x6, t = [x1, x2, x3, x4, x5, x6] := by
  intro t ht
  simp only [urElbow] at h
  obtain ⟨q2, -, h⟩ := Except.bind_eq_ok h
  obtain ⟨x, -, h⟩ := Except.bind_eq_ok h
  rcases x with _ | x
  · cases h; cases ht
  obtain ⟨x4, -, h⟩ := Except.bind_eq_ok h
  rcases x4 with _ | x4
  · cases h; cases ht
  obtain ⟨q6, -, h⟩ := Except.bind_eq_ok h
  obtain ⟨x6, -, h⟩ := Except.bind_eq_ok h
  rcases x6 with _ | x6
  · cases h; cases ht
  · cases h
    rw [List.mem_singleton] at ht
    exact ⟨_, _, _, ht⟩

section
variable {k P0 P1 P2 P3 P4 P5 P6 p0T : V3 ℝ} {R06 : M3 ℝ} {r : Robot ℝ} {last : Option (List ℝ)}

theorem urElbow_sum (s : k = V3.ey ∨ k = -V3.ey) (h6 : IsRot R06) {R01 : M3 ℝ} (hR01 : IsRot R01) {x1 : XReal}
    {q24 q5 q3 : ℝ} {v : V3 ℝ} {sols : List (List XReal)}
    (h : urElbow (upNormalizer r last) k.up k.up (-V3.ez : V3 ℝ).up k.up P2.up P3.up R06.up R01.up (R01 * rot k q24).up v.up x1
      (.fin q24) (.fin q5) (.fin q3) = .ok sols)
    {t : List XReal} (hs : t ∈ sols) :
    ∃ q2 q4 q6 : ℝ, t = [x1, .fin q2, .fin q3, .fin q4, .fin q5, .fin q6] ∧ ∃ n : ℤ, q2 + q3 + q4 = q24 + n * (2 * Real.pi) := by
  have h' := h
  simp only [urElbow, rot_up, M3.up_mul, M3.up_transpose, M3.up_mulVec, V3.up_add] at h'
  obtain ⟨q2r, e2, -⟩ := Except.bind_eq_ok h'
  obtain ⟨θ, rfl, -⟩ := subproblem1_close (pm_unit s) e2
  obtain ⟨q2, q4, q6, e, -, hsum, -⟩ := urElbow_sound s h6 hR01 (P2 := P2) (P3 := P3) (fun x hx => by
    rw [e2] at hx
    exact ⟨θ, (Except.ok.inj hx).symm, le_refl _⟩) h hs
  exact ⟨q2, q4, q6, e, hsum⟩

/-- joint vectors whose second to fourth joints add up to angles that are apart, differ -/
theorem differ_of_sum {x1 x1' x5 x5' x6 x6' : XReal} {q2 q3 q4 q2' q3' q4' : ℝ} {a b : ℝ} {n n' : ℤ}
    (h : Spec.turnsApart (.fin a) (.fin b)) (e : q2 + q3 + q4 = a + n * (2 * Real.pi)) (e' : q2' + q3' + q4' = b + n' * (2 * Real.pi)) :
    Spec.differ [x1, .fin q2, .fin q3, .fin q4, x5, x6] [x1', .fin q2', .fin q3', .fin q4', x5', x6'] := by
  by_cases h2 : Spec.turnsApart (.fin q2) (.fin q2')
  · exact ⟨1, _, _, rfl, rfl, h2⟩
  by_cases h3 : Spec.turnsApart (.fin q3) (.fin q3')
  · exact ⟨2, _, _, rfl, rfl, h3⟩
  refine ⟨3, _, _, rfl, rfl, _, _, rfl, rfl, fun n4 e4 => ?_⟩
  have hn : ∀ {s t : ℝ}, ¬ Spec.turnsApart (.fin s) (.fin t) → ∃ n : ℤ, t = s + n * (2 * Real.pi) := by
    intro s t hst
    by_contra hc
    push Not at hc
    exact hst ⟨s, t, rfl, rfl, hc⟩
  obtain ⟨n2, e2⟩ := hn h2
  obtain ⟨n3, e3⟩ := hn h3
  obtain ⟨a', b', ea, eb, h⟩ := h
  cases ea; cases eb
  refine h (n + n2 + n3 + n4 - n') ?_
  push_cast
  linarith

theorem urSearch_differ (s : k = V3.ey ∨ k = -V3.ey) (h6 : IsRot R06) {sols : List (List XReal)}
    (h : urSearch [V3.ez.up, k.up, k.up, k.up, (-V3.ez : V3 ℝ).up, k.up] [P0.up, P1.up, P2.up, P3.up, P4.up, P5.up, P6.up]
      (upNormalizer r last) R06.up p0T.up = .ok sols) :
    sols.Pairwise fun a b => Spec.regularRow V3.ez k P2 P3 (p0T - R06.mulVec (P6 + P5)) a →
      Spec.regularRow V3.ez k P2 P3 (p0T - R06.mulVec (P6 + P5)) b → Spec.differ a b := by
  have u := pm_unit s
  simp only [urSearch, V3.up_ey, V3.up_add, V3.up_dot, M3.up_mulVec, V3.up_sub, V3.up_neg] at h
  obtain ⟨Q1, c1, h⟩ := Except.bind_eq_ok h
  set v := p0T - R06.mulVec (P6 + P5) with hv
  have hlev : ∀ s : ℝ, V3.ey.dot ((-V3.ez : V3 ℝ).cross ((rot (-V3.ez) s).mulVec v)) =
      -V3.ey.dot (V3.ez.cross ((rot V3.ez s).transpose.mulVec v)) := by
    intro s
    rw [rot_neg_axis, rot_neg, ← V3.dot_neg]
    congr 1
    ext <;> simp
  set L : ℝ → ℝ := fun s => V3.ey.dot (V3.ez.cross ((rot V3.ez s).transpose.mulVec v)) with hL
  have hLper : ∀ (s : ℝ) (n : ℤ), L (s + n * (2 * Real.pi)) = L s := by intro s n; simp only [hL, rot_periodic]
  have hap1 : Q1.Pairwise fun x y => ∀ s t : ℝ, x = .fin s → y = .fin t → L s ≠ 0 → L t ≠ 0 → Spec.turnsApart x y := by
    refine callS_pairwise ?_ c1 (subproblem4_apart V3.ey v nez_unit (V3.ey.dot (P1 + P2 + P3 + P4))) ?_
    · intro x y h s t hx hy h1 h2
      exact (h t s hy hx h2 h1).symm
    · intro x hx y hy hR a b na nb s t ha hb h1 h2
      subst ha; subst hb
      rcases subproblem4_mem hx with rfl | ⟨s0, rfl, -⟩
      · exact absurd (normalize_nan na) (by simp)
      rcases subproblem4_mem hy with rfl | ⟨t0, rfl, -⟩
      · exact absurd (normalize_nan nb) (by simp)
      obtain ⟨i, e1⟩ := normalize_shift na
      obtain ⟨j, e2⟩ := normalize_shift nb
      rw [e1, e2]
      cases e1; cases e2
      refine (hR s0 rfl ?_).shift i j
      rw [hlev]
      rw [hLper] at h1
      simpa using h1
  refine forAppend_pairwise h hap1 ?_ ?_
  · intro x1 m1 s1 hs1
    simp only [urShoulder] at hs1
    obtain ⟨Q, e2, hs1⟩ := Except.bind_eq_ok hs1
    obtain ⟨θ1, mθ1, n1⟩ := callS_mem c1 m1
    rcases subproblem4_mem mθ1 with rfl | ⟨t1, rfl, -⟩
    · have : s1 = [] := by
        rw [List.eq_nil_iff_forall_not_mem]
        intro t ht
        have := normalize_nan n1; subst this
        obtain ⟨x, mx, sl, hs1, hs⟩ := mem_forAppend hs1 ht
        simp only [urWrist] at hs1
        obtain ⟨Q3, e3, hs1⟩ := Except.bind_eq_ok hs1
        obtain ⟨Q3', c3, hs1⟩ := Except.bind_eq_ok hs1
        obtain ⟨x3, m3, sl3, hs1, hs⟩ := mem_forAppend hs1 hs
        simp only [urElbow] at hs1
        obtain ⟨q2r, e2, hs1⟩ := Except.bind_eq_ok hs1
        rw [subproblem1_nan _ _ _ (.inr (rot_nan_mulVec' V3.ez _))] at e2
        cases e2
      rw [this]; exact .nil
    obtain ⟨i1, rfl⟩ := normalize_shift n1
    set q1 := t1 + i1 * (2 * Real.pi) with hq1
    have hr01 := rot_isRot V3.ez ez_unit q1
    simp only [rot_up, M3.up_transpose, M3.up_mul, M3.up_mulVec, V3.up_neg] at e2
    have hk4 : k.dot (-V3.ez : V3 ℝ) = 0 := by rcases s with rfl | rfl <;> simp [V3.dot]
    have h4k : (-V3.ez : V3 ℝ).dot k = 0 := by rcases s with rfl | rfl <;> simp [V3.dot]
    have hap2 := subproblem2_apart u nez_unit (by rw [(hr01.transpose.mul h6).dot_mulVec]) (by rw [hk4]; rw [npEps]; norm_num) e2
    have hfin : ∀ y ∈ Q, ∃ a b : ℝ, y = (.fin a, .fin b) := fun y hy => by
      obtain ⟨a, b, e, -⟩ := wrist_pair u nez_unit u hk4 h4k (hr01.transpose.mul h6) e2 hy
      exact ⟨a, b, e⟩
    refine forAppend_pairwise hs1 hap2 ?_ ?_
    · intro y my s2 hs2
      obtain ⟨q24, q5, rfl⟩ := hfin y my
      simp only [urWrist] at hs2
      obtain ⟨Q3, e3, hs2⟩ := Except.bind_eq_ok hs2
      obtain ⟨Q3', c3, hs2⟩ := Except.bind_eq_ok hs2
      simp only [rot_up, M3.up_transpose, M3.up_mul, M3.up_mulVec, V3.up_add, V3.up_sub, V3.up_neg, V3.up_norm] at e3
      have hap3 : Q3'.Pairwise fun x y => ∀ s t : ℝ, x = .fin s → y = .fin t →
          snap ≤ ((rot k s).mulVec (Spec.dir P3 k) + Spec.dir P2 k).norm →
          snap ≤ ((rot k t).mulVec (Spec.dir P3 k) + Spec.dir P2 k).norm → Spec.turnsApart x y := by
        refine callS_pairwise ?_ c3 (subproblem3_apart u (V3.norm_nonneg _) e3) ?_
        · intro x y h s t hx hy h1 h2
          exact (h t s hy hx h2 h1).symm
        · intro x hx y hy hR a b na nb s t ha hb h1 h2
          subst ha; subst hb
          obtain ⟨s0, rfl⟩ := subproblem3_fin u (V3.norm_nonneg _) e3 hx
          obtain ⟨t0, rfl⟩ := subproblem3_fin u (V3.norm_nonneg _) e3 hy
          obtain ⟨i, e1⟩ := normalize_shift na
          obtain ⟨j, e2⟩ := normalize_shift nb
          rw [e1, e2]
          cases e1; cases e2
          rw [rot_periodic] at h1
          exact (hR s0 rfl h1).shift i j
      refine forAppend_pairwise hs2 hap3 ?_ ?_
      · intro x3 _ s3 hs3
        exact pairwise_of_length_le_one (urElbow_rows hs3).1
      · intro x _ y _ hR s t hs ht a ha b hb ra rb
        obtain ⟨_, _, _, rfl⟩ := urElbow_form hs a ha
        obtain ⟨_, _, _, rfl⟩ := urElbow_form ht b hb
        obtain ⟨-, q3, -, e3, -, f3⟩ := ra
        obtain ⟨-, q3', -, e3', -, f3'⟩ := rb
        cases e3; cases e3'
        exact ⟨2, _, _, rfl, rfl, hR _ _ rfl rfl f3 f3'⟩
    · intro x mx y my hR s1 s2 hs1 hs2 a ha b hb _ _
      obtain ⟨q24, q5, rfl⟩ := hfin x mx
      obtain ⟨q24', q5', rfl⟩ := hfin y my
      have sum : ∀ (q24 q5 : ℝ) (sl : List (List XReal)), urWrist (upNormalizer r last) V3.ez.up k.up k.up k.up (-V3.ez : V3 ℝ).up k.up
          P0.up P1.up P2.up P3.up P4.up R06.up v.up (.fin q1) (.fin q24) (.fin q5) = .ok sl → ∀ t ∈ sl, ∃ q2 q3 q4 q6 : ℝ,
          t = [.fin q1, .fin q2, .fin q3, .fin q4, .fin q5, .fin q6] ∧ ∃ n : ℤ, q2 + q3 + q4 = q24 + n * (2 * Real.pi) := by
        intro q24 q5 sl hsl t ht
        simp only [urWrist] at hsl
        obtain ⟨Q3, e3, hsl⟩ := Except.bind_eq_ok hsl
        obtain ⟨Q3', c3, hsl⟩ := Except.bind_eq_ok hsl
        simp only [rot_up, M3.up_transpose, M3.up_mul, M3.up_mulVec, V3.up_add, V3.up_sub, V3.up_neg, V3.up_norm] at e3 hsl
        obtain ⟨x3, m3, sl3, hs3, ht⟩ := mem_forAppend hsl ht
        obtain ⟨θ3, m3', n3⟩ := callS_mem c3 m3
        obtain ⟨t3, rfl⟩ := subproblem3_fin u (V3.norm_nonneg _) e3 m3'
        obtain ⟨i3, rfl⟩ := normalize_shift n3
        obtain ⟨q2, q4, q6, e, hsum⟩ := urElbow_sum s h6 hr01 hs3 ht
        exact ⟨q2, _, q4, q6, e, hsum⟩
      obtain ⟨q2, q3, q4, q6, rfl, n, e⟩ := sum q24 q5 s1 hs1 a ha
      obtain ⟨q2', q3', q4', q6', rfl, n', e'⟩ := sum q24' q5' s2 hs2 b hb
      exact differ_of_sum hR e e'
  · intro x _ y _ hR s t hs ht a ha b hb ra rb
    have shape : ∀ (x : XReal) (s : List (List XReal)), urShoulder (upNormalizer r last) V3.ez.up k.up k.up k.up (-V3.ez : V3 ℝ).up k.up
        P0.up P1.up P2.up P3.up P4.up R06.up v.up x = .ok s → ∀ a ∈ s, a[0]? = some x := by
      intro x s hs a ha
      simp only [urShoulder] at hs
      obtain ⟨Q, e2, hs⟩ := Except.bind_eq_ok hs
      obtain ⟨y, -, sl, hs, ha⟩ := mem_forAppend hs ha
      simp only [urWrist] at hs
      obtain ⟨Q3, e3, hs⟩ := Except.bind_eq_ok hs
      obtain ⟨Q3', c3, hs⟩ := Except.bind_eq_ok hs
      obtain ⟨x3, -, sl, hs, ha⟩ := mem_forAppend hs ha
      obtain ⟨_, _, _, rfl⟩ := urElbow_form hs a ha
      rfl
    have ea := shape x s hs a ha
    have eb := shape y t ht b hb
    obtain ⟨q1, -, e1, -, f1, -⟩ := ra
    obtain ⟨q1', -, e1', -, f1', -⟩ := rb
    refine ⟨0, x, y, ea, eb, hR q1 q1' ?_ ?_ f1 f1'⟩
    · rw [ea] at e1; exact Option.some.inj e1
    · rw [eb] at e1'; exact Option.some.inj e1'
end
