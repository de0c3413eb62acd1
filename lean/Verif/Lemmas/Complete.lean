import Verif.Lemmas.Robot6

/-! # Completeness of the searches of the inverse kinematics -/
set_option autoImplicit false

/-! ## Exact solutions of the subproblems -/

/-- The rotation by `q` about `k` either is the identity or moves the point `p` by at least the coincidence tolerance of
`subproblem1`. -/
def Spec.clear (k p : V3 ℝ) (q : ℝ) : Prop :=
  (∃ n : ℤ, q = n * (2 * Real.pi)) ∨ snap ≤ (p - (rot k q).mulVec p).norm

theorem V3.norm_sub_self (p : V3 ℝ) : (p - p).norm = 0 := by
  simp [V3.norm_eq, V3.dot]

theorem V3.abs_x_le (v : V3 ℝ) : |v.x| ≤ v.norm := by
  rw [V3.norm_eq]; apply Real.abs_le_sqrt; simp only [V3.dot]; nlinarith [sq_nonneg v.y, sq_nonneg v.z]

theorem V3.abs_y_le (v : V3 ℝ) : |v.y| ≤ v.norm := by
  rw [V3.norm_eq]; apply Real.abs_le_sqrt; simp only [V3.dot]; nlinarith [sq_nonneg v.x, sq_nonneg v.z]

theorem rot_turns (k : V3 ℝ) (n : ℤ) : rot k (n * (2 * Real.pi)) = 1 := by
  rw [← zero_add ((n : ℝ) * (2 * Real.pi)), rot_periodic, rot_zero]

/-- `subproblem1` finds the angle of a clear rotation -/
theorem subproblem1_exact {p k : V3 ℝ} {q : ℝ} (hk : IsUnit3 k) (h : Spec.clear k p q) :
    ∃ t : ℝ, subproblem1 p.up ((rot k q).mulVec p).up k.up = .ok (.fin t) ∧ |t| ≤ Real.pi ∧ ∃ n : ℤ, t = q + n * (2 * Real.pi) := by
  have hs := snap_pos
  obtain ⟨n, rfl⟩ | h := h
  · rw [rot_turns, M3.one_mulVec]
    refine ⟨0, subproblem1_snap _ ?_, by simpa using Real.pi_pos.le, -n, by push_cast; ring⟩
    rw [V3.norm_sub_self]; exact hs
  · have hp : p.perp k ≠ 0 := by
      intro e
      have : (rot k q).mulVec p = p := by
        have h2 := V3.perp_add p k
        rw [e] at h2
        have h3 : p = (p.dot k) • k := h2.trans (by ext <;> simp)
        rw [h3, rot_hsmul_axis]
      rw [this, V3.norm_sub_self] at h
      linarith
    have hq : ((rot k q).mulVec p).perp k ≠ 0 := by
      rw [rot_perp_eq hk]
      intro e
      apply hp
      rw [← (rot_isRot k hk q).transpose_mulVec_mulVec (p.perp k), e]
      ext <;> simp
    obtain ⟨r, hr⟩ := subproblem1_ok hk hp hq
    obtain ⟨e1, e2⟩ := rot_invariants (p := p) hk (φ := q) rfl
    obtain ⟨t, rfl, b1, b2, -, b4, -⟩ := subproblem1_sound hk e1 e2 hr
    obtain ⟨x1, x2⟩ := rot_inj hk hp (b4 h)
    obtain ⟨n, hn⟩ := angle_eq_of_sin_cos x1 x2
    exact ⟨t, hr, abs_le.2 ⟨b1.le, b2⟩, n, hn⟩

theorem subproblem4_bound {p q k : V3 ℝ} {d : ℝ} (ha : 0 < Spec.sp4amp p q k) (hr : |d - Spec.sp4mid p q k| ≤ Spec.sp4amp p q k)
    {t : ℝ} (ht : .fin t ∈ subproblem4 p.up q.up k.up (.fin d)) : |t| ≤ 5 / 2 * Real.pi := by
  obtain ⟨b1, b2⟩ := abs_le.1 hr
  set x := (d - Spec.sp4mid p q k) / Spec.sp4amp p q k with hx
  have x1 : x ≤ 1 := by rw [hx, div_le_one ha]; exact b2
  have x2 : -1 ≤ x := by rw [hx, le_div_iff₀ ha]; linarith
  rw [subproblem4_up] at ht
  set φ := Complex.arg ⟨p.dot (k.cross q), -p.dot (k.cross (k.cross q))⟩ with hφ
  have c1 := Complex.neg_pi_lt_arg ⟨p.dot (k.cross q), -p.dot (k.cross (k.cross q))⟩
  have c2 := Complex.arg_le_pi ⟨p.dot (k.cross q), -p.dot (k.cross (k.cross q))⟩
  rw [← hφ] at c1 c2
  simp only [XReal.fin_div _ ha.ne', ← hx] at ht
  rw [if_neg (by simpa using x1), XReal.arcsin_fin x2 x1] at ht
  have c3 := Real.arcsin_mem_Icc x
  simp only [XReal.fin_add, XReal.fin_sub, List.mem_cons, XReal.fin.injEq, List.not_mem_nil, or_false] at ht
  have := Real.pi_pos
  obtain ⟨c3, c4⟩ := c3
  rw [abs_le]
  rcases ht with rfl | rfl <;> constructor <;> linarith

/-- the same without conditions -/
theorem subproblem4_bound' {p q k : V3 ℝ} {d t : ℝ} (h : .fin t ∈ subproblem4 p.up q.up k.up (.fin d)) : |t| ≤ 5 / 2 * Real.pi := by
  by_cases h1 : Spec.sp4amp p q k < d - Spec.sp4mid p q k
  · rw [(C26_subproblem4_above p q k d h1).1] at h; cases h
  by_cases h2 : d - Spec.sp4mid p q k < -Spec.sp4amp p q k
  · rw [(C26_subproblem4_below_nan p q k d h2).1] at h
    simp at h
  rcases (show 0 ≤ Spec.sp4amp p q k from Real.sqrt_nonneg _).eq_or_lt with h3 | h3
  · rw [(C26_subproblem4_degenerate_nan p q k d h3.symm (by linarith)).1] at h
    simp at h
  · exact subproblem4_bound h3 (abs_le.2 ⟨by linarith, by linarith⟩) h

theorem subproblem3_bound {p q k : V3 ℝ} {d : ℝ} (hk : IsUnit3 k) (hp : k.cross p ≠ 0) (hq : k.cross q ≠ 0) {l : List XReal}
    (h : subproblem3 p.up q.up k.up (.fin d) = .ok l) {t : ℝ} (ht : .fin t ∈ l) : |t| ≤ 2 * Real.pi := by
  have hp' := perp_ne hp
  have hq' := perp_ne hq
  have hpi := Real.pi_pos
  rw [subproblem3_up hp' hq'] at h
  simp only at h
  have a1 : (Spec.dir p k).dot (Spec.dir p k) = (Spec.dir q k).dot (Spec.dir q k) := by
    rw [(dir_unit hp').dot, (dir_unit hq').dot]
  have a2 : (Spec.dir p k).dot k = (Spec.dir q k).dot k := by rw [V3.dot_comm, dir_perp hk, V3.dot_comm, dir_perp hk]
  generalize -((p.perp k).dot (p.perp k) + (q.perp k).dot (q.perp k) - (d * d - k.dot (p + q) * k.dot (p + q))) /
    (2 * (p.perp k).norm * (q.perp k).norm) = b at h
  have c1 := Real.arccos_nonneg b
  have c2 := Real.arccos_le_pi b
  rw [abs_le]
  split_ifs at h
  · cases h; cases ht
  · obtain ⟨r, hr, h⟩ := Except.bind_eq_ok h
    obtain ⟨θ, rfl, b1, b2, -⟩ := subproblem1_sound hk a1 a2 hr
    cases h
    simp only [XReal.fin_add, XReal.fin_sub, List.mem_cons, XReal.fin.injEq, List.not_mem_nil, or_false] at ht
    rcases ht with rfl | rfl <;> constructor <;> linarith
  · obtain ⟨r, hr, h⟩ := Except.bind_eq_ok h
    obtain ⟨θ, rfl, b1, b2, -⟩ := subproblem1_sound hk a1 a2 hr
    cases h
    simp only [List.mem_cons, XReal.fin.injEq, List.not_mem_nil, or_false] at ht
    subst ht
    constructor <;> linarith

/-! ## The normalizer -/

/-- `q` is not pruned: there is no last joint value, or it is less than a quarter turn from `q`, and then the angles of interest are
exactly `q` -/
def NoPrune (N : Normalizer XReal) (j : Nat) (q : ℝ) (Z : ℤ → Prop) : Prop :=
  N.last = none ∨ ∃ (xs : List XReal) (x : ℝ), N.last = some xs ∧ xs[j]? = some (.fin x) ∧ |q - x| < Real.pi / 2 ∧ ∀ n, Z n → n = 0

/-- whatever representative of the angle `q` is found, joint `j` keeps it, up to a number of turns allowed by `Z` -/
structure Keeps (N : Normalizer XReal) (j : Nat) (q : ℝ) (Z : ℤ → Prop) : Prop where
  norm : ∀ t : ℝ, |t| ≤ 5 / 2 * Real.pi → (∃ n : ℤ, t = q + n * (2 * Real.pi)) →
    ∃ n : ℤ, Z n ∧ N.normalize j (.fin t) = .ok (some (.fin (q + n * (2 * Real.pi))))
  prune : NoPrune N j q Z

/-- The value `q` is strictly between the limits of joint `j`, and these are either no more than three quarters of a turn away from
zero or cover a full turn around zero. -/
def Spec.withinLimits (r : Robot ℝ) (j : Nat) (q : ℝ) : Prop :=
  ∀ lo up, r.lower = some lo → r.upper = some up → ∃ l u, lo[j]? = some l ∧ up[j]? = some u ∧ l < q ∧ q < u ∧
    (-(3 / 2 * Real.pi) ≤ l ∧ u ≤ 3 / 2 * Real.pi ∨ l < -Real.pi ∧ Real.pi < u)

/-- within one turn of any representative of `q` there is one inside the limits -/
theorem Spec.withinLimits.one_turn {r : Robot ℝ} {j : Nat} {q : ℝ} (h : Spec.withinLimits r j q) {n : ℤ}
    (ht : |q + n * (2 * Real.pi)| ≤ 5 / 2 * Real.pi) {lo up : List ℝ} (hlo : r.lower = some lo) (hup : r.upper = some up) :
    ∃ l u, lo[j]? = some l ∧ up[j]? = some u ∧
      ∃ m : ℤ, |m| ≤ 1 ∧ l < q + n * (2 * Real.pi) + m * (2 * Real.pi) ∧ q + n * (2 * Real.pi) + m * (2 * Real.pi) < u := by
  have hpi := Real.pi_pos
  obtain ⟨l, u, h1, h2, h3, h4, h5⟩ := h lo up hlo hup
  refine ⟨l, u, h1, h2, ?_⟩
  rw [abs_le] at ht
  rcases h5 with ⟨h5, h6⟩ | ⟨h5, h6⟩
  · have n1 : (n : ℝ) < 2 := by nlinarith
    have n2 : (-2 : ℝ) < n := by nlinarith
    have n1' : n < 2 := by exact_mod_cast n1
    have n2' : -2 < n := by exact_mod_cast n2
    refine ⟨-n, by rw [abs_neg, abs_le]; omega, ?_, ?_⟩ <;> push_cast <;> linarith
  · set x := q + n * (2 * Real.pi) with hx
    by_cases c1 : Real.pi < x
    · refine ⟨-1, by simp, ?_, ?_⟩ <;> push_cast <;> linarith
    by_cases c2 : x < -Real.pi
    · refine ⟨1, by simp, ?_, ?_⟩ <;> push_cast <;> linarith
    refine ⟨0, by simp, ?_, ?_⟩ <;> push_cast <;> linarith

theorem keeps_of_within {r : Robot ℝ} {j : Nat} {q : ℝ} (h : Spec.withinLimits r j q) :
    Keeps (upNormalizer r none) j q fun _ => True := by
  refine ⟨?_, .inl rfl⟩
  rintro t ht ⟨n, rfl⟩
  by_cases hlim : ∃ lo up, r.lower = some lo ∧ r.upper = some up
  · obtain ⟨lo, up, hlo, hup⟩ := hlim
    obtain ⟨l, u, h1, h2, m, m1, m2, m3⟩ := h.one_turn ht hlo hup
    have hL : (upNormalizer r none).limits = some (lo.map .fin, up.map .fin) := by
      simp [upNormalizer, Normalizer.ofRobot, Robot.up, hlo, hup]
    have g1 : getI (lo.map XReal.fin) j = .ok (.fin l) := getI_some (by simp [h1])
    have g2 : getI (up.map XReal.fin) j = .ok (.fin u) := getI_some (by simp [h2])
    rcases normLimits_eval (.fin l) (.fin u) (q + n * (2 * Real.pi)) with ⟨k, e1, -⟩ | ⟨-, e2⟩
    · refine ⟨n + k, trivial, ?_⟩
      simp only [Normalizer.normalize, hL, g1, g2, Except.bind_ok, Except.pure_eq, e1]
      show Except.ok _ = _
      congr 3
      push_cast; ring
    · exact absurd ⟨(XReal.fin_lt _ _).2 m2, (XReal.fin_lt _ _).2 m3⟩ (e2 m m1)
  · refine ⟨n, trivial, ?_⟩
    have hL : (upNormalizer r none).limits = none := by
      simp only [upNormalizer, Normalizer.ofRobot, Robot.up]
      rcases hlo : r.lower with _ | lo
      · rfl
      · rcases hup : r.upper with _ | up
        · rfl
        · exact absurd ⟨lo, up, hlo, hup⟩ hlim
    simp only [Normalizer.normalize, hL, Except.bind_ok, Except.pure_eq]
    rfl

/-- `normLimits` moves by at most one turn -/
theorem normLimits_near {l u θ : ℝ} {t : XReal} (h : normLimits (.fin l) (.fin u) (.fin θ) = some t) :
    ∃ m : ℤ, |m| ≤ 1 ∧ l < θ + m * (2 * Real.pi) ∧ θ + m * (2 * Real.pi) < u := by
  rcases normLimits_eval (.fin l) (.fin u) θ with ⟨k, -, -⟩ | ⟨e1, -⟩
  · by_contra hc
    push Not at hc
    have a1 : (((-1 : ℚ)) : ℝ) = -1 := by norm_num
    have a2 : (((1 : ℚ)) : ℝ) = 1 := by norm_num
    have h0 := hc 0 (by simp)
    have h1 := hc 1 (by simp)
    have h2 := hc (-1) (by simp)
    push_cast at h0 h1 h2
    simp only [normLimits, twoPi_fin, XReal.lit_fin, a1, a2, XReal.fin_mul, XReal.fin_add, XReal.fin_lt] at h
    split_ifs at h with c1 c2 c3
    · have := h0 (by linarith [c1.1]); linarith [c1.2]
    · have := h2 (by linarith [c2.1]); linarith [c2.2]
    · have := h1 (by linarith [c3.1]); linarith [c3.2]
  · rw [e1] at h; cases h

/-- With a last joint value less than half a turn from `q`, and `q` inside the limits, a representative of `q` that is within one turn of
the limits becomes `q`. -/
theorem normalize_to_last {r : Robot ℝ} {xs : List ℝ} {j : Nat} {q x t : ℝ} (hx : xs[j]? = some x) (hq : |q - x| < Real.pi) (hn : ∃ n : ℤ, t = q + n * (2 * Real.pi))
    (hl : ∀ lo up, r.lower = some lo → r.upper = some up → ∃ l u, lo[j]? = some l ∧ up[j]? = some u ∧ l < q ∧ q < u ∧
      ∃ m : ℤ, |m| ≤ 1 ∧ l < t + m * (2 * Real.pi) ∧ t + m * (2 * Real.pi) < u) :
    (upNormalizer r (some xs)).normalize j (.fin t) = .ok (some (.fin q)) := by
  obtain ⟨n, rfl⟩ := hn
  have lims : ∀ lo up, r.up.lower = some lo → r.up.upper = some up → ∃ lo' up', r.lower = some lo' ∧ r.upper = some up' ∧
      lo = lo'.map .fin ∧ up = up'.map .fin := by
    intro lo up h1 h2
    have h1 : r.lower.map (·.map XReal.fin) = some lo := h1
    have h2 : r.upper.map (·.map XReal.fin) = some up := h2
    rw [Option.map_eq_some_iff] at h1 h2
    obtain ⟨lo, h1', rfl⟩ := h1
    obtain ⟨up, h2', rfl⟩ := h2
    exact ⟨lo, up, h1', h2', rfl, rfl⟩
  have inl : ∀ x : ℝ, (∀ lo up, r.lower = some lo → r.upper = some up → ∃ l u, lo[j]? = some l ∧ up[j]? = some u ∧ l < x ∧ x < u) →
      Spec.inLimits r.up false j (.fin x) := by
    intro x hx _ lo up h1 h2 l u h3 h4
    obtain ⟨lo, up, g1, g2, rfl, rfl⟩ := lims _ _ h1 h2
    obtain ⟨l', u', h5, h6, h7, h8⟩ := hx lo up g1 g2
    rw [List.getElem?_map, h5] at h3
    rw [List.getElem?_map, h6] at h4
    cases h3; cases h4
    exact ⟨(XReal.fin_lt _ _).2 h7, (XReal.fin_lt _ _).2 h8⟩
  obtain ⟨res, e, hs, hnone⟩ := C27_normalize_partial r.up (some (xs.map .fin)) false j (q + n * (2 * Real.pi)) (by
    intro lo up h1 h2
    obtain ⟨lo, up, g1, g2, rfl, rfl⟩ := lims _ _ h1 h2
    obtain ⟨l', u', h5, h6, -⟩ := hl lo up g1 g2
    rw [List.length_map, List.length_map]
    exact ⟨(List.getElem?_eq_some_iff.1 h5).1, (List.getElem?_eq_some_iff.1 h6).1⟩)
    (by rintro ys ⟨⟩; exact ⟨x, by simp [hx]⟩)
  have e : (upNormalizer r (some xs)).normalize j (.fin (q + n * (2 * Real.pi))) = .ok res := e
  rw [e]
  rcases res with _ | t
  · exfalso
    by_cases hlim : ∃ lo up, r.lower = some lo ∧ r.upper = some up
    · obtain ⟨lo, up, h1, h2⟩ := hlim
      obtain ⟨l, u, h3, h4, -, -, m, m1, m2, m3⟩ := hl lo up h1 h2
      refine hnone rfl m m1 (inl _ fun lo' up' h1' h2' => ?_)
      rw [h1] at h1'; rw [h2] at h2'; cases h1'; cases h2'
      exact ⟨l, u, h3, h4, m2, m3⟩
    · exact hnone rfl 0 (by simp) (inl _ fun lo' up' h1' h2' => absurd ⟨lo', up', h1', h2'⟩ hlim)
  · obtain ⟨k, rfl, -, hmin⟩ := hs t rfl
    have h0 := hmin _ rfl x (by simp [hx]) (-n) (inl _ fun lo up h1 h2 => by
      obtain ⟨l, u, h3, h4, h5, h6, -⟩ := hl lo up h1 h2
      refine ⟨l, u, h3, h4, ?_, ?_⟩ <;> push_cast <;> linarith)
    have e2 : x - (q + n * (2 * Real.pi) + ((-n : ℤ) : ℝ) * (2 * Real.pi)) = -(q - x) := by push_cast; ring
    rw [e2, abs_neg] at h0
    have hpi := Real.pi_pos
    have h1 := lt_of_le_of_lt h0 hq
    rw [abs_lt] at h1 hq
    have e3 : ((n + k : ℤ) : ℝ) * (2 * Real.pi) = n * (2 * Real.pi) + k * (2 * Real.pi) := by push_cast; ring
    have b1 : ((n + k : ℤ) : ℝ) < 1 := by nlinarith
    have b2 : (-1 : ℝ) < ((n + k : ℤ) : ℝ) := by nlinarith
    have b1' : n + k < 1 := by exact_mod_cast b1
    have b2' : -1 < n + k := by exact_mod_cast b2
    have b3 : n + k = 0 := by omega
    rw [b3, Int.cast_zero, zero_mul] at e3
    congr 3
    linarith

theorem keeps_near {r : Robot ℝ} {j : Nat} {q x : ℝ} {xs : List ℝ} (hx : xs[j]? = some x) (hq : |q - x| < Real.pi / 2)
    (h : Spec.withinLimits r j q) : Keeps (upNormalizer r (some xs)) j q (· = 0) := by
  refine ⟨?_, .inr ⟨xs.map .fin, x, rfl, by simp [hx], hq, fun _ h => h⟩⟩
  rintro t ht ⟨n, rfl⟩
  refine ⟨0, rfl, ?_⟩
  rw [normalize_to_last hx (by have := Real.pi_pos; linarith) ⟨n, rfl⟩ fun lo up hlo hup => ?_]
  · simp
  · obtain ⟨l, u, h1, h2, h3, h4, -⟩ := h lo up hlo hup
    obtain ⟨l', u', h1', h2', m⟩ := h.one_turn ht hlo hup
    rw [h1] at h1'; rw [h2] at h2'; cases h1'; cases h2'
    exact ⟨l, u, h1, h2, h3, h4, m⟩

theorem keeps_last {r : Robot ℝ} {j : Nat} {q : ℝ} {xs : List ℝ} (hx : xs[j]? = some q) (h : Spec.withinLimits r j q) :
    Keeps (upNormalizer r (some xs)) j q (· = 0) :=
  keeps_near hx (by rw [sub_self, abs_zero]; have := Real.pi_pos; linarith) h

theorem pruneSort_mem {β : Type} {l : List (β × XReal × Bool)} {b : β} {d : XReal} (h : (b, d, true) ∈ l) : b ∈ pruneSort l := by
  unfold pruneSort
  have hm : b ∈ (l.filter fun x => x.2.2).map fun x => x.1 := List.mem_map.2 ⟨_, List.mem_filter.2 ⟨h, rfl⟩, rfl⟩
  dsimp only
  split_ifs with h1
  · exact hm
  · rw [(argsortBy_perm _).mem_iff, List.map_map]
    exact List.mem_map.2 ⟨_, h, rfl⟩

theorem near_quarter {x : ℝ} (h : |x| < Real.pi / 2) : (Elem.abs (XReal.fin x) : XReal) < Elem.pi / lit 2 := by
  have := Real.pi_pos
  simpa [XReal.fin_div] using h

theorem callS_member {N : Normalizer XReal} {j : Nat} {q : ℝ} {Z : ℤ → Prop} (hp : NoPrune N j q Z) {l l' : List XReal}
    (h : N.callS j l = .ok l') {t : XReal} (ht : t ∈ l) {n : ℤ} (hz : Z n)
    (e : N.normalize j t = .ok (some (.fin (q + n * (2 * Real.pi))))) : .fin (q + n * (2 * Real.pi)) ∈ l' := by
  rcases hp with hp | ⟨xs, x, hp, hx, hx2, hq⟩
  · obtain ⟨ts, h1, rfl⟩ := C28_call_no_last _ hp _ _ _ h
    obtain ⟨b, hb, e'⟩ := Forall₂.exists_right h1 ht
    rw [e] at e'
    cases e'
    exact List.mem_filterMap.2 ⟨_, hb, rfl⟩
  · obtain ⟨ts, h1, h2⟩ := Except.bind_eq_ok h
    obtain ⟨b, hb, e'⟩ := Forall₂.exists_right (forall₂_of_mapM h1) ht
    rw [e] at e'
    cases e'
    have hm : XReal.fin (q + n * (2 * Real.pi)) ∈ ts.filterMap id := List.mem_filterMap.2 ⟨_, hb, rfl⟩
    rw [hp] at h2
    simp only [getI_some hx, Except.bind_ok, Except.pure_eq] at h2
    split_ifs at h2 with hlen
    · cases h2; exact hm
    · cases h2
      refine pruneSort_mem (d := Elem.abs (XReal.fin (q + n * (2 * Real.pi)) - .fin x)) (List.mem_map.2 ⟨_, hm, ?_⟩)
      rw [hq n hz]
      simpa using near_quarter hx2

theorem callS_keeps {N : Normalizer XReal} {j : Nat} {q t : ℝ} {Z : ℤ → Prop} (hk : Keeps N j q Z) {l l' : List XReal}
    (h : N.callS j l = .ok l') (ht : .fin t ∈ l) (hb : |t| ≤ 5 / 2 * Real.pi)
    (hn : ∃ n : ℤ, t = q + n * (2 * Real.pi)) : ∃ n : ℤ, Z n ∧ .fin (q + n * (2 * Real.pi)) ∈ l' := by
  obtain ⟨n, hz, e⟩ := hk.norm t hb hn
  exact ⟨n, hz, callS_member hk.prune h ht hz e⟩

theorem one_keeps {N : Normalizer XReal} {j : Nat} {q t : ℝ} {Z : ℤ → Prop} (hk : Keeps N j q Z) (hb : |t| ≤ 5 / 2 * Real.pi)
    (hn : ∃ n : ℤ, t = q + n * (2 * Real.pi)) :
    ∃ n : ℤ, Z n ∧ N.one j (.fin t) = .ok (some (.fin (q + n * (2 * Real.pi)))) := by
  obtain ⟨n, hz, e⟩ := hk.norm t hb hn
  exact ⟨n, hz, by rw [one_eq, e]⟩

theorem callV_keeps {N : Normalizer XReal} {i j : Nat} {q q' t t' : ℝ} {Z : ℤ → Prop} (hk : Keeps N i q Z)
    (hk' : Keeps N j q' Z) {l l' : List (List XReal)}
    (h : N.callV [i, j] l = .ok l') (ht : [.fin t, .fin t'] ∈ l) (hb : |t| ≤ 5 / 2 * Real.pi)
    (hn : ∃ n : ℤ, t = q + n * (2 * Real.pi)) (hb' : |t'| ≤ 5 / 2 * Real.pi) (hn' : ∃ n : ℤ, t' = q' + n * (2 * Real.pi)) :
    ∃ n m : ℤ, Z n ∧ Z m ∧ [.fin (q + n * (2 * Real.pi)), .fin (q' + m * (2 * Real.pi))] ∈ l' := by
  obtain ⟨n, hz, e⟩ := hk.norm t hb hn
  obtain ⟨m, hz', e'⟩ := hk'.norm t' hb' hn'
  obtain ⟨ts, h1, h2⟩ := Except.bind_eq_ok h
  obtain ⟨b, hb, e3⟩ := Forall₂.exists_right (forall₂_of_mapM h1) ht
  simp only [List.zip_cons_cons, List.zip_nil_left, mapM_cons', mapM_nil', e, e', Except.bind_ok, Except.pure_eq] at e3
  have hm : [XReal.fin (q + n * (2 * Real.pi)), .fin (q' + m * (2 * Real.pi))] ∈ ts.filterMap id :=
    List.mem_filterMap.2 ⟨_, hb, by simpa using e3.symm⟩
  refine ⟨n, m, hz, hz', ?_⟩
  rcases hk.prune with hp | ⟨xs, x, hp, hx, hx2, hq⟩
  · rw [hp] at h2
    cases h2
    exact hm
  · rcases hk'.prune with hp' | ⟨xs', x', hp', hx', hx2', hq'⟩
    · rw [hp] at hp'; cases hp'
    · rw [hp] at hp'; cases hp'
      rw [hp] at h2
      simp only [mapM_cons', mapM_nil', getI_some hx, getI_some hx', Except.bind_ok, Except.pure_eq] at h2
      split_ifs at h2 with hlen
      · cases h2; exact hm
      · cases h2
        refine pruneSort_mem (d := listNorm [XReal.fin (q - x), .fin (q' - x')]) (List.mem_map.2 ⟨_, hm, ?_⟩)
        rw [hq n hz, hq' m hz']
        simpa using ⟨near_quarter hx2, near_quarter hx2'⟩

/-! ## The wrist pair -/

/-- the pair of wrist angles is found exactly -/
theorem subproblem2_exact {h3 h4 h5 : V3 ℝ} {q4 q5 : ℝ} (u3 : IsUnit3 h3) (u4 : IsUnit3 h4) (u5 : IsUnit3 h5) (h34 : h3.dot h4 = 0)
    (h45 : h4.dot h5 = 0) (hw : npEps ≤ 1 - h3.dot ((rot h4 q5).mulVec h5) ^ 2)
    (c4 : Spec.clear h3 ((rot h4 q5).mulVec h5) q4) (c5 : Spec.clear h4 h5 q5) {Q : List (XReal × XReal)}
    (h : subproblem2 h5.up ((rot h3 q4 * rot h4 q5).mulVec h5).up h3.up h4.up = .ok Q) :
    ∃ t4 t5 : ℝ, (.fin t4, .fin t5) ∈ Q ∧ |t4| ≤ Real.pi ∧ (∃ n : ℤ, t4 = q4 + n * (2 * Real.pi)) ∧ |t5| ≤ Real.pi ∧
      ∃ n : ℤ, t5 = q5 + n * (2 * Real.pi) := by
  have hsn := snap_pos
  set w := (rot h4 q5).mulVec h5 with hw'
  have e0 : (rot h3 q4 * rot h4 q5).mulVec h5 = (rot h3 q4).mulVec w := by rw [hw', M3.mulVec_mulVec]
  have r3 := rot_isRot h3 u3 q4
  have heps : npEps ≤ 1 - h3.dot h4 ^ 2 := by rw [h34]; rw [npEps]; norm_num
  have hd := disc_wrist (q := (rot h3 q4).mulVec w) u5 h34 h45
  have hdot : h5.dot h5 = ((rot h3 q4).mulVec w).dot ((rot h3 q4).mulVec w) := by
    rw [r3.dot_mulVec, hw', (rot_isRot h4 u4 q5).dot_mulVec]
  have hheight : ((rot h3 q4).mulVec w).dot h3 = h3.dot w := by
    rw [← (rot_invariants (p := w) u3 (φ := q4) rfl).2, V3.dot_comm]
  obtain ⟨l, e, -, hl, hc⟩ := C24_subproblem2_partial h5 ((rot h3 q4).mulVec w) h3 h4 u3 u4 hdot heps (by rw [hd, hheight]; exact hw)
  rw [e0, e] at h; cases h
  obtain ⟨x, hx, -, -, a1, a2, a3, a4⟩ := hc q4 q5 rfl
  have back : (rot h3 (-q4)).mulVec ((rot h3 q4).mulVec w) = w := by rw [rot_neg, r3.transpose_mulVec_mulVec]
  rw [back] at a2 a4
  obtain ⟨-, -, b1, b2, b3, b4⟩ := hl x hx
  refine ⟨x.1, x.2, List.mem_map.2 ⟨x, hx, rfl⟩, abs_le.2 ⟨b1, b2.le⟩, ?_, abs_le.2 ⟨b3.le, b4⟩, ?_⟩
  · rcases c4 with ⟨n, rfl⟩ | c4
    · refine ⟨-n, ?_⟩
      rw [a4 (by rw [rot_turns, M3.one_mulVec, V3.norm_sub_self]; exact hsn)]
      push_cast; ring
    · rw [V3.norm_sub_comm] at c4
      obtain ⟨n, hn⟩ := a2 c4
      exact ⟨-n, by rw [hn]; push_cast; ring⟩
  · rcases c5 with ⟨n, rfl⟩ | c5
    · refine ⟨-n, ?_⟩
      rw [a3 (by rw [rot_turns, M3.one_mulVec, V3.norm_sub_self]; exact hsn)]
      push_cast; ring
    · obtain ⟨n, hn⟩ := a1 c5
      exact ⟨-n, by rw [hn]; push_cast; ring⟩

/-! ## The spherical wrist search -/

section
variable {h0 h1 h2 h3 h4 h5 P0 P1 P2 P3 P6 p0T : V3 ℝ} {N : Normalizer XReal} {Z : ℤ → Prop} {q1 q2 q3 q4 q5 q6 : ℝ}

/-- lines 208-222 -/
theorem r6Last_complete (u4 : IsUnit3 h4) (u5 : IsUnit3 h5) {R03 : M3 ℝ} (hR05 : IsRot (R03 * (rot h3 q4 * rot h4 q5)))
    (c6 : Spec.clear h5 h4 q6) (k6 : Keeps N 5 q6 Z) {x1 x2 x3 : XReal} {sols : List (List XReal)} {n4 n5 : ℤ}
    (h : r6Last N h3.up h4.up h5.up (R03 * (rot h3 q4 * rot h4 q5) * rot h5 q6).up R03.up x1 x2 x3
      (.fin (q4 + n4 * (2 * Real.pi))) (.fin (q5 + n5 * (2 * Real.pi))) = .ok sols) :
    ∃ n6 : ℤ, Z n6 ∧ [x1, x2, x3, .fin (q4 + n4 * (2 * Real.pi)), .fin (q5 + n5 * (2 * Real.pi)), .fin (q6 + n6 * (2 * Real.pi))] ∈ sols := by
  simp only [r6Last, rot_up, rot_periodic, M3.up_mul, M3.up_transpose, M3.up_mulVec] at h
  rw [← M3.mul_assoc', hR05.orth, M3.one_mul'] at h
  obtain ⟨t, e, hb, hn⟩ := subproblem1_exact u5 c6
  obtain ⟨n6, z6, e6⟩ := one_keeps k6 (by have := Real.pi_pos; linarith) hn
  rw [e, Except.bind_ok, e6, Except.bind_ok] at h
  cases h
  exact ⟨n6, z6, by simp⟩

/-- lines 184-222 -/
theorem r6Elbow_complete (u1 : IsUnit3 h1) (u2 : IsUnit3 h2) (u3 : IsUnit3 h3) (u4 : IsUnit3 h4) (u5 : IsUnit3 h5)
    (h34 : h3.dot h4 = 0) (h45 : h4.dot h5 = 0) {R01 : M3 ℝ} (hR01 : IsRot R01)
    (c2 : Spec.clear h1 (P2 + (rot h2 q3).mulVec P3) q2) (c4 : Spec.clear h3 ((rot h4 q5).mulVec h5) q4) (c5 : Spec.clear h4 h5 q5)
    (c6 : Spec.clear h5 h4 q6) (hw : npEps ≤ 1 - h3.dot ((rot h4 q5).mulVec h5) ^ 2)
    (k2 : Keeps N 1 q2 Z) (k4 : Keeps N 3 q4 Z) (k5 : Keeps N 4 q5 Z)
    (k6 : Keeps N 5 q6 Z) {x1 : XReal} {sols : List (List XReal)} {n3 : ℤ}
    (h : r6Elbow N h1.up h2.up h3.up h4.up h5.up P2.up P3.up
      (R01 * rot h1 q2 * rot h2 q3 * (rot h3 q4 * rot h4 q5) * rot h5 q6).up R01.up
      ((rot h1 q2).mulVec (P2 + (rot h2 q3).mulVec P3)).up x1 (.fin (q3 + n3 * (2 * Real.pi))) = .ok sols) :
    ∃ n2 n4 n5 n6 : ℤ, (Z n2 ∧ Z n4 ∧ Z n5 ∧ Z n6) ∧ [x1, .fin (q2 + n2 * (2 * Real.pi)), .fin (q3 + n3 * (2 * Real.pi)), .fin (q4 + n4 * (2 * Real.pi)),
      .fin (q5 + n5 * (2 * Real.pi)), .fin (q6 + n6 * (2 * Real.pi))] ∈ sols := by
  have hpi := Real.pi_pos
  simp only [r6Elbow, rot_up, rot_periodic, M3.up_mul, M3.up_transpose, M3.up_mulVec, V3.up_add] at h
  obtain ⟨t2, e2, hb2, hn2⟩ := subproblem1_exact u1 c2
  obtain ⟨n2, z2, e2'⟩ := one_keeps k2 (by linarith) hn2
  rw [e2, Except.bind_ok, e2', Except.bind_ok] at h
  simp only [rot_up, rot_periodic, M3.up_mul, M3.up_transpose, M3.up_mulVec] at h
  obtain ⟨Q45, e45, h⟩ := Except.bind_eq_ok h
  obtain ⟨Q45', c45, h⟩ := Except.bind_eq_ok h
  set R03 := R01 * rot h1 q2 * rot h2 q3 with hR03
  have hr03 : IsRot R03 := (hR01.mul (rot_isRot h1 u1 _)).mul (rot_isRot h2 u2 _)
  have hr35 : IsRot (rot h3 q4 * rot h4 q5) := (rot_isRot h3 u3 _).mul (rot_isRot h4 u4 _)
  have e36 : (R03.transpose * (R03 * (rot h3 q4 * rot h4 q5) * rot h5 q6)).mulVec h5 = (rot h3 q4 * rot h4 q5).mulVec h5 := by
    rw [M3.mul_assoc' R03, ← M3.mul_assoc', hr03.orth, M3.one_mul', ← M3.mulVec_mulVec, rot_axis]
  rw [e36] at e45
  obtain ⟨t4, t5, m45, b4, w4, b5, w5⟩ := subproblem2_exact u3 u4 u5 h34 h45 hw c4 c5 e45
  obtain ⟨n4, n5, z4, z5, m45'⟩ := callV_keeps k4 k5 c45 (List.mem_map.2 ⟨_, m45, rfl⟩) (by linarith) w4 (by linarith) w5
  obtain ⟨sl, h, hsub⟩ := forAppend_mem h m45'
  obtain ⟨n6, z6, h6⟩ := r6Last_complete u4 u5 (hr03.mul hr35) c6 k6 h
  exact ⟨n2, n4, n5, n6, ⟨z2, z4, z5, z6⟩, hsub _ h6⟩

/-- The amplitude of `subproblem4` for `p` perpendicular to the axis is the distance of `q` from the axis. -/
theorem sp4amp_eq {p q k : V3 ℝ} (hp : IsUnit3 p) (hk : IsUnit3 k) (h : p.dot k = 0) : Spec.sp4amp p q k = (k.cross q).norm := by
  rw [Spec.sp4amp, V3.norm_eq]
  congr 1
  simp only [IsUnit3, V3.dot] at hp hk
  simp only [V3.dot] at h
  simp [V3.dot]
  grind

theorem sp4mid_eq {p q k : V3 ℝ} (hk : IsUnit3 k) (h : p.dot k = 0) : Spec.sp4mid p q k = 0 := by
  simp only [IsUnit3, V3.dot] at hk
  simp only [V3.dot] at h
  simp [Spec.sp4mid, V3.dot]
  grind

/-- `subproblem4` finds the shoulder angle -/
theorem shoulder_exact {w : V3 ℝ} (u0 : IsUnit3 h0) (hey : V3.ey.dot h0 = 0) (hoff : h0.cross w ≠ 0) {v : V3 ℝ}
    (hv : v = (rot h0 q1).mulVec w) :
    ∃ t : ℝ, .fin t ∈ subproblem4 V3.ey.up v.up (-h0).up (.fin (V3.ey.dot w)) ∧ |t| ≤ 5 / 2 * Real.pi ∧
      ∃ n : ℤ, t = q1 + n * (2 * Real.pi) := by
  have hR := rot_isRot h0 u0 q1
  have un : IsUnit3 (-h0) := by
    have := u0; simp only [IsUnit3] at this ⊢; simpa using this
  have hn : V3.ey.dot (-h0) = 0 := by rw [V3.dot_neg, hey, neg_zero]
  have hsol : V3.ey.dot ((rot (-h0) q1).mulVec v) = V3.ey.dot w := by
    rw [rot_neg_axis, rot_neg, hv, hR.transpose_mulVec_mulVec]
  have ha : 0 < Spec.sp4amp V3.ey v (-h0) := by
    rw [sp4amp_eq ey_unit un hn]
    apply V3.norm_pos
    intro e
    apply hoff
    have e1 : h0.cross v = 0 := by
      have : (-h0).cross v = -(h0.cross v) := by ext <;> simp <;> ring
      rw [this] at e
      have e2 := congrArg (fun x : V3 ℝ => -x) e
      have n0 : ∀ x : V3 ℝ, -(-x) = x := by intro x; ext <;> simp
      simpa [n0] using e2.trans (by ext <;> simp : -(0 : V3 ℝ) = 0)
    have e3 : h0.cross v = (rot h0 q1).mulVec (h0.cross w) := by
      rw [hv]
      nth_rw 1 [← rot_axis h0 q1]
      exact (hR.mulVec_cross _ _).symm
    rw [e3] at e1
    rw [← hR.transpose_mulVec_mulVec (h0.cross w), e1]
    ext <;> simp
  have hr : |V3.ey.dot w - Spec.sp4mid V3.ey v (-h0)| ≤ Spec.sp4amp V3.ey v (-h0) := by
    rw [← hsol, sp4_sin, add_sub_cancel_left, abs_mul, abs_of_pos ha]
    exact mul_le_of_le_one_right ha.le (Real.abs_sin_le_one _)
  obtain ⟨t1, t2, e, -, -, hc⟩ := C26_subproblem4_partial V3.ey v (-h0) (V3.ey.dot w) ha hr
  obtain ⟨n, h | h⟩ := hc q1 hsol
  · have hm : .fin t1 ∈ subproblem4 V3.ey.up v.up (-h0).up (.fin (V3.ey.dot w)) := by rw [e]; simp
    exact ⟨t1, hm, subproblem4_bound ha hr hm, -n, by rw [h]; push_cast; ring⟩
  · have hm : .fin t2 ∈ subproblem4 V3.ey.up v.up (-h0).up (.fin (V3.ey.dot w)) := by rw [e]; simp
    exact ⟨t2, hm, subproblem4_bound ha hr hm, -n, by rw [h]; push_cast; ring⟩

/-- lines 163-183: the search gets to the loop body for the given first and third joint values -/
theorem r6Search_reach {P4 P5 : V3 XReal} {R06 : M3 ℝ} (u0 : IsUnit3 h0) (s1 : h1 = V3.ey ∨ h1 = -V3.ey) (s2 : h2 = V3.ey ∨ h2 = -V3.ey)
    {c : ℝ} (hP0 : P0 = c • h0) (h0y : V3.ey.dot h0 = 0)
    (hp : p0T - R06.mulVec P6 = P0 + (rot h0 q1).mulVec (P1 + (rot h1 q2).mulVec (P2 + (rot h2 q3).mulVec P3)))
    (hoff : h0.cross (P1 + (rot h1 q2).mulVec (P2 + (rot h2 q3).mulVec P3)) ≠ 0)
    (hp3 : h2.cross P3 ≠ 0) (hp2 : h2.cross P2 ≠ 0) (hdir : Spec.dir P3 h2 = Spec.dir P2 h2 ∨ snap ≤ (Spec.dir P3 h2 - Spec.dir P2 h2).norm)
    (k1 : Keeps N 0 q1 Z) (k3 : Keeps N 2 q3 Z) {sols : List (List XReal)}
    (h : r6Search [h0.up, h1.up, h2.up, h3.up, h4.up, h5.up] [P0.up, P1.up, P2.up, P3.up, P4, P5, P6.up] N
      R06.up p0T.up = .ok sols) :
    ∃ (n1 n3 : ℤ) (sl : List (List XReal)), (Z n1 ∧ Z n3) ∧ r6Elbow N h1.up h2.up h3.up h4.up h5.up P2.up P3.up R06.up (rot h0 q1).up
      ((rot h1 q2).mulVec (P2 + (rot h2 q3).mulVec P3)).up (.fin (q1 + n1 * (2 * Real.pi))) (.fin (q3 + n3 * (2 * Real.pi))) = .ok sl ∧
      ∀ s ∈ sl, s ∈ sols := by
  have u1 := pm_unit s1
  have u2 := pm_unit s2
  have hR := rot_isRot h0 u0 q1
  set g := (rot h1 q2).mulVec (P2 + (rot h2 q3).mulVec P3) with hg
  set w := P0 + P1 + g with hw
  have hv : p0T - R06.mulVec P6 = (rot h0 q1).mulVec w := by
    rw [hp, hw, M3.mulVec_add (rot h0 q1) (P0 + P1), M3.mulVec_add (rot h0 q1) P0, M3.mulVec_add (rot h0 q1) P1, hP0, rot_hsmul_axis]
    generalize (rot h0 q1).mulVec P1 = a
    generalize (rot h0 q1).mulVec g = b
    ext <;> simp <;> ring
  have hyg : ∀ v : V3 ℝ, V3.ey.dot ((rot h1 q2).mulVec v) = V3.ey.dot v ∧ V3.ey.dot ((rot h2 q3).mulVec v) = V3.ey.dot v := by
    have key : ∀ (k : V3 ℝ) (q : ℝ) (v : V3 ℝ), (k = V3.ey ∨ k = -V3.ey) → V3.ey.dot ((rot k q).mulVec v) = V3.ey.dot v := by
      intro k q v hk
      have := (rot_invariants (p := v) (pm_unit hk) (φ := q) rfl).2
      rcases hk with rfl | rfl
      · rw [V3.dot_comm, ← this, V3.dot_comm]
      · rw [V3.dot_neg, V3.dot_neg, neg_inj] at this
        rw [V3.dot_comm, ← this, V3.dot_comm]
    exact fun v => ⟨key h1 q2 v s1, key h2 q3 v s2⟩
  have hd : V3.ey.dot (P1 + P2 + P3) = V3.ey.dot w := by
    have e1 : V3.ey.dot g = V3.ey.dot P2 + V3.ey.dot P3 := by
      rw [hg, (hyg _).1, V3.dot_add, (hyg _).2]
    have e2 : V3.ey.dot P0 = 0 := by rw [hP0, V3.dot_hsmul, h0y, mul_zero]
    rw [hw, V3.dot_add, V3.dot_add, V3.dot_add, V3.dot_add, e1, e2]; ring
  have hoff' : h0.cross w ≠ 0 := by
    have : h0.cross w = h0.cross (P1 + g) := by
      rw [hw, hP0]; ext <;> simp <;> ring
    rwa [this]
  simp only [r6Search, V3.up_ey, V3.up_add, V3.up_dot, M3.up_mulVec, V3.up_sub, V3.up_neg] at h
  obtain ⟨Q1, c1, h⟩ := Except.bind_eq_ok h
  rw [hd] at c1
  obtain ⟨t1, m1, b1, w1⟩ := shoulder_exact u0 h0y hoff' hv
  obtain ⟨n1, z1, m1'⟩ := callS_keeps k1 c1 m1 b1 w1
  obtain ⟨sl1, h, hsub1⟩ := forAppend_mem h m1'
  simp only [r6Shoulder, rot_up, rot_periodic, M3.up_transpose, M3.up_mulVec, V3.up_add, V3.up_sub, V3.up_norm] at h
  have e26 : (rot h0 q1).transpose.mulVec (p0T - R06.mulVec P6) - (P0 + P1) = g := by
    rw [hv, hR.transpose_mulVec_mulVec, hw]; ext <;> simp
  rw [e26] at h
  obtain ⟨Q3, e3, h⟩ := Except.bind_eq_ok h
  obtain ⟨Q3', c3, h⟩ := Except.bind_eq_ok h
  obtain ⟨ts, e, -, -, -, hc⟩ := C25_subproblem3_partial P3 P2 h2 g.norm u2 hp3 hp2 (V3.norm_nonneg _)
  obtain ⟨t3, m3, n, hn⟩ := (hc hdir).2 q3 (by rw [hg, (rot_isRot h1 u1 q2).norm_mulVec])
  have m3' : XReal.fin t3 ∈ Q3 := by
    rw [e] at e3; cases e3; exact List.mem_map.2 ⟨t3, m3, rfl⟩
  obtain ⟨n3, z3, m3''⟩ := callS_keeps k3 c3 m3' ((subproblem3_bound u2 hp3 hp2 e3 m3').trans (by have := Real.pi_pos; linarith)) ⟨-n, by rw [hn]; push_cast; ring⟩
  obtain ⟨sl3, h, hsub3⟩ := forAppend_mem h m3''
  exact ⟨n1, n3, sl3, ⟨z1, z3⟩, h, fun s hs => hsub1 _ (hsub3 _ hs)⟩
end

/-! ## No exception -/

/-- both limit arrays of the robot, when present, have at least `n` entries -/
def Spec.limitsSized (r : Robot ℝ) (n : Nat) : Prop :=
  ∀ lo up, r.lower = some lo → r.upper = some up → n ≤ lo.length ∧ n ≤ up.length

/-- the last joint values, when given, are enough for `n` joints -/
def Spec.lastSized (last : Option (List ℝ)) (n : Nat) : Prop := ∀ xs, last = some xs → n ≤ xs.length

theorem normalize_total {r : Robot ℝ} {n j : Nat} {last : Option (List ℝ)} (hl : Spec.limitsSized r n) (hs : Spec.lastSized last n) (hj : j < n) (θ : ℝ) :
    ∃ t, (upNormalizer r last).normalize j (.fin θ) = .ok t := by
  obtain ⟨t, e, -⟩ := C27_normalize_partial r.up (last.map (·.map .fin)) false j θ (by
    intro lo up h1 h2
    have h1 : r.lower.map (·.map XReal.fin) = some lo := h1
    have h2 : r.upper.map (·.map XReal.fin) = some up := h2
    rw [Option.map_eq_some_iff] at h1 h2
    obtain ⟨lo, h1', rfl⟩ := h1
    obtain ⟨up, h2', rfl⟩ := h2
    have := hl lo up h1' h2'
    rw [List.length_map, List.length_map]
    omega) (by
    intro xs h
    rw [Option.map_eq_some_iff] at h
    obtain ⟨ys, h, rfl⟩ := h
    have := hs ys h
    exact ⟨ys[j], by simp [show j < ys.length by omega]⟩)
  exact ⟨t, e⟩

theorem callS_total {r : Robot ℝ} {n j : Nat} {last : Option (List ℝ)} (hl : Spec.limitsSized r n) (hs : Spec.lastSized last n) (hj : j < n) (θs : List ℝ) :
    ∃ l, (upNormalizer r last).callS j (θs.map .fin) = .ok l := by
  obtain ⟨ts, hts⟩ := exists_mapM_ok (f := (upNormalizer r last).normalize j) (l := θs.map .fin) (by
    intro a ha
    obtain ⟨t, -, rfl⟩ := List.mem_map.1 ha
    exact normalize_total hl hs hj t)
  rw [Normalizer.callS, hts, Except.bind_ok]
  rcases last with _ | xs
  · exact ⟨_, rfl⟩
  · have hx : (xs.map XReal.fin)[j]? = some (.fin (xs[j]'(lt_of_lt_of_le hj (hs xs rfl)))) := by
      simp [lt_of_lt_of_le hj (hs xs rfl)]
    simp only [upNormalizer, Normalizer.ofRobot, Option.map_some, getI_some hx, Except.bind_ok, Except.pure_eq]
    split_ifs <;> exact ⟨_, rfl⟩

theorem one_total {r : Robot ℝ} {n j : Nat} {last : Option (List ℝ)} (hl : Spec.limitsSized r n) (hs : Spec.lastSized last n) (hj : j < n) (θ : ℝ) :
    ∃ t, (upNormalizer r last).one j (.fin θ) = .ok t := by
  rw [one_eq]; exact normalize_total hl hs hj θ

theorem callV_total {r : Robot ℝ} {n i j : Nat} {last : Option (List ℝ)} (hl : Spec.limitsSized r n) (hs : Spec.lastSized last n) (hi : i < n) (hj : j < n) (θs : List (ℝ × ℝ)) :
    ∃ l, (upNormalizer r last).callV [i, j] (θs.map fun x => [.fin x.1, .fin x.2]) = .ok l := by
  obtain ⟨ts, hts⟩ := exists_mapM_ok (f := fun t1 : List XReal => do
      let t3 ← (List.zip [i, j] t1).mapM fun jt => (upNormalizer r last).normalize jt.1 jt.2
      return if t3.all Option.isSome then some (t3.filterMap id) else none) (l := θs.map fun x => [.fin x.1, .fin x.2]) (by
    intro a ha
    obtain ⟨t, -, rfl⟩ := List.mem_map.1 ha
    obtain ⟨u, hu⟩ := normalize_total hl hs hi t.1
    obtain ⟨v, hv⟩ := normalize_total hl hs hj t.2
    simp only [List.zip_cons_cons, List.zip_nil_left, mapM_cons', mapM_nil', hu, hv, Except.bind_ok, Except.pure_eq]
    exact ⟨_, rfl⟩)
  rw [Normalizer.callV, hts, Except.bind_ok]
  rcases last with _ | xs
  · exact ⟨_, rfl⟩
  · have hx : ∀ j, j < n → ∃ x, (xs.map XReal.fin)[j]? = some x := by
      intro j hj
      exact ⟨.fin (xs[j]'(lt_of_lt_of_le hj (hs xs rfl))), by simp [lt_of_lt_of_le hj (hs xs rfl)]⟩
    obtain ⟨x, hx1⟩ := hx i hi
    obtain ⟨y, hy1⟩ := hx j hj
    simp only [upNormalizer, Normalizer.ofRobot, Option.map_some, mapM_cons', mapM_nil', getI_some hx1, getI_some hy1, Except.bind_ok,
      Except.pure_eq]
    split_ifs <;> exact ⟨_, rfl⟩

/-- `subproblem1` does not raise on vectors of the same length and height -/
theorem subproblem1_total {p q k : V3 ℝ} (hk : IsUnit3 k) (h1 : p.dot p = q.dot q) (h2 : p.dot k = q.dot k) :
    ∃ r, subproblem1 p.up q.up k.up = .ok r := by
  have hpq := V3.perp_dot_self (p := p) hk
  rw [h1, h2, ← V3.perp_dot_self hk] at hpq
  by_cases hp : p.perp k = 0
  · have hq : q.perp k = 0 := V3.eq_zero_of_dot_self (by rw [← hpq, hp]; simp [V3.dot])
    have : p = q := by rw [V3.perp_add p k, V3.perp_add q k, hp, hq, h2]
    rw [this]
    exact ⟨_, subproblem1_snap _ (by rw [V3.norm_sub_self]; exact snap_pos)⟩
  · exact subproblem1_ok hk hp fun hq => hp (V3.eq_zero_of_dot_self (by rw [hpq, hq]; simp [V3.dot]))

/-- the last wrist joint does not raise -/
theorem last_joint_total {h4 h5 : V3 ℝ} (u4 : IsUnit3 h4) (u5 : IsUnit3 h5) (h45 : h4.dot h5 = 0) {B : M3 ℝ} (hB : IsRot B)
    (hfix : (B.mulVec h5 - h5).norm ≤ 2 * snap) : ∃ r : XReal, subproblem1 h4.up (B.mulVec h4).up h5.up = .ok r := by
  have hsn := snap_pos
  have hs1 : 2 * snap < 1 := by rw [snap_eq]; norm_num
  apply subproblem1_ok u5
  · intro e
    have := V3.perp_dot_self (p := h4) u5
    rw [e, h45, u4.dot] at this
    simp [V3.dot] at this
  · intro e
    have h := V3.perp_dot_self (p := B.mulVec h4) u5
    rw [e, hB.dot_mulVec, u4.dot] at h
    have h0 : (B.mulVec h4).dot h5 = -(B.mulVec h4).dot (B.mulVec h5 - h5) := by
      rw [V3.dot_sub, hB.dot_mulVec, h45]; ring
    have hb := V3.abs_dot_le (B.mulVec h4) (B.mulVec h5 - h5)
    rw [hB.norm_mulVec, V3.norm_eq_one u4, one_mul] at hb
    rw [h0] at h
    have : (0 : V3 ℝ).dot 0 = 0 := by simp [V3.dot]
    rw [this] at h
    have hb2 : |(B.mulVec h4).dot (B.mulVec h5 - h5)| < 1 := by linarith
    have := (sq_lt_one_iff_abs_lt_one _).2 hb2
    nlinarith

section
variable {h0 h1 h2 h3 h4 h5 P0 P1 P2 P3 P6 p0T : V3 ℝ} {R06 : M3 ℝ} {r : Robot ℝ} {last : Option (List ℝ)}

/-- lines 184-222 -/
theorem r6Elbow_total (u1 : IsUnit3 h1) (u2 : IsUnit3 h2) (u3 : IsUnit3 h3) (u4 : IsUnit3 h4) (u5 : IsUnit3 h5)
    (h34 : h3.dot h4 = 0) (h45 : h4.dot h5 = 0) (h6 : IsRot R06) (hl : Spec.limitsSized r 6) (hs6 : Spec.lastSized last 6) {R01 : M3 ℝ} (hR01 : IsRot R01)
    {x1 : XReal} {q3 : ℝ} {p26 : V3 ℝ} (e1 : (P2 + (rot h2 q3).mulVec P3).dot (P2 + (rot h2 q3).mulVec P3) = p26.dot p26)
    (e2 : (P2 + (rot h2 q3).mulVec P3).dot h1 = p26.dot h1)
    (hns : ∀ q2 : ℝ, ((rot h1 q2).mulVec (P2 + (rot h2 q3).mulVec P3) - p26).norm < snap →
      npEps ≤ 1 - ((R01 * rot h1 q2 * rot h2 q3).mulVec h3).dot (R06.mulVec h5) ^ 2) :
    ∃ sols, r6Elbow (upNormalizer r last) h1.up h2.up h3.up h4.up h5.up P2.up P3.up R06.up R01.up p26.up x1 (.fin q3) = .ok sols := by
  simp only [r6Elbow, rot_up, M3.up_mul, M3.up_transpose, M3.up_mulVec, V3.up_add]
  obtain ⟨y, hy⟩ := subproblem1_total u1 e1 e2
  obtain ⟨t2, rfl, -, -, hc, -⟩ := subproblem1_sound u1 e1 e2 hy
  obtain ⟨o, ho⟩ := one_total hl hs6 (by norm_num : 1 < 6) t2
  rw [hy, Except.bind_ok, ho, Except.bind_ok]
  rcases o with _ | q2
  · exact ⟨_, rfl⟩
  obtain ⟨n, rfl⟩ := upNormalize_one ho
  have hns := hns t2 hc
  simp only [rot_up, M3.up_mul, M3.up_transpose, M3.up_mulVec, rot_periodic]
  set R03 := R01 * rot h1 t2 * rot h2 q3 with hR03
  have hr03 : IsRot R03 := (hR01.mul (rot_isRot h1 u1 _)).mul (rot_isRot h2 u2 _)
  have heps : npEps ≤ 1 - h3.dot h4 ^ 2 := by rw [h34]; rw [npEps]; norm_num
  have h36 : IsRot (R03.transpose * R06) := hr03.transpose.mul h6
  have hd := disc_wrist (q := (R03.transpose * R06).mulVec h5) u5 h34 h45
  have hdot : h5.dot h5 = ((R03.transpose * R06).mulVec h5).dot ((R03.transpose * R06).mulVec h5) := by rw [h36.dot_mulVec]
  have hh : ((R03.transpose * R06).mulVec h5).dot h3 = (R03.mulVec h3).dot (R06.mulVec h5) := by
    rw [← M3.mulVec_mulVec, hr03.transpose_dot, V3.dot_comm]
  obtain ⟨l, e, -, hs, -⟩ := C24_subproblem2_partial h5 ((R03.transpose * R06).mulVec h5) h3 h4 u3 u4 hdot heps
    (by rw [hd, hh]; exact hns)
  rw [e, Except.bind_ok, List.map_map]
  obtain ⟨l', hl'⟩ := callV_total hl hs6 (by norm_num : 3 < 6) (by norm_num : 4 < 6) l
  rw [show ((fun x : XReal × XReal => [x.1, x.2]) ∘ fun x : ℝ × ℝ => (XReal.fin x.1, XReal.fin x.2)) = fun x : ℝ × ℝ =>
    [XReal.fin x.1, XReal.fin x.2] from rfl, hl', Except.bind_ok]
  apply exists_forAppend_ok
  intro a ha
  obtain ⟨θ, mθ, n45⟩ := callV_mem hl' ha
  rw [List.mem_map] at mθ
  obtain ⟨x, hx, rfl⟩ := mθ
  obtain ⟨q4, _, n4, n45', rfl⟩ := List.forall₂_cons_left_iff.1 n45
  obtain ⟨q5, _, n5, n45'', rfl⟩ := List.forall₂_cons_left_iff.1 n45'
  cases n45''
  obtain ⟨i4, rfl⟩ := normalize_shift n4
  obtain ⟨i5, rfl⟩ := normalize_shift n5
  simp only [r6Last, rot_up, rot_periodic, M3.up_mul, M3.up_transpose, M3.up_mulVec]
  have hr35 : IsRot (rot h3 x.1 * rot h4 x.2) := (rot_isRot h3 u3 _).mul (rot_isRot h4 u4 _)
  have hr05 := hr03.mul hr35
  have hclose := (hs x hx).1
  obtain ⟨y6, hy6⟩ := last_joint_total u4 u5 h45 (hr05.transpose.mul h6) (by
    rw [V3.norm_sub_comm, ← hr05.norm_mulVec, M3.mulVec_sub, ← M3.mulVec_mulVec (R03 * (rot h3 x.1 * rot h4 x.2)).transpose,
      hr05.mulVec_transpose_mulVec, ← hr03.transpose.norm_mulVec, M3.mulVec_sub, ← M3.mulVec_mulVec R03,
      hr03.transpose_mulVec_mulVec, M3.mulVec_mulVec R03.transpose R06, ← M3.mulVec_mulVec (rot h3 x.1)]
    exact hclose.le)
  rw [hy6, Except.bind_ok]
  obtain ⟨t6, rfl, -⟩ := subproblem1_close u5 hy6
  obtain ⟨o6, ho6⟩ := one_total hl hs6 (by norm_num : 5 < 6) t6
  rw [ho6, Except.bind_ok]
  rcases o6 with _ | q6 <;> exact ⟨_, rfl⟩

/-- lines 163-222 -/
theorem r6Search_total {P4 P5 : V3 XReal} (u0 : IsUnit3 h0) (s1 : h1 = V3.ey ∨ h1 = -V3.ey) (s2 : h2 = V3.ey ∨ h2 = -V3.ey)
    (u3 : IsUnit3 h3) (u4 : IsUnit3 h4) (u5 : IsUnit3 h5) (h34 : h3.dot h4 = 0) (h45 : h4.dot h5 = 0) {c : ℝ} (hP0 : P0 = c • h0)
    (h0y : V3.ey.dot h0 = 0) (h6 : IsRot R06) (hl : Spec.limitsSized r 6) (hs6 : Spec.lastSized last 6)
    (hoff : h0.cross (p0T - R06.mulVec P6) ≠ 0) (hreach : |V3.ey.dot (P1 + P2 + P3)| ≤ (h0.cross (p0T - R06.mulVec P6)).norm)
    (hp3 : h2.cross P3 ≠ 0) (hp2 : h2.cross P2 ≠ 0)
    (hdir : Spec.dir P3 h2 = Spec.dir P2 h2 ∨ snap ≤ (Spec.dir P3 h2 - Spec.dir P2 h2).norm)
    (hns : ∀ q1 q2 q3 : ℝ, (P0 + (rot h0 q1).mulVec (P1 + (rot h1 q2).mulVec (P2 + (rot h2 q3).mulVec P3)) -
      (p0T - R06.mulVec P6)).norm < snap → npEps ≤ 1 - ((rot h0 q1 * rot h1 q2 * rot h2 q3).mulVec h3).dot (R06.mulVec h5) ^ 2) :
    ∃ sols, r6Search [h0.up, h1.up, h2.up, h3.up, h4.up, h5.up] [P0.up, P1.up, P2.up, P3.up, P4, P5, P6.up] (upNormalizer r last)
      R06.up p0T.up = .ok sols := by
  have u1 := pm_unit s1
  have u2 := pm_unit s2
  set W := p0T - R06.mulVec P6 with hW
  have un : IsUnit3 (-h0) := by
    have := u0; simp only [IsUnit3] at this ⊢; simpa using this
  have hn : V3.ey.dot (-h0) = 0 := by rw [V3.dot_neg, h0y, neg_zero]
  have hamp : Spec.sp4amp V3.ey W (-h0) = (h0.cross W).norm := by
    rw [sp4amp_eq ey_unit un hn, show (-h0).cross W = -(h0.cross W) by ext <;> simp <;> ring, V3.norm_neg]
  have hmid := sp4mid_eq (q := W) un hn
  simp only [r6Search, V3.up_ey, V3.up_add, V3.up_dot, M3.up_mulVec, V3.up_sub, V3.up_neg, ← hW]
  obtain ⟨t1, t2, e, e1, e2, -⟩ := C26_subproblem4_partial V3.ey W (-h0) (V3.ey.dot (P1 + P2 + P3))
    (by rw [hamp]; exact V3.norm_pos hoff) (by rw [hamp, hmid, sub_zero]; exact hreach)
  have hsh : ∀ t ∈ [t1, t2], V3.ey.dot ((rot (-h0) t).mulVec W) = V3.ey.dot (P1 + P2 + P3) := by
    intro t ht
    simp only [List.mem_cons, List.not_mem_nil, or_false] at ht
    rcases ht with rfl | rfl <;> assumption
  obtain ⟨l, hl1⟩ := callS_total hl hs6 (by norm_num : 0 < 6) [t1, t2]
  rw [e, show [XReal.fin t1, XReal.fin t2] = [t1, t2].map XReal.fin from rfl, hl1, Except.bind_ok]
  apply exists_forAppend_ok
  intro a ha
  obtain ⟨θ1, mθ1, n1⟩ := callS_mem hl1 ha
  obtain ⟨t, ht, rfl⟩ := List.mem_map.1 mθ1
  obtain ⟨i1, rfl⟩ := normalize_shift n1
  have hd := shoulder_eq (hsh t ht)
  have hR := rot_isRot h0 u0 t
  simp only [r6Shoulder, rot_up, rot_periodic, M3.up_transpose, M3.up_mulVec, V3.up_add, V3.up_sub, V3.up_norm, ← hW]
  set p26 := (rot h0 t).transpose.mulVec W - (P0 + P1) with hp26
  obtain ⟨ts, e3, -, -, -, hc⟩ := C25_subproblem3_partial P3 P2 h2 p26.norm u2 hp3 hp2 (V3.norm_nonneg _)
  obtain ⟨l3, hl3⟩ := callS_total hl hs6 (by norm_num : 2 < 6) ts
  rw [e3, Except.bind_ok, hl3, Except.bind_ok]
  apply exists_forAppend_ok
  intro b hb
  obtain ⟨θ3, mθ3, n3⟩ := callS_mem hl3 hb
  obtain ⟨t3, ht3, rfl⟩ := List.mem_map.1 mθ3
  obtain ⟨i3, rfl⟩ := normalize_shift n3
  have hex := (hc hdir).1 t3 ht3
  have hey0 : V3.ey.dot P0 = 0 := by rw [hP0, V3.dot_hsmul, h0y, mul_zero]
  have hfix : (rot h0 t).mulVec P0 = P0 := by rw [hP0, rot_hsmul_axis]
  refine r6Elbow_total (q3 := t3 + i3 * (2 * Real.pi)) u1 u2 u3 u4 u5 h34 h45 h6 hl hs6 hR ?_ ?_ ?_
  · rw [rot_periodic, ← V3.norm_mul_self, hex, V3.norm_mul_self]
  · rw [rot_periodic]
    apply pm_dot s1
    have key : V3.ey.dot ((rot h2 t3).mulVec P3) = V3.ey.dot P3 := by
      have := (rot_invariants (p := P3) u2 (φ := t3) rfl).2
      rcases s2 with rfl | rfl
      · rw [V3.dot_comm, ← this, V3.dot_comm]
      · rw [V3.dot_neg, V3.dot_neg, neg_inj] at this
        rw [V3.dot_comm, ← this, V3.dot_comm]
    rw [V3.dot_add, key, hp26, V3.dot_sub, hd, V3.dot_add, V3.dot_add, V3.dot_add, hey0]; ring
  · intro q2 hq2
    apply hns
    rw [← hR.norm_mulVec] at hq2
    convert hq2 using 2
    rw [hp26, M3.mulVec_sub, M3.mulVec_sub, hR.mulVec_transpose_mulVec, M3.mulVec_add (rot h0 t) P1, M3.mulVec_add (rot h0 t) P0, hfix]
    generalize (rot h0 t).mulVec P1 = a
    generalize (rot h0 t).mulVec ((rot h1 q2).mulVec (P2 + (rot h2 (t3 + i3 * (2 * Real.pi))).mulVec P3)) = b
    ext <;> simp <;> ring
end

/-! ## Base, flange and tool; the wrist singularity -/

theorem unapply_apply_R {r : Robot ℝ} (hB : IsRot (auxB r).R) (hF : IsRot (auxF r).R) (hX : IsRot (auxX r).R) (C : Transform ℝ) :
    (unapplyAux r (applyAux r C)).R = C.R := by
  rw [unapplyAux_R, applyAux_R]
  simp only [M3.mul_assoc']
  rw [← M3.mul_assoc' (auxX r).R, hX.orth', M3.one_mul', hF.orth', M3.mul_one', ← M3.mul_assoc', hB.orth, M3.one_mul']

theorem unapply_apply_p {r : Robot ℝ} (hB : IsRot (auxB r).R) (hF : IsRot (auxF r).R) (hX : IsRot (auxX r).R) (C : Transform ℝ) :
    (unapplyAux r (applyAux r C)).p = C.p := by
  rw [unapplyAux_p, applyAux_p, applyAux_R]
  have e1 : (auxB r).R * (C.R * (auxF r).R * (auxX r).R) * (auxX r).R.transpose = (auxB r).R * C.R * (auxF r).R := by
    simp only [M3.mul_assoc']; rw [hX.orth', M3.mul_one']
  have e2 : (auxB r).R * C.R * (auxF r).R * (auxF r).R.transpose = (auxB r).R * C.R := by
    rw [M3.mul_assoc' _ (auxF r).R, hF.orth', M3.mul_one']
  rw [e1, e2]
  simp only [M3.mulVec_add, M3.mulVec_sub, M3.mulVec_mulVec, ← M3.mul_assoc', hB.orth, M3.one_mul', M3.one_mulVec]
  generalize C.R.mulVec (auxF r).p = a
  generalize (C.R * (auxF r).R).mulVec (auxX r).p = b
  generalize (auxB r).R.transpose.mulVec (auxB r).p = c
  ext <;> simp <;> ring

/-- with the last axis along the fourth one, `subproblem2` raises -/
theorem subproblem2_singular {h3 h4 : V3 ℝ} {s s' : ℝ} (u3 : IsUnit3 h3) (u4 : IsUnit3 h4) (h34 : h3.dot h4 = 0) (hs : s = 1 ∨ s = -1)
    (hs' : s' = 1 ∨ s' = -1) : subproblem2 (s • h3).up (s' • h3).up h3.up h4.up = .error .assertion := by
  have he := npEps_pos
  have s1 : s * s = 1 := by rcases hs with rfl | rfl <;> norm_num
  have s2 : s' * s' = 1 := by rcases hs' with rfl | rfl <;> norm_num
  have p1 : (s • h3).dot h4 = 0 := by rw [V3.hsmul_dot, h34, mul_zero]
  have p2 : (s' • h3).dot h3 = s' := by rw [V3.hsmul_dot, u3.dot, mul_one]
  have hd : Spec.disc (s • h3) (s' • h3) h3 h4 = 0 := by
    rw [Spec.disc, h34, p1, p2, V3.hsmul_dot, V3.dot_hsmul, u3.dot]; linarith
  have hc : Sp2.c (s • h3) (s' • h3) h3 h4 0 = s' • h3 := by
    rw [Sp2.c_eq, Sp2.a0, Sp2.a1, h34, p1, p2]; ext <;> simp
  have uc : IsUnit3 (s' • h3) := by
    rcases hs' with rfl | rfl
    · simpa [IsUnit3] using u3
    · simpa [IsUnit3] using u3
  rw [Sp2.eval u3 u4 _ _ (by rw [h34, npEps_real]; norm_num)]
  simp only [hd, abs_zero, if_pos he, lt_irrefl, if_false, Real.sqrt_zero, zero_div, hc]
  rw [subproblem1_on_axis uc]
  · rfl
  · have : (h4 - s • h3).norm = Real.sqrt 2 := by
      rw [V3.norm_eq]; congr 1
      rw [V3.dot_sub, V3.sub_dot, V3.sub_dot, u4.dot, p1, V3.dot_comm h4, p1, V3.hsmul_dot, V3.dot_hsmul, u3.dot]; linarith
    rw [this, snap_eq, not_lt, Real.le_sqrt' (by norm_num)]; norm_num
  · right
    have : (s • h3).dot (s' • h3) * s' = s := by rw [V3.hsmul_dot, V3.dot_hsmul, u3.dot]; linear_combination s * s2
    rw [V3.perp]
    ext <;> simp
    · linear_combination (-h3.x) * this
    · linear_combination (-h3.y) * this
    · linear_combination (-h3.z) * this

theorem moveColumn_of {H L : List (V3 XReal)} {src ax dst : Nat} {a b hh : V3 ℝ} (e1 : L[src]? = some a.up) (e2 : L[dst]? = some b.up)
    (e3 : H[ax]? = some hh.up) (hne : src ≠ dst) (ha : a = (a.dot hh) • hh) :
    moveColumn H L src ax dst = ((L.set dst (b + a).up).set src 0, .ok ()) := by
  simp only [moveColumn, e1, e2, e3]
  split_ifs with c1 c2
  · have c1 := (isZeroV_up a).1 c1
    subst c1
    congr 1
    rw [show b + 0 = b by ext <;> simp]
    apply List.ext_getElem?
    intro i
    rw [List.getElem?_set, List.getElem?_set]
    split_ifs with i1 i2 i3 i4
    · subst i1; rw [e1]; rfl
    · subst i1
      simp only [List.length_set] at i2
      exact absurd (List.getElem?_eq_some_iff.1 e1).1 i2
    · subst i3; exact e2
    · subst i3; exact absurd (List.getElem?_eq_some_iff.1 e2).1 i4
    · rfl
  · rw [V3.up_add]
  · exfalso
    apply c2
    rw [V3.up_dot, V3.up_smul, V3.up_sub, isZeroV_up]
    have h1 := congrArg V3.x ha
    have h2 := congrArg V3.y ha
    have h3 := congrArg V3.z ha
    simp only [V3.hsmul_x, V3.hsmul_y, V3.hsmul_z] at h1 h2 h3
    ext <;> simp <;> linarith

theorem fixWrist_of {h0 h1 h2 h3 h4 h5 P0 P1 P2 P3 P4 P5 P6 : V3 ℝ} (hP4 : P4 = (P4.dot h3) • h3) (hP5 : P5 = (P5.dot h5) • h5) :
    fixWrist [h0.up, h1.up, h2.up, h3.up, h4.up, h5.up] [P0.up, P1.up, P2.up, P3.up, P4.up, P5.up, P6.up] =
      ([P0.up, P1.up, P2.up, (P3 + P4).up, 0, 0, (P6 + P5).up], .ok ()) := by
  unfold fixWrist
  rw [moveColumn_of (a := P4) (b := P3) (hh := h3) rfl rfl rfl (by decide) hP4]
  simp only [List.set_cons_succ, List.set_cons_zero]
  rw [moveColumn_of (a := P5) (b := P6) (hh := h5) rfl rfl rfl (by decide) hP5]
  rfl

/-- forward kinematics of six rotary joints -/
theorem fwdkin_chain6 {r : Robot ℝ} {h0 h1 h2 h3 h4 h5 P0 P1 P2 P3 P4 P5 P6 : V3 ℝ} (ht : r.jointType = [0, 0, 0, 0, 0, 0])
    (hH : r.H = [h0, h1, h2, h3, h4, h5]) (hP : r.P = [P0, P1, P2, P3, P4, P5, P6]) (q1 q2 q3 q4 q5 q6 : ℝ) :
    fwdkin r [q1, q2, q3, q4, q5, q6] true = .ok (applyAux r ⟨rot h0 q1 * rot h1 q2 * rot h2 q3 * (rot h3 q4 * rot h4 q5) * rot h5 q6,
      P0 + (rot h0 q1).mulVec (P1 + (rot h1 q2).mulVec (P2 + (rot h2 q3).mulVec (P3 + (rot h3 q4).mulVec (P4 + (rot h4 q5).mulVec
        (P5 + (rot h5 q6).mulVec P6))))), none, none⟩) := by
  simp only [fwdkin, checkLimits, if_true, ht, hH, hP, fwdLoop, fwdStep, Except.bind_ok, Except.pure_eq, true_or]
  congr 3
  · simp only [M3.one_mul', M3.mul_assoc']
  · simp only [M3.one_mul', M3.mulVec_add, M3.mulVec_mulVec, M3.mul_assoc']
    generalize (rot h0 q1).mulVec P1 = a1
    generalize (rot h0 q1 * rot h1 q2).mulVec P2 = a2
    generalize (rot h0 q1 * (rot h1 q2 * rot h2 q3)).mulVec P3 = a3
    generalize (rot h0 q1 * (rot h1 q2 * (rot h2 q3 * rot h3 q4))).mulVec P4 = a4
    generalize (rot h0 q1 * (rot h1 q2 * (rot h2 q3 * (rot h3 q4 * rot h4 q5)))).mulVec P5 = a5
    generalize (rot h0 q1 * (rot h1 q2 * (rot h2 q3 * (rot h3 q4 * (rot h4 q5 * rot h5 q6))))).mulVec P6 = a6
    ext <;> simp <;> ring
