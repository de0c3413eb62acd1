import Verif.Lemmas.Warnings
import Verif.Lemmas.Distinct

/-! # Which warnings the subproblems and the analytic solvers issue -/
set_option autoImplicit false

section
variable {α : Type} [Add α] [Sub α] [Mul α] [Div α] [Neg α] [Zero α] [One α] [LT α] [LE α]
  [DecidableLT α] [DecidableLE α] [Elem α]

theorem sub1W_mem {p q k : V3 α} {w : Warning} : w ∈ (subproblem1W p q k).warns ↔ w = .norms ∧ ¬ (p - q).norm < Elem.sqrt npEps ∧
    p.norm * lit (1 / 100) < Elem.abs (p.norm - q.norm) ∧ ∃ θ, subproblem1 p q k = .ok θ := by
  rw [← subproblem1W_out]
  unfold subproblem1W
  by_cases h : (p - q).norm < Elem.sqrt npEps
  · simp [h, Warned.pure_warns]
  · simp only [h, if_false, not_false_eq_true, true_and, Warned.mem_quiet_bind, Warned.bind_out, Warned.quiet_out]
    generalize (subproblem0 (α := α) _ _ _) = m
    by_cases h2 : p.norm * lit (1 / 100) < Elem.abs (p.norm - q.norm)
    · simp only [h2, if_true, true_and]
      rcases m with e | a
      · simp [Except.bind_error]
      · simp [Except.bind_ok, Warned.mem_bind, Warned.mem_warn, Warned.not_mem_pure, Warned.bind_out, Warned.warn_out, Warned.pure_out]
    · simp only [h2, if_false, false_and, and_false, iff_false]
      rintro ⟨a, -, h⟩
      exact Warned.not_mem_pure h

theorem sub3W_distance {p q k : V3 α} {d : α} : .distance ∈ (subproblem3W p q k d).warns ↔ subproblem3 p q k d = .ok [] := by
  unfold subproblem3W subproblem3
  simp only
  split
  · simp [Warned.mem_bind, Warned.mem_warn]
  · simp only [Warned.mem_bind, sub1W_mem]
    constructor
    · rintro (⟨h, -⟩ | ⟨a, -, h⟩)
      · cases h
      · split at h <;> exact absurd h Warned.not_mem_pure
    · intro h
      obtain ⟨a, -, h⟩ := Except.bind_eq_ok h
      split at h <;> cases h

theorem sub2W_none {p q k1 k2 : V3 α} : (∃ w ∈ (subproblem2W p q k1 k2).warns, w ≠ .norms) ↔ subproblem2 p q k1 k2 = .ok [] := by
  unfold subproblem2W subproblem2
  simp only
  split
  · simp [Warned.mem_bind, Warned.mem_warn]
  · generalize (k1.dot k2 * p.dot k2 + lit (-1) * q.dot k1) / (k1.dot k2 * k1.dot k2 - 1) = a0
    generalize (lit (-1) * p.dot k2 + k1.dot k2 * q.dot k1) / (k1.dot k2 * k1.dot k2 - 1) = a1
    generalize p.dot p - (a0 * a0 + a1 * a1) - lit 2 * a0 * a1 * k1.dot k2 = b0
    generalize (if Elem.abs b0 < npEps then (0 : α) else b0) = bb
    split
    · simp [Warned.mem_bind, Warned.mem_warn]
    · split
      · simp only [Warned.mem_bind, sub1W_mem]
        constructor
        · rintro ⟨w, ⟨h, -⟩ | ⟨a, -, ⟨h, -⟩ | ⟨b, -, h⟩⟩, hw⟩
          · exact absurd h hw
          · exact absurd h hw
          · exact absurd h Warned.not_mem_pure
        · intro h
          obtain ⟨a, -, h⟩ := Except.bind_eq_ok h
          obtain ⟨b, -, h⟩ := Except.bind_eq_ok h
          cases h
      · simp only [Warned.mem_bind, sub1W_mem]
        constructor
        · rintro ⟨w, ⟨h, -⟩ | ⟨a, -, ⟨h, -⟩ | ⟨b, -, ⟨h, -⟩ | ⟨c, -, ⟨h, -⟩ | ⟨e, -, h⟩⟩⟩⟩, hw⟩
          · exact absurd h hw
          · exact absurd h hw
          · exact absurd h hw
          · exact absurd h hw
          · exact absurd h Warned.not_mem_pure
        · intro h
          obtain ⟨a, -, h⟩ := Except.bind_eq_ok h
          obtain ⟨b, -, h⟩ := Except.bind_eq_ok h
          obtain ⟨c, -, h⟩ := Except.bind_eq_ok h
          obtain ⟨e, -, h⟩ := Except.bind_eq_ok h
          cases h
end

theorem sub1W_real {p q : V3 ℝ} {k : V3 XReal} {w : Warning} : w ∈ (subproblem1W p.up q.up k).warns ↔ w = .norms ∧ snap ≤ (p - q).norm ∧
    p.norm / 100 < |p.norm - q.norm| ∧ ∃ θ, subproblem1 p.up q.up k = .ok θ := by
  have e : (((1 / 100 : ℚ)) : ℝ) = 1 / 100 := by norm_num
  rw [sub1W_mem, V3.up_sub, V3.up_norm, V3.up_norm, V3.up_norm, XReal.npEps_fin, XReal.sqrt_fin npEps_pos.le, XReal.fin_lt, not_lt,
    XReal.lit_fin, XReal.fin_mul, XReal.fin_sub, XReal.abs_fin, XReal.fin_lt, e, ← snap_def, mul_one_div]

theorem sub1W_same {p q : V3 ℝ} {k : V3 XReal} {w : Warning} (h : p.norm = q.norm) : w ∉ (subproblem1W p.up q.up k).warns := by
  rw [sub1W_real]
  rintro ⟨-, -, h1, -⟩
  rw [h, sub_self, abs_zero] at h1
  have := V3.norm_nonneg q
  linarith

theorem sub3W_only {p q k : V3 ℝ} {d : XReal} {w : Warning} (h : w ∈ (subproblem3W p.up q.up k.up d).warns) : w = .distance := by
  unfold subproblem3W at h
  simp only [V3.up_dot, V3.up_smul, V3.up_sub, V3.up_norm] at h
  simp only [← V3.perp.eq_1] at h
  split at h
  · simpa [Warned.mem_bind, Warned.mem_warn, Warned.not_mem_pure] using h
  · rw [Warned.mem_bind] at h
    rcases h with h | ⟨a, -, h⟩
    · exfalso
      by_cases hp : p.perp k = 0
      · obtain ⟨-, -, -, θ, e⟩ := sub1W_mem.1 h
        rw [subproblem1_nan _ _ _ (.inl (sdiv_zero_norm hp))] at e
        cases e
      by_cases hq : q.perp k = 0
      · obtain ⟨-, -, -, θ, e⟩ := sub1W_mem.1 h
        rw [subproblem1_nan _ _ _ (.inr (sdiv_zero_norm hq))] at e
        cases e
      rw [V3.up_sdiv _ (V3.norm_pos hp).ne', V3.up_sdiv _ (V3.norm_pos hq).ne'] at h
      refine sub1W_same ?_ h
      exact (V3.norm_eq_one (dir_unit hp)).trans (V3.norm_eq_one (dir_unit hq)).symm
    · split at h <;> exact absurd h Warned.not_mem_pure

theorem sub3W_nan {p q k : V3 ℝ} {w : Warning} : w ∉ (subproblem3W p.up q.up k.up .nan).warns := by
  intro h
  obtain rfl := sub3W_only h
  rw [sub3W_distance] at h
  unfold subproblem3 at h
  simp only [V3.up_dot, V3.up_smul, V3.up_sub, V3.up_norm, V3.up_add, XReal.fin_mul, XReal.fin_add] at h
  rw [if_neg (by
    rintro (h | h)
    · simp [XReal.nan_lt] at h
    · simp [XReal.lt_nan] at h)] at h
  obtain ⟨a, -, h⟩ := Except.bind_eq_ok h
  split at h <;> cases h

section
variable {p q k1 k2 : V3 ℝ}

/-- `subproblem2` at real numbers, with its warnings -/
theorem sub2W_eval (u1 : IsUnit3 k1) (u2 : IsUnit3 k2) (p q : V3 ℝ) (h : npEps ≤ 1 - k1.dot k2 ^ 2) : subproblem2W p.up q.up k1.up k2.up =
    (let bb := if |Spec.disc p q k1 k2| < npEps then (0 : ℝ) else Spec.disc p q k1 k2
     if bb < 0 then (do
       warn .cones
       return []) else
     let gamma := Real.sqrt bb / (k1.cross k2).norm
     if |gamma| < npEps then do
        let theta2 ← subproblem1W k2.up p.up (Sp2.c p q k1 k2 gamma).up
        let theta1 ← subproblem1W k1.up q.up (Sp2.c p q k1 k2 gamma).up
        return [(-theta1, theta2)]
     else do
        let t11 ← subproblem1W q.up (Sp2.c p q k1 k2 gamma).up k1.up
        let t12 ← subproblem1W q.up (Sp2.c p q k1 k2 (-gamma)).up k1.up
        let t21 ← subproblem1W p.up (Sp2.c p q k1 k2 gamma).up k2.up
        let t22 ← subproblem1W p.up (Sp2.c p q k1 k2 (-gamma)).up k2.up
        return [(-t11, t21), (-t12, t22)]) := by
  have he := npEps_pos
  have hne : k1.dot k2 ^ 2 ≠ 1 := by intro e; rw [e] at h; linarith
  have hden : k1.dot k2 * k1.dot k2 - 1 ≠ 0 := by intro e; apply hne; linarith
  have hcn : (k1.cross k2).norm ≠ 0 := by
    intro e
    have := V3.norm_sq (k1.cross k2)
    rw [e, Sp2.cross_sq u1 u2] at this
    linarith
  have e2 : ((2 : ℚ) : ℝ) = 2 := by norm_num
  have e1 : ((-1 : ℚ) : ℝ) = -1 := by norm_num
  have hpar : ¬ |1 - k1.dot k2 * k1.dot k2| < npEps := by rw [← sq, abs_of_nonneg (by linarith)]; linarith
  have bbe := Sp2.bb_eq (p := p) (q := q) hne
  simp only [Sp2.a0, Sp2.a1] at bbe
  simp only [subproblem2W, V3.up_dot, XReal.fin_mul, XReal.one_def, XReal.fin_sub, XReal.abs_fin, XReal.npEps_fin, XReal.fin_lt,
    XReal.lit_fin, e1, e2, XReal.fin_add, XReal.fin_div _ hden, V3.up_cross, V3.up_norm, XReal.zero_def, bbe]
  rw [if_neg hpar]
  have hite : ∀ (P : Prop) [Decidable P] (a b : ℝ), (if P then XReal.fin a else XReal.fin b) = XReal.fin (if P then a else b) := by
    intro P _ a b; split_ifs <;> rfl
  simp only [hite, XReal.fin_lt]
  generalize (if |Spec.disc p q k1 k2| < npEps then (0 : ℝ) else Spec.disc p q k1 k2) = bb
  by_cases hb : bb < 0
  · rw [if_pos hb, if_pos hb]
  · rw [if_neg hb, if_neg hb]
    simp only [XReal.sqrt_fin (not_lt.1 hb), XReal.fin_div _ hcn, XReal.abs_fin, XReal.fin_lt, XReal.fin_neg, V3.up_mk, Sp2.up_ofCols,
      M3.up_mulVec]
    rfl

theorem norm_eq_of_dot {a b : V3 ℝ} (h : a.dot a = b.dot b) : a.norm = b.norm := by rw [V3.norm_eq, V3.norm_eq]; exact congrArg Real.sqrt h

/-- for points of equal length and cones that meet no warning is issued, if the cones do not touch, or if the points are of unit length -/
theorem sub2W_quiet (u1 : IsUnit3 k1) (u2 : IsUnit3 k2) (h : npEps ≤ 1 - k1.dot k2 ^ 2) (hpq : p.dot p = q.dot q)
    (hd : 0 ≤ Spec.disc p q k1 k2) (ht : npEps ≤ Spec.disc p q k1 k2 ∨ p.norm = 1) {w : Warning} :
    w ∉ (subproblem2W p.up q.up k1.up k2.up).warns := by
  have he := npEps_pos
  have hne : k1.dot k2 ^ 2 ≠ 1 := by intro e; rw [e] at h; linarith
  have hs := Sp2.cross_sq u1 u2
  have hcn : 0 < (k1.cross k2).norm := V3.norm_pos (by
    intro e
    have hz : (0 : V3 ℝ).dot 0 = 0 := V3.dot_zero _
    rw [e, hz] at hs
    linarith)
  have nq := norm_eq_of_dot hpq
  rw [sub2W_eval u1 u2 p q h]
  obtain ⟨bb, hbb⟩ : ∃ bb, bb = if |Spec.disc p q k1 k2| < npEps then (0 : ℝ) else Spec.disc p q k1 k2 := ⟨_, rfl⟩
  have hb0 : ¬ bb < 0 := not_lt.2 (by rw [hbb]; split_ifs; exacts [le_refl _, hd])
  simp only [← hbb, if_neg hb0]
  have small : Spec.disc p q k1 k2 < npEps → bb = 0 := fun hc => by rw [hbb, if_pos (by rw [abs_of_nonneg hd]; exact hc)]
  have large : npEps ≤ Spec.disc p q k1 k2 → bb = Spec.disc p q k1 k2 := fun hc => by
    rw [hbb, if_neg (by rw [abs_of_nonneg hd]; linarith)]
  by_cases hg : |Real.sqrt bb / (k1.cross k2).norm| < npEps
  · rw [if_pos hg]
    rcases ht with ht | ht
    · exfalso
      rw [large ht, abs_of_nonneg (by positivity), div_lt_iff₀ hcn] at hg
      have c1 : (k1.cross k2).norm ≤ 1 := by
        have := V3.norm_sq (k1.cross k2)
        rw [hs] at this
        nlinarith [sq_nonneg (k1.dot k2)]
      have e1 : npEps ≤ Real.sqrt (Spec.disc p q k1 k2) := by
        apply Real.le_sqrt_of_sq_le
        have : (npEps : ℝ) ≤ 1 := by rw [npEps_real]; norm_num
        nlinarith
      nlinarith
    · simp only [Warned.mem_bind]
      rintro (h | ⟨a, -, h | ⟨b, -, h⟩⟩)
      · exact sub1W_same (by rw [ht, V3.norm_eq_one u2]) h
      · exact sub1W_same (by rw [← nq, ht, V3.norm_eq_one u1]) h
      · exact Warned.not_mem_pure h
  · rw [if_neg hg]
    have hbig : npEps ≤ Spec.disc p q k1 k2 := by
      by_contra hc
      rw [small (not_le.1 hc)] at hg
      simp at hg
      linarith
    rw [large hbig]
    have key : ∀ g : ℝ, g ^ 2 = Sp2.γ p q k1 k2 ^ 2 → p.norm = (Sp2.c p q k1 k2 g).norm := by
      intro g hg
      apply norm_eq_of_dot
      rw [Sp2.c_dot_c u1 u2 hne, hg, Sp2.γ_sq u1 u2 hne hd]; ring
    have k1' := key (Real.sqrt (Spec.disc p q k1 k2) / (k1.cross k2).norm) rfl
    have k2' := key (-(Real.sqrt (Spec.disc p q k1 k2) / (k1.cross k2).norm)) (by rw [neg_sq]; rfl)
    simp only [Warned.mem_bind]
    rintro (h | ⟨a, -, h | ⟨b, -, h | ⟨c, -, h | ⟨d, -, h⟩⟩⟩⟩)
    · exact sub1W_same (nq.symm.trans k1') h
    · exact sub1W_same (nq.symm.trans k2') h
    · exact sub1W_same k1' h
    · exact sub1W_same k2' h
    · exact Warned.not_mem_pure h
end
