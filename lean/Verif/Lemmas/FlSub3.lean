import Verif.Lemmas.FlSubE
import Verif.Props.RoundingSub4

/-! # `subproblem3` with rounding -/
set_option autoImplicit false

theorem sq_sub_le {a b e N : ℝ} (h : |a - b| ≤ e) (hN : |a| + |b| ≤ N) : |a * a - b * b| ≤ N * e := by
  rw [show a * a - b * b = (a + b) * (a - b) by ring, abs_mul]
  exact mul_le_mul ((abs_add_le _ _).trans hN) h (abs_nonneg _) ((add_nonneg (abs_nonneg _) (abs_nonneg _)).trans hN)

theorem V3.perp_norm_le {k : V3 ℝ} (hk : IsUnit3 k) (v : V3 ℝ) : (v.perp k).norm ≤ v.norm := by
  rw [V3.norm_eq, V3.norm_eq]
  refine Real.sqrt_le_sqrt ?_
  rw [V3.perp_dot_self hk]
  linarith [sq_nonneg (v.dot k)]

theorem cross_rot {k u : V3 ℝ} (hk : IsUnit3 k) (ku : k.dot u = 0) (φ : ℝ) :
    k.cross ((rot k φ).mulVec u) = (rot k (φ + Real.pi / 2)).mulVec u := by
  have e : k.cross (k.cross u) = -u := by
    have hk1 : k.x * k.x + k.y * k.y + k.z * k.z = 1 := hk
    simp only [V3.dot] at ku
    ext
    · simp; linear_combination k.x * ku - u.x * hk1
    · simp; linear_combination k.y * ku - u.y * hk1
    · simp; linear_combination k.z * ku - u.z * hk1
  rw [rot_mulVec k hk, rot_mulVec k hk, ku, Real.cos_add_pi_div_two, Real.sin_add_pi_div_two]
  have e1 := congrArg V3.x e
  have e2 := congrArg V3.y e
  have e3 := congrArg V3.z e
  simp only [V3.cross, V3.neg_x, V3.neg_y, V3.neg_z] at e1 e2 e3
  ext
  · simp; linear_combination Real.sin φ * e1
  · simp; linear_combination Real.sin φ * e2
  · simp; linear_combination Real.sin φ * e3

/-- How fast the distance changes with the angle. -/
theorem sp3_rate {p q k : V3 ℝ} (hk : IsUnit3 k) (hp : p.perp k ≠ 0) (hq : q.perp k ≠ 0) {θ0 : ℝ}
    (h0 : (rot k θ0).mulVec (Spec.dir p k) = Spec.dir q k) (φ : ℝ) :
    q.dot (k.cross ((rot k φ).mulVec p)) = -((p.perp k).norm * (q.perp k).norm * Real.sin (φ - θ0)) := by
  have e : q.dot (k.cross ((rot k φ).mulVec p)) = (q.perp k).dot (k.cross (((rot k φ).mulVec p).perp k)) := by
    generalize (rot k φ).mulVec p = r
    simp [V3.perp, V3.dot]; ring
  rw [e, rot_perp_eq hk, perp_eq_dir hp, M3.mulVec_hsmul, perp_eq_dir hq, ← h0]
  have c : ∀ (t : ℝ) (w : V3 ℝ), k.cross (t • w) = t • k.cross w := by intro t w; ext <;> simp <;> ring
  rw [c, cross_rot hk (dir_perp hk), V3.hsmul_dot, V3.dot_hsmul, rot_dot_rot hk (dir_unit hp) (dir_perp hk),
    show φ + Real.pi / 2 - θ0 = (φ - θ0) + Real.pi / 2 by ring, Real.cos_add_pi_div_two, ← perp_eq_dir hp, h0, ← perp_eq_dir hq]
  ring

namespace Fl
variable {F : FSys}

theorem C3.of_le (v : V3 ℝ) {e : ℝ} (h : 0 ≤ e) : C3 (v.map Fl.of : V3 (Fl F)) v e :=
  ⟨(near_of v.x).mono h, (near_of v.y).mono h, (near_of v.z).mono h⟩

/-- The quantities computed by `subproblem3` before the inverse functions, from the stored points. -/
theorem sp3_coeff {k v w : V3 ℝ} (hk : IsUnit3 k) (hv : v.norm ≤ 21 / 10) (hw : w.norm ≤ 21 / 10) {δ : ℝ} (hδ : |δ| ≤ 41 / 10)
    {k' : V3 (Fl F)} (hu : F.u ≤ 1 / 1000000) (hη : 16 * F.η ≤ F.u ^ 3) (hk' : C3 k' k F.u) {pp qp : V3 (Fl F)}
    (epp : pp = v.map of - V3.smul ((v.map of).dot k') k') (eqp : qp = w.map of - V3.smul ((w.map of).dot k') k') :
    C3 pp (v.perp k) (1048 * F.u) ∧ C3 qp (w.perp k) (1048 * F.u) ∧
    (of δ * of δ - k'.dot (v.map of + w.map of) * k'.dot (v.map of + w.map of)).Near (δ * δ - k.dot (v + w) * k.dot (v + w)) (630 * F.u) ∧
    (-(pp.dot pp + qp.dot qp - (of δ * of δ - k'.dot (v.map of + w.map of) * k'.dot (v.map of + w.map of)))).Near
      (-((v.perp k).dot (v.perp k) + (w.perp k).dot (w.perp k) - (δ * δ - k.dot (v + w) * k.dot (v + w)))) (29000 * F.u) ∧
    (lit 2 * pp.norm * qp.norm).Near (2 * (v.perp k).norm * (w.perp k).norm) (19000 * F.u) := by
  have u0 := F.u_nonneg
  have k1 := V3.norm_eq_one hk
  have hk1 : C3 k' k (1 * F.u) := by rwa [one_mul]
  have hpp : C3 pp (v.perp k) (1048 * F.u) := by
    rw [epp]
    exact near_perp hk (by linarith) le_rfl (by linarith) (hk'.mono (by linarith)) (C3.of_le v u0)
  have hqp : C3 qp (w.perp k) (1048 * F.u) := by
    rw [eqp]
    exact near_perp hk (by linarith) le_rfl (by linarith) (hk'.mono (by linarith)) (C3.of_le w u0)
  have nv := (V3.perp_norm_le hk v).trans hv
  have nw := (V3.perp_norm_le hk w).trans hw
  have nvw : (v + w).norm ≤ 42 / 10 := (V3.norm_add_le _ _).trans (by linarith)
  have hsum : C3 (v.map of + w.map of : V3 (Fl F)) (v + w) (6 * F.u) := by
    have add : ∀ {x y : ℝ}, |x + y| ≤ 42 / 10 → (of x + of y : Fl F).Near (x + y) (6 * F.u) := fun {x y} h =>
      Near.addE (ε := F.u) 6 (k := 0) (l := 0) (by rw [zero_mul]; exact near_of x) (by rw [zero_mul]; exact near_of y) le_rfl
        (by linarith) h (by norm_num) (by norm_num) (by norm_num)
    exact ⟨add ((V3.abs_x_le (v + w)).trans nvw), add ((V3.abs_y_le (v + w)).trans nvw), add ((V3.abs_z_le (v + w)).trans nvw)⟩
  have hks := near_dotE (ε := F.u) 16 42 65 hk1 hsum le_rfl hu (by norm_num) k1.le nvw (by norm_num) (by norm_num) (by norm_num) (by norm_num)
    (by norm_num) (by norm_num)
  have bks : |k.dot (v + w)| ≤ 42 / 10 := by
    have := V3.abs_dot_le k (v + w)
    rw [k1, one_mul] at this
    exact this.trans nvw
  have hks2 := hks.mulE 570 hks le_rfl (by linarith) bks bks (by norm_num) (by norm_num) (by norm_num) (by norm_num)
  have hd0 : (of δ : Fl F).Near δ (0 * F.u) := by rw [zero_mul]; exact near_of δ
  have hd2 := hd0.mulE 18 hd0 le_rfl (by linarith) hδ hδ le_rfl le_rfl (by norm_num) (by norm_num)
  have bd2 : |δ * δ| ≤ 17 := by rw [abs_mul]; exact (mul_le_mul hδ hδ (abs_nonneg _) (by norm_num)).trans (by norm_num)
  have bk2 : |k.dot (v + w) * k.dot (v + w)| ≤ 18 := by
    rw [abs_mul]; exact (mul_le_mul bks bks (abs_nonneg _) (by norm_num)).trans (by norm_num)
  have hdp := hd2.subE 630 hks2 le_rfl (by linarith) (S := 35) ((abs_sub _ _).trans (by linarith)) (by norm_num) (by norm_num) (by norm_num)
  have sqv : |(v.perp k).dot (v.perp k)| ≤ 5 := by
    rw [← V3.norm_mul_self, abs_mul, abs_of_nonneg (V3.norm_nonneg _)]
    exact (mul_le_mul nv nv (V3.norm_nonneg _) (by norm_num)).trans (by norm_num)
  have sqw : |(w.perp k).dot (w.perp k)| ≤ 5 := by
    rw [← V3.norm_mul_self, abs_mul, abs_of_nonneg (V3.norm_nonneg _)]
    exact (mul_le_mul nw nw (V3.norm_nonneg _) (by norm_num)).trans (by norm_num)
  have h1 := near_dotE (ε := F.u) 4420 8860 13320 hpp hpp le_rfl hu (by norm_num) nv nv (by norm_num) (by norm_num) (by norm_num) (by norm_num)
    (by norm_num) (by norm_num)
  have h2 := near_dotE (ε := F.u) 4420 8860 13320 hqp hqp le_rfl hu (by norm_num) nw nw (by norm_num) (by norm_num) (by norm_num) (by norm_num)
    (by norm_num) (by norm_num)
  have h3 := h1.addE 26700 h2 le_rfl (by linarith) (S := 10) ((abs_add_le _ _).trans (by linarith)) (by norm_num) (by norm_num) (by norm_num)
  have h4 := h3.subE 29000 hdp le_rfl (by linarith) (S := 45) (by
    have g1 := abs_add_le ((v.perp k).dot (v.perp k)) ((w.perp k).dot (w.perp k))
    have g2 := abs_sub (δ * δ) (k.dot (v + w) * k.dot (v + w))
    exact (abs_sub _ _).trans (by linarith)) (by norm_num) (by norm_num) (by norm_num)
  have nrm : ∀ {a : V3 (Fl F)} {x : V3 ℝ}, C3 a x (1048 * F.u) → x.norm ≤ 21 / 10 → a.norm.Near x.norm (2180 * F.u) := by
    intro a x h hx
    refine (near_norm3 h hx (by linarith) hη).mono ?_
    have : (39 * (21 / 10 + 2 * (1048 * F.u)) + 1) * F.u ≤ 84 * F.u := mul_le_mul_of_nonneg_right (by linarith) u0
    linarith
  have l2 : (lit 2 : Fl F).Near 2 (3 * F.u) := by
    have := near_lit (F := F) (ε := F.u) 2 (S := 2) le_rfl (by linarith) (by norm_num) (by norm_num)
    norm_num at this
    exact this
  have m1 := l2.mulE 4385 (nrm hpp nv) le_rfl (by linarith) (M := 2) (N := 21 / 10) (by norm_num) (by rw [abs_of_nonneg (V3.norm_nonneg _)]; exact nv)
    (by norm_num) (by norm_num) (by norm_num) (by norm_num)
  have m2 := m1.mulT 19000 (nrm hqp nw) le_rfl hu (by norm_num) (M := 42 / 10) (N := 21 / 10) (by
    rw [abs_mul, abs_two, abs_of_nonneg (V3.norm_nonneg _)]; linarith) (by rw [abs_of_nonneg (V3.norm_nonneg _)]; exact nw)
    (by norm_num) (by norm_num) (by norm_num) (by norm_num)
  exact ⟨hpp, hqp, hdp, h4.neg, m2⟩

theorem subproblem0_cases (p q k : V3 (Fl F)) : subproblem0 p q k = .error .assertion ∨
    ∃ v w : V3 (Fl F), subproblem0 p q k = .ok (lit 2 * Elem.arctan2 v.norm w.norm) ∨ subproblem0 p q k = .ok (-(lit 2 * Elem.arctan2 v.norm w.norm)) := by
  by_cases hc : k.dot p < npEps ∧ k.dot q < npEps
  · refine Or.inr ⟨p.sdiv p.norm - q.sdiv q.norm, p.sdiv p.norm + q.sdiv q.norm, ?_⟩
    by_cases hneg : k.dot (p.cross q) < 0
    · exact Or.inr (by simp [subproblem0, pyAssert, hc, hneg])
    · exact Or.inl (by simp [subproblem0, pyAssert, hc, hneg])
  · exact Or.inl (by simp [subproblem0, pyAssert, hc])

theorem subproblem1_cases (p q k : V3 (Fl F)) : subproblem1 p q k = .error .assertion ∨ subproblem1 p q k = .ok 0 ∨
    ∃ v w : V3 (Fl F), subproblem1 p q k = .ok (lit 2 * Elem.arctan2 v.norm w.norm) ∨ subproblem1 p q k = .ok (-(lit 2 * Elem.arctan2 v.norm w.norm)) := by
  by_cases hc : (p - q).norm < (Elem.sqrt npEps : Fl F)
  · exact Or.inr (Or.inl (by simp [subproblem1, hc]))
  · have e : subproblem1 p q k = subproblem0 (dir p k) (dir q k) (k.sdiv k.norm) := by
      simp [subproblem1, hc, dir]
    rw [e]
    rcases subproblem0_cases (dir p k) (dir q k) (k.sdiv k.norm) with h | h
    · exact Or.inl h
    · exact Or.inr (Or.inr h)

/-- A computed norm is not negative. -/
theorem norm_fin_nonneg {v : V3 (Fl F)} {x : ℝ} (h : v.norm.val = .fin x) : 0 ≤ x := by
  change F.round (Elem.sqrt (v.dot v).val) = _ at h
  cases hd : (v.dot v).val with
  | fin d =>
    rw [hd] at h
    by_cases h0 : 0 ≤ d
    · rw [XReal.sqrt_fin h0] at h
      simp only [FSys.round] at h
      split_ifs at h
      cases h
      exact F.rnd_nonneg _ (Real.sqrt_nonneg d)
    · rw [XReal.sqrt_fin', if_neg h0] at h
      cases h
  | _ => rw [hd] at h; cases h

/-- `arctan2` of two norms is in the first quadrant. -/
theorem arctan2_quadrant (hF : Spec.InvAcc F) {y x : ℝ} (hy : 0 ≤ y) (hx : 0 ≤ x) : |F.arctan2F y x| ≤ 11 / 7 + 1 / 1000 := by
  by_cases h : y ≠ 0 ∨ x ≠ 0
  · obtain ⟨n, hn⟩ := hF.arctan2 y x h
    have h5 := hF.arctan2_le y x
    have hu := F.u_le
    have p1 := Real.pi_gt_d2
    have p2 := Real.pi_lt_d4
    have a0 : 0 ≤ Complex.arg ⟨x, y⟩ := Complex.arg_nonneg_iff.2 hy
    have a1 : Complex.arg ⟨x, y⟩ ≤ Real.pi / 2 := (abs_le.1 (Complex.abs_arg_le_pi_div_two_iff.2 hx)).2
    generalize F.arctan2F y x = a at *
    rw [abs_le] at hn h5
    have n0 : n = 0 := by
      have h1 : (n : ℝ) < 1 := by nlinarith
      have h2 : (-1 : ℝ) < n := by nlinarith
      have h1' : n < 1 := by exact_mod_cast h1
      have h2' : -1 < n := by exact_mod_cast h2
      omega
    subst n0
    rw [Int.cast_zero, zero_mul, sub_zero] at hn
    exact abs_le.2 ⟨by linarith, by linarith⟩
  · push Not at h
    rw [h.1, h.2]
    exact hF.arctan2_zero.trans (by norm_num)

/-- The angles returned by `subproblem1` are at most half a turn. -/
theorem subproblem1_le (hF : Spec.InvAcc F) {p q k : V3 (Fl F)} {th : Fl F} (h : subproblem1 p q k = .ok th) {x : ℝ} (hx : th.val = .fin x) : |x| ≤ 16 / 5 := by
  have key : ∀ {a b : V3 (Fl F)} {x : ℝ}, (lit 2 * Elem.arctan2 a.norm b.norm).val = .fin x → |x| ≤ 16 / 5 := by
    intro a b x hx
    have q : ∀ {v : ℝ}, (Elem.arctan2 a.norm b.norm : Fl F).val = .fin v → |v| ≤ 11 / 7 + 1 / 1000 := by
      intro v hv
      change (match a.norm.val, b.norm.val with
        | .fin y, .fin x => XReal.fin (F.arctan2F y x)
        | _, _ => .nan) = .fin v at hv
      rcases ha : a.norm.val with _ | _ | _ | s <;> rcases hb : b.norm.val with _ | _ | _ | t <;> rw [ha, hb] at hv <;> cases hv
      exact arctan2_quadrant hF (norm_fin_nonneg ha) (norm_fin_nonneg hb)
    generalize a.norm = y at *
    generalize b.norm = z at *
    have two : (Elem.arctan2 y z : Fl F).val = .nan ∨ ∃ v, (Elem.arctan2 y z : Fl F).val = .fin v := by
      change (match y.val, z.val with
        | .fin y, .fin x => XReal.fin (F.arctan2F y x)
        | _, _ => .nan) = .nan ∨ ∃ v, (match y.val, z.val with
        | .fin y, .fin x => XReal.fin (F.arctan2F y x)
        | _, _ => .nan) = .fin v
      split
      · exact Or.inr ⟨_, rfl⟩
      · exact Or.inl rfl
    rcases two with hv | ⟨v, hv⟩
    · change F.round ((lit 2 : Fl F).val * (Elem.arctan2 y z : Fl F).val) = _ at hx
      have nn : ∀ r : XReal, r * .nan = .nan := by intro r; cases r <;> rfl
      rw [hv, nn] at hx
      cases hx
    · have v4 := q hv
      have u1 := F.u_le
      have l2 : (lit 2 : Fl F).Near 2 (3 * F.u) := by
        have := near_lit (F := F) (ε := F.u) 2 (S := 2) le_rfl (by linarith) (by norm_num) (by norm_num)
        norm_num at this
        exact this
      have hv' : (Elem.arctan2 y z).Near v (0 * F.u) := ⟨v, hv, by simp⟩
      obtain ⟨r, hr, h⟩ := l2.mulT 9 hv' le_rfl u1 (by norm_num) (M := 2) (N := 11 / 7 + 1 / 1000) (by norm_num) v4 (by norm_num) (by norm_num) (by norm_num)
        (by norm_num)
      rw [hx] at hr
      cases hr
      have g := abs_add_le (x - 2 * v) (2 * v)
      rw [sub_add_cancel, abs_mul, abs_two] at g
      linarith
  rcases subproblem1_cases p q k with h1 | h1 | ⟨y, z, h1 | h1⟩
  · rw [h1] at h; cases h
  · rw [h1] at h; cases h; cases hx; norm_num
  · rw [h1] at h; cases h; exact key hx
  · rw [h1] at h; cases h
    change -(lit 2 * Elem.arctan2 y.norm z.norm : Fl F).val = _ at hx
    rcases hv : (lit 2 * Elem.arctan2 y.norm z.norm : Fl F).val with _ | _ | _ | v <;> rw [hv] at hx <;> cases hx
    · have := key hv
      rwa [abs_neg]

/-- The angle at the elbow: `c` and `z` are its cosine and sine. -/
theorem sp3_phi (hF : Spec.InvAcc F) {a b c z m f : ℝ} (ab0 : 0 < a * b) (ab4 : a * b ≤ 4) (zpos : 0 < z) (hcz : c * c + z * z = 1) (hm0 : 0 < m)
    (hm : m ≤ a * b * z) (f0 : 0 ≤ f) (he : 2500000 * F.u + 330 * f ≤ m ^ 2) {N D : Fl F} (nN : N.Near (2 * (a * b) * c) (29400 * F.u + 81 / 10 * f))
    (nD : D.Near (2 * (a * b)) (19135 * F.u)) :
    ¬ (1 < Elem.abs (N / D)) ∧ 0 < Elem.abs (Elem.arccos (N / D)) ∧
    ∃ x, (Elem.arccos (N / D)).val = .fin x ∧ |x - Real.arccos c| ≤ (46000 * F.u + 77 / 10 * f) / m ∧ |x| ≤ 5 := by
  have u0 := F.u_nonneg
  have z0 := zpos.le
  have c1 : |c| ≤ 1 := by
    rw [← sq_le_one_iff_abs_le_one]
    have := mul_self_nonneg z
    linarith
  have z1 : z ≤ 1 := by
    have := mul_self_nonneg c
    exact (sq_le_sq₀ z0 zero_le_one).1 (by rw [one_pow]; linarith)
  have mab : m ≤ a * b := hm.trans (mul_le_of_le_one_right ab0.le z1)
  have m4 : m ≤ 4 := mab.trans ab4
  have m2 : m ^ 2 ≤ 4 * m := by rw [pow_two]; exact mul_le_mul_of_nonneg_right m4 hm0.le
  have um : 625000 * F.u ≤ m := by linarith
  have fm : 82 * f ≤ m := by linarith
  have abz : a * b ≠ 0 := ab0.ne'
  have quo : 2 * (a * b) * c / (2 * (a * b)) = c := by rw [mul_div_cancel_left₀ c (by positivity)]
  have hquot := near_quotG nN nD (by positivity) (by rw [quo]; exact c1) (by linarith) (D := (27000 * F.u + 9 / 2 * f) / (a * b)) (by
    rw [div_le_div_iff₀ (by positivity) ab0]
    have := mul_le_mul_of_nonneg_right (show 29400 * F.u + 81 / 10 * f + 19135 * F.u ≤ (27000 * F.u + 9 / 2 * f) * (9 / 5) by linarith) ab0.le
    linarith) (by rw [div_le_one ab0]; linarith)
  rw [quo] at hquot
  generalize N / D = Q at *
  have hδs : 16 * ((27000 * F.u + 9 / 2 * f) / (a * b) + 3 * F.u) ≤ z ^ 2 := by
    have g1 : m ^ 2 ≤ (a * b) ^ 2 * z ^ 2 := by rw [← mul_pow]; exact pow_le_pow_left₀ hm0.le hm 2
    have g2 : (a * b) ^ 2 * z ^ 2 ≤ 4 * (a * b) * z ^ 2 := mul_le_mul_of_nonneg_right (by rw [pow_two]; exact mul_le_mul_of_nonneg_right ab4 ab0.le)
      (sq_nonneg z)
    have g3 : (27000 * F.u + 9 / 2 * f) / (a * b) + 3 * F.u ≤ (27012 * F.u + 9 / 2 * f) / (a * b) := by
      rw [div_add' _ _ _ abz]
      refine div_le_div_of_nonneg_right ?_ ab0.le
      have := mul_le_mul_of_nonneg_left ab4 (show 0 ≤ 3 * F.u by linarith)
      linarith
    have g4 : 16 * ((27012 * F.u + 9 / 2 * f) / (a * b)) ≤ z ^ 2 := by
      rw [← mul_div_assoc, div_le_iff₀ ab0]
      linarith
    linarith
  have hφ := near_arccos hF zpos hcz hquot hδs
  obtain ⟨y, hy, hye⟩ := hquot
  obtain ⟨y1, y2, -⟩ := arccos_lip zpos hcz hye hδs
  have nabs : ¬ (1 < Elem.abs Q) := by
    change ¬ (XReal.fin 1 < Elem.abs Q.val)
    rw [hy]
    change ¬ (XReal.fin 1 < XReal.fin |y|)
    rw [XReal.fin_lt]
    exact not_lt.2 (abs_le.2 ⟨y1, y2⟩)
  have hφ1 : 17 / 10 * (((27000 * F.u + 9 / 2 * f) / (a * b) + 3 * F.u) / z) + F.u ≤ (46000 * F.u + 77 / 10 * f) / m := by
    have g1 : ((27000 * F.u + 9 / 2 * f) / (a * b) + 3 * F.u) / z = (27000 * F.u + 9 / 2 * f + 3 * F.u * (a * b)) / (a * b * z) := by
      rw [div_add' _ _ _ abz, div_div]
    have g2 : (27000 * F.u + 9 / 2 * f + 3 * F.u * (a * b)) / (a * b * z) ≤ (27012 * F.u + 9 / 2 * f) / m := by
      refine div_le_div₀ (by linarith) ?_ hm0 hm
      have := mul_le_mul_of_nonneg_left ab4 (show 0 ≤ 3 * F.u by linarith)
      linarith
    have g3 : F.u ≤ 4 * F.u / m := by rw [le_div_iff₀ hm0, mul_comm 4]; exact mul_le_mul_of_nonneg_left m4 u0
    rw [g1]
    have g4 : 17 / 10 * ((27012 * F.u + 9 / 2 * f) / m) + 4 * F.u / m ≤ (46000 * F.u + 77 / 10 * f) / m := by
      rw [← mul_div_assoc, ← add_div]
      exact div_le_div_of_nonneg_right (by linarith) hm0.le
    linarith
  have hφ2 : 17 / 10 * (((27000 * F.u + 9 / 2 * f) / (a * b) + 3 * F.u) / z) + F.u < z := by
    have g1 : ((27000 * F.u + 9 / 2 * f) / (a * b) + 3 * F.u) / z ≤ z / 16 := by
      rw [div_le_iff₀ zpos]
      linarith
    have g2 : m / 4 ≤ z := by
      have := mul_le_mul_of_nonneg_right ab4 z0
      linarith
    linarith
  have φ0 : z ≤ Real.arccos c := by
    have g : Real.sin (Real.arccos c) = z := by
      rw [Real.sin_arccos, show 1 - c ^ 2 = z ^ 2 by linarith, Real.sqrt_sq z0]
    rw [← g]
    exact Real.sin_le (Real.arccos_nonneg c)
  have φπ := Real.arccos_le_pi c
  set E := 17 / 10 * (((27000 * F.u + 9 / 2 * f) / (a * b) + 3 * F.u) / z) + F.u with hE
  obtain ⟨x, hxv, hxe⟩ := hφ
  have x0 : 0 < x := by have := (abs_le.1 hxe).1; linarith
  have x5 : |x| ≤ 5 := by
    rw [abs_of_pos x0]
    have := (abs_le.1 hxe).2
    have := Real.pi_lt_d2
    linarith
  have pabs : 0 < Elem.abs (Elem.arccos Q) := by
    change XReal.fin 0 < Elem.abs (Elem.arccos Q).val
    rw [hxv]
    change XReal.fin 0 < XReal.fin |x|
    rw [XReal.fin_lt]
    exact abs_pos.2 x0.ne'
  exact ⟨nabs, pabs, x, hxv, hxe.trans hφ1, x5⟩

/-- The direction of a computed perpendicular part. -/
theorem sp3_dir {k r x : V3 ℝ} {m : ℝ} (hm0 : 0 < m) (m4 : m ≤ 4) (um : 625000 * F.u ≤ m) (hη : 16 * F.η ≤ F.u ^ 3) {r' : V3 (Fl F)}
    (h1 : C3 r' (r.perp k) (1048 * F.u)) (h2 : (r.perp k).norm ≤ 21 / 10) (h3 : m / 2 ≤ (x.perp k).norm)
    (h4 : (r.perp k - x.perp k).norm ≤ 16 * F.u) : Spec.VNear (r'.sdiv r'.norm) (Spec.dir x k) (30000 * (F.u / m)) := by
  have u0 := F.u_nonneg
  have hm4 : 0 < m / 4 := by linarith
  have hU : F.u / (m / 4) = 4 * (F.u / m) := by field_simp
  have um0 : 0 ≤ F.u / m := by positivity
  have n2 : x.perp k ≠ 0 := by intro h; rw [h, V3.norm_zero] at h3; linarith
  have g1 := (abs_le.1 ((V3.norm_sub_rev (r.perp k) (x.perp k)).trans h4)).1
  have g2 : m / 4 ≤ (r.perp k).norm := by linarith
  have g3 := near_direction hm4 (by linarith) g2 (by linarith) le_rfl (by linarith) hη h1
  rw [hU] at g3
  obtain ⟨r'', hr'', g4⟩ := vNear_of_entries g3.1 g3.2.1 g3.2.2
  refine ⟨r'', hr'', ?_⟩
  have n1 : r.perp k ≠ 0 := by intro h; rw [h, V3.norm_zero] at g2; linarith
  have g5 := V3.unit_sub_le n1 n2
  have g6 : (r.perp k - x.perp k).norm / (x.perp k).norm ≤ 16 * F.u / (m / 2) := div_le_div₀ (by linarith) h4 (by linarith) h3
  have g7 := V3.norm_add_le (r'' - (r.perp k).sdiv (r.perp k).norm) ((r.perp k).sdiv (r.perp k).norm - (x.perp k).sdiv (x.perp k).norm)
  rw [show (r'' - (r.perp k).sdiv (r.perp k).norm) + ((r.perp k).sdiv (r.perp k).norm - (x.perp k).sdiv (x.perp k).norm) =
    r'' - Spec.dir x k by ext <;> simp [Spec.dir]] at g7
  rw [show 16 * F.u / (m / 2) = 32 * (F.u / m) by field_simp; ring] at g6
  linarith

/-- `subproblem3` for points known up to a few rounding errors and a distance known up to `f`: unless the inner check fails, the two angles are
near two solutions. -/
theorem subproblem3_both (hF : Spec.InvAcc F) {k p q : V3 ℝ} (hk : IsUnit3 k) (hp : p.norm ≤ 2) (hq : q.norm ≤ 2) {d θ m f β : ℝ} (hd0 : 0 ≤ d)
    (hd : (q + (rot k θ).mulVec p).norm = d) (hm0 : 0 < m) (hm : m ≤ |q.dot (k.cross ((rot k θ).mulVec p))|)
    {k' p' q' : V3 (Fl F)} {d' : Fl F} (hu : F.u ≤ 1 / 100000000000) (hη : 16 * F.η ≤ F.u ^ 3) (hf : f ≤ 1 / 10) (he : 2500000 * F.u + 330 * f ≤ m ^ 2)
    (hβ : Band β (60000 * (F.u / m)) (Spec.dir p k) (Spec.dir q k))
    (hk' : Spec.VNear k' k F.u) (hp' : Spec.VNear p' p (16 * F.u)) (hq' : Spec.VNear q' q (16 * F.u)) (hd' : d'.Near d f) :
    (subproblem3 p' q' k' d' = .error .assertion ∧ ∃ a b : V3 (Fl F), ∃ r s : Fl F, Spec.VNear (a.sdiv r) (Spec.dir p k) (1 / 4) ∧
      Spec.VNear (b.sdiv s) (Spec.dir q k) (1 / 4) ∧
      ¬ ((k'.sdiv k'.norm).dot (dir (a.sdiv r) k') < npEps ∧ (k'.sdiv k'.norm).dot (dir (b.sdiv s) k') < npEps)) ∨
    ∃ t1 t2 θa θb, subproblem3 p' q' k' d' = .ok [t1, t2] ∧ (q + (rot k θa).mulVec p).norm = d ∧ (q + (rot k θb).mulVec p).norm = d ∧
      Spec.AngNear t1 θa (β + (77 / 10 * f + 3200000 * F.u) / m) ∧ Spec.AngNear t2 θb (β + (77 / 10 * f + 3200000 * F.u) / m) ∧
      ∃ l : ℤ, θ = θa + l * (2 * Real.pi) ∨ θ = θb + l * (2 * Real.pi) := by
  have u0 := F.u_nonneg
  have k1 := V3.norm_eq_one hk
  obtain ⟨v, rfl, hv⟩ := hp'
  obtain ⟨w, rfl, hw⟩ := hq'
  obtain ⟨δ, hδ, hδd⟩ := hd'
  have f0 : 0 ≤ f := (abs_nonneg _).trans hδd
  have hd'' : d' = of δ := congrArg Fl.mk hδ
  subst hd''
  have hv2 : v.norm ≤ 21 / 10 := by
    have := V3.norm_add_le (v - p) p
    rw [show v - p + p = v by ext <;> simp] at this
    linarith
  have hw2 : w.norm ≤ 21 / 10 := by
    have := V3.norm_add_le (w - q) q
    rw [show w - q + q = w by ext <;> simp] at this
    linarith
  have hd4 : d ≤ 4 := by
    rw [← hd]
    have := V3.norm_add_le q ((rot k θ).mulVec p)
    rw [(rot_isRot k hk θ).norm_mulVec] at this
    linarith
  have hδ4 : |δ| ≤ 41 / 10 := by
    have := abs_add_le (δ - d) d
    rw [sub_add_cancel, abs_of_nonneg hd0] at this
    linarith
  -- the two distances from the axis
  have rate : |q.dot (k.cross ((rot k θ).mulVec p))| ≤ (q.perp k).norm * (p.perp k).norm := by
    have e : q.dot (k.cross ((rot k θ).mulVec p)) = (q.perp k).dot (k.cross (((rot k θ).mulVec p).perp k)) := by
      generalize (rot k θ).mulVec p = r
      simp [V3.perp, V3.dot]; ring
    rw [e, rot_perp_eq hk]
    refine (V3.abs_dot_le _ _).trans (mul_le_mul_of_nonneg_left ?_ (V3.norm_nonneg _))
    have := V3.norm_cross_le k ((rot k θ).mulVec (p.perp k))
    rwa [k1, one_mul, (rot_isRot k hk θ).norm_mulVec] at this
  have ha2 := (V3.perp_norm_le hk p).trans hp
  have hb2 := (V3.perp_norm_le hk q).trans hq
  have hma : m / 2 ≤ (p.perp k).norm := by
    have := mul_le_mul_of_nonneg_right hb2 (V3.norm_nonneg (p.perp k))
    linarith
  have hmb : m / 2 ≤ (q.perp k).norm := by
    have := mul_le_mul_of_nonneg_left ha2 (V3.norm_nonneg (q.perp k))
    linarith
  have ne : ∀ {a : V3 ℝ}, m / 2 ≤ a.norm → a ≠ 0 := by
    intro a h h0; rw [h0, V3.norm_zero] at h; linarith
  have p0 := ne hma
  have q0 := ne hmb
  have hpu := dir_unit p0
  have hqu := dir_unit q0
  obtain ⟨θ0, h0, -⟩ := exists_rot_dir hk hpu hqu (dir_perp hk) (dir_perp hk)
  have hr := sp3_rate hk p0 q0 h0 θ
  have hx := sp3_expand hk p0 q0 h0 θ
  rw [← V3.norm_mul_self, hd] at hx
  rw [hr, abs_neg, abs_mul, abs_of_nonneg (mul_nonneg (V3.norm_nonneg _) (V3.norm_nonneg _))] at hm
  obtain ⟨np, nq, ndp, nnum, nden⟩ := sp3_coeff hk hv2 hw2 hδ4 (by linarith) hη (VNear.entries hk') rfl rfl
  have evp := (V3.perp_sub_norm hk v p).trans hv
  have ewq := (V3.perp_sub_norm hk w q).trans hw
  have nvp := (V3.norm_sub_rev (v.perp k) (p.perp k)).trans evp
  have nwq := (V3.norm_sub_rev (w.perp k) (q.perp k)).trans ewq
  have va2 := (V3.perp_norm_le hk v).trans hv2
  have wb2 := (V3.perp_norm_le hk w).trans hw2
  have kap : |k.dot (v + w) - k.dot (p + q)| ≤ 32 * F.u := by
    rw [← V3.dot_sub]
    refine (V3.abs_dot_le _ _).trans ?_
    rw [k1, one_mul, show v + w - (p + q) = (v - p) + (w - q) by ext <;> simp <;> ring]
    exact (V3.norm_add_le _ _).trans (by linarith)
  have kap1 : |k.dot (v + w)| ≤ 42 / 10 := by
    have := V3.abs_dot_le k (v + w)
    have := V3.norm_add_le v w
    rw [k1, one_mul] at *
    linarith
  have kap2 : |k.dot (p + q)| ≤ 4 := by
    have := V3.abs_dot_le k (p + q)
    have := V3.norm_add_le p q
    rw [k1, one_mul] at *
    linarith
  set a := (p.perp k).norm with ha
  set b := (q.perp k).norm with hb
  have a0 : 0 < a := by linarith
  have b0 : 0 < b := by linarith
  have P1 : |(v.perp k).dot (v.perp k) - (p.perp k).dot (p.perp k)| ≤ 41 / 10 * (16 * F.u) := by
    rw [← V3.norm_mul_self, ← V3.norm_mul_self]
    refine sq_sub_le nvp ?_
    rw [abs_of_nonneg (V3.norm_nonneg _), abs_of_nonneg (V3.norm_nonneg _)]
    linarith
  have P2 : |(w.perp k).dot (w.perp k) - (q.perp k).dot (q.perp k)| ≤ 41 / 10 * (16 * F.u) := by
    rw [← V3.norm_mul_self, ← V3.norm_mul_self]
    refine sq_sub_le nwq ?_
    rw [abs_of_nonneg (V3.norm_nonneg _), abs_of_nonneg (V3.norm_nonneg _)]
    linarith
  have P3 := sq_sub_le kap (N := 82 / 10) (by linarith)
  have P4 := sq_sub_le hδd (N := 81 / 10) (by rw [abs_of_nonneg hd0]; linarith)
  have P5 : |2 * (v.perp k).norm * (w.perp k).norm - 2 * (a * b)| ≤ 135 * F.u := by
    rw [show 2 * (v.perp k).norm * (w.perp k).norm - 2 * (a * b) = 2 * (((v.perp k).norm - a) * (w.perp k).norm + a * ((w.perp k).norm - b)) by ring,
      abs_mul, abs_two]
    have g := abs_add_le (((v.perp k).norm - a) * (w.perp k).norm) (a * ((w.perp k).norm - b))
    rw [abs_mul, abs_mul, abs_of_nonneg (V3.norm_nonneg (w.perp k)), abs_of_pos a0] at g
    have g1 := mul_le_mul nvp wb2 (V3.norm_nonneg _) (by linarith)
    have g2 := mul_le_mul ha2 nwq (abs_nonneg _) (by norm_num)
    linarith
  set c := Real.cos (θ - θ0) with hc
  set z := |Real.sin (θ - θ0)| with hz
  have z0 : 0 ≤ z := abs_nonneg _
  have hcz : c * c + z * z = 1 := by
    rw [hz, abs_mul_abs_self]
    have := Real.sin_sq_add_cos_sq (θ - θ0)
    linarith
  have z1 : z ≤ 1 := Real.abs_sin_le_one _
  have ab0 : 0 < a * b := mul_pos a0 b0
  have ab4 : a * b ≤ 4 := (mul_le_mul ha2 hb2 b0.le (by norm_num)).trans (by norm_num)
  have mab : m ≤ a * b := hm.trans (mul_le_of_le_one_right ab0.le z1)
  have zpos : 0 < z := by
    rcases z0.eq_or_lt with h | h
    · rw [← h, mul_zero] at hm; linarith
    · exact h
  have m4 : m ≤ 4 := mab.trans ab4
  have m2 : m ^ 2 ≤ 4 * m := by rw [pow_two]; exact mul_le_mul_of_nonneg_right m4 hm0.le
  have um : 625000 * F.u ≤ m := by linarith
  have fm : 82 * f ≤ m := by linarith
  have numE : -((v.perp k).dot (v.perp k) + (w.perp k).dot (w.perp k) - (δ * δ - k.dot (v + w) * k.dot (v + w))) - 2 * (a * b) * c =
      -((v.perp k).dot (v.perp k) - (p.perp k).dot (p.perp k)) + -((w.perp k).dot (w.perp k) - (q.perp k).dot (q.perp k)) +
        ((δ * δ - d * d) - (k.dot (v + w) * k.dot (v + w) - k.dot (p + q) * k.dot (p + q))) := by
    linear_combination hx
  have nN := (nnum.shift (y := 2 * (a * b) * c) (e := 400 * F.u + 81 / 10 * f) (by
    rw [numE]
    refine (abs_add_le _ _).trans ?_
    have g1 := abs_add_le (-((v.perp k).dot (v.perp k) - (p.perp k).dot (p.perp k))) (-((w.perp k).dot (w.perp k) - (q.perp k).dot (q.perp k)))
    have g2 := abs_sub (δ * δ - d * d) (k.dot (v + w) * k.dot (v + w) - k.dot (p + q) * k.dot (p + q))
    rw [abs_neg, abs_neg] at g1
    linarith)).mono (show _ ≤ 29400 * F.u + 81 / 10 * f by linarith)
  have nD := (nden.shift P5).mono (show _ ≤ 19135 * F.u by linarith)
  have dpE : |δ * δ - k.dot (v + w) * k.dot (v + w) - (d * d - k.dot (p + q) * k.dot (p + q))| ≤ 81 / 10 * f + 82 / 10 * (32 * F.u) := by
    rw [show δ * δ - k.dot (v + w) * k.dot (v + w) - (d * d - k.dot (p + q) * k.dot (p + q)) =
      (δ * δ - d * d) - (k.dot (v + w) * k.dot (v + w) - k.dot (p + q) * k.dot (p + q)) by ring]
    exact (abs_sub _ _).trans (add_le_add P4 P3)
  obtain ⟨D, hD, hDe⟩ := ndp.shift dpE
  have Dpos : 0 ≤ D := by
    have h1 : m ^ 2 / 4 ≤ d * d - k.dot (p + q) * k.dot (p + q) := by
      have e1 : d * d - k.dot (p + q) * k.dot (p + q) = (a + b * c) ^ 2 + (b * z) ^ 2 := by
        have ea : (p.perp k).dot (p.perp k) = a * a := (V3.norm_mul_self _).symm
        have eb : (q.perp k).dot (q.perp k) = b * b := (V3.norm_mul_self _).symm
        rw [ea, eb] at hx
        linear_combination hx - b ^ 2 * hcz
      have e2 : m / 2 ≤ b * z := by
        have : a * (b * z) ≤ 2 * (b * z) := mul_le_mul_of_nonneg_right ha2 (by positivity)
        linarith
      have e3 : (m / 2) ^ 2 ≤ (b * z) ^ 2 := pow_le_pow_left₀ (by linarith) e2 2
      rw [e1]
      linarith [sq_nonneg (a + b * c)]
    have := (abs_le.1 hDe).1
    linarith
  have ndneg : ¬ (of δ * of δ - k'.dot (v.map of + w.map of) * k'.dot (v.map of + w.map of) : Fl F) < 0 := by
    change ¬ (of δ * of δ - k'.dot (v.map of + w.map of) * k'.dot (v.map of + w.map of) : Fl F).val < XReal.fin 0
    rw [hD, XReal.fin_lt]
    exact not_lt.2 Dpos
  obtain ⟨nabs, pabs, x, hxv, hxe, x5⟩ := sp3_phi hF ab0 ab4 zpos hcz hm0 hm f0 he nN nD
  have um1 : F.u / m ≤ 1 / 625000 := by rw [div_le_div_iff₀ hm0 (by norm_num)]; linarith
  have um0 : 0 ≤ F.u / m := by positivity
  have d1 := sp3_dir hm0 m4 um hη np va2 hma evp
  have d2 := sp3_dir hm0 m4 um hη nq wb2 hmb ewq
  have inner := subproblem1_nearE hF hk (p := Spec.dir p k) (q := Spec.dir q k) (θ := θ0) (s := 1) (e := 30000 * (F.u / m)) (f := 30000 * (F.u / m))
    (β := β) (by rw [V3.norm_eq_one hpu]; norm_num) h0 one_pos le_rfl (by rw [dir_perp_self hk, V3.norm_eq_one hpu]) (by linarith) (by linarith)
    (by linarith) hu hη (by rw [show 30000 * (F.u / m) + 30000 * (F.u / m) = 60000 * (F.u / m) by ring]; exact hβ) hk' d1 d2
  have hdn := not_or.2 ⟨ndneg, nabs⟩
  rcases inner with ⟨h1, h2⟩ | ⟨th, h1, n, y, hy, hye⟩
  · left
    refine ⟨?_, _, _, _, _, VNear.mono d1 (by linarith), VNear.mono d2 (by linarith), h2⟩
    simp only [subproblem3, if_neg hdn, h1]
    rfl
  right
  have cc : Real.cos (Real.arccos c) = c := Real.cos_arccos (Real.neg_one_le_cos _) (Real.cos_le_one _)
  have sol : ∀ α : ℝ, Real.cos (α - θ0) = c → (q + (rot k α).mulVec p).norm = d := by
    intro α hα
    have h2 := sp3_expand hk p0 q0 h0 α
    rw [← V3.norm_mul_self, hα] at h2
    exact (mul_self_inj (V3.norm_nonneg _) hd0).1 (h2.trans hx.symm)
  refine ⟨_, _, θ0 + Real.arccos c, θ0 - Real.arccos c, by simp only [subproblem3, if_neg hdn, h1, Except.bind_ok, if_pos pabs]; rfl,
    sol _ (by rw [add_sub_cancel_left, cc]), sol _ (by rw [show θ0 - Real.arccos c - θ0 = -Real.arccos c by ring, Real.cos_neg, cc]), ?_, ?_, ?_⟩
  rotate_left 2
  · have ss : Real.sin (Real.arccos c) = z := by
      rw [Real.sin_arccos, show 1 - c ^ 2 = z ^ 2 by linarith, Real.sqrt_sq z0]
    rcases le_total 0 (Real.sin (θ - θ0)) with hs | hs
    · rw [hz, abs_of_nonneg hs] at ss
      obtain ⟨l, hl⟩ := angle_eq_of_sin_cos (a := Real.arccos c) (b := θ - θ0) ss cc
      exact ⟨-l, .inl (by push_cast; linarith)⟩
    · rw [hz, abs_of_nonpos hs] at ss
      obtain ⟨l, hl⟩ := angle_eq_of_sin_cos (a := -Real.arccos c) (b := θ - θ0) (by rw [Real.sin_neg, ss, neg_neg]) (by rw [Real.cos_neg, cc])
      exact ⟨-l, .inr (by push_cast; linarith)⟩
  all_goals
    have y9 := subproblem1_le hF h1 hy
    generalize (Elem.arccos _ : Fl F) = Φ at *
    have eΦ : Φ = of x := congrArg Fl.mk hxv
    have eth : th = of y := congrArg Fl.mk hy
    rw [eΦ, eth]
    have hfin : ((46000 * F.u + 77 / 10 * f) / m + ((β + 315 / 100 * (30000 * (F.u / m) + 30000 * (F.u / m)) + 700000 * F.u) / 1 + 16 * F.u) ≤
        β + (77 / 10 * f + 3200000 * F.u) / m) := by
      have g : F.u ≤ 4 * (F.u / m) := by rw [← mul_div_assoc, le_div_iff₀ hm0, mul_comm 4]; exact mul_le_mul_of_nonneg_left m4 u0
      rw [show (46000 * F.u + 77 / 10 * f) / m = 46000 * (F.u / m) + 77 / 10 * f / m by ring,
        show (77 / 10 * f + 3200000 * F.u) / m = 77 / 10 * f / m + 3200000 * (F.u / m) by ring, div_one]
      linarith
  · obtain ⟨r, hr', hre⟩ : (of y + of x : Fl F).Near (y + x) (16 * F.u) :=
      Near.addE (ε := F.u) 16 (k := 0) (l := 0) (by rw [zero_mul]; exact near_of y) (by rw [zero_mul]; exact near_of x) le_rfl (by linarith)
        (S := 14) ((abs_add_le _ _).trans (by linarith)) (by norm_num) (by norm_num) (by norm_num)
    refine ⟨n, r, hr', ?_⟩
    rw [show r - (θ0 + Real.arccos c + n * (2 * Real.pi)) = (r - (y + x)) + ((y - (θ0 + n * (2 * Real.pi))) + (x - Real.arccos c)) by ring]
    refine (abs_add_le _ _).trans ?_
    have := abs_add_le (y - (θ0 + n * (2 * Real.pi))) (x - Real.arccos c)
    linarith [hfin]
  · obtain ⟨r, hr', hre⟩ : (of y - of x : Fl F).Near (y - x) (16 * F.u) :=
      Near.subE (ε := F.u) 16 (k := 0) (l := 0) (by rw [zero_mul]; exact near_of y) (by rw [zero_mul]; exact near_of x) le_rfl (by linarith)
        (S := 14) ((abs_sub _ _).trans (by linarith)) (by norm_num) (by norm_num) (by norm_num)
    refine ⟨n, r, hr', ?_⟩
    rw [show r - (θ0 - Real.arccos c + n * (2 * Real.pi)) = (r - (y - x)) + ((y - (θ0 + n * (2 * Real.pi))) - (x - Real.arccos c)) by ring]
    refine (abs_add_le _ _).trans ?_
    have := abs_sub (y - (θ0 + n * (2 * Real.pi))) (x - Real.arccos c)
    linarith [hfin]

theorem AngNear.turn {a : Fl F} {θ θ' e : ℝ} (h : Spec.AngNear a θ e) {l : ℤ} (hl : θ' = θ + l * (2 * Real.pi)) : Spec.AngNear a θ' e := by
  obtain ⟨n, v, hv, hn⟩ := h
  refine ⟨n - l, v, hv, ?_⟩
  push_cast
  rw [hl, show v - (θ + l * (2 * Real.pi) + (n - l) * (2 * Real.pi)) = v - (θ + n * (2 * Real.pi)) by ring]
  exact hn

/-- `subproblem3` for points known up to a few rounding errors and a distance known up to `f`, unless the inner check fails. -/
theorem subproblem3_nearE (hF : Spec.InvAcc F) {k p q : V3 ℝ} (hk : IsUnit3 k) (hp : p.norm ≤ 2) (hq : q.norm ≤ 2) {d θ m f β : ℝ} (hd0 : 0 ≤ d)
    (hd : (q + (rot k θ).mulVec p).norm = d) (hm0 : 0 < m) (hm : m ≤ |q.dot (k.cross ((rot k θ).mulVec p))|)
    {k' p' q' : V3 (Fl F)} {d' : Fl F} (hu : F.u ≤ 1 / 100000000000) (hη : 16 * F.η ≤ F.u ^ 3) (hf : f ≤ 1 / 10) (he : 2500000 * F.u + 330 * f ≤ m ^ 2)
    (hβ : Band β (60000 * (F.u / m)) (Spec.dir p k) (Spec.dir q k))
    (hk' : Spec.VNear k' k F.u) (hp' : Spec.VNear p' p (16 * F.u)) (hq' : Spec.VNear q' q (16 * F.u)) (hd' : d'.Near d f) :
    subproblem3 p' q' k' d' = .error .assertion ∨
    ∃ t1 t2, subproblem3 p' q' k' d' = .ok [t1, t2] ∧
      (Spec.AngNear t1 θ (β + (77 / 10 * f + 3200000 * F.u) / m) ∨ Spec.AngNear t2 θ (β + (77 / 10 * f + 3200000 * F.u) / m)) := by
  rcases subproblem3_both hF hk hp hq hd0 hd hm0 hm hu hη hf he hβ hk' hp' hq' hd' with h | ⟨t1, t2, θa, θb, h, -, -, h1, h2, l, hl⟩
  · exact .inl h.1
  · exact .inr ⟨t1, t2, h, hl.imp (AngNear.turn h1) (AngNear.turn h2)⟩

end Fl
