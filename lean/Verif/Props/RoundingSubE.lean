import Verif.Lemmas.FlSub2

/-!
# C73, C74, C81 and C82: the subproblems with rounding, for data that are themselves only known approximately

In an inverse kinematics solver the points passed to one subproblem are results of another.  Here the errors of the data are kept apart from the
unit roundoff: the angles are off by a small multiple of the former and by a large multiple of the latter only.

C81: if some angle `θ` solves `|q + rot(k,θ) p| = d`, `subproblem3` computed with rounding returns it, up to an error proportional to the errors
and inversely proportional to the rate at which the squared distance changes with the angle.  C82: if `θ1`, `θ2` solve
`rot(k1,θ1) rot(k2,θ2) p = q` for perpendicular axes, `subproblem2` computed with rounding returns the pair, up to an error proportional to the
errors and inversely proportional to the square of the height of the intermediate point over the plane of the axes.

Both are false: the check of C73 may fail inside, and where the two solutions meet `subproblem3` may return nothing and `subproblem2` raises.
-/
set_option autoImplicit false

/-- C73 with errors `e`, `f` of the two points apart from the rounding unit.  `β` is what the early return of 0 may add: `2⁻²⁵`, or nothing if the
point does not move at all or moves by more than the threshold.  Missing: that it does not raise. -/
theorem C73_subproblem1_split_partial {F : FSys} (hF : Spec.InvAcc F) (k p q : V3 ℝ) (hk : IsUnit3 k) (hp : p.norm ≤ 3) (θ : ℝ)
    (hq : (rot k θ).mulVec p = q) (s : ℝ) (hs : 0 < s) (hs1 : s ≤ 1) (hps : s ≤ (k.cross p).norm) (k' p' q' : V3 (Fl F)) (e f β : ℝ)
    (he : 2 * e ≤ s) (hf : 2 * f ≤ s) (hus : 280000 * F.u ≤ s) (hu : F.u ≤ 1 / 100000000000) (hη : 16 * F.η ≤ F.u ^ 3)
    (hβ : 1 / 33554432 ≤ β ∨ 0 ≤ β ∧ (p = q ∨ 1 / 50000000 + (e + f) ≤ (p - q).norm))
    (hk' : Spec.VNear k' k F.u) (hp' : Spec.VNear p' p e) (hq' : Spec.VNear q' q f) :
    subproblem1 p' q' k' = .error .assertion ∨
    ∃ th, subproblem1 p' q' k' = .ok th ∧ Spec.AngNear th θ ((β + 315 / 100 * (e + f) + 700000 * F.u) / s) := by
  rw [← V3.perp_norm hk] at hps
  exact (Fl.subproblem1_nearE hF hk hp hq hs hs1 hps he hf hus hu hη hβ hk' hp' hq').imp And.left id

/-- C74 with the errors `e` of the turning point and `f` of the displacement apart from the rounding unit, for displacements along a unit vector.
Missing: displacements so close to the extreme that `m²` is of the order of the errors. -/
theorem C74_subproblem4_split_partial {F : FSys} (hF : Spec.InvAcc F) (k p q : V3 ℝ) (hk : IsUnit3 k) (hp : IsUnit3 p) (hq : q.norm ≤ 19 / 10)
    (d θ : ℝ) (hd : p.dot ((rot k θ).mulVec q) = d) (m : ℝ) (hm0 : 0 < m) (hm : m ≤ |p.dot (k.cross ((rot k θ).mulVec q))|)
    (k' p' q' : V3 (Fl F)) (d' : Fl F) (e f : ℝ) (he1 : e ≤ 1 / 10) (hf1 : f ≤ 1 / 10) (he : 150 * (e + f + 800 * F.u) ≤ m ^ 2)
    (hu : F.u ≤ 1 / 1000) (hη : 16 * F.η ≤ F.u ^ 3)
    (hk' : Spec.VNear k' k F.u) (hp' : Spec.VNear p' p F.u) (hq' : Spec.VNear q' q e) (hd' : d'.Near d f) :
    ∃ t t' θ', (subproblem4 p' q' k' d' = [t, t'] ∨ subproblem4 p' q' k' d' = [t', t]) ∧
      Spec.AngNear t θ (17 * (e + f + 800 * F.u) / m) ∧ Spec.AngNear t' θ' (17 * (e + f + 800 * F.u) / m) ∧
      p.dot ((rot k θ').mulVec q) = d ∧
      p.dot (k.cross ((rot k θ').mulVec q)) = -p.dot (k.cross ((rot k θ).mulVec q)) := by
  have u0 := F.u_nonneg
  have e0 : 0 ≤ e := by
    obtain ⟨w, -, h⟩ := hq'
    exact (V3.norm_nonneg _).trans h
  have f0 : 0 ≤ f := hd'.nonneg
  have hd4 : |d| ≤ 39 / 10 := by
    rw [← hd]
    refine (V3.abs_dot_le _ _).trans ?_
    rw [(rot_isRot k hk θ).norm_mulVec, V3.norm_eq_one hp]
    linarith
  set φ := Complex.arg ⟨p.dot (k.cross q), -p.dot (k.cross (k.cross q))⟩ with hφ
  set A := Spec.sp4amp p q k with hA
  have A0 : 0 ≤ A := Real.sqrt_nonneg _
  have hsin : Spec.sp4mid p q k + A * Real.sin (θ + φ) = d := by rw [← hd, sp4_sin]
  have hcos := sp4_rate (p := p) (q := q) hk θ
  rw [← hφ, ← hA] at hcos
  have hmc : m ≤ A * |Real.cos (θ + φ)| := by rwa [hcos, abs_mul, abs_of_nonneg A0] at hm
  have hc0 : 0 < |Real.cos (θ + φ)| := by
    rcases (abs_nonneg (Real.cos (θ + φ))).eq_or_lt with h | h
    · rw [← h, mul_zero] at hmc; linarith
    · exact h
  have hA0 : 0 < A := by
    rcases A0.eq_or_lt with h | h
    · rw [← h, zero_mul] at hmc; linarith
    · exact h
  have hA2 : p.dot (k.cross q) * p.dot (k.cross q) + -p.dot (k.cross (k.cross q)) * -p.dot (k.cross (k.cross q)) = A ^ 2 := by
    rw [hA, Spec.sp4amp, Real.sq_sqrt (add_nonneg (mul_self_nonneg _) (mul_self_nonneg _)), neg_mul_neg]
  have hxc : Real.sin (θ + φ) * Real.sin (θ + φ) + |Real.cos (θ + φ)| * |Real.cos (θ + φ)| = 1 := by
    rw [abs_mul_abs_self]
    have := Real.sin_sq_add_cos_sq (θ + φ)
    linarith
  have hm2 : m ^ 2 ≤ (A * |Real.cos (θ + φ)|) ^ 2 := pow_le_pow_left₀ hm0.le hmc 2
  have hx : d - (p.dot q + p.dot (k.cross (k.cross q))) = A * Real.sin (θ + φ) := by
    rw [← hsin, Spec.sp4mid]; ring
  obtain ⟨t1, t2, h1, h2, h3⟩ := Fl.subproblem4_nearE hF hk hp hq hd4 hA0 hA2 hx hc0 hxc he1 hf1 (he.trans hm2) hu hη hk' hp' hq' hd'
  rw [← hφ] at h2 h3
  have hE : 17 * ((e + f + 800 * F.u) / (A * |Real.cos (θ + φ)|)) ≤ 17 * (e + f + 800 * F.u) / m := by
    rw [mul_div_assoc]
    exact mul_le_mul_of_nonneg_left (div_le_div_of_nonneg_left (by linarith) hm0 hmc) (by norm_num)
  have s1 : -1 ≤ Real.sin (θ + φ) := Real.neg_one_le_sin _
  have s2 : Real.sin (θ + φ) ≤ 1 := Real.sin_le_one _
  have ss := Real.sin_arcsin s1 s2
  have cc : Real.cos (Real.arcsin (Real.sin (θ + φ))) = |Real.cos (θ + φ)| := by
    rw [Real.cos_arcsin, show 1 - Real.sin (θ + φ) ^ 2 = |Real.cos (θ + φ)| ^ 2 by linarith, Real.sqrt_sq hc0.le]
  set ψ := Real.arcsin (Real.sin (θ + φ))
  have move : ∀ {t : Fl F} {α β : ℝ} {n : ℤ}, Spec.AngNear t α (17 * ((e + f + 800 * F.u) / (A * |Real.cos (θ + φ)|))) → α = β + n * (2 * Real.pi) →
      Spec.AngNear t β (17 * (e + f + 800 * F.u) / m) := by
    rintro t α β n ⟨k, hk⟩ rfl
    refine ⟨n + k, ?_⟩
    push_cast
    rw [show β + (n + k) * (2 * Real.pi) = β + n * (2 * Real.pi) + k * (2 * Real.pi) by ring]
    exact hk.mono hE
  rcases le_total 0 (Real.cos (θ + φ)) with hpos | hneg
  · rw [abs_of_nonneg hpos] at cc
    obtain ⟨n, hn⟩ := angle_eq_of_sin_cos (a := ψ) (b := θ + φ) ss cc
    refine ⟨t1, t2, -φ - ψ + Real.pi, Or.inl h1, move h2 (n := n) (by linarith), move h3 (n := 0) (by simp), ?_, ?_⟩
    · rw [sp4_sin, ← hφ, ← hA, show -φ - ψ + Real.pi + φ = Real.pi - ψ by ring, Real.sin_pi_sub, ss, hsin]
    · rw [sp4_rate hk, ← hφ, ← hA, show -φ - ψ + Real.pi + φ = Real.pi - ψ by ring, Real.cos_pi_sub, cc, hcos]
      ring
  · rw [abs_of_nonpos hneg] at cc
    obtain ⟨n, hn⟩ := angle_eq_of_sin_cos (a := Real.pi - ψ) (b := θ + φ) (by rw [Real.sin_pi_sub]; exact ss)
      (by rw [Real.cos_pi_sub, cc, neg_neg])
    refine ⟨t2, t1, -φ + ψ, Or.inr h1, move h3 (n := n) (by linarith), move h2 (n := 0) (by simp), ?_, ?_⟩
    · rw [sp4_sin, ← hφ, ← hA, show -φ + ψ + φ = ψ by ring, ss, hsin]
    · rw [sp4_rate hk, ← hφ, ← hA, show -φ + ψ + φ = ψ by ring, cc, hcos]
      ring

/-- C81, the part that holds: for points at most 2 from the origin known up to rounding, a distance known up to `f` and a solution `θ` at which
half the squared distance changes at a rate of at least `m` (`m²` large compared with the errors), either the check of the inner `subproblem1`
fails or two angles are returned, one of which is `θ`.  `β` is as for C73, for the directions of the two points as seen along the axis.
Missing: that it does not raise, and distances so close to the extreme that `m²` is of the order of the errors. -/
theorem C81_subproblem3_rounding_partial {F : FSys} (hF : Spec.InvAcc F) (k p q : V3 ℝ) (hk : IsUnit3 k) (hp : p.norm ≤ 2) (hq : q.norm ≤ 2) (d θ : ℝ)
    (hd : (q + (rot k θ).mulVec p).norm = d) (m : ℝ) (hm0 : 0 < m) (hm : m ≤ |q.dot (k.cross ((rot k θ).mulVec p))|)
    (k' p' q' : V3 (Fl F)) (d' : Fl F) (f β : ℝ) (hu : F.u ≤ 1 / 100000000000) (hη : 16 * F.η ≤ F.u ^ 3) (hf : f ≤ 1 / 10)
    (he : 2500000 * F.u + 330 * f ≤ m ^ 2)
    (hβ : 1 / 33554432 ≤ β ∨ 0 ≤ β ∧ (Spec.dir p k = Spec.dir q k ∨ 1 / 50000000 + 60000 * (F.u / m) ≤ (Spec.dir p k - Spec.dir q k).norm))
    (hk' : Spec.VNear k' k F.u) (hp' : Spec.VNear p' p (16 * F.u)) (hq' : Spec.VNear q' q (16 * F.u)) (hd' : d'.Near d f) :
    subproblem3 p' q' k' d' = .error .assertion ∨
    ∃ t1 t2, subproblem3 p' q' k' d' = .ok [t1, t2] ∧
      (Spec.AngNear t1 θ (β + (77 / 10 * f + 3200000 * F.u) / m) ∨ Spec.AngNear t2 θ (β + (77 / 10 * f + 3200000 * F.u) / m)) :=
  Fl.subproblem3_nearE hF hk hp hq (by rw [← hd]; exact V3.norm_nonneg _) hd hm0 hm hu hη hf he hβ hk' hp' hq' hd'

/-- C82, the part that holds: for perpendicular unit axes, a unit vector `p` known up to rounding and `q` known up to `e`, and a solution whose
intermediate point is at a height of at least `γ` over the plane of the axes (`γ²` large compared with the errors), either the check of one of
the inner `subproblem1` fails or two pairs are returned, one of which is `θ1`, `θ2`.  `β` is as for C73.  Missing: that it does not raise, and
solutions so close to the tangent case that `γ²` is of the order of the errors. -/
theorem C82_subproblem2_rounding_partial {F : FSys} (hF : Spec.InvAcc F) (k1 k2 p q : V3 ℝ) (h1 : IsUnit3 k1) (h2 : IsUnit3 k2) (hp : IsUnit3 p)
    (h12 : k1.dot k2 = 0) (θ1 θ2 : ℝ) (hq : (rot k1 θ1 * rot k2 θ2).mulVec p = q) (γ : ℝ) (hγ0 : 1 / 1000000 ≤ γ)
    (hγ : γ ≤ |(k1.cross k2).dot ((rot k2 θ2).mulVec p)|) (k1' k2' p' q' : V3 (Fl F)) (e β : ℝ)
    (hu : F.u ≤ 1 / 100000000000) (hη : 16 * F.η ≤ F.u ^ 3) (he : 60 * e + 300000 * F.u ≤ γ ^ 2)
    (hβ1 : 1 / 33554432 ≤ β ∨ 0 ≤ β ∧ (q = (rot k2 θ2).mulVec p ∨
      1 / 50000000 + (e + (34 / 10 * e + 900 * F.u) / γ) ≤ (q - (rot k2 θ2).mulVec p).norm))
    (hβ2 : 1 / 33554432 ≤ β ∨ 0 ≤ β ∧ (p = (rot k2 θ2).mulVec p ∨
      1 / 50000000 + (F.u + (34 / 10 * e + 900 * F.u) / γ) ≤ (p - (rot k2 θ2).mulVec p).norm))
    (h1' : Spec.VNear k1' k1 F.u) (h2' : Spec.VNear k2' k2 F.u) (hp' : Spec.VNear p' p F.u) (hq' : Spec.VNear q' q e) :
    subproblem2 p' q' k1' k2' = .error .assertion ∨
    ∃ x y, subproblem2 p' q' k1' k2' = .ok [x, y] ∧
      (Spec.AngNear x.1 θ1 ((β + (14 * e + 710000 * F.u) / γ) / γ) ∧ Spec.AngNear x.2 θ2 ((β + (14 * e + 710000 * F.u) / γ) / γ) ∨
       Spec.AngNear y.1 θ1 ((β + (14 * e + 710000 * F.u) / γ) / γ) ∧ Spec.AngNear y.2 θ2 ((β + (14 * e + 710000 * F.u) / γ) / γ)) :=
  Fl.subproblem2_nearE hF h1 h2 hp h12 hq hγ0 hγ hu hη he hβ1 hβ2 h1' h2' hp' hq'

namespace B64Sub
variable (lib : Libm)

/-- 1 + 3/2²⁷ -/
noncomputable def a3 : ℝ := 1 + 3 * 2⁻¹ ^ 27

theorem sub3_empty : subproblem3 (⟨.of a3, .of 0, .of 0⟩ : V3 (Fl (b64 lib))) V3.ex V3.ez (.of (1 + a3)) = .ok [] := by
  have R1 : Fl.Rep (b64 lib) 1 := Fl.Rep.one
  have R0 : Fl.Rep (b64 lib) 0 := Fl.Rep.zero
  have Ra : Fl.Rep (b64 lib) a3 := ⟨ex lib (2 ^ 52 + 3 * 2 ^ 25) (-52) (by norm_num) (by norm_num) (by norm_num) (by norm_num [a3]) (by norm_num [a3]),
    sb lib (by norm_num [a3, _root_.abs_le])⟩
  have maa : (Fl.of a3 * Fl.of a3 : Fl (b64 lib)) = .of (1 + 3 * 2⁻¹ ^ 26 + 2⁻¹ ^ 51) := Fl.mul_of (by
    change B64.rnd _ = _
    rw [B64.rnd_eq (2 ^ 52 + 3 * 2 ^ 26 + 2) (-52) (by norm_num)]
    · norm_num
    all_goals norm_num [a3, abs_of_pos]) (sb lib (by norm_num [_root_.abs_le]))
  have Rb : Fl.Rep (b64 lib) (1 + 3 * 2⁻¹ ^ 26 + 2⁻¹ ^ 51) :=
    ⟨ex lib (2 ^ 52 + 3 * 2 ^ 26 + 2) (-52) (by norm_num) (by norm_num) (by norm_num) (by norm_num) (by norm_num), sb lib (by norm_num [_root_.abs_le])⟩
  have mdd : (Fl.of (1 + a3) * Fl.of (1 + a3) : Fl (b64 lib)) = .of (4 + 3 * 2⁻¹ ^ 25 + 2⁻¹ ^ 50) := Fl.mul_of (by
    change B64.rnd _ = _
    rw [B64.rnd_eq (2 ^ 52 + 3 * 2 ^ 25 + 1) (-50) (by norm_num)]
    · norm_num
    all_goals norm_num [a3, abs_of_pos]) (sb lib (by norm_num [_root_.abs_le]))
  have Rd : Fl.Rep (b64 lib) (4 + 3 * 2⁻¹ ^ 25 + 2⁻¹ ^ 50) :=
    ⟨ex lib (2 ^ 52 + 3 * 2 ^ 25 + 1) (-50) (by norm_num) (by norm_num) (by norm_num) (by norm_num) (by norm_num), sb lib (by norm_num [_root_.abs_le])⟩
  have sq : (Elem.sqrt (Fl.of (1 + 3 * 2⁻¹ ^ 26 + 2⁻¹ ^ 51)) : Fl (b64 lib)) = .of a3 := by
    apply Fl.sqrt_of (by norm_num)
    · change B64.rnd _ = _
      have l : a3 - 2⁻¹ ^ 53 < Real.sqrt (1 + 3 * 2⁻¹ ^ 26 + 2⁻¹ ^ 51) := Real.lt_sqrt_of_sq_lt (by norm_num [a3])
      have u : Real.sqrt (1 + 3 * 2⁻¹ ^ 26 + 2⁻¹ ^ 51) < a3 + 2⁻¹ ^ 53 := by
        rw [Real.sqrt_lt' (by norm_num [a3])]; norm_num [a3]
      rw [B64.rnd_eq (2 ^ 52 + 3 * 2 ^ 25) (-52) (by norm_num)]
      · norm_num [a3]
      · rw [abs_of_nonneg (Real.sqrt_nonneg _)]; norm_num [a3] at l ⊢; linarith
      · rw [abs_of_nonneg (Real.sqrt_nonneg _)]; norm_num [a3] at u ⊢; linarith
      · norm_num [a3] at l ⊢; linarith
      · norm_num [a3] at u ⊢; linarith
    · exact Ra.2
  have s1 : (Fl.of (1 + 3 * 2⁻¹ ^ 26 + 2⁻¹ ^ 51) + Fl.of 1 : Fl (b64 lib)) = .of (2 + 3 * 2⁻¹ ^ 26 + 2⁻¹ ^ 51) :=
    Fl.add_of (ex lib (2 ^ 52 + 3 * 2 ^ 25 + 1) (-51) (by norm_num) (by norm_num) (by norm_num) (by norm_num) (by norm_num)) (sb lib (by norm_num [_root_.abs_le]))
  have s2 : (Fl.of (2 + 3 * 2⁻¹ ^ 26 + 2⁻¹ ^ 51) - Fl.of (4 + 3 * 2⁻¹ ^ 25 + 2⁻¹ ^ 50) : Fl (b64 lib)) = .of (-(2 + 3 * 2⁻¹ ^ 26 + 2⁻¹ ^ 51)) :=
    Fl.sub_of (ex lib (-(2 ^ 52 + 3 * 2 ^ 25 + 1)) (-51) (by norm_num) (by norm_num) (by norm_num) (by norm_num) (by norm_num)) (sb lib (by norm_num [_root_.abs_le]))
  have l2 : (lit 2 : Fl (b64 lib)) = .of 2 :=
    Fl.lit_of (ex lib (2 ^ 52) (-51) (by norm_num) (by norm_num) (by norm_num) (by norm_num) (by norm_num)) (sb lib (by norm_num))
  have m2 : (Fl.of 2 * Fl.of a3 : Fl (b64 lib)) = .of (2 * a3) := Fl.mul_of
    (ex lib (2 ^ 52 + 3 * 2 ^ 25) (-51) (by norm_num) (by norm_num) (by norm_num) (by norm_num [a3]) (by norm_num [a3])) (sb lib (by norm_num [a3, _root_.abs_le]))
  have R2 : Fl.Rep (b64 lib) (2 * a3) :=
    ⟨ex lib (2 ^ 52 + 3 * 2 ^ 25) (-51) (by norm_num) (by norm_num) (by norm_num) (by norm_num [a3]) (by norm_num [a3]), sb lib (by norm_num [a3, _root_.abs_le])⟩
  have dv : (Fl.of (2 + 3 * 2⁻¹ ^ 26 + 2⁻¹ ^ 51) / Fl.of (2 * a3) : Fl (b64 lib)) = .of (1 + 2⁻¹ ^ 52) := Fl.div_of (by norm_num [a3]) (by
    change B64.rnd _ = _
    rw [B64.rnd_eq (2 ^ 52 + 1) (-52) (by norm_num)]
    · norm_num
    all_goals norm_num [a3, abs_of_pos]) (sb lib (by norm_num [_root_.abs_le]))
  have hpp : (⟨.of a3, .of 0, .of 0⟩ : V3 (Fl (b64 lib))) - V3.smul ((⟨.of a3, .of 0, .of 0⟩ : V3 (Fl (b64 lib))).dot V3.ez) V3.ez = ⟨.of a3, .of 0, .of 0⟩ := by
    change (⟨.of a3 - (.of a3 * .of 0 + .of 0 * .of 0 + .of 0 * .of 1) * .of 0, .of 0 - (.of a3 * .of 0 + .of 0 * .of 0 + .of 0 * .of 1) * .of 0,
      .of 0 - (.of a3 * .of 0 + .of 0 * .of 0 + .of 0 * .of 1) * .of 1⟩ : V3 (Fl (b64 lib))) = _
    simp only [Fl.mul_zero_of, Fl.zero_mul_of, Fl.add_zero_of R0, Fl.sub_zero_of Ra, Fl.sub_zero_of R0]
  have hqp : (V3.ex : V3 (Fl (b64 lib))) - V3.smul ((V3.ex : V3 (Fl (b64 lib))).dot V3.ez) V3.ez = ⟨.of 1, .of 0, .of 0⟩ := by
    change (⟨.of 1 - (.of 1 * .of 0 + .of 0 * .of 0 + .of 0 * .of 1) * .of 0, .of 0 - (.of 1 * .of 0 + .of 0 * .of 0 + .of 0 * .of 1) * .of 0,
      .of 0 - (.of 1 * .of 0 + .of 0 * .of 0 + .of 0 * .of 1) * .of 1⟩ : V3 (Fl (b64 lib))) = _
    simp only [Fl.mul_zero_of, Fl.zero_mul_of, Fl.add_zero_of R0, Fl.sub_zero_of R1, Fl.sub_zero_of R0]
  have hk : (V3.ez : V3 (Fl (b64 lib))).dot (⟨.of a3, .of 0, .of 0⟩ + V3.ex) = .of 0 := by
    have e : (Fl.of a3 + Fl.of 1 : Fl (b64 lib)) = .of (1 + a3) :=
      Fl.add_of (ex lib (2 ^ 52 + 3 * 2 ^ 24) (-51) (by norm_num) (by norm_num) (by norm_num) (by norm_num [a3]) (by norm_num [a3])) (sb lib (by norm_num [a3, _root_.abs_le]))
    change (.of 0 * (.of a3 + .of 1) + .of 0 * (.of 0 + .of 0) + .of 1 * (.of 0 + .of 0) : Fl (b64 lib)) = _
    simp only [e, Fl.mul_zero_of, Fl.zero_mul_of, Fl.add_zero_of R0]
  have np : (⟨.of a3, .of 0, .of 0⟩ : V3 (Fl (b64 lib))).norm = .of a3 := by
    simp only [V3.norm, maa, Fl.mul_zero_of, Fl.add_zero_of Rb, sq]
  have nq : (⟨.of 1, .of 0, .of 0⟩ : V3 (Fl (b64 lib))).norm = .of 1 := by
    simp only [V3.norm, m11, Fl.mul_zero_of, Fl.add_zero_of R1, q1]
  have big : (1 : Fl (b64 lib)) < Elem.abs (.of (1 + 2⁻¹ ^ 52)) := by
    change (1 : ℝ) < |1 + 2⁻¹ ^ 52|
    rw [abs_of_pos (by norm_num)]
    norm_num
  have hbb : (-((⟨.of a3, .of 0, .of 0⟩ : V3 (Fl (b64 lib))).dot ⟨.of a3, .of 0, .of 0⟩ + (⟨.of 1, .of 0, .of 0⟩ : V3 (Fl (b64 lib))).dot ⟨.of 1, .of 0, .of 0⟩ -
      (.of (1 + a3) * .of (1 + a3) - (V3.ez : V3 (Fl (b64 lib))).dot (⟨.of a3, .of 0, .of 0⟩ + V3.ex) * (V3.ez : V3 (Fl (b64 lib))).dot (⟨.of a3, .of 0, .of 0⟩ + V3.ex))) /
      (lit 2 * (⟨.of a3, .of 0, .of 0⟩ : V3 (Fl (b64 lib))).norm * (⟨.of 1, .of 0, .of 0⟩ : V3 (Fl (b64 lib))).norm)) = .of (1 + 2⁻¹ ^ 52) := by
    rw [hk, np, nq]
    simp only [V3.dot, maa, m11, mdd, Fl.mul_zero_of, Fl.add_zero_of R1, Fl.add_zero_of Rb, Fl.sub_zero_of Rd, s1, s2, Fl.neg_of, neg_neg, l2, m2, Fl.mul_one_of R2, dv]
  simp only [subproblem3, hpp, hqp, hbb]
  rw [if_pos (Or.inr big)]
  rfl

end B64Sub

/-- C81 is false at the extreme distances, also for data that are floating-point numbers: the points (1 + 3/2²⁷, 0, 0) and (1, 0, 0) are
2 + 3/2²⁷ apart (in the sense of `subproblem3`) at angle 0, but in binary64 `subproblem3` returns no angle at all, whatever the library. -/
theorem C81_subproblem3_false (lib : Libm) :
    ((⟨1, 0, 0⟩ : V3 ℝ) + (rot V3.ez 0).mulVec ⟨1 + 3 * 2⁻¹ ^ 27, 0, 0⟩).norm = 2 + 3 * 2⁻¹ ^ 27 ∧
    subproblem3 (⟨.of (1 + 3 * 2⁻¹ ^ 27), .of 0, .of 0⟩ : V3 (Fl (b64 lib))) V3.ex V3.ez (.of (2 + 3 * 2⁻¹ ^ 27)) = .ok [] := by
  constructor
  · rw [rot_zero, M3.one_mulVec, V3.norm_eq,
      show ((⟨1, 0, 0⟩ : V3 ℝ) + ⟨1 + 3 * 2⁻¹ ^ 27, 0, 0⟩).dot (⟨1, 0, 0⟩ + ⟨1 + 3 * 2⁻¹ ^ 27, 0, 0⟩) = (2 + 3 * 2⁻¹ ^ 27) ^ 2 by simp [V3.dot]; ring,
      Real.sqrt_sq (by positivity)]
  · have := B64Sub.sub3_empty lib
    rwa [B64Sub.a3, show (1 : ℝ) + (1 + 3 * 2⁻¹ ^ 27) = 2 + 3 * 2⁻¹ ^ 27 by ring] at this

namespace B64Sub
variable (lib : Libm)

theorem sub1_raises : subproblem1 (V3.ey : V3 (Fl (b64 lib))) V3.ex V3.ex = .error .assertion := by
  have R1 : Fl.Rep (b64 lib) 1 := Fl.Rep.one
  have R0 : Fl.Rep (b64 lib) 0 := Fl.Rep.zero
  have s01 : (Fl.of 0 - Fl.of 1 : Fl (b64 lib)) = .of (-1) :=
    Fl.sub_of (ex lib (-2 ^ 52) (-52) (by norm_num) (by norm_num) (by norm_num) (by norm_num) (by norm_num)) (sb lib (by norm_num))
  have q0 : (Elem.sqrt (Fl.of 0) : Fl (b64 lib)) = .of 0 := Fl.sqrt_of le_rfl (by rw [Real.sqrt_zero]; exact B64.rnd_zero) R0.2
  have h1 : ((V3.ey : V3 (Fl (b64 lib))) - V3.ex).norm = .of n := by
    change Elem.sqrt ((.of 0 - .of 1) * (.of 0 - .of 1) + (.of 1 - .of 0) * (.of 1 - .of 0) + (.of 0 - .of 0) * (.of 0 - .of 0) : Fl (b64 lib)) = _
    rw [s01, Fl.sub_zero_of R1, Fl.sub_zero_of R0, mnn, m11, m00, a11, a20, q2]
  have h2 : ¬ ((Fl.of n : Fl (b64 lib)) < Elem.sqrt npEps) := by
    rw [qeps]
    change ¬ n < 2⁻¹ ^ 26
    norm_num [n]
  have nx : (V3.ex : V3 (Fl (b64 lib))).norm = .of 1 := by
    change Elem.sqrt (.of 1 * .of 1 + .of 0 * .of 0 + .of 0 * .of 0 : Fl (b64 lib)) = _
    rw [m11, m00, Fl.add_zero_of R1, Fl.add_zero_of R1, q1]
  have kx : (V3.ex : V3 (Fl (b64 lib))).sdiv (.of 1) = V3.ex := by
    change (⟨.of 1 / .of 1, .of 0 / .of 1, .of 0 / .of 1⟩ : V3 (Fl (b64 lib))) = ⟨.of 1, .of 0, .of 0⟩
    rw [d11, Fl.zero_div_of one_ne_zero]
  have dx : (V3.ey : V3 (Fl (b64 lib))).dot V3.ex = .of 0 := by
    change (.of 0 * .of 1 + .of 1 * .of 0 + .of 0 * .of 0 : Fl (b64 lib)) = _
    rw [m01, m10, m00, a00, a00]
  have dxx : (V3.ex : V3 (Fl (b64 lib))).dot V3.ex = .of 1 := by
    change (.of 1 * .of 1 + .of 0 * .of 0 + .of 0 * .of 0 : Fl (b64 lib)) = _
    rw [m11, m00, Fl.add_zero_of R1, Fl.add_zero_of R1]
  have pq : (V3.ex : V3 (Fl (b64 lib))) - V3.smul (.of 1) V3.ex = ⟨.of 0, .of 0, .of 0⟩ := by
    change (⟨.of 1 - .of 1 * .of 1, .of 0 - .of 1 * .of 0, .of 0 - .of 1 * .of 0⟩ : V3 (Fl (b64 lib))) = _
    rw [m11, m10, s11, Fl.sub_zero_of R0]
  have nz : (⟨.of 0, .of 0, .of 0⟩ : V3 (Fl (b64 lib))).norm = .of 0 := by
    change Elem.sqrt (.of 0 * .of 0 + .of 0 * .of 0 + .of 0 * .of 0 : Fl (b64 lib)) = _
    rw [m00, a00, a00, q0]
  have d00 : (Fl.of 0 / Fl.of 0 : Fl (b64 lib)) = ⟨.nan⟩ := by
    change (⟨(b64 lib).round (XReal.fin 0 / XReal.fin 0)⟩ : Fl (b64 lib)) = _
    rw [XReal.zero_div_zero]
    rfl
  have hq : ¬ ((V3.ex : V3 (Fl (b64 lib))).dot ((⟨.of 0, .of 0, .of 0⟩ : V3 (Fl (b64 lib))).sdiv (.of 0)) < npEps) := by
    change ¬ (.of 1 * (.of 0 / .of 0) + .of 0 * (.of 0 / .of 0) + .of 0 * (.of 0 / .of 0) : Fl (b64 lib)) < npEps
    rw [d00]
    have e : ∀ a b : Fl (b64 lib), a + b * ⟨.nan⟩ = ⟨.nan⟩ := fun a b => by
      have e1 : b * ⟨.nan⟩ = (⟨.nan⟩ : Fl (b64 lib)) := by
        change (⟨(b64 lib).round (b.val * .nan)⟩ : Fl (b64 lib)) = _
        simp [FSys.round]
      rw [e1]
      change (⟨(b64 lib).round (a.val + .nan)⟩ : Fl (b64 lib)) = _
      simp [FSys.round]
    rw [e, eps]
    exact id
  unfold subproblem1
  rw [h1, if_neg h2]
  simp only [nx, kx, dxx, pq, nz]
  unfold subproblem0
  simp only [pyAssert, hq, and_false]
  rfl

theorem sub2_raises : subproblem2 (V3.ex : V3 (Fl (b64 lib))) V3.ex V3.ex V3.ey = .error .assertion := by
  have R1 : Fl.Rep (b64 lib) 1 := Fl.Rep.one
  have R0 : Fl.Rep (b64 lib) 0 := Fl.Rep.zero
  have hn : Fl.Rep (b64 lib) (-1) := ⟨ex lib (-2 ^ 52) (-52) (by norm_num) (by norm_num) (by norm_num) (by norm_num) (by norm_num), sb lib (by norm_num)⟩
  have q0 : (Elem.sqrt (Fl.of 0) : Fl (b64 lib)) = .of 0 := Fl.sqrt_of le_rfl (by rw [Real.sqrt_zero]; exact B64.rnd_zero) R0.2
  have ln : (lit (-1) : Fl (b64 lib)) = .of (-1) :=
    Fl.lit_of (ex lib (-2 ^ 52) (-52) (by norm_num) (by norm_num) (by norm_num) (by norm_num) (by norm_num)) (sb lib (by norm_num))
  have l2 : (lit 2 : Fl (b64 lib)) = .of 2 :=
    Fl.lit_of (ex lib (2 ^ 52) (-51) (by norm_num) (by norm_num) (by norm_num) (by norm_num) (by norm_num)) (sb lib (by norm_num))
  have R2 : Fl.Rep (b64 lib) 2 := ⟨ex lib (2 ^ 52) (-51) (by norm_num) (by norm_num) (by norm_num) (by norm_num) (by norm_num), sb lib (by norm_num)⟩
  have s01 : (Fl.of 0 - Fl.of 1 : Fl (b64 lib)) = .of (-1) :=
    Fl.sub_of (ex lib (-2 ^ 52) (-52) (by norm_num) (by norm_num) (by norm_num) (by norm_num) (by norm_num)) (sb lib (by norm_num))
  have dnn : (Fl.of (-1) / Fl.of (-1) : Fl (b64 lib)) = .of 1 := Fl.div_of (by norm_num)
    (ex lib (2 ^ 52) (-52) (by norm_num) (by norm_num) (by norm_num) (by norm_num) (by norm_num)) (sb lib (by norm_num))
  have dx : (V3.ex : V3 (Fl (b64 lib))).dot V3.ey = .of 0 := by
    change (.of 1 * .of 0 + .of 0 * .of 1 + .of 0 * .of 0 : Fl (b64 lib)) = _
    rw [m01, m10, m00, a00, a00]
  have dxx : (V3.ex : V3 (Fl (b64 lib))).dot V3.ex = .of 1 := by
    change (.of 1 * .of 1 + .of 0 * .of 0 + .of 0 * .of 0 : Fl (b64 lib)) = _
    rw [m11, m00, Fl.add_zero_of R1, Fl.add_zero_of R1]
  have cx : (V3.ex : V3 (Fl (b64 lib))).cross V3.ey = ⟨.of 0, .of 0, .of 1⟩ := by
    change (⟨.of 0 * .of 0 - .of 0 * .of 1, .of 0 * .of 0 - .of 1 * .of 0, .of 1 * .of 1 - .of 0 * .of 0⟩ : V3 (Fl (b64 lib))) = _
    rw [m00, m01, m10, m11, Fl.sub_zero_of R0, Fl.sub_zero_of R1]
  have nz : (⟨.of 0, .of 0, .of 1⟩ : V3 (Fl (b64 lib))).norm = .of 1 := by
    change Elem.sqrt (.of 0 * .of 0 + .of 0 * .of 0 + .of 1 * .of 1 : Fl (b64 lib)) = _
    rw [m00, a00, m11, Fl.zero_add_of R1, q1]
  have c1 : ¬ Elem.abs ((1 : Fl (b64 lib)) - .of 0 * .of 0) < npEps := by
    rw [Fl.one_eq, m00, s10, eps]
    change ¬ |(1 : ℝ)| < 2⁻¹ ^ 52
    norm_num
  have c2 : Elem.abs (Fl.of 0 : Fl (b64 lib)) < npEps := by
    rw [eps]
    change |(0 : ℝ)| < 2⁻¹ ^ 52
    norm_num
  have c3 : ¬ (Fl.of 0 : Fl (b64 lib)) < 0 := by
    change ¬ (0 : ℝ) < 0
    norm_num
  have den : (Fl.of 0 * Fl.of 0 - 1 : Fl (b64 lib)) = .of (-1) := by rw [Fl.one_eq, m00, s01]
  have e0 : ((Fl.of 0 * Fl.of 0 + lit (-1) * Fl.of 1) / Fl.of (-1) : Fl (b64 lib)) = .of 1 := by
    rw [ln, m00, Fl.mul_one_of hn, Fl.zero_add_of hn, dnn]
  have e1 : ((lit (-1) * Fl.of 0 + Fl.of 0 * Fl.of 1) / Fl.of (-1) : Fl (b64 lib)) = .of 0 := by
    rw [ln, mn0, m01, a00, Fl.zero_div_of (by norm_num)]
  have bb : (Fl.of 1 - (Fl.of 1 * Fl.of 1 + Fl.of 0 * Fl.of 0) - lit 2 * Fl.of 1 * Fl.of 0 * Fl.of 0 : Fl (b64 lib)) = .of 0 := by
    rw [l2, Fl.mul_one_of R2, Fl.mul_zero_of 2, m11, m00, Fl.add_zero_of R1, s11, Fl.sub_zero_of R0]
  have gm : (Elem.sqrt (0 : Fl (b64 lib)) / .of 1) = .of 0 := by rw [Fl.zero_eq, q0, Fl.zero_div_of one_ne_zero]
  have pt : (M3.ofCols V3.ex V3.ey ⟨.of 0, .of 0, .of 1⟩ : M3 (Fl (b64 lib))).mulVec ⟨.of 1, .of 0, .of 0⟩ = V3.ex := by
    change (⟨.of 1 * .of 1 + .of 0 * .of 0 + .of 0 * .of 0, .of 0 * .of 1 + .of 1 * .of 0 + .of 0 * .of 0, .of 0 * .of 1 + .of 0 * .of 0 + .of 1 * .of 0⟩ : V3 (Fl (b64 lib))) = ⟨.of 1, .of 0, .of 0⟩
    rw [m11, m00, m01, m10, a00, a00, Fl.add_zero_of R1, Fl.add_zero_of R1]
  have c3' : ¬ (0 : Fl (b64 lib)) < 0 := c3
  simp only [subproblem2, dx, dxx, if_neg c1, den, e0, e1, bb, if_pos c2, if_neg c3', cx, nz, gm, pt, sub1_raises]
  rfl

end B64Sub

/-- C82 is false in the tangent case: the angles 0, 0 solve the problem for `p = q = k1 = ex` and `k2 = ey`, but in binary64 `subproblem2` raises,
whatever the library. -/
theorem C82_subproblem2_false (lib : Libm) :
    (rot V3.ex 0 * rot V3.ey 0 : M3 ℝ).mulVec V3.ex = V3.ex ∧
    subproblem2 (V3.ex : V3 (Fl (b64 lib))) V3.ex V3.ex V3.ey = .error .assertion :=
  ⟨by rw [rot_zero, rot_zero, M3.one_mul', M3.one_mulVec], B64Sub.sub2_raises lib⟩

/-! Non-vacuity, in binary64 with a correctly rounded library -/

theorem b64_eta (lib : Libm) : 16 * (b64 lib).η ≤ (b64 lib).u ^ 3 := by
  change 16 * (2⁻¹ : ℝ) ^ 1075 ≤ (2⁻¹ ^ 50) ^ 3
  have : (2⁻¹ : ℝ) ^ 1075 ≤ 2⁻¹ ^ 154 := pow_le_pow_of_le_one (by norm_num) (by norm_num) (by norm_num)
  rw [← pow_mul]
  exact (mul_le_mul_of_nonneg_left this (by norm_num)).trans (by norm_num)

theorem b64_u (lib : Libm) : (b64 lib).u = 2⁻¹ ^ 50 := rfl

/-- C73: turning (1, 0, 0) about z by a quarter turn, the points known up to a thousandth. -/
example (p' q' : V3 (Fl (b64 Libm.rounded))) (hp' : Spec.VNear p' V3.ex (1 / 1000)) (hq' : Spec.VNear q' V3.ey (1 / 1000)) :
    subproblem1 p' q' V3.ez = .error .assertion ∨ ∃ th, subproblem1 p' q' V3.ez = .ok th ∧ Spec.AngNear th (Real.pi / 2) (7 / 1000) := by
  have h := C73_subproblem1_split_partial invAcc_rounded V3.ez V3.ex V3.ey (by simp [IsUnit3, V3.ez])
    (by rw [V3.norm_eq]; exact Real.sqrt_le_iff.2 ⟨by norm_num, by norm_num [V3.dot, V3.ex]⟩) (Real.pi / 2) (by ext <;> simp [rot]) 1 one_pos le_rfl
    (by rw [V3.norm_eq]; exact Real.le_sqrt_of_sq_le (by simp [V3.dot])) (V3.ez.map Fl.of) p' q' (1 / 1000) (1 / 1000) 0
    (by norm_num) (by norm_num) (by rw [b64_u]; norm_num) (by rw [b64_u]; norm_num) (b64_eta _)
    (Or.inr ⟨le_rfl, Or.inr (by rw [V3.norm_eq]; exact Real.le_sqrt_of_sq_le (by simp [V3.dot]; norm_num))⟩)
    (Fl.vNear_self V3.ez (b64 _).u_nonneg) hp' hq'
  rw [b64_u] at h
  rcases h with h | ⟨th, h, h'⟩
  · exact .inl h
  · exact .inr ⟨th, h, Fl.AngNear.mono' h' (by norm_num)⟩

/-- C74: turning (1, 0, 0), known up to a thousandth, about z until its displacement along x is 0. -/
example (q' : V3 (Fl (b64 Libm.rounded))) (hq' : Spec.VNear q' V3.ex (1 / 1000)) :
    ∃ t t' θ', (subproblem4 V3.ex q' V3.ez 0 = [t, t'] ∨ subproblem4 V3.ex q' V3.ez 0 = [t', t]) ∧
      Spec.AngNear t (Real.pi / 2) (18 / 1000) ∧ Spec.AngNear t' θ' (18 / 1000) := by
  obtain ⟨t, t', θ', h, h1, h2, -, -⟩ := C74_subproblem4_split_partial invAcc_rounded V3.ez V3.ex V3.ex (by simp [IsUnit3, V3.ez])
    (by simp [IsUnit3, V3.ex]) (by rw [V3.norm_eq]; exact Real.sqrt_le_iff.2 ⟨by norm_num, by norm_num [V3.dot, V3.ex]⟩) 0 (Real.pi / 2)
    (by simp [rot, V3.dot]) 1 one_pos (by simp [rot, V3.dot]) (V3.ez.map Fl.of) (V3.ex.map Fl.of) q' 0 (1 / 1000) 0 (by norm_num) (by norm_num)
    (by rw [b64_u]; norm_num) (by rw [b64_u]; norm_num) (b64_eta _) (Fl.vNear_self V3.ez (b64 _).u_nonneg) (Fl.vNear_self V3.ex (b64 _).u_nonneg) hq' Fl.near_zero
  rw [b64_u] at h1 h2
  exact ⟨t, t', θ', h, Fl.AngNear.mono' h1 (by norm_num), Fl.AngNear.mono' h2 (by norm_num)⟩

/-- C81: an elbow with two links of length 1 at a right angle, the distance known up to a thousandth. -/
example (d' : Fl (b64 Libm.rounded)) (hd' : d'.Near (Real.sqrt 2) (1 / 1000)) :
    subproblem3 V3.ex V3.ex V3.ez d' = .error .assertion ∨ ∃ t1 t2, subproblem3 V3.ex V3.ex V3.ez d' = .ok [t1, t2] ∧
      (Spec.AngNear t1 (Real.pi / 2) (8 / 1000) ∨ Spec.AngNear t2 (Real.pi / 2) (8 / 1000)) := by
  have n1 : (V3.ex : V3 ℝ).norm ≤ 2 := by rw [V3.norm_eq]; exact Real.sqrt_le_iff.2 ⟨by norm_num, by norm_num [V3.dot, V3.ex]⟩
  have h := C81_subproblem3_rounding_partial invAcc_rounded V3.ez V3.ex V3.ex (by simp [IsUnit3, V3.ez]) n1 n1 (Real.sqrt 2) (Real.pi / 2)
    (by rw [V3.norm_eq]; congr 1; simp [rot, V3.dot]; norm_num) 1 one_pos (by simp [rot, V3.dot]) (V3.ez.map Fl.of) (V3.ex.map Fl.of) (V3.ex.map Fl.of) d' (1 / 1000) 0
    (by rw [b64_u]; norm_num) (b64_eta _) (by norm_num) (by rw [b64_u]; norm_num) (Or.inr ⟨le_rfl, Or.inl rfl⟩)
    (Fl.vNear_self V3.ez (b64 _).u_nonneg) (Fl.vNear_self V3.ex (mul_nonneg (by norm_num) (b64 _).u_nonneg))
    (Fl.vNear_self V3.ex (mul_nonneg (by norm_num) (b64 _).u_nonneg)) hd'
  rw [b64_u] at h
  rcases h with h | ⟨t1, t2, h, h'⟩
  · exact .inl h
  · exact .inr ⟨t1, t2, h, h'.imp (fun g => Fl.AngNear.mono' g (by norm_num)) (fun g => Fl.AngNear.mono' g (by norm_num))⟩

/-- C82: turning x by a quarter turn about y and then about x, the result known up to a thousandth. -/
example (q' : V3 (Fl (b64 Libm.rounded))) (hq' : Spec.VNear q' V3.ey (1 / 1000)) :
    subproblem2 V3.ex q' V3.ex V3.ey = .error .assertion ∨ ∃ x y, subproblem2 V3.ex q' V3.ex V3.ey = .ok [x, y] ∧
      (Spec.AngNear x.1 (Real.pi / 2) (15 / 1000) ∧ Spec.AngNear x.2 (Real.pi / 2) (15 / 1000) ∨
       Spec.AngNear y.1 (Real.pi / 2) (15 / 1000) ∧ Spec.AngNear y.2 (Real.pi / 2) (15 / 1000)) := by
  have e : (rot V3.ey (Real.pi / 2)).mulVec (V3.ex : V3 ℝ) = -V3.ez := by ext <;> simp [rot]
  have h := C82_subproblem2_rounding_partial invAcc_rounded V3.ex V3.ey V3.ex V3.ey (by simp [IsUnit3]) (by simp [IsUnit3])
    (by simp [IsUnit3]) (by simp [V3.dot]) (Real.pi / 2) (Real.pi / 2) (by ext <;> simp [rot]) 1 (by norm_num) (by rw [e]; simp [V3.dot])
    (V3.ex.map Fl.of) (V3.ey.map Fl.of) (V3.ex.map Fl.of) q' (1 / 1000) 0 (by rw [b64_u]; norm_num) (b64_eta _) (by rw [b64_u]; norm_num)
    (Or.inr ⟨le_rfl, Or.inr (by rw [e, V3.norm_eq, b64_u]; exact Real.le_sqrt_of_sq_le (by simp [V3.dot]; norm_num))⟩)
    (Or.inr ⟨le_rfl, Or.inr (by rw [e, V3.norm_eq, b64_u]; exact Real.le_sqrt_of_sq_le (by simp [V3.dot]; norm_num))⟩)
    (Fl.vNear_self V3.ex (b64 _).u_nonneg) (Fl.vNear_self V3.ey (b64 _).u_nonneg) (Fl.vNear_self V3.ex (b64 _).u_nonneg) hq'
  rw [b64_u] at h
  have le : (0 + (14 * (1 / 1000) + 710000 * 2⁻¹ ^ 50) / 1) / 1 ≤ (15 / 1000 : ℝ) := by norm_num
  rcases h with h | ⟨x, y, h, h'⟩
  · exact .inl h
  · exact .inr ⟨x, y, h, h'.imp (fun g => ⟨Fl.AngNear.mono' g.1 le, Fl.AngNear.mono' g.2 le⟩) (fun g => ⟨Fl.AngNear.mono' g.1 le, Fl.AngNear.mono' g.2 le⟩)⟩
