import Verif.Lemmas.FlSub4
import Verif.Props.RoundingSub
import Verif.Props.Subproblems

/-!
# C74: the displacement subproblem with rounding

The claim: if some angle `θ` solves `p · rot(k,θ) q = d`, `subproblem4` computed with rounding returns two angles, one of them `θ` and the
other the second solution, up to an error proportional to the rounding errors and inversely proportional to the rate at which the
displacement changes with the angle.

It is false where the rate vanishes, at the largest and the smallest displacement: there the list is empty, or it consists of NaNs.
-/
set_option autoImplicit false

/-- How fast the displacement changes with the angle. -/
theorem sp4_rate {p q k : V3 ℝ} (hk : IsUnit3 k) (θ : ℝ) : p.dot (k.cross ((rot k θ).mulVec q)) =
    Spec.sp4amp p q k * Real.cos (θ + Complex.arg ⟨p.dot (k.cross q), -p.dot (k.cross (k.cross q))⟩) := by
  obtain ⟨h1, h2⟩ := polar_arg (p.dot (k.cross q)) (-p.dot (k.cross (k.cross q)))
  rw [neg_mul_neg] at h1 h2
  have e : p.dot (k.cross ((rot k θ).mulVec q)) = p.dot (k.cross q) * Real.cos θ + p.dot (k.cross (k.cross q)) * Real.sin θ := by
    rw [rot_mulVec k hk]
    have hk1 : k.x * k.x + k.y * k.y + k.z * k.z = 1 := hk
    simp [V3.dot]
    ring
  rw [e, Spec.sp4amp, Real.cos_add]
  linear_combination (-Real.cos θ) * h1 + (Real.sin θ) * h2

/-- C74, the part that holds: for data within `ε` of a unit axis and of two points at most 2 from the origin, and a solution `θ` at which the
displacement changes at a rate of at least `m` (`m²` large compared with `ε`), two angles are returned: one is `θ`, the other the second
solution `θ'`, where the displacement changes at the opposite rate.  Missing: displacements so close to the extreme that `m²` is of the order
of `ε`. -/
theorem C74_subproblem4_rounding_partial {F : FSys} (hF : Spec.InvAcc F) (k p q : V3 ℝ) (hk : IsUnit3 k) (hp : p.norm ≤ 2) (hq : q.norm ≤ 2)
    (d θ : ℝ) (hd : p.dot ((rot k θ).mulVec q) = d) (m : ℝ) (hm0 : 0 < m) (hm : m ≤ |p.dot (k.cross ((rot k θ).mulVec q))|)
    (k' p' q' : V3 (Fl F)) (d' : Fl F) (ε : ℝ) (hu : F.u ≤ ε) (he : 110000 * ε ≤ m ^ 2) (hη : 16 * F.η ≤ F.u ^ 3)
    (hk' : Spec.VNear k' k ε) (hp' : Spec.VNear p' p ε) (hq' : Spec.VNear q' q ε) (hd' : d'.Near d ε) :
    ∃ t t' θ', (subproblem4 p' q' k' d' = [t, t'] ∨ subproblem4 p' q' k' d' = [t', t]) ∧
      Spec.AngNear t θ (12000 * ε / m) ∧ Spec.AngNear t' θ' (12000 * ε / m) ∧
      p.dot ((rot k θ').mulVec q) = d ∧
      p.dot (k.cross ((rot k θ').mulVec q)) = -p.dot (k.cross ((rot k θ).mulVec q)) := by
  have u0 := F.u_nonneg
  have e0 := u0.trans hu
  have hd4 : |d| ≤ 4 := by
    rw [← hd]
    refine (V3.abs_dot_le _ _).trans ?_
    rw [(rot_isRot k hk θ).norm_mulVec]
    exact (mul_le_mul hp hq (V3.norm_nonneg q) (by norm_num)).trans (by norm_num)
  set φ := Complex.arg ⟨p.dot (k.cross q), -p.dot (k.cross (k.cross q))⟩ with hφ
  set A := Spec.sp4amp p q k with hA
  have A0 : 0 ≤ A := Real.sqrt_nonneg _
  have hsin : Spec.sp4mid p q k + A * Real.sin (θ + φ) = d := by rw [← hd, sp4_sin]
  have hcos := sp4_rate (p := p) (q := q) hk θ
  rw [← hφ, ← hA] at hcos
  have hmc : m ≤ A * |Real.cos (θ + φ)| := by rwa [hcos, abs_mul, abs_of_nonneg A0] at hm
  have hc0 : 0 < |Real.cos (θ + φ)| := by
    rcases (abs_nonneg (Real.cos (θ + φ))).eq_or_lt with h | h
    · rw [← h, mul_zero] at hmc; linarith
    · exact h
  have hA0 : 0 < A := by
    rcases A0.eq_or_lt with h | h
    · rw [← h, zero_mul] at hmc; linarith
    · exact h
  have hA2 : p.dot (k.cross q) * p.dot (k.cross q) + -p.dot (k.cross (k.cross q)) * -p.dot (k.cross (k.cross q)) = A ^ 2 := by
    rw [hA, Spec.sp4amp, Real.sq_sqrt (add_nonneg (mul_self_nonneg _) (mul_self_nonneg _)), neg_mul_neg]
  have hxc : Real.sin (θ + φ) * Real.sin (θ + φ) + |Real.cos (θ + φ)| * |Real.cos (θ + φ)| = 1 := by
    rw [abs_mul_abs_self]
    have := Real.sin_sq_add_cos_sq (θ + φ)
    linarith
  have hm2 : m ^ 2 ≤ (A * |Real.cos (θ + φ)|) ^ 2 := pow_le_pow_left₀ hm0.le hmc 2
  have hx : d - (p.dot q + p.dot (k.cross (k.cross q))) = A * Real.sin (θ + φ) := by
    rw [← hsin, Spec.sp4mid]; ring
  obtain ⟨t1, t2, h1, h2, h3⟩ := Fl.subproblem4_near hF hk hp hq hd4 hA0 hA2 hx hc0 hxc hu (he.trans hm2) hη (Fl.VNear.entries hk')
    (Fl.VNear.entries hp') (Fl.VNear.entries hq') hd'
  rw [← hφ] at h2 h3
  have hE : 12000 * (ε / (A * |Real.cos (θ + φ)|)) ≤ 12000 * ε / m := by
    rw [mul_div_assoc]
    exact mul_le_mul_of_nonneg_left (div_le_div_of_nonneg_left e0 hm0 hmc) (by norm_num)
  have s1 : -1 ≤ Real.sin (θ + φ) := Real.neg_one_le_sin _
  have s2 : Real.sin (θ + φ) ≤ 1 := Real.sin_le_one _
  have ss := Real.sin_arcsin s1 s2
  have cc : Real.cos (Real.arcsin (Real.sin (θ + φ))) = |Real.cos (θ + φ)| := by
    rw [Real.cos_arcsin, show 1 - Real.sin (θ + φ) ^ 2 = |Real.cos (θ + φ)| ^ 2 by linarith, Real.sqrt_sq hc0.le]
  set ψ := Real.arcsin (Real.sin (θ + φ))
  have move : ∀ {t : Fl F} {α β : ℝ} {n : ℤ}, Spec.AngNear t α (12000 * (ε / (A * |Real.cos (θ + φ)|))) → α = β + n * (2 * Real.pi) →
      Spec.AngNear t β (12000 * ε / m) := by
    rintro t α β n ⟨k, hk⟩ rfl
    refine ⟨n + k, ?_⟩
    push_cast
    rw [show β + (n + k) * (2 * Real.pi) = β + n * (2 * Real.pi) + k * (2 * Real.pi) by ring]
    exact hk.mono hE
  rcases le_total 0 (Real.cos (θ + φ)) with hpos | hneg
  · rw [abs_of_nonneg hpos] at cc
    obtain ⟨n, hn⟩ := angle_eq_of_sin_cos (a := ψ) (b := θ + φ) ss cc
    refine ⟨t1, t2, -φ - ψ + Real.pi, Or.inl h1, move h2 (n := n) (by linarith), move h3 (n := 0) (by simp), ?_, ?_⟩
    · rw [sp4_sin, ← hφ, ← hA, show -φ - ψ + Real.pi + φ = Real.pi - ψ by ring, Real.sin_pi_sub, ss, hsin]
    · rw [sp4_rate hk, ← hφ, ← hA, show -φ - ψ + Real.pi + φ = Real.pi - ψ by ring, Real.cos_pi_sub, cc, hcos]
      ring
  · rw [abs_of_nonpos hneg] at cc
    obtain ⟨n, hn⟩ := angle_eq_of_sin_cos (a := Real.pi - ψ) (b := θ + φ) (by rw [Real.sin_pi_sub]; exact ss)
      (by rw [Real.cos_pi_sub, cc, neg_neg])
    refine ⟨t2, t1, -φ + ψ, Or.inr h1, move h3 (n := n) (by linarith), move h2 (n := 0) (by simp), ?_, ?_⟩
    · rw [sp4_sin, ← hφ, ← hA, show -φ + ψ + φ = ψ by ring, ss, hsin]
    · rw [sp4_rate hk, ← hφ, ← hA, show -φ + ψ + φ = ψ by ring, cc, hcos]
      ring

namespace Fl
variable {F : FSys}

theorem one_mul_of {x : ℝ} (h : Rep F x) : (of 1 * of x : Fl F) = of x := mul_of (by rw [one_mul]; exact h.1) h.2
theorem sub_zero_of {x : ℝ} (h : Rep F x) : (of x - of 0 : Fl F) = of x := sub_of (by rw [sub_zero]; exact h.1) h.2
theorem div_one_of {x : ℝ} (h : Rep F x) : (of x / of 1 : Fl F) = of x := div_of one_ne_zero (by rw [div_one]; exact h.1) h.2
theorem neg_of (x : ℝ) : -(of x : Fl F) = of (-x) := rfl

/-- `subproblem4` for turning ex about ez, displacement along ex. -/
theorem subproblem4_ex (hn : Rep F (-1)) {d : ℝ} (hd : Rep F d) : subproblem4 (V3.ex : V3 (Fl F)) V3.ex V3.ez (of d) =
    if 1 < d then [] else [-Elem.arctan2 (of 1) (of 0) + Elem.arcsin (of d), -Elem.arctan2 (of 1) (of 0) - Elem.arcsin (of d) + Elem.pi] := by
  have a0 := add_zero_of (F := F) Rep.zero
  have a1 := zero_add_of (F := F) hn
  have a2 := add_zero_of (F := F) hn
  have a3 := zero_add_of (F := F) Rep.one
  have a4 := add_zero_of (F := F) Rep.one
  have m1 := one_mul_of (F := F) hn
  have m2 := mul_one_of (F := F) hn
  have m3 := one_mul_of (F := F) Rep.one
  have s1 := sub_zero_of hd
  have d1 := div_one_of hd
  have ha : (M3.vecMul V3.ex (hat V3.ez)).dot V3.ex = (of 0 : Fl F) := by
    simp only [M3.vecMul, V3.dot, V3.ex, V3.ez, hat, zero_eq, one_eq, neg_of, neg_zero, mul_zero_of, zero_mul_of, a0, a1, a2, a3, a4, m1, m2, m3]
  have hb : -((V3.ex : V3 (Fl F)).dot ((hat V3.ez).mulVec ((hat V3.ez).mulVec V3.ex))) = of 1 := by
    simp only [M3.mulVec, V3.dot, V3.ex, V3.ez, hat, zero_eq, one_eq, neg_of, neg_zero, mul_zero_of, zero_mul_of, a0, a1, a2, a3, a4, m1, m2, m3,
      neg_neg]
  have hpq : (V3.ex : V3 (Fl F)).dot V3.ex = of 1 := by
    simp only [V3.dot, V3.ex, zero_eq, one_eq, mul_zero_of, zero_mul_of, a0, a4, m3]
  rw [subproblem4]
  simp only [ha, hb, hpq, sub_self_of, s1, mul_zero_of, m3, a3, sqrt_one_of, d1]
  rfl

end Fl

/-- C74 is false at the extreme displacements: turning (1, 0, 0) about z reaches the displacements 1 (at angle 0) and -1 (at angle π) along
itself.  Stored with an error of one unit in the last place these give an empty list and a pair of NaNs, in binary64 with any library. -/
theorem C74_subproblem4_false (lib : Libm) :
    (V3.ex : V3 ℝ).dot ((rot V3.ez 0).mulVec V3.ex) = 1 ∧ (V3.ex : V3 ℝ).dot ((rot V3.ez Real.pi).mulVec V3.ex) = -1 ∧
    subproblem4 (V3.ex : V3 (Fl (b64 lib))) V3.ex V3.ez (.of (1 + 2⁻¹ ^ 52)) = [] ∧
    subproblem4 (V3.ex : V3 (Fl (b64 lib))) V3.ex V3.ez (.of (-(1 + 2⁻¹ ^ 52))) = [⟨.nan⟩, ⟨.nan⟩] := by
  have hn : Fl.Rep (b64 lib) (-1) := ⟨B64Sub.ex lib (-2 ^ 52) (-52) (by norm_num) (by norm_num) (by norm_num) (by norm_num) (by norm_num),
    B64Sub.sb lib (by norm_num)⟩
  have h1 : Fl.Rep (b64 lib) (1 + 2⁻¹ ^ 52) :=
    ⟨B64Sub.ex lib (2 ^ 52 + 1) (-52) (by norm_num) (by norm_num) (by norm_num) (by norm_num) (by norm_num),
    B64Sub.sb lib (by norm_num [_root_.abs_le])⟩
  have h2 : Fl.Rep (b64 lib) (-(1 + 2⁻¹ ^ 52)) :=
    ⟨B64Sub.ex lib (-(2 ^ 52 + 1)) (-52) (by norm_num) (by norm_num) (by norm_num) (by norm_num) (by norm_num),
    B64Sub.sb lib (by norm_num [_root_.abs_le])⟩
  refine ⟨by simp [rot, V3.dot], by simp [rot, V3.dot], ?_, ?_⟩
  · rw [Fl.subproblem4_ex hn h1, if_pos (by norm_num)]
  · rw [Fl.subproblem4_ex hn h2, if_neg (by norm_num)]
    have hs : (Elem.arcsin (Fl.of (-(1 + 2⁻¹ ^ 52))) : Fl (b64 lib)) = ⟨.nan⟩ := by
      change (⟨XReal.onFin _ _ _⟩ : Fl (b64 lib)) = _
      simp only [Fl.of, XReal.onFin]
      rw [if_neg (by norm_num)]
    rw [hs]
    have e1 : ∀ a : Fl (b64 lib), a + ⟨.nan⟩ = ⟨.nan⟩ := fun a => by
      change (⟨(b64 lib).round (a.val + .nan)⟩ : Fl (b64 lib)) = _
      simp [FSys.round]
    have e2 : ∀ a : Fl (b64 lib), a - ⟨.nan⟩ = ⟨.nan⟩ := fun a => by
      change (⟨(b64 lib).round (a.val - .nan)⟩ : Fl (b64 lib)) = _
      simp [FSys.round]
    have e3 : ∀ a : Fl (b64 lib), ⟨.nan⟩ + a = ⟨.nan⟩ := fun a => by
      change (⟨(b64 lib).round (.nan + a.val)⟩ : Fl (b64 lib)) = _
      simp [FSys.round]
    rw [e1, e2, e3]

/-- Non-vacuity of C74: turning (1, 0, 0) about z until its displacement along itself is 0, in binary64 with a correctly rounded library. -/
example : ∃ t t' θ', (subproblem4 (V3.ex : V3 (Fl (b64 Libm.rounded))) V3.ex V3.ez 0 = [t, t'] ∨
      subproblem4 (V3.ex : V3 (Fl (b64 Libm.rounded))) V3.ex V3.ez 0 = [t', t]) ∧
      Spec.AngNear t (Real.pi / 2) (12000 * 2⁻¹ ^ 50 / 1) ∧ Spec.AngNear t' θ' (12000 * 2⁻¹ ^ 50 / 1) ∧
      (V3.ex : V3 ℝ).dot ((rot V3.ez θ').mulVec V3.ex) = 0 ∧
      (V3.ex : V3 ℝ).dot ((V3.ez : V3 ℝ).cross ((rot V3.ez θ').mulVec V3.ex)) =
        -(V3.ex : V3 ℝ).dot ((V3.ez : V3 ℝ).cross ((rot V3.ez (Real.pi / 2)).mulVec V3.ex)) := by
  have n1 : (V3.ex : V3 ℝ).norm ≤ 2 := by
    rw [V3.norm_eq]
    exact Real.sqrt_le_iff.2 ⟨by norm_num, by norm_num [V3.dot, V3.ex]⟩
  have near : ∀ v : V3 ℝ, Spec.VNear (F := b64 Libm.rounded) (v.map Fl.of) v (2⁻¹ ^ 50) := fun v => ⟨v, rfl, by
    rw [show v - v = 0 by ext <;> simp, V3.norm_zero]; positivity⟩
  refine C74_subproblem4_rounding_partial invAcc_rounded V3.ez V3.ex V3.ex (by simp [IsUnit3, V3.ez]) n1 n1 0 (Real.pi / 2) (by simp [rot, V3.dot]) 1
    one_pos (by simp [rot, V3.dot]) V3.ez V3.ex V3.ex 0 (2⁻¹ ^ 50) le_rfl (by norm_num) ?_ (near V3.ez) (near V3.ex) (near V3.ex)
    (Fl.near_zero.mono (by positivity))
  change 16 * (2⁻¹ : ℝ) ^ 1075 ≤ (2⁻¹ ^ 50) ^ 3
  have : (2⁻¹ : ℝ) ^ 1075 ≤ 2⁻¹ ^ 154 := pow_le_pow_of_le_one (by norm_num) (by norm_num) (by norm_num)
  rw [← pow_mul]
  exact (mul_le_mul_of_nonneg_left this (by norm_num)).trans (by norm_num)
