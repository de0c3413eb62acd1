import Verif.Lemmas.FlSub
import Verif.Props.RoundingRpy

/-!
# C73: the rotation subproblem with rounding

The claim: for a point `p` off the axis `k` and its rotated copy `q`, `subproblem1` computed with rounding returns the angle of the
rotation, up to an error proportional to the rounding errors and inversely proportional to the distance of `p` from the axis.

It is false: the check of `subproblem0` that its arguments are perpendicular to the axis compares a rounded inner product with one unit in
the last place, and the rounded perpendicular part computed by `subproblem1` itself can exceed that.
-/
set_option autoImplicit false

/-- C73 is false: turning (1, 1, 1) half a turn about (1, 1, 0) gives (1, 1, -1); in binary64 `subproblem1` raises an `AssertionError` on these
three vectors of small integers, whatever the library. -/
theorem C73_subproblem1_false (lib : Libm) :
    (rot ((⟨1, 1, 0⟩ : V3 ℝ).sdiv (Real.sqrt 2)) Real.pi).mulVec ⟨1, 1, 1⟩ = ⟨1, 1, -1⟩ ∧
    subproblem1 (⟨.of 1, .of 1, .of 1⟩ : V3 (Fl (b64 lib))) ⟨.of 1, .of 1, .of (-1)⟩ ⟨.of 1, .of 1, .of 0⟩ = .error .assertion := by
  refine ⟨?_, B64Sub.raises lib⟩
  have hk : IsUnit3 ((⟨1, 1, 0⟩ : V3 ℝ).sdiv (Real.sqrt 2)) := by
    have h := Real.mul_self_sqrt (show (0 : ℝ) ≤ 2 by norm_num)
    have h0 : Real.sqrt 2 ≠ 0 := by positivity
    simp only [IsUnit3, V3.sdiv]
    field_simp
    linarith
  have h := Real.mul_self_sqrt (show (0 : ℝ) ≤ 2 by norm_num)
  have h0 : Real.sqrt 2 ≠ 0 := by positivity
  rw [rot_mulVec _ hk, Real.cos_pi, Real.sin_pi]
  ext <;> simp [V3.dot, V3.sdiv] <;> field_simp <;> linarith

/-- C73, the part that holds: `subproblem1` either fails this check or returns the angle, for data within `ε` of a unit axis, a point at most 4
from the origin and at least `s` from the axis, and its rotated copy.  The first term of the error is the early return of 0 for points closer
than the square root of the machine epsilon.  Missing: that it does not raise. -/
theorem C73_subproblem1_rounding_partial {F : FSys} (hF : Spec.InvAcc F) (k p q : V3 ℝ) (hk : IsUnit3 k) (hp : p.norm ≤ 4) (θ : ℝ)
    (hq : (rot k θ).mulVec p = q) (s : ℝ) (hs : 0 < s) (hs1 : s ≤ 1) (hps : s ≤ (k.cross p).norm) (k' p' q' : V3 (Fl F)) (ε : ℝ) (hu : F.u ≤ ε)
    (he : 140000 * ε ≤ s) (hη : 16 * F.η ≤ F.u ^ 3) (hk' : Spec.VNear k' k ε) (hp' : Spec.VNear p' p ε) (hq' : Spec.VNear q' q ε) :
    subproblem1 p' q' k' = .error .assertion ∨
    ∃ th, subproblem1 p' q' k' = .ok th ∧ Spec.AngNear th θ ((1 / 33554432 + 350000 * ε) / s) := by
  rw [← V3.perp_norm hk] at hps
  exact (Fl.subproblem1_near hF hk hp hq hs hs1 hps hu he hη (Fl.VNear.entries hk') (Fl.VNear.entries hp') (Fl.VNear.entries hq')).imp And.left id

/-- C73 for the three coordinate axes and points whose coordinates are floating-point numbers: here it never raises. -/
theorem C73_subproblem1_axes_partial {F : FSys} (hF : Spec.InvAcc F) (i : Fin 3) (p q : V3 ℝ) (hp : p.norm ≤ 4) (θ : ℝ)
    (hq : (rot (![V3.ex, V3.ey, V3.ez] i) θ).mulVec p = q) (s : ℝ) (hs : 0 < s) (hs1 : s ≤ 1)
    (hps : s ≤ ((![V3.ex, V3.ey, V3.ez] i : V3 ℝ).cross p).norm) (v w : V3 ℝ) (ε : ℝ) (hu : F.u ≤ ε)
    (he : 140000 * ε ≤ s) (hη : 16 * F.η ≤ F.u ^ 3) (hv : (v - p).norm ≤ ε) (hw : (w - q).norm ≤ ε)
    (rv : F.rnd v.x = v.x ∧ F.rnd v.y = v.y ∧ F.rnd v.z = v.z) (rw' : F.rnd w.x = w.x ∧ F.rnd w.y = w.y ∧ F.rnd w.z = w.z) :
    ∃ th, subproblem1 (v.map Fl.of) (w.map Fl.of) (![V3.ex, V3.ey, V3.ez] i : V3 (Fl F)) = .ok th ∧
      Spec.AngNear th θ ((1 / 33554432 + 350000 * ε) / s) := by
  have u0 := F.u_nonneg
  have hk : IsUnit3 (![V3.ex, V3.ey, V3.ez] i : V3 ℝ) := by fin_cases i <;> simp [IsUnit3, V3.ex, V3.ey, V3.ez]
  have hk' : Fl.C3 (![V3.ex, V3.ey, V3.ez] i : V3 (Fl F)) (![V3.ex, V3.ey, V3.ez] i : V3 ℝ) ε := by
    have z : (0 : Fl F).Near 0 ε := Fl.near_zero.mono (u0.trans hu)
    have o : (1 : Fl F).Near 1 ε := Fl.near_one.mono (u0.trans hu)
    fin_cases i
    · exact ⟨o, z, z⟩
    · exact ⟨z, o, z⟩
    · exact ⟨z, z, o⟩
  have hkk : (![V3.ex, V3.ey, V3.ez] i : V3 (Fl F)) = V3.ex ∨ (![V3.ex, V3.ey, V3.ez] i : V3 (Fl F)) = V3.ey ∨
      (![V3.ex, V3.ey, V3.ez] i : V3 (Fl F)) = V3.ez := by
    fin_cases i
    · exact Or.inl rfl
    · exact Or.inr (Or.inl rfl)
    · exact Or.inr (Or.inr rfl)
  rw [← V3.perp_norm hk] at hps
  have hpv := Fl.VNear.entries (F := F) ⟨v, rfl, hv⟩
  have hqw := Fl.VNear.entries (F := F) ⟨w, rfl, hw⟩
  have hqn : q.norm ≤ 4 := by rw [← hq, (rot_isRot _ hk θ).norm_mulVec]; exact hp
  have hqs : s ≤ (q.perp (![V3.ex, V3.ey, V3.ez] i)).norm := by rw [← hq, rot_perp_eq hk, (rot_isRot _ hk θ).norm_mulVec]; exact hps
  have pass : ∀ {a b : V3 ℝ}, b.norm ≤ 4 → s ≤ (b.perp (![V3.ex, V3.ey, V3.ez] i)).norm → (a - b).norm ≤ ε →
      (F.rnd a.x = a.x ∧ F.rnd a.y = a.y ∧ F.rnd a.z = a.z) →
      ((![V3.ex, V3.ey, V3.ez] i : V3 (Fl F)).sdiv (![V3.ex, V3.ey, V3.ez] i : V3 (Fl F)).norm).dot
        (Fl.dir (a.map Fl.of) (![V3.ex, V3.ey, V3.ez] i : V3 (Fl F))) < npEps := by
    intro a b hb hbs hab ra
    obtain ⟨h1, W, hW, h2⟩ := Fl.near_dir hk hb hs hs1 hbs hu he hη hk' (Fl.VNear.entries (F := F) ⟨a, rfl, hab⟩)
    have hW0 : W ≠ 0 := by
      have := (_root_.abs_le.1 h2).1
      intro h
      linarith
    have big := F.big_ge
    have an : a.norm ≤ 5 := by
      have := V3.norm_add_le (a - b) b
      rw [show a - b + b = a by ext <;> simp] at this
      linarith
    have rep : Fl.Rep F a.x ∧ Fl.Rep F a.y ∧ Fl.Rep F a.z :=
      ⟨⟨ra.1, by have := V3.abs_x_le a; linarith⟩, ⟨ra.2.1, by have := V3.abs_y_le a; linarith⟩, ⟨ra.2.2, by have := V3.abs_z_le a; linarith⟩⟩
    rw [Fl.axis_dot hkk rep h1 hW0 (congrArg Fl.mk hW)]
    refine Fl.npEps_pos' ?_
    have u3 : F.u ^ 3 ≤ (1 / 140000) ^ 3 := pow_le_pow_left₀ u0 (by linarith) 3
    norm_num at u3
    linarith
  rcases Fl.subproblem1_near hF hk hp hq hs hs1 hps hu he hη hk' hpv hqw with h | h
  · exact absurd ⟨pass hp hps hv rv, pass hqn hqs hw rw'⟩ h.2
  · exact h

/-- Non-vacuity of C73: a quarter turn about z in binary64 with a correctly rounded library. -/
example : ∃ th, subproblem1 (⟨.of 1, .of 0, .of 1⟩ : V3 (Fl (b64 Libm.rounded))) ⟨.of 0, .of 1, .of 1⟩ V3.ez = .ok th ∧
    Spec.AngNear th (Real.pi / 2) ((1 / 33554432 + 350000 * 2⁻¹ ^ 50) / 1) := by
  have n2 : (⟨1, 0, 1⟩ : V3 ℝ).norm ≤ 4 := by
    rw [V3.norm_eq]
    exact Real.sqrt_le_iff.2 ⟨by norm_num, by norm_num [V3.dot]⟩
  have one : B64.rnd 1 = 1 := (b64 Libm.rounded).rnd_one
  refine C73_subproblem1_axes_partial invAcc_rounded 2 ⟨1, 0, 1⟩ ⟨0, 1, 1⟩ n2 (Real.pi / 2) ?_ 1 one_pos le_rfl ?_ ⟨1, 0, 1⟩ ⟨0, 1, 1⟩
    (2⁻¹ ^ 50) le_rfl (by norm_num) ?_ ?_ ?_ ⟨one, B64.rnd_zero, one⟩ ⟨B64.rnd_zero, one, one⟩
  · ext <;> simp [rot]
  · rw [V3.norm_eq]
    exact Real.le_sqrt_of_sq_le (by simp [V3.dot])
  · change 16 * (2⁻¹ : ℝ) ^ 1075 ≤ (2⁻¹ ^ 50) ^ 3
    have : (2⁻¹ : ℝ) ^ 1075 ≤ 2⁻¹ ^ 154 := pow_le_pow_of_le_one (by norm_num) (by norm_num) (by norm_num)
    rw [← pow_mul]
    exact (mul_le_mul_of_nonneg_left this (by norm_num)).trans (by norm_num)
  · rw [V3.norm_eq]; simp [V3.dot]
  · rw [V3.norm_eq]; simp [V3.dot]

/-- Non-vacuity of the hypotheses of `C73_subproblem1_rounding_partial`: a point at distance more than 1 from a tilted axis. -/
example : IsUnit3 (⟨3 / 5, 4 / 5, 0⟩ : V3 ℝ) ∧ (⟨1, 1, 1⟩ : V3 ℝ).norm ≤ 4 ∧ (1 : ℝ) ≤ ((⟨3 / 5, 4 / 5, 0⟩ : V3 ℝ).cross ⟨1, 1, 1⟩).norm := by
  refine ⟨by norm_num [IsUnit3], ?_, ?_⟩
  · rw [V3.norm_eq]; exact Real.sqrt_le_iff.2 ⟨by norm_num, by norm_num [V3.dot]⟩
  · rw [V3.norm_eq]; exact Real.le_sqrt_of_sq_le (by norm_num [V3.dot])
