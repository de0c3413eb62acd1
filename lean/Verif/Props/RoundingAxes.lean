import Verif.Lemmas.FlAxis
import Verif.Props.RoundingSubE

/-!
# C73, C81 and C82 for coordinate axes

About the coordinate axes and their negatives, given points whose coordinates are floating-point numbers, the check that makes the subproblems
raise (C73) always passes: the scalar product it computes is exactly zero.  So they return, and everything they return is near a solution.

`Spec.ExactRnd` is what is needed of the rounding: rounding a rounded number changes nothing, and rounding commutes with the change of sign.
Binary64 has both (`b64_exactRnd`).
-/
set_option autoImplicit false

/-- C73 for the coordinate axes and their negatives, with data errors kept apart: it does not raise. -/
theorem C73_subproblem1_coord_partial {F : FSys} (hF : Spec.InvAcc F) (hE : Spec.ExactRnd F) (k p q : V3 ℝ) (hk : Spec.CoordAxis k) (hp : p.norm ≤ 3) (θ : ℝ)
    (hq : (rot k θ).mulVec p = q) (s : ℝ) (hs : 0 < s) (hs1 : s ≤ 1) (hps : s ≤ (k.cross p).norm) (p' q' : V3 (Fl F)) (e f β : ℝ)
    (he : 2 * e ≤ s) (hf : 2 * f ≤ s) (hu : 280000 * F.u ≤ s) (hu' : F.u ≤ 1 / 100000000000) (hη : 16 * F.η ≤ F.u ^ 3)
    (hβ : 1 / 33554432 ≤ β ∨ 0 ≤ β ∧ (p = q ∨ 1 / 50000000 + (e + f) ≤ (p - q).norm))
    (hp' : Spec.VNear p' p e) (hq' : Spec.VNear q' q f) (rp : Fl.RepV p') (rq : Fl.RepV q') :
    ∃ th, subproblem1 p' q' (k.map Fl.of) = .ok th ∧ Spec.AngNear th θ ((β + 315 / 100 * (e + f) + 700000 * F.u) / s) := by
  rw [← V3.perp_norm hk.unit] at hps
  exact Fl.subproblem1_coord hE hF hk hp hq hs hs1 hps he hf hu hu' hη hβ hp' hq' rp rq

/-- C81 for the coordinate axes and their negatives: it does not raise, both angles returned are near solutions, and every solution is one of them.
Missing, as in the general case: distances so close to the extreme that `m²` is of the order of the errors. -/
theorem C81_subproblem3_axes_partial {F : FSys} (hF : Spec.InvAcc F) (hE : Spec.ExactRnd F) (k p q : V3 ℝ) (hk : Spec.CoordAxis k) (hp : p.norm ≤ 2)
    (hq : q.norm ≤ 2) (d θ : ℝ) (hd : (q + (rot k θ).mulVec p).norm = d) (m : ℝ) (hm0 : 0 < m) (hm : m ≤ |q.dot (k.cross ((rot k θ).mulVec p))|)
    (p' q' : V3 (Fl F)) (d' : Fl F) (f β : ℝ) (hu : F.u ≤ 1 / 100000000000) (hη : 16 * F.η ≤ F.u ^ 3) (hf : f ≤ 1 / 10)
    (he : 2500000 * F.u + 330 * f ≤ m ^ 2)
    (hβ : 1 / 33554432 ≤ β ∨ 0 ≤ β ∧ (Spec.dir p k = Spec.dir q k ∨ 1 / 50000000 + 60000 * (F.u / m) ≤ (Spec.dir p k - Spec.dir q k).norm))
    (hp' : Spec.VNear p' p (16 * F.u)) (hq' : Spec.VNear q' q (16 * F.u)) (hd' : d'.Near d f) :
    ∃ t1 t2 θ1 θ2, subproblem3 p' q' (k.map Fl.of) d' = .ok [t1, t2] ∧ (q + (rot k θ1).mulVec p).norm = d ∧ (q + (rot k θ2).mulVec p).norm = d ∧
      Spec.AngNear t1 θ1 (β + (77 / 10 * f + 3200000 * F.u) / m) ∧ Spec.AngNear t2 θ2 (β + (77 / 10 * f + 3200000 * F.u) / m) ∧
      ∃ l : ℤ, θ = θ1 + l * (2 * Real.pi) ∨ θ = θ2 + l * (2 * Real.pi) :=
  Fl.subproblem3_coord hE hF hk hp hq (by rw [← hd]; exact V3.norm_nonneg _) hd hm0 hm hu hη hf he hβ hp' hq' hd'

/-- C81, no solution: if the distance is out of reach by more than the errors (`a`, `b` are the distances of the points from the axis, `h` is the
difference of their heights along it, and the distances that can be reached are those with `(a-b)² ≤ d²-h² ≤ (a+b)²`), the list is empty. -/
theorem C81_subproblem3_unreachable_partial {F : FSys} (k p q : V3 ℝ) (hk : IsUnit3 k) (hp : p.norm ≤ 2) (hq : q.norm ≤ 2) (d f a b h : ℝ)
    (hd0 : 0 ≤ d) (hd4 : d ≤ 4) (ha : a = (k.cross p).norm) (hb : b = (k.cross q).norm) (hh : h = k.dot (p + q)) (hab : 20000 * F.u ≤ a * b)
    (hfar : (a + b) ^ 2 + (60000 * F.u + 9 * f) ≤ d ^ 2 - h ^ 2 ∨ d ^ 2 - h ^ 2 + (60000 * F.u + 9 * f) ≤ (a - b) ^ 2)
    (k' p' q' : V3 (Fl F)) (d' : Fl F) (hu0 : 0 < F.u) (hu : F.u ≤ 1 / 100000000000) (hη : 16 * F.η ≤ F.u ^ 3) (hf : f ≤ 1 / 10)
    (hk' : Spec.VNear k' k F.u) (hp' : Spec.VNear p' p (16 * F.u)) (hq' : Spec.VNear q' q (16 * F.u)) (hd' : d'.Near d f) :
    (∀ θ, (q + (rot k θ).mulVec p).norm ≠ d) ∧ subproblem3 p' q' k' d' = .ok [] := by
  have f0 : 0 ≤ f := hd'.nonneg
  rw [← V3.perp_norm hk] at ha hb
  have aa : (p.perp k).dot (p.perp k) = a ^ 2 := by rw [ha, V3.norm_sq]
  have bb : (q.perp k).dot (q.perp k) = b ^ 2 := by rw [hb, V3.norm_sq]
  constructor
  · intro θ hθ
    have hR := rot_isRot k hk θ
    set s := q + (rot k θ).mulVec p with hs
    have e1 := V3.perp_dot_self (p := s) hk
    have e2 : s.dot k = h := by
      rw [hs, V3.add_dot, ← (rot_invariants (p := p) hk (φ := θ) rfl).2, hh, V3.dot_comm k, V3.add_dot]
      ring
    have e3 : s.perp k = q.perp k + (rot k θ).mulVec (p.perp k) := by
      rw [← rot_perp_eq hk, hs]
      generalize (rot k θ).mulVec p = r
      ext <;> simp [V3.perp, V3.dot] <;> ring
    have e4 : (s.perp k).norm ^ 2 = d ^ 2 - h ^ 2 := by
      rw [V3.norm_sq, e1, e2, ← V3.norm_sq, hθ]
    have n1 := V3.norm_add_le (q.perp k) ((rot k θ).mulVec (p.perp k))
    have n2 := V3.norm_add_le (s.perp k) (-((rot k θ).mulVec (p.perp k)))
    have n3 := V3.norm_add_le (s.perp k) (-(q.perp k))
    rw [← e3, hR.norm_mulVec, ← ha, ← hb] at n1
    rw [V3.norm_neg, hR.norm_mulVec, ← ha, e3, show q.perp k + (rot k θ).mulVec (p.perp k) + -((rot k θ).mulVec (p.perp k)) = q.perp k by ext <;> simp,
      ← e3, ← hb] at n2
    rw [V3.norm_neg, ← hb, e3, show q.perp k + (rot k θ).mulVec (p.perp k) + -(q.perp k) = (rot k θ).mulVec (p.perp k) by ext <;> simp,
      ← e3, hR.norm_mulVec, ← ha] at n3
    have s0 := V3.norm_nonneg (s.perp k)
    generalize (s.perp k).norm = x at *
    rcases hfar with g | g
    · nlinarith
    · have : |a - b| ≤ x := _root_.abs_le.2 ⟨by linarith, by linarith⟩
      have := sq_le_sq' (by linarith [abs_nonneg (a - b)]) this
      rw [sq_abs] at this
      linarith
  · refine Fl.subproblem3_far hk hp hq hd0 hd4 (m := a * b) (by rw [ha, hb]) hab ?_ hu0 hu hη hf hk' hp' hq' hd'
    rw [aa, bb, ← ha, ← hb, ← hh]
    rcases hfar with h | h
    · exact le_abs.2 (.inl (by nlinarith))
    · exact le_abs.2 (.inr (by nlinarith))

/-- C82 for perpendicular coordinate axes or their negatives: it does not raise, and both pairs returned are near solutions.  Missing, as in the
general case: solutions so close to the tangent case that `γ²` is of the order of the errors. -/
theorem C82_subproblem2_axes_partial {F : FSys} (hF : Spec.InvAcc F) (hE : Spec.ExactRnd F) (k1 k2 p q : V3 ℝ) (h1 : Spec.CoordAxis k1) (h2 : Spec.CoordAxis k2)
    (hp : IsUnit3 p) (h12 : k1.dot k2 = 0) (θ1 θ2 : ℝ) (hq : (rot k1 θ1 * rot k2 θ2).mulVec p = q) (γ : ℝ) (hγ0 : 1 / 1000000 ≤ γ)
    (hγ : γ ≤ |(k1.cross k2).dot ((rot k2 θ2).mulVec p)|) (p' q' : V3 (Fl F)) (e β : ℝ)
    (hu : F.u ≤ 1 / 100000000000) (hη : 16 * F.η ≤ F.u ^ 3) (he : 60 * e + 300000 * F.u ≤ γ ^ 2) (hβ : 1 / 33554432 ≤ β)
    (hp' : Spec.VNear p' p F.u) (hq' : Spec.VNear q' q e) (rp : Fl.RepV p') (rq : Fl.RepV q') :
    ∃ x y α1 α2 β1 β2, subproblem2 p' q' (k1.map Fl.of) (k2.map Fl.of) = .ok [x, y] ∧
      (rot k1 α1 * rot k2 α2).mulVec p = q ∧ (rot k1 β1 * rot k2 β2).mulVec p = q ∧
      Spec.AngNear x.1 α1 ((β + (14 * e + 710000 * F.u) / γ) / γ) ∧ Spec.AngNear x.2 α2 ((β + (14 * e + 710000 * F.u) / γ) / γ) ∧
      Spec.AngNear y.1 β1 ((β + (14 * e + 710000 * F.u) / γ) / γ) ∧ Spec.AngNear y.2 β2 ((β + (14 * e + 710000 * F.u) / γ) / γ) :=
  Fl.subproblem2_coord hE hF h1 h2 hp h12 hq hγ0 hγ hu hη he hβ hp' hq' rp rq

/-! Non-vacuity, in binary64 with a correctly rounded library -/

/-- C81: an elbow with two links of length 1 at a right angle, the distance known up to a thousandth. -/
example (d' : Fl (b64 Libm.rounded)) (hd' : d'.Near (Real.sqrt 2) (1 / 1000)) :
    ∃ t1 t2, subproblem3 V3.ex V3.ex (-V3.ez) d' = .ok [t1, t2] ∧
      (Spec.AngNear t1 (Real.pi / 2) (8 / 1000) ∨ Spec.AngNear t2 (Real.pi / 2) (8 / 1000)) := by
  have n1 : (V3.ex : V3 ℝ).norm ≤ 2 := by rw [V3.norm_eq]; exact Real.sqrt_le_iff.2 ⟨by norm_num, by norm_num [V3.dot, V3.ex]⟩
  have e : (-V3.ez : V3 (Fl (b64 Libm.rounded))) = (-V3.ez : V3 ℝ).map Fl.of := by
    ext <;> rfl
  rw [e]
  obtain ⟨t1, t2, θ1, θ2, h, -, -, g1, g2, l, hl⟩ := C81_subproblem3_axes_partial (invAcc_rounded) (b64_exactRnd _) (-V3.ez) V3.ex V3.ex (by simp [Spec.CoordAxis]) n1 n1 (Real.sqrt 2) (Real.pi / 2)
    (by rw [V3.norm_eq]; congr 1; simp [rot, V3.dot]; norm_num) 1 one_pos (by simp [rot, V3.dot]) (V3.ex.map Fl.of) (V3.ex.map Fl.of) d' (1 / 1000) 0
    (by rw [b64_u]; norm_num) (b64_eta _) (by norm_num) (by rw [b64_u]; norm_num) (Or.inr ⟨le_rfl, Or.inl rfl⟩)
    (Fl.vNear_self V3.ex (mul_nonneg (by norm_num) (b64 _).u_nonneg)) (Fl.vNear_self V3.ex (mul_nonneg (by norm_num) (b64 _).u_nonneg)) hd'
  rw [b64_u] at g1 g2
  refine ⟨t1, t2, h, ?_⟩
  rcases hl with hl | hl
  · exact .inl (Fl.AngNear.turn (Fl.AngNear.mono' g1 (by norm_num)) hl)
  · exact .inr (Fl.AngNear.turn (Fl.AngNear.mono' g2 (by norm_num)) hl)

/-- C81: two links of length 1 do not reach a point at distance 5/2, known up to a hundredth. -/
example (d' : Fl (b64 Libm.rounded)) (hd' : d'.Near (5 / 2) (1 / 100)) : subproblem3 V3.ex V3.ex V3.ez d' = .ok [] := by
  have n1 : (V3.ex : V3 ℝ).norm ≤ 2 := by rw [V3.norm_eq]; exact Real.sqrt_le_iff.2 ⟨by norm_num, by norm_num [V3.dot, V3.ex]⟩
  have c : (1 : ℝ) = ((V3.ez : V3 ℝ).cross V3.ex).norm := by rw [V3.norm_eq]; simp [V3.dot]
  exact (C81_subproblem3_unreachable_partial V3.ez V3.ex V3.ex (by simp [IsUnit3]) n1 n1 (5 / 2) (1 / 100) 1 1 0 (by norm_num) (by norm_num) c c
    (by simp [V3.dot]) (by rw [b64_u]; norm_num) (.inl (by rw [b64_u]; norm_num)) (V3.ez.map Fl.of) (V3.ex.map Fl.of) (V3.ex.map Fl.of) d'
    (by rw [b64_u]; norm_num) (by rw [b64_u]; norm_num) (b64_eta _) (by norm_num) (Fl.vNear_self V3.ez (b64 _).u_nonneg)
    (Fl.vNear_self V3.ex (mul_nonneg (by norm_num) (b64 _).u_nonneg)) (Fl.vNear_self V3.ex (mul_nonneg (by norm_num) (b64 _).u_nonneg)) hd').2

/-- C82: turning x by a quarter turn about y and then about x, the result known up to a thousandth. -/
example (q' : V3 (Fl (b64 Libm.rounded))) (hq' : Spec.VNear q' V3.ey (1 / 1000)) (rq : Fl.RepV q') :
    ∃ x y α1 α2 β1 β2, subproblem2 V3.ex q' V3.ex V3.ey = .ok [x, y] ∧
      (rot V3.ex α1 * rot V3.ey α2).mulVec V3.ex = V3.ey ∧ (rot V3.ex β1 * rot V3.ey β2).mulVec V3.ex = V3.ey ∧
      Spec.AngNear x.1 α1 (15 / 1000) ∧ Spec.AngNear x.2 α2 (15 / 1000) ∧ Spec.AngNear y.1 β1 (15 / 1000) ∧ Spec.AngNear y.2 β2 (15 / 1000) := by
  have e : (rot V3.ey (Real.pi / 2)).mulVec (V3.ex : V3 ℝ) = -V3.ez := by ext <;> simp [rot]
  obtain ⟨x, y, α1, α2, β1, β2, h, g1, g2, g3, g4, g5, g6⟩ := C82_subproblem2_axes_partial invAcc_rounded (b64_exactRnd _) V3.ex V3.ey V3.ex V3.ey
    (by simp [Spec.CoordAxis]) (by simp [Spec.CoordAxis])
    (by simp [IsUnit3]) (by simp [V3.dot]) (Real.pi / 2) (Real.pi / 2) (by ext <;> simp [rot]) 1 (by norm_num) (by rw [e]; simp [V3.dot])
    (V3.ex.map Fl.of) q' (1 / 1000) (1 / 33554432) (by rw [b64_u]; norm_num) (b64_eta _) (by rw [b64_u]; norm_num) le_rfl
    (Fl.vNear_self V3.ex (b64 _).u_nonneg) hq' (Fl.repV_axis (b64_exactRnd _) (by simp [Spec.CoordAxis])) rq
  have le : (1 / 33554432 + (14 * (1 / 1000) + 710000 * 2⁻¹ ^ 50) / 1) / 1 ≤ (15 / 1000 : ℝ) := by norm_num
  rw [b64_u] at g3 g4 g5 g6
  exact ⟨x, y, α1, α2, β1, β2, h, g1, g2, Fl.AngNear.mono' g3 le, Fl.AngNear.mono' g4 le, Fl.AngNear.mono' g5 le, Fl.AngNear.mono' g6 le⟩

/-- C73: turning (0, 1, 0) about -x by a quarter turn, the points known up to a thousandth. -/
example (p' q' : V3 (Fl (b64 Libm.rounded))) (hp' : Spec.VNear p' V3.ey (1 / 1000)) (hq' : Spec.VNear q' (-V3.ez) (1 / 1000)) (rp : Fl.RepV p') (rq : Fl.RepV q') :
    ∃ th, subproblem1 p' q' ((-V3.ex : V3 ℝ).map Fl.of) = .ok th ∧ Spec.AngNear th (Real.pi / 2) (7 / 1000) := by
  obtain ⟨th, h, g⟩ := C73_subproblem1_coord_partial invAcc_rounded (b64_exactRnd _) (-V3.ex) V3.ey (-V3.ez) (by simp [Spec.CoordAxis])
    (by rw [V3.norm_eq]; exact Real.sqrt_le_iff.2 ⟨by norm_num, by norm_num [V3.dot, V3.ey]⟩) (Real.pi / 2) (by ext <;> simp [rot]) 1 one_pos le_rfl
    (by rw [V3.norm_eq]; exact Real.le_sqrt_of_sq_le (by simp [V3.dot])) p' q' (1 / 1000) (1 / 1000) 0 (by norm_num) (by norm_num)
    (by rw [b64_u]; norm_num) (by rw [b64_u]; norm_num) (b64_eta _)
    (Or.inr ⟨le_rfl, Or.inr (by rw [V3.norm_eq]; exact Real.le_sqrt_of_sq_le (by simp [V3.dot]; norm_num))⟩) hp' hq' rp rq
  rw [b64_u] at g
  exact ⟨th, h, Fl.AngNear.mono' g (by norm_num)⟩
