import Verif.Lemmas.FlIkRun
import Verif.Lemmas.FlTrackCall
import Verif.Lemmas.FlNorm
import Verif.Lemmas.Ur
import Verif.Props.RoundingSubE

/-!
# Rounding errors in the loops of `ur_invkin`

The loops never raise, every row is near an exact solution and every exact solution is near a row, away from the singularities.
-/
set_option autoImplicit false

/-- A loop whose body returns good rows for each element: it returns good rows, among them all rows of each element. -/
theorem forAppend_full {β γ : Type} {f : β → Except PyErr (List γ)} {l : List β} {Q : γ → Prop} (h : ∀ x ∈ l, ∃ s, f x = .ok s ∧ ∀ r ∈ s, Q r) :
    ∃ s, forAppend l f = .ok s ∧ (∀ r ∈ s, Q r) ∧ ∀ x ∈ l, ∀ t, f x = .ok t → ∀ r ∈ t, r ∈ s := by
  obtain ⟨s, hs, hQ⟩ := forAppend_run h
  refine ⟨s, hs, hQ, fun x hx t ht r hr => ?_⟩
  obtain ⟨b, hb, hm⟩ := forAppend_mem hs hx
  rw [hb] at ht; cases ht
  exact hm r hr

namespace Fl
variable {F : FSys}

/-- Difference of computed angles of moderate size. -/
theorem AngNear.sub {a b : Fl F} {s t d e A B : ℝ} (ha : Spec.AngNear a s d) (hb : Spec.AngNear b t e) (la : Sz A a) (lb : Sz B b) (hAB : A + B ≤ 300) :
    Spec.AngNear (a - b) (s - t) (d + e + 301 * F.u) ∧ Sz (A + B + 301 * F.u) (a - b) := by
  have hu := F.u_le
  obtain ⟨n, v, hv, hd⟩ := ha
  obtain ⟨m, w, hw, he⟩ := hb
  have lv := la v hv
  have lw := lb w hw
  obtain ⟨y, hy, h⟩ := Near.subE (ε := F.u) 301 (k := 0) (l := 0) (S := 300) (by rw [zero_mul]; exact near_of (F := F) v) (by rw [zero_mul]; exact near_of w) le_rfl
    (by linarith) ((abs_sub _ _).trans (by linarith)) (by norm_num) (by norm_num) (by norm_num)
  have e1 : a = of v := congrArg Fl.mk hv
  have e2 : b = of w := congrArg Fl.mk hw
  rw [e1, e2]
  constructor
  · refine ⟨n - m, y, hy, ?_⟩
    push_cast
    rw [show y - (s - t + (n - m) * (2 * Real.pi)) = (y - (v - w)) + (v - (s + n * (2 * Real.pi))) - (w - (t + m * (2 * Real.pi))) by ring]
    refine (abs_sub _ _).trans (le_trans (add_le_add_left (abs_add_le _ _) _) ?_)
    linarith
  · intro x hx
    have hxy : y = x := by rw [hy] at hx; injection hx
    subst hxy
    have h1 := abs_add_le (y - (v - w)) (v - w)
    have h2 := abs_sub v w
    rw [sub_add_cancel] at h1
    linarith

/-- Size of a difference of three computed angles. -/
theorem sz_sub3 (x y z : Fl F) {v a b S : ℝ} (hx : x.val = .fin v) (hy : y.val = .fin a) (hz : z.val = .fin b) (hS : |v| + |a| + |b| ≤ 299)
    (h : |v - a - b| + 602 * F.u ≤ S) : Sz S (x - y - z) := by
  have hu := F.u_le
  have u0 := F.u_nonneg
  have i1 := abs_sub v a
  have i2 := abs_nonneg a
  have i3 := abs_nonneg b
  obtain ⟨s, hs, h1⟩ := Near.subE (ε := F.u) 301 (k := 0) (l := 0) (S := 300) (by rw [zero_mul]; exact near_of (F := F) v) (by rw [zero_mul]; exact near_of a) le_rfl
    (by linarith) (by linarith) (by norm_num) (by norm_num) (by norm_num)
  have i4 := abs_add_le (s - (v - a)) (v - a)
  rw [sub_add_cancel] at i4
  have i5 := abs_sub s b
  obtain ⟨t, ht, h2⟩ := Near.subE (ε := F.u) 301 (k := 0) (l := 0) (S := 300) (by rw [zero_mul]; exact near_of (F := F) s) (by rw [zero_mul]; exact near_of b) le_rfl
    (by linarith) (by linarith) (by norm_num) (by norm_num) (by norm_num)
  have e : x - y - z = of t := by
    rw [show x = of v from congrArg Fl.mk hx, show y = of a from congrArg Fl.mk hy, show z = of b from congrArg Fl.mk hz, show (of v - of a : Fl F) = of s from congrArg Fl.mk hs]
    exact congrArg Fl.mk ht
  intro w hw
  rw [e] at hw
  cases hw
  have i6 := abs_add_le (t - (s - b)) ((s - (v - a)) + (v - a - b))
  have i7 := abs_add_le (s - (v - a)) (v - a - b)
  rw [show t - (s - b) + ((s - (v - a)) + (v - a - b)) = t by ring] at i6
  linarith

theorem normalize_free {j : ℕ} {x y : Fl F} (h : (⟨none, none⟩ : Normalizer (Fl F)).normalize j x = .ok (some y)) : y = x := by
  cases h; rfl

/-- What the loops of `ur_invkin` need to know to find a joint vector `q`: besides `Follows`, the size of the difference that is the candidate for joint 4. -/
structure UrFollows (N : Normalizer (Fl F)) (q : ℕ → ℝ) (A : ℕ → Fl F → ℝ → Prop) (W : ℕ → ℝ) (D e : ℝ) : Prop extends Follows N q A W D e where
  size0 : 8 ≤ W 0
  size1 : 16 / 5 ≤ W 1
  size2 : 13 / 2 ≤ W 2
  size5 : 16 / 5 ≤ W 5
  fourth : ∀ {x y z : Fl F}, (∃ v, x.val = .fin v) → Sz (16 / 5) x → A 1 y D → A 2 z D → Sz (W 3) (x - y - z)

theorem UrFollows.free (q : ℕ → ℝ) (D : ℝ) (hu : F.u ≤ 1 / 100000000000) :
    UrFollows (⟨none, none⟩ : Normalizer (Fl F)) q (Kept ⟨none, none⟩ (fun j => if j = 3 then 20 else 8) q) (fun j => if j = 3 then 20 else 8) D 0 where
  toFollows := Kept.free _ _ _
  size0 := by norm_num
  size1 := by norm_num
  size2 := by norm_num
  size5 := by norm_num
  fourth := by
    rintro x y z ⟨v, hv⟩ lx ⟨hy, w, -, mw, ew⟩ ⟨hz, w', -, mw', ew'⟩
    obtain rfl := normalize_free ew
    obtain rfl := normalize_free ew'
    obtain ⟨a, ha⟩ := hy.fin
    obtain ⟨b, hb⟩ := hz.fin
    have i1 := lx v hv
    have i2 : |a| ≤ 8 := mw.sz a ha
    have i3 : |b| ≤ 8 := mw'.sz b hb
    have i4 := abs_sub (v - a) b
    have i5 := abs_sub v a
    exact sz_sub3 x y z hv ha hb (by linarith) (by rw [if_pos rfl]; linarith)

theorem Bounded.one {N : Normalizer (Fl F)} {S T : ℝ} (h : Bounded N S T) {j : ℕ} (hj : j < 6) {x y : Fl F} (hx : Good S x) (hy : N.one j x = .ok (some y)) : Sz T y := by
  obtain ⟨l, hl, hh⟩ := oneCall_eq j x hy
  obtain ⟨w, hw, e⟩ := callS_mem hl (List.mem_of_mem_head? hh.symm)
  rw [List.mem_singleton] at hw
  subst hw
  exact h hj hx e

theorem urElbow_run (hA : Spec.InvAcc F) (hF : Spec.ExactRnd F) {N : Normalizer (Fl F)} {S T e : ℝ} (hN : Keeps N S e) (hB : Bounded N (13 / 2) T) (hST : 2 * T + 33 / 10 ≤ S)
    (hS8 : 8 ≤ S) (hS : S ≤ 300) {k P2 P3 : V3 ℝ} (s : k = V3.ey ∨ k = -V3.ey) (hl : P2.norm + P3.norm ≤ 19 / 10)
    {R01 R04 R06 : M3 ℝ} {q2 q3 q24 q5 q6 : ℝ} (i01 : IsRot R01) (i04 : IsRot R04) (hR : R06 = R04 * rot (-V3.ez) q5 * rot k q6)
    {P2' P3' p23' : V3 (Fl F)} {R01' R04' R06' : M3 (Fl F)} {x1 x24 x5 x3 : Fl F} {e01 e04 er e26 a2 a3 a4 b4 a6 f m β : ℝ}
    (hu : F.u ≤ 1 / 100000000000) (hη : 16 * F.η ≤ F.u ^ 3)
    (p2 : Spec.VNear P2' P2 (16 * F.u)) (p3 : Spec.VNear P3' P3 (16 * F.u))
    (r01 : Spec.MNear R01' R01 e01) (r04 : Spec.MNear R04' R04 e04) (r06 : Spec.MNear R06' R06 er) (hx3 : Spec.AngNear x3 q3 a3)
    (l3 : Sz T x3) (hx24 : Spec.AngNear x24 q24 a4) (l24 : Sz (16 / 5) x24) (hx5 : Spec.AngNear x5 q5 a4)
    (hp23 : Spec.VNear p23' (R01.mulVec ((rot k q2).mulVec (P2 + (rot k q3).mulVec P3))) e26) (hβ : 1 / 33554432 ≤ β)
    -- joint 2
    (hm0 : 0 < m) (hm1 : m ≤ 1) (hs : m ≤ ((P2 + (rot k q3).mulVec P3).perp k).norm) (hs3 : 4 * a3 + 1000 * F.u ≤ m)
    (hs26 : 2 * (2 * e01 + 17 / 16 * e26 + 100 * F.u) ≤ m) (hsu : 280000 * F.u ≤ m)
    (ha2 : (β + 315 / 100 * (2 * a3 + 500 * F.u + (2 * e01 + 17 / 16 * e26 + 100 * F.u)) + 700000 * F.u) / m + e ≤ a2) (he26 : e26 ≤ 1 / 20)
    (a3s : a3 ≤ 1 / 17) (e01s : e01 ≤ 1 / 16)
    -- joint 4
    (hb4 : a4 + a2 + a3 + 602 * F.u + e ≤ b4)
    -- joint 6
    (hf : e04 + 17 / 16 * (a4 + er) + 600 * F.u ≤ f) (hf1 : f ≤ 1 / 16) (ha6 : β + 315 / 100 * (F.u + f) + 700000 * F.u + e ≤ a6) :
    ∃ sols, urElbow N (k.map of) (k.map of) ((-V3.ez : V3 ℝ).map of) (k.map of) P2' P3' R06' R01' R04' p23' x1 x24 x5 x3 = .ok sols ∧
      (∀ row ∈ sols, ∃ x2 x4 x6, row = [x1, x2, x3, x4, x5, x6] ∧ Spec.AngNear x2 q2 a2 ∧ Spec.AngNear x4 (q24 - q2 - q3) b4 ∧ Spec.AngNear x6 q6 a6) ∧
      ∀ {q : ℕ → ℝ} {A : ℕ → Fl F → ℝ → Prop} {W : ℕ → ℝ} {D : ℝ}, UrFollows N q A W D e → q 1 = q2 → q 2 = q3 → q 3 = q24 - q2 - q3 → q 5 = q6 → A 2 x3 a3 →
        a2 ≤ D → a3 ≤ D → b4 ≤ D → a6 ≤ D → ∃ x2 x4 x6, [x1, x2, x3, x4, x5, x6] ∈ sols ∧ A 1 x2 a2 ∧ A 3 x4 b4 ∧ A 5 x6 a6 := by
  have u0 := F.u_nonneg
  have b := F.big_ge
  have η := F.η_le
  have uk := coord_pm s
  have e0 := hN.nonneg
  have u5 : Spec.CoordAxis (-V3.ez : V3 ℝ) := .inr (.inr (.inr (.inr (.inr rfl))))
  have nk : Spec.VNear (k.map of : V3 (Fl F)) k F.u := vNear_self k u0
  have n5 : Spec.VNear ((-V3.ez : V3 ℝ).map of : V3 (Fl F)) (-V3.ez) F.u := vNear_self _ u0
  have e010 : 0 ≤ e01 := (mNear_iff.1 r01).elim fun _ h => h.2.nonneg
  have e040 : 0 ≤ e04 := (mNear_iff.1 r04).elim fun _ h => h.2.nonneg
  have er0 : 0 ≤ er := (mNear_iff.1 r06).elim fun _ h => h.2.nonneg
  have e260 : 0 ≤ e26 := by
    obtain ⟨w, -, h⟩ := hp23
    exact (V3.norm_nonneg _).trans h
  have a30 : 0 ≤ a3 := by
    obtain ⟨n, v, -, h⟩ := hx3
    exact (abs_nonneg _).trans h
  have a40 : 0 ≤ a4 := by
    obtain ⟨n, v, -, h⟩ := hx5
    exact (abs_nonneg _).trans h
  have β0 : 0 ≤ β := by linarith
  have i2 := rot_isRot k uk.unit q2
  have i3 := rot_isRot k uk.unit q3
  have i5 := rot_isRot _ u5.unit q5
  have i6 := rot_isRot k uk.unit q6
  have i06 : IsRot R06 := by rw [hR]; exact (i04.mul i5).mul i6
  have ms : m ^ 2 ≤ m := by nlinarith
  have g1 := elbow_near uk.unit hl hu (by linarith) nk p2 p3 hx3
  have nx : (P2 + (rot k q3).mulVec P3).norm ≤ 19 / 10 := by
    have := V3.norm_add_le P2 ((rot k q3).mulVec P3)
    rw [i3.norm_mulVec] at this
    linarith
  set w := P2 + (rot k q3).mulVec P3 with hw
  have nw : (R01.mulVec ((rot k q2).mulVec w)).norm ≤ 19 / 10 := by rw [i01.norm_mulVec, i2.norm_mulVec]; exact nx
  have g2 := MNear.mulVec (s := 2) (MNear.transpose r01) hp23 i01.transpose (by linarith) (by linarith) (by linarith) two_pos (by linarith) (by linarith)
  rw [i01.transpose_mulVec_mulVec] at g2
  have c1 : e01 * (R01.mulVec ((rot k q2).mulVec w)).norm ≤ e01 * (19 / 10) := mul_le_mul_of_nonneg_left nw e010
  have c2 : (1 + e01) * e26 ≤ 17 / 16 * e26 := mul_le_mul_of_nonneg_right (by linarith) e260
  have g3 := VNear.mono (e := 2 * e01 + 17 / 16 * e26 + 100 * F.u) g2 (by linarith)
  obtain ⟨z2, h2, hz2⟩ := subproblem1_coord hF hA uk (by linarith) (rfl : (rot k q2).mulVec w = _) hm0 hm1 hs (by linarith) hs26 hsu hu hη (.inl hβ) g1 g3
    (repV_add hF _ _) (repV_mulVec hF _ _)
  have sz2 : Sz (16 / 5) z2 := fun x hx => subproblem1_le hA h2 hx
  have good2 : ∀ {M}, 16 / 5 ≤ M → Good M z2 := fun h => ⟨hz2.fin, fun x hx => (sz2 x hx).trans h, subproblem1_rep hF h2⟩
  generalize (β + 315 / 100 * (2 * a3 + 500 * F.u + (2 * e01 + 17 / 16 * e26 + 100 * F.u)) + 700000 * F.u) / m = d2 at *
  have f1 := MNear.mulE r04 (rot_angE u5.unit n5 hx5) i04 i5 (by linarith) (by linarith)
  have f2 := MNear.mulE (MNear.transpose f1) r06 (i04.mul i5).transpose i06 (by linarith) (by linarith)
  have eq6 : (R04 * rot (-V3.ez) q5).transpose * R06 = rot k q6 := by
    rw [hR, ← M3.mul_assoc', (i04.mul i5).orth, M3.one_mul']
  rw [eq6] at f2
  have f3 := VNear.mono (e := f) (MNear.mulUnit f2 n5 i6 (by linarith) u5.unit) (by linarith)
  have hp : 1 ≤ ((-V3.ez : V3 ℝ).perp k).norm := by
    have : (-V3.ez : V3 ℝ).perp k = -V3.ez := by
      rcases s with rfl | rfl <;> (rw [V3.perp]; ext <;> simp [V3.dot])
    rw [this, V3.norm_eq_one u5.unit]
  obtain ⟨z6, h6, hz6⟩ := subproblem1_coord hF hA uk (by rw [V3.norm_eq_one u5.unit]; norm_num) (rfl : (rot k q6).mulVec (-V3.ez) = _) one_pos le_rfl hp (by linarith) (by linarith)
    (by linarith) hu hη (.inl hβ) n5 f3 (repV_axis hF u5) (repV_mulVec hF _ _)
  rw [div_one] at hz6
  have sz6 : Sz (16 / 5) z6 := fun x hx => subproblem1_le hA h6 hx
  have good6 : Good S z6 := ⟨hz6.fin, fun x hx => (sz6 x hx).trans (by linarith), subproblem1_rep hF h6⟩
  simp only [urElbow]
  obtain ⟨o2, ho2, same2⟩ := hN.one (j := 1) (by norm_num) (good2 (by linarith))
  rw [h2, Except.bind_ok, ho2, Except.bind_ok]
  -- what a joint vector to be found gives for joint 2
  have fol2 : ∀ {q : ℕ → ℝ} {A : ℕ → Fl F → ℝ → Prop} {W : ℕ → ℝ} {D : ℝ}, UrFollows N q A W D e → q 1 = q2 → a2 ≤ D → ∃ y, o2 = some y ∧ A 1 y a2 := by
    intro q A W D hf hq hD
    obtain ⟨y, hy, h⟩ := hf.one (j := 1) (by norm_num) ⟨fun x hx => (sz2 x hx).trans hf.size1, fun _ => subproblem1_rep hF h2⟩
      (by rw [hq]; exact hz2) (by linarith) ho2
    exact ⟨y, hy, hf.mono h ha2⟩
  cases o2 with
  | none =>
    refine ⟨[], rfl, by simp, fun hf hq _ _ _ _ hD _ _ _ => ?_⟩
    obtain ⟨y, hy, -⟩ := fol2 hf hq hD
    cases hy
  | some x2 =>
    have hx2 := AngNear.mono' (same2 x2 rfl hz2) ha2
    have l2 := hB.one (by norm_num) (good2 (by norm_num)) ho2
    obtain ⟨d1, s1⟩ := AngNear.sub hx24 hx2 l24 l2 (by linarith)
    obtain ⟨d3, s3⟩ := AngNear.sub d1 hx3 s1 l3 (by linarith)
    have rep4 : RepS (x24 - x2 - x3) := repS_sub hF _ _
    dsimp only
    obtain ⟨o4, ho4, same4⟩ := hN.one (j := 3) (x := x24 - x2 - x3) (by norm_num) ⟨d3.fin, fun x hx => (s3 x hx).trans (by linarith), rep4⟩
    rw [ho4, Except.bind_ok]
    have fol4 : ∀ {q : ℕ → ℝ} {A : ℕ → Fl F → ℝ → Prop} {W : ℕ → ℝ} {D : ℝ}, UrFollows N q A W D e → q 3 = q24 - q2 - q3 → A 1 x2 a2 → A 2 x3 a3 → a2 ≤ D → a3 ≤ D → b4 ≤ D →
        ∃ y, o4 = some y ∧ A 3 y b4 := by
      intro q A W D hf hq h1 h2 hD2 hD3 hD
      obtain ⟨y, hy, h⟩ := hf.one (j := 3) (by norm_num) ⟨hf.fourth hx24.fin l24 (hf.mono h1 hD2) (hf.mono h2 hD3), fun _ => rep4⟩ (by rw [hq]; exact d3) (by linarith) ho4
      exact ⟨y, hy, hf.mono h (by linarith)⟩
    cases o4 with
    | none =>
      refine ⟨[], rfl, by simp, fun hf hq _ hq4 _ h3 hD hD3 hD4 _ => ?_⟩
      obtain ⟨y, hy, h1⟩ := fol2 hf hq hD
      cases hy
      obtain ⟨y, hy, -⟩ := fol4 hf hq4 h1 h3 hD hD3 hD4
      cases hy
    | some x4 =>
      have hx4 : Spec.AngNear x4 (q24 - q2 - q3) b4 := AngNear.mono' (same4 x4 rfl d3) (by linarith)
      dsimp only
      obtain ⟨o6, ho6, same6⟩ := hN.one (j := 5) (by norm_num) good6
      rw [h6, Except.bind_ok, ho6, Except.bind_ok]
      have fol6 : ∀ {q : ℕ → ℝ} {A : ℕ → Fl F → ℝ → Prop} {W : ℕ → ℝ} {D : ℝ}, UrFollows N q A W D e → q 5 = q6 → a6 ≤ D → ∃ y, o6 = some y ∧ A 5 y a6 := by
        intro q A W D hf hq hD
        obtain ⟨y, hy, h⟩ := hf.one (j := 5) (by norm_num) ⟨fun x hx => (sz6 x hx).trans hf.size5, fun _ => subproblem1_rep hF h6⟩
          (by rw [hq]; exact hz6) (by linarith) ho6
        exact ⟨y, hy, hf.mono h ha6⟩
      cases o6 with
      | none =>
        refine ⟨[], rfl, by simp, fun hf _ _ _ hq _ _ _ _ hD => ?_⟩
        obtain ⟨y, hy, -⟩ := fol6 hf hq hD
        cases hy
      | some x6 =>
        refine ⟨_, rfl, fun row hrow => ?_, fun hf hq _ hq4 hq6 h3 hD hD3 hD4 hD6 => ?_⟩
        · rw [List.mem_singleton] at hrow
          exact ⟨x2, x4, x6, hrow, hx2, hx4, AngNear.mono' (same6 x6 rfl hz6) ha6⟩
        · obtain ⟨y2, hy2, h1⟩ := fol2 hf hq hD
          cases hy2
          obtain ⟨y4, hy4, h4⟩ := fol4 hf hq4 h1 h3 hD hD3 hD4
          cases hy4
          obtain ⟨y6, hy6, h6⟩ := fol6 hf hq6 hD6
          cases hy6
          exact ⟨x2, x4, x6, List.mem_singleton_self _, h1, h4, h6⟩

/-- The position of the wrist less the offsets of the shoulder and of the hand. -/
theorem p23_near {k P0 P1 P4 v g : V3 ℝ} (s : k = V3.ey ∨ k = -V3.ey) (hl : P0.norm + P1.norm + P4.norm ≤ 19 / 10) (hvn : v.norm ≤ 19 / 10)
    {q1 q24 : ℝ} (hv : v = P0 + (rot V3.ez q1).mulVec (P1 + (g + (rot k q24).mulVec P4)))
    {P0' P1' P4' v' : V3 (Fl F)} {x1 x24 : Fl F} {ev a1 a4 : ℝ} (hu : F.u ≤ 1 / 100000000000)
    (p0 : Spec.VNear P0' P0 (16 * F.u)) (p1 : Spec.VNear P1' P1 (16 * F.u)) (p4 : Spec.VNear P4' P4 (16 * F.u))
    (hx1 : Spec.AngNear x1 q1 a1) (hx24 : Spec.AngNear x24 q24 a4) (hv' : Spec.VNear v' v ev)
    (hev : ev ≤ 1 / 20) (ha1 : a1 ≤ 1 / 40) (ha4 : a4 ≤ 1 / 40) :
    Spec.VNear (v' - P0' - (rot ((V3.ez : V3 ℝ).map of) x1).mulVec P1' - (rot ((V3.ez : V3 ℝ).map of) x1 * rot (k.map of) x24).mulVec P4')
      ((rot V3.ez q1).mulVec g) (ev + 2 * a1 + 21 / 10 * a4 + 1500 * F.u) ∧ g.norm ≤ 38 / 10 ∧
    Spec.MNear (rot ((V3.ez : V3 ℝ).map of) x1) (rot V3.ez q1) (a1 + 189 * F.u) ∧
    Spec.MNear (rot ((V3.ez : V3 ℝ).map of) x1 * rot (k.map of) x24) (rot V3.ez q1 * rot k q24) (a1 + 17 / 16 * a4 + 450 * F.u) := by
  have u0 := F.u_nonneg
  have b := F.big_ge
  have η := F.η_le
  have uk := pm_unit s
  have nk : Spec.VNear (k.map of : V3 (Fl F)) k F.u := vNear_self k u0
  have nz : Spec.VNear ((V3.ez : V3 ℝ).map of : V3 (Fl F)) V3.ez F.u := vNear_self _ u0
  have i1 := rot_isRot _ ez_unit q1
  have i24 := rot_isRot k uk q24
  have n0 := P0.norm_nonneg
  have n1 := P1.norm_nonneg
  have n4 := P4.norm_nonneg
  have a10 : 0 ≤ a1 := by
    obtain ⟨n, w, -, h⟩ := hx1
    exact (abs_nonneg _).trans h
  have a40 : 0 ≤ a4 := by
    obtain ⟨n, w, -, h⟩ := hx24
    exact (abs_nonneg _).trans h
  have ev0 : 0 ≤ ev := by
    obtain ⟨w, -, h⟩ := hv'
    exact (V3.norm_nonneg _).trans h
  have r1 := rot_angE ez_unit nz hx1
  have r4 := MNear.mulE r1 (rot_angE uk nk hx24) i1 i24 (by linarith) (by linarith)
  have s1 := MNear.mulVec (s := 2) r1 p1 i1 (by linarith) (by linarith) (by linarith) two_pos (by linarith) (by linarith)
  have s4 := MNear.mulVec (s := 2) r4 p4 (i1.mul i24) (by linarith) (by linarith) (by linarith) two_pos (by linarith) (by linarith)
  set A := a1 + 189 * F.u with hA
  set B := A + 17 / 16 * (a4 + 189 * F.u) + 45 * F.u with hB
  have A0 : 0 ≤ A := by linarith
  have AB : A ≤ B := by linarith
  have c1 : A * P1.norm ≤ B * P1.norm := mul_le_mul_of_nonneg_right AB n1
  have c2 : B * P1.norm + B * P4.norm ≤ B * (19 / 10) := by
    rw [← mul_add]; exact mul_le_mul_of_nonneg_left (by linarith) (A0.trans AB)
  have c3 : (1 + A) * (16 * F.u) ≤ 17 / 16 * (16 * F.u) := mul_le_mul_of_nonneg_right (by linarith) (by linarith)
  have c4 : (1 + B) * (16 * F.u) ≤ 17 / 16 * (16 * F.u) := mul_le_mul_of_nonneg_right (by linarith) (by linarith)
  have c5 : 0 ≤ B * P4.norm := mul_nonneg (A0.trans AB) n4
  have c6 : 0 ≤ A * P1.norm := mul_nonneg A0 n1
  have m1 : (v - P0).norm ≤ v.norm + P0.norm := by
    have := V3.norm_add_le v (-P0); rwa [V3.norm_neg, show v + -P0 = v - P0 by ext <;> simp [sub_eq_add_neg]] at this
  have t1 := VNear.sub (s := 4) hv' p0 (by norm_num) (by linarith) (by linarith) (by linarith)
  have m2 : (v - P0 - (rot V3.ez q1).mulVec P1).norm ≤ v.norm + P0.norm + P1.norm := by
    have := V3.norm_add_le (v - P0) (-(rot V3.ez q1).mulVec P1)
    rw [V3.norm_neg, i1.norm_mulVec, show v - P0 + -(rot V3.ez q1).mulVec P1 = v - P0 - (rot V3.ez q1).mulVec P1 by ext <;> simp [sub_eq_add_neg]] at this
    linarith
  have t2 := VNear.sub (s := 4) t1 s1 (by norm_num) (by linarith) (by linarith) (by linarith)
  have e : v - P0 - (rot V3.ez q1).mulVec P1 - (rot V3.ez q1 * rot k q24).mulVec P4 = (rot V3.ez q1).mulVec g := by
    rw [hv, M3.mulVec_add (rot V3.ez q1) P1, M3.mulVec_add (rot V3.ez q1) g, M3.mulVec_mulVec]
    generalize (rot V3.ez q1).mulVec P1 = a
    generalize (rot V3.ez q1).mulVec g = b
    generalize (rot V3.ez q1 * rot k q24).mulVec P4 = c
    ext <;> simp <;> ring
  have m3 : g.norm ≤ v.norm + P0.norm + P1.norm + P4.norm := by
    have := V3.norm_add_le (v - P0 - (rot V3.ez q1).mulVec P1) (-(rot V3.ez q1 * rot k q24).mulVec P4)
    rw [V3.norm_neg, (i1.mul i24).norm_mulVec, show ∀ a b : V3 ℝ, a + -b = a - b from fun a b => by ext <;> simp [sub_eq_add_neg], e, i1.norm_mulVec] at this
    linarith
  have t3 := VNear.sub (s := 4) t2 s4 (by norm_num) (by rw [e, i1.norm_mulVec]; linarith) (by linarith) (by linarith)
  rw [e] at t3
  exact ⟨VNear.mono t3 (by linarith), by linarith, r1, MNear.mono r4 (by linarith)⟩

theorem urWrist_run (hA : Spec.InvAcc F) (hF : Spec.ExactRnd F) {N : Normalizer (Fl F)} {S T e : ℝ} (hN : Keeps N S e) (hB : Bounded N (13 / 2) T) (hST : 2 * T + 33 / 10 ≤ S)
    (hS8 : 8 ≤ S) (hS : S ≤ 300) {k P0 P1 P2 P3 P4 v g : V3 ℝ} (s : k = V3.ey ∨ k = -V3.ey) (hl : P2.norm + P3.norm ≤ 19 / 10)
    (hl0 : P0.norm + P1.norm + P4.norm ≤ 19 / 10) (hvn : v.norm ≤ 19 / 10)
    {R06 : M3 ℝ} {q1 q24 q5 q6 : ℝ} (hR : R06 = rot V3.ez q1 * rot k q24 * rot (-V3.ez) q5 * rot k q6)
    (hv : v = P0 + (rot V3.ez q1).mulVec (P1 + (g + (rot k q24).mulVec P4))) (hy : V3.ey.dot g = V3.ey.dot (P2 + P3))
    {P0' P1' P2' P3' P4' v' : V3 (Fl F)} {R06' : M3 (Fl F)} {x1 x24 x5 : Fl F} {ev er e26 a1 a2 a3 a4 b4 a6 f m β : ℝ}
    (hu0 : 0 < F.u) (hu : F.u ≤ 1 / 100000000000) (hη : 16 * F.η ≤ F.u ^ 3) (hβ : 1 / 33554432 ≤ β)
    (p0 : Spec.VNear P0' P0 (16 * F.u)) (p1 : Spec.VNear P1' P1 (16 * F.u)) (p2 : Spec.VNear P2' P2 (16 * F.u)) (p3 : Spec.VNear P3' P3 (16 * F.u))
    (p4 : Spec.VNear P4' P4 (16 * F.u)) (r06 : Spec.MNear R06' R06 er) (hv' : Spec.VNear v' v ev)
    (hx1 : Spec.AngNear x1 q1 a1) (hx24 : Spec.AngNear x24 q24 a4) (l24 : Sz (16 / 5) x24) (hx5 : Spec.AngNear x5 q5 a4)
    (hall : ∀ q2 q3, g = (rot k q2).mulVec (P2 + (rot k q3).mulVec P3) →
      m ≤ |P2.dot (k.cross ((rot k q3).mulVec P3))| ∧ m ≤ ((P2 + (rot k q3).mulVec P3).perp k).norm)
    (hreach : (∃ q2 q3, g = (rot k q2).mulVec (P2 + (rot k q3).mulVec P3)) ∨
      2 * (P3.perp k).norm * (P2.perp k).norm + m ^ 2 ≤
        |g.norm * g.norm - k.dot (P3 + P2) * k.dot (P3 + P2) - ((P3.perp k).dot (P3.perp k) + (P2.perp k).dot (P2.perp k))|)
    (hm0 : 0 < m) (hm1 : m ≤ 1) (hab : m ≤ (P3.perp k).norm * (P2.perp k).norm) (ha1 : a1 ≤ 1 / 40) (ha4 : a4 ≤ 1 / 40)
    (he26 : ev + 2 * a1 + 21 / 10 * a4 + 1500 * F.u ≤ e26)
    -- joint 3
    (hm3 : 2600000 * F.u + 330 * e26 ≤ m ^ 2) (ha3 : β + (77 / 10 * e26 + 3300000 * F.u) / m + e ≤ a3) (a3s : a3 ≤ 1 / 17)
    -- joint 2
    (hs3 : 4 * a3 + 1000 * F.u ≤ m) (hs26 : 4 * a1 + 17 / 8 * e26 + 1000 * F.u ≤ m) (hsu : 280000 * F.u ≤ m)
    (ha2 : (β + 315 / 100 * (2 * a3 + 2 * a1 + 17 / 16 * e26) + 704000 * F.u) / m + e ≤ a2)
    -- joint 4
    (hb4 : a4 + a2 + a3 + 602 * F.u + e ≤ b4)
    -- joint 6
    (hf : a1 + 17 / 8 * a4 + 17 / 16 * er + 1100 * F.u ≤ f) (hf1 : f ≤ 1 / 16) (ha6 : β + 315 / 100 * (F.u + f) + 700000 * F.u + e ≤ a6) :
    ∃ sols, urWrist N ((V3.ez : V3 ℝ).map of) (k.map of) (k.map of) (k.map of) ((-V3.ez : V3 ℝ).map of) (k.map of) P0' P1' P2' P3' P4' R06' v' x1 x24 x5 =
        .ok sols ∧
    (∀ row ∈ sols, ∃ x2 x3 x4 x6 q2 q3, row = [x1, x2, x3, x4, x5, x6] ∧ g = (rot k q2).mulVec (P2 + (rot k q3).mulVec P3) ∧
      Spec.AngNear x2 q2 a2 ∧ Spec.AngNear x3 q3 a3 ∧ Spec.AngNear x4 (q24 - q2 - q3) b4 ∧
      Spec.AngNear x6 q6 a6) ∧
    ∀ {q : ℕ → ℝ} {A : ℕ → Fl F → ℝ → Prop} {W : ℕ → ℝ} {D : ℝ}, UrFollows N q A W D e → g = (rot k (q 1)).mulVec (P2 + (rot k (q 2)).mulVec P3) → q 3 = q24 - q 1 - q 2 →
      q 5 = q6 → a2 ≤ D → a3 ≤ D → b4 ≤ D → a6 ≤ D → ∃ x2 x3 x4 x6, [x1, x2, x3, x4, x5, x6] ∈ sols ∧ A 1 x2 a2 ∧ A 2 x3 a3 ∧ A 3 x4 b4 ∧ A 5 x6 a6 := by
  have u0 := F.u_nonneg
  have β0 : 0 ≤ β := by linarith
  have e0 := hN.nonneg
  have uk := coord_pm s
  have nk : Spec.VNear (k.map of : V3 (Fl F)) k F.u := vNear_self k u0
  have i1 := rot_isRot _ ez_unit q1
  have i24 := rot_isRot k uk.unit q24
  have a10 : 0 ≤ a1 := by
    obtain ⟨n, w, -, h⟩ := hx1
    exact (abs_nonneg _).trans h
  have a40 : 0 ≤ a4 := by
    obtain ⟨n, w, -, h⟩ := hx24
    exact (abs_nonneg _).trans h
  have ev0 : 0 ≤ ev := by
    obtain ⟨w, -, h⟩ := hv'
    exact (V3.norm_nonneg _).trans h
  have m2 := P2.norm_nonneg
  have m3' := P3.norm_nonneg
  have msq : m ^ 2 ≤ 1 := by nlinarith
  have msq' : m ^ 2 ≤ m := by nlinarith
  have e260 : 0 ≤ e26 := by linarith
  obtain ⟨t, gn, r1, r4⟩ := p23_near s hl0 hvn hv hu p0 p1 p4 hx1 hx24 hv' (by linarith) ha1 ha4
  have t := VNear.mono t he26
  simp only [urWrist]
  set p23' := v' - P0' - (rot ((V3.ez : V3 ℝ).map of) x1).mulVec P1' - (rot ((V3.ez : V3 ℝ).map of) x1 * rot (k.map of) x24).mulVec P4' with hp23
  obtain ⟨d3, hd3⟩ : ∃ d3, d3 = β + (77 / 10 * e26 + 3300000 * F.u) / m := ⟨_, rfl⟩
  rw [← hd3] at ha3
  by_cases hne : ∃ q2 q3, g = (rot k q2).mulVec (P2 + (rot k q3).mulVec P3)
  · -- for every solution the two elbow angles computed are near exact ones, one of them near that of the solution
    have sp3 : ∀ q2 q3, g = (rot k q2).mulVec (P2 + (rot k q3).mulVec P3) → ∃ t1 t2 θa θb, subproblem3 P3' P2' (k.map of) p23'.norm = .ok [t1, t2] ∧
        (P2 + (rot k θa).mulVec P3).norm = g.norm ∧ (P2 + (rot k θb).mulVec P3).norm = g.norm ∧ Spec.AngNear t1 θa d3 ∧ Spec.AngNear t2 θb d3 ∧
        (Spec.AngNear t1 q3 d3 ∨ Spec.AngNear t2 q3 d3) := by
      intro q2 q3 hg
      have i3 := rot_isRot k uk.unit q3
      have en : (P2 + (rot k q3).mulVec P3).norm = g.norm := by rw [hg, (rot_isRot k uk.unit q2).norm_mulVec]
      have nx : g.norm ≤ 19 / 10 := by
        have := V3.norm_add_le P2 ((rot k q3).mulVec P3)
        rw [i3.norm_mulVec] at this
        linarith
      have g2 := VNear.norm t (by rw [i1.norm_mulVec]; linarith) hη
      rw [i1.norm_mulVec] at g2
      obtain ⟨t1, t2, θa, θb, h3', ea, eb, ya, yb, l, hθ⟩ := subproblem3_coord (f := e26 + 100 * F.u) hF hA uk (by linarith) (by linarith) (V3.norm_nonneg g) en hm0
        (hall q2 q3 hg).1 hu hη (by linarith) (by linarith) (.inl hβ) p3 p2 g2
      have le : β + (77 / 10 * (e26 + 100 * F.u) + 3200000 * F.u) / m ≤ d3 := by
        rw [hd3]
        exact add_le_add le_rfl (div_le_div_of_nonneg_right (by linarith) hm0.le)
      have ya := AngNear.mono' ya le
      have yb := AngNear.mono' yb le
      refine ⟨t1, t2, θa, θb, h3', ea, eb, ya, yb, ?_⟩
      rcases hθ with hθ | hθ
      · exact .inl (AngNear.turn ya hθ)
      · exact .inr (AngNear.turn yb hθ)
    obtain ⟨q2, q3, hg⟩ := hne
    obtain ⟨t1, t2, θa, θb, h3', ea, eb, ya, yb, -⟩ := sp3 q2 q3 hg
    have sz3 : ∀ x ∈ [t1, t2], Sz (13 / 2) x := fun x hx v hv => subproblem3_le hA h3' hx hv
    have good : ∀ {M}, 13 / 2 ≤ M → ∀ x ∈ [t1, t2], Good M x := fun hM x hx => by
      refine ⟨?_, fun v hv => (sz3 x hx v hv).trans hM, subproblem3_rep hF h3' hx⟩
      rw [List.mem_cons, List.mem_singleton] at hx
      rcases hx with rfl | rfl
      · exact ya.fin
      · exact yb.fin
    obtain ⟨l', hl', same⟩ := hN.callS (j := 2) (by norm_num) (good (by linarith))
    have szl : ∀ x ∈ l', Sz T x := fun x hx => by
      obtain ⟨y, hy, hyx⟩ := callS_mem hl' hx
      exact hB (by norm_num) (good le_rfl y hy) hyx
    have key : ∀ x3 q2 q3, x3 ∈ l' → g = (rot k q2).mulVec (P2 + (rot k q3).mulVec P3) → Spec.AngNear x3 q3 a3 → _ := fun x3 q2 q3 hx hg hx3 =>
      urElbow_run hA hF hN hB hST hS8 hS s hl (q2 := q2) (q3 := q3) (x1 := x1) i1 (i1.mul i24) hR hu hη p2 p3 r1 r4 r06 hx3 (szl x3 hx) hx24 l24 hx5 (by rw [← hg]; exact t) hβ hm0 hm1
        (hall q2 q3 hg).2 hs3 (by linarith) hsu (le_trans (add_le_add (div_le_div_of_nonneg_right (by linarith) hm0.le) le_rfl) ha2) (by linarith) a3s (by linarith) hb4 (by linarith) hf1 ha6
    rw [h3', Except.bind_ok, hl', Except.bind_ok]
    obtain ⟨sols, hs, hrow, hmem⟩ := forAppend_full (l := l') (f := fun x3 => urElbow N (k.map of) (k.map of) ((-V3.ez : V3 ℝ).map of) (k.map of) P2' P3' R06'
        (rot ((V3.ez : V3 ℝ).map of) x1) (rot ((V3.ez : V3 ℝ).map of) x1 * rot (k.map of) x24) p23' x1 x24 x5 x3)
      (Q := fun row => ∃ x2 x3 x4 x6 q2 q3, row = [x1, x2, x3, x4, x5, x6] ∧ g = (rot k q2).mulVec (P2 + (rot k q3).mulVec P3) ∧
        Spec.AngNear x2 q2 a2 ∧ Spec.AngNear x3 q3 a3 ∧ Spec.AngNear x4 (q24 - q2 - q3) b4 ∧ Spec.AngNear x6 q6 a6) (fun x3 hx => by
        obtain ⟨θ, eθ, yθ⟩ : ∃ θ, (P2 + (rot k θ).mulVec P3).norm = g.norm ∧ Spec.AngNear x3 θ a3 := by
          obtain ⟨z, hz, sm⟩ := same x3 hx
          rw [List.mem_cons, List.mem_singleton] at hz
          rcases hz with rfl | rfl
          · exact ⟨θa, ea, AngNear.mono' (sm ya) ha3⟩
          · exact ⟨θb, eb, AngNear.mono' (sm yb) ha3⟩
        obtain ⟨b2, hb⟩ := joint2_exists s s hy eθ
        obtain ⟨r, h, hr, -⟩ := key x3 b2 θ hx hb yθ
        refine ⟨r, h, fun row hrow => ?_⟩
        obtain ⟨x2, x4, x6, er, y2, y4, y6⟩ := hr row hrow
        exact ⟨x2, x3, x4, x6, b2, θ, er, hb, y2, yθ, y4, y6⟩)
    refine ⟨sols, hs, hrow, fun {q A W D} hf hg hq3 hq5 hD2 hD3 hD4 hD6 => ?_⟩
    obtain ⟨t1', t2', _, _, h3'', -, -, -, -, hor⟩ := sp3 _ _ hg
    rw [h3', Except.ok.injEq] at h3''
    simp only [List.cons.injEq, and_true] at h3''
    obtain ⟨rfl, rfl⟩ := h3''
    have fin : ∀ x ∈ [t1, t2], Spec.AngNear x (q 2) d3 → ∃ x2 x3 x4 x6, [x1, x2, x3, x4, x5, x6] ∈ sols ∧ A 1 x2 a2 ∧ A 2 x3 a3 ∧ A 3 x4 b4 ∧ A 5 x6 a6 := by
      intro x hx y
      obtain ⟨x3, hx3, a⟩ := hf.callS (j := 2) (by norm_num) hx ⟨fun v hv => (sz3 x hx v hv).trans hf.size2,
        fun _ => subproblem3_rep hF h3' hx⟩ y (by linarith) hl'
      have a := hf.mono a ha3
      obtain ⟨r, h, -, hc⟩ := key x3 _ _ hx3 hg (hf.ang a)
      obtain ⟨x2, x4, x6, hm, w2, w4, w6⟩ := hc hf rfl rfl hq3 hq5 a hD2 hD3 hD4 hD6
      exact ⟨x2, x3, x4, x6, hmem x3 hx3 r h _ hm, w2, a, w4, w6⟩
    rcases hor with y3 | y3
    · exact fin t1 (by simp) y3
    · exact fin t2 (by simp) y3
  · have hfar := hreach.resolve_left hne
    have g2 := VNear.norm4 t (by rw [i1.norm_mulVec]; linarith) hη
    rw [i1.norm_mulVec] at g2
    rw [subproblem3_far uk.unit (by linarith) (by linarith) (V3.norm_nonneg g) (by linarith) hab (by linarith) (f := e26 + 200 * F.u)
      (le_trans (by linarith) hfar) hu0 hu hη (by linarith) nk p3 p2 g2, Except.bind_ok]
    obtain ⟨l', hl', same⟩ := hN.callS (j := 2) (l := []) (by norm_num) (by simp)
    have e : l' = [] := by
      rcases l' with _ | ⟨y, l'⟩
      · rfl
      · obtain ⟨x, hx, -⟩ := same y (List.mem_cons_self ..)
        cases hx
    rw [hl', Except.bind_ok, e]
    exact ⟨[], rfl, by simp, fun _ hg => absurd ⟨_, _, hg⟩ hne⟩

theorem sin_q5 {k : V3 ℝ} (s : k = V3.ey ∨ k = -V3.ey) (q : ℝ) : |(k.cross (-V3.ez)).dot ((rot (-V3.ez) q).mulVec k)| = |Real.sin q| := by
  rcases s with rfl | rfl
  · have : ((V3.ey : V3 ℝ).cross (-V3.ez)).dot ((rot (-V3.ez) q).mulVec V3.ey) = -Real.sin q := by simp [rot, V3.dot]
    rw [this, abs_neg]
  · have : ((-V3.ey : V3 ℝ).cross (-V3.ez)).dot ((rot (-V3.ez) q).mulVec (-V3.ey)) = -Real.sin q := by simp [rot, V3.dot]
    rw [this, abs_neg]

theorem urShoulder_run (hA : Spec.InvAcc F) (hF : Spec.ExactRnd F) {N : Normalizer (Fl F)} {S T e : ℝ} (hN : Keeps N S e) (hB : Bounded N (13 / 2) T) (hST : 2 * T + 33 / 10 ≤ S)
    (hS8 : 8 ≤ S) (hS : S ≤ 300) {k P0 P1 P2 P3 P4 v z : V3 ℝ} (s : k = V3.ey ∨ k = -V3.ey) (hl : P2.norm + P3.norm ≤ 19 / 10)
    (hl0 : P0.norm + P1.norm + P4.norm ≤ 19 / 10) (hvn : v.norm ≤ 19 / 10)
    {R06 : M3 ℝ} (i06 : IsRot R06) {q1 : ℝ} (hv : v = P0 + (rot V3.ez q1).mulVec z) (hz : V3.ey.dot z = V3.ey.dot (P1 + P2 + P3 + P4))
    {P0' P1' P2' P3' P4' v' : V3 (Fl F)} {R06' : M3 (Fl F)} {x1 : Fl F} {ev er e4 e26 a1 a2 a3 a4 b4 a6 f m β : ℝ}
    (hu0 : 0 < F.u) (hu : F.u ≤ 1 / 100000000000) (hη : 16 * F.η ≤ F.u ^ 3) (hβ : 1 / 33554432 ≤ β)
    (p0 : Spec.VNear P0' P0 (16 * F.u)) (p1 : Spec.VNear P1' P1 (16 * F.u)) (p2 : Spec.VNear P2' P2 (16 * F.u)) (p3 : Spec.VNear P3' P3 (16 * F.u))
    (p4 : Spec.VNear P4' P4 (16 * F.u)) (r06 : Spec.MNear R06' R06 er) (hv' : Spec.VNear v' v ev)
    (hx1 : Spec.AngNear x1 q1 a1)
    (hall : ∀ q24 q5 q6 g, R06 = rot V3.ez q1 * rot k q24 * rot (-V3.ez) q5 * rot k q6 →
      v = P0 + (rot V3.ez q1).mulVec (P1 + (g + (rot k q24).mulVec P4)) → V3.ey.dot g = V3.ey.dot (P2 + P3) →
      m ≤ |Real.sin q5| ∧
      ((∃ q2 q3, g = (rot k q2).mulVec (P2 + (rot k q3).mulVec P3)) ∨
        2 * (P3.perp k).norm * (P2.perp k).norm + m ^ 2 ≤
          |g.norm * g.norm - k.dot (P3 + P2) * k.dot (P3 + P2) - ((P3.perp k).dot (P3.perp k) + (P2.perp k).dot (P2.perp k))|) ∧
      ∀ q2 q3, g = (rot k q2).mulVec (P2 + (rot k q3).mulVec P3) →
        m ≤ |P2.dot (k.cross ((rot k q3).mulVec P3))| ∧ m ≤ ((P2 + (rot k q3).mulVec P3).perp k).norm)
    (hm0 : 1 / 1000000 ≤ m) (hm1 : m ≤ 1) (hab : m ≤ (P3.perp k).norm * (P2.perp k).norm) (ha1 : a1 ≤ 1 / 40)
    -- joints 2 + 3 + 4 and 5
    (he4 : a1 + 17 / 16 * er + 300 * F.u ≤ e4) (hm4 : 60 * e4 + 300000 * F.u ≤ m ^ 2) (ha4' : (β + (14 * e4 + 710000 * F.u) / m) / m ≤ a4) (ha4 : a4 ≤ 1 / 40)
    (he26 : ev + 2 * a1 + 21 / 10 * a4 + 1500 * F.u ≤ e26)
    -- joint 3
    (hm3 : 2600000 * F.u + 330 * e26 ≤ m ^ 2) (ha3 : β + (77 / 10 * e26 + 3300000 * F.u) / m + e ≤ a3) (a3s : a3 ≤ 1 / 17)
    -- joint 2
    (hs3 : 4 * a3 + 1000 * F.u ≤ m) (hs26 : 4 * a1 + 17 / 8 * e26 + 1000 * F.u ≤ m) (hsu : 280000 * F.u ≤ m)
    (ha2 : (β + 315 / 100 * (2 * a3 + 2 * a1 + 17 / 16 * e26) + 704000 * F.u) / m + e ≤ a2)
    -- joint 4
    (hb4 : a4 + a2 + a3 + 602 * F.u + e ≤ b4)
    -- joint 6
    (hf : a1 + 17 / 8 * a4 + 17 / 16 * er + 1100 * F.u ≤ f) (hf1 : f ≤ 1 / 16) (ha6 : β + 315 / 100 * (F.u + f) + 700000 * F.u + e ≤ a6) :
    ∃ sols, urShoulder N ((V3.ez : V3 ℝ).map of) (k.map of) (k.map of) (k.map of) ((-V3.ez : V3 ℝ).map of) (k.map of) P0' P1' P2' P3' P4' R06' v' x1 =
        .ok sols ∧
    (∀ row ∈ sols, ∃ x2 x3 x4 x5 x6 q2 q3 q24 q5 q6, row = [x1, x2, x3, x4, x5, x6] ∧ R06 = rot V3.ez q1 * rot k q24 * rot (-V3.ez) q5 * rot k q6 ∧
      v = P0 + (rot V3.ez q1).mulVec (P1 + ((rot k q2).mulVec (P2 + (rot k q3).mulVec P3) + (rot k q24).mulVec P4)) ∧
      Spec.AngNear x2 q2 a2 ∧ Spec.AngNear x3 q3 a3 ∧ Spec.AngNear x4 (q24 - q2 - q3) b4 ∧ Spec.AngNear x5 q5 a4 ∧
      Spec.AngNear x6 q6 a6) ∧
    ∀ {q : ℕ → ℝ} {A : ℕ → Fl F → ℝ → Prop} {W : ℕ → ℝ} {D : ℝ}, UrFollows N q A W D e →
      R06 = rot V3.ez q1 * rot k (q 1 + q 2 + q 3) * rot (-V3.ez) (q 4) * rot k (q 5) →
      v = P0 + (rot V3.ez q1).mulVec (P1 + ((rot k (q 1)).mulVec (P2 + (rot k (q 2)).mulVec P3) + (rot k (q 1 + q 2 + q 3)).mulVec P4)) →
      a2 ≤ D → a3 ≤ D → b4 ≤ D → a6 ≤ D → ∃ x2 x3 x4 x5 x6, [x1, x2, x3, x4, x5, x6] ∈ sols ∧ A 1 x2 a2 ∧ A 2 x3 a3 ∧ A 3 x4 b4 ∧ Spec.AngNear x5 (q 4) a4 ∧ Sz (16 / 5) x5 ∧
        A 5 x6 a6 := by
  have u0 := F.u_nonneg
  have uk := coord_pm s
  have u5 : Spec.CoordAxis (-V3.ez : V3 ℝ) := .inr (.inr (.inr (.inr (.inr rfl))))
  have nk : Spec.VNear (k.map of : V3 (Fl F)) k F.u := vNear_self k u0
  have n5 : Spec.VNear ((-V3.ez : V3 ℝ).map of : V3 (Fl F)) (-V3.ez) F.u := vNear_self _ u0
  have nz : Spec.VNear ((V3.ez : V3 ℝ).map of : V3 (Fl F)) V3.ez F.u := vNear_self _ u0
  have i1 := rot_isRot _ ez_unit q1
  have a10 : 0 ≤ a1 := by
    obtain ⟨n, w, -, h⟩ := hx1
    exact (abs_nonneg _).trans h
  have er0 : 0 ≤ er := (mNear_iff.1 r06).elim fun _ h => h.2.nonneg
  have e40 : 0 ≤ e4 := by linarith
  have msq : m ^ 2 ≤ 1 := by nlinarith
  have mpos : 0 < m := by linarith
  have h34 : k.dot (-V3.ez) = 0 := by rcases s with rfl | rfl <;> simp [V3.dot]
  have h45 : (-V3.ez : V3 ℝ).dot k = 0 := by rw [V3.dot_comm, h34]
  -- the position in terms of the angles
  have hey : ∀ q w, V3.ey.dot ((rot k q).mulVec w) = V3.ey.dot w := ey_rot_pm s
  have place : ∀ q24, v = P0 + (rot V3.ez q1).mulVec (P1 + ((z - P1 - (rot k q24).mulVec P4) + (rot k q24).mulVec P4)) ∧
      V3.ey.dot (z - P1 - (rot k q24).mulVec P4) = V3.ey.dot (P2 + P3) := by
    intro q24
    constructor
    · rw [hv]
      generalize (rot k q24).mulVec P4 = a
      congr 2
      ext <;> simp
    · have h4 := hey q24 P4
      generalize (rot k q24).mulVec P4 = a at *
      have e : V3.ey.dot (z - P1 - a) = V3.ey.dot z - V3.ey.dot P1 - V3.ey.dot a := by simp [V3.dot]
      rw [e, hz, h4]
      simp only [V3.dot_add]; ring
  have level : ∀ q2 q3, V3.ey.dot ((rot k q2).mulVec (P2 + (rot k q3).mulVec P3)) = V3.ey.dot (P2 + P3) := by
    intro q2 q3
    rw [hey, V3.dot_add, hey, V3.dot_add]
  -- the direction of the last axis
  have g1 := MNear.mulE (MNear.transpose (rot_angE ez_unit nz hx1)) r06 i1.transpose i06 (by linarith) (by linarith)
  have g2 := VNear.mono (e := e4) (MNear.mulUnit g1 nk (i1.transpose.mul i06) (by linarith) uk.unit) (by linarith)
  obtain ⟨c24, c5, c6, ec⟩ := wrist_exists uk.unit u5.unit uk.unit h34 h45 (i1.transpose.mul i06)
  have back : ∀ b24 b5 b6, rot k b24 * rot (-V3.ez) b5 * rot k b6 = (rot V3.ez q1).transpose * R06 →
      R06 = rot V3.ez q1 * rot k b24 * rot (-V3.ez) b5 * rot k b6 := by
    intro b24 b5 b6 e
    rw [M3.mul_assoc' (rot V3.ez q1), M3.mul_assoc' (rot V3.ez q1), e, ← M3.mul_assoc', i1.orth', M3.one_mul']
  have ec2 : (rot k c24 * rot (-V3.ez) c5).mulVec k = ((rot V3.ez q1).transpose * R06).mulVec k := by
    rw [← ec, ← M3.mulVec_mulVec _ (rot k c6), rot_axis]
  have mc := (hall c24 c5 c6 _ (back _ _ _ ec) (place c24).1 (place c24).2).1
  obtain ⟨x, y, α1, α2, β1, β2, hs2, k1, k2, z1, z2, z3, z4⟩ := subproblem2_coord hF hA uk u5 uk.unit h34 ec2 hm0 (by rw [sin_q5 s]; exact mc) hu hη hm4 hβ nk g2
    (repV_axis hF uk) (repV_mulVec hF _ _)
  have z1 := AngNear.mono' z1 ha4'
  have z2 := AngNear.mono' z2 ha4'
  have z3 := AngNear.mono' z3 ha4'
  have z4 := AngNear.mono' z4 ha4'
  have key : ∀ (w : Fl F × Fl F) (b24 b5 b6 : ℝ) (g : V3 ℝ), w ∈ [x, y] → R06 = rot V3.ez q1 * rot k b24 * rot (-V3.ez) b5 * rot k b6 →
      v = P0 + (rot V3.ez q1).mulVec (P1 + (g + (rot k b24).mulVec P4)) → V3.ey.dot g = V3.ey.dot (P2 + P3) → Spec.AngNear w.1 b24 a4 → Spec.AngNear w.2 b5 a4 → _ :=
    fun w b24 b5 b6 g hw hR hvg hy y1 y2 =>
      urWrist_run hA hF hN hB hST hS8 hS s hl hl0 hvn hR hvg hy hu0 hu hη hβ p0 p1 p2 p3 p4 r06 hv' hx1 y1 (fun _ hv => subproblem2_le hA hs2 hw hv) y2
        (hall b24 b5 b6 g hR hvg hy).2.2 (hall b24 b5 b6 g hR hvg hy).2.1 mpos hm1 hab ha1 ha4 he26 hm3 ha3 a3s hs3 hs26 hsu ha2 hb4 hf hf1 ha6
  simp only [urShoulder]
  rw [hs2, Except.bind_ok]
  obtain ⟨sols, hs, hrow, hmem⟩ := forAppend_full (l := [x, y]) (f := fun w => urWrist N ((V3.ez : V3 ℝ).map of) (k.map of) (k.map of) (k.map of)
      ((-V3.ez : V3 ℝ).map of) (k.map of) P0' P1' P2' P3' P4' R06' v' x1 w.1 w.2)
    (Q := fun row => ∃ x2 x3 x4 x5 x6 q2 q3 q24 q5 q6, row = [x1, x2, x3, x4, x5, x6] ∧ R06 = rot V3.ez q1 * rot k q24 * rot (-V3.ez) q5 * rot k q6 ∧
      v = P0 + (rot V3.ez q1).mulVec (P1 + ((rot k q2).mulVec (P2 + (rot k q3).mulVec P3) + (rot k q24).mulVec P4)) ∧
      Spec.AngNear x2 q2 a2 ∧ Spec.AngNear x3 q3 a3 ∧ Spec.AngNear x4 (q24 - q2 - q3) b4 ∧ Spec.AngNear x5 q5 a4 ∧
      Spec.AngNear x6 q6 a6) (fun w hw => by
      obtain ⟨b24, b5, hb, y1, y2⟩ : ∃ b24 b5, (rot k b24 * rot (-V3.ez) b5).mulVec k = ((rot V3.ez q1).transpose * R06).mulVec k ∧
          Spec.AngNear w.1 b24 a4 ∧ Spec.AngNear w.2 b5 a4 := by
        have := hw
        rw [List.mem_cons, List.mem_singleton] at this
        rcases this with rfl | rfl
        · exact ⟨α1, α2, k1, z1, z2⟩
        · exact ⟨β1, β2, k2, z3, z4⟩
      obtain ⟨b6, hb6⟩ := last_exists uk.unit u5.unit uk.unit h45 (i1.transpose.mul i06) hb
      have hR := back _ _ _ hb6
      obtain ⟨t, ht, hr, -⟩ := key w b24 b5 b6 _ hw hR (place b24).1 (place b24).2 y1 y2
      refine ⟨t, ht, fun row hrow => ?_⟩
      obtain ⟨x2, x3, x4, x6, b2, b3, e, hg, w2, w3, w4, w6⟩ := hr row hrow
      exact ⟨x2, x3, x4, w.2, x6, b2, b3, b24, b5, b6, e, hR, by rw [← hg]; exact (place b24).1, w2, w3, w4, y2, w6⟩)
  refine ⟨sols, hs, hrow, fun {q A W D} hf hR hvq hD2 hD3 hD4 hD6 => ?_⟩
  have e2 : (rot k (q 1 + q 2 + q 3) * rot (-V3.ez) (q 4)).mulVec k = ((rot V3.ez q1).transpose * R06).mulVec k := by
    rw [hR, M3.mul_assoc' (rot V3.ez q1), M3.mul_assoc' (rot V3.ez q1), ← M3.mul_assoc', i1.orth, M3.one_mul', ← M3.mulVec_mulVec _ (rot k (q 5)), rot_axis]
  have mq := (hall _ _ _ _ hR hvq (level _ _)).1
  have final : ∀ w ∈ [x, y], Spec.AngNear w.1 (q 1 + q 2 + q 3) a4 → Spec.AngNear w.2 (q 4) a4 → ∃ x2 x3 x4 x5 x6, [x1, x2, x3, x4, x5, x6] ∈ sols ∧ A 1 x2 a2 ∧ A 2 x3 a3 ∧ A 3 x4 b4 ∧
      Spec.AngNear x5 (q 4) a4 ∧ Sz (16 / 5) x5 ∧ A 5 x6 a6 := by
    intro w hw y1 y2
    obtain ⟨t, ht, -, hc⟩ := key w _ _ _ _ hw hR hvq (level _ _) y1 y2
    obtain ⟨x2, x3, x4, x6, hm, w2, w3, w4, w6⟩ := hc hf rfl (by ring) rfl hD2 hD3 hD4 hD6
    exact ⟨x2, x3, x4, w.2, x6, hmem w hw t ht _ hm, w2, w3, w4, y2, fun _ hv => subproblem2_le2 hA hs2 hw hv, w6⟩
  rcases subproblem2_nearE hA uk.unit u5.unit uk.unit h34 e2 hm0 (by rw [sin_q5 s]; exact mq) hu hη hm4 (.inl hβ) (.inl hβ) nk n5 nk g2 with h | ⟨x', y', h, hor⟩
  · rw [hs2] at h; cases h
  · rw [hs2, Except.ok.injEq] at h
    simp only [List.cons.injEq, and_true] at h
    obtain ⟨rfl, rfl⟩ := h
    rcases hor with ⟨w1, w2⟩ | ⟨w1, w2⟩
    · exact final x (by simp) (AngNear.mono' w1 ha4') (AngNear.mono' w2 ha4')
    · exact final y (by simp) (AngNear.mono' w1 ha4') (AngNear.mono' w2 ha4')

theorem d1_near4 {P1 P2 P3 P4 : V3 ℝ} (hl : P1.norm + P2.norm + P3.norm + P4.norm ≤ 19 / 10) {P1' P2' P3' P4' : V3 (Fl F)} (hu : F.u ≤ 1 / 100000000000)
    (p1 : Spec.VNear P1' P1 (16 * F.u)) (p2 : Spec.VNear P2' P2 (16 * F.u)) (p3 : Spec.VNear P3' P3 (16 * F.u)) (p4 : Spec.VNear P4' P4 (16 * F.u)) :
    ((V3.ey : V3 (Fl F)).dot (P1' + P2' + P3' + P4')).Near ((V3.ey : V3 ℝ).dot (P1 + P2 + P3 + P4)) (150 * F.u) := by
  have u0 := F.u_nonneg
  have b := F.big_ge
  have η := F.η_le
  have m1 := P1.norm_nonneg
  have m2 := P2.norm_nonneg
  have m3 := P3.norm_nonneg
  have m4 := P4.norm_nonneg
  have n12 := V3.norm_add_le P1 P2
  have n123 := V3.norm_add_le (P1 + P2) P3
  have n1234 := V3.norm_add_le (P1 + P2 + P3) P4
  have g1 := VNear.add (s := 2) p1 p2 two_pos (by linarith) (by linarith) (by linarith)
  have g2 := VNear.add (s := 2) g1 p3 two_pos (by linarith) (by linarith) (by linarith)
  obtain ⟨w, hw, hd⟩ := VNear.add (s := 2) g2 p4 two_pos (by linarith) (by linarith) (by linarith)
  rw [hw]
  have nw := V3.norm_add_le (w - (P1 + P2 + P3 + P4)) (P1 + P2 + P3 + P4)
  rw [show w - (P1 + P2 + P3 + P4) + (P1 + P2 + P3 + P4) = w by ext <;> simp] at nw
  have nw2 : w.norm ≤ 17 / 16 * 2 := by linarith
  obtain ⟨z, hz, hzd⟩ := near_dot3 (F := F) (s := 2) two_pos (by linarith) (by linarith) (a₁ := 0) (a₂ := 1) (a₃ := 0) (by norm_num) (by norm_num) (by norm_num)
    ((V3.abs_x_le w).trans nw2) ((V3.abs_y_le w).trans nw2) ((V3.abs_z_le w).trans nw2)
  refine ⟨z, hz, ?_⟩
  have hy := (V3.abs_y_le (w - (P1 + P2 + P3 + P4))).trans hd
  have e : (V3.ey : V3 ℝ).dot (P1 + P2 + P3 + P4) = (P1 + P2 + P3 + P4).y := by simp [V3.dot]
  rw [e, show z - (P1 + P2 + P3 + P4).y = (z - (0 * w.x + 1 * w.y + 0 * w.z)) + (w - (P1 + P2 + P3 + P4)).y by simp]
  refine (abs_add_le _ _).trans ?_
  linarith

theorem urSearch_run (hA : Spec.InvAcc F) (hF : Spec.ExactRnd F) {N : Normalizer (Fl F)} {S T e : ℝ} (hN : Keeps N S e) (hB : Bounded N (13 / 2) T) (hST : 2 * T + 33 / 10 ≤ S)
    (hS8 : 8 ≤ S) (hS : S ≤ 300) {k P0 P1 P2 P3 P4 P5 P6 p0T : V3 ℝ} (s : k = V3.ey ∨ k = -V3.ey)
    {c : ℝ} (hP0 : P0 = c • V3.ez) (hl : P0.norm + P1.norm + P2.norm + P3.norm + P4.norm ≤ 19 / 10) (hl6 : P6.norm + P5.norm ≤ 1)
    {R06 : M3 ℝ} {q1 q2 q3 q4 q5 q6 : ℝ} (hR : R06 = rot V3.ez q1 * rot k (q2 + q3 + q4) * rot (-V3.ez) q5 * rot k q6)
    (hp : p0T - R06.mulVec (P6 + P5) =
      P0 + (rot V3.ez q1).mulVec (P1 + ((rot k q2).mulVec (P2 + (rot k q3).mulVec P3) + (rot k (q2 + q3 + q4)).mulVec P4)))
    {P0' P1' P2' P3' P4' P5' P6' p0T' : V3 (Fl F)} {R06' : M3 (Fl F)} {ep ev er e4 e26 a1 a2 a3 a4 b4 a6 f m β : ℝ}
    (hu0 : 0 < F.u) (hu : F.u ≤ 1 / 100000000000) (hη : 16 * F.η ≤ F.u ^ 3) (hβ : 1 / 33554432 ≤ β)
    (p0 : Spec.VNear P0' P0 (16 * F.u)) (p1 : Spec.VNear P1' P1 (16 * F.u)) (p2 : Spec.VNear P2' P2 (16 * F.u)) (p3 : Spec.VNear P3' P3 (16 * F.u))
    (p4 : Spec.VNear P4' P4 (16 * F.u)) (p5 : Spec.VNear P5' P5 (16 * F.u)) (p6 : Spec.VNear P6' P6 (16 * F.u))
    (r06 : Spec.MNear R06' R06 er) (hp' : Spec.VNear p0T' p0T ep)
    (hall : ∀ q1 q24 q5 q6 g, R06 = rot V3.ez q1 * rot k q24 * rot (-V3.ez) q5 * rot k q6 →
      p0T - R06.mulVec (P6 + P5) = P0 + (rot V3.ez q1).mulVec (P1 + (g + (rot k q24).mulVec P4)) → V3.ey.dot g = V3.ey.dot (P2 + P3) →
      m ≤ |V3.ey.dot (V3.ez.cross (P1 + (g + (rot k q24).mulVec P4)))| ∧ m ≤ |Real.sin q5| ∧
      ((∃ q2 q3, g = (rot k q2).mulVec (P2 + (rot k q3).mulVec P3)) ∨
        2 * (P3.perp k).norm * (P2.perp k).norm + m ^ 2 ≤
          |g.norm * g.norm - k.dot (P3 + P2) * k.dot (P3 + P2) - ((P3.perp k).dot (P3.perp k) + (P2.perp k).dot (P2.perp k))|) ∧
      ∀ q2 q3, g = (rot k q2).mulVec (P2 + (rot k q3).mulVec P3) →
        m ≤ |P2.dot (k.cross ((rot k q3).mulVec P3))| ∧ m ≤ ((P2 + (rot k q3).mulVec P3).perp k).norm)
    (hm0 : 1 / 1000000 ≤ m) (hm1 : m ≤ 1)
    -- joint 1
    (hev : ep + er + 120 * F.u ≤ ev) (hm1e : 150 * (ev + 950 * F.u) ≤ m ^ 2) (ha1' : 17 * (ev + 950 * F.u) / m + e ≤ a1) (ha1 : a1 ≤ 1 / 40)
    -- joints 2 + 3 + 4 and 5
    (he4 : a1 + 17 / 16 * er + 300 * F.u ≤ e4) (hm4 : 60 * e4 + 300000 * F.u ≤ m ^ 2) (ha4' : (β + (14 * e4 + 710000 * F.u) / m) / m ≤ a4) (ha4 : a4 ≤ 1 / 40)
    (he26 : ev + 2 * a1 + 21 / 10 * a4 + 1500 * F.u ≤ e26)
    -- joint 3
    (hm3 : 2600000 * F.u + 330 * e26 ≤ m ^ 2) (ha3 : β + (77 / 10 * e26 + 3300000 * F.u) / m + e ≤ a3) (a3s : a3 ≤ 1 / 17)
    -- joint 2
    (hs3 : 4 * a3 + 1000 * F.u ≤ m) (hs26 : 4 * a1 + 17 / 8 * e26 + 1000 * F.u ≤ m) (hsu : 280000 * F.u ≤ m)
    (ha2 : (β + 315 / 100 * (2 * a3 + 2 * a1 + 17 / 16 * e26) + 704000 * F.u) / m + e ≤ a2)
    -- joint 4
    (hb4 : a4 + a2 + a3 + 602 * F.u + e ≤ b4)
    -- joint 6
    (hf : a1 + 17 / 8 * a4 + 17 / 16 * er + 1100 * F.u ≤ f) (hf1 : f ≤ 1 / 16) (ha6 : β + 315 / 100 * (F.u + f) + 700000 * F.u + e ≤ a6) :
    ∃ sols, urSearch ([V3.ez, k, k, k, -V3.ez, k].map (V3.map of)) [P0', P1', P2', P3', P4', P5', P6'] N R06' p0T' = .ok sols ∧
    (∀ row ∈ sols, ∃ x1 x2 x3 x4 x5 x6 q1 q2 q3 q4 q5 q6, row = [x1, x2, x3, x4, x5, x6] ∧ R06 = rot V3.ez q1 * rot k (q2 + q3 + q4) * rot (-V3.ez) q5 * rot k q6 ∧
      p0T - R06.mulVec (P6 + P5) = P0 + (rot V3.ez q1).mulVec (P1 + ((rot k q2).mulVec (P2 + (rot k q3).mulVec P3) + (rot k (q2 + q3 + q4)).mulVec P4)) ∧
      Spec.AngNear x1 q1 a1 ∧ Spec.AngNear x2 q2 a2 ∧ Spec.AngNear x3 q3 a3 ∧ Spec.AngNear x4 q4 b4 ∧ Spec.AngNear x5 q5 a4 ∧
      Spec.AngNear x6 q6 a6) ∧
    ∀ {q : ℕ → ℝ} {A : ℕ → Fl F → ℝ → Prop} {W : ℕ → ℝ} {D : ℝ}, UrFollows N q A W D e →
      R06 = rot V3.ez (q 0) * rot k (q 1 + q 2 + q 3) * rot (-V3.ez) (q 4) * rot k (q 5) →
      p0T - R06.mulVec (P6 + P5) = P0 + (rot V3.ez (q 0)).mulVec (P1 + ((rot k (q 1)).mulVec (P2 + (rot k (q 2)).mulVec P3) + (rot k (q 1 + q 2 + q 3)).mulVec P4)) →
      a1 ≤ D → a2 ≤ D → a3 ≤ D → b4 ≤ D → a6 ≤ D → ∃ x1 x2 x3 x4 x5 x6, [x1, x2, x3, x4, x5, x6] ∈ sols ∧ A 0 x1 a1 ∧ A 1 x2 a2 ∧ A 2 x3 a3 ∧ A 3 x4 b4 ∧
        Spec.AngNear x5 (q 4) a4 ∧ Sz (16 / 5) x5 ∧ A 5 x6 a6 := by
  have u0 := F.u_nonneg
  have b := F.big_ge
  have η := F.η_le
  have e0 := hN.nonneg
  have mpos : 0 < m := by linarith
  have msq : m ^ 2 ≤ 1 := by nlinarith
  have uk := pm_unit s
  have l0 := P0.norm_nonneg
  have l1 := P1.norm_nonneg
  have l2 := P2.norm_nonneg
  have l3 := P3.norm_nonneg
  have l4 := P4.norm_nonneg
  have l5 := P5.norm_nonneg
  have l6 := P6.norm_nonneg
  have l65 := V3.norm_add_le P6 P5
  have nz : Spec.VNear ((V3.ez : V3 ℝ).map of : V3 (Fl F)) V3.ez F.u := vNear_self _ u0
  have er0 : 0 ≤ er := (mNear_iff.1 r06).elim fun _ h => h.2.nonneg
  have ep0 : 0 ≤ ep := by
    obtain ⟨w, -, h⟩ := hp'
    exact (V3.norm_nonneg _).trans h
  have i06 : IsRot R06 := by
    rw [hR]
    exact (((rot_isRot _ ez_unit q1).mul (rot_isRot k uk _)).mul (rot_isRot _ nez_unit q5)).mul (rot_isRot k uk q6)
  have hey : ∀ q w, V3.ey.dot ((rot k q).mulVec w) = V3.ey.dot w := ey_rot_pm s
  have level : ∀ q2 q3, V3.ey.dot ((rot k q2).mulVec (P2 + (rot k q3).mulVec P3)) = V3.ey.dot (P2 + P3) := by
    intro q2 q3
    rw [hey, V3.dot_add, hey, V3.dot_add]
  have hlev : V3.ey.dot P0 = 0 := by rw [hP0]; simp [V3.dot]
  set v := p0T - R06.mulVec (P6 + P5) with hv0
  -- the pose
  have nv : v.norm ≤ 19 / 10 := by
    have i1 := rot_isRot _ ez_unit q1
    have h1 := V3.norm_add_le P0 ((rot V3.ez q1).mulVec (P1 + ((rot k q2).mulVec (P2 + (rot k q3).mulVec P3) + (rot k (q2 + q3 + q4)).mulVec P4)))
    rw [i1.norm_mulVec, ← hp] at h1
    have h2 := V3.norm_add_le P1 ((rot k q2).mulVec (P2 + (rot k q3).mulVec P3) + (rot k (q2 + q3 + q4)).mulVec P4)
    have h3 := V3.norm_add_le ((rot k q2).mulVec (P2 + (rot k q3).mulVec P3)) ((rot k (q2 + q3 + q4)).mulVec P4)
    rw [(rot_isRot k uk _).norm_mulVec, (rot_isRot k uk _).norm_mulVec] at h3
    have h4 := V3.norm_add_le P2 ((rot k q3).mulVec P3)
    rw [(rot_isRot k uk _).norm_mulVec] at h4
    linarith
  have hab : m ≤ (P3.perp k).norm * (P2.perp k).norm := by
    refine ((hall _ _ _ _ _ hR hp (level q2 q3)).2.2.2 q2 q3 rfl).1.trans ?_
    have e : P2.dot (k.cross ((rot k q3).mulVec P3)) = (P2.perp k).dot (k.cross (((rot k q3).mulVec P3).perp k)) := by
      generalize (rot k q3).mulVec P3 = r
      simp [V3.perp, V3.dot]; ring
    rw [e, rot_perp_eq uk, mul_comm]
    refine (V3.abs_dot_le _ _).trans (mul_le_mul_of_nonneg_left ?_ (V3.norm_nonneg _))
    have := V3.norm_cross_le k ((rot k q3).mulVec (P3.perp k))
    rwa [V3.norm_eq_one uk, one_mul, (rot_isRot k uk q3).norm_mulVec] at this
  have evs : ev ≤ 1 / 20 := by linarith
  have p65 := VNear.add (s := 1) p6 p5 one_pos (by linarith) (by linarith) (by linarith)
  have g1 := MNear.mulVec (s := 1) r06 p65 i06 (by linarith) (by linarith) (by linarith) one_pos (by linarith) (by linarith)
  have c1 : er * (P6 + P5).norm ≤ er * 1 := mul_le_mul_of_nonneg_left (by linarith) er0
  have c2 : (1 + er) * (16 * F.u + 16 * F.u + 5 * (F.u * 1)) ≤ 17 / 16 * (16 * F.u + 16 * F.u + 5 * (F.u * 1)) := mul_le_mul_of_nonneg_right (by linarith) (by linarith)
  have g2 := VNear.mono (e := er + 70 * F.u) g1 (by linarith)
  have g3 := VNear.mono (e := ev) (VNear.sub (s := 2) hp' g2 two_pos (by rw [← hv0]; linarith) (by linarith) (by linarith)) (by linarith)
  have g4 := d1_near4 (by linarith) hu p1 p2 p3 p4
  -- the angle of joint 1
  have un : IsUnit3 (-V3.ez : V3 ℝ) := nez_unit
  have back : ∀ θ z, v = P0 + (rot V3.ez θ).mulVec z → (rot (-V3.ez) θ).mulVec v = P0 + z := by
    intro θ z h
    have i := rot_isRot _ ez_unit θ
    have e0 : P0 = (rot V3.ez θ).mulVec P0 := by rw [hP0, rot_hsmul_axis]
    rw [e0, ← M3.mulVec_add] at h
    rw [rot_neg_axis, rot_neg, h, i.transpose_mulVec_mulVec]
  have forth : ∀ θ, v = P0 + (rot V3.ez θ).mulVec ((rot (-V3.ez) θ).mulVec v - P0) := by
    intro θ
    have i := rot_isRot _ ez_unit θ
    have e0 : P0 = (rot V3.ez θ).mulVec P0 := by rw [hP0, rot_hsmul_axis]
    conv_rhs => rw [e0, ← M3.mulVec_add]
    rw [← e0, show P0 + ((rot (-V3.ez) θ).mulVec v - P0) = (rot (-V3.ez) θ).mulVec v by ext <;> simp, rot_neg_axis, rot_neg, i.mulVec_transpose_mulVec]
  obtain ⟨d1, hd1⟩ : ∃ d1, d1 = 17 * (ev + 950 * F.u) / m := ⟨_, rfl⟩
  rw [← hd1] at ha1'
  have sp4 : ∀ q1 q2 q3 q24 q5 q6, R06 = rot V3.ez q1 * rot k q24 * rot (-V3.ez) q5 * rot k q6 →
      v = P0 + (rot V3.ez q1).mulVec (P1 + ((rot k q2).mulVec (P2 + (rot k q3).mulVec P3) + (rot k q24).mulVec P4)) →
      ∃ t t' θ', (subproblem4 V3.ey (p0T' - R06'.mulVec (P6' + P5')) (-(V3.ez : V3 ℝ).map of) (V3.ey.dot (P1' + P2' + P3' + P4')) = [t, t'] ∨
        subproblem4 V3.ey (p0T' - R06'.mulVec (P6' + P5')) (-(V3.ez : V3 ℝ).map of) (V3.ey.dot (P1' + P2' + P3' + P4')) = [t', t]) ∧
        Spec.AngNear t q1 d1 ∧ Spec.AngNear t' θ' d1 ∧ V3.ey.dot ((rot (-V3.ez) θ').mulVec v) = V3.ey.dot (P1 + P2 + P3 + P4) := by
    intro q1 q2 q3 q24 q5 q6 hR hv
    have hb := back _ _ hv
    have hd : V3.ey.dot ((rot (-V3.ez) q1).mulVec v) = V3.ey.dot (P1 + P2 + P3 + P4) := by
      rw [hb]
      simp only [V3.dot_add, hlev, hey]; ring
    obtain ⟨km, -⟩ := hall _ _ _ _ _ hR hv (level q2 q3)
    have hcr : ∀ z, (-V3.ez : V3 ℝ).cross (P0 + z) = -(V3.ez.cross z) := by intro z; rw [hP0]; ext <;> simp
    obtain ⟨t, t', θ', hq, ht, ht', hθ', -⟩ := C74_subproblem4_split_partial hA (-V3.ez) V3.ey v un ey_unit nv _ q1 hd m mpos
      (by rw [hb, hcr, V3.dot_neg, abs_neg]; exact km) (-(V3.ez : V3 ℝ).map of) (V3.ey.map Fl.of) _ _ ev (150 * F.u) (by linarith) (by linarith) (by linarith) (by linarith) hη
      (VNear.neg nz) (Fl.vNear_self V3.ey u0) g3 g4
    have le : 17 * (ev + 150 * F.u + 800 * F.u) / m ≤ d1 := by
      rw [hd1]
      exact div_le_div_of_nonneg_right (by linarith) mpos.le
    exact ⟨t, t', θ', hq, AngNear.mono' ht le, AngNear.mono' ht' le, hθ'⟩
  have key : ∀ x θ, Spec.AngNear x θ a1 → V3.ey.dot ((rot (-V3.ez) θ).mulVec v) = V3.ey.dot (P1 + P2 + P3 + P4) → _ := fun x θ hx hθ =>
    urShoulder_run hA hF hN hB hST hS8 hS s (P0 := P0) (P1 := P1) (P2 := P2) (P3 := P3) (P4 := P4) (by linarith) (by linarith) nv i06 (forth θ) (by
        generalize (rot (-V3.ez) θ).mulVec v = z at *
        have e : V3.ey.dot (z - P0) = V3.ey.dot z - V3.ey.dot P0 := by simp [V3.dot]
        rw [e, hθ, hlev, sub_zero])
      hu0 hu hη hβ p0 p1 p2 p3 p4 r06 g3 hx (fun q24 q5 q6 g h1 h2 h3 => (hall θ q24 q5 q6 g h1 h2 h3).2) hm0 hm1 hab ha1 he4 hm4 ha4' ha4 he26 hm3 ha3 a3s hs3 hs26 hsu ha2 hb4 hf hf1 ha6
  obtain ⟨t, t', θ', hq, ht, ht', hθ'⟩ := sp4 _ _ _ _ _ _ hR hp
  have hθ : V3.ey.dot ((rot (-V3.ez) q1).mulVec v) = V3.ey.dot (P1 + P2 + P3 + P4) := by
    rw [back _ _ hp]
    simp only [V3.dot_add, hlev, hey]; ring
  simp only [List.map_cons, List.map_nil, urSearch]
  obtain ⟨l, hl4⟩ : ∃ l, l = subproblem4 V3.ey (p0T' - R06'.mulVec (P6' + P5')) (-(V3.ez : V3 ℝ).map of) (V3.ey.dot (P1' + P2' + P3' + P4')) := ⟨_, rfl⟩
  rw [← hl4] at hq ⊢
  have mem : ∀ x ∈ l, x = t ∨ x = t' := fun x hx => by rcases hq with e | e <;> (rw [e] at hx; simp at hx; tauto)
  have sz : ∀ x ∈ l, Sz 8 x := fun x hx v hv => by rw [hl4] at hx; exact subproblem4_le hA hx hv
  have rep : ∀ x ∈ l, RepS x := fun x hx => by rw [hl4] at hx; exact subproblem4_rep hF hx
  obtain ⟨l', hl', same⟩ := hN.callS (j := 0) (l := l) (by norm_num) (fun x hx =>
    ⟨by rcases mem x hx with rfl | rfl <;> [exact ht.fin; exact ht'.fin], fun v hv => (sz x hx v hv).trans hS8, rep x hx⟩)
  rw [hl', Except.bind_ok]
  obtain ⟨sols, hs, hrow, hmem⟩ := forAppend_full (l := l')
    (f := urShoulder N ((V3.ez : V3 ℝ).map of) (k.map of) (k.map of) (k.map of) ((-V3.ez : V3 ℝ).map of) (k.map of) P0' P1' P2' P3' P4' R06'
      (p0T' - R06'.mulVec (P6' + P5')))
    (Q := fun row => ∃ x1 x2 x3 x4 x5 x6 q1 q2 q3 q4 q5 q6, row = [x1, x2, x3, x4, x5, x6] ∧ R06 = rot V3.ez q1 * rot k (q2 + q3 + q4) * rot (-V3.ez) q5 * rot k q6 ∧
      v = P0 + (rot V3.ez q1).mulVec (P1 + ((rot k q2).mulVec (P2 + (rot k q3).mulVec P3) + (rot k (q2 + q3 + q4)).mulVec P4)) ∧
      Spec.AngNear x1 q1 a1 ∧ Spec.AngNear x2 q2 a2 ∧ Spec.AngNear x3 q3 a3 ∧ Spec.AngNear x4 q4 b4 ∧ Spec.AngNear x5 q5 a4 ∧
      Spec.AngNear x6 q6 a6) (fun x hx => by
      obtain ⟨θ, yx, hθx⟩ : ∃ θ, Spec.AngNear x θ a1 ∧ V3.ey.dot ((rot (-V3.ez) θ).mulVec v) = V3.ey.dot (P1 + P2 + P3 + P4) := by
        obtain ⟨z, hz, sm⟩ := same x hx
        rcases mem z hz with rfl | rfl
        · exact ⟨q1, AngNear.mono' (sm ht) ha1', hθ⟩
        · exact ⟨θ', AngNear.mono' (sm ht') ha1', hθ'⟩
      obtain ⟨r, hr, hrow, -⟩ := key x θ yx hθx
      refine ⟨r, hr, fun row hm => ?_⟩
      obtain ⟨x2, x3, x4, x5, x6, b2, b3, b24, b5, b6, e, hRb, hvb, y2, y3, y4, y5, y6⟩ := hrow row hm
      have e24 : b2 + b3 + (b24 - b2 - b3) = b24 := by ring
      exact ⟨x, x2, x3, x4, x5, x6, θ, b2, b3, b24 - b2 - b3, b5, b6, e, by rw [e24]; exact hRb, by rw [e24]; exact hvb, yx, y2, y3, y4, y5, y6⟩)
  refine ⟨sols, hs, hrow, fun {q A W D} hf hRb hvb hD1 hD2 hD3 hD4 hD6 => ?_⟩
  obtain ⟨t, t', θ', hq, ht, -⟩ := sp4 _ _ _ _ _ _ hRb hvb
  rw [← hl4] at hq
  have hm : t ∈ l := by rcases hq with e | e <;> simp [e]
  have hθb : V3.ey.dot ((rot (-V3.ez) (q 0)).mulVec v) = V3.ey.dot (P1 + P2 + P3 + P4) := by
    rw [back _ _ hvb]
    simp only [V3.dot_add, hlev, hey]; ring
  obtain ⟨x1, hx1, y1⟩ := hf.callS (j := 0) (by norm_num) hm ⟨fun v hv => (sz t hm v hv).trans hf.size0, fun _ => rep t hm⟩ ht (by linarith) hl'
  have y1 := hf.mono y1 ha1'
  obtain ⟨r, hr, -, hc⟩ := key x1 _ (hf.ang y1) hθb
  obtain ⟨x2, x3, x4, x5, x6, hm, y2, y3, y4, y5, y6⟩ := hc hf hRb hvb hD2 hD3 hD4 hD6
  exact ⟨x1, x2, x3, x4, x5, x6, hmem x1 hx1 r hr _ hm, y1, y2, y3, y4, y5, y6⟩

end Fl
