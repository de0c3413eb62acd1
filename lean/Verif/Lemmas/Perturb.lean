import Verif.Lemmas.Lip
import Verif.Lemmas.IkParts

/-! # How the pose changes with the geometry of the robot -/
set_option autoImplicit false

/-- Turning about an axis and about a vector near it. -/
theorem rot_axis_near {e h : V3 ℝ} (he : IsUnit3 e) {δ : ℝ} (hd : (h - e).norm ≤ δ) (h1 : δ ≤ 1) (t : ℝ) :
    OpLe (rot h t - rot e t) (7 * δ) := fun v => by
  have e1 : (rot h t - rot e t).mulVec v = Real.sin t • (h - e).cross v +
      (1 - Real.cos t) • ((h - e).cross (h.cross v) + e.cross ((h - e).cross v)) := by
    ext <;> simp [rot] <;> ring
  have d0 : 0 ≤ δ := (V3.norm_nonneg _).trans hd
  have nv := v.norm_nonneg
  have ne := V3.norm_eq_one he
  have nh : h.norm ≤ 2 := by
    have := V3.norm_add_le (h - e) e
    rw [show h - e + e = h by ext <;> simp, ne] at this
    linarith
  have c1 : ((h - e).cross v).norm ≤ δ * v.norm := (V3.norm_cross_le _ _).trans (mul_le_mul_of_nonneg_right hd nv)
  have c2 : ((h - e).cross (h.cross v)).norm ≤ δ * (2 * v.norm) :=
    (V3.norm_cross_le _ _).trans (mul_le_mul hd ((V3.norm_cross_le _ _).trans (mul_le_mul_of_nonneg_right nh nv)) (V3.norm_nonneg _) d0)
  have c3 : (e.cross ((h - e).cross v)).norm ≤ δ * v.norm := by
    have := V3.norm_cross_le e ((h - e).cross v)
    rw [ne, one_mul] at this
    exact this.trans c1
  rw [e1]
  have t1 := V3.norm_add_le (Real.sin t • (h - e).cross v) ((1 - Real.cos t) • ((h - e).cross (h.cross v) + e.cross ((h - e).cross v)))
  rw [V3.norm_hsmul, V3.norm_hsmul] at t1
  have t2 := V3.norm_add_le ((h - e).cross (h.cross v)) (e.cross ((h - e).cross v))
  have s1 : |Real.sin t| * ((h - e).cross v).norm ≤ 1 * (δ * v.norm) :=
    mul_le_mul (Real.abs_sin_le_one t) c1 (V3.norm_nonneg _) zero_le_one
  have a2 : |1 - Real.cos t| ≤ 2 := by
    rw [abs_le]; constructor <;> linarith [Real.cos_le_one t, Real.neg_one_le_cos t]
  have s2 : |1 - Real.cos t| * ((h - e).cross (h.cross v) + e.cross ((h - e).cross v)).norm ≤ 2 * (3 * (δ * v.norm)) :=
    mul_le_mul a2 (by linarith) (V3.norm_nonneg _) (by norm_num)
  linarith

/-- Two places, the second reached with errors: the orientations differ by at most `x - 1`, the positions by at most what the errors of
the orientations make of the length `m`, and the errors `s` of the positions. -/
structure Near (x m s : ℝ) (T T' : M3 ℝ × V3 ℝ) : Prop where
  rot : IsRot T.1
  len : T.2.norm ≤ m
  R : OpLe (T'.1 - T.1) (x - 1)
  p : (T'.2 - T.2).norm ≤ (x - 1) * m + x * s

theorem OpLe.add_rot {A B : M3 ℝ} {e : ℝ} (h : OpLe (B - A) e) (hA : IsRot A) : OpLe B (1 + e) := by
  have := hA.opLe.add h
  rwa [show A + (B - A) = B by ext <;> simp] at this

/-- Composition of two displacements. -/
theorem Near.comp {x m s y n t : ℝ} {T T' V V' : M3 ℝ × V3 ℝ} (h : Near x m s T T') (k : Near y n t V V') (hs : 0 ≤ s) (ht : 0 ≤ t) :
    Near (x * y) (m + n) (s + t) (T.1 * V.1, T.2 + T.1.mulVec V.2) (T'.1 * V'.1, T'.2 + T'.1.mulVec V'.2) := by
  have x1 : 1 ≤ x := by linarith [h.R.nonneg]
  have y1 : 1 ≤ y := by linarith [k.R.nonneg]
  have n0 : 0 ≤ n := (V3.norm_nonneg _).trans k.len
  have m0 : 0 ≤ m := (V3.norm_nonneg _).trans h.len
  have o := h.R.add_rot h.rot
  refine ⟨h.rot.mul k.rot, ?_, ?_, ?_⟩
  · have := V3.norm_add_le T.2 (T.1.mulVec V.2)
    rw [h.rot.norm_mulVec] at this
    exact this.trans (add_le_add h.len k.len)
  · show OpLe (T'.1 * V'.1 - T.1 * V.1) _
    rw [show T'.1 * V'.1 - T.1 * V.1 = T'.1 * (V'.1 - V.1) + (T'.1 - T.1) * V.1 by ext <;> simp <;> ring]
    refine ((o.mul k.R (by linarith)).add (h.R.mul k.rot.opLe h.R.nonneg)).mono ?_
    nlinarith
  · show (T'.2 + T'.1.mulVec V'.2 - (T.2 + T.1.mulVec V.2)).norm ≤ _
    rw [show T'.2 + T'.1.mulVec V'.2 - (T.2 + T.1.mulVec V.2) = (T'.2 - T.2) + (T'.1.mulVec (V'.2 - V.2) + (T'.1 - T.1).mulVec V.2) by
      ext <;> simp <;> ring]
    have i1 := V3.norm_add_le (T'.2 - T.2) (T'.1.mulVec (V'.2 - V.2) + (T'.1 - T.1).mulVec V.2)
    have i2 := V3.norm_add_le (T'.1.mulVec (V'.2 - V.2)) ((T'.1 - T.1).mulVec V.2)
    have i3 := o (V'.2 - V.2)
    have i4 := h.R V.2
    have i5 : (1 + (x - 1)) * (V'.2 - V.2).norm ≤ x * ((y - 1) * n + y * t) := by
      rw [show 1 + (x - 1) = x by ring]
      exact mul_le_mul_of_nonneg_left k.p (by linarith)
    have i6 : (x - 1) * V.2.norm ≤ (x - 1) * n := mul_le_mul_of_nonneg_left k.len (by linarith)
    have i7 := h.p
    have i8 : 0 ≤ (y - 1) * (x * s) := mul_nonneg (by linarith) (mul_nonneg (by linarith) hs)
    have i9 : 0 ≤ (y - 1) * (x * m) := mul_nonneg (by linarith) (mul_nonneg (by linarith) m0)
    nlinarith

theorem Near.mono {x m s y n t : ℝ} {T T' : M3 ℝ × V3 ℝ} (h : Near x m s T T') (hxy : x ≤ y) (hmn : m ≤ n) (hst : s ≤ t) (hs : 0 ≤ s) :
    Near y n t T T' := by
  have x1 : 1 ≤ x := by linarith [h.R.nonneg]
  have m0 : 0 ≤ m := (V3.norm_nonneg _).trans h.len
  refine ⟨h.rot, h.len.trans hmn, h.R.mono (by linarith), h.p.trans ?_⟩
  have := mul_le_mul (show x - 1 ≤ y - 1 by linarith) hmn m0 (by linarith)
  have := mul_le_mul hxy hst hs (by linarith)
  linarith

/-- Total displacement of the sliding joints. -/
noncomputable def Spec.slides : List Nat → List ℝ → ℝ
  | t :: ts, x :: xs => (if t = 1 ∨ t = 3 then |x| else 0) + Spec.slides ts xs
  | _, _ => 0

theorem slides_nonneg : ∀ (ts : List Nat) (xs : List ℝ), 0 ≤ Spec.slides ts xs
  | [], _ => by simp [Spec.slides]
  | _ :: _, [] => by simp [Spec.slides]
  | t :: ts, x :: xs => by
    have := slides_nonneg ts xs
    simp only [Spec.slides]
    split_ifs <;> positivity

/-- One joint and the link after it. -/
theorem fwdStep_near {t : Nat} {h h' P P' : V3 ℝ} {x δ ε y m s : ℝ} {T T' : M3 ℝ × V3 ℝ} (hh : IsUnit3 h) (hd : (h' - h).norm ≤ δ)
    (h1 : δ ≤ 1) (hP : (P' - P).norm ≤ ε) (hT : Near y m s T T') (hs : 0 ≤ s) :
    Near (y * (1 + 7 * δ)) (m + ((if t = 1 ∨ t = 3 then |x| else 0) + P.norm)) (s + ((if t = 1 ∨ t = 3 then |x| else 0) * δ + ε))
      (fwdStep t h P x T) (fwdStep t h' P' x T') := by
  have d0 : 0 ≤ δ := (V3.norm_nonneg _).trans hd
  have e0 : 0 ≤ ε := (V3.norm_nonneg _).trans hP
  have nP := P.norm_nonneg
  have hopO : OpLe ((1 : M3 ℝ) - 1) 0 := fun v => by
    rw [show ((1 : M3 ℝ) - 1).mulVec v = 0 by ext <;> simp, V3.norm_zero, zero_mul]
  by_cases h02 : t = 0 ∨ t = 2
  · have h13 : ¬ (t = 1 ∨ t = 3) := by omega
    have o := rot_axis_near hh hd h1 x
    have k : Near (1 + 7 * δ) P.norm ε (rot h x, (rot h x).mulVec P) (rot h' x, (rot h' x).mulVec P') := by
      have r := rot_isRot h hh x
      have o' := o.add_rot r
      refine ⟨r, by rw [r.norm_mulVec], o.mono (by linarith), ?_⟩
      show ((rot h' x).mulVec P' - (rot h x).mulVec P).norm ≤ _
      rw [show (rot h' x).mulVec P' - (rot h x).mulVec P = (rot h' x).mulVec (P' - P) + (rot h' x - rot h x).mulVec P by
        ext <;> simp <;> ring]
      have i1 := V3.norm_add_le ((rot h' x).mulVec (P' - P)) ((rot h' x - rot h x).mulVec P)
      have i2 := o' (P' - P)
      have i3 := o P
      have i4 : (1 + 7 * δ) * (P' - P).norm ≤ (1 + 7 * δ) * ε := mul_le_mul_of_nonneg_left hP (by linarith)
      linarith
    have := hT.comp k hs e0
    simp only [if_neg h13, zero_add, zero_mul, fwdStep, if_pos h02]
    simpa only [M3.mulVec_mulVec] using this
  · by_cases h13 : t = 1 ∨ t = 3
    · have k : Near (1 + 7 * δ) (|x| + P.norm) (|x| * δ + ε) (1, x • h + P) (1, x • h' + P') := by
        have i0 := V3.norm_add_le (x • h) P
        rw [V3.norm_hsmul, V3.norm_eq_one hh, mul_one] at i0
        refine ⟨IsRot.one, i0, hopO.mono (by linarith), ?_⟩
        show (x • h' + P' - (x • h + P)).norm ≤ _
        rw [show x • h' + P' - (x • h + P) = x • (h' - h) + (P' - P) by ext <;> simp <;> ring]
        have i1 := V3.norm_add_le (x • (h' - h)) (P' - P)
        rw [V3.norm_hsmul] at i1
        have i2 := mul_le_mul_of_nonneg_left hd (abs_nonneg x)
        have j1 : 0 ≤ |x| := abs_nonneg x
        have j2 : 0 ≤ 7 * δ * (|x| + P.norm) := by positivity
        have j3 : 0 ≤ 7 * δ * (|x| * δ + ε) := by positivity
        nlinarith
      have := hT.comp k hs (by positivity)
      simp only [if_pos h13, fwdStep, if_neg h02]
      have e1 : ∀ (A : M3 ℝ) (p h P : V3 ℝ), p + V3.smul x (A.mulVec h) + A.mulVec P = p + A.mulVec (x • h + P) := by
        intro A p h P; ext <;> simp <;> ring
      rw [e1, e1]
      simpa only [M3.mul_one'] using this
    · have k : Near (1 + 7 * δ) P.norm ε (1, P) (1, P') := by
        refine ⟨IsRot.one, le_refl _, hopO.mono (by linarith), ?_⟩
        show (P' - P).norm ≤ _
        have j2 : 0 ≤ 7 * δ * P.norm := by positivity
        have j3 : 0 ≤ 7 * δ * ε := by positivity
        nlinarith
      have := hT.comp k hs e0
      simp only [if_neg h13, zero_add, zero_mul, fwdStep, if_neg h02]
      simpa only [M3.mul_one'] using this

theorem fwdLoop_near {δ ε : ℝ} (h1 : δ ≤ 1) (d0 : 0 ≤ δ) (e0 : 0 ≤ ε) : ∀ (ts : List Nat) (hs hs' Ps Ps' : List (V3 ℝ)) (θ : List ℝ) (T T' Tn : M3 ℝ × V3 ℝ)
    (y m s : ℝ), (∀ h ∈ hs, IsUnit3 h) → List.Forall₂ (fun h h' : V3 ℝ => (h' - h).norm ≤ δ) hs hs' →
    List.Forall₂ (fun p p' : V3 ℝ => (p' - p).norm ≤ ε) Ps Ps' → fwdLoop ts hs Ps θ T = .ok Tn → Near y m s T T' → 0 ≤ s →
    ∃ Tn', fwdLoop ts hs' Ps' θ T' = .ok Tn' ∧
      Near (y * (1 + 7 * δ) ^ ts.length) (m + Spec.travel ts Ps θ) (s + (Spec.slides ts θ * δ + ts.length * ε)) Tn Tn' := by
  intro ts
  induction ts with
  | nil =>
    intro hs hs' Ps Ps' θ T T' Tn y m s _ _ _ h hT _
    cases h
    exact ⟨T', rfl, by simpa [Spec.travel, Spec.slides] using hT⟩
  | cons t ts ih =>
    intro hs hs' Ps Ps' θ T T' Tn y m s hH hh hp h hT hs0
    obtain _ | ⟨k, hs⟩ := hs
    · cases h
    obtain _ | ⟨P, Ps⟩ := Ps
    · cases h
    obtain _ | ⟨x, θ⟩ := θ
    · cases h
    cases hh with | cons hk hh =>
    cases hp with | cons hP hp =>
    have key := fwdStep_near (t := t) (x := x) (hH k (by simp)) hk h1 hP hT hs0
    have s1 : 0 ≤ s + ((if t = 1 ∨ t = 3 then |x| else 0) * δ + ε) := by split_ifs <;> positivity
    obtain ⟨Tn', h', hn⟩ := ih _ _ _ _ θ _ _ Tn _ _ _ (fun g hg => hH g (by simp [hg])) hh hp h key s1
    refine ⟨Tn', h', ?_⟩
    have e1 : y * (1 + 7 * δ) ^ (t :: ts).length = y * (1 + 7 * δ) * (1 + 7 * δ) ^ ts.length := by
      rw [List.length_cons, pow_succ]; ring
    have e2 : m + Spec.travel (t :: ts) (P :: Ps) (x :: θ) = m + ((if t = 1 ∨ t = 3 then |x| else 0) + P.norm) + Spec.travel ts Ps θ := by
      simp only [Spec.travel]; ring
    have e3 : s + (Spec.slides (t :: ts) (x :: θ) * δ + (t :: ts).length * ε) =
        s + ((if t = 1 ∨ t = 3 then |x| else 0) * δ + ε) + (Spec.slides ts θ * δ + ts.length * ε) := by
      simp only [Spec.slides, List.length_cons]; push_cast; ring
    rw [e1, e2, e3]
    exact hn
