import Verif.Props.RoundingUr
import Verif.Props.RoundingTrack

/-!
# C87: `ur_invkin` in floating point, with joint limits and last joint values

Inside the limits no solution is lost; with last joint values near a solution, this solution is returned without added turns, and the first row is near it.
-/
set_option autoImplicit false

/-- How large the six angles computed by `ur_invkin` can be before they are brought inside the limits.  The fourth is a difference of other angles; `S4` is for it. -/
noncomputable def Spec.urRaw (S4 : ℝ) (j : ℕ) : ℝ := [8, 16 / 5, 13 / 2, S4, 16 / 5, 16 / 5].getD j 0

/-- The joint vector is inside the joint limits (if there are any) by the margin `μ`, and every angle of the size `ur_invkin` computes is brought inside them by one turn. -/
def Spec.UrInside {F : FSys} (r' : Robot (Fl F)) (q : List ℝ) (S4 μ : ℝ) : Prop :=
  ∀ lo up, r'.lower = some lo → r'.upper = some up → ∀ (j : ℕ) (t : ℝ), q[j]? = some t → ∃ l u : ℝ, lo[j]? = some (Fl.of l) ∧ up[j]? = some (Fl.of u) ∧
    l + μ < t ∧ t + μ < u ∧ Spec.LimShape (Spec.urRaw S4 j) t l u μ

/-- `U` bounds what joint `j` can be in a row for the angle `t`: a value inside the limits, and one of at most `S` if the limits include all of these. -/
def Spec.RepsLe {F : FSys} (r' : Robot (Fl F)) (j : ℕ) (S t δ U : ℝ) : Prop :=
  ∀ lo up (l u : ℝ), r'.lower = some lo → r'.upper = some up → lo[j]? = some (Fl.of l) → up[j]? = some (Fl.of u) → ∀ n : ℤ,
    l - δ < t + n * (2 * Real.pi) → t + n * (2 * Real.pi) < u + δ → (l < -S → S < u → |t + n * (2 * Real.pi)| ≤ S + δ) → |t + n * (2 * Real.pi)| ≤ U

section
variable {F : FSys} {r : Robot ℝ} {k P0 P1 P2 P3 P4 P5 P6 : V3 ℝ}

theorem Spec.UrInside.limOk {r' : Robot (Fl F)} {q : List ℝ} {S4 μ ν : ℝ} (h : Spec.UrInside r' q S4 μ) (hν : ν ≤ μ) (last : Option (List (Fl F))) {j : ℕ} {t : ℝ}
    (ht : q[j]? = some t) : Fl.LimOk (Normalizer.ofRobot r' last) j (Spec.urRaw S4 j) t ν := by
  intro lo up hl
  obtain ⟨e1, e2⟩ := ofRobot_limits_fl hl
  obtain ⟨l, u, a1, a2, a3, a4, a5⟩ := h lo up e1 e2 j t ht
  exact ⟨l, u, a1, a2, by linarith, by linarith, a5.imp (fun h => by linarith) id⟩

theorem Spec.urRaw_le {S4 : ℝ} (h : S4 ≤ 290) (j : ℕ) (hj : j < 6) : Spec.urRaw S4 j ≤ 290 := by
  interval_cases j <;> simp [Spec.urRaw] <;> linarith

theorem Fl.normErr_290 : Fl.normErr F 290 ≤ 4000 * F.u := by
  unfold Fl.normErr Fl.moveErr
  have := F.u_nonneg
  linarith

/-- whole turns of the joints do not change the pose -/
theorem urChain_turns (hr : Spec.UrChain r k P0 P1 P2 P3 P4 P5 P6) (q1 q2 q3 q4 q5 q6 : ℝ) (n1 n2 n3 n4 n5 n6 : ℤ) :
    fwdkin r [q1 + n1 * (2 * Real.pi), q2 + n2 * (2 * Real.pi), q3 + n3 * (2 * Real.pi), q4 + n4 * (2 * Real.pi), q5 + n5 * (2 * Real.pi), q6 + n6 * (2 * Real.pi)] true =
      fwdkin r [q1, q2, q3, q4, q5, q6] true := by
  rw [fwdkin_chain6 hr.types hr.axes hr.links, fwdkin_chain6 hr.types hr.axes hr.links]
  simp only [rot_periodic]

/-- The numbers: what the error of `normalize` adds to the bound. -/
theorem ur_track_num {u e ε L m δ : ℝ} (u0 : 0 ≤ u) (ε0 : 0 ≤ ε) (he : e ≤ 4000 * u) (hL : 1 ≤ L) (m0 : 0 < m) (m1 : m ≤ 1)
    (hδ : 160 / (33554432 * m ^ 3) + (200000 * ε + 800000000 * u) * L / m ^ 5 ≤ δ) :
    160 / (33554432 * m ^ 3) + (200000 * ε + 45000 * e + 610000000 * u) * L / m ^ 5 ≤ δ ∧ e ≤ δ ∧ 1000 * u ≤ δ ∧ 4 / 1000000 ≤ δ := by
  have h5 : 0 < m ^ 5 := pow_pos m0 5
  have h51 : m ^ 5 ≤ 1 := pow_le_one₀ m0.le m1
  have h31 : m ^ 3 ≤ 1 := pow_le_one₀ m0.le m1
  have h3 : 0 < m ^ 3 := pow_pos m0 3
  have g1 : 160 / 33554432 ≤ 160 / (33554432 * m ^ 3) := div_le_div_of_nonneg_left (by norm_num) (by positivity) (by linarith)
  have g2 : (200000 * ε + 800000000 * u) * L ≤ (200000 * ε + 800000000 * u) * L / m ^ 5 := le_div_self (by positivity) h5 h51
  have g3 : (200000 * ε + 800000000 * u) ≤ (200000 * ε + 800000000 * u) * L := le_mul_of_one_le_right (by positivity) hL
  refine ⟨le_trans (add_le_add_right (div_le_div_of_nonneg_right (mul_le_mul_of_nonneg_right ?_ (by linarith)) h5.le) _) hδ, ?_, ?_, ?_⟩
  · linarith
  · linarith
  · linarith
  · have : 0 ≤ (200000 * ε + 800000000 * u) := by positivity
    linarith

theorem UrDecided.le_one (hr : Spec.UrChain r k P0 P1 P2 P3 P4 P5 P6) {q1 q2 q3 q4 q5 q6 m : ℝ} {T : Transform ℝ} (hT : fwdkin r [q1, q2, q3, q4, q5, q6] true = .ok T)
    (hdec : Spec.UrDecided k P0 P1 P2 P3 P4 (unapplyAux r T).R (Spec.wristCentre r P5 P6 T) m) : m ≤ 1 := by
  obtain ⟨eR, ep⟩ := ur_solve hr hT
  exact (hdec _ _ _ _ _ eR ep (ur_level hr.par _ _)).2.1.trans (Real.abs_sin_le_one q5)

/-- The size of a joint value kept by `normalize` without last joint values. -/
theorem kept_size {r' : Robot (Fl F)} (us : Fl.Usable (Normalizer.ofRobot r' none)) {lo up : List (Fl F)} (hlo : r'.lower = some lo) (hup : r'.upper = some up)
    {S q : ℕ → ℝ} {j : ℕ} (hj : j < 6) {y : Fl F} {δ U l u : ℝ} (hl : lo[j]? = some (Fl.of l)) (hu : up[j]? = some (Fl.of u))
    (h : Fl.Kept (Normalizer.ofRobot r' none) S q j y δ) (hU : Spec.RepsLe r' j (S j) (q j) δ U) : ∃ v, y.val = .fin v ∧ |v| ≤ U + δ := by
  obtain ⟨⟨n, v, hv, hn⟩, x, ⟨w, hw⟩, hm, hx⟩ := h
  refine ⟨v, hv, ?_⟩
  have ev := Fl.of_val hv
  obtain ⟨i1, i2⟩ := normalize_inLimits Fl.fl_add_comm hx rfl lo up hlo hup _ _ hl hu
  rw [ev] at i1 i2
  have j1 : l < v := i1
  have j2 : v < u := i2
  obtain ⟨a1, a2⟩ := abs_le.1 hn
  have key := hU lo up l u hlo hup hl hu n (by linarith) (by linarith) ?_
  · have := abs_add_le (v - (q j + n * (2 * Real.pi))) (q j + n * (2 * Real.pi))
    rw [sub_add_cancel] at this
    linarith
  intro b1 b2
  have hv' : |v| ≤ S j := by
    have hlims : (Normalizer.ofRobot r' none).limits = some (lo, up) := by simp [Normalizer.ofRobot, hlo, hup]
    have hla : Fl.Normalizer.limsAt (Normalizer.ofRobot r' none) j = some (Fl.of l, Fl.of u) := by
      unfold Fl.Normalizer.limsAt
      rw [hlims]
      simp only [hl, hu]
    rw [Fl.normalize_eq us hj, hla] at hx
    obtain ⟨c1, c2⟩ := abs_le.1 (hm.sz w hw)
    have ew := Fl.of_val hw
    have d1 : (Fl.of l : Fl F) < x := by
      rw [ew]
      exact show l < w by linarith
    have d2 : x < (Fl.of u : Fl F) := by
      rw [ew]
      exact show w < u by linarith
    dsimp only [normLimits] at hx
    rw [if_pos ⟨d1, d2⟩] at hx
    have : x = y := Option.some.inj (Except.ok.inj hx)
    rw [this, hv] at hw
    cases hw
    exact hm.sz v (by rw [this, hv])
  have := abs_sub_abs_le_abs_sub (q j + n * (2 * Real.pi)) v
  rw [abs_sub_comm] at this
  linarith

/-- C87 with joint limits, no last joint values: the call does not raise, every row it returns is within `δ` of a joint vector that reaches the pose, and every joint
vector that reaches the pose and is inside the limits by `2 * δ` is within `δ` of a row, up to whole turns.  The fourth joint is computed from the second and the third, after
these were brought inside the limits; its limits have to suit the sizes (`U2`, `U3`) of what comes out there (otherwise false, `C67_ur_fourth_false`).
Missing: larger arms, other limits, and poses near the singularities. -/
theorem C87_ur_limits_partial (hF : Spec.InvAcc F) (hE : Spec.ExactRnd F) (hI : Spec.IntRounding F) (hr : Spec.UrChain r k P0 P1 P2 P3 P4 P5 P6)
    (hl : P0.norm + P1.norm + P2.norm + P3.norm + P4.norm ≤ 19 / 10) (hl6 : P6.norm + P5.norm ≤ 1)
    (r' : Robot (Fl F)) (hr' : Spec.RobotNear r' r) (lo up : List (Fl F)) (hlo : r'.lower = some lo) (hup : r'.upper = some up) (llo : lo.length = 6) (lup : up.length = 6)
    (hH' : r'.H = r.H.map (V3.map Fl.of))
    (T : Transform ℝ) (q1 q2 q3 q4 q5 q6 : ℝ) (hT : fwdkin r [q1, q2, q3, q4, q5, q6] true = .ok T)
    (T' : Transform (Fl F)) (ε : ℝ) (hR' : Spec.MNear T'.R T.R ε) (hp' : Spec.VNear T'.p T.p ε)
    (L : ℝ) (hL : 1 ≤ L) (hlen : T.p.norm + Spec.auxLength r ≤ L) (hbig : 5 * L ≤ F.big)
    (hu0 : 0 < F.u) (hu : F.u ≤ 1 / 100000000000) (hη : 16 * F.η ≤ F.u ^ 3) (m δ : ℝ) (hm : 1 / 1000000 ≤ m)
    (hmargin : ∀ q1 q2 q3 q4 q5 q6, fwdkin r [q1, q2, q3, q4, q5, q6] true = .ok T → Spec.UrMargin k P2 P3 q3 m)
    (hdec : Spec.UrDecided k P0 P1 P2 P3 P4 (unapplyAux r T).R (Spec.wristCentre r P5 P6 T) m)
    (hδ : 160 / (33554432 * m ^ 3) + (200000 * ε + 800000000 * F.u) * L / m ^ 5 ≤ δ) (hδ1 : δ ≤ 1 / 20) :
    ∃ sols, ur_invkin r' T' = .ok sols ∧
      (∀ row ∈ sols, ∃ q, fwdkin r q true = .ok T ∧ Spec.RowNear row q δ) ∧
      (∀ q1 q2 q3 q4 q5 q6 U2 U3, fwdkin r [q1, q2, q3, q4, q5, q6] true = .ok T → Spec.RepsLe r' 1 (16 / 5) q2 δ U2 → Spec.RepsLe r' 2 (13 / 2) q3 δ U3 → U2 + U3 ≤ 280 →
        Spec.UrInside r' [q1, q2, q3, q4, q5, q6] (16 / 5 + U2 + U3 + 3 * δ) (2 * δ) → ∃ row ∈ sols, Spec.RowNear row [q1, q2, q3, q4, q5, q6] δ) := by
  have u0 := hu0.le
  have m0 : 0 < m := by linarith
  have m1 := UrDecided.le_one hr hT hdec
  have ε0 : 0 ≤ ε := by
    obtain ⟨w, -, h⟩ := hp'
    exact (V3.norm_nonneg _).trans h
  obtain ⟨hδ', ed, ud, δ9⟩ := ur_track_num u0 ε0 (Fl.normErr_290 (F := F)) hL m0 m1 hδ
  have us : Fl.Usable (Normalizer.ofRobot r' none) := by
    constructor
    · intro ls e
      cases e
    · intro lo' up' e j hj
      obtain ⟨e1, e2⟩ := ofRobot_limits_fl e
      rw [hlo] at e1
      rw [hup] at e2
      cases e1
      cases e2
      exact ⟨lo[j], up[j], by simp [llo, hj], by simp [lup, hj]⟩
  have hB : Fl.Bounded _ _ _ := us.bounded hE hI hu (S := 13 / 2) (by norm_num)
  obtain ⟨rows, h, hrow, hcol⟩ := ur_run hF hE hr hl hl6 r' hr' (us.keeps hE hI hu (S := 290) (by norm_num) le_rfl) hB (by norm_num) (by norm_num) (by norm_num) hH'
    T q1 q2 q3 q4 q5 q6 hT T' ε hR' hp' L hL hlen hbig hu0 hu hη m δ hm hmargin hdec hδ' (by linarith)
  refine ⟨rows, h, fun row hmem => ?_, fun q1 q2 q3 q4 q5 q6 U2 U3 h hU2 hU3 hU hins => ?_⟩
  · obtain ⟨_, _, _, _, _, _, h1, h2⟩ := hrow row hmem
    exact ⟨_, h1, h2⟩
  · have qj : ∀ j < 6, [q1, q2, q3, q4, q5, q6][j]? = some ([q1, q2, q3, q4, q5, q6].getD j 0) := by
      intro j hj
      interval_cases j <;> rfl
    have fol := us.stays hE hI hu rfl (q := fun j => [q1, q2, q3, q4, q5, q6].getD j 0) (D := δ) (S := Spec.urRaw (16 / 5 + U2 + U3 + 3 * δ)) (M := 290) (by norm_num) le_rfl
      (Spec.urRaw_le (by linarith)) hδ1 (fun j hj => hins.limOk (by linarith) _ (qj j hj))
    obtain ⟨l2, u2, l2', u2', -⟩ := hins lo up hlo hup 1 q2 rfl
    obtain ⟨l3, u3, l3', u3', -⟩ := hins lo up hlo hup 2 q3 rfl
    obtain ⟨x1, x2, x3, x4, x5, x6, hmem, y1, y2, y3, y4, y5, -, y6⟩ := hcol
      { toFollows := fol
        size0 := by norm_num [Spec.urRaw]
        size1 := by norm_num [Spec.urRaw]
        size2 := by norm_num [Spec.urRaw]
        size5 := by norm_num [Spec.urRaw]
        fourth := by
          rintro x y z ⟨v, hv⟩ lx hy hz
          obtain ⟨a, ha, ha'⟩ := kept_size us hlo hup (by norm_num) l2' u2' hy hU2
          obtain ⟨b, hb, hb'⟩ := kept_size us hlo hup (by norm_num) l3' u3' hz hU3
          have hv' := lx v hv
          have i1 := abs_sub (v - a) b
          have i2 := abs_sub v a
          exact Fl.sz_sub3 x y z hv ha hb (by linarith) (show _ ≤ 16 / 5 + U2 + U3 + 3 * δ by linarith) } h
    exact ⟨_, hmem, .cons y1.1 (.cons y2.1 (.cons y3.1 (.cons y4.1 (.cons y5 (.cons y6.1 .nil)))))⟩

/-- C87 with last joint values.  The last joint values `a` are within `δ0` of the joint vector `q`, which reaches the pose and is inside the joint limits (if any)
by `2 * δ`; its fifth joint, which `ur_invkin` does not move towards the last joint values, is between -3 and 3 (otherwise false, `C67_ur_wrist_false`).  The call does not
raise; every row it returns is within `δ` of a joint vector that reaches the pose; one row is within `δ` of `q`, not only up to whole turns; and the first row is within `δ` of a
joint vector that reaches the pose and is within `4 * (δ + δ0) + 1 / 10000` of `q`.  Missing: larger arms, other limits, and poses near the singularities. -/
theorem C87_ur_tracks_partial (hF : Spec.InvAcc F) (hE : Spec.ExactRnd F) (hI : Spec.IntRounding F) (hr : Spec.UrChain r k P0 P1 P2 P3 P4 P5 P6)
    (hl : P0.norm + P1.norm + P2.norm + P3.norm + P4.norm ≤ 19 / 10) (hl6 : P6.norm + P5.norm ≤ 1)
    (r' : Robot (Fl F)) (hr' : Spec.RobotNear r' r) (hH' : r'.H = r.H.map (V3.map Fl.of))
    (T : Transform ℝ) (q1 q2 q3 q4 q5 q6 : ℝ) (hT : fwdkin r [q1, q2, q3, q4, q5, q6] true = .ok T)
    (T' : Transform (Fl F)) (ε : ℝ) (hR' : Spec.MNear T'.R T.R ε) (hp' : Spec.VNear T'.p T.p ε)
    (L : ℝ) (hL : 1 ≤ L) (hlen : T.p.norm + Spec.auxLength r ≤ L) (hbig : 5 * L ≤ F.big)
    (hu0 : 0 < F.u) (hu : F.u ≤ 1 / 100000000000) (hη : 16 * F.η ≤ F.u ^ 3) (m δ : ℝ) (hm : 1 / 1000000 ≤ m)
    (hmargin : ∀ q1 q2 q3 q4 q5 q6, fwdkin r [q1, q2, q3, q4, q5, q6] true = .ok T → Spec.UrMargin k P2 P3 q3 m)
    (hdec : Spec.UrDecided k P0 P1 P2 P3 P4 (unapplyAux r T).R (Spec.wristCentre r P5 P6 T) m)
    (hδ : 160 / (33554432 * m ^ 3) + (200000 * ε + 800000000 * F.u) * L / m ^ 5 ≤ δ) (hδ1 : δ ≤ 1 / 20)
    (hlim : Spec.UrInside r' [q1, q2, q3, q4, q5, q6] (16 / 5 + |q2 + q3| + 3 * δ) (2 * δ)) (hq5 : |q5| ≤ 3)
    (a : List ℝ) (δ0 : ℝ) (hδ0 : δ0 ≤ 1 / 2) (ha : ∀ t ∈ a, |t| ≤ 110) (hlast : List.Forall₂ (fun x t => |x - t| ≤ δ0) a [q1, q2, q3, q4, q5, q6]) :
    ∃ sols, ur_invkin r' T' (some (a.map Fl.of)) = .ok sols ∧
      (∀ row ∈ sols, ∃ q, fwdkin r q true = .ok T ∧ Spec.RowNear row q δ) ∧
      (∃ row ∈ sols, List.Forall₂ (fun x t => x.Near t δ) row [q1, q2, q3, q4, q5, q6]) ∧
      ∃ row p, sols.head? = some row ∧ fwdkin r p true = .ok T ∧ List.Forall₂ (fun x t => x.Near t δ) row p ∧
        List.Forall₂ (fun s t => |s - t| ≤ 4 * (δ + δ0) + 1 / 10000) p [q1, q2, q3, q4, q5, q6] := by
  have u0 := hu0.le
  have m0 : 0 < m := by linarith
  have m1 := UrDecided.le_one hr hT hdec
  have ε0 : 0 ≤ ε := by
    obtain ⟨w, -, h⟩ := hp'
    exact (V3.norm_nonneg _).trans h
  obtain ⟨hδ', ed, ud, δ9⟩ := ur_track_num u0 ε0 (Fl.normErr_290 (F := F)) hL m0 m1 hδ
  have a6 : a.length = 6 := hlast.length_eq
  have qj : ∀ j < 6, [q1, q2, q3, q4, q5, q6][j]? = some ([q1, q2, q3, q4, q5, q6].getD j 0) := by
    intro j hj
    interval_cases j <;> rfl
  have aj : ∀ j < 6, ∃ t, a[j]? = some t ∧ |t| ≤ 110 ∧ |t - [q1, q2, q3, q4, q5, q6].getD j 0| ≤ δ0 := by
    intro j hj
    have hja : j < a.length := by omega
    refine ⟨a[j], by simp [hja], ha _ (List.getElem_mem _), ?_⟩
    have := List.forall₂_iff_get.1 hlast |>.2 j hja (by simpa using hj)
    have e := qj j hj
    rw [List.getElem?_eq_getElem (by simpa using hj)] at e
    rw [← Option.some.inj e]
    exact this
  have us : Fl.Usable (Normalizer.ofRobot r' (some (a.map Fl.of))) := by
    constructor
    · intro ls e j hj
      cases e
      obtain ⟨t, ht, h1, -⟩ := aj j hj
      exact ⟨t, by rw [List.getElem?_map, ht]; rfl, h1⟩
    · intro lo up e j hj
      obtain ⟨e1, e2⟩ := ofRobot_limits_fl e
      obtain ⟨l, u, a1, a2, -⟩ := hlim lo up e1 e2 j _ (qj j hj)
      exact ⟨_, _, a1, a2⟩
  have qs : ∀ j < 6, |[q1, q2, q3, q4, q5, q6].getD j 0| ≤ 221 / 2 := by
    intro j hj
    obtain ⟨t, -, h1, h2⟩ := aj j hj
    have := abs_sub_abs_le_abs_sub ([q1, q2, q3, q4, q5, q6].getD j 0) t
    rw [abs_sub_comm] at this
    linarith
  have s2 : |q2| ≤ 221 / 2 := qs 1 (by norm_num)
  have s3 : |q3| ≤ 221 / 2 := qs 2 (by norm_num)
  have s23 := abs_add_le q2 q3
  have hB : Fl.Bounded _ _ _ := us.bounded hE hI hu (S := 13 / 2) (by norm_num)
  obtain ⟨rows, h, hrow, hcol⟩ := ur_run hF hE hr hl hl6 r' hr' (us.keeps hE hI hu (S := 290) (by norm_num) le_rfl) hB (by norm_num) (by norm_num) (by norm_num) hH'
    T q1 q2 q3 q4 q5 q6 hT T' ε hR' hp' L hL hlen hbig hu0 hu hη m δ hm hmargin hdec hδ' (by linarith)
  have fol := us.tracks hE hI hu rfl (q := fun j => [q1, q2, q3, q4, q5, q6].getD j 0) (D := δ) (S := Spec.urRaw (16 / 5 + |q2 + q3| + 3 * δ)) (M := 290) (by
      intro j hj
      obtain ⟨t, ht, -, h2⟩ := aj j hj
      exact ⟨t, by rw [List.getElem?_map, ht]; rfl, h2.trans hδ0⟩) (by norm_num) le_rfl (Spec.urRaw_le (by linarith)) hδ1
    (fun j hj => hlim.limOk (by linarith) _ (qj j hj))
  obtain ⟨x1, x2, x3, x4, x5, x6, hmem, y1, y2, y3, y4, ⟨n5, v5, e5, y5⟩, z5, y6⟩ := hcol
    { toFollows := fol
      size0 := by norm_num [Spec.urRaw]
      size1 := by norm_num [Spec.urRaw]
      size2 := by norm_num [Spec.urRaw]
      size5 := by norm_num [Spec.urRaw]
      fourth := by
        rintro x y z ⟨v, hv⟩ lx ⟨a, ha, ha'⟩ ⟨b, hb, hb'⟩
        have hv' := lx v hv
        change |a - q2| ≤ δ at ha'
        change |b - q3| ≤ δ at hb'
        have i1 := abs_sub_abs_le_abs_sub a q2
        have i2 := abs_sub_abs_le_abs_sub b q3
        refine Fl.sz_sub3 x y z hv ha hb (by linarith) (show _ ≤ 16 / 5 + |q2 + q3| + 3 * δ from ?_)
        rw [show v - a - b = v - (q2 + q3) + (-(a - q2) - (b - q3)) by ring]
        have j1 := abs_add_le (v - (q2 + q3)) (-(a - q2) - (b - q3))
        have j2 := abs_sub v (q2 + q3)
        have j3 := abs_sub (-(a - q2)) (b - q3)
        rw [abs_neg] at j3
        linarith } hT
  have y5' : x5.Near q5 δ := by
    refine ⟨v5, e5, ?_⟩
    have := z5 v5 e5
    change |v5 - (q5 + n5 * (2 * Real.pi))| ≤ δ at y5
    have p1 := Real.pi_gt_d2
    have n0 : n5 = 0 := by
      have i1 := abs_sub_abs_le_abs_sub ((n5 : ℝ) * (2 * Real.pi)) (v5 - q5)
      rw [show (n5 : ℝ) * (2 * Real.pi) - (v5 - q5) = -(v5 - (q5 + n5 * (2 * Real.pi))) by ring, abs_neg] at i1
      have i2 := abs_sub v5 q5
      rw [abs_mul, abs_of_pos (by linarith : 0 < 2 * Real.pi)] at i1
      have i3 : |(n5 : ℝ)| < 1 := by nlinarith [abs_nonneg (n5 : ℝ)]
      exact Int.abs_lt_one_iff.1 (by exact_mod_cast i3)
    rw [n0] at y5
    simpa using y5
  have hrow0 : List.Forall₂ (fun x t => x.Near t δ) [x1, x2, x3, x4, x5, x6] [q1, q2, q3, q4, q5, q6] := .cons y1 (.cons y2 (.cons y3 (.cons y4 (.cons y5' (.cons y6 .nil)))))
  have len6 : ∀ row ∈ rows, row.length = 6 := by
    intro row hm
    obtain ⟨_, _, _, _, _, _, -, h2⟩ := hrow row hm
    exact h2.length_eq
  obtain ⟨sols, row, hsort, hperm, hhead, hclose⟩ := Fl.sort_first hu a6 len6 hmem (rowClose_of hrow0 hlast) (by linarith)
  refine ⟨sols, h.trans hsort, fun row hm => ?_, ⟨_, hperm.mem_iff.2 hmem, hrow0⟩, row, ?_⟩
  · obtain ⟨_, _, _, _, _, _, h1, h2⟩ := hrow row (hperm.mem_iff.1 hm)
    exact ⟨_, h1, h2⟩
  · obtain ⟨b1, b2, b3, b4, b5, b6, hb, hnear⟩ := hrow row (hperm.mem_iff.1 (List.mem_of_mem_head? hhead))
    have δ00 : 0 ≤ δ0 := by
      obtain ⟨t, -, -, h⟩ := aj 0 (by norm_num)
      exact (abs_nonneg _).trans h
    obtain ⟨n1, n2, n3, n4, n5, n6, z, hz⟩ := first_near (κ := 4 * (δ + δ0) + 1 / 10000) (by linarith) hnear hclose hlast
    exact ⟨_, hhead, (urChain_turns hr b1 b2 b3 b4 b5 b6 n1 n2 n3 n4 n5 n6).trans hb, z, hz⟩

end

/-- C87: in every floating-point arithmetic, for every robot, pose and last joint values, every joint vector returned by `ur_invkin` has six entries, each but the fifth
strictly inside the limits of the robot (no tolerance); the fifth is never compared with the limits (`C36_ur_limits_false`). -/
theorem C87_ur_in_limits {F : FSys} (robot : Robot (Fl F)) (pose : Transform (Fl F)) (last : Option (List (Fl F))) (sols : List (List (Fl F)))
    (h : ur_invkin robot pose last = .ok sols) (s : List (Fl F)) (hs : s ∈ sols) :
    s.length = 6 ∧ ∀ lo up, robot.lower = some lo → robot.upper = some up → ∀ (j : ℕ) (l u t : Fl F), j ≠ 4 → lo[j]? = some l → up[j]? = some u → s[j]? = some t → l < t ∧ t < u := by
  obtain ⟨-, rows, h1, h⟩ := ur_invkin_ok h
  obtain ⟨q1, q2, q3, q4, q5, q6, rfl, ⟨_, n1⟩, ⟨_, n2⟩, ⟨_, n3⟩, ⟨_, n4⟩, ⟨_, n6⟩⟩ :=
    urSearch_mem h1 ((sortByLast_mem h).mem_iff.1 hs)
  refine ⟨rfl, fun lo up hlo hup j l u t h4 hl hu hj => ?_⟩
  have key : Spec.inLimits robot false j t := by
    match j, hj with
    | 0, hj => cases hj; exact normalize_inLimits Fl.fl_add_comm n1
    | 1, hj => cases hj; exact normalize_inLimits Fl.fl_add_comm n2
    | 2, hj => cases hj; exact normalize_inLimits Fl.fl_add_comm n3
    | 3, hj => cases hj; exact normalize_inLimits Fl.fl_add_comm n4
    | 4, hj => exact absurd rfl h4
    | 5, hj => cases hj; exact normalize_inLimits Fl.fl_add_comm n6
  exact key rfl lo up hlo hup l u hl hu

/-! ## A concrete arm -/

namespace B64Ur

/-- The half-metre arm with joint limits just below a whole turn either way. -/
noncomputable def limited (F : FSys) : Robot (Fl F) :=
  { half' F with
    lower := some (List.replicate 6 (Fl.of (-(201 / 32))))
    upper := some (List.replicate 6 (Fl.of (201 / 32))) }

theorem limited_near (F : FSys) : Spec.RobotNear (limited F) half where
  types := (half_near F).types
  axes := (half_near F).axes
  links := (half_near F).links
  flange := .none
  base := .none
  toolR := .none
  toolp := .none

theorem limited_inside (F : FSys) {S4 : ℝ} (hS : S4 ≤ 25 / 2) : Spec.UrInside (limited F) [0, 0, Real.pi / 2, 0, Real.pi / 2, 0] S4 (2 * (1 / 400)) := by
  rintro _ _ ⟨⟩ ⟨⟩ j t ht
  have p1 := Real.pi_gt_d2
  have p2 := Real.pi_lt_d2
  have hj : j < 6 := by
    by_contra h
    rw [List.getElem?_eq_none (by simpa using not_lt.1 h)] at ht
    cases ht
  have big : ∀ j < 6, max Real.pi (Spec.urRaw S4 j - 2 * Real.pi) + 1 / 100 < 201 / 32 := by
    intro j hj
    have : max Real.pi (Spec.urRaw S4 j - 2 * Real.pi) ≤ 25 / 4 := by
      refine max_le (by linarith) ?_
      interval_cases j <;> simp [Spec.urRaw] <;> linarith
    linarith
  have shape : Spec.LimShape (Spec.urRaw S4 j) t (-(201 / 32)) (201 / 32) (2 * (1 / 400)) := .inr ⟨neg_lt_neg (big j hj), big j hj⟩
  refine ⟨-(201 / 32), 201 / 32, ?_, ?_, ?_, ?_, shape⟩
  · exact List.getElem?_replicate_of_lt hj
  · exact List.getElem?_replicate_of_lt hj
  · interval_cases j <;> cases ht <;> linarith
  · interval_cases j <;> cases ht <;> linarith

theorem limited_get {F : FSys} {j : ℕ} {b l : ℝ} (h : (List.replicate 6 (Fl.of (F := F) b))[j]? = some (Fl.of l)) : l = b := by
  rw [List.getElem?_replicate] at h
  split_ifs at h
  have := congrArg Fl.val (Option.some.inj h)
  exact (XReal.fin.inj this).symm

theorem limited_second (F : FSys) : Spec.RepsLe (limited F) 1 (16 / 5) 0 (1 / 400) (16 / 5 + 1 / 400) := by
  rintro _ _ l u ⟨⟩ ⟨⟩ hl hu n h1 h2 h3
  obtain rfl := limited_get hl
  obtain rfl := limited_get hu
  exact h3 (by norm_num) (by norm_num)

theorem limited_third (F : FSys) : Spec.RepsLe (limited F) 2 (13 / 2) (Real.pi / 2) (1 / 400) (3 * Real.pi / 2) := by
  rintro _ _ l u ⟨⟩ ⟨⟩ hl hu n h1 h2 -
  obtain rfl := limited_get hl
  obtain rfl := limited_get hu
  have p1 := Real.pi_gt_d2
  have p2 := Real.pi_lt_d2
  have n1 : (-2 : ℝ) < n := by nlinarith
  have n2 : (n : ℝ) < 1 := by nlinarith
  have n1' : -2 < n := by exact_mod_cast n1
  have n2' : n < 1 := by exact_mod_cast n2
  interval_cases n
  · push_cast
    rw [abs_le]
    constructor <;> linarith
  · push_cast
    rw [abs_le]
    constructor <;> linarith

/-- C87 for this arm in binary64 with a correctly rounded library, for a pose known up to 1e-12.  Without last joint values the call returns and returns the
joint vector the pose was made from; with last joint values 1/8 from it, it returns it without whole turns, and the first row is near it. -/
example : ∃ T, fwdkin half [0, 0, Real.pi / 2, 0, Real.pi / 2, 0] true = .ok T ∧ ∀ (T' : Transform (Fl (b64 Libm.rounded))),
    Spec.MNear T'.R T.R (1 / 1000000000000) → Spec.VNear T'.p T.p (1 / 1000000000000) →
    (∃ sols, ur_invkin (limited _) T' = .ok sols ∧ ∃ row ∈ sols, Spec.RowNear row [0, 0, Real.pi / 2, 0, Real.pi / 2, 0] (1 / 400)) ∧
    ∃ sols, ur_invkin (limited _) T' (some ([1 / 8, 0, 3 / 2, 0, 3 / 2, -1 / 8].map Fl.of)) = .ok sols ∧
      (∃ row ∈ sols, List.Forall₂ (fun x t => x.Near t (1 / 400)) row [0, 0, Real.pi / 2, 0, Real.pi / 2, 0]) ∧
      ∃ row p, sols.head? = some row ∧ fwdkin half p true = .ok T ∧ List.Forall₂ (fun x t => x.Near t (1 / 400)) row p ∧
        List.Forall₂ (fun s t => |s - t| ≤ 4 * (1 / 400 + 1 / 8) + 1 / 10000) p [0, 0, Real.pi / 2, 0, Real.pi / 2, 0] := by
  have hT := fwdkin_chain6 half_chain.types half_chain.axes half_chain.links 0 0 (Real.pi / 2) 0 (Real.pi / 2) 0
  refine ⟨_, hT, fun T' hR hp => ?_⟩
  have nz : (⟨0, 0, 1 / 2⟩ : V3 ℝ).norm ≤ 1 / 2 := by rw [V3.norm_eq]; exact Real.sqrt_le_iff.2 ⟨by norm_num, by norm_num [V3.dot]⟩
  have ny : (⟨0, 1 / 2, 0⟩ : V3 ℝ).norm ≤ 1 / 2 := by rw [V3.norm_eq]; exact Real.sqrt_le_iff.2 ⟨by norm_num, by norm_num [V3.dot]⟩
  have p1 := Real.pi_gt_d2
  have p2 := Real.pi_lt_d2
  have big : 5 * 2 ≤ (b64 Libm.rounded).big := by have := (b64 Libm.rounded).big_ge; linarith
  have u0 : 0 < (b64 Libm.rounded).u := by rw [b64_u]; positivity
  have u1 : (b64 Libm.rounded).u ≤ 1 / 100000000000 := by rw [b64_u]; norm_num
  have hδ : 160 / (33554432 * (1 / 4 : ℝ) ^ 3) + (200000 * (1 / 1000000000000) + 800000000 * (b64 Libm.rounded).u) * 2 / (1 / 4) ^ 5 ≤ 1 / 400 := by rw [b64_u]; norm_num
  have len : ∀ {T}, fwdkin half [0, 0, Real.pi / 2, 0, Real.pi / 2, 0] true = .ok T → T.p.norm + Spec.auxLength half ≤ 2 := by
    intro T h
    rw [hT] at h
    cases h
    simp only [rot_zero, M3.one_mulVec]
    rw [show Spec.auxLength half = 0 by simp [Spec.auxLength, half], add_zero, V3.norm_eq]
    refine Real.sqrt_le_iff.2 ⟨by norm_num, ?_⟩
    simp [applyAux, half, rot, V3.dot]
    norm_num
  constructor
  · obtain ⟨sols, h, -, hall⟩ := C87_ur_limits_partial invAcc_rounded (b64_exactRnd _) (intRounding_b64 _) half_chain (by rw [V3.norm_zero]; linarith) (by rw [V3.norm_zero]; norm_num) _
      (limited_near _) _ _ rfl rfl rfl rfl rfl _ 0 0 (Real.pi / 2) 0 (Real.pi / 2) 0 hT T' _ hR hp 2 (by norm_num) (len hT) big u0 u1 (b64_eta _) (1 / 4) (1 / 400) (by norm_num)
      (half_margins hT) (half_decided hT) hδ (by norm_num)
    exact ⟨sols, h, hall _ _ _ _ _ _ _ _ hT (limited_second _) (limited_third _) (by linarith) (limited_inside _ (by linarith))⟩
  · obtain ⟨sols, h, -, h1, h2⟩ := C87_ur_tracks_partial invAcc_rounded (b64_exactRnd _) (intRounding_b64 _) half_chain (by rw [V3.norm_zero]; linarith) (by rw [V3.norm_zero]; norm_num) _
      (limited_near _) rfl _ 0 0 (Real.pi / 2) 0 (Real.pi / 2) 0 hT T' _ hR hp 2 (by norm_num) (len hT) big u0 u1 (b64_eta _) (1 / 4) (1 / 400) (by norm_num)
      (half_margins hT) (half_decided hT) hδ (by norm_num) (limited_inside _ (by rw [zero_add, abs_of_pos (by linarith)]; linarith)) (abs_le.2 ⟨by linarith, by linarith⟩)
      [1 / 8, 0, 3 / 2, 0, 3 / 2, -1 / 8] (1 / 8) (by norm_num)
      (by
        intro t ht
        simp only [List.mem_cons, List.not_mem_nil, or_false] at ht
        rcases ht with rfl | rfl | rfl | rfl | rfl | rfl <;> norm_num [abs_le])
      (by
        have e : |3 / 2 - Real.pi / 2| ≤ 1 / 8 := abs_le.2 ⟨by linarith, by linarith⟩
        have z : |(0 : ℝ) - 0| ≤ 1 / 8 := by norm_num
        exact .cons (abs_le.2 ⟨by norm_num, by norm_num⟩) (.cons z (.cons e (.cons z (.cons e (.cons (abs_le.2 ⟨by norm_num, by norm_num⟩) .nil))))))
    exact ⟨sols, h, h1, h2⟩

end B64Ur
