import Verif.Lemmas.FlJac
import Verif.B64
import Verif.Props.Kinematics

/-! # Property C68: the Jacobian in floating-point arithmetic -/
set_option autoImplicit false

/-- C68: the Jacobian computed by `robotjacobian` in floating-point arithmetic, on a robot whose data are stored with rounding errors, has the
right number of columns, is finite, and every column is close to the exact one: the rotation part within `256 (n+3) u`, the translation
part within `1600 (n+3) u` for a column that drives and within `1600 (n+3) u` of the reach for a column that turns.
For chains of any length `n` with `32768 (n+3) u ≤ 1`, any joint types, mobile bases included. -/
theorem C68_jacobian_rounding {F : FSys} (robot : Robot ℝ) (robot' : Robot (Fl F)) (θ : List ℝ) (θ' : List (Fl F))
    (hrobot : Spec.RobotNear robot' robot) (hθ : Spec.AnglesNear robot.jointType θ' θ) (hgroups : Spec.GroupsTurn robot.jointType)
    (J : List (V6 ℝ)) (hJ : robotjacobian robot θ true = .ok J)
    (L : ℝ) (h0 : 0 < L) (hL : Spec.reach robot θ ≤ L) (hη : F.η ≤ F.u * L) (hbig : 10 * L ≤ F.big)
    (hn : 32768 * (robot.jointType.length + 3) * F.u ≤ 1) :
    ∃ J', robotjacobian robot' θ' true = .ok J' ∧ J'.length = J.length ∧
      List.Forall₂ (fun turns c => Spec.VNear c.1.top c.2.top (256 * (robot.jointType.length + 3) * F.u) ∧
          Spec.VNear c.1.bot c.2.bot (1600 * (robot.jointType.length + 3) * F.u * if turns then L else 1))
        (Spec.columnTurns robot.jointType) (J'.zip J) := by
  obtain ⟨ht, hH, hP, hF, hB, hRt, hpt⟩ := hrobot
  set n : ℝ := (robot.jointType.length : ℝ) with hnn
  have n0 : 0 ≤ n := Nat.cast_nonneg _
  have hu := F.u_nonneg
  have hu' := F.u_le
  have nu : 0 ≤ n * F.u := by positivity
  simp only [Spec.reach] at hL
  obtain ⟨P0, Ps, hPs⟩ : ∃ P0 Ps, robot.P = P0 :: Ps := by
    cases h : robot.P with
    | nil => simp [robotjacobian, checkLimits, h] at hJ
    | cons P0 Ps => exact ⟨_, _, rfl⟩
  rw [hPs] at hP hL
  obtain ⟨P0', Ps', hPs'⟩ : ∃ P0 Ps, robot'.P = P0 :: Ps := by
    generalize robot'.P = Q at hP
    cases hP
    exact ⟨_, _, rfl⟩
  rw [hPs'] at hP
  obtain _ | ⟨hP0, hP⟩ := hP
  rw [robotjacobian_steps robot θ P0 Ps hPs] at hJ
  rw [robotjacobian_steps robot' θ' P0' Ps' hPs']
  obtain ⟨⟨fs, Rn, pn⟩, hloop, hJ⟩ := Except.bind_eq_ok hJ
  obtain ⟨J0, hcols, hJ⟩ := Except.bind_eq_ok hJ
  cases hJ
  simp only [List.head?_cons, Option.map_some, Option.getD_some, List.tail_cons] at hL
  have nF : 0 ≤ (robot.Tflange.map (·.p.norm)).getD 0 := by cases robot.Tflange <;> simp [V3.norm_nonneg]
  have nX : 0 ≤ (robot.ptool.map V3.norm).getD 0 := by cases robot.ptool <;> simp [V3.norm_nonneg]
  have nB : 0 ≤ (robot.Tbase.map (·.p.norm)).getD 0 := by cases robot.Tbase <;> simp [V3.norm_nonneg]
  have nP := P0.norm_nonneg
  have nt := Fl.travel_nonneg robot.jointType Ps θ
  set ℓ := Spec.travel robot.jointType Ps θ with hℓ
  have one : Spec.MNear (1 : M3 (Fl F)) 1 0 := ⟨1, rfl, by intro v; simp [V3.norm_zero]⟩
  have uP : F.u * P0.norm ≤ F.u * L := mul_le_mul_of_nonneg_left (by linarith) hu
  have uL : 0 ≤ F.u * L := by positivity
  have nuL : 0 ≤ n * (F.u * L) := by positivity
  have nuℓ : n * F.u * ℓ ≤ n * F.u * L := mul_le_mul_of_nonneg_left (by linarith) nu
  have nL : 32768 * (n + 3) * F.u * L ≤ 1 * L := mul_le_mul_of_nonneg_right hn h0.le
  obtain ⟨fs', Rn', pn', k1, kf, kt, k2, k3, k4, k5⟩ := Fl.jacLoop_near (F := F) h0 hη (by linarith) robot.jointType robot.H Ps θ _ _ _ 1 P0 1 P0' 0 (F.u * P0.norm) fs Rn pn
    hloop hH hP hθ one hP0 IsRot.one (by rw [zero_add]; linarith) (by linarith) (by
      rw [zero_add, ← hℓ, ← hnn]
      nlinarith)
  rw [← hnn, ← hℓ, zero_add] at k3 kf
  rw [← hnn, zero_add] at k2
  rw [← hℓ] at k5
  have kf' : List.Forall₂ (Fl.FrameNear L (256 * n * F.u + 32 * F.u) (338 * (n + 3) * (F.u * L))) fs' fs := kf.imp fun g' g hg => hg.mono le_rfl (by nlinarith)
  clear kf
  obtain ⟨p1, p2⟩ := Fl.toolP_near hF hpt k4 k2 k5 k3 h0 n0 nP nt (by linarith) hη hbig hn
  rw [ht, k1, Except.bind_ok]
  obtain ⟨J', j1, j2, j3⟩ := Fl.jacCols_near h0 hη hbig (by linarith) (by nlinarith) p1 p2 fs.length fs' fs J0 le_rfl kf' (by rw [kt]; exact hgroups) hcols
  rw [kt] at j3
  dsimp only
  rw [j1, Except.bind_ok]
  have big := F.big_ge
  have eta := F.η_le
  have d2 : 2 * (256 * n * F.u + 32 * F.u) * L + 17 / 8 * (338 * (n + 3) * (F.u * L)) + 71 * (F.u * L) ≤ 1300 * (n + 3) * F.u * L := by nlinarith
  have d3 : 99 / 16 * (256 * n * F.u + 32 * F.u) + 256 * F.u ≤ 1590 * n * F.u + 460 * F.u := by nlinarith
  exact ⟨_, rfl, Fl.baseJ_near hB j2 j3 d2 d3 h0 n0 hη hbig hn⟩

/-- For a chain of revolute and prismatic joints there are no mobile bases, and the columns belong to the joints. -/
theorem Spec.columnTurns_serial (ts : List Nat) (h : ∀ t ∈ ts, t ≠ 3) : Spec.columnTurns ts = ts.map (· == 0) ∧ Spec.GroupsTurn ts := by
  induction ts with
  | nil => exact ⟨rfl, trivial⟩
  | cons t ts ih =>
    obtain ⟨h1, h2⟩ := ih fun s hs => h s (by simp [hs])
    have h3 : t ≠ 3 := h t (by simp)
    constructor
    · rw [Spec.columnTurns.eq_def]
      split
      · rename_i e; simp only [List.cons.injEq] at e; exact absurd e.1 h3
      · rename_i e; simp only [List.cons.injEq] at e; rw [← e.1, ← e.2, h1]; rfl
      · rename_i e; cases e
    · rw [Spec.GroupsTurn.eq_def]
      split
      · rename_i e; simp only [List.cons.injEq] at e; exact absurd e.1 h3
      · rename_i e; simp only [List.cons.injEq] at e; rw [← e.2]; exact h2
      · trivial

/-- Non-vacuity of C68, in binary64 with any accurate sine and cosine: a mobile base carrying a revolute joint, the link of which is
stored with an error; three columns, the driving column within `2 ^ -36` of the exact one. -/
example (lib : Libm) : ∃ J J', robotjacobian ({
          H := [⟨1, 0, 0⟩, ⟨0, 1, 0⟩, ⟨0, 0, 1⟩, ⟨0, 1, 0⟩]
          P := [0, 0, 0, 0, ⟨0, 0, 3/5⟩]
          jointType := [3, 3, 2, 0] } : Robot ℝ) [1, 2, 1, 1] true = .ok J ∧
    robotjacobian ({
          H := [⟨.of 1, .of 0, .of 0⟩, ⟨.of 0, .of 1, .of 0⟩, ⟨.of 0, .of 0, .of 1⟩, ⟨.of 0, .of 1, .of 0⟩]
          P := [0, 0, 0, 0, ⟨.of 0, .of 0, .of (3/5 + 2⁻¹ ^ 60)⟩]
          jointType := [3, 3, 2, 0] } : Robot (Fl (b64 lib))) [.of 1, .of 2, .of 1, .of 1] true = .ok J' ∧ J'.length = 3 ∧ J.length = 3 ∧
    ∃ c c', J[0]? = some c ∧ J'[0]? = some c' ∧ Spec.VNear c'.bot c.bot (2⁻¹ ^ 36) := by
  have exact : ∀ (v : V3 ℝ) (e : ℝ), 0 ≤ e → Spec.VNear (F := b64 lib) (v.map Fl.of) v e := fun v e he =>
    ⟨v, rfl, by rw [show v - v = 0 by ext <;> simp, V3.norm_zero]; exact he⟩
  have hu : (b64 lib).u = 2⁻¹ ^ 50 := rfl
  have u0 := (b64 lib).u_nonneg
  have n0 : (0 : V3 ℝ).norm = 0 := V3.norm_zero
  have nz : (⟨0, 0, 3/5⟩ : V3 ℝ).norm = 3/5 := by
    rw [V3.norm_eq, show (⟨0, 0, 3/5⟩ : V3 ℝ).dot ⟨0, 0, 3/5⟩ = (3/5) ^ 2 by simp [V3.dot]; norm_num]
    exact Real.sqrt_sq (by norm_num)
  have zero : Spec.VNear (F := b64 lib) 0 0 ((b64 lib).u * (0 : V3 ℝ).norm) := by
    rw [n0, mul_zero]
    exact exact 0 0 le_rfl
  set robot : Robot ℝ := {
          H := [⟨1, 0, 0⟩, ⟨0, 1, 0⟩, ⟨0, 0, 1⟩, ⟨0, 1, 0⟩]
          P := [0, 0, 0, 0, ⟨0, 0, 3/5⟩]
          jointType := [3, 3, 2, 0] } with hr
  obtain ⟨J, hJ, hlen⟩ : ∃ J, robotjacobian robot [1, 2, 1, 1] true = .ok J ∧ J.length = 3 := ⟨_, rfl, rfl⟩
  have main := C68_jacobian_rounding robot {
          H := [⟨.of 1, .of 0, .of 0⟩, ⟨.of 0, .of 1, .of 0⟩, ⟨.of 0, .of 0, .of 1⟩, ⟨.of 0, .of 1, .of 0⟩]
          P := [0, 0, 0, 0, ⟨.of 0, .of 0, .of (3/5 + 2⁻¹ ^ 60)⟩]
          jointType := [3, 3, 2, 0] }
    [1, 2, 1, 1] [Fl.of 1, Fl.of 2, Fl.of 1, Fl.of 1] (F := b64 lib) ?_ ?_ ⟨by decide, trivial⟩ J hJ 10 (by norm_num) ?_ ?_ ?_ ?_
  · obtain ⟨J', h1, h2, h3⟩ := main
    refine ⟨J, J', hJ, h1, h2.trans hlen, hlen, ?_⟩
    rw [hlen] at h2
    obtain _ | ⟨c, J⟩ := J
    · cases hlen
    obtain _ | ⟨c', J'⟩ := J'
    · cases h2
    obtain _ | ⟨⟨-, hc⟩, -⟩ := h3
    refine ⟨c, c', rfl, rfl, Fl.VNear.mono hc ?_⟩
    rw [hu, hr]
    norm_num
  · refine ⟨rfl, ?_, ?_, .none, .none, .none, .none⟩
    · exact .cons ⟨by norm_num [IsUnit3], exact ⟨1, 0, 0⟩ _ u0⟩ (.cons ⟨by norm_num [IsUnit3], exact ⟨0, 1, 0⟩ _ u0⟩
        (.cons ⟨by norm_num [IsUnit3], exact ⟨0, 0, 1⟩ _ u0⟩ (.cons ⟨by norm_num [IsUnit3], exact ⟨0, 1, 0⟩ _ u0⟩ .nil)))
    · refine .cons zero (.cons zero (.cons zero (.cons zero (.cons ⟨⟨0, 0, 3/5 + 2⁻¹ ^ 60⟩, rfl, ?_⟩ .nil))))
      rw [hu, nz]
      refine (V3.norm_le_of_entries (d := 2⁻¹ ^ 60) ?_ ?_ ?_).trans ?_ <;> norm_num
  · refine ⟨?_, ?_, ?_, ?_, trivial⟩
    · rw [if_pos (by norm_num)]
      exact (Fl.near_of 1).mono (mul_nonneg u0 (abs_nonneg _))
    · rw [if_pos (by norm_num)]
      exact (Fl.near_of 2).mono (mul_nonneg u0 (abs_nonneg _))
    · rw [if_neg (by norm_num)]
      exact (Fl.near_of 1).mono u0
    · rw [if_neg (by norm_num)]
      exact (Fl.near_of 1).mono u0
  · simp [Spec.reach, Spec.travel, hr, n0, nz]
    norm_num
  · rw [hu]
    change (2⁻¹ : ℝ) ^ 1075 ≤ _
    calc (2⁻¹ : ℝ) ^ 1075 ≤ 2⁻¹ ^ 50 := pow_le_pow_of_le_one (by norm_num) (by norm_num) (by norm_num)
      _ ≤ _ := by norm_num
  · have := (b64 lib).big_ge
    linarith
  · rw [hu, hr]
    norm_num
