import Verif.Lemmas.FlAux
import Verif.B64
import Verif.Props.Kinematics

/-! # Property C62: forward kinematics in floating-point arithmetic -/
set_option autoImplicit false

/-- The computed pose is near the exact one, which is a rigid motion within the reach of the robot. -/
theorem Fl.fwdkin_near {F : FSys} (robot : Robot ℝ) (robot' : Robot (Fl F)) (θ : List ℝ) (θ' : List (Fl F))
    (hrobot : Spec.RobotNear robot' robot) (hθ : Spec.AnglesNear robot.jointType θ' θ) (T : Transform ℝ) (hT : fwdkin robot θ true = .ok T)
    (L : ℝ) (h0 : 0 < L) (hL : Spec.reach robot θ ≤ L) (hη : F.η ≤ F.u * L) (hbig : 5 * L ≤ F.big)
    (hn : 5408 * (robot.jointType.length + 3) * F.u ≤ 1) :
    ∃ T', fwdkin robot' θ' true = .ok T' ∧ Spec.MNear T'.R T.R (256 * (robot.jointType.length + 3) * F.u) ∧
      Spec.VNear T'.p T.p (338 * (robot.jointType.length + 3) * F.u * L) ∧ IsRot T.R ∧ T.p.norm ≤ L := by
  obtain ⟨ht, hH, hP, hF, hB, hRt, hpt⟩ := hrobot
  set n : ℝ := (robot.jointType.length : ℝ) with hnn
  have n0 : 0 ≤ n := Nat.cast_nonneg _
  have hu := F.u_nonneg
  have nu : 0 ≤ n * F.u := by positivity
  simp only [fwdkin, checkLimits, if_true, Except.bind_ok] at hT ⊢
  simp only [Spec.reach] at hL
  generalize robot.P = Ps at hT hL hP
  generalize robot'.P = Ps' at hP ⊢
  obtain _ | ⟨P0, Ps⟩ := Ps
  · cases hT
  obtain _ | ⟨hP0, hP⟩ := hP
  rename_i P0' Ps'
  obtain ⟨⟨Rn, pn⟩, hloop, hT⟩ := Except.bind_eq_ok hT
  cases hT
  simp only [List.head?_cons, Option.map_some, Option.getD_some, List.tail_cons] at hL
  have nF : 0 ≤ (robot.Tflange.map (·.p.norm)).getD 0 := by cases robot.Tflange <;> simp [V3.norm_nonneg]
  have nX : 0 ≤ (robot.ptool.map V3.norm).getD 0 := by cases robot.ptool <;> simp [V3.norm_nonneg]
  have nB : 0 ≤ (robot.Tbase.map (·.p.norm)).getD 0 := by cases robot.Tbase <;> simp [V3.norm_nonneg]
  have nP := P0.norm_nonneg
  have nt := Fl.travel_nonneg robot.jointType Ps θ
  set ℓ := Spec.travel robot.jointType Ps θ with hℓ
  have one : Spec.MNear (1 : M3 (Fl F)) 1 0 := ⟨1, rfl, by intro v; simp [V3.norm_zero]⟩
  have uP : F.u * P0.norm ≤ F.u * L := mul_le_mul_of_nonneg_left (by linarith) hu
  have uL : 0 ≤ F.u * L := by positivity
  have lb := Fl.Inv.bounds (F := F) (k := n) (ℓ := ℓ) h0 n0 (by linarith) (by linarith)
  have nuℓ : 0 ≤ n * F.u * ℓ := by positivity
  have nuL : 0 ≤ n * (F.u * L) := by positivity
  have uℓ : 0 ≤ F.u * ℓ := by positivity
  obtain ⟨Rn', pn', k1, k2, k3, k4, k5⟩ := Fl.fwdLoop_near (F := F) h0 hη hbig robot.jointType robot.H Ps θ _ _ _ 1 P0 1 P0' 0 (F.u * P0.norm) Rn pn
    hloop hH hP hθ one hP0 IsRot.one (by rw [zero_add]; linarith) (by linarith) (by
      rw [zero_add, ← hℓ, ← hnn]
      nlinarith [lb.2])
  rw [← hnn, ← hℓ, zero_add] at k3
  rw [← hnn, zero_add] at k2
  rw [← hℓ] at k5
  dsimp only
  rw [ht, k1]
  refine ⟨_, rfl, ?_⟩
  -- the invariant through the three auxiliary transforms
  have i0 : Fl.Inv L (⟨Rn', pn', none, none⟩ : Transform (Fl F)) ⟨Rn, pn, none, none⟩ n (P0.norm + ℓ) :=
    ⟨k4, k5, k2, Fl.VNear.mono k3 (by nlinarith)⟩
  have final : ∃ ℓ', ℓ' ≤ L ∧ Fl.Inv L (applyAux robot' ⟨Rn', pn', none, none⟩) (applyAux robot ⟨Rn, pn, none, none⟩) (n + 3) ℓ' := by
    have i1 := Fl.Inv.right h0 hη hbig i0 hF n0 (by linarith) (by linarith)
    have i2 := Fl.Inv.tool h0 hη hbig i1 hRt hpt (by linarith) (by linarith) (by linarith)
    have i3 := Fl.Inv.left h0 hη hbig i2 hB (by linarith) (by linarith) (by linarith)
    rw [applyAux_eq, applyAux_eq]
    exact ⟨_, by linarith, i3.mono (k' := n + 3) h0 (by linarith) (by linarith)⟩
  obtain ⟨ℓ', hℓ', hi⟩ := final
  refine ⟨hi.nearR, Fl.VNear.mono hi.nearp ?_, hi.rot, hi.len.trans hℓ'⟩
  have : (n + 3) * F.u * ℓ' ≤ (n + 3) * F.u * L := mul_le_mul_of_nonneg_left hℓ' (by positivity)
  nlinarith

/-- C62: the pose computed by `fwdkin` in floating-point arithmetic, on a robot whose data are stored with rounding errors, is finite
and within a few hundred units of rounding per joint of the exact pose of the exact robot: the orientation moves every vector to within
`256 (n+3) u` of its length from where it should be, and the position is within `338 (n+3) u` of the robot's reach.
For chains of any length `n` with `5408 (n+3) u ≤ 1`, any joint types, any rounding mode; overflow cannot happen. -/
theorem C62_fwdkin_rounding {F : FSys} (robot : Robot ℝ) (robot' : Robot (Fl F)) (θ : List ℝ) (θ' : List (Fl F))
    (hrobot : Spec.RobotNear robot' robot) (hθ : Spec.AnglesNear robot.jointType θ' θ) (T : Transform ℝ) (hT : fwdkin robot θ true = .ok T)
    (L : ℝ) (h0 : 0 < L) (hL : Spec.reach robot θ ≤ L) (hη : F.η ≤ F.u * L) (hbig : 5 * L ≤ F.big)
    (hn : 5408 * (robot.jointType.length + 3) * F.u ≤ 1) :
    ∃ T', fwdkin robot' θ' true = .ok T' ∧ Spec.MNear T'.R T.R (256 * (robot.jointType.length + 3) * F.u) ∧
      Spec.VNear T'.p T.p (338 * (robot.jointType.length + 3) * F.u * L) := by
  obtain ⟨T', h1, h2, h3, -, -⟩ := Fl.fwdkin_near robot robot' θ θ' hrobot hθ T hT L h0 hL hη hbig hn
  exact ⟨T', h1, h2, h3⟩

/-- C62: the computed orientation is a rotation up to rounding: it changes lengths by at most the same factor, however long the chain. -/
theorem C62_orthogonality {F : FSys} (A : M3 (Fl F)) (R : M3 ℝ) (hR : IsRot R) (e : ℝ) (h : Spec.MNear A R e) :
    ∃ C : M3 ℝ, A = C.map Fl.of ∧ ∀ v, |(C.mulVec v).norm - v.norm| ≤ e * v.norm := by
  obtain ⟨C, hC, h⟩ := h
  refine ⟨C, hC, fun v => ?_⟩
  have h1 := h v
  have h2 := V3.norm_add_le (C.mulVec v - R.mulVec v) (R.mulVec v)
  have h3 := V3.norm_sub_le (C.mulVec v) (C.mulVec v - R.mulVec v)
  rw [show C.mulVec v - R.mulVec v + R.mulVec v = C.mulVec v by ext <;> simp] at h2
  rw [show C.mulVec v - (C.mulVec v - R.mulVec v) = R.mulVec v by ext <;> simp] at h3
  rw [hR.norm_mulVec] at h2 h3
  rw [abs_le]
  constructor <;> linarith

/-- Non-vacuity of C62, in binary64 with any accurate sine and cosine: a revolute and a prismatic joint with a base transform, where the
prismatic axis (0, 3/5, 4/5) is stored with an error. -/
example (lib : Libm) : ∃ T T', fwdkin ({
          H := [⟨0, 0, 1⟩, ⟨0, 3/5, 4/5⟩]
          P := [⟨1, 0, 0⟩, ⟨0, 1, 0⟩, ⟨0, 0, 1⟩]
          jointType := [0, 1]
          Tbase := some ⟨⟨0, -1, 0, 1, 0, 0, 0, 0, 1⟩, ⟨1, 0, 0⟩, none, none⟩ } : Robot ℝ) [1, 2] true = .ok T ∧
    fwdkin ({
          H := [⟨.of 0, .of 0, .of 1⟩, ⟨.of 0, .of (3/5 + 2⁻¹ ^ 60), .of (4/5)⟩]
          P := [⟨.of 1, .of 0, .of 0⟩, ⟨.of 0, .of 1, .of 0⟩, ⟨.of 0, .of 0, .of 1⟩]
          jointType := [0, 1]
          Tbase := some ⟨⟨.of 0, .of (-1), .of 0, .of 1, .of 0, .of 0, .of 0, .of 0, .of 1⟩, ⟨.of 1, .of 0, .of 0⟩, none, none⟩ } :
          Robot (Fl (b64 lib))) [.of 1, .of 2] true = .ok T' ∧ Spec.VNear T'.p T.p (16900 * 2⁻¹ ^ 50) := by
  have exact : ∀ (v : V3 ℝ) (e : ℝ), 0 ≤ e → Spec.VNear (F := b64 lib) (v.map Fl.of) v e := fun v e he =>
    ⟨v, rfl, by rw [show v - v = 0 by ext <;> simp, V3.norm_zero]; exact he⟩
  have hu : (b64 lib).u = 2⁻¹ ^ 50 := rfl
  have u0 := (b64 lib).u_nonneg
  have nx : (⟨1, 0, 0⟩ : V3 ℝ).norm = 1 := V3.norm_ex
  have ny : (⟨0, 1, 0⟩ : V3 ℝ).norm = 1 := V3.norm_ey
  have nz : (⟨0, 0, 1⟩ : V3 ℝ).norm = 1 := V3.norm_ez
  set robot : Robot ℝ := {
          H := [⟨0, 0, 1⟩, ⟨0, 3/5, 4/5⟩]
          P := [⟨1, 0, 0⟩, ⟨0, 1, 0⟩, ⟨0, 0, 1⟩]
          jointType := [0, 1]
          Tbase := some ⟨⟨0, -1, 0, 1, 0, 0, 0, 0, 1⟩, ⟨1, 0, 0⟩, none, none⟩ } with hr
  obtain ⟨T, hT⟩ := fwdkin_ok (robot := robot) ⟨rfl, rfl⟩ (θ := [1, 2]) rfl
  refine ⟨T, ?_⟩
  have main := C62_fwdkin_rounding robot {
          H := [⟨.of 0, .of 0, .of 1⟩, ⟨.of 0, .of (3/5 + 2⁻¹ ^ 60), .of (4/5)⟩]
          P := [⟨.of 1, .of 0, .of 0⟩, ⟨.of 0, .of 1, .of 0⟩, ⟨.of 0, .of 0, .of 1⟩]
          jointType := [0, 1]
          Tbase := some ⟨⟨.of 0, .of (-1), .of 0, .of 1, .of 0, .of 0, .of 0, .of 0, .of 1⟩, ⟨.of 1, .of 0, .of 0⟩, none, none⟩ }
    [1, 2] [Fl.of 1, Fl.of 2] (F := b64 lib) ?_ ?_ T hT 10 (by norm_num) ?_ ?_ ?_ ?_
  · obtain ⟨T', h1, -, h3⟩ := main
    refine ⟨T', hT, h1, Fl.VNear.mono h3 ?_⟩
    rw [hu, hr]
    norm_num
  · refine ⟨rfl, ?_, ?_, .none, ?_, .none, .none⟩
    · refine .cons ⟨by norm_num [IsUnit3], exact ⟨0, 0, 1⟩ _ u0⟩ (.cons ⟨by norm_num [IsUnit3], ⟨⟨0, 3/5 + 2⁻¹ ^ 60, 4/5⟩, rfl, ?_⟩⟩ .nil)
      rw [hu]
      refine (V3.norm_le_of_entries (d := 2⁻¹ ^ 60) ?_ ?_ ?_).trans ?_ <;> norm_num
    · exact .cons (exact ⟨1, 0, 0⟩ _ (by rw [nx]; linarith)) (.cons (exact ⟨0, 1, 0⟩ _ (by rw [ny]; linarith))
        (.cons (exact ⟨0, 0, 1⟩ _ (by rw [nz]; linarith)) .nil))
    · refine .some ⟨⟨by ext <;> simp, by norm_num [M3.det]⟩, ⟨⟨0, -1, 0, 1, 0, 0, 0, 0, 1⟩, rfl, fun v => ?_⟩, exact ⟨1, 0, 0⟩ _ ?_⟩
      · rw [show ∀ w : V3 ℝ, w - w = 0 by intro w; ext <;> simp, V3.norm_zero]
        exact mul_nonneg u0 v.norm_nonneg
      · change 0 ≤ (b64 lib).u * (⟨1, 0, 0⟩ : V3 ℝ).norm
        rw [nx]; linarith
  · refine ⟨?_, ?_, trivial⟩
    · rw [if_neg (by norm_num)]
      exact (Fl.near_of 1).mono u0
    · rw [if_pos (by norm_num)]
      exact (Fl.near_of 2).mono (mul_nonneg u0 (abs_nonneg _))
  · simp [Spec.reach, Spec.travel, hr, nx, ny, nz]
    norm_num
  · rw [hu]
    change (2⁻¹ : ℝ) ^ 1075 ≤ _
    calc (2⁻¹ : ℝ) ^ 1075 ≤ 2⁻¹ ^ 50 := pow_le_pow_of_le_one (by norm_num) (by norm_num) (by norm_num)
      _ ≤ _ := by norm_num
  · have := (b64 lib).big_ge
    linarith
  · rw [hu, hr]
    norm_num
