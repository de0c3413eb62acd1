import Verif.Lemmas.FlUrdf
import Verif.B64
import Verif.Props.UrdfWell
import Verif.Props.RoundingSubE

/-! # Property C104: loading and moving a URDF robot in floating-point arithmetic -/
set_option autoImplicit false

/-- displacements of the sliding joints -/
noncomputable def slideLen : List Nat → List ℝ → ℝ
  | t :: ts, x :: xs => (if t = 1 ∨ t = 3 then |x| else 0) + slideLen ts xs
  | _, _ => 0

theorem norms_nonneg (l : List (V3 ℝ)) : 0 ≤ (l.map V3.norm).sum := by
  apply List.sum_nonneg
  simp only [List.mem_map]
  rintro _ ⟨v, -, rfl⟩
  exact v.norm_nonneg

theorem slideLen_nonneg : ∀ (ts : List Nat) (xs : List ℝ), 0 ≤ slideLen ts xs
  | [], _ => by simp [slideLen]
  | _ :: _, [] => by simp [slideLen]
  | t :: ts, x :: xs => by
    have := slideLen_nonneg ts xs
    simp only [slideLen]
    split_ifs <;> positivity

theorem travel_le : ∀ (ts : List Nat) (Ps : List (V3 ℝ)) (xs : List ℝ), Spec.travel ts Ps xs ≤ (Ps.map V3.norm).sum + slideLen ts xs
  | [], Ps, _ => by have := norms_nonneg Ps; simpa [Spec.travel, slideLen] using this
  | t :: ts, [], xs => by have := slideLen_nonneg (t :: ts) xs; simpa [Spec.travel] using this
  | _ :: _, P :: Ps, [] => by have := norms_nonneg (P :: Ps); simpa [Spec.travel, slideLen] using this
  | t :: ts, P :: Ps, x :: xs => by
    have := travel_le ts Ps xs
    simp only [Spec.travel, slideLen, List.map_cons, List.sum_cons]
    linarith

theorem slideLen_reach (js : List (UJoint ℝ)) (θs : List ℝ) :
    (js.map fun j => Spec.originLen j.origin).sum + slideLen ((Spec.moving js).map typeNo) θs = Spec.urdfReach js θs := by
  induction js generalizing θs with
  | nil => simp [Spec.moving, slideLen, Spec.urdfReach]
  | cons j js ih =>
    unfold Spec.urdfReach
    by_cases hf : j.jointType = "fixed"
    · rw [if_pos hf, ← ih, show Spec.moving (j :: js) = Spec.moving js by simp [Spec.moving, hf], List.map_cons, List.sum_cons]
      ring
    · rw [if_neg hf, show Spec.moving (j :: js) = j :: Spec.moving js by simp [Spec.moving, hf], List.map_cons, List.map_cons, List.sum_cons]
      rcases θs with _ | ⟨θ, θs⟩
      · rw [← ih]
        have : ∀ l, slideLen l [] = 0 := by intro l; cases l <;> rfl
        rw [this, this]; simp
      · simp only [slideLen]
        rw [← ih]
        by_cases hr : j.jointType = "revolute"
        · simp [typeNo, hr]; ring
        · simp [typeNo, hr]; ring

/-- C104: a URDF file whose numbers are read with errors up to `ε` (lengths relative, angles and axes absolute) and whose robot is assembled
in floating-point arithmetic loads whenever the exact file loads, with the same joints, types and links; and moving that robot in
floating-point arithmetic gives the pose that the exact file describes, up to `250000 N (n+1) ε` in orientation and
`325000 N (n+1) ε` times the reach in position, for `N` joints of which `n` move.  Every chain length, any fixed joints in between, any
rounding mode. -/
theorem C104_urdf_rounding {F : FSys} (ε : ℝ) (hε : F.u ≤ ε) (hη3 : 16 * F.η ≤ F.u ^ 3) (fuel : Nat) (u : Urdf ℝ) (u' : Urdf (Fl F))
    (hnear : Spec.UrdfNear ε u' u) (hn : (u.joints.map UJoint.name).Nodup) (root tip : Option String) (r : Robot ℝ)
    (h : urdfLoad fuel u root tip = .ok r) :
    ∃ rt t js, r.rootLink = some rt ∧ r.tipLink = some t ∧ Spec.Chain u rt js t ∧
      ((∀ j ∈ js, ∀ a, j.axis = some a → IsUnit3 a) → 1000000000 * js.length * ((Spec.moving js).length + 1) * ε ≤ 1 →
        ∀ L, 0 < L → F.η ≤ F.u * L → 5 * L ≤ F.big → Spec.urdfReach js [] ≤ L →
        ∃ r', urdfLoad fuel u' root tip = .ok r' ∧ r'.jointType = r.jointType ∧ r'.jointNames = r.jointNames ∧ r'.rootLink = some rt ∧
          r'.tipLink = some t ∧
          ∀ (θs : List ℝ) (θs' : List (Fl F)), θs.length = (Spec.moving js).length → Spec.AnglesNear r.jointType θs' θs →
            Spec.urdfReach js θs ≤ L →
            ∃ T', fwdkin r' θs' true = .ok T' ∧ ∃ R p, IsRot R ∧ (∀ v, Spec.urdfAct js θs v = p + R.mulVec v) ∧
              Spec.MNear T'.R R (250000 * js.length * ((Spec.moving js).length + 1) * ε) ∧
              Spec.VNear T'.p p (325000 * js.length * ((Spec.moving js).length + 1) * ε * L)) := by
  have U := Fl.usame hnear
  -- the exact run
  obtain ⟨rt, h1, h⟩ := Except.bind_eq_ok h
  obtain ⟨tips, h2, h⟩ := Except.bind_eq_ok h
  obtain ⟨t, h3, h⟩ := Except.bind_eq_ok h
  obtain ⟨c, h4, h⟩ := Except.bind_eq_ok h
  obtain ⟨js, hc, hjs⟩ := getChain_joints hn h4
  rw [hjs, Except.bind_ok] at h
  rcases hl : js.getLast? with _ | last
  · simp [hl] at h
  simp only [hl] at h
  obtain ⟨s, h5, h⟩ := Except.bind_eq_ok h
  obtain ⟨link, h6, h⟩ := Except.bind_eq_ok h
  obtain ⟨r0, h7, h⟩ := Except.bind_eq_ok h
  obtain ⟨hr0, huu⟩ := init_ok' (by unfold limitPair; split <;> simp) (by unfold urdfTool; split <;> simp) h7
  have hr : r = urdfRobot s (noneIn (s.M ++ [appendInertia s.m (convertInertial link.inertial)])) (urdfTool s.R) rt t := by
    cases h; rw [hr0]; rfl
  clear h h7 hr0
  refine ⟨rt, t, js, by rw [hr]; rfl, by rw [hr]; rfl, hc, ?_⟩
  intro hax hN L h0 hη hbig hL
  -- the run with rounding
  rcases U.mapM_joint c with ⟨e, -, k2⟩ | ⟨js', js2, k1, k2, hjj⟩
  · rw [hjs] at k2; cases k2
  rw [hjs] at k2
  cases k2
  have u0 := F.u_nonneg
  have ε0 := u0.trans hε
  set N : ℝ := (js.length : ℝ) with hNN
  set n : ℝ := ((Spec.moving js).length : ℝ) with hnn
  have n0 : 0 ≤ n := Nat.cast_nonneg _
  have N1 : 1 ≤ N := by
    rcases js with _ | ⟨j, js⟩
    · simp at hl
    · rw [hNN]; simp
  have Nε : 0 ≤ N * ε := by positivity
  have nNε : 0 ≤ n * (N * ε) := by positivity
  have hN1 : 1000000000 * (N * ε) + 1000000000 * (n * (N * ε)) ≤ 1 := by linarith
  have εN : ε ≤ N * ε := le_mul_of_one_le_left ε0 N1
  have sl0 : ∀ l, slideLen l [] = 0 := by intro l; cases l <;> rfl
  have hsum : (js.map fun j => Spec.originLen j.origin).sum ≤ L := by
    have := slideLen_reach js []
    rw [sl0] at this
    linarith
  have i0 : Fl.LInv ε L N 0 0 ({ p := 0, R := 1 } : UState (Fl F)) { p := 0, R := 1 } := by
    refine ⟨IsRot.one, ⟨1, rfl, by intro v; simp [V3.norm_zero]⟩, by simp [V3.norm_zero], Fl.vnear_zero (by simp), .nil, .nil, rfl, rfl⟩
  obtain ⟨s', l5, I⟩ := Fl.urdfLoop_near hnear h0 hε hη hbig (by linarith) hjj hax 0 0 _ _ s i0 h5 le_rfl (by rw [zero_add]) (by rw [zero_add]; exact hsum)
  rw [zero_add, zero_add, ← hNN] at I
  have A := urdfLoop_adds js _ _ h5
  have A' := urdfLoop_adds js' _ _ l5
  have lm : (Spec.moving js').length = (Spec.moving js).length := by
    have := congrArg List.length A.ty
    have q := congrArg List.length A'.ty
    rw [I.ty] at q
    simp at this q
    omega
  obtain ⟨last', hl', hll⟩ : ∃ l', js'.getLast? = some l' ∧ Spec.JointNear ε l' last := by
    have hr := List.forall₂_reverse_iff.2 hjj
    rw [List.getLast?_eq_head?_reverse] at hl ⊢
    generalize js.reverse = a at hl hr
    generalize js'.reverse = b at hr
    cases hr with
    | nil => simp at hl
    | cons hab _ => simp at hl; subst hl; exact ⟨_, rfl, hab⟩
  obtain ⟨link', l6⟩ : ∃ l', u'.link last'.child = .ok l' := by
    rw [hll.child]
    rcases U.link last.child with ⟨e, -, q⟩ | ⟨a, b, q, -, -⟩
    · rw [h6] at q; cases q
    · exact ⟨a, q⟩
  have hu9 : F.u ≤ 1 / 1000000000 := by linarith
  have tool' := Fl.urdfTool_near I.rot I.R (by linarith) (by linarith)
  have tool : urdfTool s.R = (some s.R, some 0) := by unfold urdfTool; rw [I.rot.not_close_zero]; rfl
  have hH' : ∀ x ∈ s'.H, iscloseD x.norm 1 := by
    intro x hx
    obtain ⟨y, -, hy1, hy2⟩ := Forall₂.exists_right I.H hx
    have ny := V3.norm_eq_one hy1
    have := Fl.VNear.norm hy2 (by rw [ny]; linarith) hη3
    rw [ny] at this
    exact Fl.iscloseD_one this (by linarith) (by linarith)
  have lH := A'.lH
  have lP := A'.lP
  have lM := A'.lM
  have ety' := A'.ty
  simp only [List.length_nil, zero_add, List.nil_append] at lH lP lM ety'
  have lty : s'.ty.length = (Spec.moving js').length := by rw [ety', List.length_map]
  have final := init_intro (α := Fl F) (H := s'.H) (P := s'.P ++ [s'.p]) (jt := s'.ty) (lo := s'.lower) (up := s'.upper) (vel := noneIn s'.vel)
    (M := noneIn (s'.M ++ [appendInertia s'.m (convertInertial link'.inertial)])) (R := s'.R) (p := 0) (names := s'.names) (root := some rt)
    (tip := some t) hH' (by
      intro t ht
      rw [ety', List.mem_map] at ht
      obtain ⟨j, -, rfl⟩ := ht
      unfold typeNo
      split <;> simp) (by simp [lH, lP]) (by rw [lH, lty])
    (by rw [lty, A'.lower]; simp) (by rw [lty, A'.upper]; simp) (lenOk_noneIn (by rw [lty, A'.vel]; simp)) (lenOk_noneIn (by simp [lM, lP]))
    (by rw [lty, A'.names]; simp)
  have load : urdfLoad fuel u' root tip =
      .ok (urdfRobot s' (noneIn (s'.M ++ [appendInertia s'.m (convertInertial link'.inertial)])) (some s'.R, some 0) rt t) := by
    unfold urdfLoad
    rw [U.rootLink, h1, Except.bind_ok, U.tipLinks, h2, Except.bind_ok, h3, Except.bind_ok, U.getChain, h4, Except.bind_ok, k1, Except.bind_ok, hl']
    dsimp only
    unfold urdfBuild
    rw [l5, Except.bind_ok, l6, Except.bind_ok]
    dsimp only
    rw [tool', final, Except.bind_ok]
    rfl
  refine ⟨_, load, by rw [hr]; exact I.ty, by rw [hr]; exact congrArg some I.names, rfl, rfl, ?_⟩
  intro θs θs' lθ hθ hreach
  -- the exact robot moves like the file
  obtain ⟨T, q1, q2, q3, -⟩ := loaded_fwdkin (⟨rt, t, tips, js, last, link, s, h1, h2, h3, hc, hl, h5, h6, hr, huu⟩ : Loaded u root tip fuel r) hax θs lθ
  dsimp only at q3
  have ty_eq : r.jointType = s.ty := by rw [hr]; rfl
  have ety := A.ty
  simp only [List.nil_append] at ety
  have rch : Spec.reach r θs ≤ L := by
    have tr := travel_le s.ty (s.P ++ [s.p]).tail θs
    have sr := slideLen_reach js θs
    rw [← ety] at sr
    have ln := I.len
    rw [hr, tool]
    simp only [Spec.reach, urdfRobot, Option.map_some, Option.map_none, Option.getD_some, Option.getD_none, V3.norm_zero, add_zero]
    have sum : ((s.P ++ [s.p]).head?.map V3.norm).getD 0 + ((s.P ++ [s.p]).tail.map V3.norm).sum = (s.P.map V3.norm).sum + s.p.norm := by
      rcases s.P with _ | ⟨P, Ps⟩
      · simp
      · simp; ring
    linarith
  have hlast : Spec.VNear s'.p s.p (887 * N * ε * L) := Fl.VNear.mono I.p (by
    have b1 : N * ε * (js.map fun j => Spec.originLen j.origin).sum ≤ N * ε * L := mul_le_mul_of_nonneg_left hsum (by linarith)
    linarith)
  obtain ⟨T', w1, w2, w3⟩ := Fl.fwdkin_dat (F := F) (e := 887 * N * ε) (R := s.R) (R' := s'.R) h0 (by linarith) hη hbig r
    (urdfRobot s' (noneIn (s'.M ++ [appendInertia s'.m (convertInertial link'.inertial)])) (some s'.R, some 0) rt t) θs θs'
    (by rw [ty_eq]; exact I.ty) (by rw [hr]; exact I.H) (by rw [hr]; exact List.rel_append I.P (.cons hlast .nil)) (by rw [hr, tool]; rfl) rfl
    (by rw [hr, tool]; rfl) rfl (by rw [hr]; rfl) rfl (by rw [hr]; rfl) rfl I.rot (Fl.MNear.mono I.R (by linarith)) hθ T q1 rch (by
      rw [ty_eq, ety, List.length_map, ← hnn]
      linarith)
  rw [ty_eq, ety, List.length_map, ← hnn] at w2 w3
  refine ⟨T', w1, T.R, T.p, q2, fun v => (q3 v).symm.trans ?_, Fl.MNear.mono w2 (by linarith), Fl.VNear.mono w3 ?_⟩
  · rfl
  · have : (n + 1) * (N * ε) * L ≥ 0 := by positivity
    nlinarith

/-! ## Example -/

namespace UrdfDoc

/-- a turned mount and a revolute joint with an oblique axis -/
noncomputable def tiltedMount : UJoint ℝ :=
  { name := "mount", jointType := "fixed", parent := "base", child := "stand", origin := some ⟨some ⟨1, 0, 0⟩, some ⟨0, 0, 1⟩⟩ }
noncomputable def tiltedTurn : UJoint ℝ :=
  { name := "turn", jointType := "revolute", parent := "stand", child := "arm", origin := some ⟨some ⟨0, 0, 1⟩, none⟩, axis := some ⟨0, 3/5, 4/5⟩ }
noncomputable def tilted : Urdf ℝ :=
  { links := [⟨"base", none⟩, ⟨"stand", none⟩, ⟨"arm", none⟩]
    joints := [tiltedMount, tiltedTurn] }

/-- the same file as read: the yaw angle and the axis have errors, and the joint has got limits -/
noncomputable def tiltedRead {F : FSys} : Urdf (Fl F) :=
  { links := [⟨"base", none⟩, ⟨"stand", none⟩, ⟨"arm", none⟩]
    joints := [{ name := "mount", jointType := "fixed", parent := "base", child := "stand",
                 origin := some ⟨some ⟨.of 1, .of 0, .of 0⟩, some ⟨.of 0, .of 0, .of (1 - 2⁻¹ ^ 60)⟩⟩ },
               { name := "turn", jointType := "revolute", parent := "stand", child := "arm", origin := some ⟨some ⟨.of 0, .of 0, .of 1⟩, none⟩,
                 axis := some ⟨.of 0, .of (3/5 + 2⁻¹ ^ 60), .of (4/5)⟩, limit := some ⟨some (.of (-1)), some (.of 1), none, none⟩ }] }

theorem tilted_forest : Spec.Forest tilted := by
  refine ⟨by simp [tilted, tiltedMount, tiltedTurn], by simp [tilted, tiltedMount, tiltedTurn], by simp [tilted, tiltedMount, tiltedTurn], fun l => if l = "base" then 0 else if l = "stand" then 1 else 2, by simp [tilted, tiltedMount, tiltedTurn]⟩

theorem tilted_chain : Spec.Chain tilted "base" tilted.joints "arm" :=
  ⟨.cons tiltedMount _ _ (by simp [tilted]) (.cons tiltedTurn _ _ (by simp [tilted]) (.nil _)), by simp [tilted, tiltedMount, tiltedTurn]⟩

theorem tilted_loads : ∃ N, ∀ fuel ≥ N, ∃ r, urdfLoad fuel tilted (some "base") (some "arm") = .ok r := by
  obtain ⟨N, h⟩ := C91_outcome _ tilted_forest (some "base") (some "arm")
  refine ⟨N, fun fuel hf => h fuel hf none ?_⟩
  refine .loads "base" "arm" _ (.inl ⟨rfl, by simp [tilted, tiltedMount, tiltedTurn]⟩) (.inl rfl) tilted_chain (by simp [tilted]) ?_ ?_
  · intro j hj
    simp only [tilted, List.mem_cons, List.not_mem_nil, or_false] at hj
    rcases hj with rfl | rfl
    · exact .inl rfl
    · exact .inr ⟨.inl rfl, _, rfl⟩
  · intro j hj a ha
    simp only [Spec.moving, tilted, tiltedMount, tiltedTurn] at hj
    simp at hj
    subst hj
    cases ha
    norm_num

theorem tilted_near (lib : Libm) : Spec.UrdfNear (F := b64 lib) (2⁻¹ ^ 50) tiltedRead tilted := by
  have ex : ∀ v : V3 ℝ, Spec.VNear (F := b64 lib) (v.map Fl.of) v (2⁻¹ ^ 50 * v.norm) := fun v =>
    ⟨v, rfl, by rw [show v - v = 0 by ext <;> simp, V3.norm_zero]; have := v.norm_nonneg; positivity⟩
  refine ⟨.cons ⟨rfl, rfl⟩ (.cons ⟨rfl, rfl⟩ (.cons ⟨rfl, rfl⟩ .nil)), .cons ⟨rfl, rfl, rfl, rfl, .some ⟨.some (ex ⟨1, 0, 0⟩), .some ⟨?_, ?_, ?_⟩⟩, .none⟩
    (.cons ⟨rfl, rfl, rfl, rfl, .some ⟨.some (ex ⟨0, 0, 1⟩), .none⟩, .some ⟨⟨0, 3/5 + 2⁻¹ ^ 60, 4/5⟩, rfl, ?_⟩⟩ .nil)⟩
  · exact ⟨0, rfl, by norm_num⟩
  · exact ⟨0, rfl, by norm_num⟩
  · exact ⟨1 - 2⁻¹ ^ 60, rfl, by norm_num [abs_of_pos]⟩
  · refine (V3.norm_le_of_entries (d := 2⁻¹ ^ 60) ?_ ?_ ?_).trans ?_ <;> norm_num [abs_of_pos]

end UrdfDoc

/-- Non-vacuity of C104 in binary64: the file with errors loads, and at the joint value 2 the orientation is within 2e-9 of the exact one. -/
example (lib : Libm) : ∃ fuel r', urdfLoad fuel (UrdfDoc.tiltedRead (F := b64 lib)) (some "base") (some "arm") = .ok r' ∧
    ∃ T', fwdkin r' [.of 2] true = .ok T' ∧ ∃ R p, (∀ v, Spec.urdfAct UrdfDoc.tilted.joints [2] v = p + R.mulVec v) ∧
      Spec.MNear T'.R R (2 / 1000000000) := by
  obtain ⟨N, hN⟩ := UrdfDoc.tilted_loads
  obtain ⟨r, hr⟩ := hN N le_rfl
  have hu : (b64 lib).u = 2⁻¹ ^ 50 := rfl
  obtain ⟨rt, t, js, e1, e2, hc, main⟩ := C104_urdf_rounding (2⁻¹ ^ 50) hu.le (b64_eta lib) N _ _ (UrdfDoc.tilted_near lib) UrdfDoc.tilted_forest.names
    _ _ r hr
  obtain ⟨Ld⟩ := urdfLoad_loaded UrdfDoc.tilted_forest.names hr
  have d1 : rt = "base" := by
    have a := congrArg Robot.rootLink Ld.robot_eq
    rw [e1] at a
    cases a
    have b := Ld.root_eq
    simp [Urdf.rootLink, Urdf.linkNames, UrdfDoc.tilted, List.eraseDups_cons] at b
    exact b.symm
  have d2 : t = "arm" := by
    have a := congrArg Robot.tipLink Ld.robot_eq
    rw [e2] at a
    cases a
    have b := Ld.tip_eq
    simp [Urdf.tipLink] at b
    exact b.symm
  subst d1 d2
  have d3 := hc.unique UrdfDoc.tilted_forest.children UrdfDoc.tilted_chain
  subst d3
  have ty : r.jointType = [0] := by
    have a := congrArg Robot.jointType Ld.robot_eq
    have b := (urdfLoop_adds _ _ _ Ld.loop).ty
    have c : Ld.js = UrdfDoc.tilted.joints := by
      have q1 := congrArg Robot.rootLink Ld.robot_eq
      have q2 := congrArg Robot.tipLink Ld.robot_eq
      rw [e1] at q1
      rw [e2] at q2
      have ch := Ld.chain
      injection q1 with q1
      injection q2 with q2
      rw [← q1, ← q2] at ch
      exact ch.unique UrdfDoc.tilted_forest.children UrdfDoc.tilted_chain
    rw [c] at b
    rw [a]
    simpa [UrdfDoc.tilted, UrdfDoc.tiltedMount, UrdfDoc.tiltedTurn, Spec.moving, typeNo] using b
  have n1 : (⟨1, 0, 0⟩ : V3 ℝ).norm = 1 := V3.norm_ex
  have n3 : (⟨0, 0, 1⟩ : V3 ℝ).norm = 1 := V3.norm_ez
  have big := (b64 lib).big_ge
  have eta := (b64 lib).η_le
  have u0 := (b64 lib).u_nonneg
  have len : UrdfDoc.tilted.joints.length = 2 := rfl
  have mv : (Spec.moving UrdfDoc.tilted.joints).length = 1 := by simp [UrdfDoc.tilted, UrdfDoc.tiltedMount, UrdfDoc.tiltedTurn, Spec.moving]
  have reach : ∀ θs, θs = [] ∨ θs = [2] → Spec.urdfReach UrdfDoc.tilted.joints θs ≤ 10 := by
    rintro θs (rfl | rfl) <;> simp [Spec.urdfReach, UrdfDoc.tilted, UrdfDoc.tiltedMount, UrdfDoc.tiltedTurn, Spec.originLen, n1, n3] <;> norm_num
  obtain ⟨r', l1, -, -, -, -, l2⟩ := main (by
      intro j hj a ha
      simp only [UrdfDoc.tilted, List.mem_cons, List.not_mem_nil, or_false] at hj
      rcases hj with rfl | rfl
      · cases ha
      · cases ha; norm_num [IsUnit3]) (by rw [len, mv]; norm_num) 10 (by norm_num) (by linarith) (by linarith) (reach _ (.inl rfl))
  obtain ⟨T', w1, R, p, -, w2, w3, -⟩ := l2 [2] [.of 2] (by rw [mv]; rfl) (by rw [ty]; exact ⟨⟨2, rfl, by simpa using u0⟩, trivial⟩) (reach _ (.inr rfl))
  exact ⟨N, r', l1, T', w1, R, p, w2, Fl.MNear.mono w3 (by rw [len, mv]; norm_num)⟩
