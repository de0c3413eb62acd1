import Verif.Lemmas.FlRR
import Verif.B64
import Verif.Props.RoundingSubE

/-! # Property C107: loading and moving a Robot Raconteur robot in floating-point arithmetic -/
set_option autoImplicit false

namespace RRFl

theorem init_rr {α : Type} [Add α] [Sub α] [Mul α] [Div α] [Neg α] [Zero α] [One α] [LT α] [LE α]
    [DecidableLT α] [DecidableLE α] [Elem α] {H P : List (V3 α)} {jt : List Nat} {lo up vel acc : List α}
    {tool : Option (Transform α)} {names : List String} {root tip : Option String} {Tf Tb : Option (Transform α)}
    (hH : ∀ h ∈ H, iscloseD h.norm 1) (ht : ∀ t ∈ jt, t ∈ [0, 1, 2, 3]) (l1 : H.length + 1 = P.length) (l2 : H.length = jt.length)
    (l3 : lo.length = jt.length) (l4 : up.length = jt.length) (l5 : vel.length = jt.length) (l6 : acc.length = jt.length)
    (l7 : names.length = jt.length) :
    Robot.init H P jt (some lo) (some up) (some vel) (some acc) none (tool.map Transform.R) (tool.map Transform.p) (some names) root tip Tf Tb =
      .ok { H := H, P := P, jointType := jt, lower := some lo, upper := some up, vel := some vel, acc := some acc, M := none,
            Rtool := tool.map Transform.R, ptool := tool.map Transform.p, jointNames := some names, rootLink := root, tipLink := tip,
            Tflange := Tf, Tbase := Tb } := by
  have b1 : (H.all fun h => decide (iscloseD h.norm 1)) = true := by simpa using hH
  have b2 : (jt.all fun j => decide (j ∈ [0, 1, 2, 3])) = true := by rw [List.all_eq_true]; intro t h; exact decide_eq_true (ht t h)
  have b3 : (H.length + 1 == P.length && H.length == jt.length) = true := by rw [l1, l2]; simp
  have c1 : (lo.length == jt.length) = true := by simp [l3]
  have c2 : (up.length == jt.length) = true := by simp [l4]
  unfold Robot.init
  rw [b1, b2, b3]
  simp only [c1, c2, show lenOk (some vel) jt.length = true by simp [lenOk, l5], show lenOk (some acc) jt.length = true by simp [lenOk, l6],
    show lenOk (some names) jt.length = true by simp [lenOk, l7], show lenOk (none : Option (List (M6 α))) P.length = true from rfl]
  cases tool <;> rfl

variable {F : FSys} {ε : ℝ} {parse' : String → Option (Fl F)} {parse : String → Option ℝ}

theorem map_eq {β γ δ : Type} {f : β → δ} {g : γ → δ} {l : List β} {m : List γ} (h : List.Forall₂ (fun a b => f a = g b) l m) : l.map f = m.map g := by
  induction h with
  | nil => rfl
  | cons a _ ih => simp [a, ih]

/-- The loader on a document read with errors. -/
theorem rrLoad_near (hp : ∀ s x, parse s = some x → ∃ x', parse' s = some x' ∧ x'.Near x (ε * |x|)) (hε : F.u ≤ ε) (hε' : ε ≤ 1 / 100000000)
    (hη3 : 16 * F.η ≤ F.u ^ 3) {doc' : Yaml (Fl F)} {doc : Yaml ℝ} (hd : Spec.DocNear ε doc' doc) (hu : Spec.UnitQuats parse doc)
    (hi : Spec.IntegerNumbers doc) {c : Int} {r : Robot ℝ} (h : rrLoadRobot parse doc c = .ok r) (hH : ∀ h ∈ r.H, IsUnit3 h) :
    ∃ r', rrLoadRobot parse' doc' c = .ok r' ∧ Spec.RobotNearE (222 * ε) r' r ∧ r'.jointNames = r.jointNames ∧ r'.rootLink = r.rootLink ∧
      r'.tipLink = r.tipLink ∧ r.P.length = r.jointType.length + 1 := by
  have u0 := F.u_nonneg
  have ε0 := u0.trans hε
  obtain ⟨chains, h1, h⟩ := Except.bind_eq_ok h
  obtain ⟨_, h2, h⟩ := Except.bind_eq_ok h
  obtain ⟨len, h3, h⟩ := Except.bind_eq_ok h
  split_ifs at h with hc
  obtain ⟨chain, h4, h⟩ := Except.bind_eq_ok h
  obtain ⟨numbers, h5, h⟩ := Except.bind_eq_ok h
  obtain ⟨n, h6, h⟩ := Except.bind_eq_ok h
  obtain ⟨_, h7, h⟩ := Except.bind_eq_ok h
  obtain ⟨cH, h8, h⟩ := Except.bind_eq_ok h
  obtain ⟨_, h9, h⟩ := Except.bind_eq_ok h
  obtain ⟨cP, h10, h⟩ := Except.bind_eq_ok h
  obtain ⟨_, h11, h⟩ := Except.bind_eq_ok h
  obtain ⟨H, h12, h⟩ := Except.bind_eq_ok h
  obtain ⟨P, h13, h⟩ := Except.bind_eq_ok h
  obtain ⟨js, h14, h⟩ := Except.bind_eq_ok h
  obtain ⟨root, h15, h⟩ := Except.bind_eq_ok h
  obtain ⟨fid, h16, h⟩ := Except.bind_eq_ok h
  obtain ⟨tip, h17, h⟩ := Except.bind_eq_ok h
  obtain ⟨fp, h18, h⟩ := Except.bind_eq_ok h
  obtain ⟨flange, h19, h⟩ := Except.bind_eq_ok h
  obtain ⟨⟨tool, tip'⟩, h20, h⟩ := Except.bind_eq_ok h
  obtain ⟨base, h21, hfin⟩ := Except.bind_eq_ok h
  -- the exact robot
  obtain ⟨⟨e1, e2, e3, -, -, -, -, e8, e9, e10, e11, e12⟩, l1, l2, -, -, -, -, -, -⟩ := init_ok hfin
  obtain ⟨e13, e14⟩ := init_tool hfin
  rw [e1] at hH
  -- the chain is a part of the document
  have pc : Spec.Part chain doc := by
    rcases index_part h4 with h | ⟨s, rfl⟩
    · exact part_trans h (item_part h1)
    · cases h5
  have ints : ∀ l, numbers = .list l → ∀ a ∈ l, ∃ n, a = .int n := by
    rintro l rfl
    exact hi chain l pc ((item_iff _ _ _).1 h5)
  -- the run with rounding
  obtain ⟨chains', k1, m1, -⟩ := item_near hd h1
  obtain ⟨chain', k4, m4⟩ := index_near m1 h4
  obtain ⟨numbers', k5, m5, -⟩ := item_near m4 h5
  have k7 := numbers_near hd m5 ints h7
  obtain ⟨cH', k8, m8, -⟩ := item_near m4 h8
  obtain ⟨cP', k10, m10, -⟩ := item_near m4 h10
  have vecs : ∀ {d' : Yaml (Fl F)} {d : Yaml ℝ} {l : List Nat} {vs : List (V3 ℝ)}, Spec.DocNear ε d' d →
      (l.mapM fun (i : Nat) => do rrToVec3 parse (← d.index i)) = .ok vs →
      ∃ vs', (l.mapM fun (i : Nat) => do rrToVec3 parse' (← d'.index i)) = .ok vs' ∧ List.Forall₂ (fun v' v => Spec.VNear v' v (ε * v.norm)) vs' vs := by
    intro d' d l vs hd hl
    refine mapM_near (fun i _ v hv => ?_) hl
    obtain ⟨x, x1, hv⟩ := Except.bind_eq_ok hv
    obtain ⟨x', x2, x3⟩ := index_near hd x1
    obtain ⟨v', v1, v2⟩ := toVec3_near hp ε0 x3 hv
    exact ⟨v', by rw [x2]; exact v1, v2⟩
  obtain ⟨H', k12, m12⟩ := vecs m8 h12
  obtain ⟨P', k13, m13⟩ := vecs m10 h13
  obtain ⟨js', k14, m14⟩ := mapM_near (R := fun j' j : RRJoint _ => j'.ty = j.ty ∧ j'.name = j.name) (g := fun (i : Nat) => do
      let info ← doc'.item "joint_info"
      rrJoint parse' (← info.index i)) (fun i _ y hy => by
    obtain ⟨info, i1, hy⟩ := Except.bind_eq_ok hy
    obtain ⟨j, j1, hy⟩ := Except.bind_eq_ok hy
    obtain ⟨info', i2, i3, -⟩ := item_near hd i1
    obtain ⟨j', j2, j3⟩ := index_near i3 j1
    obtain ⟨y', y1, y2⟩ := joint_near hp ε0 j3 hy
    exact ⟨y', by rw [i2, Except.bind_ok, j2]; exact y1, y2⟩) h14
  have k15 := root_near m4 h15
  obtain ⟨fid', k16, m16, -⟩ := item_near m4 h16
  have k17 := tip_near m16 h17
  obtain ⟨fp', k18, m18, -⟩ := item_near m4 h18
  obtain ⟨flange', k19, m19⟩ := toTransform_near hp hε (by linarith) m18 h19 (part_trans (item_part h18) pc) hu
  obtain ⟨tool', k20, m20⟩ := tool_near hp hε (by linarith) m4 h20 pc hu
  obtain ⟨base', k21, m21⟩ := base_near hp hε (by linarith) hd h21 hu
  have hty : js'.map RRJoint.ty = js.map RRJoint.ty := map_eq (m14.imp fun _ _ h => h.1)
  have hnm : js'.map RRJoint.name = js.map RRJoint.name := map_eq (m14.imp fun _ _ h => h.2)
  have ljs : js'.length = js.length := m14.length_eq
  have lH : H'.length = H.length := m12.length_eq
  have lP : P'.length = P.length := m13.length_eq
  have t01 : ∀ t ∈ js'.map RRJoint.ty, t ∈ [0, 1, 2, 3] := by
    intro t ht
    rw [hty] at ht
    have ab := (C90_init_fits hfin)
    have : ∀ j ∈ js, j.ty = 0 ∨ j.ty = 1 := by
      intro j hj
      obtain ⟨i, -, hi⟩ := Forall₂.exists_left (forall₂_of_mapM h14) hj
      obtain ⟨info, i1, hy⟩ := Except.bind_eq_ok hi
      obtain ⟨d, j1, hy⟩ := Except.bind_eq_ok hy
      obtain ⟨t, _, hy⟩ := Except.bind_eq_ok hy
      obtain ⟨ty, ht, hy⟩ := Except.bind_eq_ok hy
      obtain ⟨lim, _, hy⟩ := Except.bind_eq_ok hy
      split_ifs at hy
      iterate 10 obtain ⟨_, _, hy⟩ := Except.bind_eq_ok hy
      cases hy
      unfold rrType at ht
      split_ifs at ht <;> cases ht <;> simp
    obtain ⟨j, hj, rfl⟩ := List.mem_map.1 ht
    rcases this j hj with h | h <;> simp [h]
  have unit : List.Forall₂ (fun h' h => IsUnit3 h ∧ Spec.VNear h' h (222 * ε)) H' H := by
    refine (Fl.forall₂_mem_right m12 hH).imp fun h' h k => ⟨k.2, Fl.VNear.mono k.1 ?_⟩
    rw [V3.norm_eq_one k.2]
    linarith
  have hH' : ∀ x ∈ H', iscloseD x.norm 1 := by
    intro x hx
    obtain ⟨y, -, hy1, hy2⟩ := Forall₂.exists_right unit hx
    have ny := V3.norm_eq_one hy1
    have := Fl.VNear.norm hy2 (by rw [ny]; linarith) hη3
    rw [ny] at this
    exact Fl.iscloseD_one this (by linarith) (by linarith)
  simp only [List.length_map] at l2
  have final := init_rr (α := Fl F) (P := P') (tool := tool') (root := root) (tip := tip') (Tf := some flange') (Tb := base') (lo := js'.map RRJoint.lower)
    (up := js'.map RRJoint.upper) (vel := js'.map RRJoint.vel) (acc := js'.map RRJoint.acc) (names := js'.map RRJoint.name) hH' t01
    (by rw [lH, lP, l1]) (by simp [lH, ljs, l2]) (by simp) (by simp) (by simp) (by simp) (by simp)
  refine ⟨_, Eq.trans ?_ final, ⟨?_, ?_, ?_, ?_, ?_, ?_, ?_⟩, ?_, ?_, ?_, ?_⟩
  rotate_left
  · rw [e3]; exact hty
  · rw [e1]; exact unit
  · rw [e2]
    exact m13.imp fun P' P k => Fl.VNear.mono k (mul_le_mul_of_nonneg_right (by linarith) P.norm_nonneg)
  · rw [e11]; exact .some m19
  · rw [e12]; exact m21
  · rw [e13]
    cases m20 with
    | none => exact .none
    | some k => exact .some ⟨k.1, k.2.1⟩
  · rw [e14]
    cases m20 with
    | none => exact .none
    | some k => exact .some k.2.2
  · rw [e8]; exact congrArg some hnm
  · rw [e9]
  · rw [e10]
  · rw [e2, e3, ← l1]; simp [l2]
  · unfold rrLoadRobot
    rw [k1, Except.bind_ok, checkList_near m1, h2, Except.bind_ok, len_near m1, h3, Except.bind_ok, if_neg hc, k4, Except.bind_ok, k5, Except.bind_ok,
      len_near m5, h6, Except.bind_ok, k7, Except.bind_ok, k8, Except.bind_ok, checkList_near m8, h9, Except.bind_ok, k10, Except.bind_ok,
      checkList_near m10, h11, Except.bind_ok, k12, Except.bind_ok, k13, Except.bind_ok, k14, Except.bind_ok, k15, Except.bind_ok, k16, Except.bind_ok,
      k17, Except.bind_ok, k18, Except.bind_ok, k19, Except.bind_ok, k20, Except.bind_ok]
    dsimp only
    rw [k21, Except.bind_ok]

end RRFl

/-- C107: a Robot Raconteur document whose numbers are read with relative error `ε`, and whose robot is assembled in floating-point
arithmetic, loads whenever the exact document loads, with the same joint types and names; and moving that robot in floating-point
arithmetic gives the pose of the exact robot up to `63000 (n+3) ε` in orientation and `81000 (n+3) ε` times the reach in position, for `n`
joints: flange, tool and base included.  Every chain length, any rounding mode. -/
theorem C107_rr_rounding {F : FSys} (ε : ℝ) (hε : F.u ≤ ε) (hη3 : 16 * F.η ≤ F.u ^ 3) (parse' : String → Option (Fl F)) (parse : String → Option ℝ)
    (hp : ∀ s x, parse s = some x → ∃ x', parse' s = some x' ∧ x'.Near x (ε * |x|)) (doc' : Yaml (Fl F)) (doc : Yaml ℝ)
    (hd : Spec.DocNear ε doc' doc) (hu : Spec.UnitQuats parse doc) (hi : Spec.IntegerNumbers doc) (c : Int) (r : Robot ℝ)
    (h : rrLoadRobot parse doc c = .ok r) (hH : ∀ h ∈ r.H, IsUnit3 h) (hn : 100000000 * (r.jointType.length + 3) * ε ≤ 1) :
    ∃ r', rrLoadRobot parse' doc' c = .ok r' ∧ r'.jointType = r.jointType ∧ r'.jointNames = r.jointNames ∧ r'.rootLink = r.rootLink ∧
      r'.tipLink = r.tipLink ∧
      ∀ (θs : List ℝ) (θs' : List (Fl F)) (T : Transform ℝ) (L : ℝ), Spec.AnglesNear r.jointType θs' θs → fwdkin r θs true = .ok T → 0 < L →
        F.η ≤ F.u * L → 5 * L ≤ F.big → Spec.reach r θs ≤ L →
        ∃ T', fwdkin r' θs' true = .ok T' ∧ Spec.MNear T'.R T.R (63000 * (r.jointType.length + 3) * ε) ∧
          Spec.VNear T'.p T.p (81000 * (r.jointType.length + 3) * ε * L) := by
  have ε0 := F.u_nonneg.trans hε
  set n : ℝ := (r.jointType.length : ℝ) with hnn
  have n0 : 0 ≤ n := Nat.cast_nonneg _
  have nε : 0 ≤ n * ε := by positivity
  obtain ⟨r', k1, k2, k3, k4, k5, k6⟩ := RRFl.rrLoad_near hp hε (by linarith) hη3 hd hu hi h hH
  refine ⟨r', k1, k2.types, k3, k4, k5, ?_⟩
  intro θs θs' T L hθ hT h0 hη hbig hL
  obtain ⟨T', t1, t2, t3, -, -⟩ := Fl.fwdkin_data (e := 222 * ε) (by linarith) r r' θs θs' k2 (by rw [k6]) hθ T hT h0 hL hη hbig (by rw [← hnn]; linarith)
  rw [← hnn] at t2 t3
  refine ⟨T', t1, Fl.MNear.mono t2 (by linarith), Fl.VNear.mono t3 ?_⟩
  have : 0 ≤ (n + 3) * ε * L := by positivity
  linarith

/-- C107: the same for a robot with a tool loaded from a second document: the tool frame is read with the same errors. -/
theorem C107_tool_rounding {F : FSys} (ε : ℝ) (hε : F.u ≤ ε) (hη3 : 16 * F.η ≤ F.u ^ 3) (parse' : String → Option (Fl F)) (parse : String → Option ℝ)
    (hp : ∀ s x, parse s = some x → ∃ x', parse' s = some x' ∧ x'.Near x (ε * |x|)) (doc' tool' : Yaml (Fl F)) (doc tool : Yaml ℝ)
    (hd : Spec.DocNear ε doc' doc) (ht : Spec.DocNear ε tool' tool) (hu : Spec.UnitQuats parse doc) (hut : Spec.UnitQuats parse tool)
    (hi : Spec.IntegerNumbers doc) (c : Int) (r : Robot ℝ)
    (h : rrLoadRobotTool parse doc tool c = .ok r) (hH : ∀ h ∈ r.H, IsUnit3 h) (hn : 100000000 * (r.jointType.length + 3) * ε ≤ 1) :
    ∃ r', rrLoadRobotTool parse' doc' tool' c = .ok r' ∧ r'.jointType = r.jointType ∧ r'.jointNames = r.jointNames ∧ r'.rootLink = r.rootLink ∧
      r'.tipLink = r.tipLink ∧
      ∀ (θs : List ℝ) (θs' : List (Fl F)) (T : Transform ℝ) (L : ℝ), Spec.AnglesNear r.jointType θs' θs → fwdkin r θs true = .ok T → 0 < L →
        F.η ≤ F.u * L → 5 * L ≤ F.big → Spec.reach r θs ≤ L →
        ∃ T', fwdkin r' θs' true = .ok T' ∧ Spec.MNear T'.R T.R (63000 * (r.jointType.length + 3) * ε) ∧
          Spec.VNear T'.p T.p (81000 * (r.jointType.length + 3) * ε * L) := by
  have ε0 := F.u_nonneg.trans hε
  set n : ℝ := (r.jointType.length : ℝ) with hnn
  have n0 : 0 ≤ n := Nat.cast_nonneg _
  have nε : 0 ≤ n * ε := by positivity
  obtain ⟨r0, h1, h⟩ := Except.bind_eq_ok h
  obtain ⟨tcp, h2, h⟩ := Except.bind_eq_ok h
  obtain ⟨B, h3, h⟩ := Except.bind_eq_ok h
  obtain ⟨info, h4, h⟩ := Except.bind_eq_ok h
  obtain ⟨dev, h5, h⟩ := Except.bind_eq_ok h
  obtain ⟨tip, h6, h⟩ := Except.bind_eq_ok h
  cases h
  dsimp only at hH hnn hn ⊢
  obtain ⟨r', k1, k2, k3, k4, k5, k6⟩ := RRFl.rrLoad_near hp hε (by linarith) hη3 hd hu hi h1 hH
  obtain ⟨tcp', m2, m3, -⟩ := RRFl.item_near ht h2
  obtain ⟨B', m4, m5⟩ := RRFl.toTransform_near hp hε (by linarith) m3 h3 (RRFl.item_part h2) hut
  obtain ⟨info', m6, m7, -⟩ := RRFl.item_near ht h4
  obtain ⟨dev', m8, m9, -⟩ := RRFl.item_near m7 h5
  refine ⟨{ r' with Rtool := some B'.R, ptool := some B'.p, tipLink := some tip }, ?_, k2.types, k3, k4, rfl, ?_⟩
  · unfold rrLoadRobotTool
    rw [k1, Except.bind_ok, m2, Except.bind_ok, m4, Except.bind_ok, m6, Except.bind_ok, m8, Except.bind_ok, RRFl.name_near m9 h6, Except.bind_ok]
    rfl
  intro θs θs' T L hθ hT h0 hη hbig hL
  have near : Spec.RobotNearE (222 * ε) ({ r' with Rtool := some B'.R, ptool := some B'.p, tipLink := some tip } : Robot (Fl F))
      { r0 with Rtool := some B.R, ptool := some B.p, tipLink := some tip } :=
    ⟨k2.types, k2.axes, k2.links, k2.flange, k2.base, .some ⟨m5.1, m5.2.1⟩, .some m5.2.2⟩
  obtain ⟨T', t1, t2, t3, -, -⟩ := Fl.fwdkin_data (e := 222 * ε) (by linarith) _ _ θs θs' near (by dsimp only; rw [k6]) hθ T hT h0 hL hη hbig
    (by dsimp only; rw [← hnn]; linarith)
  dsimp only at t2 t3
  rw [← hnn] at t2 t3
  refine ⟨T', t1, Fl.MNear.mono t2 (by linarith), Fl.VNear.mono t3 ?_⟩
  have : 0 ≤ (n + 3) * ε * L := by positivity
  linarith

/-! ## Example -/

namespace RRFl

theorem uq_scalar {parse : String → Option ℝ} {d : Yaml ℝ} (h : ∀ d', Spec.Part d' d → ∀ l, d' ≠ .dict l) : Spec.UnitQuats parse d := by
  rintro d' q a b c e hd ⟨l, rfl, -⟩
  exact absurd rfl (h _ hd l)
theorem uq_num {parse : String → Option ℝ} (x : ℝ) : Spec.UnitQuats parse (.num x) := uq_scalar (by rintro _ ⟨⟩ l h; cases h)
theorem uq_int {parse : String → Option ℝ} (x : Int) : Spec.UnitQuats parse (.int x) := uq_scalar (by rintro _ ⟨⟩ l h; cases h)
theorem uq_str {parse : String → Option ℝ} (x : String) : Spec.UnitQuats parse (.str x) := uq_scalar (by rintro _ ⟨⟩ l h; cases h)
theorem uq_null {parse : String → Option ℝ} : Spec.UnitQuats parse .null := uq_scalar (by rintro _ ⟨⟩ l h; cases h)
theorem uq_list {parse : String → Option ℝ} {l : List (Yaml ℝ)} (h : ∀ d ∈ l, Spec.UnitQuats parse d) : Spec.UnitQuats parse (.list l) := by
  intro d q a b c e hd hw
  cases hd with
  | refl => obtain ⟨_, h', -⟩ := hw; cases h'
  | elem _ v hv hd => exact h v hv d q a b c e hd hw
theorem uq_dict {parse : String → Option ℝ} {l : List (String × Yaml ℝ)} (hl : l.lookup "w" = none) (h : ∀ e ∈ l, Spec.UnitQuats parse e.2) :
    Spec.UnitQuats parse (.dict l) := by
  intro d q a b c e hd hw
  cases hd with
  | refl => obtain ⟨_, h', h2⟩ := hw; cases h'; rw [hl] at h2; cases h2
  | item _ k v hv hd => exact h _ hv d q a b c e hd hw

theorem in_scalar {d : Yaml ℝ} (h : ∀ d', Spec.Part d' d → ∀ l, d' ≠ .dict l) : Spec.IntegerNumbers d := by
  rintro d' m hd ⟨l, rfl, -⟩
  exact absurd rfl (h _ hd l)
theorem in_num (x : ℝ) : Spec.IntegerNumbers (.num x) := in_scalar (by rintro _ ⟨⟩ l h; cases h)
theorem in_int (x : Int) : Spec.IntegerNumbers (.int x) := in_scalar (by rintro _ ⟨⟩ l h; cases h)
theorem in_str (x : String) : Spec.IntegerNumbers (.str x) := in_scalar (by rintro _ ⟨⟩ l h; cases h)
theorem in_null : Spec.IntegerNumbers .null := in_scalar (by rintro _ ⟨⟩ l h; cases h)
theorem in_list {l : List (Yaml ℝ)} (h : ∀ d ∈ l, Spec.IntegerNumbers d) : Spec.IntegerNumbers (.list l) := by
  intro d m hd hw
  cases hd with
  | refl => obtain ⟨_, h', -⟩ := hw; cases h'
  | elem _ v hv hd => exact h v hv d m hd hw
theorem in_dict {l : List (String × Yaml ℝ)} (hl : ∀ m, l.lookup "joint_numbers" = some (.list m) → ∀ a ∈ m, ∃ n, a = .int n)
    (h : ∀ e ∈ l, Spec.IntegerNumbers e.2) : Spec.IntegerNumbers (.dict l) := by
  intro d m hd hw
  cases hd with
  | refl => obtain ⟨_, h', h2⟩ := hw; cases h'; exact hl m h2
  | item _ k v hv hd => exact h _ hv d m hd hw

/-- A document with one revolute joint about an oblique axis and a turned flange. -/
def tiltVec {α : Type} (x y z : α) : Yaml α := .dict [("x", .num x), ("y", .num y), ("z", .num z)]
def tiltPose {α : Type} (o i a b : α) : Yaml α :=
  .dict [("orientation", .dict [("w", .num a), ("x", .num b), ("y", .num o), ("z", .num o)]), ("position", tiltVec o o i)]
def tiltChain {α : Type} (o i a b : α) : Yaml α :=
  .dict [("joint_numbers", .list [.int 0]), ("H", .list [tiltVec o a b]), ("P", .list [tiltVec o o i, tiltVec i o o]),
    ("flange_identifier", .null), ("flange_pose", tiltPose o i a b)]
def tiltJoint {α : Type} (o i : α) : Yaml α :=
  .dict [("joint_type", .str "revolute"),
    ("joint_limits", .dict [("lower", .num o), ("upper", .num i), ("velocity", .num i), ("acceleration", .num i)]),
    ("joint_identifier", .str "turn")]
def tiltDoc {α : Type} (o i a b : α) : Yaml α :=
  .dict [("chains", .list [tiltChain o i a b]), ("joint_info", .list [tiltJoint o i])]

noncomputable def tiltReal : Yaml ℝ := tiltDoc 0 1 (3 / 5) (4 / 5)
noncomputable def tiltRead {F : FSys} : Yaml (Fl F) := tiltDoc (.of 0) (.of 1) (.of (3 / 5 + 2⁻¹ ^ 60)) (.of (4 / 5))

theorem tilt_unit (parse : String → Option ℝ) : Spec.UnitQuats parse tiltReal := by
  have vec : ∀ x y z, Spec.UnitQuats parse (tiltVec x y z) := fun x y z => uq_dict rfl (by simp [uq_num])
  have quat : Spec.UnitQuats parse (.dict [("w", .num (3 / 5)), ("x", .num (4 / 5)), ("y", .num 0), ("z", .num 0)]) := by
    intro d q a b c e hd h1 h2 h3 h4 n1 n2 n3 n4
    cases hd with
    | refl =>
      obtain ⟨_, ⟨⟩, h1⟩ := h1
      obtain ⟨_, ⟨⟩, h2⟩ := h2
      obtain ⟨_, ⟨⟩, h3⟩ := h3
      obtain ⟨_, ⟨⟩, h4⟩ := h4
      simp [List.lookup_cons] at h1 h2 h3 h4
      subst h1 h2 h3 h4
      have e : ∀ {x y : ℝ}, Spec.Number parse (.num x) y → y = x := by rintro x y ⟨⟩; rfl
      rw [IsUnit4, e n1, e n2, e n3, e n4]
      norm_num
    | item _ k v hv hd =>
      exfalso
      obtain ⟨_, rfl, h1⟩ := h1
      simp only [List.mem_cons, Prod.mk.injEq, List.not_mem_nil, or_false] at hv
      rcases hv with ⟨-, rfl⟩ | ⟨-, rfl⟩ | ⟨-, rfl⟩ | ⟨-, rfl⟩ <;> cases hd
  have pose : Spec.UnitQuats parse (tiltPose 0 1 (3 / 5) (4 / 5)) := uq_dict rfl (by simp [quat, vec])
  have chain : Spec.UnitQuats parse (tiltChain 0 1 (3 / 5) (4 / 5)) := by
    refine uq_dict rfl ?_
    simp only [List.forall_mem_cons, List.not_mem_nil, false_imp_iff, implies_true, and_true]
    exact ⟨uq_list (by simp [uq_int]), uq_list (by simp [vec]), uq_list (by simp [vec]), uq_null, pose⟩
  have joint : Spec.UnitQuats parse (tiltJoint 0 1) := by
    refine uq_dict rfl ?_
    simp only [List.forall_mem_cons, List.not_mem_nil, false_imp_iff, implies_true, and_true]
    exact ⟨uq_str _, uq_dict rfl (by simp [uq_num]), uq_str _⟩
  refine uq_dict rfl ?_
  simp only [List.forall_mem_cons, List.not_mem_nil, false_imp_iff, implies_true, and_true]
  exact ⟨uq_list (by simp [chain]), uq_list (by simp [joint])⟩

theorem tilt_ints : Spec.IntegerNumbers tiltReal := by
  have vec : ∀ x y z, Spec.IntegerNumbers (tiltVec x y z) := fun x y z => in_dict (by rintro m ⟨⟩) (by simp [in_num])
  have pose : Spec.IntegerNumbers (tiltPose 0 1 (3 / 5) (4 / 5)) := by
    refine in_dict (by rintro m ⟨⟩) ?_
    simp only [List.forall_mem_cons, List.not_mem_nil, false_imp_iff, implies_true, and_true]
    exact ⟨in_dict (by rintro m ⟨⟩) (by simp [in_num]), vec _ _ _⟩
  have chain : Spec.IntegerNumbers (tiltChain 0 1 (3 / 5) (4 / 5)) := by
    refine in_dict (by rintro m ⟨⟩; simp) ?_
    simp only [List.forall_mem_cons, List.not_mem_nil, false_imp_iff, implies_true, and_true]
    exact ⟨in_list (by simp [in_int]), in_list (by simp [vec]), in_list (by simp [vec]), in_null, pose⟩
  have joint : Spec.IntegerNumbers (tiltJoint 0 1) := by
    refine in_dict (by rintro m ⟨⟩) ?_
    simp only [List.forall_mem_cons, List.not_mem_nil, false_imp_iff, implies_true, and_true]
    exact ⟨in_str _, in_dict (by rintro m ⟨⟩) (by simp [in_num]), in_str _⟩
  refine in_dict (by rintro m ⟨⟩) ?_
  simp only [List.forall_mem_cons, List.not_mem_nil, false_imp_iff, implies_true, and_true]
  exact ⟨in_list (by simp [chain]), in_list (by simp [joint])⟩

theorem tilt_near {F : FSys} {ε : ℝ} (o' i' a' b' : Fl F) (o i a b : ℝ) (ho : o'.Near o (ε * |o|)) (hi : i'.Near i (ε * |i|)) (ha : a'.Near a (ε * |a|))
    (hb : b'.Near b (ε * |b|)) : Spec.DocNear ε (tiltDoc o' i' a' b') (tiltDoc o i a b) := by
  have z : (lit ((0 : Int) : Rat) : Fl F).Near ((0 : Int) : ℝ) (ε * |((0 : Int) : ℝ)|) := by
    refine ⟨0, ?_, by simp⟩
    change F.round (.fin _) = _
    simp [FSys.round, F.rnd_zero, (by norm_num : (0 : ℝ) ≤ 1000000).trans F.big_ge]
  unfold tiltDoc tiltChain tiltJoint tiltPose tiltVec
  repeat' first
    | exact ho
    | exact hi
    | exact ha
    | exact hb
    | exact z
    | exact .null
    | exact .nil
    | refine .str _
    | refine .num _ _ ?_
    | refine .int _ ?_
    | refine .dict _ _ ?_
    | refine .list _ _ ?_
    | refine .cons ?_ ?_
    | refine .cons _ ?_ ?_ ?_
    | (intro h1 h2; cases h2; done)
    | (intro h1; simp at h1; done)

/-- the exact robot -/
noncomputable def tiltRobot : Robot ℝ :=
  { H := [⟨0, 3 / 5, 4 / 5⟩], P := [⟨0, 0, 1⟩, ⟨1, 0, 0⟩], jointType := [0], lower := some [0], upper := some [1], vel := some [1], acc := some [1],
    jointNames := some ["turn"], Tflange := some ⟨q2R ⟨3 / 5, 4 / 5, 0, 0⟩, ⟨0, 0, 1⟩, none, none⟩ }

theorem tilt_load (parse : String → Option ℝ) : rrLoadRobot parse tiltReal 0 = .ok tiltRobot := by
  have vec : ∀ x y z, rrToVec3 parse (tiltVec x y z) = .ok ⟨x, y, z⟩ := fun x y z => rfl
  have pose : rrToTransform parse (tiltPose 0 1 (3 / 5) (4 / 5)) = .ok ⟨q2R ⟨3 / 5, 4 / 5, 0, 0⟩, ⟨0, 0, 1⟩, none, none⟩ := rfl
  have joint : rrJoint parse (tiltJoint 0 1) = .ok ⟨0, 0, 1, 1, 1, "turn"⟩ := rfl
  have numbers : rrCheckNumbers tiltReal (.list [.int 0]) 1 = .ok () := rfl
  have hH : iscloseD (V3.norm (⟨0, 3 / 5, 4 / 5⟩ : V3 ℝ)) 1 := by
    rw [V3.norm_eq_one (by norm_num [IsUnit3] : IsUnit3 (⟨0, 3 / 5, 4 / 5⟩ : V3 ℝ))]
    left; simp
  have fin := init_rr (α := ℝ) (H := [⟨0, 3 / 5, 4 / 5⟩]) (P := [⟨0, 0, 1⟩, ⟨1, 0, 0⟩]) (jt := [0]) (lo := [0]) (up := [1]) (vel := [1]) (acc := [1])
    (tool := none) (names := ["turn"]) (root := none) (tip := none) (Tf := some ⟨q2R ⟨3 / 5, 4 / 5, 0, 0⟩, ⟨0, 0, 1⟩, none, none⟩) (Tb := none)
    (by simpa using hH) (by simp) rfl rfl rfl rfl rfl rfl rfl
  exact fin

end RRFl

/-- Non-vacuity of C107 in binary64: the document with an error in the axis and in the orientation of the flange loads, and at the joint
value 2 the orientation is within 3e-10 of the exact one. -/
example (lib : Libm) (parse : String → Option ℝ) (parse' : String → Option (Fl (b64 lib)))
    (hp : ∀ s x, parse s = some x → ∃ x', parse' s = some x' ∧ x'.Near x (2⁻¹ ^ 50 * |x|)) :
    ∃ r', rrLoadRobot parse' (RRFl.tiltRead (F := b64 lib)) 0 = .ok r' ∧ ∃ T T', fwdkin RRFl.tiltRobot [2] true = .ok T ∧ fwdkin r' [.of 2] true = .ok T' ∧
      Spec.MNear T'.R T.R (3 / 10000000000) := by
  have hu : (b64 lib).u = 2⁻¹ ^ 50 := rfl
  have big := (b64 lib).big_ge
  have eta := (b64 lib).η_le
  have u0 := (b64 lib).u_nonneg
  obtain ⟨r', l1, -, -, -, -, l2⟩ := C107_rr_rounding (2⁻¹ ^ 50) hu.le (b64_eta lib) parse' parse hp _ _
    (RRFl.tilt_near (F := b64 lib) (.of 0) (.of 1) (.of (3 / 5 + 2⁻¹ ^ 60)) (.of (4 / 5)) 0 1 (3 / 5) (4 / 5) ⟨0, rfl, by norm_num⟩ ⟨1, rfl, by norm_num⟩
      ⟨3 / 5 + 2⁻¹ ^ 60, rfl, by norm_num [abs_of_pos]⟩ ⟨4 / 5, rfl, by norm_num⟩)
    (RRFl.tilt_unit parse) RRFl.tilt_ints 0 RRFl.tiltRobot (RRFl.tilt_load parse) (by simp [RRFl.tiltRobot]; norm_num [IsUnit3]) (by simp [RRFl.tiltRobot]; norm_num)
  obtain ⟨T, hT⟩ : ∃ T, fwdkin RRFl.tiltRobot [2] true = .ok T := ⟨_, rfl⟩
  have n1 : (⟨1, 0, 0⟩ : V3 ℝ).norm = 1 := V3.norm_ex
  have n3 : (⟨0, 0, 1⟩ : V3 ℝ).norm = 1 := V3.norm_ez
  obtain ⟨T', t1, t2, -⟩ := l2 [2] [.of 2] T 10 ⟨⟨2, rfl, by simpa using u0⟩, trivial⟩ hT (by norm_num) (by linarith) (by linarith) (by
    simp [Spec.reach, Spec.travel, RRFl.tiltRobot, n1, n3]; norm_num)
  exact ⟨r', l1, T, T', hT, t1, Fl.MNear.mono t2 (by simp [RRFl.tiltRobot]; norm_num)⟩
