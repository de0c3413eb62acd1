import Verif.Props.TesseractParams
import Verif.Props.TesseractMisc

/-! # Property C98: which robots and arguments the solver plugins accept, and how others are rejected -/
set_option autoImplicit false

/-! ## Specification -/

/-- Two numbers agree to within the default tolerances of `np.allclose`. -/
def Spec.Near (a b : ℝ) : Prop := |a - b| ≤ 1 / 10 ^ 8 + 1 / 10 ^ 5 * |b|

/-- Two vectors agree component by component. -/
def Spec.Near3 (v w : V3 ℝ) : Prop := Spec.Near v.x w.x ∧ Spec.Near v.y w.y ∧ Spec.Near v.z w.z

/-- `h` points along `e`, in one direction or the other. -/
def Spec.Along (h e : V3 ℝ) : Prop := Spec.Near3 h e ∨ Spec.Near3 h (-e)

/-- Two matrices agree entry by entry, with absolute tolerance `atol`. -/
def Spec.NearM (atol : ℝ) (A B : M3 ℝ) : Prop :=
  ∀ ab ∈ A.toList.zip B.toList, |ab.1 - ab.2| ≤ atol + 1 / 10 ^ 5 * |ab.2|

/-- What the OPW parameter extraction demands of a robot: six joints; a flange frame turned by a quarter turn about y, without
translation; first axis along z, second, third and fifth along y, fourth along the last one; the first link along z; and the links of
the wrist along its axis, which is x or z. -/
def Spec.OpwAccepts (robot : Robot ℝ) : Prop :=
  ∃ h0 h1 h2 h3 h4 h5 p0 p1 p2 p3 p4 p5 p6 F, robot.H = [h0, h1, h2, h3, h4, h5] ∧ robot.P = [p0, p1, p2, p3, p4, p5, p6] ∧
    robot.Tflange = some F ∧ Spec.NearM (1 / 10 ^ 8) F.R ⟨0, 0, 1, 0, 1, 0, -1, 0, 0⟩ ∧ Spec.Near3 F.p 0 ∧
    Spec.Along h0 V3.ez ∧ Spec.Along h1 V3.ey ∧ Spec.Along h2 V3.ey ∧ Spec.Along h4 V3.ey ∧ Spec.Along h3 h5 ∧
    (|p0.x| ≤ 1 / 10 ^ 8 ∧ |p0.y| ≤ 1 / 10 ^ 8) ∧
    ((Spec.Along h5 V3.ex ∧ ∀ p ∈ [p4, p5, p6], |p.y| ≤ 1 / 10 ^ 8 ∧ |p.z| ≤ 1 / 10 ^ 8) ∨
      (Spec.Along h5 V3.ez ∧ ∀ p ∈ [p4, p5, p6], |p.x| ≤ 1 / 10 ^ 8 ∧ |p.y| ≤ 1 / 10 ^ 8))

/-- What the UR parameter extraction demands of a robot with six joints: the frames of flange and base; the axes of one of the two
conventions; the first link along z, the next three in the xy plane, the second of them along y, the next in the yz plane, the last
two along y. -/
def Spec.UrAccepts (robot : Robot ℝ) : Prop :=
  ∃ h0 h1 h2 h3 h4 h5 p0 p1 p2 p3 p4 p5 p6 F B, robot.H = [h0, h1, h2, h3, h4, h5] ∧ robot.P = [p0, p1, p2, p3, p4, p5, p6] ∧
    robot.Tflange = some F ∧ Spec.NearM (1 / 10 ^ 6) F.R ⟨1, 0, 0, 0, 0, -1, 0, 1, 0⟩ ∧ Spec.Near3 F.p 0 ∧
    robot.Tbase = some B ∧ Spec.NearM (1 / 10 ^ 6) B.R ⟨-1, 0, 0, 0, -1, 0, 0, 0, 1⟩ ∧ Spec.Near3 B.p 0 ∧
    (∃ k : ℝ, (k = 1 ∨ k = -1) ∧ Spec.Near3 h0 ⟨0, 0, k⟩ ∧ Spec.Near3 h1 ⟨0, -k, 0⟩ ∧ Spec.Near3 h2 ⟨0, -k, 0⟩ ∧
      Spec.Near3 h3 ⟨0, -k, 0⟩ ∧ Spec.Near3 h4 ⟨0, 0, -k⟩ ∧ Spec.Near3 h5 ⟨0, -k, 0⟩) ∧
    ∀ l ∈ [p0.x, p0.y, p1.x, p1.z, p2.z, p3.z, p4.x, p5.x, p6.x, p5.z, p6.z], |l| ≤ 1 / 10 ^ 8

/-! ## Auxiliary lemmas -/

theorem iscloseD_near (x y : ℝ) : iscloseD x y ↔ Spec.Near x y := by
  rw [iscloseD_iff]; unfold Spec.Near; norm_num

theorem near_zero (x : ℝ) : iscloseD x 0 ↔ |x| ≤ 1 / 10 ^ 8 := by
  rw [iscloseD_near]; unfold Spec.Near; simp

theorem allclose3_near (v w : V3 ℝ) : allclose3 v w ↔ Spec.Near3 v w := by
  unfold allclose3 Spec.Near3
  rw [iscloseD_near, iscloseD_near, iscloseD_near]

theorem axisSign_along (h e : V3 ℝ) : axisSign h e ≠ 0 ↔ Spec.Along h e := by
  unfold axisSign Spec.Along
  rw [← allclose3_near, ← allclose3_near]
  split_ifs with h1 h2 <;> simp [h1, *]

theorem allcloseM_near (A B : M3 ℝ) (q : ℚ) (hq : 0 ≤ q) : allcloseM A B (lit q) = true ↔ Spec.NearM (q : ℝ) A B := by
  unfold allcloseM Transform.allIsclose Spec.NearM
  rw [List.all_eq_true]
  refine forall_congr' fun ab => forall_congr' fun _ => ?_
  rw [decide_eq_true_iff]
  have e : isclose ab.1 ab.2 (lit (1/100000)) (lit q) ↔
      ((ab.1 ≤ ab.2 ∧ ab.2 ≤ ab.1) ∨ |ab.1 - ab.2| ≤ (q : ℝ) + ((1 / 100000 : ℚ) : ℝ) * |ab.2|) := Iff.rfl
  have h0 : (0 : ℝ) ≤ q := by exact_mod_cast hq
  rw [e]
  push_cast
  constructor
  · rintro (⟨h1, h2⟩ | h)
    · rw [le_antisymm h1 h2, sub_self, abs_zero]; positivity
    · norm_num at h ⊢; exact h
  · intro h; right; norm_num at h ⊢; exact h

theorem along_exclusive {h : V3 ℝ} (hx : Spec.Along h V3.ex) : ¬ Spec.Along h V3.ez := by
  have a : |h.z| ≤ 1 / 10 ^ 8 := by
    rcases hx with ⟨_, _, hz⟩ | ⟨_, _, hz⟩ <;> simpa [Spec.Near] using hz
  rintro (⟨_, _, hz⟩ | ⟨_, _, hz⟩)
  · simp only [Spec.Near, V3.ez, abs_one] at hz
    rw [abs_le] at a hz
    norm_num at a hz
    linarith
  · simp only [Spec.Near, V3.ez, V3.neg_z, abs_neg, abs_one, sub_neg_eq_add] at hz
    rw [abs_le] at a hz
    norm_num at a hz
    linarith

theorem pyAssert_bind_ok {β : Type} {c : Bool} {f : Unit → Except PyErr β} {b : β} :
    (pyAssert c >>= f) = .ok b ↔ c = true ∧ f () = .ok b := by
  cases c
  · constructor
    · intro h; exact absurd h (by intro h; cases h)
    · rintro ⟨h, _⟩; cases h
  · exact ⟨fun h => ⟨rfl, h⟩, fun h => h.2⟩

/-- A step that can only raise AssertionError. -/
def OnlyAssert {β : Type} (x : Except PyErr β) : Prop := ∀ e, x = .error e → e = .assertion

theorem OnlyAssert.bind {β : Type} {c : Bool} {f : Unit → Except PyErr β} (h : OnlyAssert (f ())) : OnlyAssert (pyAssert c >>= f) := by
  intro e he
  cases c
  · cases he; rfl
  · exact h e he

theorem OnlyAssert.error_of {β : Type} {x : Except PyErr β} (h : OnlyAssert x) (hn : ¬ ∃ b, x = .ok b) : x = .error .assertion := by
  cases x with
  | ok b => exact absurd ⟨b, rfl⟩ hn
  | error e => rw [h e rfl]

theorem params_ok_iff (s : OpwState ℝ) (p0 p1 h0 h1 : V3 ℝ) (hs : iscloseD s.p2.x 0) :
    (∃ q, s.params p0 p1 h0 h1 = .ok q) ↔ (|p0.x| ≤ 1 / 10 ^ 8 ∧ |p0.y| ≤ 1 / 10 ^ 8) ∧
      ∀ p ∈ [s.p4, s.p5, s.p6], |p.x| ≤ 1 / 10 ^ 8 ∧ |p.y| ≤ 1 / 10 ^ 8 := by
  unfold OpwState.params
  simp only [pyAssert_bind_ok, Bool.and_eq_true, decide_eq_true_iff, List.all_eq_true, near_zero]
  rw [near_zero] at hs
  constructor
  · rintro ⟨q, h1, h2, h3, h4⟩
    exact ⟨h1, h2⟩
  · rintro ⟨h1, h2⟩
    exact ⟨_, h1, h2, hs, rfl⟩

theorem straighten_x (s : OpwState ℝ) : iscloseD s.straighten.p2.x 0 := by
  unfold OpwState.straighten
  split_ifs with hc
  · exact hc
  · simp only
    rw [rot_ey_mulVec]
    obtain ⟨h1, h2⟩ := polar_arg s.p2.z s.p2.x
    have : Real.cos (-Elem.arctan2 s.p2.x s.p2.z) * s.p2.x + Real.sin (-Elem.arctan2 s.p2.x s.p2.z) * s.p2.z = 0 := by
      show Real.cos (-Complex.arg ⟨s.p2.z, s.p2.x⟩) * s.p2.x + Real.sin (-Complex.arg ⟨s.p2.z, s.p2.x⟩) * s.p2.z = 0
      rw [Real.cos_neg, Real.sin_neg]
      generalize Real.sqrt (s.p2.z * s.p2.z + s.p2.x * s.p2.x) = k at h1 h2
      generalize Complex.arg ⟨s.p2.z, s.p2.x⟩ = φ at h1 h2 ⊢
      rw [← h1, ← h2]; ring
    show iscloseD (_ + _) (0 : ℝ)
    rw [this]
    exact iscloseD_self 0

theorem straighten_wrist (s : OpwState ℝ) : s.straighten.p4 = s.p4 ∧ s.straighten.p5 = s.p5 ∧ s.straighten.p6 = s.p6 ∧
    s.straighten.h2 = s.h2 ∧ s.straighten.h3 = s.h3 ∧ s.straighten.h4 = s.h4 ∧ s.straighten.h5 = s.h5 := by
  unfold OpwState.straighten
  split_ifs <;> exact ⟨rfl, rfl, rfl, rfl, rfl, rfl, rfl⟩

/-- The quarter turn that takes a horizontal forearm to a vertical one. -/
theorem bend_mulVec (v : V3 ℝ) : (rot V3.ey (-Elem.pi / lit 2)).mulVec v = ⟨-v.z, v.y, v.x⟩ := by
  rw [bend_rot]; ext <;> simp

theorem bend_wrist (s : OpwState ℝ) (h : Spec.Along s.h5 V3.ex) : s.bend.p4 = ⟨-s.p4.z, s.p4.y, s.p4.x⟩ ∧
    s.bend.p5 = ⟨-s.p5.z, s.p5.y, s.p5.x⟩ ∧ s.bend.p6 = ⟨-s.p6.z, s.p6.y, s.p6.x⟩ := by
  unfold OpwState.bend
  rw [if_pos ((axisSign_along _ _).2 h)]
  split_ifs <;> exact ⟨bend_mulVec _, bend_mulVec _, bend_mulVec _⟩

theorem flangeM : (rot V3.ey (Elem.pi / lit 2) : M3 ℝ) = ⟨0, 0, 1, 0, 1, 0, -1, 0, 0⟩ := by
  have : (Elem.pi / lit 2 : ℝ) = Real.pi / 2 := flange_lit
  rw [this]
  ext <;> simp [rot]

theorem OnlyAssert.opw (robot : Robot ℝ) (hc : robot.H.length = robot.jointType.length) (hc' : robot.P.length = robot.jointType.length + 1) :
    OnlyAssert (robotToOpw robot) := by
  unfold robotToOpw
  cases robot.Tflange with
  | none => intro e he; cases he; rfl
  | some F =>
    refine OnlyAssert.bind (OnlyAssert.bind ?_)
    intro e he
    by_cases h6 : robot.jointType.length = 6
    · rw [h6] at hc hc'
      obtain ⟨h0, h1, h2, h3, h4, h5, hH⟩ : ∃ h0 h1 h2 h3 h4 h5, robot.H = [h0, h1, h2, h3, h4, h5] := by
        match h : robot.H, hc with
        | [h0, h1, h2, h3, h4, h5], _ => exact ⟨h0, h1, h2, h3, h4, h5, rfl⟩
      obtain ⟨p0, p1, p2, p3, p4, p5, p6, hP⟩ : ∃ p0 p1 p2 p3 p4 p5 p6, robot.P = [p0, p1, p2, p3, p4, p5, p6] := by
        match h : robot.P, hc' with
        | [p0, p1, p2, p3, p4, p5, p6], _ => exact ⟨p0, p1, p2, p3, p4, p5, p6, rfl⟩
      rw [hH, hP] at he
      refine (OnlyAssert.bind (OnlyAssert.bind (OnlyAssert.bind (OnlyAssert.bind (OnlyAssert.bind (OnlyAssert.bind (OnlyAssert.bind ?_))))))) e he
      unfold OpwState.params
      refine OnlyAssert.bind (OnlyAssert.bind (OnlyAssert.bind ?_))
      intro e he; cases he
    · have : (robot.jointType.length == 6) = false := by simpa using h6
      rw [this] at he
      cases he; rfl

theorem opw_ok_iff (robot : Robot ℝ) (hc : robot.H.length = robot.jointType.length) :
    (∃ q, robotToOpw robot = .ok q) ↔ Spec.OpwAccepts robot := by
  have key : ∀ h0 h1 h2 h3 h4 h5 p0 p1 p2 p3 p4 p5 p6 F, robot.H = [h0, h1, h2, h3, h4, h5] → robot.P = [p0, p1, p2, p3, p4, p5, p6] →
      robot.Tflange = some F → ((∃ q, robotToOpw robot = .ok q) ↔ (Spec.NearM (1 / 10 ^ 8) F.R ⟨0, 0, 1, 0, 1, 0, -1, 0, 0⟩ ∧
      Spec.Near3 F.p 0 ∧ Spec.Along h0 V3.ez ∧ Spec.Along h1 V3.ey ∧ Spec.Along h2 V3.ey ∧ Spec.Along h4 V3.ey ∧ Spec.Along h3 h5 ∧
      (|p0.x| ≤ 1 / 10 ^ 8 ∧ |p0.y| ≤ 1 / 10 ^ 8) ∧
      ((Spec.Along h5 V3.ex ∧ ∀ p ∈ [p4, p5, p6], |p.y| ≤ 1 / 10 ^ 8 ∧ |p.z| ≤ 1 / 10 ^ 8) ∨
        (Spec.Along h5 V3.ez ∧ ∀ p ∈ [p4, p5, p6], |p.x| ≤ 1 / 10 ^ 8 ∧ |p.y| ≤ 1 / 10 ^ 8)))) := by
    intro h0 h1 h2 h3 h4 h5 p0 p1 p2 p3 p4 p5 p6 F hH hP hF
    rw [hH] at hc
    have h6 : (robot.jointType.length == 6) = true := by simpa using hc.symm
    unfold robotToOpw
    rw [hH, hP, hF]
    simp only [pyAssert_bind_ok, h6, true_and, exists_and_left, bne_iff_ne, Bool.or_eq_true, axisSign_along, decide_eq_true_iff,
      allclose3_near, flangeM]
    rw [params_ok_iff _ _ _ _ _ (straighten_x _), (straighten_wrist _).1, (straighten_wrist _).2.1, (straighten_wrist _).2.2.1,
      show (lit (1/100000000) : ℝ) = lit (1 / 100000000 : ℚ) from rfl, allcloseM_near _ _ _ (by norm_num),
      show ((1 / 100000000 : ℚ) : ℝ) = 1 / 10 ^ 8 by norm_num]
    refine and_congr_right fun _ => and_congr_right fun _ => and_congr_right fun _ => and_congr_right fun _ => and_congr_right fun _ =>
      and_congr_right fun _ => and_congr_right fun _ => ?_
    by_cases hx : Spec.Along h5 V3.ex
    · obtain ⟨e4, e5, e6⟩ := bend_wrist ⟨p2, p3, p4, p5, p6, h2, h3, h4, h5, 0, 0⟩ hx
      rw [e4, e5, e6]
      simp only [hx, along_exclusive hx, or_true, true_and, false_and, or_false, List.mem_cons, List.not_mem_nil, or_false,
        forall_eq_or_imp, forall_eq, abs_neg]
      tauto
    · have hb : OpwState.bend (⟨p2, p3, p4, p5, p6, h2, h3, h4, h5, 0, 0⟩ : OpwState ℝ) = ⟨p2, p3, p4, p5, p6, h2, h3, h4, h5, 0, 0⟩ := by
        unfold OpwState.bend
        rw [if_neg (by rw [axisSign_along]; exact hx)]
      rw [hb]
      simp only [hx, false_and, false_or, or_false]
      tauto
  constructor
  · rintro ⟨q, h⟩
    have h' := h
    unfold robotToOpw at h'
    cases hF : robot.Tflange with
    | none => rw [hF] at h'; cases h'
    | some F =>
      rw [hF] at h'
      simp only [pyAssert_bind_ok] at h'
      obtain ⟨_, _, h6, h'⟩ := h'
      split at h'
      · rename_i h0 h1 h2 h3 h4 h5 p0 p1 p2 p3 p4 p5 p6 hH hP
        exact ⟨h0, h1, h2, h3, h4, h5, p0, p1, p2, p3, p4, p5, p6, F, hH, hP, hF, (key _ _ _ _ _ _ _ _ _ _ _ _ _ _ hH hP hF).1 ⟨q, h⟩⟩
      · cases h'
  · rintro ⟨h0, h1, h2, h3, h4, h5, p0, p1, p2, p3, p4, p5, p6, F, hH, hP, hF, h⟩
    exact (key _ _ _ _ _ _ _ _ _ _ _ _ _ _ hH hP hF).2 h

/-! ## C98 -/

/-- C98: for every robot with matrices of the right sizes, the OPW parameters are computed if the robot meets the demands listed in
`Spec.OpwAccepts`, and otherwise AssertionError is raised; no other exception is. -/
theorem C98_opw (robot : Robot ℝ) (hc : robot.H.length = robot.jointType.length) (hc' : robot.P.length = robot.jointType.length + 1) :
    (Spec.OpwAccepts robot → ∃ q, robotToOpw robot = .ok q) ∧
    (¬ Spec.OpwAccepts robot → robotToOpw robot = .error .assertion) := by
  refine ⟨(opw_ok_iff robot hc).2, fun h => (OnlyAssert.opw robot hc hc').error_of fun hq => h ((opw_ok_iff robot hc).1 hq)⟩

/-- A demand that is not met, on a robot that meets all others: a first link that is not vertical is rejected. -/
theorem C98_opw_first_link (robot : Robot ℝ) (hc : robot.H.length = robot.jointType.length)
    (hc' : robot.P.length = robot.jointType.length + 1) (p0 : V3 ℝ) (ps : List (V3 ℝ)) (hP : robot.P = p0 :: ps)
    (h : 1 / 10 ^ 8 < |p0.x| ∨ 1 / 10 ^ 8 < |p0.y|) : robotToOpw robot = .error .assertion := by
  refine (C98_opw robot hc hc').2 ?_
  rintro ⟨_, _, _, _, _, _, q0, _, _, _, _, _, _, _, _, hP', _, _, _, _, _, _, _, _, ⟨hx, hy⟩, _⟩
  rw [hP] at hP'
  obtain ⟨rfl, _⟩ := List.cons.inj hP'
  rcases h with h | h <;> linarith

theorem turn_pi : (rot V3.ez Elem.pi : M3 ℝ) = ⟨-1, 0, 0, 0, -1, 0, 0, 0, 1⟩ := by
  show (rot V3.ez Real.pi : M3 ℝ) = _
  ext <;> simp [rot] <;> norm_num

theorem urParams_ok_iff (p0 p1 p2 p3 p4 p5 p6 : V3 ℝ) : (∃ q, urParams [p0, p1, p2, p3, p4, p5, p6] = .ok q) ↔
    ∀ l ∈ [p0.x, p0.y, p1.x, p1.z, p2.z, p3.z, p4.x, p5.x, p6.x, p5.z, p6.z], |l| ≤ 1 / 10 ^ 8 := by
  unfold urParams
  simp only [pyAssert_bind_ok, Bool.and_eq_true, decide_eq_true_iff, near_zero, exists_and_left, List.mem_cons,
    List.not_mem_nil, or_false, forall_eq_or_imp, forall_eq, List.all_cons, List.all_nil, and_true]
  constructor
  · rintro ⟨h1, h2, h3, h4, h5, h6, _⟩
    tauto
  · intro h
    refine ⟨?_, ?_, ?_, ?_, ?_, ?_, _, rfl⟩ <;> tauto

theorem six_of_length {β : Type} {l : List β} (h : l.length = 6) : ∃ a b c d e f, l = [a, b, c, d, e, f] := by
  match l, h with
  | [a, b, c, d, e, f], _ => exact ⟨a, b, c, d, e, f, rfl⟩

theorem seven_of_length {β : Type} {l : List β} (h : l.length = 7) : ∃ a b c d e f g, l = [a, b, c, d, e, f, g] := by
  match l, h with
  | [a, b, c, d, e, f, g], _ => exact ⟨a, b, c, d, e, f, g, rfl⟩

theorem ur_ok_iff (robot : Robot ℝ) : (∃ q, robotToUr robot = .ok q) ↔ Spec.UrAccepts robot := by
  have key : ∀ h0 h1 h2 h3 h4 h5 p0 p1 p2 p3 p4 p5 p6 F B, robot.H = [h0, h1, h2, h3, h4, h5] → robot.P = [p0, p1, p2, p3, p4, p5, p6] →
      robot.Tflange = some F → robot.Tbase = some B → ((∃ q, robotToUr robot = .ok q) ↔
      (Spec.NearM (1 / 10 ^ 6) F.R ⟨1, 0, 0, 0, 0, -1, 0, 1, 0⟩ ∧ Spec.Near3 F.p 0 ∧
      Spec.NearM (1 / 10 ^ 6) B.R ⟨-1, 0, 0, 0, -1, 0, 0, 0, 1⟩ ∧ Spec.Near3 B.p 0 ∧
      (∃ k : ℝ, (k = 1 ∨ k = -1) ∧ Spec.Near3 h0 ⟨0, 0, k⟩ ∧ Spec.Near3 h1 ⟨0, -k, 0⟩ ∧ Spec.Near3 h2 ⟨0, -k, 0⟩ ∧
        Spec.Near3 h3 ⟨0, -k, 0⟩ ∧ Spec.Near3 h4 ⟨0, 0, -k⟩ ∧ Spec.Near3 h5 ⟨0, -k, 0⟩) ∧
      ∀ l ∈ [p0.x, p0.y, p1.x, p1.z, p2.z, p3.z, p4.x, p5.x, p6.x, p5.z, p6.z], |l| ≤ 1 / 10 ^ 8)) := by
    intro h0 h1 h2 h3 h4 h5 p0 p1 p2 p3 p4 p5 p6 F B hH hP hF hB
    unfold robotToUr
    rw [hH, hP, hF, hB]
    have hM : M3.ofCols V3.ex V3.ez (-V3.ey) = (⟨1, 0, 0, 0, 0, -1, 0, 1, 0⟩ : M3 ℝ) := by ext <;> simp [M3.ofCols]
    simp only [pyAssert_bind_ok, exists_and_left, decide_eq_true_iff, allclose3_near, turn_pi, hM, sixCols, List.length_cons, List.length_nil]
    rw [if_neg (by decide)]
    simp only [pyAssert_bind_ok, exists_and_left, Bool.or_eq_true]
    rw [show (lit (1/1000000) : ℝ) = lit (1 / 1000000 : ℚ) from rfl, allcloseM_near _ _ _ (by norm_num), allcloseM_near _ _ _ (by norm_num),
      show ((1 / 1000000 : ℚ) : ℝ) = 1 / 10 ^ 6 by norm_num]
    refine and_congr_right fun _ => and_congr_right fun _ => and_congr_right fun _ => and_congr_right fun _ => and_congr ?_ ?_
    · simp only [urAxes, List.zip_cons_cons, List.zip_nil_right, List.all_cons, List.all_nil, Bool.and_eq_true, decide_eq_true_iff,
        and_true, allclose3_near]
      have e1 : (V3.ez : V3 ℝ) = ⟨0, 0, 1⟩ := rfl
      have e2 : (V3.ey : V3 ℝ) = ⟨0, 1, 0⟩ := rfl
      have en : ∀ x y z : ℝ, -(⟨x, y, z⟩ : V3 ℝ) = ⟨-x, -y, -z⟩ := fun _ _ _ => rfl
      simp only [e1, e2, en, neg_zero, neg_neg]
      constructor
      · rintro (h | h)
        · exact ⟨1, Or.inl rfl, h⟩
        · exact ⟨-1, Or.inr rfl, by simpa only [neg_neg] using h⟩
      · rintro ⟨k, rfl | rfl, h⟩
        · exact Or.inl h
        · exact Or.inr (by simpa only [neg_neg] using h)
    · split_ifs
      · simp only [List.map_cons, List.map_nil]
        rw [urParams_ok_iff]
        simp only [List.mem_cons, List.not_mem_nil, or_false, forall_eq_or_imp, forall_eq, M3.mulVec]
        norm_num
      · exact urParams_ok_iff ..
  constructor
  · rintro ⟨q, h⟩
    have h' := h
    unfold robotToUr at h'
    cases hF : robot.Tflange with
    | none => rw [hF] at h'; cases h'
    | some F =>
      cases hB : robot.Tbase with
      | none =>
        rw [hF, hB] at h'
        simp only [pyAssert_bind_ok] at h'
        exact absurd h'.2.2 (by simp)
      | some B =>
        rw [hF, hB] at h'
        simp only [pyAssert_bind_ok] at h'
        obtain ⟨_, _, _, _, h'⟩ := h'
        by_cases h6 : (sixCols robot.H).length ≠ 6
        · rw [if_pos h6] at h'; cases h'
        rw [if_neg h6] at h'
        simp only [pyAssert_bind_ok] at h'
        have h6' : robot.H.length = 6 := by
          rcases sixCols_length (not_not.1 h6) with h6 | ⟨x, hx⟩
          · exact h6
          · have := h'.1
            rw [hx, (one_axis x).1, (one_axis x).2] at this
            cases this
        obtain ⟨h0, h1, h2, h3, h4, h5, hH⟩ := six_of_length h6'
        have seven : ∀ (P : List (V3 ℝ)) q, urParams P = .ok q → P.length = 7 := by
          intro P q h
          unfold urParams at h
          split at h
          · rfl
          · cases h
        have hP : robot.P.length = 7 := by
          have := seven _ _ h'.2
          split_ifs at this
          · simpa using this
          · exact this
        obtain ⟨p0, p1, p2, p3, p4, p5, p6, hP⟩ := seven_of_length hP
        obtain ⟨a, b, c, d, e⟩ := (key _ _ _ _ _ _ _ _ _ _ _ _ _ _ _ hH hP hF hB).1 ⟨q, h⟩
        exact ⟨h0, h1, h2, h3, h4, h5, p0, p1, p2, p3, p4, p5, p6, F, B, hH, hP, hF, a, b, hB, c, d, e⟩
  · rintro ⟨h0, h1, h2, h3, h4, h5, p0, p1, p2, p3, p4, p5, p6, F, B, hH, hP, hF, a, b, hB, c, d, e⟩
    exact (key _ _ _ _ _ _ _ _ _ _ _ _ _ _ _ hH hP hF hB).2 ⟨a, b, c, d, e⟩

theorem OnlyAssert.ur (robot : Robot ℝ) (h : robot.H.length = 6 ∧ robot.P.length = 7 ∨ robot.H.length = 1) :
    OnlyAssert (robotToUr robot) := by
  unfold robotToUr
  cases robot.Tflange with
  | none => intro e he; cases he; rfl
  | some F =>
    refine OnlyAssert.bind (OnlyAssert.bind ?_)
    cases robot.Tbase with
    | none => intro e he; cases he; rfl
    | some B =>
      refine OnlyAssert.bind (OnlyAssert.bind ?_)
      rcases h with ⟨h6, h7⟩ | h1
      swap
      · obtain ⟨x, hx⟩ := List.length_eq_one_iff.1 h1
        rw [hx, (one_axis x).1, (one_axis x).2, if_neg (by simp [sixCols])]
        intro e he; cases he; rfl
      rw [sixCols_six h6, if_neg (not_not.2 h6)]
      refine OnlyAssert.bind ?_
      obtain ⟨p0, p1, p2, p3, p4, p5, p6, hP⟩ := seven_of_length h7
      have : ∀ p0 p1 p2 p3 p4 p5 p6 : V3 ℝ, OnlyAssert (urParams [p0, p1, p2, p3, p4, p5, p6]) := by
        intros
        unfold urParams
        refine OnlyAssert.bind (OnlyAssert.bind (OnlyAssert.bind (OnlyAssert.bind (OnlyAssert.bind (OnlyAssert.bind ?_)))))
        intro e he; cases he
      rw [hP]
      split_ifs
      · exact this _ _ _ _ _ _ _
      · exact this _ _ _ _ _ _ _

/-- C98: the UR parameters of a robot with six joints (or one) are computed if it meets the demands listed in `Spec.UrAccepts`, and otherwise
AssertionError is raised. -/
theorem C98_ur (robot : Robot ℝ) (hl : robot.H.length = 6 ∧ robot.P.length = 7 ∨ robot.H.length = 1) :
    (Spec.UrAccepts robot → ∃ q, robotToUr robot = .ok q) ∧
    (¬ Spec.UrAccepts robot → robotToUr robot = .error .assertion) :=
  ⟨(ur_ok_iff robot).2, fun h => (OnlyAssert.ur robot hl).error_of fun hq => h ((ur_ok_iff robot).1 hq)⟩

/-- C98 fails for a robot with another number of joints (but one, whose axis numpy compares with all six): with the frames that the
function asks for, ValueError is raised by the comparison of arrays of different shapes instead of AssertionError. -/
theorem C98_ur_joints_false (robot : Robot ℝ) (h6 : robot.H.length ≠ 6) (h1 : robot.H.length ≠ 1) (F B : Transform ℝ)
    (hF : robot.Tflange = some F) (hFR : F.R = ⟨1, 0, 0, 0, 0, -1, 0, 1, 0⟩) (hFp : F.p = 0)
    (hB : robot.Tbase = some B) (hBR : B.R = ⟨-1, 0, 0, 0, -1, 0, 0, 0, 1⟩) (hBp : B.p = 0) :
    robotToUr robot = .error .value := by
  have hM : M3.ofCols V3.ex V3.ez (-V3.ey) = (⟨1, 0, 0, 0, 0, -1, 0, 1, 0⟩ : M3 ℝ) := by ext <;> simp [M3.ofCols]
  have h6 : (sixCols robot.H).length ≠ 6 := fun h => by
    rcases sixCols_length h with h | ⟨x, hx⟩
    · exact h6 h
    · exact h1 (by rw [hx]; rfl)
  unfold robotToUr
  rw [hF, hB]
  simp only []
  rw [hFR, hFp, hBR, hBp, turn_pi, hM, pyAssert_true (allcloseM_self _ _), pyAssert_true (decide_eq_true (allclose3_self 0)),
    pyAssert_true (allcloseM_self _ _), if_pos h6]
  rfl

/-- C98: the documented string for `invkin_plugin_info` raises TypeError if it has two characters and ValueError otherwise, whatever
the robot and the other arguments (given that there are links to take the ends of the chain from). -/
theorem C98_string_override (robot : Robot ℝ) (name : String) (links chain : List String) (hl : links ≠ [])
    (base tip solver : Option String) (s : String) :
    pluginInfoDict robot name links chain solver (some (.str s)) base tip =
      .error (if s.length = 2 then .type else .value) := by
  obtain ⟨a, l, rfl⟩ := List.exists_cons_of_ne_nil hl
  have hlast : ∃ b, (a :: l).getLast? = some b := ⟨_, List.getLast?_eq_some_getLast (by simp)⟩
  obtain ⟨b, hb⟩ := hlast
  have h1 : ∃ x, orElseGet base (a :: l).head? = .ok x := by cases base <;> exact ⟨_, rfl⟩
  have h2 : ∃ x, orElseGet tip (a :: l).getLast? = .ok x := by rw [hb]; cases tip <;> exact ⟨_, rfl⟩
  obtain ⟨x, hx⟩ := h1
  obtain ⟨y, hy⟩ := h2
  simp only [pluginInfoDict, hx, hy, Except.bind_ok, invkinInfo, String.length_toList]
  split_ifs <;> rfl

/-- A robot that meets the hypotheses of `C98_ur`, and is accepted. -/
example (k : ℝ) (hk : k = 1 ∨ k = -1) : (exUr k 0).H.length = 6 ∧ (exUr k 0).P.length = 7 ∧ Spec.UrAccepts (exUr k 0) := by
  have z : ∀ v : V3 ℝ, Spec.Near3 v v := fun v => by
    refine ⟨?_, ?_, ?_⟩ <;> (unfold Spec.Near; rw [sub_self, abs_zero]; positivity)
  refine ⟨rfl, rfl, _, _, _, _, _, _, _, _, _, _, _, _, _, _, _, rfl, rfl, rfl, ?_, z 0, rfl, ?_, z 0,
    ⟨k, hk, z _, z _, z _, z _, z _, z _⟩, ?_⟩
  · simp [Spec.NearM, M3.toList]; positivity
  · show Spec.NearM _ (rot V3.ez Elem.pi) _
    rw [turn_pi]
    simp [Spec.NearM, M3.toList]; positivity
  · norm_num

/-- A robot that meets the hypotheses of `C98_ur_joints_false`: the same arm without its last joint. -/
example : ∃ robot : Robot ℝ, robot.H.length = 5 ∧ robot.P.length = 6 ∧ (∃ F, robot.Tflange = some F ∧ F.R = ⟨1, 0, 0, 0, 0, -1, 0, 1, 0⟩ ∧ F.p = 0) ∧
    ∃ B, robot.Tbase = some B ∧ B.R = ⟨-1, 0, 0, 0, -1, 0, 0, 0, 1⟩ ∧ B.p = 0 := by
  refine ⟨{ exUr 1 0 with H := (exUr 1 0).H.dropLast, P := (exUr 1 0).P.dropLast }, rfl, rfl, ⟨_, rfl, rfl, rfl⟩, _, rfl, ?_, rfl⟩
  exact turn_pi

/-- A robot that meets the hypotheses of `C98_opw_first_link`, an arm beside its base. -/
example : ∃ robot : Robot ℝ, robot.H.length = robot.jointType.length ∧ robot.P.length = robot.jointType.length + 1 ∧
    ∃ p0 ps, robot.P = p0 :: ps ∧ 1 / 10 ^ 8 < |p0.x| :=
  ⟨{ exAbb with P := ⟨1, 0, 0⟩ :: exAbb.P.tail }, rfl, rfl, _, _, rfl, by norm_num⟩
