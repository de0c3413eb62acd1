import Verif.Lemmas.Invkin
import Verif.Props.Normalize

/-!
# Properties C31, C33, C34, C36: limits, side effects and ordering of the inverse kinematics
-/
set_option autoImplicit false

section
variable {α : Type} [Add α] [Sub α] [Mul α] [Div α] [Neg α] [Zero α] [One α] [LT α] [LE α]
  [DecidableLT α] [DecidableLE α] [Elem α]

theorem normLast_inLims {l u x t r : α} (h : normLast (some (l, u)) x t = .ok r) (h1 : l < t) (h2 : t < u) : l < r ∧ r < u := by
  unfold normLast at h
  simp only at h
  split_ifs at h
  · split at h
    · cases h
    · split at h
      · rename_i t' ht'
        cases h
        simpa using List.find?_some ht'
      · cases h
  · cases h; exact ⟨h1, h2⟩

theorem normLimits_inLims (c1 : ∀ a b : α, a + b = b + a) {l u x t : α} (h : normLimits l u x = some t) : l < t ∧ t < u := by
  unfold normLimits at h
  simp only at h
  split_ifs at h with h1 h2 h3
  · cases h; exact h1
  · cases h; rwa [c1]
  · cases h; rwa [c1]

/-- whatever `normalize` returns is inside the limits -/
theorem normalize_inLimits (c1 : ∀ a b : α, a + b = b + a) {robot : Robot α} {last : Option (List α)} {ignore : Bool} {j : Nat} {θ t : α}
    (h : (Normalizer.ofRobot robot last ignore).normalize j θ = .ok (some t)) : Spec.inLimits robot ignore j t := by
  intro hi lo up hlo hup l u hl hu
  subst hi
  have hlim : (Normalizer.ofRobot robot last false).limits = some (lo, up) := by simp [Normalizer.ofRobot, hlo, hup]
  have hlast : (Normalizer.ofRobot robot last false).last = last := rfl
  simp only [Normalizer.normalize, hlim, hlast, getI_some hl, getI_some hu, Except.bind_ok, Except.pure_eq] at h
  rcases hn : normLimits l u θ with _ | t0
  · rw [hn] at h; simp at h
  · rw [hn] at h
    obtain ⟨a, b⟩ := normLimits_inLims c1 hn
    rcases last with _ | last
    · simp at h; subst h; exact ⟨a, b⟩
    · simp only at h
      obtain ⟨x, -, h⟩ := Except.bind_eq_ok h
      obtain ⟨r, h3, h⟩ := Except.bind_eq_ok h
      cases h
      exact normLast_inLims h3 a b

end

theorem XReal.add_comm' (a b : XReal) : a + b = b + a := by
  cases a <;> cases b <;> first | rfl | (rw [XReal.fin_add, XReal.fin_add, add_comm])

/-! ## C31 -/

section
variable {α : Type} [Add α] [Sub α] [Mul α] [Div α] [Neg α] [Zero α] [One α] [LT α] [LE α]
  [DecidableLT α] [DecidableLE α] [Elem α]

/-- every returned solution has six entries which came out of the normalizer -/
theorem r6Search_mem {H P : List (V3 α)} {N : Normalizer α} {R06 : M3 α} {p0T : V3 α} {sols : List (List α)}
    (h : r6Search H P N R06 p0T = .ok sols) {s : List α} (hs : s ∈ sols) :
    ∃ q1 q2 q3 q4 q5 q6, s = [q1, q2, q3, q4, q5, q6] ∧ (∃ θ, N.normalize 0 θ = .ok (some q1)) ∧
      (∃ θ, N.normalize 1 θ = .ok (some q2)) ∧ (∃ θ, N.normalize 2 θ = .ok (some q3)) ∧ (∃ θ, N.normalize 3 θ = .ok (some q4)) ∧
      (∃ θ, N.normalize 4 θ = .ok (some q5)) ∧ (∃ θ, N.normalize 5 θ = .ok (some q6)) := by
  unfold r6Search at h
  split at h
  swap
  · cases h
  obtain ⟨Q1, e1, h⟩ := Except.bind_eq_ok h
  obtain ⟨q1, m1, s1, h, hs⟩ := mem_forAppend h hs
  obtain ⟨θ1, -, n1⟩ := callS_mem e1 m1
  obtain ⟨Q3, -, h⟩ := Except.bind_eq_ok h
  obtain ⟨Q3', e3, h⟩ := Except.bind_eq_ok h
  obtain ⟨q3, m3, s3, h, hs⟩ := mem_forAppend h hs
  obtain ⟨θ3, -, n3⟩ := callS_mem e3 m3
  obtain ⟨q2r, -, h⟩ := Except.bind_eq_ok h
  obtain ⟨q2, e2, h⟩ := Except.bind_eq_ok h
  rcases q2 with _ | q2
  · cases h; cases hs
  have n2 := one_mem e2
  obtain ⟨Q45, -, h⟩ := Except.bind_eq_ok h
  obtain ⟨Q45', e45, h⟩ := Except.bind_eq_ok h
  obtain ⟨t, m45, s45, h, hs⟩ := mem_forAppend h hs
  obtain ⟨θ45, mθ, n45⟩ := callV_mem e45 m45
  rw [List.mem_map] at mθ
  obtain ⟨⟨a, b⟩, -, rfl⟩ := mθ
  obtain ⟨q4, _, n4, n45', rfl⟩ := List.forall₂_cons_left_iff.1 n45
  obtain ⟨q5, _, n5, n45'', rfl⟩ := List.forall₂_cons_left_iff.1 n45'
  cases n45''
  obtain ⟨q6r, -, h⟩ := Except.bind_eq_ok h
  obtain ⟨q6, e6, h⟩ := Except.bind_eq_ok h
  rcases q6 with _ | q6
  · cases h; cases hs
  cases h
  rw [List.mem_singleton] at hs
  exact ⟨q1, q2, q3, q4, q5, q6, hs, ⟨_, n1⟩, ⟨_, n2⟩, ⟨_, n3⟩, ⟨_, n4⟩, ⟨_, n5⟩, ⟨_, one_mem e6⟩⟩

theorem sortByLast_mem {rows sols : List (List α)} {last : Option (List α)} (h : sortByLast rows last = .ok sols) :
    sols.Perm rows := by
  rcases last with _ | last
  · cases h; exact .refl _
  · obtain ⟨d, h1, h2⟩ := Except.bind_eq_ok h
    cases h2
    refine (argsortBy_perm d).trans (List.Perm.of_eq ?_)
    unfold rowDist at h1
    split_ifs at h1
    have := forall₂_of_mapM h1
    clear h h1
    rename_i hne
    clear hne
    induction this with
    | nil => rfl
    | cons h1 h2 ih =>
      obtain ⟨x, -, h3⟩ := Except.bind_eq_ok h1
      cases h3
      simp [ih]

end

/-- C31: every joint vector returned by `robot6_sphericalwrist_invkin`, for every robot, pose (finite or not) and last joint
values, has six entries, each strictly inside the limits of the robot. -/
theorem C31_robot6_limits (robot : Robot XReal) (pose : Transform XReal) (last : Option (List XReal)) (sols : List (List XReal))
    (h : (robot6_sphericalwrist_invkin robot pose last).2 = .ok sols) (s : List XReal) (hs : s ∈ sols) :
    s.length = 6 ∧ ∀ j t, s[j]? = some t → Spec.inLimits robot false j t := by
  unfold robot6_sphericalwrist_invkin at h
  obtain ⟨-, -, h⟩ := Except.bind_eq_ok h
  obtain ⟨rows, h1, h⟩ := Except.bind_eq_ok h
  obtain ⟨q1, q2, q3, q4, q5, q6, rfl, ⟨_, n1⟩, ⟨_, n2⟩, ⟨_, n3⟩, ⟨_, n4⟩, ⟨_, n5⟩, ⟨_, n6⟩⟩ :=
    r6Search_mem h1 ((sortByLast_mem h).mem_iff.1 hs)
  refine ⟨rfl, fun j t hj => ?_⟩
  match j, hj with
  | 0, hj => cases hj; exact normalize_inLimits XReal.add_comm' n1
  | 1, hj => cases hj; exact normalize_inLimits XReal.add_comm' n2
  | 2, hj => cases hj; exact normalize_inLimits XReal.add_comm' n3
  | 3, hj => cases hj; exact normalize_inLimits XReal.add_comm' n4
  | 4, hj => cases hj; exact normalize_inLimits XReal.add_comm' n5
  | 5, hj => cases hj; exact normalize_inLimits XReal.add_comm' n6

theorem XReal.le_of_lt {a b : XReal} (h : a < b) : a ≤ b := by
  rw [XReal.lt_iff] at h; rw [XReal.le_iff]
  cases a <;> cases b <;> simp_all [XReal.lt, XReal.le, _root_.le_of_lt]

/-- C31: hence `fwdkin` accepts every solution. -/
theorem C31_robot6_accepted (robot : Robot XReal) (hz : robot.Sized) (hn : robot.H.length = 6) (lo up : List XReal)
    (hlo : robot.lower = some lo) (hup : robot.upper = some up) (ll : lo.length = robot.H.length) (lu : up.length = robot.H.length)
    (pose : Transform XReal) (last : Option (List XReal)) (sols : List (List XReal))
    (h : (robot6_sphericalwrist_invkin robot pose last).2 = .ok sols) (s : List XReal) (hs : s ∈ sols) :
    ∃ T, fwdkin robot s = .ok T ∧ fwdkin robot s true = .ok T := by
  obtain ⟨l6, hin⟩ := C31_robot6_limits robot pose last sols h s hs
  have ls : s.length = robot.H.length := by rw [l6, hn]
  obtain ⟨T, hT⟩ := fwdkin_ok hz ls
  refine ⟨T, ?_, hT⟩
  rw [((C18_limits robot hz s lo up hlo hup ll lu ls).2.2 ?_).1, hT]
  intro i hi
  obtain ⟨a, b⟩ := hin i s[i] (by simp) rfl lo up hlo hup lo[i] up[i] (by simp) (by simp)
  exact ⟨XReal.le_of_lt a, XReal.le_of_lt b⟩

/-! ## C33 -/

theorem moveColumn_fwdkin (robot : Robot ℝ) (hz : robot.Sized) (src ax dst : Nat) (n : Nat)
    (hs : (src = n + 2 ∧ ax = n + 1 ∧ dst = n + 1) ∨ (src = n + 1 ∧ ax = n + 1 ∧ dst = n + 2)) (θ : List ℝ) (ignore : Bool) :
    fwdkin { robot with P := (moveColumn robot.H robot.P src ax dst).1 } θ ignore = fwdkin robot θ ignore ∧
    robotjacobian { robot with P := (moveColumn robot.H robot.P src ax dst).1 } θ ignore = robotjacobian robot θ ignore := by
  obtain ⟨P0, Ps, hP, lP⟩ := hz.P_cons
  -- the columns either stay or slide along the axis
  have key : (moveColumn robot.H robot.P src ax dst).1 = robot.P ∨
      ∃ h x x' y y' : V3 ℝ, ∃ c : ℝ, robot.H[n + 1]? = some h ∧ Ps[n]? = some x ∧ Ps[n + 1]? = some y ∧ x + y = x' + y' ∧
        y' = y + c • h ∧ (moveColumn robot.H robot.P src ax dst).1 = P0 :: (Ps.set n x').set (n + 1) y' := by
    unfold moveColumn
    split
    · exact .inl rfl
    rename_i a ha
    split_ifs with h0
    · exact .inl rfl
    split
    · exact .inl rfl
    rename_i h hh
    split_ifs with h1
    swap
    · exact .inl rfl
    split
    · exact .inl rfl
    rename_i b hb
    have hpar : a = (a.dot h) • h := by
      simp only [isZeroV, feq_real, V3.sub_x, V3.sub_y, V3.sub_z, V3.smul_x, V3.smul_y, V3.smul_z, sub_eq_zero] at h1
      ext <;> simp only [V3.hsmul_x, V3.hsmul_y, V3.hsmul_z]
      exacts [h1.1, h1.2.1, h1.2.2]
    right
    rcases hs with ⟨rfl, rfl, rfl⟩ | ⟨rfl, rfl, rfl⟩
    · refine ⟨h, b, b + a, a, 0, -(a.dot h), hh, ?_, ?_, ?_, ?_, ?_⟩
      · simpa [hP] using hb
      · simpa [hP] using ha
      · ext <;> simp
      · generalize a.dot h = c at hpar
        subst hpar
        ext <;> simp
      · rw [hP]; rfl
    · refine ⟨h, a, 0, b, b + a, a.dot h, hh, ?_, ?_, ?_, ?_, ?_⟩
      · simpa [hP] using ha
      · simpa [hP] using hb
      · ext <;> simp [add_comm]
      · rw [← hpar]
      · rw [hP]; simp only [List.set_cons_succ]; rw [List.set_comm _ _ (by omega)]
  rcases key with e | ⟨h, x, x', y, y', c, k1, k2, k3, k4, k5, e⟩
  · rw [e]; exact ⟨rfl, rfl⟩
  have hn : n + 1 < robot.jointType.length := by
    rw [hz.joints]; exact (List.getElem?_eq_some_iff.1 k1).1
  rw [e, fwdkin_split, fwdkin_split robot, robotjacobian_split, robotjacobian_split robot]
  have hc : ∀ P, checkLimits { robot with P := P } θ ignore = checkLimits robot θ ignore := fun _ => rfl
  rw [hc]
  rcases checkLimits robot θ ignore with _ | _
  · exact ⟨rfl, rfl⟩
  simp only [Except.bind_ok]
  constructor
  · simp only [fwdkin, checkLimits, if_true, hP, Except.bind_ok]
    rw [fwdLoop_slide n _ _ _ _ _ h x x' y y' c hn k1 k2 k3 k4 k5]
    rfl
  · simp only [robotjacobian, checkLimits, if_true, hP, Except.bind_ok]
    rcases jacLoop_slide n robot.jointType robot.H Ps θ (1, P0) h x x' y y' c hn k1 k2 k3 k4 k5 with
      ⟨e, e1, e2⟩ | ⟨fs, fs', R, p, e1, e2, e3⟩
    · rw [e1, e2]
    · rw [e1, e2]
      simp only [Except.bind_ok]
      rw [jacCols_slide _ _ _ _ le_rfl e3]

theorem moveColumn_length {α : Type} [Add α] [Sub α] [Mul α] [Zero α] [LE α] [DecidableLE α]
    (H P : List (V3 α)) (src ax dst : Nat) : (moveColumn H P src ax dst).1.length = P.length := by
  unfold moveColumn
  split
  · rfl
  split_ifs
  · rfl
  split
  · rfl
  split_ifs
  · split
    · rfl
    · simp
  · rfl

/-- C33: after `robot6_sphericalwrist_invkin` has been called, whether it returned or raised, `fwdkin` and `robotjacobian` of the
robot object give what they gave before, for every joint vector, although columns of `P` may have been changed. -/
theorem C33_robot_unchanged (robot : Robot ℝ) (hz : robot.Sized) (pose : Transform ℝ) (last : Option (List ℝ)) (θ : List ℝ)
    (ignore : Bool) :
    fwdkin (robot6_sphericalwrist_invkin robot pose last).1 θ ignore = fwdkin robot θ ignore ∧
    robotjacobian (robot6_sphericalwrist_invkin robot pose last).1 θ ignore = robotjacobian robot θ ignore := by
  have e : (robot6_sphericalwrist_invkin robot pose last).1 = { robot with P := (fixWrist robot.H robot.P).1 } := rfl
  rw [e]
  obtain ⟨a1, a2⟩ := moveColumn_fwdkin robot hz 4 3 3 2 (.inl ⟨rfl, rfl, rfl⟩) θ ignore
  unfold fixWrist
  have hl := moveColumn_length robot.H robot.P 4 3 3
  rcases h : moveColumn robot.H robot.P 4 3 3 with ⟨P1, r⟩
  rw [h] at a1 a2 hl
  rcases r with err | u
  · exact ⟨a1, a2⟩
  · obtain ⟨b1, b2⟩ := moveColumn_fwdkin { robot with P := P1 } ⟨by rw [← hz.columns]; exact hl, hz.joints⟩ 5 5 6 4
      (.inr ⟨rfl, rfl, rfl⟩) θ ignore
    exact ⟨b1.trans a1, b2.trans a2⟩

theorem isZeroV_zero : isZeroV (0 : V3 XReal) := by
  have : feq (0 : XReal) 0 := by rw [XReal.feq_self]; simp
  exact ⟨this, this, this⟩

theorem moveColumn_again (H P : List (V3 XReal)) (src ax dst : Nat) (hd : src ≠ dst) :
    moveColumn H (moveColumn H P src ax dst).1 src ax dst =
      ((moveColumn H P src ax dst).1, (moveColumn H P src ax dst).2) := by
  rcases hs : P[src]? with _ | a
  · have : moveColumn H P src ax dst = (P, .error .index) := by simp [moveColumn, hs]
    rw [this]; exact this
  by_cases h0 : isZeroV a
  · have : moveColumn H P src ax dst = (P, .ok ()) := by simp [moveColumn, hs, h0]
    rw [this]; exact this
  rcases hh : H[ax]? with _ | h
  · have : moveColumn H P src ax dst = (P, .error .index) := by simp [moveColumn, hs, h0, hh]
    rw [this]; exact this
  by_cases h1 : isZeroV (a - V3.smul (a.dot h) h)
  · rcases hb : P[dst]? with _ | b
    · have : moveColumn H P src ax dst = (P, .error .index) := by simp [moveColumn, hs, h0, hh, h1, hb]
      rw [this]; exact this
    · have : moveColumn H P src ax dst = ((P.set dst (b + a)).set src 0, .ok ()) := by simp [moveColumn, hs, h0, hh, h1, hb]
      rw [this]
      have hlt : src < P.length := (List.getElem?_eq_some_iff.1 hs).1
      have e : ((P.set dst (b + a)).set src (0 : V3 XReal))[src]? = some 0 := by simp [hlt]
      unfold moveColumn
      simp only [e, isZeroV_zero, if_true]
  · have : moveColumn H P src ax dst = (P, .error .assertion) := by simp [moveColumn, hs, h0, hh, h1]
    rw [this]; exact this

theorem moveColumn_ok {H P P1 : List (V3 XReal)} {src ax dst : Nat} (hne : src ≠ dst)
    (h : moveColumn H P src ax dst = (P1, .ok ())) : ∃ a, P1[src]? = some a ∧ isZeroV a := by
  have h2 := moveColumn_again H P src ax dst hne
  rw [h] at h2
  simp only at h2
  unfold moveColumn at h
  split at h
  · cases h
  rename_i a ha
  split_ifs at h with h0
  · cases h; exact ⟨a, ha, h0⟩
  split at h
  · cases h
  split_ifs at h with h1
  swap
  · cases h
  split at h
  · cases h
  cases h
  have hlt : src < P.length := (List.getElem?_eq_some_iff.1 ha).1
  exact ⟨0, by simp [hlt], isZeroV_zero⟩

theorem moveColumn_other (H P : List (V3 XReal)) (src ax dst i : Nat) (hd : i ≠ dst) (hs : i ≠ src) :
    (moveColumn H P src ax dst).1[i]? = P[i]? := by
  unfold moveColumn
  split
  · rfl
  split_ifs
  · rfl
  split
  · rfl
  split_ifs
  swap
  · rfl
  split
  · rfl
  simp only
  rw [List.getElem?_set_ne (Ne.symm hs), List.getElem?_set_ne (Ne.symm hd)]

theorem fixWrist_again (H P : List (V3 XReal)) : fixWrist H (fixWrist H P).1 = ((fixWrist H P).1, (fixWrist H P).2) := by
  have a1 := moveColumn_again H P 4 3 3 (by decide)
  rcases h : moveColumn H P 4 3 3 with ⟨P1, r⟩
  rw [h] at a1
  rcases r with err | u
  · have e : fixWrist H P = (P1, .error err) := by simp [fixWrist, h]
    rw [e]
    simp [fixWrist, a1]
  · have e : fixWrist H P = moveColumn H P1 5 5 6 := by simp [fixWrist, h]
    rw [e]
    have a2 := moveColumn_again H P1 5 5 6 (by decide)
    obtain ⟨a, ha, ha0⟩ := moveColumn_ok (by decide) h
    have h4 : (moveColumn H P1 5 5 6).1[4]? = some a := by
      rw [moveColumn_other _ _ _ _ _ _ (by decide) (by decide), ha]
    have a3 : moveColumn H (moveColumn H P1 5 5 6).1 4 3 3 = ((moveColumn H P1 5 5 6).1, .ok ()) := by
      generalize (moveColumn H P1 5 5 6).1 = P2 at h4 ⊢
      simp only [moveColumn, h4, ha0, if_true]
    unfold fixWrist
    rw [a3]
    exact a2

/-- C33: a call with any arguments after a call with any arguments leaves the robot as the first one left it and gives the answer
that the untouched robot would have given. -/
theorem C33_second_call (robot : Robot XReal) (pose pose' : Transform XReal) (last last' : Option (List XReal)) :
    robot6_sphericalwrist_invkin (robot6_sphericalwrist_invkin robot pose last).1 pose' last' =
      ((robot6_sphericalwrist_invkin robot pose last).1, (robot6_sphericalwrist_invkin robot pose' last').2) := by
  have e : (robot6_sphericalwrist_invkin robot pose last).1 = { robot with P := (fixWrist robot.H robot.P).1 } := rfl
  rw [e]
  have f := fixWrist_again robot.H robot.P
  unfold robot6_sphericalwrist_invkin
  simp only [f]
  rfl

/-- A history of calls on one robot object: the final robot and all answers. -/
noncomputable def Spec.history (robot : Robot XReal) : List (Transform XReal × Option (List XReal)) →
    Robot XReal × List (Except PyErr (List (List XReal)))
  | [] => (robot, [])
  | c :: cs =>
    let r := robot6_sphericalwrist_invkin robot c.1 c.2
    let rest := Spec.history r.1 cs
    (rest.1, r.2 :: rest.2)

/-- C33: in a history of any length every call gives the answer a fresh copy of the robot would have given. -/
theorem C33_history (robot : Robot XReal) (cs : List (Transform XReal × Option (List XReal))) :
    (Spec.history robot cs).2 = cs.map fun c => (robot6_sphericalwrist_invkin robot c.1 c.2).2 := by
  suffices h : ∀ robot' : Robot XReal, (∀ pose last, (robot6_sphericalwrist_invkin robot' pose last).2 =
      (robot6_sphericalwrist_invkin robot pose last).2) →
      (Spec.history robot' cs).2 = cs.map fun c => (robot6_sphericalwrist_invkin robot c.1 c.2).2 from h robot fun _ _ => rfl
  induction cs with
  | nil => intro robot' _; rfl
  | cons c cs ih =>
    intro robot' h'
    simp only [Spec.history, List.map_cons]
    rw [h', ih]
    intro pose last
    rw [C33_second_call]
    exact h' pose last

-- non-vacuity: a robot whose columns 4 and 5 are moved by the call (so that `P` really changes), and one where the call raises
-- after having changed column 4
example : fixWrist (α := ℝ) [V3.ez, V3.ey, V3.ey, V3.ex, V3.ey, V3.ex] [0, 0, V3.ez, V3.ez, V3.ex, V3.ex, 0] =
    ([0, 0, V3.ez, V3.ez + V3.ex, 0, 0, 0 + V3.ex], .ok ()) := by
  simp [fixWrist, moveColumn, isZeroV, V3.dot]

example : fixWrist (α := ℝ) [V3.ez, V3.ey, V3.ey, V3.ex, V3.ey, V3.ex] [0, 0, V3.ez, V3.ez, V3.ex, V3.ey, 0] =
    ([0, 0, V3.ez, V3.ez + V3.ex, 0, V3.ey, 0], .error .assertion) := by
  simp [fixWrist, moveColumn, isZeroV, V3.dot]

/-! ## C34 -/

/-- Euclidean distance of two joint vectors. -/
noncomputable def Spec.dist (a b : List ℝ) : ℝ := Real.sqrt ((a.zipWith (fun x y => (x - y) ^ 2) b).sum)

/-- `sols` is sorted by distance to `last`, as far as entries are finite -/
def Spec.sortedBy (last : List XReal) (sols : List (List XReal)) : Prop :=
  sols.Pairwise fun a b => ∀ a' b' l' : List ℝ, a = a'.map .fin → b = b'.map .fin → last = l'.map .fin →
    a'.length = l'.length → b'.length = l'.length → Spec.dist a' l' ≤ Spec.dist b' l'

theorem listSum_fin (l : List ℝ) : (l.map XReal.fin).sum = XReal.fin l.sum := by
  induction l with
  | nil => rfl
  | cons a l ih => simp [ih]

theorem listNorm_fin (a b : List ℝ) (h : a.length = b.length) :
    listNorm (((a.map XReal.fin).zip (b.map XReal.fin)).map fun x => x.1 - x.2) = .fin (Spec.dist a b) := by
  unfold listNorm Spec.dist
  have e : ((((a.map XReal.fin).zip (b.map XReal.fin)).map fun x => x.1 - x.2).map fun x => x * x) =
      (a.zipWith (fun x y => (x - y) ^ 2) b).map XReal.fin := by
    induction a generalizing b with
    | nil => rfl
    | cons x a ih =>
      obtain _ | ⟨y, b⟩ := b
      · simp at h
      · simp only [List.map_cons, List.zip_cons_cons, List.zipWith_cons_cons]
        rw [ih b (by simpa using h)]
        simp [pow_two]
  rw [e, listSum_fin, XReal.sqrt_fin]
  apply List.sum_nonneg
  intro x hx
  rw [List.mem_iff_getElem] at hx
  obtain ⟨i, hi, rfl⟩ := hx
  rw [List.getElem_zipWith]
  positivity

theorem sortByLast_sorted {rows sols : List (List XReal)} {last : List XReal} (h : sortByLast rows (some last) = .ok sols) :
    Spec.sortedBy last sols := by
  obtain ⟨d, h1, h2⟩ := Except.bind_eq_ok h
  cases h2
  unfold rowDist at h1
  split_ifs at h1
  have h3 := forall₂_of_mapM h1
  let D : List XReal → XReal := fun r => match bcast r last with
    | .ok z => listNorm (z.map fun x => x.1 - x.2)
    | .error _ => .nan
  have h4 : ∀ x ∈ d, x.1 = D x.2 := by
    intro x hx
    obtain ⟨r, -, hr⟩ := Forall₂.exists_left h3 hx
    obtain ⟨z, h5, h6⟩ := Except.bind_eq_ok hr
    cases h6
    simp only [D, h5]
  refine (argsortBy_sorted d D h4).imp ?_
  intro a b hab a' b' l' ha hb hl la lb
  subst ha hb hl
  simp only [D, bcast_eq _ _ (show (a'.map XReal.fin).length = (l'.map XReal.fin).length by simpa using la),
    bcast_eq _ _ (show (b'.map XReal.fin).length = (l'.map XReal.fin).length by simpa using lb), listNorm_fin _ _ la,
    listNorm_fin _ _ lb] at hab
  by_contra hc
  exact hab (.inl (by rw [XReal.fin_lt]; exact not_le.1 hc))

/-- C34: with last joint values, `robot6_sphericalwrist_invkin` returns its solutions sorted by distance. -/
theorem C34_robot6_sorted (robot : Robot XReal) (pose : Transform XReal) (last : List XReal) (sols : List (List XReal))
    (h : (robot6_sphericalwrist_invkin robot pose (some last)).2 = .ok sols) : Spec.sortedBy last sols := by
  unfold robot6_sphericalwrist_invkin at h
  obtain ⟨-, -, h⟩ := Except.bind_eq_ok h
  obtain ⟨rows, -, h⟩ := Except.bind_eq_ok h
  exact sortByLast_sorted h

section
variable {α : Type} [Add α] [Sub α] [Mul α] [Div α] [Neg α] [Zero α] [One α] [LT α] [LE α]
  [DecidableLT α] [DecidableLE α] [Elem α]

theorem ur_invkin_ok {robot : Robot α} {pose : Transform α} {last : Option (List α)} {sols : List (List α)}
    (h : ur_invkin robot pose last = .ok sols) :
    (allcloseCols urAxesNeg robot.H = .ok true ∨ allcloseCols urAxesPos robot.H = .ok true) ∧
    ∃ rows, urSearch robot.H robot.P (Normalizer.ofRobot robot last) (unapplyAux robot pose).R (unapplyAux robot pose).p = .ok rows ∧
      sortByLast rows last = .ok sols := by
  unfold ur_invkin at h
  obtain ⟨a, h1, h⟩ := Except.bind_eq_ok h
  cases a with
  | true =>
    simp only [if_true, pyAssert, Except.pure_eq, Except.bind_ok] at h
    obtain ⟨rows, h2, h⟩ := Except.bind_eq_ok h
    exact ⟨.inl h1, rows, h2, h⟩
  | false =>
    simp only [Bool.false_eq_true, if_false] at h
    obtain ⟨b, h3, h⟩ := Except.bind_eq_ok h
    cases b with
    | true =>
      simp only [if_true, pyAssert, Except.bind_ok] at h
      obtain ⟨rows, h2, h⟩ := Except.bind_eq_ok h
      exact ⟨.inr h3, rows, h2, h⟩
    | false => simp [pyAssert] at h

end

/-- C34 for `ur_invkin`. -/
theorem C34_ur_sorted (robot : Robot XReal) (pose : Transform XReal) (last : List XReal) (sols : List (List XReal))
    (h : ur_invkin robot pose (some last) = .ok sols) : Spec.sortedBy last sols := by
  obtain ⟨-, rows, -, h⟩ := ur_invkin_ok h
  exact sortByLast_sorted h

/-- C34 for `equivalent_configurations`: sorted, and nothing is lost by sorting. -/
theorem C34_equiv_sorted (robot : Robot XReal) (θs : List (List XReal)) (last : List XReal) (sols : List (List XReal))
    (h : equivalent_configurations robot θs (some last) = .ok sols) :
    Spec.sortedBy last sols ∧ ∃ sols', equivalent_configurations robot θs = .ok sols' ∧ sols.Perm sols' := by
  unfold equivalent_configurations at h
  obtain ⟨rows, h1, h⟩ := Except.bind_eq_ok h
  obtain ⟨u, h2, h⟩ := Except.bind_eq_ok h
  refine ⟨sortByLast_sorted h, rows, ?_, sortByLast_mem h⟩
  simp only [equivalent_configurations, h1, h2, Except.bind_ok]
  rfl

/-- C34: the first entry is the closest of those returned. -/
theorem C34_first_closest (last : List XReal) (s : List XReal) (sols : List (List XReal)) (h : Spec.sortedBy last (s :: sols))
    (t : List XReal) (ht : t ∈ sols) (s' t' l' : List ℝ) (hs' : s = s'.map .fin) (ht' : t = t'.map .fin) (hl' : last = l'.map .fin)
    (ls : s'.length = l'.length) (lt : t'.length = l'.length) : Spec.dist s' l' ≤ Spec.dist t' l' :=
  (List.pairwise_cons.1 h).1 t ht s' t' l' hs' ht' hl' ls lt

-- non-vacuity: two rows, in the wrong order before sorting
example : sortByLast [[XReal.fin 5, .fin 5], [.fin 1, .fin 1]] (some [.fin 0, .fin 0]) = .ok [[.fin 1, .fin 1], [.fin 5, .fin 5]] := by
  have e1 : listNorm (α := XReal) [.fin 5, .fin 5] = .fin (Real.sqrt 50) := by
    simp [listNorm, XReal.sqrt_fin]; norm_num
  have e2 : listNorm (α := XReal) [.fin 1, .fin 1] = .fin (Real.sqrt 2) := by
    simp [listNorm, XReal.sqrt_fin]; norm_num
  have hlt : Real.sqrt 2 < Real.sqrt 50 := Real.sqrt_lt_sqrt (by norm_num) (by norm_num)
  simp only [sortByLast, rowDist, List.isEmpty_cons, bcast, mapM_cons', mapM_nil', List.length_cons, List.length_nil, if_true,
    Except.bind_ok, List.zip_cons_cons, List.zip_nil_left, List.map_cons, List.map_nil, XReal.fin_sub, sub_zero, e1, e2,
    Except.pure_eq]
  simp [argsortBy, insertKey, npLt, hlt]

/-! ## C36 -/

section
variable {α : Type} [Add α] [Sub α] [Mul α] [Div α] [Neg α] [Zero α] [One α] [LT α] [LE α]
  [DecidableLT α] [DecidableLE α] [Elem α]

theorem urSearch_mem {H P : List (V3 α)} {N : Normalizer α} {R06 : M3 α} {p0T : V3 α} {sols : List (List α)}
    (h : urSearch H P N R06 p0T = .ok sols) {s : List α} (hs : s ∈ sols) :
    ∃ q1 q2 q3 q4 q5 q6, s = [q1, q2, q3, q4, q5, q6] ∧ (∃ θ, N.normalize 0 θ = .ok (some q1)) ∧
      (∃ θ, N.normalize 1 θ = .ok (some q2)) ∧ (∃ θ, N.normalize 2 θ = .ok (some q3)) ∧ (∃ θ, N.normalize 3 θ = .ok (some q4)) ∧
      (∃ θ, N.normalize 5 θ = .ok (some q6)) := by
  unfold urSearch at h
  split at h
  swap
  · cases h
  obtain ⟨Q1, e1, h⟩ := Except.bind_eq_ok h
  obtain ⟨q1, m1, s1, h, hs⟩ := mem_forAppend h hs
  obtain ⟨θ1, -, n1⟩ := callS_mem e1 m1
  obtain ⟨Q, -, h⟩ := Except.bind_eq_ok h
  obtain ⟨⟨q24, q5⟩, m5, s5, h, hs⟩ := mem_forAppend h hs
  obtain ⟨Q3, -, h⟩ := Except.bind_eq_ok h
  obtain ⟨Q3', e3, h⟩ := Except.bind_eq_ok h
  obtain ⟨q3, m3, s3, h, hs⟩ := mem_forAppend h hs
  obtain ⟨θ3, -, n3⟩ := callS_mem e3 m3
  obtain ⟨q2r, -, h⟩ := Except.bind_eq_ok h
  obtain ⟨q2, e2, h⟩ := Except.bind_eq_ok h
  rcases q2 with _ | q2
  · cases h; cases hs
  obtain ⟨q4, e4, h⟩ := Except.bind_eq_ok h
  rcases q4 with _ | q4
  · cases h; cases hs
  obtain ⟨q6r, -, h⟩ := Except.bind_eq_ok h
  obtain ⟨q6, e6, h⟩ := Except.bind_eq_ok h
  rcases q6 with _ | q6
  · cases h; cases hs
  cases h
  rw [List.mem_singleton] at hs
  exact ⟨q1, q2, q3, q4, q5, q6, hs, ⟨_, n1⟩, ⟨_, one_mem e2⟩, ⟨_, n3⟩, ⟨_, one_mem e4⟩, ⟨_, one_mem e6⟩⟩

end

/-- C36 (`_partial`: joint 5, index 4, is missing; the code never checks it): every joint vector returned by `ur_invkin`, for every
robot, pose and last joint values, has six entries, of which all but the fifth are strictly inside the limits of the robot. -/
theorem C36_ur_limits_partial (robot : Robot XReal) (pose : Transform XReal) (last : Option (List XReal)) (sols : List (List XReal))
    (h : ur_invkin robot pose last = .ok sols) (s : List XReal) (hs : s ∈ sols) :
    s.length = 6 ∧ ∀ j t, j ≠ 4 → s[j]? = some t → Spec.inLimits robot false j t := by
  obtain ⟨-, rows, h1, h⟩ := ur_invkin_ok h
  obtain ⟨q1, q2, q3, q4, q5, q6, rfl, ⟨_, n1⟩, ⟨_, n2⟩, ⟨_, n3⟩, ⟨_, n4⟩, ⟨_, n6⟩⟩ :=
    urSearch_mem h1 ((sortByLast_mem h).mem_iff.1 hs)
  refine ⟨rfl, fun j t h4 hj => ?_⟩
  match j, hj with
  | 0, hj => cases hj; exact normalize_inLimits XReal.add_comm' n1
  | 1, hj => cases hj; exact normalize_inLimits XReal.add_comm' n2
  | 2, hj => cases hj; exact normalize_inLimits XReal.add_comm' n3
  | 3, hj => cases hj; exact normalize_inLimits XReal.add_comm' n4
  | 4, _ => exact absurd rfl h4
  | 5, hj => cases hj; exact normalize_inLimits XReal.add_comm' n6
