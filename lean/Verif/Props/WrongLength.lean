import Verif.Props.Kinematics
import Verif.Lemmas.Invkin

/-! # Property C18, for joint vectors of the wrong length -/
set_option autoImplicit false

section
variable {α : Type} [Add α] [Sub α] [Mul α] [Div α] [Neg α] [Zero α] [One α] [LT α] [LE α]
  [DecidableLT α] [DecidableLE α] [Elem α]

theorem loops_short : ∀ (ts : List Nat) (hs Ps : List (V3 α)) (θ : List α) (Rp : M3 α × V3 α), hs.length = ts.length → Ps.length = ts.length →
    θ.length < ts.length → fwdLoop ts hs Ps θ Rp = .error .index ∧ jacLoop ts hs Ps θ Rp = .error .index := by
  intro ts
  induction ts with
  | nil => intro hs Ps θ Rp _ _ h; simp at h
  | cons t ts ih =>
    intro hs Ps θ Rp lh lP h
    obtain _ | ⟨k, hs⟩ := hs
    · simp at lh
    obtain _ | ⟨P, Ps⟩ := Ps
    · simp at lP
    obtain _ | ⟨x, θ⟩ := θ
    · exact ⟨rfl, rfl⟩
    obtain ⟨h1, h2⟩ := ih hs Ps θ (fwdStep t k P x Rp) (by simpa using lh) (by simpa using lP) (by simpa using h)
    exact ⟨by simp only [fwdLoop, h1], by simp only [jacLoop, h2]; rfl⟩

theorem loops_take : ∀ (ts : List Nat) (hs Ps : List (V3 α)) (θ : List α) (Rp : M3 α × V3 α) (n : Nat), ts.length ≤ n →
    fwdLoop ts hs Ps (θ.take n) Rp = fwdLoop ts hs Ps θ Rp ∧ jacLoop ts hs Ps (θ.take n) Rp = jacLoop ts hs Ps θ Rp := by
  intro ts
  induction ts with
  | nil => intro hs Ps θ Rp n _; exact ⟨by simp [fwdLoop], by simp [jacLoop]⟩
  | cons t ts ih =>
    intro hs Ps θ Rp n h
    obtain _ | n := n
    · simp at h
    obtain _ | ⟨x, θ⟩ := θ
    · simp
    obtain _ | ⟨k, hs⟩ := hs
    · exact ⟨rfl, rfl⟩
    obtain _ | ⟨P, Ps⟩ := Ps
    · exact ⟨rfl, rfl⟩
    obtain ⟨h1, h2⟩ := ih hs Ps θ (fwdStep t k P x Rp) n (by simpa using h)
    simp only [List.take_succ_cons, fwdLoop, jacLoop, h1, h2, and_self]

/-- C18: joint vectors of the wrong length, limits ignored: IndexError if it is too short; entries beyond the joints have no effect. -/
theorem C18_wrong_length (robot : Robot α) (hs : robot.Sized) (_ht : ∀ t ∈ robot.jointType, t < 4) (θ : List α) :
    (θ.length < robot.H.length → fwdkin robot θ true = .error .index ∧ robotjacobian robot θ true = .error .index) ∧
    (fwdkin robot (θ.take robot.H.length) true = fwdkin robot θ true ∧
      robotjacobian robot (θ.take robot.H.length) true = robotjacobian robot θ true) := by
  obtain ⟨P0, Ps, hP, lP⟩ := hs.P_cons
  have hj := hs.joints
  refine ⟨fun h => ?_, ?_⟩
  · obtain ⟨h1, h2⟩ := loops_short robot.jointType robot.H Ps θ (1, P0) hj.symm (by rw [lP, hj]) (by rw [hj]; exact h)
    simp only [fwdkin, robotjacobian, checkLimits, if_true, hP, h1, h2]
    exact ⟨rfl, rfl⟩
  · obtain ⟨h1, h2⟩ := loops_take robot.jointType robot.H Ps θ (1, P0) robot.H.length hj.le
    simp only [fwdkin, robotjacobian, checkLimits, if_true, hP, h1, h2, and_self]

end

/-- C18: joint vectors of the wrong length for a robot with limits.  NumPy broadcasts: a single joint value is compared with the limits of all
joints, and the limits of a one-joint robot are compared with all joint values; AssertionError if a comparison fails, otherwise
the limits have no effect.  All other lengths raise ValueError. -/
theorem C18_wrong_length_limits (robot : Robot XReal) (θ l u : List XReal) (hl : robot.lower = some l)
    (hu : robot.upper = some u) (ll : l.length = robot.H.length) (lu : u.length = robot.H.length) (lθ : θ.length ≠ robot.H.length) :
    (∀ x, θ = [x] →
      ((∀ y ∈ l, y ≤ x) ∧ (∀ y ∈ u, x ≤ y) → fwdkin robot θ = fwdkin robot θ true ∧ robotjacobian robot θ = robotjacobian robot θ true) ∧
      (¬ ((∀ y ∈ l, y ≤ x) ∧ (∀ y ∈ u, x ≤ y)) → fwdkin robot θ = .error .assertion ∧ robotjacobian robot θ = .error .assertion)) ∧
    (∀ a b, l = [a] → u = [b] →
      ((∀ x ∈ θ, a ≤ x ∧ x ≤ b) → fwdkin robot θ = fwdkin robot θ true ∧ robotjacobian robot θ = robotjacobian robot θ true) ∧
      (¬ (∀ x ∈ θ, a ≤ x ∧ x ≤ b) → fwdkin robot θ = .error .assertion ∧ robotjacobian robot θ = .error .assertion)) ∧
    (θ.length ≠ 1 → robot.H.length ≠ 1 → fwdkin robot θ = .error .value ∧ robotjacobian robot θ = .error .value) := by
  rw [fwdkin_split robot θ false, robotjacobian_split robot θ false]
  have fin : ∀ c : Except PyErr Unit, checkLimits robot θ false = c →
      (c = .ok () → (checkLimits robot θ false >>= fun _ => fwdkin robot θ true) = fwdkin robot θ true ∧
        (checkLimits robot θ false >>= fun _ => robotjacobian robot θ true) = robotjacobian robot θ true) ∧
      (∀ e, c = .error e → (checkLimits robot θ false >>= fun _ => fwdkin robot θ true) = .error e ∧
        (checkLimits robot θ false >>= fun _ => robotjacobian robot θ true) = .error e) := by
    intro c hc
    rw [hc]
    exact ⟨fun h => by rw [h]; exact ⟨rfl, rfl⟩, fun e h => by rw [h]; exact ⟨rfl, rfl⟩⟩
  have hall : ∀ {β : Type} (p : β → Bool) (xs : List β), (¬ ∀ x ∈ xs, p x = true) → xs.all p = false := by
    intro β p xs h
    rw [Bool.eq_false_iff]
    intro h'
    exact h (List.all_eq_true.1 h')
  refine ⟨fun x hx => ?_, fun a b hla hub => ?_, fun h1 h2 => ?_⟩
  · subst hx
    have n1 : ([x] : List XReal).length ≠ l.length := by rw [ll]; exact lθ
    have n2 : ([x] : List XReal).length ≠ u.length := by rw [lu]; exact lθ
    have hc : checkLimits robot [x] false = (do
        pyAssert (l.all fun y => decide (y ≤ x))
        pyAssert (u.all fun y => decide (x ≤ y))) := by
      simp only [checkLimits, hl, hu, Bool.false_eq_true, if_false, bcast, if_neg n1, if_neg n2, Except.bind_ok, List.all_map]
      rfl
    constructor
    · rintro ⟨g1, g2⟩
      refine (fin _ hc).1 ?_
      rw [show (l.all fun y => decide (y ≤ x)) = true by simpa using g1, show (u.all fun y => decide (x ≤ y)) = true by simpa using g2]
      rfl
    · intro g
      refine (fin _ hc).2 _ ?_
      by_cases g1 : ∀ y ∈ l, y ≤ x
      · rw [show (l.all fun y => decide (y ≤ x)) = true by simpa using g1, hall _ u (by simp only [decide_eq_true_eq]; tauto)]
        rfl
      · rw [hall _ l (by simpa only [decide_eq_true_eq] using g1)]
        rfl
  · subst hla; subst hub
    have hl1 : robot.H.length = 1 := by rw [← ll]; rfl
    have n1 : θ.length ≠ ([a] : List XReal).length := by simpa [hl1] using lθ
    have n2 : θ.length ≠ ([b] : List XReal).length := by simpa [hl1] using lθ
    have hb : ∀ c : XReal, bcast θ [c] = .ok (θ.map fun x => (x, c)) := by
      intro c
      have n : θ.length ≠ ([c] : List XReal).length := by simpa [hl1] using lθ
      unfold bcast
      rw [if_neg n]
      rcases θ with _ | ⟨x, _ | ⟨y, θ⟩⟩
      · rfl
      · simp at n
      · rfl
    have hc : checkLimits robot θ false = (do
        pyAssert (θ.all fun x => decide (a ≤ x))
        pyAssert (θ.all fun x => decide (x ≤ b))) := by
      simp only [checkLimits, hl, hu, Bool.false_eq_true, if_false, hb, Except.bind_ok, List.all_map]
      rfl
    constructor
    · intro g
      refine (fin _ hc).1 ?_
      rw [show (θ.all fun x => decide (a ≤ x)) = true by simpa using fun x hx => (g x hx).1,
        show (θ.all fun x => decide (x ≤ b)) = true by simpa using fun x hx => (g x hx).2]
      rfl
    · intro g
      refine (fin _ hc).2 _ ?_
      by_cases g1 : ∀ x ∈ θ, a ≤ x
      · rw [show (θ.all fun x => decide (a ≤ x)) = true by simpa using g1,
          hall _ θ (by simp only [decide_eq_true_eq]; exact fun g2 => g fun x hx => ⟨g1 x hx, g2 x hx⟩)]
        rfl
      · rw [hall _ θ (by simpa only [decide_eq_true_eq] using g1)]
        rfl
  · refine (fin (.error .value) ?_).2 _ rfl
    have hb : ∀ m : List XReal, m.length = robot.H.length → bcast θ m = .error .value := by
      intro m hm
      have n : θ.length ≠ m.length := by rw [hm]; exact lθ
      unfold bcast
      rw [if_neg n]
      rcases θ with _ | ⟨x, _ | ⟨y, θ⟩⟩
      · rcases m with _ | ⟨a, _ | ⟨b, m⟩⟩
        · simp at n
        · exact absurd hm.symm h2
        · rfl
      · simp at h1
      · rcases m with _ | ⟨a, _ | ⟨b, m⟩⟩
        · rfl
        · exact absurd hm.symm h2
        · rfl
    simp only [checkLimits, hl, hu, Bool.false_eq_true, if_false, hb l ll]
    rfl

-- non-vacuity: a two-joint robot with limits [0, 1] and [0, 2]: the vector [1] raises IndexError, [3/2] AssertionError, [0, 0, 0] ValueError; without
-- the limits [0, 0, 7] is accepted
example : ∃ robot : Robot XReal, robot.Sized ∧ fwdkin robot [.fin 1] = .error .index ∧ fwdkin robot [.fin (3/2)] = .error .assertion ∧
    fwdkin robot [.fin 0, .fin 0, .fin 0] = .error .value ∧ ∃ T, fwdkin robot [.fin 0, .fin 0, .fin 7] true = .ok T := by
  set robot : Robot XReal := {
    H := [V3.ez, V3.ez]
    P := [V3.ex, V3.ex, V3.ex]
    jointType := [0, 0]
    lower := some [.fin 0, .fin 0]
    upper := some [.fin 1, .fin 2] } with hr
  have hs : robot.Sized := ⟨rfl, rfl⟩
  have ht : ∀ t ∈ robot.jointType, t < 4 := by simp [hr]
  refine ⟨robot, hs, ?_, ?_, ?_, ?_⟩
  · have h := (C18_wrong_length_limits robot [.fin 1] [.fin 0, .fin 0] [.fin 1, .fin 2] rfl rfl rfl rfl (by simp [hr])).1 _ rfl
    rw [(h.1 ⟨by simp, by simp⟩).1]
    exact ((C18_wrong_length robot hs ht [.fin 1]).1 (by simp [hr])).1
  · have h := (C18_wrong_length_limits robot [.fin (3/2)] [.fin 0, .fin 0] [.fin 1, .fin 2] rfl rfl rfl rfl (by simp [hr])).1 _ rfl
    exact (h.2 (by simp; norm_num)).1
  · exact ((C18_wrong_length_limits robot [.fin 0, .fin 0, .fin 0] [.fin 0, .fin 0] [.fin 1, .fin 2] rfl rfl rfl rfl (by simp [hr])).2.2
      (by simp) (by simp [hr])).1
  · rw [← (C18_wrong_length robot hs ht [.fin 0, .fin 0, .fin 7]).2.1]
    exact fwdkin_ok hs rfl
