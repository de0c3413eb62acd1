import Verif.Lemmas.Basic

/-! # Property C16: the `Robot` constructor -/
set_option autoImplicit false

/-- The arguments describe a well-formed chain: axes of unit length within `np.isclose` tolerance, known joint
types, matching sizes, lengths of the optional arrays matching the joint count (the two position limits are looked at
only when both are given). -/
@[mk_iff] structure CtorOk (H P : List (V3 ℝ)) (jointType : List Nat) (lower upper vel acc : Option (List ℝ))
    (M : Option (List (M6 ℝ))) (names : Option (List String)) : Prop where
  axes : ∀ h ∈ H, |Real.sqrt (h.x * h.x + h.y * h.y + h.z * h.z) - 1| ≤ 1/100000000 + 1/100000
  types : ∀ j ∈ jointType, j = 0 ∨ j = 1 ∨ j = 2 ∨ j = 3
  columns : P.length = H.length + 1
  joints : jointType.length = H.length
  limits : ∀ l u, lower = some l → upper = some u → l.length = H.length ∧ u.length = H.length
  velLen : ∀ v, vel = some v → v.length = H.length
  accLen : ∀ a, acc = some a → a.length = H.length
  inertia : ∀ m, M = some m → m.length = H.length + 1
  nameLen : ∀ n, names = some n → n.length = H.length

private theorem assert_ok (b : Bool) : pyAssert b = .ok () ↔ b = true := by
  cases b <;> simp [pyAssert]

private theorem assert_bind {β : Type} (b : Bool) (f : Unit → Except PyErr β) (r : β) :
    (pyAssert b >>= f) = .ok r ↔ b = true ∧ f () = .ok r := by
  cases b <;> simp [pyAssert, bind, Except.bind]

private theorem assert_bind_err {β : Type} (b : Bool) (f : Unit → Except PyErr β) (e : PyErr) :
    (pyAssert b >>= f) = .error e ↔ (b = false ∧ e = .assertion) ∨ (b = true ∧ f () = .error e) := by
  cases b <;> simp [pyAssert, bind, Except.bind, eq_comm]

private theorem ok_bind {β γ : Type} (a : β) (f : β → Except PyErr γ) : ((.ok a : Except PyErr β) >>= f) = f a := rfl

private theorem lenOk_iff {β : Type} (x : Option (List β)) (n : Nat) :
    lenOk x n = true ↔ ∀ l, x = some l → l.length = n := by
  cases x <;> simp [lenOk]

private theorem isclose_one (x : ℝ) : iscloseD x 1 ↔ |x - 1| ≤ 1/100000000 + 1/100000 := by
  simp only [iscloseD, isclose, feq_real, abs_real, lit_real]
  constructor
  · rintro (h | h)
    · rw [h]; norm_num
    · simpa using h
  · intro h; right; simpa using h

variable (H P : List (V3 ℝ)) (jt : List Nat) (lower upper vel acc : Option (List ℝ)) (M : Option (List (M6 ℝ)))
  (Rt : Option (M3 ℝ)) (pt : Option (V3 ℝ)) (names : Option (List String)) (root tip : Option String)
  (Tf Tb : Option (Transform ℝ))

/-- Both or neither. -/
def bothOrNone {β γ : Type} (x : Option β) (y : Option γ) : Option β × Option γ :=
  match x, y with
  | some a, some b => (some a, some b)
  | _, _ => (none, none)

/-- C16: the constructor succeeds exactly on well-formed arguments, and then stores them unchanged, except that a
single position limit without the other, or a single part of the tool, is dropped. -/
theorem C16_ctor_iff (r : Robot ℝ) :
    Robot.init H P jt lower upper vel acc M Rt pt names root tip Tf Tb = .ok r ↔
      CtorOk H P jt lower upper vel acc M names ∧
      r = { H := H, P := P, jointType := jt, lower := (bothOrNone lower upper).1, upper := (bothOrNone lower upper).2,
            vel := vel, acc := acc, M := M, Rtool := (bothOrNone Rt pt).1, ptool := (bothOrNone Rt pt).2,
            jointNames := names, rootLink := root, tipLink := tip, Tflange := Tf, Tbase := Tb } := by
  have hax : (H.all fun h => decide (iscloseD h.norm 1)) = true ↔
      ∀ h ∈ H, |Real.sqrt (h.x * h.x + h.y * h.y + h.z * h.z) - 1| ≤ 1/100000000 + 1/100000 := by
    simp only [List.all_eq_true, decide_eq_true_eq, isclose_one, V3.norm, sqrt_real]
  have hty : (jt.all fun j => decide (j ∈ [0, 1, 2, 3])) = true ↔ ∀ j ∈ jt, j = 0 ∨ j = 1 ∨ j = 2 ∨ j = 3 := by
    simp
  unfold Robot.init
  rcases lower with _ | l <;> rcases upper with _ | u <;> rcases Rt with _ | R <;> rcases pt with _ | p <;>
    simp only [assert_bind, ok_bind, hax, hty, lenOk_iff, bothOrNone, Bool.and_eq_true, beq_iff_eq, pure, Except.pure,
      Except.ok.injEq, ctorOk_iff] <;>
    grind

/-- C16: the only exception is AssertionError. -/
theorem C16_ctor_raises (h : ¬ CtorOk H P jt lower upper vel acc M names) :
    Robot.init H P jt lower upper vel acc M Rt pt names root tip Tf Tb = .error .assertion := by
  have key : ∀ x : Except PyErr (Robot ℝ), (∀ e, x = .error e → e = .assertion) → (∀ r, x ≠ .ok r) → x = .error .assertion := by
    intro x h1 h2
    cases x with
    | ok r => exact absurd rfl (h2 r)
    | error e => rw [h1 e rfl]
  refine key _ ?_ (fun r hr => h ((C16_ctor_iff H P jt lower upper vel acc M Rt pt names root tip Tf Tb r).1 hr).1)
  intro e he
  unfold Robot.init at he
  rcases lower with _ | l <;> rcases upper with _ | u <;>
    simp only [assert_bind_err, ok_bind, pure, Except.pure, reduceCtorEq, and_false, or_false] at he <;>
    grind

/-- C16: with only one of the two limits the robot has neither, and similarly for the tool. -/
theorem C16_ctor_half (r : Robot ℝ)
    (h : Robot.init H P jt lower upper vel acc M Rt pt names root tip Tf Tb = .ok r) :
    (r.lower = none ↔ r.upper = none) ∧ ((lower = none ∨ upper = none) → r.lower = none ∧ r.upper = none) ∧
    (r.Rtool = none ↔ r.ptool = none) ∧ ((Rt = none ∨ pt = none) → r.Rtool = none ∧ r.ptool = none) := by
  obtain ⟨-, rfl⟩ := (C16_ctor_iff H P jt lower upper vel acc M Rt pt names root tip Tf Tb r).1 h
  rcases lower with _ | l <;> rcases upper with _ | u <;> rcases Rt with _ | R <;> rcases pt with _ | p <;>
    simp [bothOrNone]

-- non-vacuity: a two-joint (rotary, prismatic) arm is accepted, the same with a joint type 4 is not
example : CtorOk [⟨0, 0, 1⟩, ⟨1, 0, 0⟩] [⟨0, 0, 0⟩, ⟨1, 0, 0⟩, ⟨0, 1, 0⟩] [0, 1] (some [-1, 0]) (some [1, 2]) none none
    none (some ["a", "b"]) := by
  constructor <;> simp
  norm_num
example : ¬ CtorOk [⟨0, 0, 1⟩] [⟨0, 0, 0⟩, ⟨1, 0, 0⟩] [4] none none none none none none := by
  rintro ⟨-, h, -⟩; simp at h
