import Verif.Lemmas.SceneGraph2

/-!
# The errors of the conversion to a scene graph
-/
set_option autoImplicit false

section
variable {α : Type} [Add α] [Sub α] [Mul α] [Div α] [Neg α] [Zero α] [One α] [LT α] [LE α]
  [DecidableLT α] [DecidableLE α] [Elem α]

/-- The arrays of a robot fit each other: as many axes as joints, one more link vector, and limits and names that are absent or as
many as joints. -/
structure Spec.Fits (r : Robot α) : Prop where
  axes : r.H.length = r.jointType.length
  links : r.P.length = r.jointType.length + 1
  lower : ∀ l, r.lower = some l → l.length = r.jointType.length
  upper : ∀ l, r.upper = some l → l.length = r.jointType.length
  vel : ∀ l, r.vel = some l → l.length = r.jointType.length
  acc : ∀ l, r.acc = some l → l.length = r.jointType.length
  names : ∀ l, r.jointNames = some l → l.length = r.jointType.length

/-- the arrays that the conversion subscripts are there -/
structure Spec.HasLimits (r : Robot α) : Prop where
  lower : r.lower ≠ none
  upper : r.upper ≠ none
  vel : r.vel ≠ none
  acc : r.acc ≠ none

theorem lenOk_some {β : Type} {x : Option (List β)} {n : Nat} (h : lenOk x n = true) : ∀ l, x = some l → l.length = n := by
  rintro l rfl
  simpa [lenOk] using h

theorem Except.bind_eq_error {β γ : Type} {x : Except PyErr β} {f : β → Except PyErr γ} {e : PyErr} (h : (x >>= f) = .error e) :
    x = .error e ∨ ∃ y, x = .ok y ∧ f y = .error e := by
  rcases x with e' | y
  · cases h; exact .inl rfl
  · exact .inr ⟨y, rfl, h⟩

theorem addLink_error {sg : SGraph α} {l : String} {j : TJoint α} {e : PyErr} (h : sg.addLinkJoint l j = .error e) : e = .assertion := by
  unfold SGraph.addLinkJoint at h
  split_ifs at h <;> cases h <;> rfl

/-- the loop over the joints can only fail an assertion, if the arrays are there -/
theorem sgLoop_outcome (i : Nat) (parent : String) {ts : List Nat} {H P : List (V3 α)} {lo up ve ac : List α} {names : List String}
    (sg : SGraph α) (lH : ts.length ≤ H.length) (lP : ts.length ≤ P.length) (ll : ts.length ≤ lo.length) (lu : ts.length ≤ up.length)
    (lv : ts.length ≤ ve.length) (la : ts.length ≤ ac.length) (ln : ts.length ≤ names.length) {e : PyErr}
    (h : sgLoop i parent ts H P (some lo) (some up) (some ve) (some ac) names sg = .error e) : e = .assertion := by
  induction ts generalizing i parent H P lo up ve ac names sg with
  | nil => cases h
  | cons t ts ih =>
    obtain _ | ⟨x, H⟩ := H
    · simp at lH
    obtain _ | ⟨p, P⟩ := P
    · simp at lP
    obtain _ | ⟨l, lo⟩ := lo
    · simp at ll
    obtain _ | ⟨u, up⟩ := up
    · simp at lu
    obtain _ | ⟨v, ve⟩ := ve
    · simp at lv
    obtain _ | ⟨a, ac⟩ := ac
    · simp at la
    obtain _ | ⟨nm, names⟩ := names
    · simp at ln
    simp only [List.length_cons, Nat.add_le_add_iff_right] at lH lP ll lu lv la ln
    simp only [sgLoop, hd, hdO, Except.bind_ok, List.tail_cons, Option.map_some] at h
    rcases hj : getLinkAndJoint x p t l u v a (lit 1000) (linkName i) nm parent with e' | j
    · rw [hj] at h
      cases h
      unfold getLinkAndJoint at hj
      by_cases h0 : t = 0
      · subst h0; cases hj
      by_cases h1 : t = 1
      · subst h1; cases hj
      simp only [h0, h1, if_false] at hj
      cases hj
      rfl
    rw [hj, Except.bind_ok] at h
    rcases hs : sg.addLinkJoint (linkName i) j with e' | sg1
    · rw [hs] at h
      cases h
      exact addLink_error hs
    · rw [hs, Except.bind_ok] at h
      exact ih _ _ _ lH lP ll lu lv la ln h

theorem sgNames_length {robot : Robot α} (hf : Spec.Fits robot) : (sgJointNames robot).length = robot.jointType.length := by
  unfold sgJointNames
  rcases h : robot.jointNames with _ | l
  · simp
  · exact hf.names l h

/-- the conversion from the loop on -/
theorem robotToSceneGraph_eq {robot : Robot α} (hl : (sgJointNames robot).length = robot.jointType.length) : robotToSceneGraph robot = (do
    let sg ← sgLoop 0 "base_link" robot.jointType robot.H robot.P robot.lower robot.upper robot.vel robot.acc (sgJointNames robot)
      ⟨["base_link"], []⟩
    let p ← getI robot.P robot.jointType.length
    let last ← orElseGet none ((List.range robot.jointType.length).map linkName).getLast?
    let sg ← sg.addLinkJoint "chain_tip" (getFixedJoint ⟨1, p, none, none⟩ "chain_tip" (last ++ "_to_chain_tip") last)
    let r ← sgFlange robot sg "chain_tip" (["base_link"] ++ (List.range robot.jointType.length).map linkName ++ ["chain_tip"])
    let r ← sgTool robot r.1 r.2.1 r.2.2
    return ⟨r.1, r.2.2, sgJointNames robot, ["base_link"] ++ (List.range robot.jointType.length).map linkName⟩) := by
  have e : pyAssert ((sgJointNames robot).length == robot.jointType.length) = .ok () := by rw [hl]; simp [pyAssert]
  have e0 : (SGraph.empty : SGraph α).addLink "base_link" = .ok ⟨["base_link"], []⟩ := by simp [SGraph.addLink, SGraph.empty]
  unfold robotToSceneGraph
  rw [e0, Except.bind_ok]
  show (pyAssert ((sgJointNames robot).length == robot.jointType.length) >>= _) = _
  rw [e, Except.bind_ok]
  rfl

end
