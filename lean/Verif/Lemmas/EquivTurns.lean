import Verif.Lemmas.Equiv

/-!
# `equivalent_configurations` for any number type

Every joint is moved once, so that the configurations found are the input with each entry moved by a number of turns.
-/
set_option autoImplicit false

section
variable {α : Type} [Add α] [Sub α] [Mul α] [Div α] [Neg α] [Zero α] [One α] [LT α] [LE α] [DecidableLT α] [DecidableLE α] [Elem α]

/-- one entry moved by `k` turns as the loop does it -/
def spin (x : α) (k : ℤ) : α :=
  if 0 < k then x + twoPi * lit ((k.toNat : Nat) : Rat) else if k < 0 then x - twoPi * lit (((-k).toNat : Nat) : Rat) else x

/-- all entries moved -/
def confG (θ : List α) (m : List ℤ) : List α := List.zipWith spin θ m

theorem confG_length (θ : List α) (m : List ℤ) (h : m.length = θ.length) : (confG θ m).length = θ.length := by simp [confG, h]

theorem confG_zero (θ : List α) : confG θ (List.replicate θ.length 0) = θ := by
  apply List.ext_getElem (by simp [confG])
  intro j h1 h2
  simp [confG, spin]

theorem shift_confG (θ : List α) (m : List ℤ) (i : Nat) (k : ℤ) (s : α → α) (hs : ∀ x, s x = spin x k) (h0 : ∀ c, m[i]? = some c → c = 0) :
    shiftJoint (confG θ m) i s = confG θ (m.modify i (· + k)) := by
  unfold shiftJoint confG
  induction θ generalizing m i with
  | nil => simp
  | cons t θ ih =>
    obtain _ | ⟨a, m⟩ := m
    · simp
    · cases i with
      | zero =>
        obtain rfl : a = 0 := h0 a rfl
        simp only [List.zipWith_cons_cons, List.modify_zero_cons, zero_add, List.cons.injEq, and_true]
        rw [hs]
        simp [spin]
      | succ i => simpa using ih m i (by simpa using h0)

theorem equivJoint_confG (θ : List α) (i nu nl : Nat) (E : List (List ℤ)) (hE : ∀ m ∈ E, ∀ c, m[i]? = some c → c = 0) :
    equivJoint θ i nu nl (E.map (confG θ)) = (stepZ θ.length i nu nl E).map (confG θ) := by
  have up : ∀ j : Nat, ∀ x : α, x + twoPi * lit ((j + 1 : Nat) : Rat) = spin x ((j : ℤ) + 1) := by
    intro j x
    rw [spin, if_pos (by omega), show ((j : ℤ) + 1).toNat = j + 1 by omega]
  have down : ∀ j : Nat, ∀ x : α, x - twoPi * lit ((j + 1 : Nat) : Rat) = spin x (-((j : ℤ) + 1)) := by
    intro j x
    rw [spin, if_neg (by omega), if_pos (by omega), show (-(-((j : ℤ) + 1))).toNat = j + 1 by omega]
  have hZ : ∀ m ∈ E ++ [List.replicate θ.length 0], ∀ c, m[i]? = some c → c = 0 := by
    intro m hm c hc
    rw [List.mem_append, List.mem_singleton] at hm
    rcases hm with hm | rfl
    · exact hE m hm c hc
    · rw [List.getElem?_replicate] at hc
      split_ifs at hc
      cases hc; rfl
  have hE' : E.map (confG θ) ++ [θ] = (E ++ [List.replicate θ.length 0]).map (confG θ) := by
    rw [List.map_append, List.map_singleton, confG_zero]
  unfold equivJoint stepZ shifts
  rw [hE']
  generalize E ++ [List.replicate θ.length 0] = Z at hZ ⊢
  rw [List.map_append, List.flatMap_append, List.map_append]
  refine congrArg₂ _ rfl (congrArg₂ _ ?_ ?_)
  · rw [List.flatMap_map, List.map_flatMap]
    congr 1; funext j
    simp only [List.map_map]
    apply List.map_congr_left
    intro m hm
    exact shift_confG θ m i _ _ (up j) (hZ m hm)
  · rw [List.flatMap_map, List.map_flatMap]
    congr 1; funext j
    simp only [List.map_map]
    apply List.map_congr_left
    intro m hm
    exact shift_confG θ m i _ _ (down j) (hZ m hm)

/-- the turns of joint `j` that the loop allows -/
def turnsIn (types : List Nat) (nu nl : Nat → Nat) (j : Nat) (k : ℤ) : Prop := types[j]? = some 0 ∧ -(nl j : ℤ) ≤ k ∧ k ≤ nu j

/-- what the loop reads off one pair of quotients -/
def Reads (x : α × α) (nu nl : Nat) : Prop :=
  rangeLen x.1 = .ok nu ∧ rangeLen x.2 = .ok nl ∧ (¬ (0 < x.1 ∨ 0 < x.2) → nu = 0 ∧ nl = 0)

theorem equiv_foldG (types : List Nat) (θ : List α) (nu nl : Nat → Nat) (n : Nat) (lt : types.length = n) (lθ : θ.length = n)
    (f : List (List α) → (α × α) × Nat → Except PyErr (List (List α)))
    (hf : ∀ equiv x, f equiv x = (do
      if 0 < x.1.1 ∨ 0 < x.1.2 then
        let ty ← getI types x.2
        if ty ≠ 0 then return equiv
        let nu ← rangeLen x.1.1
        let nl ← rangeLen x.1.2
        return equivJoint θ x.2 nu nl equiv
      else return equiv))
    (d i : Nat) (hd : i + d = n) (E : List (List ℤ)) (hE : TurnInv n i (turnsIn types nu nl) E) (bs : List (α × α))
    (hbs : bs.length = d) (hb : ∀ j, i ≤ j → ∀ x, bs[j - i]? = some x → Reads x (nu j) (nl j)) :
    ∃ E', TurnInv n n (turnsIn types nu nl) E' ∧ (bs.zipIdx i).foldlM f (E.map (confG θ)) = .ok (E'.map (confG θ)) := by
  induction d generalizing i E bs with
  | zero =>
    obtain rfl := List.eq_nil_of_length_eq_zero hbs
    obtain rfl : i = n := by omega
    exact ⟨E, hE, rfl⟩
  | succ d ih =>
    obtain _ | ⟨b, bs⟩ := bs
    · simp at hbs
    have hi : i < n := by omega
    have et := List.getElem?_eq_getElem (l := types) (i := i) (by omega)
    generalize types[i] = ty at et
    obtain ⟨r1, r2, r3⟩ := hb i le_rfl b (by simp)
    have hok : ∀ s, turnsIn types nu nl i s ↔ ty = 0 ∧ -(nl i : ℤ) ≤ s ∧ s ≤ nu i := by
      intro s
      unfold turnsIn
      rw [et]
      simp
    have at0 : ∀ m ∈ E, ∀ c, m[i]? = some c → c = 0 := by
      intro m hm c hc
      by_contra hne
      exact absurd (((hE.mem m).1 hm).1.2 i c hc hne).1 (lt_irrefl i)
    have hstep : ∃ E1, TurnInv n (i + 1) (turnsIn types nu nl) E1 ∧ f (E.map (confG θ)) (b, i) = .ok (E1.map (confG θ)) := by
      rw [hf]
      simp only
      split_ifs with h0
      · rw [getI_some et]
        simp only [Except.bind_ok]
        split_ifs with hty
        · exact ⟨E, hE.skip (fun s _ hs => hty ((hok s).1 hs).1), rfl⟩
        · have hty : ty = 0 := by simpa using hty
          refine ⟨stepZ θ.length i (nu i) (nl i) E, ?_, ?_⟩
          rotate_left
          · rw [r1, r2]
            simp only [Except.bind_ok]
            rw [equivJoint_confG θ i _ _ E at0]; rfl
          · rw [lθ]
            exact hE.step hi _ _ fun s _ => by rw [hok]; simp [hty]
      · refine ⟨E, hE.skip (fun s hs0 hs => ?_), rfl⟩
        obtain ⟨-, h1, h2⟩ := (hok s).1 hs
        obtain ⟨e1, e2⟩ := r3 h0
        omega
    obtain ⟨E1, hE1, e1⟩ := hstep
    obtain ⟨E', hE', e2⟩ := ih (i + 1) (by omega) E1 hE1 bs (by simpa using hbs) (fun j hj x hx => by
      refine hb j (by omega) x ?_
      rwa [show j - i = (j - (i + 1)) + 1 by omega, List.getElem?_cons_succ])
    refine ⟨E', hE', ?_⟩
    rw [List.zipIdx_cons, List.foldlM_cons, e1]
    exact e2

/-- The loop over the joints lists all vectors of turns but zero, each once. -/
theorem equivOne_turns (robot : Robot α) (lo up θ : List α) (hlo : robot.lower = some lo) (hup : robot.upper = some up)
    (ll : lo.length = robot.jointType.length) (lu : up.length = robot.jointType.length) (lθ : θ.length = robot.jointType.length)
    (nu nl : Nat → Nat) (hr : ∀ j l u t, lo[j]? = some l → up[j]? = some u → θ[j]? = some t →
      Reads (Elem.floorDiv (u - t) twoPi, Elem.floorDiv (t - l) twoPi) (nu j) (nl j)) :
    ∃ E, TurnInv θ.length θ.length (turnsIn robot.jointType nu nl) E ∧ equivOne robot θ = .ok (E.map (confG θ)) := by
  have h0 : TurnInv θ.length 0 (turnsIn robot.jointType nu nl) [] := by
    refine ⟨List.nodup_nil, fun m => ⟨fun h => by simp at h, ?_⟩⟩
    rintro ⟨⟨h1, h2⟩, h3⟩
    exfalso
    apply h3
    apply List.ext_getElem (by simp [h1])
    intro j h4 h5
    rw [List.getElem_replicate]
    by_contra hne
    exact absurd (h2 j m[j] (List.getElem?_eq_getElem _) hne).1 (by omega)
  obtain ⟨E, hE, e⟩ := equiv_foldG robot.jointType θ nu nl θ.length lθ.symm rfl
    (fun equiv x => do
      if 0 < x.1.1 ∨ 0 < x.1.2 then
        let ty ← getI robot.jointType x.2
        if ty ≠ 0 then return equiv
        let nu ← rangeLen x.1.1
        let nl ← rangeLen x.1.2
        return equivJoint θ x.2 nu nl equiv
      else return equiv) (fun _ _ => rfl) θ.length 0 (by omega) [] h0
    (((up.zip θ).map fun x => Elem.floorDiv (x.1 - x.2) twoPi).zip ((θ.zip lo).map fun x => Elem.floorDiv (x.1 - x.2) twoPi))
    (by simp; omega) (by
      intro j _ x hx
      simp only [Nat.sub_zero, List.getElem?_zip_eq_some, List.getElem?_map, Option.map_eq_some_iff] at hx
      obtain ⟨⟨a, ha, e1⟩, ⟨b, hb, e2⟩⟩ := hx
      obtain rfl : x = (Elem.floorDiv (a.1 - a.2) twoPi, Elem.floorDiv (b.1 - b.2) twoPi) := Prod.ext e1.symm e2.symm
      obtain hab : a.2 = b.1 := by
        have := ha.2.symm.trans hb.1
        simpa using this
      rw [← hab]
      exact hr j _ _ _ hb.2 ha.1 ha.2)
  refine ⟨E, hE, ?_⟩
  unfold equivOne
  simp only [hlo, hup]
  rw [bcast_eq _ _ (by omega), Except.bind_ok, bcast_eq _ _ (by omega), Except.bind_ok, bcast_eq _ _ (by simp; omega),
    Except.bind_ok]
  exact e

end
