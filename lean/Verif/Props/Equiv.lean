import Verif.Lemmas.Equiv
import Verif.Lemmas.RobotUp
import Verif.Props.Jacobian
import Verif.Props.InvkinMisc

/-!
# Properties C37, C38, C39: `equivalent_configurations`
-/
set_option autoImplicit false

/-- `c` is a configuration inside the limits, other than `θ`, which differs from `θ` by whole turns of revolute joints. -/
def Spec.equivalent (types : List Nat) (lo up θ c : List ℝ) : Prop :=
  c.length = θ.length ∧ c ≠ θ ∧
    (∀ (j : Nat) (l u x : ℝ), lo[j]? = some l → up[j]? = some u → c[j]? = some x → l ≤ x ∧ x ≤ u) ∧
    ∀ (j : Nat) (t x : ℝ), θ[j]? = some t → c[j]? = some x → x = t ∨ (types[j]? = some 0 ∧ ∃ k : ℤ, x = t + k * (2 * Real.pi))

/-- inside the limits, bounds included -/
def Spec.within (lo up θ : List ℝ) : Prop :=
  ∀ (j : Nat) (l u t : ℝ), lo[j]? = some l → up[j]? = some u → θ[j]? = some t → l ≤ t ∧ t ≤ u

/-- the turns of joint `j` that the loop allows -/
def turnOk (types : List Nat) (lo up θ : List ℝ) (j : Nat) (k : ℤ) : Prop :=
  types[j]? = some 0 ∧ ∀ l u t : ℝ, lo[j]? = some l → up[j]? = some u → θ[j]? = some t →
    l ≤ t + k * (2 * Real.pi) ∧ t + k * (2 * Real.pi) ≤ u

theorem floor_turns (l u t : ℝ) (h1 : l ≤ t) (h2 : t ≤ u) (k : ℤ) :
    (l ≤ t + k * (2 * Real.pi) ∧ t + k * (2 * Real.pi) ≤ u) ↔
      -(⌊(t - l) / (2 * Real.pi)⌋.toNat : ℤ) ≤ k ∧ k ≤ (⌊(u - t) / (2 * Real.pi)⌋.toNat : ℤ) := by
  have hp := Real.two_pi_pos
  have a1 : 0 ≤ ⌊(t - l) / (2 * Real.pi)⌋ := Int.floor_nonneg.2 (div_nonneg (by linarith) hp.le)
  have a2 : 0 ≤ ⌊(u - t) / (2 * Real.pi)⌋ := Int.floor_nonneg.2 (div_nonneg (by linarith) hp.le)
  rw [Int.toNat_of_nonneg a1, Int.toNat_of_nonneg a2, neg_le, Int.le_floor, Int.le_floor, le_div_iff₀ hp, le_div_iff₀ hp]
  push_cast
  constructor
  · rintro ⟨h3, h4⟩; constructor <;> linarith
  · rintro ⟨h3, h4⟩; constructor <;> linarith

/-- the loop over the joints, started at joint `i` with the configurations found so far -/
theorem equiv_fold (types : List Nat) (lo up θ : List ℝ) (hθ : Spec.within lo up θ) (n : Nat) (lt : types.length = n)
    (ll : lo.length = n) (lu : up.length = n) (lθ : θ.length = n) (f : List (List XReal) → (XReal × XReal) × Nat → Except PyErr (List (List XReal)))
    (hf : ∀ equiv x, f equiv x = (do
      if 0 < x.1.1 ∨ 0 < x.1.2 then
        let ty ← getI types x.2
        if ty ≠ 0 then return equiv
        let nu ← rangeLen x.1.1
        let nl ← rangeLen x.1.2
        return equivJoint (θ.map .fin) x.2 nu nl equiv
      else return equiv))
    (d i : Nat) (hd : i + d = n) (E : List (List ℤ)) (hE : TurnInv n i (turnOk types lo up θ) E) (bs : List (XReal × XReal))
    (hbs : bs.length = d) (hb : ∀ (j : Nat) (l u t : ℝ), i ≤ j → lo[j]? = some l → up[j]? = some u → θ[j]? = some t →
      bs[j - i]? = some (.fin ⌊(u - t) / (2 * Real.pi)⌋, .fin ⌊(t - l) / (2 * Real.pi)⌋)) :
    ∃ E', TurnInv n n (turnOk types lo up θ) E' ∧
      (bs.zipIdx i).foldlM f (E.map fun m => (conf θ m).map XReal.fin) =
        .ok (E'.map fun m => (conf θ m).map XReal.fin) := by
  induction d generalizing i E bs with
  | zero =>
    obtain rfl := List.eq_nil_of_length_eq_zero hbs
    obtain rfl : i = n := by omega
    exact ⟨E, hE, rfl⟩
  | succ d ih =>
    obtain _ | ⟨b, bs⟩ := bs
    · simp at hbs
    have hi : i < n := by omega
    have eθ := List.getElem?_eq_getElem (l := θ) (i := i) (by omega)
    have el := List.getElem?_eq_getElem (l := lo) (i := i) (by omega)
    have eu := List.getElem?_eq_getElem (l := up) (i := i) (by omega)
    have et := List.getElem?_eq_getElem (l := types) (i := i) (by omega)
    generalize θ[i] = t at eθ
    generalize lo[i] = l at el
    generalize up[i] = u at eu
    generalize types[i] = ty at et
    obtain ⟨w1, w2⟩ := hθ i l u t el eu eθ
    have hbi := hb i l u t le_rfl el eu eθ
    simp only [Nat.sub_self, List.getElem?_cons_zero, Option.some.injEq] at hbi
    subst hbi
    have a1 : 0 ≤ ⌊(t - l) / (2 * Real.pi)⌋ := Int.floor_nonneg.2 (div_nonneg (by linarith) Real.two_pi_pos.le)
    have a2 : 0 ≤ ⌊(u - t) / (2 * Real.pi)⌋ := Int.floor_nonneg.2 (div_nonneg (by linarith) Real.two_pi_pos.le)
    have hok : ∀ s, turnOk types lo up θ i s ↔ ty = 0 ∧ -(⌊(t - l) / (2 * Real.pi)⌋.toNat : ℤ) ≤ s ∧
        s ≤ (⌊(u - t) / (2 * Real.pi)⌋.toNat : ℤ) := by
      intro s
      rw [← floor_turns l u t w1 w2]
      constructor
      · rintro ⟨h1, h2⟩
        rw [et] at h1
        exact ⟨by simpa using h1, h2 l u t el eu eθ⟩
      · rintro ⟨rfl, h2⟩
        refine ⟨et, fun l' u' t' e1 e2 e3 => ?_⟩
        rw [el] at e1; rw [eu] at e2; rw [eθ] at e3
        cases e1; cases e2; cases e3
        exact h2
    have hstep : ∃ E1, TurnInv n (i + 1) (turnOk types lo up θ) E1 ∧
        f (E.map fun m => (conf θ m).map XReal.fin) ((XReal.fin ⌊(u - t) / (2 * Real.pi)⌋, XReal.fin ⌊(t - l) / (2 * Real.pi)⌋), i) =
          .ok (E1.map fun m => (conf θ m).map XReal.fin) := by
      rw [hf]
      simp only [XReal.zero_def, XReal.fin_lt, Int.cast_pos]
      split_ifs with h0
      · rw [getI_some et]
        simp only [Except.bind_ok]
        split_ifs with hty
        · exact ⟨E, hE.skip (fun s _ hs => hty ((hok s).1 hs).1), rfl⟩
        · have hty : ty = 0 := by simpa using hty
          refine ⟨stepZ θ.length i ⌊(u - t) / (2 * Real.pi)⌋.toNat ⌊(t - l) / (2 * Real.pi)⌋.toNat E, ?_, ?_⟩
          rotate_left
          · simp only [rangeLen, XReal.toInt_fin, trunc_int, Except.bind_ok]
            rw [equivJoint_conf]; rfl
          · rw [lθ]
            exact hE.step hi _ _ fun s _ => by rw [hok]; simp [hty]
      · refine ⟨E, hE.skip (fun s hs0 hs => ?_), rfl⟩
        obtain ⟨-, h1, h2⟩ := (hok s).1 hs
        push Not at h0
        have e1 := Int.toNat_of_nonneg a1
        have e2 := Int.toNat_of_nonneg a2
        omega
    obtain ⟨E1, hE1, e1⟩ := hstep
    obtain ⟨E', hE', e2⟩ := ih (i + 1) (by omega) E1 hE1 bs (by simpa using hbs) (fun j l' u' t' hj h1 h2 h3 => by
      have := hb j l' u' t' (by omega) h1 h2 h3
      rwa [show j - i = (j - (i + 1)) + 1 by omega, List.getElem?_cons_succ] at this)
    refine ⟨E', hE', ?_⟩
    rw [List.zipIdx_cons, List.foldlM_cons, e1]
    exact e2

theorem equivOne_spec (robot : Robot ℝ) (lo up θ : List ℝ) (hlo : robot.lower = some lo) (hup : robot.upper = some up)
    (ll : lo.length = robot.jointType.length) (lu : up.length = robot.jointType.length) (lθ : θ.length = robot.jointType.length)
    (hθ : Spec.within lo up θ) :
    ∃ E, TurnInv θ.length θ.length (turnOk robot.jointType lo up θ) E ∧
      equivOne robot.up (θ.map .fin) = .ok (E.map fun m => (conf θ m).map XReal.fin) := by
  have h0 : TurnInv θ.length 0 (turnOk robot.jointType lo up θ) [] := by
    refine ⟨List.nodup_nil, fun m => ⟨fun h => by simp at h, ?_⟩⟩
    rintro ⟨⟨h1, h2⟩, h3⟩
    exfalso
    apply h3
    apply List.ext_getElem (by simp [h1])
    intro j h4 h5
    rw [List.getElem_replicate]
    by_contra hne
    exact absurd (h2 j m[j] (List.getElem?_eq_getElem _) hne).1 (by omega)
  have hp := Real.two_pi_pos.ne'
  obtain ⟨E, hE, e⟩ := equiv_fold robot.jointType lo up θ hθ θ.length lθ.symm (by omega) (by omega) rfl
    (fun equiv x => do
      if 0 < x.1.1 ∨ 0 < x.1.2 then
        let ty ← getI robot.jointType x.2
        if ty ≠ 0 then return equiv
        let nu ← rangeLen x.1.1
        let nl ← rangeLen x.1.2
        return equivJoint (θ.map .fin) x.2 nu nl equiv
      else return equiv) (fun _ _ => rfl) θ.length 0 (by omega) [] h0
    ((((up.map XReal.fin).zip (θ.map XReal.fin)).map fun x => Elem.floorDiv (x.1 - x.2) twoPi).zip
      (((θ.map XReal.fin).zip (lo.map XReal.fin)).map fun x => Elem.floorDiv (x.1 - x.2) twoPi))
    (by simp; omega) (by
      intro j l u t _ h1 h2 h3
      simp only [Nat.sub_zero, List.getElem?_zip_eq_some, List.getElem?_map, Option.map_eq_some_iff]
      refine ⟨⟨(.fin u, .fin t), ?_, ?_⟩, ⟨(.fin t, .fin l), ?_, ?_⟩⟩
      · simp [List.getElem?_zip_eq_some, h2, h3]
      · simp only [XReal.fin_sub, twoPi_fin, XReal.floorDiv_fin _ hp]
      · simp [List.getElem?_zip_eq_some, h1, h3]
      · simp only [XReal.fin_sub, twoPi_fin, XReal.floorDiv_fin _ hp])
  refine ⟨E, hE, ?_⟩
  have e1 : robot.up.lower = some (lo.map .fin) := by simp [Robot.up, hlo]
  have e2 : robot.up.upper = some (up.map .fin) := by simp [Robot.up, hup]
  unfold equivOne
  simp only [e1, e2]
  rw [bcast_eq _ _ (by simp; omega), Except.bind_ok, bcast_eq _ _ (by simp; omega), Except.bind_ok, bcast_eq _ _ (by simp; omega),
    Except.bind_ok]
  exact e

/-- what the integer invariant says about the configurations -/
theorem mem_equivalent (types : List Nat) (lo up θ : List ℝ) (ll : lo.length = types.length) (lu : up.length = types.length)
    (lθ : θ.length = types.length) (hθ : Spec.within lo up θ) (E : List (List ℤ))
    (hE : TurnInv θ.length θ.length (turnOk types lo up θ) E) (c : List XReal) :
    (c ∈ E.map fun m => (conf θ m).map XReal.fin) ↔ ∃ c' : List ℝ, c = c'.map .fin ∧ Spec.equivalent types lo up θ c' := by
  rw [List.mem_map]
  constructor
  · rintro ⟨m, hm, rfl⟩
    obtain ⟨⟨hl, ha⟩, hne⟩ := (hE.mem m).1 hm
    refine ⟨conf θ m, rfl, conf_length θ m hl, ?_, ?_, ?_⟩
    · intro e
      exact hne (conf_inj hl (by simp) (by rw [e, conf_zero]))
    · intro j l u x h1 h2 h3
      have hj : j < θ.length := by
        rw [lθ, ← ll]; exact (List.getElem?_eq_some_iff.1 h1).1
      rw [conf_getElem? θ m hl j hj, Option.some.injEq] at h3
      subst h3
      by_cases h0 : m[j] = 0
      · rw [h0]
        simpa using hθ j l u θ[j] h1 h2 (List.getElem?_eq_getElem hj)
      · exact (ha j m[j] (List.getElem?_eq_getElem _) h0).2.2 l u θ[j] h1 h2 (List.getElem?_eq_getElem hj)
    · intro j t x h1 h2
      obtain ⟨hj, rfl⟩ := List.getElem?_eq_some_iff.1 h1
      rw [conf_getElem? θ m hl j hj, Option.some.injEq] at h2
      by_cases h0 : m[j] = 0
      · left; rw [← h2, h0]; simp
      · right
        exact ⟨(ha j m[j] (List.getElem?_eq_getElem _) h0).2.1, m[j], h2.symm⟩
  · rintro ⟨c', rfl, hl, hne, hlim, hturn⟩
    have hk : ∀ j, ∃ k : ℤ, ∀ (h : j < θ.length) (h' : j < c'.length), c'[j] = θ[j] + k * (2 * Real.pi) ∧ (k ≠ 0 → types[j]? = some 0) := by
      intro j
      by_cases h : j < θ.length
      · have h' : j < c'.length := by omega
        rcases hturn j θ[j] c'[j] (List.getElem?_eq_getElem h) (List.getElem?_eq_getElem h') with e | ⟨h1, k, e⟩
        · exact ⟨0, fun _ _ => ⟨by simp [e], by simp⟩⟩
        · exact ⟨k, fun _ _ => ⟨e, fun _ => h1⟩⟩
      · exact ⟨0, fun h1 => absurd h1 h⟩
    choose k hk using hk
    have hml : ((List.range θ.length).map k).length = θ.length := by simp
    have hc : conf θ ((List.range θ.length).map k) = c' := by
      apply List.ext_getElem (by rw [conf_length _ _ hml, hl])
      intro j h1 h2
      have hj : j < θ.length := by omega
      have := conf_getElem? θ _ hml j hj
      rw [List.getElem?_eq_getElem h1, Option.some.injEq] at this
      rw [this, (hk j hj h2).1]
      simp
    refine ⟨(List.range θ.length).map k, (hE.mem _).2 ⟨⟨hml, fun j s hj hs => ?_⟩, ?_⟩, by rw [hc]⟩
    · obtain ⟨h1, h2⟩ := List.getElem?_eq_some_iff.1 hj
      have h3 : j < θ.length := by simpa using h1
      have h4 : j < c'.length := by omega
      simp only [List.getElem_map, List.getElem_range] at h2
      subst h2
      refine ⟨h3, (hk j h3 h4).2 hs, fun l u t e1 e2 e3 => ?_⟩
      rw [List.getElem?_eq_getElem h3, Option.some.injEq] at e3
      subst e3
      rw [← (hk j h3 h4).1]
      exact hlim j l u c'[j] e1 e2 (List.getElem?_eq_getElem h4)
    · intro e
      apply hne
      rw [← hc, e, conf_zero]

/-- C37 and C38: for inputs inside the limits, the result is the concatenation, input by input, of lists that contain each
equivalent configuration inside the limits exactly once and nothing else.  (For C38 `_partial`: heading joints of mobile bases,
type 2, are rotary as well but are never shifted, see `C38_heading_false`.) -/
theorem C38_equivalent_partial (robot : Robot ℝ) (lo up : List ℝ) (hlo : robot.lower = some lo) (hup : robot.upper = some up)
    (ll : lo.length = robot.jointType.length) (lu : up.length = robot.jointType.length) (θs : List (List ℝ))
    (lθ : ∀ θ ∈ θs, θ.length = robot.jointType.length) (hθ : ∀ θ ∈ θs, Spec.within lo up θ) :
    ∃ parts : List (List (List XReal)),
      equivalent_configurations robot.up (θs.map (·.map .fin)) = .ok parts.flatten ∧
      List.Forall₂ (fun θ part => part.Nodup ∧
        ∀ c, c ∈ part ↔ ∃ c' : List ℝ, c = c'.map .fin ∧ Spec.equivalent robot.jointType lo up θ c') θs parts := by
  have h1 : ∃ parts : List (List (List XReal)), (θs.map (·.map XReal.fin)).mapM (equivOne robot.up) = .ok parts ∧
      List.Forall₂ (fun θ part => part.Nodup ∧
        ∀ c, c ∈ part ↔ ∃ c' : List ℝ, c = c'.map .fin ∧ Spec.equivalent robot.jointType lo up θ c') θs parts := by
    induction θs with
    | nil => exact ⟨[], rfl, .nil⟩
    | cons θ θs ih =>
      obtain ⟨parts, e1, e2⟩ := ih (fun x hx => lθ x (by simp [hx])) (fun x hx => hθ x (by simp [hx]))
      obtain ⟨E, hE, e⟩ := equivOne_spec robot lo up θ hlo hup ll lu (lθ θ (by simp)) (hθ θ (by simp))
      refine ⟨(E.map fun m => (conf θ m).map XReal.fin) :: parts, ?_, .cons ⟨?_, ?_⟩ e2⟩
      · rw [List.map_cons, mapM_cons', e, e1]; rfl
      · refine List.Nodup.map_on ?_ hE.nodup
        intro m hm m' hm' hmm
        apply conf_inj ((hE.mem m).1 hm).1.1 ((hE.mem m').1 hm').1.1
        exact List.map_injective_iff.2 (fun a b h => by simpa using h) hmm
      · exact mem_equivalent robot.jointType lo up θ ll lu (lθ θ (by simp)) (hθ θ (by simp)) E hE
  obtain ⟨parts, e1, e2⟩ := h1
  refine ⟨parts, ?_, e2⟩
  have h2 : ∃ u, parts.flatten.mapM (fun e => (θs.map (·.map XReal.fin)).mapM fun t => allcloseEffect t e) = .ok u := by
    apply exists_mapM_ok
    intro c hc
    apply exists_mapM_ok
    intro t ht
    obtain ⟨part, hp, hcp⟩ := List.mem_flatten.1 hc
    obtain ⟨θ, hθm, -, hmem⟩ := Forall₂.exists_left e2 hp
    obtain ⟨c', rfl, hcl, -⟩ := (hmem c).1 hcp
    rw [List.mem_map] at ht
    obtain ⟨t', ht', rfl⟩ := ht
    refine ⟨(), ?_⟩
    rw [allcloseEffect, bcast_eq _ _ (by simp [hcl, lθ θ hθm, lθ t' ht'])]
    rfl
  obtain ⟨u, h2⟩ := h2
  simp only [equivalent_configurations, forAppend, e1, Except.bind_ok, Except.pure_eq, h2]
  rfl

theorem turns_shiftTurns (types : List Nat) (θ c : List ℝ) (lθ : θ.length = types.length) (hl : c.length = θ.length)
    (hturn : ∀ (j : Nat) (t x : ℝ), θ[j]? = some t → c[j]? = some x →
      x = t ∨ (types[j]? = some 0 ∧ ∃ k : ℤ, x = t + k * (2 * Real.pi))) : ∃ ns, c = shiftTurns types θ ns := by
  induction θ generalizing c types with
  | nil => exact ⟨[], by rw [List.eq_nil_of_length_eq_zero hl]; cases types <;> rfl⟩
  | cons t θ ih =>
    obtain _ | ⟨x, c⟩ := c
    · simp at hl
    obtain _ | ⟨ty, types⟩ := types
    · simp at lθ
    obtain ⟨ns, e⟩ := ih types c (by simpa using lθ) (by simpa using hl)
      (fun j t' x' h1 h2 => by simpa using hturn (j + 1) t' x' (by simpa using h1) (by simpa using h2))
    rcases hturn 0 t x rfl rfl with rfl | ⟨h1, k, rfl⟩
    · refine ⟨0 :: ns, ?_⟩
      simp [shiftTurns, ← e]
    · refine ⟨k :: ns, ?_⟩
      have : ty = 0 := by simpa using h1
      simp [shiftTurns, ← e, this]

/-- C37: for inputs inside the limits, every returned configuration is inside the limits and equivalent to one of the inputs:
a different one, equal up to whole turns of revolute joints, with the same forward kinematics. -/
theorem C37_equivalent_sound (robot : Robot ℝ) (lo up : List ℝ) (hlo : robot.lower = some lo) (hup : robot.upper = some up)
    (ll : lo.length = robot.jointType.length) (lu : up.length = robot.jointType.length) (θs : List (List ℝ))
    (lθ : ∀ θ ∈ θs, θ.length = robot.jointType.length) (hθ : ∀ θ ∈ θs, Spec.within lo up θ) (last : Option (List XReal))
    (sols : List (List XReal)) (h : equivalent_configurations robot.up (θs.map (·.map .fin)) last = .ok sols)
    (s : List XReal) (hs : s ∈ sols) :
    ∃ θ ∈ θs, ∃ c : List ℝ, s = c.map .fin ∧ Spec.equivalent robot.jointType lo up θ c ∧
      fwdkin robot c true = fwdkin robot θ true ∧ fwdkin robot.up s true = fwdkin robot.up (θ.map .fin) true := by
  obtain ⟨parts, e1, e2⟩ := C38_equivalent_partial robot lo up hlo hup ll lu θs lθ hθ
  have hp : s ∈ parts.flatten := by
    rcases last with _ | last
    · rw [h] at e1; cases e1; exact hs
    · obtain ⟨-, sols', h1, h2⟩ := C34_equiv_sorted _ _ _ _ h
      rw [h1] at e1; cases e1
      exact h2.mem_iff.1 hs
  obtain ⟨part, hp, hsp⟩ := List.mem_flatten.1 hp
  obtain ⟨θ, hθm, -, hmem⟩ := Forall₂.exists_left e2 hp
  obtain ⟨c, rfl, hc⟩ := (hmem s).1 hsp
  have hf : fwdkin robot c true = fwdkin robot θ true := by
    obtain ⟨hl, -, -, hturn⟩ := hc
    obtain ⟨ns, hns⟩ := turns_shiftTurns robot.jointType θ c (lθ θ hθm) hl hturn
    rw [hns]; exact C19_fwdkin_periodic robot θ ns
  exact ⟨θ, hθm, c, rfl, hc, hf, by rw [fwdkin_up, fwdkin_up, hf]⟩

/-- C38 is false for heading joints of mobile bases (type 2): `2π` is inside the limits and gives the same forward kinematics as
`0`, but is not returned. -/
theorem C38_heading_false :
    ∃ (robot : Robot ℝ) (θ c : List ℝ), robot.jointType = [2] ∧ robot.lower = some [-10] ∧ robot.upper = some [10] ∧
      θ = [0] ∧ c = [0 + (1 : ℤ) * (2 * Real.pi)] ∧ Spec.within [-10] [10] θ ∧ Spec.within [-10] [10] c ∧
      fwdkin robot c true = fwdkin robot θ true ∧ equivalent_configurations robot.up [θ.map .fin] = .ok [] := by
  have p2 := Real.pi_lt_four
  have p1 := Real.pi_pos
  let robot : Robot ℝ := { H := [V3.ez], P := [0, V3.ex], jointType := [2], lower := some [-10], upper := some [10] }
  have w0 : Spec.within [-10] [10] [0] := by
    intro j l u t h1 h2 h3
    obtain rfl : j = 0 := by have := (List.getElem?_eq_some_iff.1 h1).1; simpa using this
    simp at h1 h2 h3
    subst h1 h2 h3; norm_num
  refine ⟨robot, [0], [0 + (1 : ℤ) * (2 * Real.pi)], rfl, rfl, rfl, rfl, rfl, w0, ?_, ?_, ?_⟩
  · intro j l u t h1 h2 h3
    obtain rfl : j = 0 := by have := (List.getElem?_eq_some_iff.1 h1).1; simpa using this
    simp at h1 h2 h3
    subst h1 h2 h3; constructor <;> linarith [Real.pi_lt_d2]
  · have := C19_fwdkin_periodic robot [0] [1]
    simpa [shiftTurns, robot] using this
  · obtain ⟨parts, e1, e2⟩ := C38_equivalent_partial robot [-10] [10] rfl rfl rfl rfl [[0]] (by simp [robot])
      (by simpa using w0)
    rw [List.map_singleton] at e1
    rw [e1]
    obtain ⟨part, _, ⟨-, h1⟩, h2, rfl⟩ := List.forall₂_cons_left_iff.1 e2
    cases h2
    have : part = [] := by
      rw [List.eq_nil_iff_forall_not_mem]
      intro c hc
      obtain ⟨c', rfl, hl, hne, -, hturn⟩ := (h1 c).1 hc
      obtain ⟨x, rfl⟩ := List.length_eq_one_iff.1 hl
      rcases hturn 0 0 x rfl rfl with rfl | ⟨h3, -⟩
      · exact hne rfl
      · simp [robot] at h3
    rw [this]; rfl

/-- C38 is false for a joint limited on one side only: with an infinite upper limit (`pinf`), `np.divmod` gives NaN for that side.  If a
turn down is possible, `int(nan)` raises ValueError; otherwise nothing is returned although every turn up is inside the limits. -/
theorem C38_half_infinite_false (l t : ℝ) (h : l ≤ t) (robot : Robot XReal) (hty : robot.jointType = [0])
    (hlo : robot.lower = some [.fin l]) (hup : robot.upper = some [.pinf]) (last : Option (List XReal)) :
    equivalent_configurations robot [[.fin t]] last = if l + 2 * Real.pi ≤ t then .error .value else sortByLast [] last := by
  have hp := Real.two_pi_pos
  have e0 : (XReal.pinf - XReal.fin t) = .pinf := rfl
  have e1 : (XReal.fin t - XReal.fin l) = .fin (t - l) := by simp
  have e2 : Elem.floorDiv XReal.pinf (twoPi : XReal) = .nan := rfl
  have e3 : Elem.floorDiv (XReal.fin (t - l)) (twoPi : XReal) = .fin ⌊(t - l) / (2 * Real.pi)⌋ := by
    rw [twoPi_fin, XReal.floorDiv_fin _ hp.ne']
  have e4 : ¬ (0 : XReal) < .nan := fun h => h
  have hone : equivOne robot [.fin t] = if l + 2 * Real.pi ≤ t then .error .value else .ok [] := by
    unfold equivOne
    rw [hlo, hup]
    simp only [bcast_eq [XReal.pinf] [XReal.fin t] rfl, bcast_eq [XReal.fin t] [XReal.fin l] rfl, Except.bind_ok, List.zip_cons_cons,
      List.zip_nil_right, List.map_cons, List.map_nil, e0, e1, e2, e3]
    rw [bcast_eq [XReal.nan] [XReal.fin ⌊(t - l) / (2 * Real.pi)⌋] rfl]
    simp only [Except.bind_ok, List.zip_cons_cons, List.zip_nil_right, List.zipIdx_cons, List.zipIdx_nil, List.foldlM_cons, List.foldlM_nil]
    have hc : (0 : XReal) < .fin (⌊(t - l) / (2 * Real.pi)⌋ : ℝ) ↔ l + 2 * Real.pi ≤ t := by
      rw [XReal.zero_def, XReal.fin_lt, Int.cast_pos, ← Int.add_one_le_iff, zero_add, Int.le_floor, le_div_iff₀ hp]
      push_cast
      constructor <;> intro h <;> linarith
    rw [hty, getI_some (i := 0) rfl]
    split_ifs with h1 h2 h2
    · rfl
    · exact absurd (h1.resolve_left e4) (by rwa [hc])
    · exact absurd (.inr (hc.2 h2)) h1
    · rfl
  unfold equivalent_configurations forAppend
  split_ifs at hone ⊢ with h1
  · simp [hone]
  · simp [hone]

-- non-vacuity: two revolute joints and a prismatic one, limits of two turns: three other configurations
example : Spec.equivalent [0, 0, 1] [-7, -7, 0] [7, 7, 100] [0, 0, 3] [0 + (1 : ℤ) * (2 * Real.pi), 0 + (-1 : ℤ) * (2 * Real.pi), 3] ∧
    Spec.within [-7, -7, 0] [7, 7, 100] [0, 0, 3] := by
  have p2 := Real.pi_lt_d2
  have p1 := Real.pi_gt_three
  refine ⟨⟨rfl, ?_, ?_, ?_⟩, ?_⟩
  · intro h; simp at h
  · intro j l u x h1 h2 h3
    match j with
    | 0 => simp at h1 h2 h3; subst h1 h2 h3; constructor <;> linarith
    | 1 => simp at h1 h2 h3; subst h1 h2 h3; constructor <;> linarith
    | 2 => simp at h1 h2 h3; subst h1 h2 h3; norm_num
    | j + 3 => simp at h1
  · intro j t x h1 h2
    match j with
    | 0 => simp at h1 h2; subst h1 h2; exact .inr ⟨rfl, 1, by simp⟩
    | 1 => simp at h1 h2; subst h1 h2; exact .inr ⟨rfl, -1, by simp⟩
    | 2 => simp at h1 h2; subst h1 h2; exact .inl rfl
    | j + 3 => simp at h1
  · intro j l u x h1 h2 h3
    match j with
    | 0 => simp at h1 h2 h3; subst h1 h2 h3; constructor <;> linarith
    | 1 => simp at h1 h2 h3; subst h1 h2 h3; constructor <;> linarith
    | 2 => simp at h1 h2 h3; subst h1 h2 h3; norm_num
    | j + 3 => simp at h1

/-! ## C39 -/

/-- C39 (`_partial`: the property has no hypothesis on the inputs; see `C39_additional_false`): if no input is equivalent to
another one, then no input is returned. -/
theorem C39_additional_partial (robot : Robot ℝ) (lo up : List ℝ) (hlo : robot.lower = some lo) (hup : robot.upper = some up)
    (ll : lo.length = robot.jointType.length) (lu : up.length = robot.jointType.length) (θs : List (List ℝ))
    (lθ : ∀ θ ∈ θs, θ.length = robot.jointType.length) (hθ : ∀ θ ∈ θs, Spec.within lo up θ)
    (hne : ∀ θ ∈ θs, ∀ θ' ∈ θs, θ ≠ θ' → ¬ Spec.equivalent robot.jointType lo up θ θ') (last : Option (List XReal))
    (sols : List (List XReal)) (h : equivalent_configurations robot.up (θs.map (·.map .fin)) last = .ok sols)
    (θ : List ℝ) (hm : θ ∈ θs) : θ.map .fin ∉ sols := by
  intro hs
  obtain ⟨θ', h1, c, h2, h3, -⟩ := C37_equivalent_sound robot lo up hlo hup ll lu θs lθ hθ last sols h _ hs
  obtain rfl : θ = c := List.map_injective_iff.2 (fun a b h => by simpa using h) h2
  exact hne θ' h1 θ hm (Ne.symm h3.2.1) h3

/-- C39 is false: given two configurations one turn apart, both are returned. -/
theorem C39_additional_false :
    ∃ (robot : Robot ℝ) (θ θ' : List ℝ) (sols : List (List XReal)),
      equivalent_configurations robot.up [θ.map .fin, θ'.map .fin] = .ok sols ∧ θ.map .fin ∈ sols ∧ θ'.map .fin ∈ sols := by
  have p2 := Real.pi_lt_d2
  have p1 := Real.pi_gt_three
  let robot : Robot ℝ := { H := [V3.ez], P := [0, V3.ex], jointType := [0], lower := some [-1], upper := some [7] }
  have w : ∀ x : ℝ, -1 ≤ x → x ≤ 7 → Spec.within [-1] [7] [x] := by
    intro x hx1 hx2 j l u t h1 h2 h3
    obtain rfl : j = 0 := by have := (List.getElem?_eq_some_iff.1 h1).1; simpa using this
    simp at h1 h2 h3
    subst h1 h2 h3; exact ⟨hx1, hx2⟩
  have q : ∀ x y : ℝ, x ≠ y → -1 ≤ y → y ≤ 7 → (∃ k : ℤ, y = x + k * (2 * Real.pi)) → Spec.equivalent [0] [-1] [7] [x] [y] := by
    intro x y hxy h1 h2 h3
    refine ⟨rfl, fun h => hxy (by simpa using h.symm), w y h1 h2, ?_⟩
    intro j t z e1 e2
    obtain rfl : j = 0 := by have := (List.getElem?_eq_some_iff.1 e1).1; simpa using this
    simp at e1 e2
    subst e1 e2
    exact .inr ⟨rfl, h3⟩
  obtain ⟨parts, e1, e2⟩ := C38_equivalent_partial robot [-1] [7] rfl rfl rfl rfl [[0], [2 * Real.pi]] (by simp [robot])
    (by
      intro θ hθ
      simp only [List.mem_cons, List.not_mem_nil, or_false] at hθ
      rcases hθ with rfl | rfl
      · exact w _ (by norm_num) (by norm_num)
      · exact w _ (by linarith) (by linarith))
  obtain ⟨part, _, ⟨-, h1⟩, h2, rfl⟩ := List.forall₂_cons_left_iff.1 e2
  obtain ⟨part', _, ⟨-, h1'⟩, h2', rfl⟩ := List.forall₂_cons_left_iff.1 h2
  refine ⟨robot, [0], [2 * Real.pi], _, e1, ?_, ?_⟩
  · refine List.mem_flatten.2 ⟨part', by simp, (h1' _).2 ⟨[0], rfl, ?_⟩⟩
    exact q _ _ (by linarith) (by norm_num) (by norm_num) ⟨-1, by push_cast; ring⟩
  · refine List.mem_flatten.2 ⟨part, by simp, (h1 _).2 ⟨[2 * Real.pi], rfl, ?_⟩⟩
    exact q _ _ (by linarith) (by linarith) (by linarith) ⟨1, by push_cast; ring⟩

-- non-vacuity of `C39_additional_partial`: a single input is never equivalent to another one
example (types : List Nat) (lo up θ : List ℝ) : ∀ a ∈ [θ], ∀ b ∈ [θ], a ≠ b → ¬ Spec.equivalent types lo up a b := by
  intro a ha b hb hab
  rw [List.mem_singleton] at ha hb
  exact absurd (ha.trans hb.symm) hab
