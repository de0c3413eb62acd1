import Verif.Lemmas.Normalize
import Verif.Props.Kinematics

/-! # `equivalent_configurations`: the configurations as integer vectors of turns -/
set_option autoImplicit false

/-- `θ` with `m` whole turns added. -/
noncomputable def conf (θ : List ℝ) (m : List ℤ) : List ℝ := List.zipWith (fun (t : ℝ) (k : ℤ) => t + k * (2 * Real.pi)) θ m

theorem conf_getElem? (θ : List ℝ) (m : List ℤ) (h : m.length = θ.length) (j : Nat) (hj : j < θ.length) :
    (conf θ m)[j]? = some (θ[j] + m[j] * (2 * Real.pi)) := by
  simp [conf, List.getElem?_zipWith, hj, h]

theorem conf_length (θ : List ℝ) (m : List ℤ) (h : m.length = θ.length) : (conf θ m).length = θ.length := by simp [conf, h]

theorem conf_inj {θ : List ℝ} {m m' : List ℤ} (h : m.length = θ.length) (h' : m'.length = θ.length) (e : conf θ m = conf θ m') :
    m = m' := by
  apply List.ext_getElem (by rw [h, h'])
  intro j h1 h2
  have hj : j < θ.length := by omega
  have a := conf_getElem? θ m h j hj
  have b := conf_getElem? θ m' h' j hj
  rw [e, b, Option.some.injEq] at a
  have hp := Real.two_pi_pos.ne'
  have : ((m'[j] : ℤ) : ℝ) = m[j] := mul_right_cancel₀ hp (by linarith)
  exact_mod_cast this.symm

theorem conf_zero (θ : List ℝ) : conf θ (List.replicate θ.length 0) = θ := by
  apply List.ext_getElem (by simp [conf])
  intro j h1 h2
  simp [conf]

theorem shift_conf (θ : List ℝ) (m : List ℤ) (i : Nat) (k : ℤ) (s : XReal → XReal)
    (hs : ∀ x : ℝ, s (.fin x) = .fin (x + k * (2 * Real.pi))) :
    shiftJoint ((conf θ m).map .fin) i s = (conf θ (m.modify i (· + k))).map .fin := by
  unfold shiftJoint conf
  induction θ generalizing m i with
  | nil => simp
  | cons t θ ih =>
    obtain _ | ⟨a, m⟩ := m
    · simp
    · cases i with
      | zero => simp [hs]; ring
      | succ i => simpa using ih m i

/-- the shifts tried for one joint -/
def shifts (nu nl : Nat) : List ℤ := (List.range nu).map (fun (j : ℕ) => (j : ℤ) + 1) ++ (List.range nl).map (fun (j : ℕ) => -((j : ℤ) + 1))

theorem mem_shifts {nu nl : Nat} {s : ℤ} : s ∈ shifts nu nl ↔ s ≠ 0 ∧ -(nl : ℤ) ≤ s ∧ s ≤ nu := by
  simp only [shifts, List.mem_append, List.mem_map, List.mem_range]
  constructor
  · rintro (⟨j, h, rfl⟩ | ⟨j, h, rfl⟩) <;> omega
  · rintro ⟨h0, h1, h2⟩
    rcases lt_or_gt_of_ne h0 with h | h
    · right; exact ⟨(-s - 1).toNat, by omega, by omega⟩
    · left; exact ⟨(s - 1).toNat, by omega, by omega⟩

theorem shifts_nodup (nu nl : Nat) : (shifts nu nl).Nodup := by
  refine List.Nodup.append ?_ ?_ ?_
  · exact List.Nodup.map (fun a b h => by simp at h; omega) List.nodup_range
  · exact List.Nodup.map (fun a b h => by simp at h; omega) List.nodup_range
  · intro a h1 h2
    simp only [List.mem_map, List.mem_range] at h1 h2
    obtain ⟨i, -, rfl⟩ := h1
    obtain ⟨j, -, h⟩ := h2
    omega

/-- one pass of the loop on integer vectors -/
def stepZ (n i nu nl : Nat) (E : List (List ℤ)) : List (List ℤ) :=
  E ++ (shifts nu nl).flatMap fun s => (E ++ [List.replicate n 0]).map fun (m : List ℤ) => m.modify i (· + s)

theorem equivJoint_conf (θ : List ℝ) (i nu nl : Nat) (E : List (List ℤ)) :
    equivJoint (θ.map XReal.fin) i nu nl (E.map fun m => (conf θ m).map .fin) =
      (stepZ θ.length i nu nl E).map fun m => (conf θ m).map .fin := by
  have hz : θ.map XReal.fin = (conf θ (List.replicate θ.length 0)).map .fin := by rw [conf_zero]
  have up : ∀ j : Nat, ∀ x : ℝ, XReal.fin x + twoPi * lit ((j + 1 : Nat) : Rat) = .fin (x + ((j : ℤ) + 1 : ℤ) * (2 * Real.pi)) := by
    intro j x
    rw [twoPi_fin, XReal.lit_fin, XReal.fin_mul, XReal.fin_add]; push_cast; ring_nf
  have down : ∀ j : Nat, ∀ x : ℝ, XReal.fin x - twoPi * lit ((j + 1 : Nat) : Rat) = .fin (x + (-((j : ℤ) + 1) : ℤ) * (2 * Real.pi)) := by
    intro j x
    rw [twoPi_fin, XReal.lit_fin, XReal.fin_mul, XReal.fin_sub]; push_cast; ring_nf
  have hE : (E.map fun m => (conf θ m).map XReal.fin) ++ [θ.map XReal.fin] =
      (E ++ [List.replicate θ.length 0]).map fun m => (conf θ m).map XReal.fin := by
    rw [List.map_append, List.map_singleton, ← hz]
  unfold equivJoint stepZ shifts
  rw [hE]
  generalize E ++ [List.replicate θ.length 0] = Z
  rw [List.map_append, List.flatMap_append, List.map_append]
  refine congrArg₂ _ rfl (congrArg₂ _ ?_ ?_)
  · rw [List.flatMap_map, List.map_flatMap]
    congr 1; funext j
    simp only [List.map_map]
    apply List.map_congr_left
    intro m _
    exact shift_conf θ m i _ _ (up j)
  · rw [List.flatMap_map, List.map_flatMap]
    congr 1; funext j
    simp only [List.map_map]
    apply List.map_congr_left
    intro m _
    exact shift_conf θ m i _ _ (down j)

/-- turns allowed after the first `i` joints have been processed: `b` bounds the turns of each joint -/
def Allowed (n i : Nat) (b : Nat → ℤ → Prop) (m : List ℤ) : Prop :=
  m.length = n ∧ ∀ j k, m[j]? = some k → k ≠ 0 → j < i ∧ b j k

/-- `E` lists all allowed turn vectors but zero, once -/
structure TurnInv (n i : Nat) (b : Nat → ℤ → Prop) (E : List (List ℤ)) : Prop where
  nodup : E.Nodup
  mem : ∀ m, m ∈ E ↔ Allowed n i b m ∧ m ≠ List.replicate n 0

theorem allowed_zero (n i : Nat) (b : Nat → ℤ → Prop) : Allowed n i b (List.replicate n 0) := by
  refine ⟨by simp, fun j k h hk => ?_⟩
  rw [List.getElem?_replicate] at h
  split_ifs at h
  cases h; exact absurd rfl hk

theorem TurnInv.cons {n i : Nat} {b : Nat → ℤ → Prop} {E : List (List ℤ)} (h : TurnInv n i b E) :
    (E ++ [List.replicate n 0]).Nodup ∧ ∀ m, m ∈ E ++ [List.replicate n 0] ↔ Allowed n i b m := by
  constructor
  · refine List.Nodup.append h.nodup (List.nodup_singleton _) ?_
    intro m h1 h2
    rw [List.mem_singleton] at h2
    exact ((h.mem m).1 h1).2 h2
  · intro m
    rw [List.mem_append, h.mem, List.mem_singleton]
    constructor
    · rintro (h1 | rfl)
      · exact h1.1
      · exact allowed_zero n i b
    · intro h1
      by_cases e : m = List.replicate n 0
      · exact .inr e
      · exact .inl ⟨h1, e⟩

theorem modify_getElem? (m : List ℤ) (i j : Nat) (s : ℤ) :
    (m.modify i (· + s))[j]? = if i = j then (m[j]?).map (· + s) else m[j]? := by
  rw [List.getElem?_modify]
  by_cases h : i = j
  · subst h; rcases m[i]? <;> simp
  · rcases m[j]? <;> simp [h]

theorem modify_id' (m : List ℤ) (i : Nat) : (m.modify i fun x => x) = m := List.modify_id i m

theorem TurnInv.step {n i : Nat} {b : Nat → ℤ → Prop} {E : List (List ℤ)} (h : TurnInv n i b E) (hi : i < n) (nu nl : Nat)
    (hb : ∀ s : ℤ, s ≠ 0 → (b i s ↔ -(nl : ℤ) ≤ s ∧ s ≤ nu)) : TurnInv n (i + 1) b (stepZ n i nu nl E) := by
  obtain ⟨zn, zm⟩ := h.cons
  have at0 : ∀ m, Allowed n i b m → m[i]? = some 0 := by
    intro m hm
    have hil : i < m.length := by rw [hm.1]; exact hi
    rw [List.getElem?_eq_getElem hil]
    congr 1
    by_contra hne
    have := (hm.2 i m[i] (List.getElem?_eq_getElem _) hne).1
    omega
  have ats : ∀ m s, Allowed n i b m → (m.modify i (· + s))[i]? = some s := by
    intro m s hm
    rw [modify_getElem?, if_pos rfl, at0 m hm]; simp
  constructor
  · refine List.Nodup.append h.nodup ?_ ?_
    · rw [List.nodup_flatMap]
      refine ⟨fun s _ => ?_, ?_⟩
      · refine List.Nodup.map_on ?_ zn
        intro m hm m' hm' e
        have := congrArg (fun l : List ℤ => l.modify i (· + (-s))) e
        simpa [List.modify_modify_eq, Function.comp_def, modify_id'] using this
      · refine (shifts_nodup nu nl).imp ?_
        intro s s' hne
        intro m h1 h2
        simp only [List.mem_map] at h1 h2
        obtain ⟨m1, hm1, rfl⟩ := h1
        obtain ⟨m2, hm2, e⟩ := h2
        have e1 := ats m1 s ((zm m1).1 hm1)
        rw [← e, ats m2 s' ((zm m2).1 hm2)] at e1
        exact hne (by simpa using e1.symm)
    · intro m h1 h2
      simp only [List.mem_flatMap, List.mem_map] at h2
      obtain ⟨s, hs, m1, hm1, rfl⟩ := h2
      have e1 := at0 _ ((h.mem _).1 h1).1
      rw [ats m1 s ((zm m1).1 hm1)] at e1
      exact (mem_shifts.1 hs).1 (by simpa using e1)
  · intro m
    simp only [stepZ, List.mem_append, List.mem_flatMap]
    simp only [List.mem_map, zm]
    rw [h.mem]
    constructor
    · rintro (⟨h1, h2⟩ | ⟨s, hs, m1, hm1, rfl⟩)
      · refine ⟨⟨h1.1, fun j k hj hk => ?_⟩, h2⟩
        obtain ⟨a, c⟩ := h1.2 j k hj hk
        exact ⟨by omega, c⟩
      · have e1 := ats m1 s hm1
        obtain ⟨s0, s1, s2⟩ := mem_shifts.1 hs
        refine ⟨⟨by simpa using hm1.1, fun j k hj hk => ?_⟩, ?_⟩
        · by_cases hij : i = j
          · subst hij
            rw [e1] at hj
            obtain rfl : s = k := by simpa using hj
            exact ⟨by omega, (hb s s0).2 ⟨s1, s2⟩⟩
          · rw [modify_getElem?, if_neg hij] at hj
            obtain ⟨a, c⟩ := hm1.2 j k hj hk
            exact ⟨by omega, c⟩
        · intro e
          rw [e, List.getElem?_replicate, if_pos hi] at e1
          exact s0 (by simpa using e1.symm)
    · rintro ⟨⟨hl, hm⟩, hne⟩
      have hil : i < m.length := by omega
      by_cases h0 : m[i] = 0
      · left
        refine ⟨⟨hl, fun j k hj hk => ?_⟩, hne⟩
        obtain ⟨a, c⟩ := hm j k hj hk
        have : j ≠ i := by
          rintro rfl
          rw [List.getElem?_eq_getElem hil] at hj
          exact hk (by rw [← h0]; simpa using hj.symm)
        exact ⟨by omega, c⟩
      · right
        have hb' := (hb _ h0).1 (hm i m[i] (List.getElem?_eq_getElem hil) h0).2
        refine ⟨m[i], mem_shifts.2 ⟨h0, hb'⟩, m.modify i (· + -m[i]), ⟨by simpa using hl, fun j k hj hk => ?_⟩, ?_⟩
        · by_cases hij : i = j
          · subst hij
            rw [modify_getElem?, if_pos rfl, List.getElem?_eq_getElem hil] at hj
            simp at hj
            exact absurd hj.symm hk
          · rw [modify_getElem?, if_neg hij] at hj
            obtain ⟨a, c⟩ := hm j k hj hk
            exact ⟨by omega, c⟩
        · simp [List.modify_modify_eq, Function.comp_def, modify_id']

/-- a joint that has no shifts -/
theorem TurnInv.skip {n i : Nat} {b : Nat → ℤ → Prop} {E : List (List ℤ)} (h : TurnInv n i b E) (hb : ∀ s : ℤ, s ≠ 0 → ¬ b i s) :
    TurnInv n (i + 1) b E := by
  refine ⟨h.nodup, fun m => ?_⟩
  rw [h.mem]
  constructor
  · rintro ⟨h1, h2⟩
    refine ⟨⟨h1.1, fun j k hj hk => ?_⟩, h2⟩
    obtain ⟨a, c⟩ := h1.2 j k hj hk
    exact ⟨by omega, c⟩
  · rintro ⟨h1, h2⟩
    refine ⟨⟨h1.1, fun j k hj hk => ?_⟩, h2⟩
    obtain ⟨a, c⟩ := h1.2 j k hj hk
    have : j ≠ i := by rintro rfl; exact hb k hk c
    exact ⟨by omega, c⟩
