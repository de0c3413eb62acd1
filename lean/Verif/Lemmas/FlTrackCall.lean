import Verif.Lemmas.FlTrack

/-!
# `normalize_joints` with limits and last joint values keeps and follows, in floating point

Instances of `Fl.Keeps` and `Fl.Follows`, from the lemmas about a single call of `normalize`.
-/
set_option autoImplicit false

namespace Fl
variable {F : FSys}

/-! ## `pruneSort` -/

theorem mem_of_pruneSort {β : Type} {l : List (β × Fl F × Bool)} {x : β} (h : x ∈ pruneSort l) : ∃ z ∈ l, z.1 = x := by
  unfold pruneSort at h
  dsimp only at h
  split_ifs at h
  · obtain ⟨z, hz, rfl⟩ := List.mem_map.1 h
    exact ⟨z, (List.mem_filter.1 hz).1, rfl⟩
  · obtain ⟨z, hz, rfl⟩ := List.mem_map.1 ((argsortBy_perm _).mem_iff.1 h)
    obtain ⟨w, hw, rfl⟩ := List.mem_map.1 hz
    exact ⟨w, hw, rfl⟩

theorem pruneSort_mem {β : Type} {l : List (β × Fl F × Bool)} {z : β × Fl F × Bool} (h : z ∈ l) (hz : z.2.2 = true) : z.1 ∈ pruneSort l := by
  unfold pruneSort
  dsimp only
  split_ifs
  · exact List.mem_map.2 ⟨z, List.mem_filter.2 ⟨h, hz⟩, rfl⟩
  · exact (argsortBy_perm _).mem_iff.2 (List.mem_map.2 ⟨_, List.mem_map.2 ⟨z, h, rfl⟩, rfl⟩)

/-! ## The calls, from single joints -/

variable {N : Normalizer (Fl F)}

theorem callS_run {j : ℕ} (hN : Usable N) (hj : j < 6) {l : List (Fl F)} (h : ∀ x ∈ l, ∃ o, N.normalize j x = .ok o) : ∃ l', N.callS j l = .ok l' := by
  obtain ⟨ts, hts⟩ := exists_mapM_ok h
  unfold Normalizer.callS
  rw [hts, Except.bind_ok]
  dsimp only
  cases hl : N.last with
  | none => exact ⟨_, rfl⟩
  | some ls =>
    dsimp only
    split_ifs
    · exact ⟨_, rfl⟩
    · obtain ⟨a, ea, -⟩ := hN.last ls hl j hj
      rw [getI_some ea, Except.bind_ok]
      exact ⟨_, rfl⟩

theorem callS_mem {j : ℕ} {l l' : List (Fl F)} (h : N.callS j l = .ok l') {y : Fl F} (hy : y ∈ l') : ∃ x ∈ l, N.normalize j x = .ok (some y) := by
  unfold Normalizer.callS at h
  obtain ⟨ts, hts, h⟩ := Except.bind_eq_ok h
  have key : y ∈ ts.filterMap id → ∃ x ∈ l, N.normalize j x = .ok (some y) := by
    intro hm
    obtain ⟨o, ho, e⟩ := List.mem_filterMap.1 hm
    obtain rfl : o = some y := e
    exact Forall₂.exists_left (forall₂_of_mapM hts) ho
  dsimp only at h
  cases hl : N.last with
  | none => rw [hl] at h; cases h; exact key hy
  | some ls =>
    rw [hl] at h
    dsimp only at h
    split_ifs at h
    · cases h; exact key hy
    · obtain ⟨a, -, h⟩ := Except.bind_eq_ok h
      cases h
      obtain ⟨z, hz, rfl⟩ := mem_of_pruneSort hy
      obtain ⟨w, hw, rfl⟩ := List.mem_map.1 hz
      exact key hw

theorem callS_of {j : ℕ} {l l' : List (Fl F)} (h : N.callS j l = .ok l') {x y : Fl F} (hx : x ∈ l) (hy : N.normalize j x = .ok (some y))
    (hn : ∀ ls a, N.last = some ls → ls[j]? = some a → Elem.abs (y - a) < Elem.pi / lit 2) : y ∈ l' := by
  unfold Normalizer.callS at h
  obtain ⟨ts, hts, h⟩ := Except.bind_eq_ok h
  have key : y ∈ ts.filterMap id := by
    obtain ⟨o, ho, e⟩ := Forall₂.exists_right (forall₂_of_mapM hts) hx
    rw [hy] at e
    cases e
    exact List.mem_filterMap.2 ⟨_, ho, rfl⟩
  dsimp only at h
  cases hl : N.last with
  | none => rw [hl] at h; cases h; exact key
  | some ls =>
    rw [hl] at h
    dsimp only at h
    split_ifs at h
    · cases h; exact key
    · obtain ⟨a, ha, h⟩ := Except.bind_eq_ok h
      cases h
      exact pruneSort_mem (z := (y, _, _)) (List.mem_map.2 ⟨y, key, rfl⟩) (decide_eq_true (hn ls a hl (getI_ok ha)))

/-- The body of the loop over pairs. -/
theorem pair_eq (i j : ℕ) (z : Fl F × Fl F) : (([i, j].zip [z.1, z.2]).mapM fun jt => N.normalize jt.1 jt.2) =
    (N.normalize i z.1 >>= fun a => N.normalize j z.2 >>= fun b => .ok [a, b]) := by
  rw [show [i, j].zip [z.1, z.2] = [(i, z.1), (j, z.2)] from rfl, mapM_cons', mapM_cons', mapM_nil']
  simp only [Except.bind_ok]
  cases N.normalize i z.1 with
  | error e => rfl
  | ok a => cases N.normalize j z.2 <;> rfl

theorem callV_run {i j : ℕ} (hN : Usable N) (hi : i < 6) (hj : j < 6) {l : List (Fl F × Fl F)} (h : ∀ z ∈ l, (∃ o, N.normalize i z.1 = .ok o) ∧ ∃ o, N.normalize j z.2 = .ok o) :
    ∃ l', N.callV [i, j] (l.map fun z => [z.1, z.2]) = .ok l' := by
  unfold Normalizer.callV
  obtain ⟨ts, hts⟩ := exists_mapM_ok (l := l.map fun z => [z.1, z.2]) (f := fun t1 => (do
    let t3 ← ([i, j].zip t1).mapM fun jt => N.normalize jt.1 jt.2
    return if t3.all Option.isSome then some (t3.filterMap id) else none : Except PyErr (Option (List (Fl F))))) (by
      intro t ht
      obtain ⟨z, hz, rfl⟩ := List.mem_map.1 ht
      obtain ⟨⟨a, ha⟩, b, hb⟩ := h z hz
      rw [pair_eq, ha, Except.bind_ok, hb]
      exact ⟨_, rfl⟩)
  rw [hts, Except.bind_ok]
  dsimp only
  cases hl : N.last with
  | none => exact ⟨_, rfl⟩
  | some ls =>
    dsimp only
    split_ifs
    · exact ⟨_, rfl⟩
    · obtain ⟨a, ea, -⟩ := hN.last ls hl i hi
      obtain ⟨b, eb, -⟩ := hN.last ls hl j hj
      rw [mapM_cons', getI_some ea, Except.bind_ok, mapM_cons', getI_some eb]
      exact ⟨_, rfl⟩

theorem callV_mem {i j : ℕ} {l : List (Fl F × Fl F)} {l' : List (List (Fl F))} (h : N.callV [i, j] (l.map fun z => [z.1, z.2]) = .ok l') {y : List (Fl F)} (hy : y ∈ l') :
    ∃ z ∈ l, ∃ a b, y = [a, b] ∧ N.normalize i z.1 = .ok (some a) ∧ N.normalize j z.2 = .ok (some b) := by
  unfold Normalizer.callV at h
  obtain ⟨ts, hts, h⟩ := Except.bind_eq_ok h
  have key : y ∈ ts.filterMap id → ∃ z ∈ l, ∃ a b, y = [a, b] ∧ N.normalize i z.1 = .ok (some a) ∧ N.normalize j z.2 = .ok (some b) := by
    intro hm
    obtain ⟨o, ho, e⟩ := List.mem_filterMap.1 hm
    obtain rfl : o = some y := e
    obtain ⟨t, ht, e⟩ := Forall₂.exists_left (forall₂_of_mapM hts) ho
    obtain ⟨z, hz, rfl⟩ := List.mem_map.1 ht
    obtain ⟨t3, h3, e⟩ := Except.bind_eq_ok e
    rw [pair_eq] at h3
    obtain ⟨a, ha, h3⟩ := Except.bind_eq_ok h3
    obtain ⟨b, hb, h3⟩ := Except.bind_eq_ok h3
    cases h3
    refine ⟨z, hz, ?_⟩
    rw [ha, hb]
    rcases a with _ | a <;> rcases b with _ | b <;> cases e
    exact ⟨a, b, rfl, rfl, rfl⟩
  dsimp only at h
  cases hl : N.last with
  | none => rw [hl] at h; cases h; exact key hy
  | some ls =>
    rw [hl] at h
    dsimp only at h
    split_ifs at h
    · cases h; exact key hy
    · obtain ⟨xs, -, h⟩ := Except.bind_eq_ok h
      cases h
      obtain ⟨z, hz, rfl⟩ := mem_of_pruneSort hy
      obtain ⟨w, hw, rfl⟩ := List.mem_map.1 hz
      exact key hw

theorem callV_of {i j : ℕ} {l : List (Fl F × Fl F)} {l' : List (List (Fl F))} (h : N.callV [i, j] (l.map fun z => [z.1, z.2]) = .ok l') {z : Fl F × Fl F} (hz : z ∈ l)
    {a b : Fl F} (ha : N.normalize i z.1 = .ok (some a)) (hb : N.normalize j z.2 = .ok (some b))
    (hn : ∀ ls x y, N.last = some ls → ls[i]? = some x → ls[j]? = some y → Elem.abs (a - x) < Elem.pi / lit 2 ∧ Elem.abs (b - y) < Elem.pi / lit 2) :
    [a, b] ∈ l' := by
  unfold Normalizer.callV at h
  obtain ⟨ts, hts, h⟩ := Except.bind_eq_ok h
  have key : [a, b] ∈ ts.filterMap id := by
    obtain ⟨o, ho, e⟩ := Forall₂.exists_right (forall₂_of_mapM hts) (List.mem_map.2 ⟨z, hz, rfl⟩)
    rw [pair_eq, ha, Except.bind_ok, hb] at e
    cases e
    exact List.mem_filterMap.2 ⟨_, ho, rfl⟩
  dsimp only at h
  cases hl : N.last with
  | none => rw [hl] at h; cases h; exact key
  | some ls =>
    rw [hl] at h
    dsimp only at h
    split_ifs at h
    · cases h; exact key
    · obtain ⟨xs, hx, h⟩ := Except.bind_eq_ok h
      rw [mapM_cons'] at hx
      obtain ⟨x, hx1, hx⟩ := Except.bind_eq_ok hx
      rw [mapM_cons'] at hx
      obtain ⟨ys, hx, hxs⟩ := Except.bind_eq_ok hx
      obtain ⟨y, hy1, hx⟩ := Except.bind_eq_ok hx
      cases hx
      cases hxs
      cases h
      obtain ⟨n1, n2⟩ := hn ls x y hl (getI_ok hx1) (getI_ok hy1)
      refine pruneSort_mem (z := ([a, b], _, _)) (List.mem_map.2 ⟨[a, b], key, rfl⟩) ?_
      simp [n1, n2]

/-! ## The instances -/

theorem Good.of_eq {S : ℝ} {x : Fl F} (h : Good S x) : ∃ b : ℝ, x = of b ∧ |b| ≤ S ∧ Rep F b := by
  obtain ⟨b, hb⟩ := h.fin
  exact ⟨b, of_val hb, h.sz b hb, h.rep b hb⟩

theorem oneCall_eq (j : ℕ) (x : Fl F) {o : Option (Fl F)} (h : N.one j x = .ok o) : ∃ l, N.callS j [x] = .ok l ∧ o = l.head? := by
  unfold Normalizer.one at h
  obtain ⟨l, hl, h⟩ := Except.bind_eq_ok h
  cases h
  exact ⟨l, hl, rfl⟩

/-- Usable limits and last joint values: the calls return and keep angles. -/
theorem Usable.keeps (hE : Spec.ExactRnd F) (hI : Spec.IntRounding F) (hu : F.u ≤ 1 / 100000000000) (hN : Usable N) {S : ℝ} (hS0 : 0 ≤ S) (hS : S ≤ 290) :
    Keeps N S (normErr F S) := by
  have run : ∀ {j : ℕ} {x : Fl F}, j < 6 → Good S x → ∃ o, N.normalize j x = .ok o := by
    intro j x hj hx
    obtain ⟨b, rfl, hb, hr⟩ := hx.of_eq
    obtain ⟨o, ho, -⟩ := normalize_keeps hE hI hu hN hj hb hS hr
    exact ⟨o, ho⟩
  have same : ∀ {j : ℕ} {x y : Fl F}, j < 6 → Good S x → N.normalize j x = .ok (some y) → Same (normErr F S) y x := by
    intro j x y hj hx h
    obtain ⟨b, rfl, hb, hr⟩ := hx.of_eq
    obtain ⟨o, ho, hy⟩ := normalize_keeps hE hI hu hN hj hb hS hr
    rw [h] at ho
    cases ho
    obtain ⟨⟨n, hn⟩, -⟩ := hy y rfl
    exact hn.same
  have callS : ∀ {j : ℕ} {l : List (Fl F)}, j < 6 → (∀ x ∈ l, Good S x) → ∃ l', N.callS j l = .ok l' ∧ ∀ y ∈ l', ∃ x ∈ l, Same (normErr F S) y x := by
    intro j l hj hl
    obtain ⟨l', h'⟩ := callS_run hN hj (fun x hx => run hj (hl x hx))
    refine ⟨l', h', fun y hy => ?_⟩
    obtain ⟨x, hx, h⟩ := callS_mem h' hy
    exact ⟨x, hx, same hj (hl x hx) h⟩
  refine ⟨?_, ?_, callS, ?_⟩
  · unfold normErr
    have := moveErr_nonneg (F := F) (S := S + 7) (by linarith)
    have := mul_nonneg (by linarith : 0 ≤ S + 47) F.u_nonneg
    linarith
  · intro j x hj hx
    obtain ⟨l', h', hs⟩ := callS (l := [x]) hj (by simpa using hx)
    refine ⟨l'.head?, ?_, fun y hy => ?_⟩
    · unfold Normalizer.one
      rw [h']
      rfl
    · obtain ⟨x', hx', h⟩ := hs y (List.mem_of_mem_head? hy)
      rw [List.mem_singleton] at hx'
      subst hx'
      exact h
  · intro i j l hi hj hl
    obtain ⟨l', h'⟩ := callV_run hN hi hj (fun z hz => ⟨run hi (hl z hz).1, run hj (hl z hz).2⟩)
    refine ⟨l', h', fun y hy => ?_⟩
    obtain ⟨z, hz, a, b, rfl, h1, h2⟩ := callV_mem h' hy
    exact ⟨z, hz, a, b, rfl, same hi (hl z hz).1 h1, same hj (hl z hz).2 h2⟩

theorem Usable.bounded (hE : Spec.ExactRnd F) (hI : Spec.IntRounding F) (hu : F.u ≤ 1 / 100000000000) (hN : Usable N) {S : ℝ} (hS : S ≤ 290) : Bounded N S (2 * S + 128) := by
  intro j x y hj hx h
  obtain ⟨b, rfl, hb, hr⟩ := hx.of_eq
  obtain ⟨o, ho, hy⟩ := normalize_keeps hE hI hu hN hj hb hS hr
  rw [h] at ho
  cases ho
  exact (hy y rfl).2

/-- What is needed of a single joint. -/
theorem follows_of {q : ℕ → ℝ} {A : ℕ → Fl F → ℝ → Prop} {S : ℕ → ℝ} {D e : ℝ} (he : 0 ≤ e) (ang : ∀ {j : ℕ} {y : Fl F} {d : ℝ}, A j y d → Spec.AngNear y (q j) d)
    (mono : ∀ {j : ℕ} {y : Fl F} {d d' : ℝ}, A j y d → d ≤ d' → A j y d')
    (norm : ∀ {j : ℕ} {x : Fl F} {d : ℝ}, j < 6 → Made (S j) x → Spec.AngNear x (q j) d → d ≤ D → ∃ y, N.normalize j x = .ok (some y) ∧ A j y (d + e))
    (near : ∀ {j : ℕ} {y : Fl F} {d : ℝ} {ls : List (Fl F)} {a : Fl F}, j < 6 → N.last = some ls → ls[j]? = some a → A j y (d + e) → d ≤ D →
      Elem.abs (y - a) < Elem.pi / lit 2) : Follows N q A S D e := by
  have callS : ∀ {j : ℕ} {x : Fl F} {d : ℝ} {l l' : List (Fl F)}, j < 6 → x ∈ l → Made (S j) x → Spec.AngNear x (q j) d → d ≤ D → N.callS j l = .ok l' →
      ∃ y ∈ l', A j y (d + e) := by
    intro j x d l l' hj hx hm ha hd h
    obtain ⟨y, hy, hA⟩ := norm hj hm ha hd
    exact ⟨y, callS_of h hx hy fun ls a hl ea => near hj hl ea hA hd, hA⟩
  refine ⟨he, ang, mono, ?_, callS, ?_⟩
  · intro j x d o hj hm ha hd h
    obtain ⟨l', h', rfl⟩ := oneCall_eq j x h
    obtain ⟨y, hy, hA⟩ := norm hj hm ha hd
    obtain ⟨z, t, rfl⟩ := List.exists_cons_of_ne_nil (List.ne_nil_of_mem (callS_of h' (List.mem_singleton.2 rfl) hy fun ls a hl ea => near hj hl ea hA hd))
    obtain ⟨w, hw, e⟩ := callS_mem h' (y := z) (by simp)
    rw [List.mem_singleton] at hw
    subst hw
    rw [hy] at e
    cases e
    exact ⟨y, rfl, hA⟩
  · intro i j z d l l' hi hj hz m1 m2 a1 a2 hd h
    obtain ⟨a, ha, hA⟩ := norm hi m1 a1 hd
    obtain ⟨b, hb, hB⟩ := norm hj m2 a2 hd
    exact ⟨a, b, callV_of h hz ha hb fun ls x y hl ex ey => ⟨near hi hl ex hA hd, near hj hl ey hB hd⟩, hA, hB⟩

theorem Made.of_eq (hE : Spec.ExactRnd F) {S θ d : ℝ} {x : Fl F} (h : Made S x) (ha : Spec.AngNear x θ d) :
    ∃ (b : ℝ) (k : ℤ), x = of b ∧ |b| ≤ S ∧ Rep F b ∧ |b - (θ + k * (2 * Real.pi))| ≤ d := by
  obtain ⟨k, b, hb, hk⟩ := ha
  exact ⟨b, k, of_val hb, h.sz b hb, h.rep hE b hb, hk⟩

theorem normErr_nonneg {S : ℝ} (hS : 0 ≤ S) : 0 ≤ normErr F S := by
  unfold normErr
  have := moveErr_nonneg (F := F) (S := S + 7) (by linarith)
  have := mul_nonneg (by linarith : 0 ≤ S + 47) F.u_nonneg
  linarith

theorem normErr_mono {S M : ℝ} (h : S ≤ M) : normErr F S ≤ normErr F M := by
  unfold normErr moveErr
  have := F.u_nonneg
  refine add_le_add (mul_le_mul_of_nonneg_right (by linarith) this) (mul_le_mul_of_nonneg_right (by linarith) this)

theorem normErr_le (hu : F.u ≤ 1 / 100000000000) {S : ℝ} (hS0 : 0 ≤ S) (hS : S ≤ 290) : normErr F S ≤ 1 / 1000 := by
  have h0 := F.u_nonneg
  have h : normErr F S ≤ 4000 * F.u := by
    unfold normErr moveErr
    have : S * F.u ≤ 290 * F.u := mul_le_mul_of_nonneg_right hS h0
    linarith
  linarith

/-- The angle is that of joint `j` of `q`, and what `normalize` makes of an angle of at most `S j`. -/
def Kept (N : Normalizer (Fl F)) (S q : ℕ → ℝ) (j : ℕ) (y : Fl F) (d : ℝ) : Prop := Spec.AngNear y (q j) d ∧ ∃ x, (∃ v, x.val = .fin v) ∧ Made (S j) x ∧ N.normalize j x = .ok (some y)

theorem Kept.free (q S : ℕ → ℝ) (D : ℝ) : Follows (⟨none, none⟩ : Normalizer (Fl F)) q (Kept ⟨none, none⟩ S q) S D 0 :=
  follows_of le_rfl (fun h => h.1) (fun h hd => ⟨AngNear.mono' h.1 hd, h.2⟩) (fun _ hm ha _ => ⟨_, rfl, by rwa [add_zero], _, ha.fin, hm, rfl⟩) (fun _ h => by cases h)

/-- Joint limits without last joint values: candidates for a joint vector inside the limits by a margin are followed, up to whole turns. -/
theorem Usable.stays (hE : Spec.ExactRnd F) (hI : Spec.IntRounding F) (hu : F.u ≤ 1 / 100000000000) (hN : Usable N) (hl : N.last = none) {q : ℕ → ℝ} {S : ℕ → ℝ} {M D : ℝ}
    (hM0 : 0 ≤ M) (hM : M ≤ 290) (hS : ∀ j < 6, S j ≤ M) (hD : D ≤ 1 / 20) (hlim : ∀ j < 6, LimOk N j (S j) (q j) (D + normErr F M)) :
    Follows N q (Kept N S q) S D (normErr F M) := by
  refine follows_of (normErr_nonneg hM0) (fun h => h.1) (fun h hd => ⟨AngNear.mono' h.1 hd, h.2⟩) ?_ ?_
  · intro j x d hj hm ha hd
    obtain ⟨b, k, rfl, hb, hr, hk⟩ := hm.of_eq hE ha
    have le := normErr_mono (F := F) (hS j hj)
    obtain ⟨y, hy, hA⟩ := normalize_stays hE hI hu hN hl hj hb ((hS j hj).trans hM) hr hk hd hD ((hlim j hj).mono (by linarith))
    exact ⟨y, hy, AngNear.mono' hA (by linarith), _, ha.fin, hm, hy⟩
  · intro j y d ls a _ h
    rw [hl] at h
    cases h

/-- The computed distance from the last joint value is less than a quarter turn. -/
theorem quarter (hu : F.u ≤ 1 / 100000000000) {y : Fl F} {q a d : ℝ} (hy : y.Near q d) (hd : d ≤ 1 / 10) (ha : |a - q| ≤ 1 / 2) :
    Elem.abs (y - of a) < (Elem.pi / lit 2 : Fl F) := by
  have u0 := F.u_nonneg
  have p1 := Real.pi_gt_d2
  have p2 := Real.pi_lt_d2
  obtain ⟨v, hv, hvd⟩ := hy
  rw [of_val hv]
  have h1 : |v - a| ≤ 3 / 5 := by
    rw [show v - a = (v - q) - (a - q) by ring]
    exact (abs_sub _ _).trans (by linarith)
  obtain ⟨s, hs, hsd⟩ := Near.subE (ε := F.u) (k := 0) (l := 0) (S := 1) 4 (by rw [zero_mul]; exact near_of (F := F) v) (by rw [zero_mul]; exact near_of a) le_rfl
    (by linarith) (h1.trans (by norm_num)) (by norm_num) (by norm_num) (by norm_num)
  have hp : (Elem.pi : Fl F).Near Real.pi (5 * F.u) := by
    have ηu := F.η_le
    have bg := F.big_ge
    refine near_round (F := F) (w := Real.pi) (d := 0) (by simp) ?_ ?_
    · rw [abs_of_pos (by linarith)]
      have : F.u * (Real.pi + 0) ≤ F.u * 4 := mul_le_mul_of_nonneg_left (by linarith) u0
      linarith
    · rw [abs_of_pos (by linarith)]; linarith
  obtain ⟨w, hw, hwd⟩ := Near.divE (ε := F.u) (k := 5) (l := 3) (Q := 2) (c := 1) 20 hp
    (by simpa [show (2 : ℝ) + 1 = 3 by norm_num] using near_lit (F := F) (ε := F.u) 2 (S := 2) le_rfl (by linarith) (by norm_num) (by norm_num)) le_rfl (by linarith)
    (y := 2) (by rw [abs_of_pos (by positivity)]; linarith) (by norm_num) (by linarith) (by norm_num) (by norm_num) (by norm_num) (by norm_num)
  change (Elem.abs (of v - of a : Fl F)).val < (Elem.pi / lit 2 : Fl F).val
  have e : (Elem.abs (of v - of a : Fl F)).val = .fin |s| := by
    change Elem.abs (of v - of a : Fl F).val = _
    rw [hs]
    rfl
  rw [e, hw, XReal.fin_lt]
  have h2 := abs_add_le (s - (v - a)) (v - a)
  rw [sub_add_cancel] at h2
  have h3 := (abs_le.1 hwd).1
  linarith

/-- Last joint values within 1/2 of a joint vector (inside the joint limits by a margin): candidates for it become it, without whole turns. -/
theorem Usable.tracks (hE : Spec.ExactRnd F) (hI : Spec.IntRounding F) (hu : F.u ≤ 1 / 100000000000) (hN : Usable N) {ls : List (Fl F)} (hl : N.last = some ls) {q : ℕ → ℝ}
    (hq : ∀ j < 6, ∃ a : ℝ, ls[j]? = some (of a) ∧ |a - q j| ≤ 1 / 2) {S : ℕ → ℝ} {M D : ℝ} (hM0 : 0 ≤ M) (hM : M ≤ 290) (hS : ∀ j < 6, S j ≤ M) (hD : D ≤ 1 / 20)
    (hlim : ∀ j < 6, LimOk N j (S j) (q j) (D + normErr F M)) : Follows N q (fun j y d => y.Near (q j) d) S D (normErr F M) := by
  refine follows_of (normErr_nonneg hM0) (fun h => ⟨0, by simpa using h⟩) (fun h hd => h.mono hd) ?_ ?_
  · intro j x d hj hm ha hd
    obtain ⟨b, k, rfl, hb, hr, hk⟩ := hm.of_eq hE ha
    obtain ⟨a, ea, hqa⟩ := hq j hj
    have le := normErr_mono (F := F) (hS j hj)
    obtain ⟨y, hy, hA⟩ := normalize_tracks hE hI hu hN hl hj ea hqa hb ((hS j hj).trans hM) hr hk hd hD ((hlim j hj).mono (by linarith))
    exact ⟨y, hy, hA.mono (by linarith)⟩
  · intro j y d ls' a hj h ea hy hd
    rw [hl] at h
    cases h
    obtain ⟨a', ea', hqa⟩ := hq j hj
    rw [ea] at ea'
    cases ea'
    have := normErr_le hu hM0 hM
    exact quarter hu hy (by linarith) hqa

/-! ## The final sort -/

theorem npLt_val (a b : Fl F) : npLt a b ↔ npLt a.val b.val := Iff.rfl

theorem insertKey_val {β : Type} (x : Fl F × β) (l : List (Fl F × β)) :
    (insertKey x l).map (fun z => (z.1.val, z.2)) = insertKey (x.1.val, x.2) (l.map fun z => (z.1.val, z.2)) := by
  induction l with
  | nil => rfl
  | cons y ys ih =>
    unfold insertKey
    rw [List.map_cons]
    dsimp only
    by_cases h : npLt y.1 x.1
    · rw [if_pos h, if_pos ((npLt_val _ _).1 h), List.map_cons, ih]
    · rw [if_neg h, if_neg fun g => h ((npLt_val _ _).2 g), List.map_cons, List.map_cons]

theorem argsortBy_val {β : Type} (l : List (Fl F × β)) : argsortBy l = argsortBy (l.map fun z => (z.1.val, z.2)) := by
  have : (l.foldr insertKey []).map (fun z => (z.1.val, z.2)) = (l.map fun z => (z.1.val, z.2)).foldr insertKey [] := by
    induction l with
    | nil => rfl
    | cons x l ih => rw [List.foldr_cons, List.map_cons, List.foldr_cons, insertKey_val, ih]
  unfold argsortBy
  rw [← this, List.map_map]
  rfl

/-- The computed distance of a row. -/
noncomputable def rowKey (ls row : List (Fl F)) : Fl F := listNorm ((row.zip ls).map fun x => x.1 - x.2)

theorem sortByLast_run {rows : List (List (Fl F))} {ls : List (Fl F)} (hne : rows ≠ []) (hlen : ∀ s ∈ rows, s.length = ls.length) :
    ∃ sols, sortByLast rows (some ls) = .ok sols ∧ sols.Perm rows ∧ sols.Pairwise fun a b => ¬ npLt (rowKey ls b).val (rowKey ls a).val := by
  have e : rowDist rows ls = .ok (rows.map fun r => (rowKey ls r, r)) := by
    rw [rowDist, if_neg (by simpa using hne)]
    refine mapM_ok_of_forall fun s hs => ?_
    rw [show bcast s ls = .ok (s.zip ls) by unfold bcast; rw [if_pos (hlen s hs)], Except.bind_ok]
    rfl
  refine ⟨argsortBy (rows.map fun r => (rowKey ls r, r)), ?_, ?_, ?_⟩
  · simp only [sortByLast, e, Except.bind_ok]
    rfl
  · have := argsortBy_perm (rows.map fun r => (rowKey ls r, r))
    rwa [List.map_map, show (Prod.snd ∘ fun r => (rowKey ls r, r)) = id from rfl, List.map_id] at this
  · rw [argsortBy_val]
    refine argsortBy_sorted _ (fun r => (rowKey ls r).val) fun x hx => ?_
    rw [List.map_map] at hx
    obtain ⟨r, -, rfl⟩ := List.mem_map.1 hx
    rfl

end Fl
