import Verif.Lemmas.Normalize
import Verif.Props.Kinematics

/-! # Lemmas on the search loops of the inverse kinematics -/
set_option autoImplicit false

section
variable {α : Type} [Add α] [Sub α] [Mul α] [Div α] [Neg α] [Zero α] [One α] [LT α] [LE α]
  [DecidableLT α] [DecidableLE α] [Elem α]

theorem mem_pruneSort {β : Type} {l : List (β × α × Bool)} {t : β} (h : t ∈ pruneSort l) : ∃ x ∈ l, x.1 = t := by
  simp only [pruneSort] at h
  split_ifs at h
  · simp only [List.mem_map, List.mem_filter] at h
    obtain ⟨x, ⟨hx, -⟩, rfl⟩ := h
    exact ⟨x, hx, rfl⟩
  · have := (argsortBy_perm _).mem_iff.1 h
    simp only [List.map_map, List.mem_map, Function.comp_def] at this
    obtain ⟨x, hx, rfl⟩ := this
    exact ⟨x, hx, rfl⟩

theorem callS_mem {N : Normalizer α} {j : Nat} {θs r : List α} {t : α} (h : N.callS j θs = .ok r) (ht : t ∈ r) :
    ∃ θ ∈ θs, N.normalize j θ = .ok (some t) := by
  obtain ⟨ts, h1, h2⟩ := Except.bind_eq_ok h
  have key : t ∈ ts.filterMap id → ∃ θ ∈ θs, N.normalize j θ = .ok (some t) := by
    intro hm
    rw [List.mem_filterMap] at hm
    obtain ⟨x, hx, hxt⟩ := hm
    obtain ⟨θ, h3, h4⟩ := Forall₂.exists_left (forall₂_of_mapM h1) hx
    exact ⟨θ, h3, by rw [h4]; exact congrArg _ hxt⟩
  apply key
  rcases hl : N.last with _ | last
  · rw [hl] at h2; cases h2; exact ht
  · rw [hl] at h2
    simp only at h2
    split_ifs at h2
    · cases h2; exact ht
    · obtain ⟨x, -, h4⟩ := Except.bind_eq_ok h2
      cases h4
      obtain ⟨y, hy, rfl⟩ := mem_pruneSort ht
      rw [List.mem_map] at hy
      obtain ⟨z, hz, rfl⟩ := hy
      exact hz

theorem one_eq (N : Normalizer α) (j : Nat) (θ : α) : N.one j θ = N.normalize j θ := by
  rcases h : N.normalize j θ with e | t
  · simp [Normalizer.one, Normalizer.callS, h]
  · rcases hl : N.last with _ | last <;> rcases t with _ | t <;>
      simp [Normalizer.one, Normalizer.callS, h, hl]

theorem one_mem {N : Normalizer α} {j : Nat} {θ t : α} (h : N.one j θ = .ok (some t)) : N.normalize j θ = .ok (some t) := by
  rwa [one_eq] at h

end

theorem mapM_option {β γ : Type} {f : β → Except PyErr (Option γ)} {l : List β} {r : List (Option γ)}
    (h : l.mapM f = .ok r) (ha : r.all Option.isSome) :
    List.Forall₂ (fun a b => f a = .ok (some b)) l (r.filterMap id) := by
  have := forall₂_of_mapM h
  clear h
  induction this with
  | nil => exact .nil
  | @cons a b l r h1 h2 ih =>
    simp only [List.all_cons, Bool.and_eq_true] at ha
    obtain ⟨c, rfl⟩ := Option.isSome_iff_exists.1 ha.1
    exact .cons h1 (ih ha.2)

section
variable {α : Type} [Add α] [Sub α] [Mul α] [Div α] [Neg α] [Zero α] [One α] [LT α] [LE α]
  [DecidableLT α] [DecidableLE α] [Elem α]

theorem callV_mem {N : Normalizer α} {js : List Nat} {θs r : List (List α)} {t : List α} (h : N.callV js θs = .ok r)
    (ht : t ∈ r) : ∃ θ ∈ θs, List.Forall₂ (fun jt t => N.normalize jt.1 jt.2 = .ok (some t)) (js.zip θ) t := by
  obtain ⟨ts, h1, h2⟩ := Except.bind_eq_ok h
  have key : t ∈ ts.filterMap id → ∃ θ ∈ θs, List.Forall₂ (fun jt t => N.normalize jt.1 jt.2 = .ok (some t)) (js.zip θ) t := by
    intro hm
    rw [List.mem_filterMap] at hm
    obtain ⟨x, hx, hxt⟩ := hm
    obtain ⟨θ, h3, h4⟩ := Forall₂.exists_left (forall₂_of_mapM h1) hx
    obtain ⟨t3, h5, h6⟩ := Except.bind_eq_ok h4
    simp only [Except.pure_eq, Except.ok.injEq] at h6
    split_ifs at h6 with ha
    · subst h6
      simp only [id, Option.some.injEq] at hxt
      exact ⟨θ, h3, hxt ▸ mapM_option h5 ha⟩
    · subst h6; cases hxt
  apply key
  rcases hl : N.last with _ | last
  · rw [hl] at h2; cases h2; exact ht
  · rw [hl] at h2
    simp only at h2
    split_ifs at h2
    · cases h2; exact ht
    · obtain ⟨x, -, h4⟩ := Except.bind_eq_ok h2
      cases h4
      obtain ⟨y, hy, rfl⟩ := mem_pruneSort ht
      rw [List.mem_map] at hy
      obtain ⟨z, hz, rfl⟩ := hy
      exact hz

end

/-! ## moving columns of `P` along a joint axis -/

theorem fwdStep_slide (t t' : Nat) (k h x x' y y' : V3 ℝ) (c θ θ' : ℝ) (hsum : x + y = x' + y') (hpar : y' = y + c • h)
    (Rp : M3 ℝ × V3 ℝ) :
    fwdStep t' h y' θ' (fwdStep t k x' θ Rp) = fwdStep t' h y θ' (fwdStep t k x θ Rp) ∧
    (fwdStep t k x' θ Rp).1 = (fwdStep t k x θ Rp).1 ∧
    (fwdStep t k x' θ Rp).2 = (fwdStep t k x θ Rp).2 + (-c) • ((fwdStep t k x θ Rp).1.mulVec h) := by
  obtain ⟨R, p⟩ := Rp
  have hx : x' = x + (-c) • h := by
    subst hpar
    simp only [V3.ext_iff, V3.add_x, V3.add_y, V3.add_z, V3.hsmul_x, V3.hsmul_y, V3.hsmul_z] at hsum ⊢
    refine ⟨?_, ?_, ?_⟩ <;> linarith [hsum.1, hsum.2.1, hsum.2.2]
  have h1 : (fwdStep t k x' θ (R, p)).1 = (fwdStep t k x θ (R, p)).1 := by
    unfold fwdStep; split_ifs <;> rfl
  have h2 : (fwdStep t k x' θ (R, p)).2 = (fwdStep t k x θ (R, p)).2 + (-c) • ((fwdStep t k x θ (R, p)).1.mulVec h) := by
    subst hx
    unfold fwdStep
    split_ifs <;> ext <;> simp <;> ring
  refine ⟨?_, h1, h2⟩
  generalize fwdStep t k x' θ (R, p) = A at h1 h2 ⊢
  generalize fwdStep t k x θ (R, p) = B at h1 h2 ⊢
  obtain ⟨A1, A2⟩ := A
  obtain ⟨B1, B2⟩ := B
  simp only at h1 h2
  subst h1 h2 hpar
  by_cases hr : t' = 0 ∨ t' = 2
  · rw [fwdStep_rotary hr, fwdStep_rotary hr]
    have e : (A1 * rot h θ').mulVec h = A1.mulVec h := by rw [← M3.mulVec_mulVec, rot_axis]
    have e2 : (A1 * rot h θ').mulVec (y + c • h) = (A1 * rot h θ').mulVec y + c • A1.mulVec h := by
      rw [← e]; ext <;> simp <;> ring
    rw [e2]
    congr 1
    ext <;> simp <;> ring
  · unfold fwdStep
    simp only [hr, if_false]
    split_ifs <;> simp only [Prod.mk.injEq, true_and] <;> ext <;> simp <;> ring

theorem fwdLoop_slide (n : Nat) (ts : List Nat) (hs Ps : List (V3 ℝ)) (θs : List ℝ) (Rp : M3 ℝ × V3 ℝ) (h x x' y y' : V3 ℝ)
    (c : ℝ) (hn : n + 1 < ts.length) (hh : hs[n + 1]? = some h) (hx : Ps[n]? = some x) (hy : Ps[n + 1]? = some y)
    (hsum : x + y = x' + y') (hpar : y' = y + c • h) :
    fwdLoop ts hs ((Ps.set n x').set (n + 1) y') θs Rp = fwdLoop ts hs Ps θs Rp := by
  induction n generalizing ts hs Ps θs Rp with
  | zero =>
    obtain _ | ⟨t, _ | ⟨t', ts⟩⟩ := ts
    · simp at hn
    · simp at hn
    obtain _ | ⟨k, _ | ⟨h', hs⟩⟩ := hs
    · simp at hh
    · simp at hh
    obtain _ | ⟨p, _ | ⟨q, Ps⟩⟩ := Ps
    · simp at hx
    · simp at hy
    simp at hh hx hy
    subst hh hx hy
    obtain _ | ⟨θ, _ | ⟨θ', θs⟩⟩ := θs
    · rfl
    · rfl
    simp only [List.set_cons_zero, List.set_cons_succ, fwdLoop]
    rw [(fwdStep_slide t t' k h' p x' q y' c θ θ' hsum hpar Rp).1]
  | succ n ih =>
    obtain _ | ⟨t, ts⟩ := ts
    · simp at hn
    obtain _ | ⟨k, hs⟩ := hs
    · simp at hh
    obtain _ | ⟨p, Ps⟩ := Ps
    · simp at hx
    obtain _ | ⟨θ, θs⟩ := θs
    · rfl
    simp only [List.set_cons_succ, fwdLoop]
    exact ih ts hs Ps θs _ (by simpa using hn) (by simpa using hh) (by simpa using hx) (by simpa using hy)

/-- frames that differ by sliding the recorded point along the joint axis -/
structure FrameSlide (f f' : JointFrame ℝ) : Prop where
  ty : f'.ty = f.ty
  h : f'.h = f.h
  th : f'.th = f.th
  pO : ∃ c : ℝ, f'.pO = f.pO + c • f.h

theorem FrameSlide.refl (f : JointFrame ℝ) : FrameSlide f f := ⟨rfl, rfl, rfl, 0, by ext <;> simp⟩

theorem jacLoop_slide (n : Nat) (ts : List Nat) (hs Ps : List (V3 ℝ)) (θs : List ℝ) (Rp : M3 ℝ × V3 ℝ) (h x x' y y' : V3 ℝ)
    (c : ℝ) (hn : n + 1 < ts.length) (hh : hs[n + 1]? = some h) (hx : Ps[n]? = some x) (hy : Ps[n + 1]? = some y)
    (hsum : x + y = x' + y') (hpar : y' = y + c • h) :
    (∃ e, jacLoop ts hs ((Ps.set n x').set (n + 1) y') θs Rp = .error e ∧ jacLoop ts hs Ps θs Rp = .error e) ∨
    ∃ fs fs' R p, jacLoop ts hs ((Ps.set n x').set (n + 1) y') θs Rp = .ok (fs', R, p) ∧ jacLoop ts hs Ps θs Rp = .ok (fs, R, p) ∧
      List.Forall₂ FrameSlide fs fs' := by
  induction n generalizing ts hs Ps θs Rp with
  | zero =>
    obtain _ | ⟨t, _ | ⟨t', ts⟩⟩ := ts
    · simp at hn
    · simp at hn
    obtain _ | ⟨k, _ | ⟨h', hs⟩⟩ := hs
    · simp at hh
    · simp at hh
    obtain _ | ⟨p, _ | ⟨q, Ps⟩⟩ := Ps
    · simp at hx
    · simp at hy
    simp at hh hx hy
    subst hh hx hy
    obtain _ | ⟨θ, _ | ⟨θ', θs⟩⟩ := θs
    · left; exact ⟨.index, rfl, rfl⟩
    · left; exact ⟨.index, rfl, rfl⟩
    obtain ⟨g1, g2, g3⟩ := fwdStep_slide t t' k h' p x' q y' c θ θ' hsum hpar Rp
    simp only [List.set_cons_zero, List.set_cons_succ, jacLoop, g1]
    rcases hj : jacLoop ts hs Ps θs (fwdStep t' h' q θ' (fwdStep t k p θ Rp)) with e | ⟨fs, R, pp⟩
    · left; exact ⟨e, rfl, rfl⟩
    · right
      refine ⟨_, _, R, pp, rfl, rfl, ?_⟩
      refine .cons ⟨rfl, by simp only [g2], rfl, 0, by ext <;> simp⟩ (.cons ⟨rfl, rfl, rfl, -c, ?_⟩ (List.forall₂_same.2 fun f _ => .refl f))
      simp only
      rw [g3]
      congr 2
      generalize fwdStep t k p θ Rp = B
      obtain ⟨B1, B2⟩ := B
      unfold fwdStep
      split_ifs
      · simp only; rw [← M3.mulVec_mulVec, rot_axis]
      · rfl
      · rfl
  | succ n ih =>
    obtain _ | ⟨t, ts⟩ := ts
    · simp at hn
    obtain _ | ⟨k, hs⟩ := hs
    · simp at hh
    obtain _ | ⟨p, Ps⟩ := Ps
    · simp at hx
    obtain _ | ⟨θ, θs⟩ := θs
    · left; exact ⟨.index, rfl, rfl⟩
    simp only [List.set_cons_succ, jacLoop]
    rcases ih ts hs Ps θs (fwdStep t k p θ Rp) (by simpa using hn) (by simpa using hh) (by simpa using hx) (by simpa using hy) with
      ⟨e, e1, e2⟩ | ⟨fs, fs', R, pp, e1, e2, e3⟩
    · left; exact ⟨e, by rw [e1]; rfl, by rw [e2]; rfl⟩
    · right; exact ⟨_, _, R, pp, by rw [e1]; rfl, by rw [e2]; rfl, .cons (.refl _) e3⟩

theorem hat_slide (h p q : V3 ℝ) (c : ℝ) : (hat h).mulVec (p - (q + c • h)) = (hat h).mulVec (p - q) := by
  ext <;> simp <;> ring

theorem jacCols_slide (pOT : V3 ℝ) (n : Nat) (fs fs' : List (JointFrame ℝ)) (hn : fs.length ≤ n) (h : List.Forall₂ FrameSlide fs fs') :
    jacCols pOT fs' = jacCols pOT fs := by
  induction n generalizing fs fs' with
  | zero =>
    obtain rfl := List.eq_nil_of_length_eq_zero (Nat.le_zero.1 hn)
    cases h; rfl
  | succ n ih =>
    cases h with
    | nil => rfl
    | @cons f f' l l' h1 h2 =>
      have hl : l.length ≤ n := by simpa using hn
      have e := ih l l' hl h2
      obtain ⟨c, hc⟩ := h1.pO
      rw [jacCols.eq_def pOT (f' :: l'), jacCols.eq_def pOT (f :: l)]
      simp only [h1.ty, h1.h, e, hc, hat_slide]
      cases h2 with
      | nil => rfl
      | @cons g g' m m' h3 h4 =>
        cases h4 with
        | nil => rfl
        | @cons k k' o o' h5 h6 =>
          obtain ⟨d, hd⟩ := h5.pO
          have e2 := ih o o' (by simp at hl; omega) h6
          simp only [h5.h, h5.th, e2, hd, hat_slide]
