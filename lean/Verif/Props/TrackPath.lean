import Verif.Props.TrackNear
import Mathlib.Topology.UniformSpace.HeineCantor
import Mathlib.Topology.Order.Compact
import Mathlib.Topology.MetricSpace.Pseudo.Pi

/-! # C71: following a path -/
set_option autoImplicit false

/-- A client that follows poses: each call gets the first solution of the call before as last joint values (`sols[0]` raises for an empty
list), on the robot object as the call before left it. -/
def Spec.follow {ρ : Type} (call : ρ → Transform XReal → List XReal → ρ × Except PyErr (List (List XReal))) :
    ρ → List XReal → List (Transform XReal) → Except PyErr (List (List XReal))
  | _, _, [] => .ok []
  | robot, last, T :: Ts =>
    match (call robot T last).2 with
    | .error e => .error e
    | .ok [] => .error .index
    | .ok (s :: _) =>
      match Spec.follow call (call robot T last).1 s Ts with
      | .error e => .error e
      | .ok rest => .ok (s :: rest)

/-- calls of `robot6_sphericalwrist_invkin` -/
noncomputable def Spec.call6 (robot : Robot XReal) (T : Transform XReal) (last : List XReal) :
    Robot XReal × Except PyErr (List (List XReal)) := robot6_sphericalwrist_invkin robot T (some last)

/-- calls of `ur_invkin`, which leaves the robot alone -/
noncomputable def Spec.callUr (robot : Robot XReal) (T : Transform XReal) (last : List XReal) :
    Robot XReal × Except PyErr (List (List XReal)) := (robot, ur_invkin robot T (some last))

/-- following joint vectors step by step -/
theorem follow_eq {ρ : Type} {call : ρ → Transform XReal → List XReal → ρ × Except PyErr (List (List XReal))} {robot : ρ}
    (hsame : ∀ robot' T last, (∀ T' last', (call robot' T' last').2 = (call robot T' last').2) →
      ∀ T' last', (call (call robot' T last).1 T' last').2 = (call robot T' last').2)
    {ok : (Fin 6 → ℝ) → Transform ℝ → Prop} {near : (Fin 6 → ℝ) → (Fin 6 → ℝ) → Prop}
    (hstep : ∀ x θ T sols, ok θ T → near x θ → (call robot T.up ((Spec.row x).map .fin)).2 = .ok sols →
      sols.head? = some ((Spec.row θ).map .fin))
    {θs : List (Fin 6 → ℝ)} {Ts : List (Transform ℝ)} (h : List.Forall₂ ok θs Ts) {x : Fin 6 → ℝ} (hc : List.IsChain near (x :: θs))
    {rows : List (List XReal)} (hf : Spec.follow call robot ((Spec.row x).map .fin) (Ts.map Transform.up) = .ok rows) :
    rows = θs.map fun θ => (Spec.row θ).map .fin := by
  suffices key : ∀ robot', (∀ T' last', (call robot' T' last').2 = (call robot T' last').2) → ∀ rows,
      Spec.follow call robot' ((Spec.row x).map .fin) (Ts.map Transform.up) = .ok rows → rows = θs.map fun θ => (Spec.row θ).map .fin from
    key robot (fun _ _ => rfl) rows hf
  clear hf rows
  induction h generalizing x with
  | nil => intro robot' _ rows hf; cases hf; rfl
  | @cons θ T θs Ts hok _ ih =>
    intro robot' hs rows hf
    obtain ⟨hn, hc⟩ := List.isChain_cons_cons.1 hc
    simp only [List.map_cons, Spec.follow] at hf
    split at hf
    · cases hf
    · cases hf
    · next s sols e =>
      have e1 := hstep x θ T _ hok hn (by rw [← hs]; exact e)
      simp only [List.head?_cons, Option.some.injEq] at e1
      subst e1
      split at hf
      · cases hf
      · next rest er =>
        cases hf
        rw [ih hc _ (hsame _ _ _ hs) rest er]; rfl

theorem follow_ok {ρ : Type} {call : ρ → Transform XReal → List XReal → ρ × Except PyErr (List (List XReal))} {robot : ρ}
    (hsame : ∀ robot' T last, (∀ T' last', (call robot' T' last').2 = (call robot T' last').2) →
      ∀ T' last', (call (call robot' T last).1 T' last').2 = (call robot T' last').2)
    {ok : (Fin 6 → ℝ) → Transform ℝ → Prop} {near : (Fin 6 → ℝ) → (Fin 6 → ℝ) → Prop}
    (hstep : ∀ x θ T, ok θ T → near x θ → ∃ sols, (call robot T.up ((Spec.row x).map .fin)).2 = .ok ((Spec.row θ).map .fin :: sols))
    {θs : List (Fin 6 → ℝ)} {Ts : List (Transform ℝ)} (h : List.Forall₂ ok θs Ts) {x : Fin 6 → ℝ} (hc : List.IsChain near (x :: θs)) :
    Spec.follow call robot ((Spec.row x).map .fin) (Ts.map Transform.up) = .ok (θs.map fun θ => (Spec.row θ).map .fin) := by
  suffices key : ∀ robot', (∀ T' last', (call robot' T' last').2 = (call robot T' last').2) →
      Spec.follow call robot' ((Spec.row x).map .fin) (Ts.map Transform.up) = .ok (θs.map fun θ => (Spec.row θ).map .fin) from
    key robot (fun _ _ => rfl)
  induction h generalizing x with
  | nil => intro robot' _; rfl
  | @cons θ T θs Ts hok _ ih =>
    intro robot' hs
    obtain ⟨hn, hc⟩ := List.isChain_cons_cons.1 hc
    obtain ⟨sols, e⟩ := hstep x θ T hok hn
    rw [← hs] at e
    simp only [List.map_cons, Spec.follow, e, ih hc _ (hsame _ _ _ hs)]

theorem call6_same (robot robot' : Robot XReal) (T : Transform XReal) (last : List XReal)
    (h : ∀ T' last', (Spec.call6 robot' T' last').2 = (Spec.call6 robot T' last').2) (T' : Transform XReal) (last' : List XReal) :
    (Spec.call6 (Spec.call6 robot' T last).1 T' last').2 = (Spec.call6 robot T' last').2 := by
  rw [← h]
  simp only [Spec.call6]
  rw [C33_second_call]

/-! ## Continuity of the margin -/

/-- continuous components -/
structure CtsV {X : Type} [TopologicalSpace X] (f : X → V3 ℝ) : Prop where
  x : Continuous fun t => (f t).x
  y : Continuous fun t => (f t).y
  z : Continuous fun t => (f t).z

section
variable {X : Type} [TopologicalSpace X] {f g : X → V3 ℝ} {a : X → ℝ}

theorem CtsV.const (v : V3 ℝ) : CtsV fun _ : X => v := ⟨continuous_const, continuous_const, continuous_const⟩

theorem CtsV.add (hf : CtsV f) (hg : CtsV g) : CtsV fun t => f t + g t :=
  ⟨hf.x.add hg.x, hf.y.add hg.y, hf.z.add hg.z⟩

theorem CtsV.cross (hf : CtsV f) (hg : CtsV g) : CtsV fun t => (f t).cross (g t) := by
  obtain ⟨a, b, c⟩ := hf; obtain ⟨d, e, f⟩ := hg
  constructor <;> simp only [V3.cross] <;> fun_prop

theorem CtsV.dot (hf : CtsV f) (hg : CtsV g) : Continuous fun t => (f t).dot (g t) := by
  obtain ⟨a, b, c⟩ := hf; obtain ⟨d, e, f⟩ := hg
  simp only [V3.dot]; fun_prop

theorem CtsV.norm (hf : CtsV f) : Continuous fun t => (f t).norm := by
  simp only [V3.norm_eq]
  exact (hf.dot hf).sqrt

theorem CtsV.rot (h : V3 ℝ) (ha : Continuous a) (hf : CtsV f) : CtsV fun t => (rot h (a t)).mulVec (f t) := by
  obtain ⟨u, v, w⟩ := hf
  constructor <;> simp [_root_.rot] <;> fun_prop
end

theorem margin6_continuousOn {h0 h1 h2 h3 h4 h5 P1 P2 P3 : V3 ℝ} {γ : ℝ → Fin 6 → ℝ} {s : Set ℝ} (hγ : ContinuousOn γ s)
    (h : ∀ t ∈ s, 0 < Spec.margin6 h0 h1 h2 h3 h4 h5 P1 P2 P3 (γ t)) :
    ContinuousOn (fun t => Spec.margin6 h0 h1 h2 h3 h4 h5 P1 P2 P3 (γ t)) s := by
  have q : ∀ j : Fin 6, Continuous fun θ : Fin 6 → ℝ => θ j := fun j => continuous_apply j
  have c1 : CtsV fun θ : Fin 6 → ℝ => h0.cross (P1 + (rot h1 (θ 1)).mulVec (P2 + (rot h2 (θ 2)).mulVec P3)) :=
    (CtsV.const h0).cross ((CtsV.const P1).add (CtsV.rot h1 (q 1) ((CtsV.const P2).add (CtsV.rot h2 (q 2) (CtsV.const P3)))))
  have c2 : CtsV fun θ : Fin 6 → ℝ => h2.cross ((rot h2 (θ 2)).mulVec P3) := (CtsV.const h2).cross (CtsV.rot h2 (q 2) (CtsV.const P3))
  have c3 : Continuous fun θ : Fin 6 → ℝ => h3.dot ((rot h4 (θ 4)).mulVec h5) := (CtsV.const h3).dot (CtsV.rot h4 (q 4) (CtsV.const h5))
  have hp : ∀ t ∈ s, 0 < Spec.shoulderSin h0 (P1 + (rot h1 (γ t 1)).mulVec (P2 + (rot h2 (γ t 2)).mulVec P3)) ∧
      0 < Spec.elbowSin h2 P2 ((rot h2 (γ t 2)).mulVec P3) := fun t ht => by
    have := h t ht
    rw [Spec.margin6, lt_min_iff, lt_min_iff] at this
    exact this.1
  have n1 : ∀ t ∈ s, (h0.cross (P1 + (rot h1 (γ t 1)).mulVec (P2 + (rot h2 (γ t 2)).mulVec P3))).norm ≠ 0 := fun t ht h0 => by
    have := (hp t ht).1
    rw [Spec.shoulderSin, h0, div_zero] at this
    exact lt_irrefl _ this
  have n2 : ∀ t ∈ s, (h2.cross P2).norm * (h2.cross ((rot h2 (γ t 2)).mulVec P3)).norm ≠ 0 := fun t ht h0 => by
    have := (hp t ht).2
    rw [Spec.elbowSin, h0, div_zero] at this
    exact lt_irrefl _ this
  simp only [Spec.margin6, Spec.shoulderSin, Spec.elbowSin, Spec.wristSin]
  refine ((ContinuousOn.div ?_ ?_ n1).inf (ContinuousOn.div ?_ ?_ n2)).inf (ContinuousOn.sub ?_ continuousOn_const)
  · exact (((CtsV.const V3.ey).dot c1).abs).comp_continuousOn hγ
  · exact c1.norm.comp_continuousOn hγ
  · exact (((CtsV.const P2).dot c2).abs).comp_continuousOn hγ
  · exact (continuous_const.mul c2.norm).comp_continuousOn hγ
  · exact ((continuous_const.sub (c3.pow 2)).sqrt).comp_continuousOn hγ

theorem marginUr_continuousOn {k P1 P2 P3 P4 : V3 ℝ} {γ : ℝ → Fin 6 → ℝ} {s : Set ℝ} (hγ : ContinuousOn γ s)
    (h : ∀ t ∈ s, 0 < Spec.marginUr k P1 P2 P3 P4 (γ t)) : ContinuousOn (fun t => Spec.marginUr k P1 P2 P3 P4 (γ t)) s := by
  have q : ∀ j : Fin 6, Continuous fun θ : Fin 6 → ℝ => θ j := fun j => continuous_apply j
  have c1 : CtsV fun θ : Fin 6 → ℝ => V3.ez.cross (P1 + (rot k (θ 1)).mulVec (P2 + (rot k (θ 2)).mulVec (P3 + (rot k (θ 3)).mulVec P4))) :=
    (CtsV.const V3.ez).cross ((CtsV.const P1).add (CtsV.rot k (q 1) ((CtsV.const P2).add (CtsV.rot k (q 2) ((CtsV.const P3).add
      (CtsV.rot k (q 3) (CtsV.const P4)))))))
  have c2 : CtsV fun θ : Fin 6 → ℝ => k.cross ((rot k (θ 2)).mulVec P3) := (CtsV.const k).cross (CtsV.rot k (q 2) (CtsV.const P3))
  have hp : ∀ t ∈ s, 0 < Spec.shoulderSin V3.ez (P1 + (rot k (γ t 1)).mulVec (P2 + (rot k (γ t 2)).mulVec (P3 + (rot k (γ t 3)).mulVec P4))) ∧
      0 < Spec.elbowSin k P2 ((rot k (γ t 2)).mulVec P3) := fun t ht => by
    have := h t ht
    rw [Spec.marginUr, lt_min_iff, lt_min_iff] at this
    exact this.1
  have n1 : ∀ t ∈ s, (V3.ez.cross (P1 + (rot k (γ t 1)).mulVec (P2 + (rot k (γ t 2)).mulVec (P3 + (rot k (γ t 3)).mulVec P4)))).norm ≠ 0 :=
    fun t ht h0 => by
      have := (hp t ht).1
      rw [Spec.shoulderSin, h0, div_zero] at this
      exact lt_irrefl _ this
  have n2 : ∀ t ∈ s, (k.cross P2).norm * (k.cross ((rot k (γ t 2)).mulVec P3)).norm ≠ 0 := fun t ht h0 => by
    have := (hp t ht).2
    rw [Spec.elbowSin, h0, div_zero] at this
    exact lt_irrefl _ this
  simp only [Spec.marginUr, Spec.shoulderSin, Spec.elbowSin]
  refine ((ContinuousOn.div ?_ ?_ n1).inf (ContinuousOn.div ?_ ?_ n2)).inf (ContinuousOn.sub ?_ continuousOn_const)
  · exact (((CtsV.const V3.ey).dot c1).abs).comp_continuousOn hγ
  · exact c1.norm.comp_continuousOn hγ
  · exact (((CtsV.const P2).dot c2).abs).comp_continuousOn hγ
  · exact (continuous_const.mul c2.norm).comp_continuousOn hγ
  · exact ((Real.continuous_sin.comp (q 4)).abs).comp_continuousOn hγ

/-- samples of a continuous path are near each other compared with a positive continuous margin -/
theorem samples_near {γ : ℝ → Fin 6 → ℝ} {m : ℝ → ℝ} (hγ : ContinuousOn γ (Set.Icc 0 1)) (hm : ContinuousOn m (Set.Icc 0 1))
    (h : ∀ t ∈ Set.Icc (0 : ℝ) 1, 0 < m t) : ∃ δ > 0, ∀ s ∈ Set.Icc (0 : ℝ) 1, ∀ t ∈ Set.Icc (0 : ℝ) 1, |t - s| < δ →
      Spec.dist (Spec.row (γ t)) (Spec.row (γ s)) < m t := by
  obtain ⟨t0, ht0, hmin⟩ := isCompact_Icc.exists_isMinOn ⟨0, by simp⟩ hm
  have hpos := h t0 ht0
  have huc := isCompact_Icc.uniformContinuousOn_of_continuous hγ
  obtain ⟨δ, hδ, hu⟩ := Metric.uniformContinuousOn_iff.1 huc (m t0 / 6) (by positivity)
  refine ⟨δ, hδ, fun s hs t ht hst => ?_⟩
  have hd := hu t ht s hs (by rwa [Real.dist_eq])
  have hj : ∀ j, |γ t j - γ s j| < m t0 / 6 := fun j => by
    rw [← Real.dist_eq]
    exact lt_of_le_of_lt (dist_le_pi_dist _ _ j) hd
  refine lt_of_lt_of_le ?_ (isMinOn_iff.1 hmin t ht)
  simp only [Spec.dist, Spec.row, List.zipWith_cons_cons, List.zipWith_nil_left, List.sum_cons, List.sum_nil]
  rw [Real.sqrt_lt' hpos]
  have sq : ∀ j, (γ t j - γ s j) ^ 2 ≤ (m t0 / 6) ^ 2 := fun j => by
    rw [sq_le_sq, abs_of_pos (show 0 < m t0 / 6 by positivity)]; exact (hj j).le
  have := sq 0; have := sq 1; have := sq 2; have := sq 3; have := sq 4; have := sq 5
  nlinarith [sq_nonneg (m t0), mul_pos hpos hpos]

/-- a chain of parameters gives a chain of joint vectors -/
theorem samples_chain {γ : ℝ → Fin 6 → ℝ} {δ : ℝ} {near : (Fin 6 → ℝ) → (Fin 6 → ℝ) → Prop}
    (h : ∀ s ∈ Set.Icc (0 : ℝ) 1, ∀ t ∈ Set.Icc (0 : ℝ) 1, |t - s| < δ → near (γ s) (γ t)) {ts : List ℝ} (hts : ∀ t ∈ ts, t ∈ Set.Icc (0 : ℝ) 1)
    (hc : List.IsChain (fun s t => |t - s| < δ) ts) : List.IsChain near (ts.map γ) := by
  induction ts with
  | nil => exact .nil
  | cons a ts ih =>
    cases ts with
    | nil => exact List.isChain_singleton _
    | cons b ts =>
      obtain ⟨h1, h2⟩ := List.isChain_cons_cons.1 hc
      exact List.isChain_cons_cons.2 ⟨h a (hts a (by simp)) b (hts b (by simp)) h1, ih (fun t ht => hts t (by simp [ht])) h2⟩

section
variable {r : Robot ℝ} {h0 h1 h2 h3 h4 h5 P0 P1 P2 P3 P4 P5 P6 : V3 ℝ}

/-- C71 for paths (`_partial`: as `C71_robot6_near_partial`): if consecutive joint vectors are nearer to each other than the margin, a
client that starts at the joint vector `x` and follows the poses of `θs`, without knowing them, gets exactly `θs` if all its calls
return.  The robot object is changed by the calls. -/
theorem C71_robot6_path_partial (hr : Spec.WristArm r h0 h1 h2 h3 h4 h5 P0 P1 P2 P3 P4 P5 P6) (ha : Spec.RegularArm h0 h2 P2 (P3 + P4))
    {x : Fin 6 → ℝ} {θs : List (Fin 6 → ℝ)} {Ts : List (Transform ℝ)}
    (hT : List.Forall₂ (fun θ T => Spec.Track6 r h0 h1 h2 h3 h4 h5 P1 P2 (P3 + P4) θ ∧ fwdkin r (Spec.row θ) true = .ok T) θs Ts)
    (hc : List.IsChain (fun a b => Spec.dist (Spec.row b) (Spec.row a) < Spec.margin6 h0 h1 h2 h3 h4 h5 P1 P2 (P3 + P4) b) (x :: θs))
    {rows : List (List XReal)} (h : Spec.follow Spec.call6 r.up ((Spec.row x).map .fin) (Ts.map Transform.up) = .ok rows) :
    rows = θs.map fun θ => (Spec.row θ).map .fin :=
  follow_eq (call6_same r.up) (fun x θ T sols hok hn hs => C71_robot6_near_partial hr ha hok.1 hn hok.2 hs) hT hc h

/-- C71: the calls do return, under the conditions of `C30_robot6_returns`. -/
theorem C71_robot6_path_returns (hr : Spec.WristArm r h0 h1 h2 h3 h4 h5 P0 P1 P2 P3 P4 P5 P6) (ha : Spec.RegularArm h0 h2 P2 (P3 + P4))
    (hP4 : P4 = (P4.dot h3) • h3) (hP5 : P5 = (P5.dot h5) • h5) (hl : Spec.limitsSized r 6)
    {x : Fin 6 → ℝ} {θs : List (Fin 6 → ℝ)} {Ts : List (Transform ℝ)}
    (hT : List.Forall₂ (fun θ T => Spec.Track6 r h0 h1 h2 h3 h4 h5 P1 P2 (P3 + P4) θ ∧ fwdkin r (Spec.row θ) true = .ok T ∧
      ∀ a b c : ℝ, (Spec.wristAt h0 h1 h2 P0 P1 P2 (P3 + P4) a b c -
        Spec.wristAt h0 h1 h2 P0 P1 P2 (P3 + P4) (θ 0) (θ 1) (θ 2)).norm < snap → npEps ≤ Spec.wristSq r T h0 h1 h2 h3 h5 a b c) θs Ts)
    (hc : List.IsChain (fun a b => Spec.dist (Spec.row b) (Spec.row a) < Spec.margin6 h0 h1 h2 h3 h4 h5 P1 P2 (P3 + P4) b) (x :: θs)) :
    Spec.follow Spec.call6 r.up ((Spec.row x).map .fin) (Ts.map Transform.up) = .ok (θs.map fun θ => (Spec.row θ).map .fin) :=
  follow_ok (call6_same r.up) (fun x θ T hok hn => C71_robot6_returns hr ha hP4 hP5 hl hok.1 hn hok.2.1 hok.2.2) hT hc

/-- C71 for continuous paths (`_partial`: as `C71_robot6_near_partial`): along every continuous joint path that stays away from the
singularities there is a step width such that every client which follows the poses of the path with at most this step width, forwards
or backwards, gets the joint vectors of the path. -/
theorem C71_robot6_continuous_partial (hr : Spec.WristArm r h0 h1 h2 h3 h4 h5 P0 P1 P2 P3 P4 P5 P6) (ha : Spec.RegularArm h0 h2 P2 (P3 + P4))
    (γ : ℝ → Fin 6 → ℝ) (hγ : ContinuousOn γ (Set.Icc 0 1))
    (hpos : ∀ t ∈ Set.Icc (0 : ℝ) 1, 0 < Spec.margin6 h0 h1 h2 h3 h4 h5 P1 P2 (P3 + P4) (γ t)) :
    ∃ δ > 0, ∀ (t0 : ℝ) (ts : List ℝ) (Ts : List (Transform ℝ)) (rows : List (List XReal)), (∀ t ∈ t0 :: ts, t ∈ Set.Icc (0 : ℝ) 1) →
      List.IsChain (fun s t => |t - s| < δ) (t0 :: ts) →
      List.Forall₂ (fun t T => Spec.Track6 r h0 h1 h2 h3 h4 h5 P1 P2 (P3 + P4) (γ t) ∧ fwdkin r (Spec.row (γ t)) true = .ok T) ts Ts →
      Spec.follow Spec.call6 r.up ((Spec.row (γ t0)).map .fin) (Ts.map Transform.up) = .ok rows →
      rows = ts.map fun t => (Spec.row (γ t)).map .fin := by
  obtain ⟨δ, hδ, hn⟩ := samples_near hγ (margin6_continuousOn hγ hpos) hpos
  refine ⟨δ, hδ, fun t0 ts Ts rows hts hc hT h => ?_⟩
  rw [C71_robot6_path_partial hr ha (θs := ts.map γ) (List.forall₂_map_left_iff.2 hT)
    (samples_chain (near := fun a b => Spec.dist (Spec.row b) (Spec.row a) < Spec.margin6 h0 h1 h2 h3 h4 h5 P1 P2 (P3 + P4) b) hn hts hc) h,
    List.map_map]
  rfl
end

section
variable {r : Robot ℝ} {k P0 P1 P2 P3 P4 P5 P6 : V3 ℝ}

/-- C71 for paths of UR arms (`_partial`: as `C71_ur_near_partial`). -/
theorem C71_ur_path_partial (hr : Spec.UrChain r k P0 P1 P2 P3 P4 P5 P6) {x : Fin 6 → ℝ} {θs : List (Fin 6 → ℝ)} {Ts : List (Transform ℝ)}
    (hT : List.Forall₂ (fun θ T => Spec.TrackUr r k P1 P2 P3 P4 θ ∧ fwdkin r (Spec.row θ) true = .ok T) θs Ts)
    (hc : List.IsChain (fun a b => Spec.dist (Spec.row b) (Spec.row a) < Spec.marginUr k P1 P2 P3 P4 b) (x :: θs))
    {rows : List (List XReal)} (h : Spec.follow Spec.callUr r.up ((Spec.row x).map .fin) (Ts.map Transform.up) = .ok rows) :
    rows = θs.map fun θ => (Spec.row θ).map .fin :=
  follow_eq (fun _ _ _ h => h) (fun x θ T sols hok hn hs => C71_ur_near_partial hr hok.1 hn hok.2 hs) hT hc h

/-- C71: the calls do return, under the conditions of `C60_ur_returns`. -/
theorem C71_ur_path_returns (hr : Spec.UrChain r k P0 P1 P2 P3 P4 P5 P6) (hl : Spec.limitsSized r 6) {x : Fin 6 → ℝ}
    {θs : List (Fin 6 → ℝ)} {Ts : List (Transform ℝ)}
    (hT : List.Forall₂ (fun θ T => Spec.TrackUr r k P1 P2 P3 P4 θ ∧ fwdkin r (Spec.row θ) true = .ok T ∧
      ∀ a : ℝ, V3.ey.dot ((rot V3.ez (a - θ 0)).transpose.mulVec (P1 + (rot k (θ 1)).mulVec (P2 + (rot k (θ 2)).mulVec
        (P3 + (rot k (θ 3)).mulVec P4)))) = V3.ey.dot (P1 + P2 + P3 + P4) → npEps ≤ Spec.urWristSq r T a) θs Ts)
    (hc : List.IsChain (fun a b => Spec.dist (Spec.row b) (Spec.row a) < Spec.marginUr k P1 P2 P3 P4 b) (x :: θs)) :
    Spec.follow Spec.callUr r.up ((Spec.row x).map .fin) (Ts.map Transform.up) = .ok (θs.map fun θ => (Spec.row θ).map .fin) :=
  follow_ok (fun _ _ _ h => h) (fun x θ T hok hn => C71_ur_returns hr hl hok.1 hn hok.2.1 hok.2.2) hT hc

/-- C71 for continuous paths of UR arms (`_partial`: as `C71_ur_near_partial`). -/
theorem C71_ur_continuous_partial (hr : Spec.UrChain r k P0 P1 P2 P3 P4 P5 P6) (γ : ℝ → Fin 6 → ℝ) (hγ : ContinuousOn γ (Set.Icc 0 1))
    (hpos : ∀ t ∈ Set.Icc (0 : ℝ) 1, 0 < Spec.marginUr k P1 P2 P3 P4 (γ t)) :
    ∃ δ > 0, ∀ (t0 : ℝ) (ts : List ℝ) (Ts : List (Transform ℝ)) (rows : List (List XReal)), (∀ t ∈ t0 :: ts, t ∈ Set.Icc (0 : ℝ) 1) →
      List.IsChain (fun s t => |t - s| < δ) (t0 :: ts) →
      List.Forall₂ (fun t T => Spec.TrackUr r k P1 P2 P3 P4 (γ t) ∧ fwdkin r (Spec.row (γ t)) true = .ok T) ts Ts →
      Spec.follow Spec.callUr r.up ((Spec.row (γ t0)).map .fin) (Ts.map Transform.up) = .ok rows →
      rows = ts.map fun t => (Spec.row (γ t)).map .fin := by
  obtain ⟨δ, hδ, hn⟩ := samples_near hγ (marginUr_continuousOn hγ hpos) hpos
  refine ⟨δ, hδ, fun t0 ts Ts rows hts hc hT h => ?_⟩
  rw [C71_ur_path_partial hr (θs := ts.map γ) (List.forall₂_map_left_iff.2 hT)
    (samples_chain (near := fun a b => Spec.dist (Spec.row b) (Spec.row a) < Spec.marginUr k P1 P2 P3 P4 b) hn hts hc) h, List.map_map]
  rfl
end

/-! ### Concrete cases -/

/-- the small arm with its first joint at `t` -/
noncomputable def Spec.turned (t : ℝ) : Fin 6 → ℝ := ![t, 0, 0, Real.pi / 2, Real.pi / 2, 0]

/-- limits of 3 -/
def Spec.three : List ℝ := [3, 3, 3, 3, 3, 3]
def Spec.minusThree : List ℝ := [-3, -3, -3, -3, -3, -3]

theorem Spec.turned_track (t : ℝ) (h1 : -3 < t) (h2 : t < 3) :
    Spec.Track6 (Spec.smallArm (some Spec.minusThree) (some Spec.three)) V3.ez V3.ey V3.ey V3.ex V3.ey V3.ex 0 V3.ez (V3.ex + 0) (Spec.turned t) where
  conf := Spec.smallArm_conf
  limits := by
    have p1 := Real.pi_gt_three
    have p2 := Real.pi_lt_d2
    rintro j _ _ ⟨⟩ ⟨⟩
    refine ⟨-3, 3, by fin_cases j <;> rfl, by fin_cases j <;> rfl, ?_, ?_, .inl ⟨by linarith, by linarith⟩⟩ <;>
      fin_cases j <;> simp [Spec.turned] <;> linarith

theorem Spec.turned_margin (t : ℝ) : Spec.margin6 (V3.ez : V3 ℝ) V3.ey V3.ey V3.ex V3.ey V3.ex 0 V3.ez (V3.ex + 0) (Spec.turned t) = 1 - snap / 2 := by
  have hs := snap_pos
  have e1 : Spec.shoulderSin (V3.ez : V3 ℝ) (0 + (rot V3.ey (Spec.turned t 1)).mulVec (V3.ez + (rot V3.ey (Spec.turned t 2)).mulVec (V3.ex + 0))) = 1 := by
    simp [Spec.shoulderSin, Spec.turned, rot_zero, M3.one_mulVec, V3.dot, V3.norm_eq]
  have e2 : Spec.elbowSin (V3.ey : V3 ℝ) V3.ez ((rot V3.ey (Spec.turned t 2)).mulVec (V3.ex + 0)) = 1 := by
    simp [Spec.elbowSin, Spec.turned, rot_zero, M3.one_mulVec, V3.dot, V3.norm_eq]
  have e3 : Spec.wristSin (V3.ex : V3 ℝ) ((rot V3.ey (Spec.turned t 4)).mulVec V3.ex) = 1 := by
    simp [Spec.wristSin, Spec.turned, rot, V3.dot]
  rw [Spec.margin6, e1, e2, e3, min_self, min_eq_right (by linarith)]

theorem Spec.turned_dist (s t : ℝ) : Spec.dist (Spec.row (Spec.turned t)) (Spec.row (Spec.turned s)) = |t - s| := by
  simp [Spec.dist, Spec.row, Spec.turned, Real.sqrt_sq_eq_abs]

-- non-vacuity of `C71_robot6_near_partial`, `C71_robot6_returns`, `C71_robot6_path_partial` and `C71_robot6_path_returns`: the last joint
-- values are not those of the pose, and the pose is asked for twice
example : ∃ T, fwdkin (Spec.smallArm (some Spec.minusThree) (some Spec.three)) (Spec.row (Spec.turned 0)) true = .ok T ∧
    Spec.follow Spec.call6 (Spec.smallArm (some Spec.minusThree) (some Spec.three)).up ((Spec.row (Spec.turned (1 / 2))).map .fin) [T.up, T.up] =
      .ok [(Spec.row (Spec.turned 0)).map .fin, (Spec.row (Spec.turned 0)).map .fin] := by
  have hr := Spec.smallArm_wrist (some Spec.minusThree) (some Spec.three)
  have hT := fwdkin_chain6 hr.types hr.axes hr.links 0 0 0 (Real.pi / 2) (Real.pi / 2) 0
  have z : (0 : V3 ℝ) = ((0 : V3 ℝ).dot V3.ex) • V3.ex := by ext <;> simp [V3.dot]
  have haway := Spec.smallArm_away (some Spec.minusThree) (some Spec.three) 0 (T := _) (by rw [Int.cast_zero, zero_mul]; exact hT)
  rw [Int.cast_zero, zero_mul] at haway
  refine ⟨_, hT, C71_robot6_path_returns hr Spec.smallArm_regular z z (by rintro _ _ ⟨⟩ ⟨⟩; simp [Spec.minusThree, Spec.three])
    (x := Spec.turned (1 / 2)) (θs := [Spec.turned 0, Spec.turned 0]) (Ts := [_, _]) ?_ ?_⟩
  · have h := And.intro (Spec.turned_track 0 (by norm_num) (by norm_num)) (And.intro hT haway)
    exact .cons h (.cons h .nil)
  · have hs := snap_eq
    simp only [List.isChain_cons_cons, List.isChain_singleton, Spec.turned_dist, Spec.turned_margin, and_true]
    rw [hs]
    constructor <;> norm_num [abs_of_pos]

-- non-vacuity of `C71_robot6_continuous_partial`: turning the first joint
example : ∃ γ : ℝ → Fin 6 → ℝ, ContinuousOn γ (Set.Icc 0 1) ∧ (∀ t ∈ Set.Icc (0 : ℝ) 1,
    0 < Spec.margin6 (V3.ez : V3 ℝ) V3.ey V3.ey V3.ex V3.ey V3.ex 0 V3.ez (V3.ex + 0) (γ t) ∧
    Spec.Track6 (Spec.smallArm (some Spec.minusThree) (some Spec.three)) V3.ez V3.ey V3.ey V3.ex V3.ey V3.ex 0 V3.ez (V3.ex + 0) (γ t)) ∧ γ 0 ≠ γ 1 := by
  refine ⟨Spec.turned, ?_, fun t ht => ⟨?_, Spec.turned_track t (by linarith [ht.1]) (by linarith [ht.2])⟩, ?_⟩
  · refine Continuous.continuousOn (continuous_pi fun j => ?_)
    fin_cases j <;> simp [Spec.turned] <;> fun_prop
  · rw [Spec.turned_margin, snap_eq]; norm_num
  · intro h
    have := congrFun h 0
    simp [Spec.turned] at this

/-- the small UR arm with its first joint at `t` -/
noncomputable def Spec.turnedUr (t : ℝ) : Fin 6 → ℝ := ![t, 0, Real.pi / 2, 0, Real.pi / 2, 0]

theorem Spec.turnedUr_track (t : ℝ) (h1 : -(2 * Real.pi) < t) (h2 : t < 2 * Real.pi) :
    Spec.TrackUr (Spec.smallUr (some Spec.urLo) (some Spec.urUp)) V3.ey 0 V3.ez V3.ez V3.ey (Spec.turnedUr t) := by
  have hpi := Real.pi_pos
  have hw : ∀ j < 6, ∀ q : ℝ, -(2 * Real.pi) < q → q < 2 * Real.pi → Spec.withinLimits (Spec.smallUr (some Spec.urLo) (some Spec.urUp)) j q := by
    rintro j hj q h1 h2 _ _ ⟨⟩ ⟨⟩
    refine ⟨-(2 * Real.pi), 2 * Real.pi, ?_, ?_, h1, h2, .inr ⟨by linarith, by linarith⟩⟩ <;> interval_cases j <;> rfl
  refine ⟨Spec.smallUr_conf, hw 0 (by norm_num) t h1 h2, ?_, ?_, hw 5 (by norm_num) 0 (by linarith) (by linarith)⟩
  · rintro _ _ ⟨⟩ ⟨⟩
    right
    show Spec.atLeastTurn _ _ 1 0 ∧ Spec.atLeastTurn _ _ 2 (Real.pi / 2) ∧ Spec.atLeastTurn _ _ 3 0 ∧
      ∀ n : ℤ, |0 + Real.pi / 2 + 0 + n * (2 * Real.pi)| ≤ Real.pi → |0 + n * (2 * Real.pi)| < 4 * Real.pi
    refine ⟨⟨_, _, rfl, rfl, le_rfl, le_rfl, ?_, ?_⟩, ⟨_, _, rfl, rfl, le_rfl, le_rfl, ?_, ?_⟩, ⟨_, _, rfl, rfl, le_rfl, le_rfl, ?_, ?_⟩, ?_⟩ <;>
      try linarith
    intro n hn
    rw [abs_le] at hn
    rw [abs_lt]
    constructor <;> linarith [hn.1, hn.2]
  · show |Real.pi / 2| ≤ Real.pi
    rw [abs_of_pos] <;> linarith

theorem Spec.turnedUr_margin (t : ℝ) : 1 / 2 < Spec.marginUr (V3.ey : V3 ℝ) 0 V3.ez V3.ez V3.ey (Spec.turnedUr t) := by
  have e1 : Spec.shoulderSin (V3.ez : V3 ℝ) (0 + (rot V3.ey (Spec.turnedUr t 1)).mulVec (V3.ez + (rot V3.ey (Spec.turnedUr t 2)).mulVec
      (V3.ez + (rot V3.ey (Spec.turnedUr t 3)).mulVec V3.ey))) = 1 / Real.sqrt 2 := by
    simp [Spec.shoulderSin, Spec.turnedUr, rot, V3.dot, V3.norm_eq]
    norm_num
  have e2 : Spec.elbowSin (V3.ey : V3 ℝ) V3.ez ((rot V3.ey (Spec.turnedUr t 2)).mulVec V3.ez) = 1 := by
    simp [Spec.elbowSin, Spec.turnedUr, rot, V3.dot, V3.norm_eq]
  have e3 : |Real.sin (Spec.turnedUr t 4)| = 1 := by simp [Spec.turnedUr]
  have h2 : Real.sqrt 2 < 2 := by rw [Real.sqrt_lt' (by norm_num)]; norm_num
  have h0 : 0 < Real.sqrt 2 := Real.sqrt_pos.2 (by norm_num)
  rw [Spec.marginUr, e1, e2, e3, lt_min_iff, lt_min_iff, snap_eq]
  refine ⟨⟨?_, by norm_num⟩, by norm_num⟩
  rw [lt_div_iff₀ h0]; linarith

theorem Spec.turnedUr_dist (s t : ℝ) : Spec.dist (Spec.row (Spec.turnedUr t)) (Spec.row (Spec.turnedUr s)) = |t - s| := by
  simp [Spec.dist, Spec.row, Spec.turnedUr, Real.sqrt_sq_eq_abs]

theorem Spec.turnedUr_away (t : ℝ) {T : Transform ℝ}
    (hT : fwdkin (Spec.smallUr (some Spec.urLo) (some Spec.urUp)) (Spec.row (Spec.turnedUr t)) true = .ok T) (a : ℝ) :
    npEps ≤ Spec.urWristSq (Spec.smallUr (some Spec.urLo) (some Spec.urUp)) T a := by
  obtain ⟨eR, -⟩ := urArm_pose (Spec.smallUr_arm (some Spec.urLo) (some Spec.urUp)) hT
  have e5 : (Spec.lastLinkR (Spec.smallUr (some Spec.urLo) (some Spec.urUp)) T).mulVec V3.ey = -V3.ez := by
    rw [Spec.lastLinkR, ← unapplyAux_R, eR]
    ext <;> simp [Spec.turnedUr, rot]
  rw [Spec.urWristSq, e5, npEps_real]
  simp [rot, V3.dot]; norm_num

-- non-vacuity of the theorems about UR arms: every client that turns the first joint in steps of less than half a radian, starting anywhere
-- in the range of one turn on both sides, gets what it asks for
example (t0 : ℝ) (ts : List ℝ) (hts : ∀ t ∈ ts, -(2 * Real.pi) < t ∧ t < 2 * Real.pi) (hc : List.IsChain (fun s t => |t - s| < 1 / 2) (t0 :: ts)) :
    ∃ Ts, List.Forall₂ (fun t T => fwdkin (Spec.smallUr (some Spec.urLo) (some Spec.urUp)) (Spec.row (Spec.turnedUr t)) true = .ok T) ts Ts ∧
    Spec.follow Spec.callUr (Spec.smallUr (some Spec.urLo) (some Spec.urUp)).up ((Spec.row (Spec.turnedUr t0)).map .fin) (Ts.map Transform.up) =
      .ok (ts.map fun t => (Spec.row (Spec.turnedUr t)).map .fin) := by
  have hr := Spec.smallUr_arm (some Spec.urLo) (some Spec.urUp)
  have hT : ∀ t, ∃ T, fwdkin (Spec.smallUr (some Spec.urLo) (some Spec.urUp)) (Spec.row (Spec.turnedUr t)) true = .ok T :=
    fun t => ⟨_, fwdkin_chain6 hr.types hr.axes hr.links _ _ _ _ _ _⟩
  choose f hf using hT
  refine ⟨ts.map f, by simpa [List.forall₂_map_right_iff, List.forall₂_same] using fun t _ => hf t, ?_⟩
  have key := C71_ur_path_returns hr (by rintro _ _ ⟨⟩ ⟨⟩; simp [Spec.urLo, Spec.urUp]) (x := Spec.turnedUr t0) (θs := ts.map Spec.turnedUr)
    (Ts := ts.map f) (by
      rw [List.forall₂_map_left_iff, List.forall₂_map_right_iff, List.forall₂_same]
      exact fun t ht => ⟨Spec.turnedUr_track t (hts t ht).1 (hts t ht).2, hf t, fun a _ => Spec.turnedUr_away t (hf t) a⟩)
    (by
      have := List.isChain_map (R := fun a b => Spec.dist (Spec.row b) (Spec.row a) < Spec.marginUr V3.ey 0 V3.ez V3.ez V3.ey b) Spec.turnedUr (l := t0 :: ts)
      rw [← List.map_cons, this]
      exact hc.imp fun s t h => by rw [Spec.turnedUr_dist]; exact h.trans (Spec.turnedUr_margin t))
  rw [key, List.map_map]; rfl
