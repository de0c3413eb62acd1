import Verif.Model.TesseractWrap
import Verif.Props.TesseractEnv
import Verif.Props.TesseractRobot
import Verif.Props.Jacobian

/-!
# Property C101: `TesseractRobot` on an existing environment, and redundant solutions
-/
set_option autoImplicit false

/-! ## Helper lemmas: the last link has no joint below it -/

section
variable {α : Type} [Add α] [Sub α] [Mul α] [Div α] [Neg α] [Zero α] [One α] [LT α] [LE α]
  [DecidableLT α] [DecidableLE α] [Elem α]

theorem ChainJs.parents {i : Nat} {parent : String} {ts : List Nat} {H P : List (V3 α)} {names : List String} {lims : List (TLimits α)}
    {js : List (TJoint α)} (h : ChainJs i parent ts H P names lims js) :
    js.map (·.parent) = (parent :: (List.range' i ts.length).map linkName).dropLast := by
  induction h with
  | nil => rfl
  | cons i parent t ht ts h p H P nm names lim lims js hr ih =>
    simp only [List.map_cons, ih, List.length_cons, List.range'_succ]
    rfl

theorem SgContents.parents {robot : Robot α} {r : SgResult α} (C : SgContents robot r) :
    r.sg.joints.map (·.parent) = r.sg.links.dropLast := by
  have hc : C.js.map (·.parent) ++ [linkName C.m] = "base_link" :: (List.range robot.jointType.length).map linkName := by
    rw [C.chain.parents, C.len, List.range_eq_range', List.range'_concat, List.map_append, List.map_singleton, ← List.cons_append,
      List.dropLast_concat]
    simp
  have hl : r.sg.links = C.js.map (·.parent) ++ [linkName C.m] ++ ["chain_tip"] ++ flangeLs robot ++ toolLs robot := by
    rw [hc, C.links_eq]; rfl
  rw [hl, C.joints_eq]
  unfold flangeJs flangeLs toolJs toolLs tipF
  rcases robot.Tflange with _ | T <;> rcases robot.Rtool with _ | R <;> rcases robot.ptool with _ | p <;>
    simp [getFixedJoint, List.dropLast_append_of_ne_nil]

/-- nothing hangs below the last link of the environment -/
theorem robotToEnv_last {robot : Robot α} {name : String} {solver : Option String} {over : Option (PluginOverride α)} {env : SGraph α}
    {links joints : List String} (h : robotToEnv robot name true solver over = .ok (env, links, joints)) {tip : String}
    (ht : links.getLast? = some tip) : ∀ j ∈ env.joints, j.parent ≠ tip := by
  obtain ⟨-, hnd, -⟩ := C53_env robot name solver over env links joints h
  obtain ⟨r, hr, hins, rfl, rfl⟩ := robotToEnv_contents h
  obtain ⟨C⟩ := robotToSceneGraph_contents hr
  obtain ⟨-, -, -, -, -, -, rfl⟩ := insertWith_iff.1 hins
  have hne : r.linkNames ≠ [] := by rw [C.linkNames_eq]; simp [sgLinkNames]
  have hlk : r.sg.links = r.linkNames := by rw [C.links_eq, C.linkNames_eq]
  set L := r.linkNames with hL
  obtain ⟨d, x, hd⟩ : ∃ d x, L = d ++ [x] := ⟨L.dropLast, L.getLast hne, (List.dropLast_append_getLast hne).symm⟩
  have hpar : r.sg.joints.map (·.parent) = d := by rw [C.parents, hlk, hd, List.dropLast_concat]
  have htip : tip = name ++ "_" ++ x := by
    rw [hd, prefixNames_eq, List.map_append, ← List.cons_append, List.map_singleton, List.getLast?_concat] at ht
    exact (Option.some.inj ht).symm
  rw [hd, prefixNames_eq, List.map_append, ← List.cons_append, List.map_singleton, ← htip] at hnd
  have hnot : tip ∉ "world" :: d.map ((name ++ "_") ++ ·) := by
    rw [List.nodup_append] at hnd
    exact fun hm => hnd.2.2 _ hm _ (List.mem_singleton.2 rfl) rfl
  intro j hj he
  apply hnot
  simp only [worldSceneGraph, List.nil_append, List.mem_append, List.mem_singleton] at hj
  rcases hj with hj | rfl
  · obtain ⟨k, hk, rfl⟩ := List.mem_map.1 hj
    refine List.mem_cons_of_mem _ (List.mem_map.2 ⟨k.parent, ?_, he⟩)
    rw [← hpar]; exact List.mem_map_of_mem hk
  · rw [← he]; exact List.mem_cons_self

/-! ## C101 -/

/-- What is assumed of `getKinematicGroup` for a group that was declared as the chain `chain` of links: the base is that of the
chain, and there are tip links, all of them the chain's tip or links below it. -/
structure Spec.GroupOf (chain : String × String) (graph : SGraph α) (g : KinGroup α) : Prop where
  base : g.base = chain.1
  nonempty : g.tips ≠ []
  below : ∀ t ∈ g.tips, Spec.Reach graph.joints chain.2 t

/-- C101: a `TesseractRobot` needs a robot or an environment, and not both. -/
theorem C101_arguments (robot : Robot α) (name : String) (solver : Option String) (env : TEnv α) :
    TRobot.new none name solver (none : Option (TEnv α)) = .error .assertion ∧
    TRobot.new (some robot) name solver (some env) = .error .assertion ∧
    TRobot.new (some robot) name solver none = TRobot.init robot name solver :=
  ⟨rfl, rfl, rfl⟩

/-- C101: a `TesseractRobot` on the environment of another one, with the same robot name, is the same as the other one: same base
link, same tip link, whatever solver is named. -/
theorem C101_rewrap (robot : Robot α) (name : String) (solver solver' : Option String) (r : TRobot α)
    (h : TRobot.new (some robot) name solver none = .ok r) (env : TEnv α) (henv : env.graph = r.env) (c : EnvCommands α)
    (hc : envCommands robot name true solver none = .ok c) (g : KinGroup α) (hg : env.group name = some g)
    (hG : Spec.GroupOf c.chain env.graph g) : TRobot.new none name solver' (some env) = .ok r := by
  have h' : TRobot.init robot name solver = .ok r := h
  unfold TRobot.init at h'
  obtain ⟨⟨e, links, joints⟩, he, h'⟩ := Except.bind_eq_ok h'
  obtain ⟨b, hb, h'⟩ := Except.bind_eq_ok h'
  obtain ⟨tip, ht, h'⟩ := Except.bind_eq_ok h'
  cases h'
  have hlast : links.getLast? = some tip := by
    cases e : links.getLast? with
    | none => simp only [e] at ht; cases ht
    | some x => simp only [e] at ht; cases ht; rfl
  have hhead : links.head? = some b := by
    cases e : links.head? with
    | none => simp only [e] at hb; cases hb
    | some x => simp only [e] at hb; cases hb; rfl
  have hno := robotToEnv_last he hlast
  obtain ⟨-, -, hw, -⟩ := C53_env robot name solver none e links joints he
  have hbw : b = "world" := by rw [hw] at hhead; exact (Option.some.inj hhead).symm
  have he' := he
  unfold robotToEnv at he'
  rw [hc, Except.bind_ok] at he'
  cases ha : c.apply SGraph.empty with
  | none => rw [ha] at he'; cases he'
  | some e' =>
    rw [ha] at he'
    cases he'
    obtain ⟨k1, k2, -⟩ := C53_group robot name solver none c hc e ha
    have hct : c.chain.2 = tip := by rw [k2] at hlast; exact Option.some.inj hlast
    obtain ⟨t, ts, hts⟩ := List.exists_cons_of_ne_nil hG.nonempty
    have htt : t = tip := by
      have hr := hG.below t (by rw [hts]; exact List.mem_cons_self)
      rw [hct, henv] at hr
      have key : ∀ l, Spec.Reach e.joints tip l → l = tip := by
        intro l hl
        induction hl with
        | root => rfl
        | step j hj _ ih => exact absurd ih (hno j hj)
      exact key t hr
    simp only [TRobot.new, Option.isSome, pyAssert, Bool.false_or, Bool.false_and, Bool.not_false, if_true, Except.bind_ok, hg, hts, getI,
      List.getElem?_cons_zero, Except.pure_eq]
    rw [hG.base, k1, ← hbw, htt, henv]

/-- C101: a name the environment has no group for is an error. -/
theorem C101_unknown_name (name : String) (solver : Option String) (env : TEnv α) (hg : env.group name = none) :
    TRobot.new none name solver (some env) = .error .key := by
  simp [TRobot.new, pyAssert, hg]

end

/-! ## Redundant solutions -/

/-- What is assumed of `getRedundantSolutions`: the vectors it returns differ from the given one at the given joints only, by
whole turns, and stay between the limits where they differ. -/
def Spec.RedundantSpec (getRedundant : List ℝ → List (ℝ × ℝ) → List Nat → List (List ℝ)) : Prop :=
  ∀ (θ : List ℝ) (limits : List (ℝ × ℝ)) (capable : List Nat), ∀ θ' ∈ getRedundant θ limits capable, θ'.length = θ.length ∧
    ∀ (i : Nat) (x x' : ℝ), θ[i]? = some x → θ'[i]? = some x' →
      x' = x ∨ i ∈ capable ∧ (∃ n : ℤ, x' = x + n * (2 * Real.pi)) ∧ ∃ l u, limits[i]? = some (l, u) ∧ l ≤ x' ∧ x' ≤ u

/-- What is assumed of the limits and the redundancy of the group of a robot: joint `k` of the group is the joint of the environment
with the `k`-th of the robot's joint names, its limits are the limits of that joint, and it is capable of redundancy only if it is
revolute. -/
structure Spec.GroupJoints (graph : SGraph ℝ) (joints : List String) (g : KinGroup ℝ) : Prop where
  limits : ∀ (k : Nat) (nm : String), joints[k]? = some nm → ∃ j ∈ graph.joints, j.name = nm ∧ ∃ L, j.limits = some L ∧ g.limits[k]? = some (L.lower, L.upper)
  capable : ∀ k ∈ g.capable, ∃ nm, joints[k]? = some nm ∧ ∃ j ∈ graph.joints, j.name = nm ∧ j.type = .revolute

theorem exists_shiftTurns : ∀ (ts : List Nat) (θ θ' : List ℝ), θ.length = ts.length → θ'.length = θ.length →
    (∀ (i : Nat) (x x' : ℝ), θ[i]? = some x → θ'[i]? = some x' → x' = x ∨ ts[i]? = some 0 ∧ ∃ n : ℤ, x' = x + n * (2 * Real.pi)) →
    ∃ ns, θ' = shiftTurns ts θ ns
  | [], [], [], _, _, _ => ⟨[], rfl⟩
  | [], _ :: _, _, h, _, _ => by simp at h
  | _ :: _, [], _, h, _, _ => by simp at h
  | _, [], _ :: _, _, h, _ => by simp at h
  | _, _ :: _, [], _, h, _ => by simp at h
  | t :: ts, x :: θ, x' :: θ', hl, hl', h => by
    obtain ⟨ns, hns⟩ := exists_shiftTurns ts θ θ' (by simpa using hl) (by simpa using hl')
      (fun i y y' hy hy' => by simpa using h (i + 1) y y' (by simpa using hy) (by simpa using hy'))
    rcases h 0 x x' rfl rfl with rfl | ⟨ht, n, rfl⟩
    · refine ⟨0 :: ns, ?_⟩
      simp [shiftTurns, ← hns]
    · have ht : t = 0 := by simpa using ht
      refine ⟨n :: ns, ?_⟩
      simp [shiftTurns, ← hns, ht]

/-- C101: every redundant solution is a joint vector of the same length with the same end pose, and it is within the joint limits of
the robot if the given vector is. -/
theorem C101_redundant (robot : Robot ℝ) (name : String) (solver : Option String) (over : Option (PluginOverride ℝ)) (graph : SGraph ℝ)
    (links joints : List String) (h : robotToEnv robot name true solver over = .ok (graph, links, joints)) (r : TRobot ℝ)
    (hr : r.robotName = name) (env : TEnv ℝ) (g : KinGroup ℝ) (hg : env.group name = some g) (hG : Spec.GroupJoints graph joints g)
    (getRedundant : List ℝ → List (ℝ × ℝ) → List Nat → List (List ℝ)) (hR : Spec.RedundantSpec getRedundant) (θ : List ℝ)
    (hθ : θ.length = robot.jointType.length) :
    ∃ sols, r.redundantSolutions getRedundant env θ = .ok sols ∧ ∀ θ' ∈ sols, θ'.length = θ.length ∧
      fwdkin robot θ' true = fwdkin robot θ true ∧
      ∀ lo up, robot.lower = some lo → robot.upper = some up →
        (∀ (i : Nat) (x l u : ℝ), θ[i]? = some x → lo[i]? = some l → up[i]? = some u → l ≤ x ∧ x ≤ u) →
        ∀ (i : Nat) (x l u : ℝ), θ'[i]? = some x → lo[i]? = some l → up[i]? = some u → l ≤ x ∧ x ≤ u := by
  obtain ⟨lo, up, ve, ac, e1, e2, -, -, hjl, hj⟩ := C52_joints robot name solver over graph links joints h
  obtain ⟨-, -, -, -, -, -, htree⟩ := C53_env robot name solver over graph links joints h
  have huniq : ∀ j ∈ graph.joints, ∀ j' ∈ graph.joints, j.name = j'.name → j = j' := fun j hj j' hj' e =>
    List.inj_on_of_nodup_map htree.names_nodup hj hj' e
  refine ⟨getRedundant θ g.limits g.capable, by simp only [TRobot.redundantSolutions, hr, hg, redundantSolutions], fun θ' hθ' => ?_⟩
  obtain ⟨hlen, hsp⟩ := hR θ g.limits g.capable θ' hθ'
  refine ⟨hlen, ?_, ?_⟩
  · obtain ⟨ns, rfl⟩ := exists_shiftTurns robot.jointType θ θ' hθ hlen (fun i x x' hx hx' => by
      rcases hsp i x x' hx hx' with e | ⟨hi, hn, -⟩
      · exact Or.inl e
      · refine Or.inr ⟨?_, hn⟩
        obtain ⟨nm, hnm, j, hjm, hjn, hjt⟩ := hG.capable i hi
        have hik : i < robot.jointType.length := by
          rw [← hjl]; exact (List.getElem?_eq_some_iff.1 hnm).1
        obtain ⟨j', ax, nm', l, u, v, a, hj', hnm', -, -, -, -, -, hjn', -, -, hty⟩ := hj i hik
        rw [hnm] at hnm'
        obtain rfl := huniq j hjm j' hj' (by rw [hjn, hjn']; exact Option.some.inj hnm')
        rcases hty with ⟨h0, -⟩ | ⟨-, h1⟩
        · rw [List.getElem?_eq_getElem hik, h0]
        · rw [hjt] at h1; cases h1)
    exact C19_fwdkin_periodic robot θ ns
  · intro lo' up' e1' e2' hin i x' l u hx' hl hu
    obtain rfl : lo = lo' := Option.some.inj (e1.symm.trans e1')
    obtain rfl : up = up' := Option.some.inj (e2.symm.trans e2')
    have hi : i < θ.length := by rw [← hlen]; exact (List.getElem?_eq_some_iff.1 hx').1
    rcases hsp i θ[i] x' (List.getElem?_eq_getElem hi) hx' with rfl | ⟨-, -, l', u', hlim, h1, h2⟩
    · exact hin i _ l u (List.getElem?_eq_getElem hi) hl hu
    · obtain ⟨j', ax, nm', l'', u'', v, a, hj', hnm', -, hl'', hu'', -, -, hjn', -, hL', -⟩ := hj i (hθ ▸ hi)
      obtain ⟨j, hjm, hjn, L, hL, hgl⟩ := hG.limits i nm' hnm'
      obtain rfl := huniq j hjm j' hj' (by rw [hjn, hjn'])
      rw [hL] at hL'
      rw [hlim] at hgl
      rw [hl] at hl''
      rw [hu] at hu''
      obtain rfl := Option.some.inj hL'
      obtain rfl := Option.some.inj hl''
      obtain rfl := Option.some.inj hu''
      simp only [Option.some.injEq, Prod.mk.injEq] at hgl
      rw [← hgl.1, ← hgl.2]
      exact ⟨h1, h2⟩

/-! ## Instances -/

/-- `exTess` with more than a turn between the limits of its rotary joint -/
def exTurns : Robot ℝ := { exTess with lower := some [-10, 0], upper := some [10, 2] }

theorem exTurns_env : ∃ res, robotToEnv exTurns "left" true none none = .ok res :=
  (C53_default_succeeds exTurns rfl "left" none none).2
    ⟨⟨by simp [exTurns, exTess], by simp [exTurns, exTess], by simp [exTurns, exTess], by simp [exTurns, exTess],
      by simp [exTurns, exTess]⟩, Or.inl rfl⟩

-- the hypotheses of `C101_rewrap` can be met
example : ∃ r env c g, TRobot.new (some exTurns) "left" none none = .ok r ∧ env.graph = r.env ∧
    envCommands exTurns "left" true none none = .ok c ∧ env.group "left" = some g ∧ Spec.GroupOf c.chain env.graph g ∧
    TRobot.new none "left" (some "OPWInvKin") (some env) = .ok r := by
  obtain ⟨⟨env, links, joints⟩, h⟩ := exTurns_env
  have h0 := h
  unfold robotToEnv at h0
  obtain ⟨c, hc, h0⟩ := Except.bind_eq_ok h0
  cases ha : c.apply SGraph.empty with
  | none => rw [ha] at h0; cases h0
  | some e' =>
    rw [ha] at h0
    cases h0
    obtain ⟨k1, k2, -⟩ := C53_group exTurns "left" none none c hc env ha
    obtain ⟨-, -, hw, -⟩ := C53_env exTurns "left" none none env _ _ h
    have hnew : TRobot.new (some exTurns) "left" none none = .ok ⟨env, "left", "world", c.chain.2⟩ := by
      show TRobot.init exTurns "left" none = _
      unfold TRobot.init
      rw [h]
      simp only [Except.bind_ok, hw, k2, orElseGet, Except.pure_eq]
    have hG : Spec.GroupOf c.chain env (⟨"world", [c.chain.2], [], []⟩ : KinGroup ℝ) :=
      ⟨k1.symm, by simp, by intro t ht; rw [List.mem_singleton.1 ht]; exact .root⟩
    exact ⟨_, ⟨env, fun _ => some ⟨"world", [c.chain.2], [], []⟩⟩, c, _, hnew, rfl, hc, rfl, hG,
      C101_rewrap exTurns "left" none _ _ hnew _ rfl c hc _ rfl hG⟩

/-- a function that adds a turn to the first joint, if it may -/
noncomputable def exRedundant : List ℝ → List (ℝ × ℝ) → List Nat → List (List ℝ)
  | x :: xs, (l, u) :: _, capable =>
      if 0 ∈ capable ∧ l ≤ x + 2 * Real.pi ∧ x + 2 * Real.pi ≤ u then [(x + 2 * Real.pi) :: xs] else []
  | _, _, _ => []

theorem exRedundant_spec : Spec.RedundantSpec exRedundant := by
  intro θ limits capable θ' h
  rcases θ with _ | ⟨x, xs⟩
  · simp [exRedundant] at h
  rcases limits with _ | ⟨⟨l, u⟩, ls⟩
  · simp [exRedundant] at h
  by_cases hc : 0 ∈ capable ∧ l ≤ x + 2 * Real.pi ∧ x + 2 * Real.pi ≤ u
  · simp only [exRedundant, if_pos hc, List.mem_singleton] at h
    subst h
    refine ⟨rfl, fun i y y' hy hy' => ?_⟩
    rcases i with _ | i
    · simp only [List.getElem?_cons_zero, Option.some.injEq] at hy hy'
      subst hy hy'
      exact Or.inr ⟨hc.1, ⟨1, by push_cast; ring⟩, l, u, rfl, hc.2.1, hc.2.2⟩
    · simp only [List.getElem?_cons_succ] at hy hy'
      rw [hy] at hy'
      exact Or.inl (Option.some.inj hy').symm
  · simp [exRedundant, if_neg hc] at h

-- the hypotheses of `C101_redundant` can be met, with a solution one turn away
example : ∃ graph links joints, robotToEnv exTurns "left" true none none = .ok (graph, links, joints) ∧
    ∃ g, Spec.GroupJoints graph joints g ∧ exRedundant [0, 1] g.limits g.capable = [[0 + 2 * Real.pi, 1]] := by
  obtain ⟨⟨graph, links, joints⟩, h⟩ := exTurns_env
  obtain ⟨lo, up, ve, ac, e1, e2, -, -, hjl, hj⟩ := C52_joints exTurns "left" none none graph links joints h
  cases e1
  cases e2
  refine ⟨graph, links, joints, h, ⟨"world", ["tip"], [(-10, 10), (0, 2)], [0]⟩, ⟨?_, ?_⟩, ?_⟩
  · intro k nm hnm
    have hk : k < exTurns.jointType.length := by rw [← hjl]; exact (List.getElem?_eq_some_iff.1 hnm).1
    obtain ⟨j, ax, nm', l, u, v, a, hjm, hnm', -, hl, hu, -, -, hjn, -, hL, -⟩ := hj k hk
    rw [hnm] at hnm'
    refine ⟨j, hjm, hjn.trans (Option.some.inj hnm').symm, _, hL, ?_⟩
    have hk2 : k < 2 := hk
    interval_cases k <;> simp_all
  · intro k hk
    obtain rfl := List.mem_singleton.1 hk
    obtain ⟨j, ax, nm', l, u, v, a, hjm, hnm', -, hl, hu, -, -, hjn, -, hL, ht⟩ := hj 0 (by simp [exTurns, exTess])
    refine ⟨nm', hnm', j, hjm, hjn, ?_⟩
    rcases ht with ⟨-, ht⟩ | ⟨h1, -⟩
    · exact ht
    · simp [exTurns, exTess] at h1
  · have h1 := Real.pi_pos
    have h2 := Real.pi_le_four
    simp only [exRedundant]
    rw [if_pos ⟨List.mem_singleton.2 rfl, by linarith, by linarith⟩]
