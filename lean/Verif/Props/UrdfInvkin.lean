import Verif.Lemmas.UrdfZero
import Verif.Props.UrdfWell
import Verif.Props.Robot6
import Verif.Props.Ur

/-!
# C92: from a URDF file to joint values

A robot is loaded from a URDF file and an analytic solver is asked for a pose.  Everything about the robot is read off the file: the axes and
places of the joints at zero (`Spec.zeroJoints`), the limits, and where the tip link is for given joint values (`Spec.urdfAct`).
-/
set_option autoImplicit false

/-- C92: the robot that is loaded has the axes and places of the moving joints of the file when all joints are at zero, and the tool of the robot is
the tip link. -/
theorem C92_geometry (fuel : Nat) (u : Urdf ℝ) (hn : (u.joints.map UJoint.name).Nodup) (root tip : Option String) (r : Robot ℝ)
    (h : urdfLoad fuel u root tip = .ok r) :
    ∃ rt t js, r.rootLink = some rt ∧ r.tipLink = some t ∧ Spec.Chain u rt js t ∧
      r.H = (Spec.zeroJoints id js).map Prod.fst ∧ r.P = Spec.steps 0 ((Spec.zeroJoints id js).map Prod.snd) (Spec.zeroAct js 0) ∧
      r.Tbase = none ∧ r.Tflange = none ∧ r.ptool = some 0 ∧
      ∃ R, r.Rtool = some R ∧ IsRot R ∧ ∀ v, Spec.zeroAct js v = Spec.zeroAct js 0 + R.mulVec v := by
  obtain ⟨L⟩ := urdfLoad_loaded hn h
  obtain ⟨e1, e2, e3, e4, R, e5, e6, e7, e8⟩ := loaded_zero L
  exact ⟨L.rt, L.t, L.js, congrArg Robot.rootLink L.robot_eq, congrArg Robot.tipLink L.robot_eq, L.chain, e1, e2, e3, e4, e6, R, e5, e7, e8⟩

/-- a chain of a file that is an arm with a spherical wrist: axes `h0 … h5` and places `c1 … c6` of its joints at zero -/
structure Spec.UrdfWrist (js : List (UJoint ℝ)) (h0 h1 h2 h3 h4 h5 c1 c2 c3 c4 c5 c6 : V3 ℝ) : Prop where
  revolute : ∀ j ∈ Spec.moving js, j.jointType = "revolute"
  axes : ∀ j ∈ js, ∀ a, j.axis = some a → IsUnit3 a
  joints : Spec.zeroJoints id js = [(h0, c1), (h1, c2), (h2, c3), (h3, c4), (h4, c5), (h5, c6)]
  unit0 : IsUnit3 h0
  unit3 : IsUnit3 h3
  unit4 : IsUnit3 h4
  unit5 : IsUnit3 h5
  par1 : h1 = V3.ey ∨ h1 = -V3.ey
  par2 : h2 = V3.ey ∨ h2 = -V3.ey
  perp34 : h3.dot h4 = 0
  perp45 : h4.dot h5 = 0
  first : ∃ c : ℝ, c1 = c • h0
  level : V3.ey.dot c1 = 0

/-- a chain of a file that is a UR arm -/
structure Spec.UrdfUr (js : List (UJoint ℝ)) (k c1 c2 c3 c4 c5 c6 : V3 ℝ) : Prop where
  revolute : ∀ j ∈ Spec.moving js, j.jointType = "revolute"
  axes : ∀ j ∈ js, ∀ a, j.axis = some a → IsUnit3 a
  joints : Spec.zeroJoints id js = [(V3.ez, c1), (k, c2), (k, c3), (k, c4), (-V3.ez, c5), (k, c6)]
  par : k = V3.ey ∨ k = -V3.ey
  first : ∃ c : ℝ, c1 = c • V3.ez
  wrist : ∃ c : ℝ, c6 - c5 = c • k

/-- joint values strictly inside the limits of the file -/
def Spec.insideFile (js : List (UJoint ℝ)) (skip : Option ℕ) (q : List ℝ) : Prop :=
  ∀ lo up, List.Forall₂ (Spec.givesLimit ULimit.lower) (Spec.moving js) lo → List.Forall₂ (Spec.givesLimit ULimit.upper) (Spec.moving js) up →
    ∀ i x l u, skip ≠ some i → q[i]? = some x → lo[i]? = some l → up[i]? = some u → l < x ∧ x < u

theorem zeroJoints_length (f : V3 ℝ → V3 ℝ) (js : List (UJoint ℝ)) : (Spec.zeroJoints f js).length = (Spec.moving js).length := by
  induction js generalizing f with
  | nil => rfl
  | cons j js ih =>
    by_cases h : j.jointType = "fixed"
    · simp [Spec.zeroJoints, Spec.moving, h, ih]
    · simp [Spec.zeroJoints, Spec.moving, h, ih]

theorem revolute_types {js : List (UJoint ℝ)} (h : ∀ j ∈ Spec.moving js, j.jointType = "revolute") (l : (Spec.moving js).length = 6) :
    (Spec.moving js).map typeNo = [0, 0, 0, 0, 0, 0] := by
  have e : (Spec.moving js).map typeNo = List.replicate 6 0 := by
    rw [List.eq_replicate_iff, List.length_map, l]
    refine ⟨rfl, fun b hb => ?_⟩
    obtain ⟨j, hj, rfl⟩ := List.mem_map.1 hb
    simp [typeNo, h j hj]
  exact e

theorem loaded_wrist {u : Urdf ℝ} {root tip : Option String} {fuel : Nat} {r : Robot ℝ} (L : Loaded u root tip fuel r)
    {h0 h1 h2 h3 h4 h5 c1 c2 c3 c4 c5 c6 : V3 ℝ} (hw : Spec.UrdfWrist L.js h0 h1 h2 h3 h4 h5 c1 c2 c3 c4 c5 c6) :
    Spec.WristArm r h0 h1 h2 h3 h4 h5 c1 (c2 - c1) (c3 - c2) (c4 - c3) (c5 - c4) (c6 - c5) (Spec.zeroAct L.js 0 - c6) := by
  obtain ⟨e1, e2, e3, e4, R, e5, e6, e7, e8⟩ := loaded_zero L
  have l6 := zeroJoints_length id L.js
  rw [hw.joints] at e1 e2 l6
  constructor
  · rw [loaded_types L]; exact revolute_types hw.revolute l6.symm
  · rw [e1]; rfl
  · rw [e2]; simp [Spec.steps]
  · exact hw.unit0
  · exact hw.unit3
  · exact hw.unit4
  · exact hw.unit5
  · exact hw.par1
  · exact hw.par2
  · exact hw.perp34
  · exact hw.perp45
  · exact hw.first
  · exact hw.level
  · rw [e3]; simp
  · rw [e4]; simp
  · rw [e5]; rintro R' ⟨⟩; exact e7

theorem loaded_ur {u : Urdf ℝ} {root tip : Option String} {fuel : Nat} {r : Robot ℝ} (L : Loaded u root tip fuel r)
    {k c1 c2 c3 c4 c5 c6 : V3 ℝ} (hw : Spec.UrdfUr L.js k c1 c2 c3 c4 c5 c6) :
    Spec.UrChain r k c1 (c2 - c1) (c3 - c2) (c4 - c3) (c5 - c4) (c6 - c5) (Spec.zeroAct L.js 0 - c6) := by
  obtain ⟨e1, e2, e3, e4, R, e5, e6, e7, e8⟩ := loaded_zero L
  have l6 := zeroJoints_length id L.js
  rw [hw.joints] at e1 e2 l6
  constructor
  · rw [loaded_types L]; exact revolute_types hw.revolute l6.symm
  · rw [e1]; rfl
  · rw [e2]; simp [Spec.steps]
  · exact hw.par
  · exact hw.first
  · exact hw.wrist
  · rw [e3]; simp
  · rw [e4]; simp
  · rw [e5]; rintro R' ⟨⟩; exact e7

theorem loaded_inside {u : Urdf ℝ} {root tip : Option String} {fuel : Nat} {r : Robot ℝ} (L : Loaded u root tip fuel r) (skip : Option ℕ)
    (q : List ℝ) (h : ∀ j t, skip ≠ some j → (q.map XReal.fin)[j]? = some t → Spec.inLimits r.up false j t) : Spec.insideFile L.js skip q := by
  intro lo up hlo hup i x l u' hi hx hl hu
  obtain ⟨e1, e2⟩ := loaded_limits L lo up hlo hup
  have := h i (.fin x) hi (by simp [hx]) rfl (lo.map .fin) (up.map .fin) (by simp [Robot.up, e1]) (by simp [Robot.up, e2]) (.fin l) (.fin u')
    (by simp [hl]) (by simp [hu])
  simpa using this

theorem act_near {T T' : Transform ℝ} {e d : ℝ} (hR : ∀ v : V3 ℝ, (T'.R.mulVec v - T.R.mulVec v).norm ≤ e * v.norm)
    (hp : (T'.p - T.p).norm ≤ d) (v : V3 ℝ) : (T'.act v - T.act v).norm ≤ d + e * v.norm := by
  have e1 : T'.act v - T.act v = (T'.p - T.p) + (T'.R.mulVec v - T.R.mulVec v) := by
    unfold Transform.act
    ext <;> simp <;> ring
  rw [e1]
  exact (V3.norm_add_le _ _).trans (add_le_add hp (hR v))

/-- C92: an arm with a spherical wrist is loaded from a file, and `robot6_sphericalwrist_invkin` is asked to put the tip link at `T`.  Every
joint vector in the answer consists of six numbers strictly inside the limits of the file.  Unless the wrist is singular, the chain of the file
with these joint values takes every point of the tip link to where `T` says, up to the coincidence tolerance of the solver. -/
theorem C92_wrist (fuel : Nat) (u : Urdf ℝ) (hn : (u.joints.map UJoint.name).Nodup) (root tip : Option String) (r : Robot ℝ)
    (h : urdfLoad fuel u root tip = .ok r) :
    ∃ rt t js, r.rootLink = some rt ∧ r.tipLink = some t ∧ Spec.Chain u rt js t ∧
      ∀ h0 h1 h2 h3 h4 h5 c1 c2 c3 c4 c5 c6 : V3 ℝ, Spec.UrdfWrist js h0 h1 h2 h3 h4 h5 c1 c2 c3 c4 c5 c6 →
      ∀ T : Transform ℝ, IsRot T.R → ∀ (last : Option (List ℝ)) (sols : List (List XReal)),
        (robot6_sphericalwrist_invkin r.up T.up (last.map (·.map .fin))).2 = .ok sols → ∀ s ∈ sols,
        ∃ q1 q2 q3 q4 q5 q6 : ℝ, s = [.fin q1, .fin q2, .fin q3, .fin q4, .fin q5, .fin q6] ∧
          Spec.insideFile js none [q1, q2, q3, q4, q5, q6] ∧
          (npEps ≤ Spec.wristSq r T h0 h1 h2 h3 h5 q1 q2 q3 → ∀ v : V3 ℝ,
            (Spec.urdfAct js [q1, q2, q3, q4, q5, q6] v - T.act v).norm ≤
              (1 + (c5 - c3).norm) * snap + 10 * snap * (Spec.zeroAct js 0 - c5).norm + 10 * snap * v.norm) := by
  obtain ⟨L⟩ := urdfLoad_loaded hn h
  refine ⟨L.rt, L.t, L.js, congrArg Robot.rootLink L.robot_eq, congrArg Robot.tipLink L.robot_eq, L.chain, ?_⟩
  intro h0 h1 h2 h3 h4 h5 c1 c2 c3 c4 c5 c6 hw T hT last sols hsols s hs
  have hl := C31_robot6_limits _ _ _ _ hsols s hs
  obtain ⟨q1, q2, q3, q4, q5, q6, rfl, hq⟩ := C29_robot6_sound r _ _ _ _ _ _ _ _ _ _ _ _ _ (loaded_wrist L hw) T hT last sols hsols s hs
  refine ⟨q1, q2, q3, q4, q5, q6, rfl, loaded_inside L none _ fun j t _ ht => hl.2 j t ht, fun hws v => ?_⟩
  obtain ⟨T', f1, f2, f3⟩ := hq hws
  have l6 := zeroJoints_length id L.js
  rw [hw.joints] at l6
  obtain ⟨T'', g1, -, g2, -⟩ := loaded_fwdkin L hw.axes [q1, q2, q3, q4, q5, q6] l6
  rw [f1] at g1
  cases g1
  obtain ⟨e1, e2, e3, e4, R, e5, e6, e7, e8⟩ := loaded_zero L
  have ef : (auxF r).p = 0 := by unfold auxF; rw [e4]; rfl
  have ex : (auxX r).p = 0 := by unfold auxX; rw [e5, e6]
  rw [← g2]
  refine (act_near f2 f3 v).trans (le_of_eq ?_)
  rw [ef, ex, show c4 - c3 + (c5 - c4) = c5 - c3 by ext <;> simp, show Spec.zeroAct L.js 0 - c6 + (c6 - c5) = Spec.zeroAct L.js 0 - c5 by ext <;> simp, show (0 : V3 ℝ).norm = 0 by simp [V3.norm]]
  ring

/-- C92: the same for UR arms and `ur_invkin`; only the fifth joint may be outside of its limits (see C36). -/
theorem C92_ur (fuel : Nat) (u : Urdf ℝ) (hn : (u.joints.map UJoint.name).Nodup) (root tip : Option String) (r : Robot ℝ)
    (h : urdfLoad fuel u root tip = .ok r) :
    ∃ rt t js, r.rootLink = some rt ∧ r.tipLink = some t ∧ Spec.Chain u rt js t ∧
      ∀ k c1 c2 c3 c4 c5 c6 : V3 ℝ, Spec.UrdfUr js k c1 c2 c3 c4 c5 c6 →
      ∀ T : Transform ℝ, IsRot T.R → ∀ (last : Option (List ℝ)) (sols : List (List XReal)),
        ur_invkin r.up T.up (last.map (·.map .fin)) = .ok sols → ∀ s ∈ sols,
        ∃ q1 q2 q3 q4 q5 q6 : ℝ, s = [.fin q1, .fin q2, .fin q3, .fin q4, .fin q5, .fin q6] ∧
          Spec.insideFile js (some 4) [q1, q2, q3, q4, q5, q6] ∧
          (npEps ≤ Spec.urWristSq r T q1 → ∀ v : V3 ℝ,
            (Spec.urdfAct js [q1, q2, q3, q4, q5, q6] v - T.act v).norm ≤
              (1 + (c4 - c3).norm) * snap + 10 * snap * (Spec.zeroAct js 0 - c5).norm + 10 * snap * v.norm) := by
  obtain ⟨L⟩ := urdfLoad_loaded hn h
  refine ⟨L.rt, L.t, L.js, congrArg Robot.rootLink L.robot_eq, congrArg Robot.tipLink L.robot_eq, L.chain, ?_⟩
  intro k c1 c2 c3 c4 c5 c6 hw T hT last sols hsols s hs
  have hl := C36_ur_limits_partial _ _ _ _ hsols s hs
  obtain ⟨q1, q2, q3, q4, q5, q6, rfl, hq⟩ := C35_ur_sound (loaded_ur L hw) T hT last sols hsols s hs
  refine ⟨q1, q2, q3, q4, q5, q6, rfl, loaded_inside L (some 4) _ fun j t hj ht => hl.2 j t (fun e => hj (by rw [e])) ht, fun hws v => ?_⟩
  obtain ⟨T', f1, f2, f3⟩ := hq hws
  have l6 := zeroJoints_length id L.js
  rw [hw.joints] at l6
  obtain ⟨T'', g1, -, g2, -⟩ := loaded_fwdkin L hw.axes [q1, q2, q3, q4, q5, q6] l6
  rw [f1] at g1
  cases g1
  obtain ⟨e1, e2, e3, e4, R, e5, e6, e7, e8⟩ := loaded_zero L
  have ef : (auxF r).p = 0 := by unfold auxF; rw [e4]; rfl
  have ex : (auxX r).p = 0 := by unfold auxX; rw [e5, e6]
  rw [← g2]
  refine (act_near f2 f3 v).trans (le_of_eq ?_)
  rw [ef, ex, show Spec.zeroAct L.js 0 - c6 + (c6 - c5) = Spec.zeroAct L.js 0 - c5 by ext <;> simp, show (0 : V3 ℝ).norm = 0 by simp [V3.norm]]
  ring

namespace UrdfDoc

/-- a revolute joint -/
def rev (n p c : String) (x a : V3 ℝ) : UJoint ℝ :=
  { name := n, jointType := "revolute", parent := p, child := c, origin := some ⟨some x, none⟩, axis := some a,
    limit := some { lower := some (-3), upper := some 3, velocity := some 1, effort := some 10 } }

/-- the fixed joint to the tip, which is turned -/
noncomputable def tool0 : UJoint ℝ :=
  { name := "tool", jointType := "fixed", parent := "l6", child := "tip", origin := some ⟨some ⟨0, 1/10, 0⟩, some ⟨-1, 0, 1⟩⟩ }

/-- a file with a UR arm and a turned tip -/
noncomputable def ur : Urdf ℝ :=
  { links := [⟨"base", none⟩, ⟨"l1", none⟩, ⟨"l2", none⟩, ⟨"l3", none⟩, ⟨"l4", none⟩, ⟨"l5", none⟩, ⟨"l6", none⟩, ⟨"tip", none⟩]
    joints := [rev "j1" "base" "l1" ⟨0, 0, 9/100⟩ V3.ez, rev "j2" "l1" "l2" ⟨0, 14/100, 0⟩ V3.ey, rev "j3" "l2" "l3" ⟨0, -12/100, 42/100⟩ V3.ey,
      rev "j4" "l3" "l4" ⟨0, 0, 39/100⟩ V3.ey, rev "j5" "l4" "l5" ⟨0, 9/100, 0⟩ (-V3.ez), rev "j6" "l5" "l6" ⟨0, 0, 0⟩ V3.ey, tool0] }

theorem ur_forest : Spec.Forest ur := by
  refine ⟨by simp [ur, rev, tool0], by simp [ur, rev, tool0], by simp [ur, rev, tool0], fun l => if l = "base" then 0 else if l = "l1" then 1 else if l = "l2" then 2
    else if l = "l3" then 3 else if l = "l4" then 4 else if l = "l5" then 5 else if l = "l6" then 6 else 7, by simp [ur, rev, tool0]⟩

theorem ur_chain : Spec.Chain ur "base" ur.joints "tip" := by
  refine ⟨?_, by simp [ur, rev, tool0]⟩
  refine .cons (rev "j1" "base" "l1" _ _) _ _ (by simp [ur]) ?_
  refine .cons (rev "j2" "l1" "l2" _ _) _ _ (by simp [ur]) ?_
  refine .cons (rev "j3" "l2" "l3" _ _) _ _ (by simp [ur]) ?_
  refine .cons (rev "j4" "l3" "l4" _ _) _ _ (by simp [ur]) ?_
  refine .cons (rev "j5" "l4" "l5" _ _) _ _ (by simp [ur]) ?_
  refine .cons (rev "j6" "l5" "l6" _ _) _ _ (by simp [ur]) ?_
  exact .cons tool0 _ _ (by simp [ur]) (.nil _)

theorem ur_geometry : Spec.UrdfUr ur.joints V3.ey ⟨0, 0, 9/100⟩ ⟨0, 14/100, 9/100⟩ ⟨0, 2/100, 51/100⟩ ⟨0, 2/100, 90/100⟩ ⟨0, 11/100, 90/100⟩
    ⟨0, 11/100, 90/100⟩ := by
  refine ⟨?_, ?_, ?_, .inl rfl, ⟨9/100, ?_⟩, ⟨0, ?_⟩⟩
  · intro j hj
    simp [Spec.moving, ur, rev, tool0] at hj
    rcases hj with rfl | rfl | rfl | rfl | rfl | rfl <;> rfl
  · intro j hj a ha
    simp only [ur, List.mem_cons, List.not_mem_nil, or_false] at hj
    rcases hj with rfl | rfl | rfl | rfl | rfl | rfl | rfl <;> simp [rev, tool0] at ha <;> subst ha <;> simp [IsUnit3, V3.ez, V3.ey]
  · simp only [ur, Spec.zeroJoints, rev, tool0, Spec.originAct, Spec.rpyAct, id, Option.getD_some]
    simp only [String.reduceEq, if_false, if_true, List.cons.injEq, Prod.mk.injEq, and_true]
    refine ⟨⟨?_, ?_⟩, ⟨?_, ?_⟩, ⟨?_, ?_⟩, ⟨?_, ?_⟩, ⟨?_, ?_⟩, ?_, ?_⟩ <;> ext <;> simp [V3.ez, V3.ey] <;> norm_num
  · ext <;> simp [V3.ez]
  · ext <;> simp [V3.ey]

theorem ur_loads : ∃ N, ∀ fuel ≥ N, ∃ r, urdfLoad fuel ur none (some "tip") = .ok r := by
  obtain ⟨N, h⟩ := C91_outcome ur ur_forest none (some "tip")
  refine ⟨N, fun fuel hf => h fuel hf none ?_⟩
  refine .loads "base" "tip" ur.joints (.inr ⟨rfl, fun l => ?_⟩) (.inl rfl) ur_chain (by simp [ur]) ?_ ?_
  · simp only [Spec.IsTop, ur, rev, tool0, List.map_cons, List.map_nil, List.mem_cons, List.not_mem_nil, or_false, forall_eq_or_imp, forall_eq]
    constructor
    · rintro ⟨rfl | rfl | rfl | rfl | rfl | rfl | rfl | rfl, h⟩ <;> simp at h ⊢
    · rintro rfl
      simp
  · intro j hj
    simp only [ur, List.mem_cons, List.not_mem_nil, or_false] at hj
    rcases hj with rfl | rfl | rfl | rfl | rfl | rfl | rfl <;> simp [Spec.Takes, rev, tool0]
  · intro j hj a ha
    have := ur_geometry.axes j (List.mem_of_mem_filter hj) a ha
    unfold IsUnit3 at this
    rw [this]
    norm_num

end UrdfDoc

/-- a file that meets the hypotheses of `C92_ur`: it loads, and its chain is a UR arm -/
example : (∃ fuel r, urdfLoad fuel UrdfDoc.ur none (some "tip") = .ok r) ∧ (UrdfDoc.ur.joints.map UJoint.name).Nodup ∧
    Spec.Chain UrdfDoc.ur "base" UrdfDoc.ur.joints "tip" ∧ ∃ k c1 c2 c3 c4 c5 c6, Spec.UrdfUr UrdfDoc.ur.joints k c1 c2 c3 c4 c5 c6 := by
  obtain ⟨N, h⟩ := UrdfDoc.ur_loads
  obtain ⟨r, hr⟩ := h N le_rfl
  exact ⟨⟨N, r, hr⟩, UrdfDoc.ur_forest.names, UrdfDoc.ur_chain, _, _, _, _, _, _, _, UrdfDoc.ur_geometry⟩
