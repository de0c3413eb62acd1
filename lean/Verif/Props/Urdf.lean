import Verif.Lemmas.Urdf
import Verif.Props.Kinematics

/-!
# Properties C48-C51: the URDF loader
-/
set_option autoImplicit false

/-! ## C48 -/

namespace Spec

/-- turn about the x axis -/
noncomputable def turnX (a : ℝ) (v : V3 ℝ) : V3 ℝ := ⟨v.x, Real.cos a * v.y - Real.sin a * v.z, Real.sin a * v.y + Real.cos a * v.z⟩
/-- turn about the y axis -/
noncomputable def turnY (a : ℝ) (v : V3 ℝ) : V3 ℝ := ⟨Real.cos a * v.x + Real.sin a * v.z, v.y, -Real.sin a * v.x + Real.cos a * v.z⟩
/-- turn about the z axis -/
noncomputable def turnZ (a : ℝ) (v : V3 ℝ) : V3 ℝ := ⟨Real.cos a * v.x - Real.sin a * v.y, Real.sin a * v.x + Real.cos a * v.y, v.z⟩

/-- roll, pitch, yaw about the fixed axes -/
noncomputable def rpyAct (rpy : Option (V3 ℝ)) (v : V3 ℝ) : V3 ℝ :=
  match rpy with
  | none => v
  | some a => turnZ a.z (turnY a.y (turnX a.x v))

/-- the `origin` element of a joint: from the joint frame to the parent link frame -/
noncomputable def originAct (o : Option (UOrigin ℝ)) (v : V3 ℝ) : V3 ℝ :=
  match o with
  | none => v
  | some o => (match o.xyz with | none => 0 | some x => x) + rpyAct o.rpy v

/-- the motion of a joint with value `θ`: from the child link frame to the joint frame -/
noncomputable def motionAct (j : UJoint ℝ) (θ : ℝ) (v : V3 ℝ) : V3 ℝ :=
  match j.axis with
  | none => v
  | some a => if j.jointType = "revolute" then Real.cos θ • v + Real.sin θ • a.cross v + ((1 - Real.cos θ) * a.dot v) • a else v + θ • a

/-- a point of the tip frame seen from the root frame: the URDF chain with the given values of its moving joints -/
noncomputable def urdfAct : List (UJoint ℝ) → List ℝ → V3 ℝ → V3 ℝ
  | [], _, v => v
  | j :: js, θs, v =>
    if j.jointType = "fixed" then originAct j.origin (urdfAct js θs v)
    else match θs with
      | [] => v
      | θ :: θs => originAct j.origin (motionAct j θ (urdfAct js θs v))

end Spec

theorem urdfRot_mulVec (a v : V3 ℝ) : (urdfRot a).mulVec v = Spec.turnZ a.z (Spec.turnY a.y (Spec.turnX a.x v)) := by
  have hx : IsUnit3 V3.ex := by simp [IsUnit3, V3.ex]
  have hy : IsUnit3 V3.ey := by simp [IsUnit3, V3.ey]
  have hz : IsUnit3 V3.ez := by simp [IsUnit3, V3.ez]
  rw [urdfRot, ← M3.mulVec_mulVec, ← M3.mulVec_mulVec, rot_mulVec _ hx, rot_mulVec _ hy, rot_mulVec _ hz]
  ext <;> simp [V3.ex, V3.ey, V3.ez, V3.dot, Spec.turnX, Spec.turnY, Spec.turnZ] <;> ring

theorem urdfRot_isRot (a : V3 ℝ) : IsRot (urdfRot a) := by
  have hx : IsUnit3 V3.ex := by simp [IsUnit3, V3.ex]
  have hy : IsUnit3 V3.ey := by simp [IsUnit3, V3.ey]
  have hz : IsUnit3 V3.ez := by simp [IsUnit3, V3.ez]
  exact ((rot_isRot _ hz _).mul (rot_isRot _ hy _)).mul (rot_isRot _ hx _)

theorem applyOrigin_act (o : Option (UOrigin ℝ)) (p : V3 ℝ) (R : M3 ℝ) (v : V3 ℝ) :
    (applyOrigin o p R).1 + (applyOrigin o p R).2.mulVec v = p + R.mulVec (Spec.originAct o v) := by
  rcases o with _ | ⟨_ | x, _ | a⟩
  · rfl
  · simp [applyOrigin, Spec.originAct, Spec.rpyAct]
  · simp [applyOrigin, Spec.originAct, Spec.rpyAct, ← M3.mulVec_mulVec, urdfRot_mulVec]
  · simp [applyOrigin, Spec.originAct, Spec.rpyAct, M3.mulVec_add, add_assoc]
  · simp [applyOrigin, Spec.originAct, Spec.rpyAct, M3.mulVec_add, add_assoc, ← M3.mulVec_mulVec, urdfRot_mulVec]

theorem applyOrigin_rot (o : Option (UOrigin ℝ)) (p : V3 ℝ) (R : M3 ℝ) (hR : IsRot R) : IsRot (applyOrigin o p R).2 := by
  rcases o with _ | ⟨_ | x, _ | a⟩
  · exact hR
  · exact hR
  · exact hR.mul (urdfRot_isRot a)
  · exact hR
  · exact hR.mul (urdfRot_isRot a)

theorem IsRot.mulVec_dot {R : M3 ℝ} (hR : IsRot R) (a b : V3 ℝ) : (R.mulVec a).dot (R.mulVec b) = a.dot b := by
  have e := hR.orth
  simp [M3.ext_iff] at e
  obtain ⟨d1, d2, d3, d4, d5, d6, d7, d8, d9⟩ := e
  simp [V3.dot]; grind

/-- joint motions commute with rotating everything -/
theorem jointMove_rot {R : M3 ℝ} (hR : IsRot R) (j : UJoint ℝ) (a : V3 ℝ) (ha : j.axis = some a) (θ : ℝ) (v : V3 ℝ) :
    Spec.jointMove (typeNo j) (R.mulVec a) θ (R.mulVec v) = R.mulVec (Spec.motionAct j θ v) := by
  unfold Spec.jointMove Spec.motionAct typeNo
  simp only [ha]
  by_cases hj : j.jointType = "revolute"
  · rw [if_pos (by simp [hj]), if_pos hj, hR.mulVec_dot, ← hR.mulVec_cross]
    ext <;> simp <;> ring
  · rw [if_neg (by simp [hj]), if_neg hj]
    ext <;> simp <;> ring

theorem urdfLoop_act (u : Urdf ℝ) (js : List (UJoint ℝ)) (s s' : UState ℝ) (h : urdfLoop u js s = .ok s') (hR : IsRot s.R) :
    IsRot s'.R ∧ ∃ (H : List (V3 ℝ)) (q : V3 ℝ) (Ps : List (V3 ℝ)), s'.H = s.H ++ H ∧ s'.P ++ [s'.p] = s.P ++ q :: Ps ∧
      ∀ θs : List ℝ, θs.length = (Spec.moving js).length → ∀ v,
        q + Spec.chain ((Spec.moving js).map typeNo) H Ps θs (s'.R.mulVec v) = s.p + s.R.mulVec (Spec.urdfAct js θs v) := by
  induction js generalizing s with
  | nil =>
    cases h
    exact ⟨hR, [], _, [], by simp, rfl, fun θs _ v => by simp [Spec.moving, Spec.chain, Spec.urdfAct]⟩
  | cons j js ih =>
    obtain ⟨s1, h1, h⟩ := Except.bind_eq_ok h
    obtain ⟨m, hm, ⟨hf, rfl⟩ | ⟨hf, a, ha, rfl⟩⟩ := urdfStep_ok h1
    · obtain ⟨hR', H, q, Ps, e1, e2, e3⟩ := ih _ h (applyOrigin_rot _ _ _ hR)
      have e : Spec.moving (j :: js) = Spec.moving js := by simp [Spec.moving, hf]
      refine ⟨hR', H, q, Ps, e1, e2, fun θs lθ v => ?_⟩
      rw [e] at lθ ⊢
      rw [e3 θs lθ v, Spec.urdfAct.eq_def (j :: js)]
      simp only [if_pos hf]
      exact applyOrigin_act _ _ _ _
    · have hne : j.jointType ≠ "fixed" := by rcases hf with hf | hf <;> rw [hf] <;> decide
      have e : Spec.moving (j :: js) = j :: Spec.moving js := by simp [Spec.moving, hne]
      have hR1 := applyOrigin_rot j.origin s.p s.R hR
      obtain ⟨hR', H, q, Ps, e1, e2, e3⟩ := ih _ h hR1
      refine ⟨hR', (applyOrigin j.origin s.p s.R).2.mulVec a :: H, (applyOrigin j.origin s.p s.R).1, q :: Ps, by simpa using e1,
        by simpa using e2, fun θs lθ v => ?_⟩
      rw [e] at lθ ⊢
      rcases θs with _ | ⟨θ, θs⟩
      · simp at lθ
      · have e4 := e3 θs (by simpa using lθ) v
        rw [Spec.urdfAct.eq_def, List.map_cons, Spec.chain, e4]
        simp only [if_neg hne]
        rw [zero_add, jointMove_rot hR1 j a ha]
        exact applyOrigin_act _ _ _ _

theorem IsRot.not_close_zero {R : M3 ℝ} (hR : IsRot R) :
    Transform.allIsclose (0 : M3 ℝ).toList R.toList (lit (1/100000)) (lit (1/100000)) = false := by
  rw [Bool.eq_false_iff]
  intro h
  have small : ∀ x : ℝ, isclose 0 x (lit (1/100000)) (lit (1/100000)) → x * x < 1/9 := by
    intro x hx
    have e : ((1/100000 : ℚ) : ℝ) = 1/100000 := by norm_num
    have hx' : |x| ≤ 1/100000 + 1/100000 * |x| := by
      simp only [isclose, lit_real, abs_real, feq_real, e] at hx
      rcases hx with rfl | hx
      · simp
      · simpa using hx
    have h1 : |x| < 1/9 := by linarith [abs_nonneg x]
    have := abs_mul_abs_self x
    nlinarith [abs_nonneg x]
  simp only [Transform.allIsclose, M3.toList, List.zip_cons_cons, List.zip_nil_right, List.all_cons, List.all_nil, Bool.and_true, Bool.and_eq_true,
    decide_eq_true_eq] at h
  obtain ⟨h0, -, -, h1, -, -, h2, -⟩ := h
  have e := congrArg M3.a00 hR.orth
  simp at e
  have := small _ h0
  have := small _ h1
  have := small _ h2
  linarith

theorem loaded_fwdkin {u : Urdf ℝ} {root tip : Option String} {fuel : Nat} {r : Robot ℝ} (L : Loaded u root tip fuel r)
    (hu : ∀ j ∈ L.js, ∀ a, j.axis = some a → IsUnit3 a) (θs : List ℝ) (lθ : θs.length = (Spec.moving L.js).length) :
    ∃ T, fwdkin r θs true = .ok T ∧ T.IsRigid ∧ (∀ v, T.act v = Spec.urdfAct L.js θs v) ∧ ∀ T', fwdkin r θs = .ok T' → T' = T := by
  obtain ⟨rt, t, tips, js, last, link, s, _, _, _, chain, _, loop, _, robot_eq, _⟩ := L
  obtain ⟨hR', H, q, Ps, e1, e2, e3⟩ := urdfLoop_act u js _ _ loop IsRot.one
  have A := urdfLoop_adds js _ _ loop
  have hH : s.H = H := by simpa using e1
  have hP : s.P ++ [s.p] = q :: Ps := by simpa using e2
  have hty : s.ty = (Spec.moving js).map typeNo := by simpa using A.ty
  have lH : s.H.length = (Spec.moving js).length := by simpa using A.lH
  have lP : s.P.length = (Spec.moving js).length := by simpa using A.lP
  have htool : urdfTool s.R = (some s.R, some 0) := by unfold urdfTool; rw [hR'.not_close_zero]; rfl
  -- axes stay unit
  have unitH : ∀ (js : List (UJoint ℝ)) (s s' : UState ℝ), urdfLoop u js s = .ok s' → IsRot s.R → (∀ h ∈ s.H, IsUnit3 h) →
      (∀ j ∈ js, ∀ a, j.axis = some a → IsUnit3 a) → ∀ h ∈ s'.H, IsUnit3 h := by
    intro js
    induction js with
    | nil => intro s s' h _ h1 _; cases h; exact h1
    | cons j js ih =>
      intro s s' h hR h1 h2
      obtain ⟨s1, hs1, h⟩ := Except.bind_eq_ok h
      obtain ⟨m, hm, ⟨hf, rfl⟩ | ⟨hf, a, ha, rfl⟩⟩ := urdfStep_ok hs1
      · exact ih _ _ h (applyOrigin_rot _ _ _ hR) h1 fun k hk => h2 k (by simp [hk])
      · refine ih _ _ h (applyOrigin_rot _ _ _ hR) ?_ fun k hk => h2 k (by simp [hk])
        intro x hx
        rcases List.mem_append.1 hx with hx | hx
        · exact h1 x hx
        · rw [List.mem_singleton] at hx; subst hx
          have ha' := h2 j (by simp) a ha
          have := (applyOrigin_rot j.origin s.p s.R hR).mulVec_dot a a
          unfold IsUnit3 at ha' ⊢
          simp only [V3.dot] at this
          rw [this]; exact ha'
  have wf : r.WF := by
    constructor
    · rw [robot_eq]; simp [lP, lH]
    · rw [robot_eq]; simp [hty, lH]
    · rw [robot_eq]
      intro t ht
      simp only [hty, List.mem_map] at ht
      obtain ⟨j, -, rfl⟩ := ht
      unfold typeNo; split <;> omega
    · rw [robot_eq]
      exact unitH js _ _ loop IsRot.one (by simp) hu
    · rw [robot_eq]; simp
    · rw [robot_eq]; simp
    · rw [robot_eq, htool]; simp only [Option.some.injEq]; rintro R rfl; exact hR'
    · rw [robot_eq, htool]; simp
  obtain ⟨T, f1, f2, f3⟩ := C17_fwdkin_chain r wf θs (by rw [robot_eq]; simp [lH, lθ]) q Ps (by rw [robot_eq]; exact hP)
  refine ⟨T, f1, f2, fun v => ?_, fun T' hT' => ?_⟩
  · rw [f3]
    have ex : auxX r = ⟨s.R, 0, none, none⟩ := by unfold auxX; rw [robot_eq, htool]
    have eb : auxB r = identityTransform := by unfold auxB; rw [robot_eq]; rfl
    have ef : auxF r = identityTransform := by unfold auxF; rw [robot_eq]; rfl
    have := e3 θs lθ v
    rw [ex, eb, ef]
    simp only [Transform.act, identityTransform, M3.one_mulVec, zero_add] at this ⊢
    rw [show r.jointType = (Spec.moving js).map typeNo by rw [robot_eq]; exact hty, show r.H = H by rw [robot_eq]; exact hH]
    exact this
  · unfold fwdkin at hT' f1
    obtain ⟨_, _, hT'⟩ := Except.bind_eq_ok hT'
    obtain ⟨_, _, f1⟩ := Except.bind_eq_ok f1
    rw [f1] at hT'; cases hT'; rfl

/-- C48: for every URDF whose joint names are distinct, forward kinematics of the loaded robot is the composition of the joint origins and joint
motions of the URDF along the chain from the root link to the tip link, whatever fixed joints are in between.  The axes of the moving joints are unit vectors. -/
theorem C48_urdf_fwdkin (fuel : Nat) (u : Urdf ℝ) (hn : (u.joints.map UJoint.name).Nodup) (root tip : Option String) (r : Robot ℝ)
    (h : urdfLoad fuel u root tip = .ok r) :
    ∃ rt t js, r.rootLink = some rt ∧ r.tipLink = some t ∧ Spec.Chain u rt js t ∧
      ((∀ j ∈ js, ∀ a, j.axis = some a → IsUnit3 a) → ∀ θs : List ℝ, θs.length = (Spec.moving js).length →
        ∃ T, fwdkin r θs true = .ok T ∧ T.IsRigid ∧ (∀ v, T.act v = Spec.urdfAct js θs v) ∧
          ∀ T', fwdkin r θs = .ok T' → T' = T) := by
  obtain ⟨L⟩ := urdfLoad_loaded hn h
  exact ⟨L.rt, L.t, L.js, congrArg Robot.rootLink L.robot_eq, congrArg Robot.tipLink L.robot_eq, L.chain, loaded_fwdkin L⟩

/-! ## C49 -/

section
variable {α : Type} [Add α] [Sub α] [Mul α] [Div α] [Neg α] [Zero α] [One α] [LT α] [LE α]
  [DecidableLT α] [DecidableLE α] [Elem α]

/-- the joint has a limit element giving the value `x` for the given quantity -/
def Spec.givesLimit (f : ULimit α → Option α) (j : UJoint α) (x : α) : Prop := ∃ l, j.limit = some l ∧ f l = some x

omit [Add α] [Sub α] [Mul α] [Div α] [Neg α] [Zero α] [One α] [LT α] [LE α] [DecidableLT α] [DecidableLE α] [Elem α] in
theorem limit_bind (f : ULimit α → Option α) (j : UJoint α) (x : α) : j.limit.bind f = some x ↔ Spec.givesLimit f j x := by
  unfold Spec.givesLimit
  rcases j.limit with _ | l <;> simp

omit [Add α] [Sub α] [Mul α] [Div α] [Neg α] [Zero α] [One α] [LT α] [LE α] [DecidableLT α] [DecidableLE α] [Elem α] in
theorem noneIn_limits (f : ULimit α → Option α) (js : List (UJoint α)) (L : List α) :
    noneIn (js.map fun j => j.limit.bind f) = some L ↔ List.Forall₂ (Spec.givesLimit f) js L := by
  rw [noneIn_map]
  constructor <;> intro h <;> exact h.imp fun a b hab => by first | exact (limit_bind f a b).1 hab | exact (limit_bind f a b).2 hab

omit [Add α] [Sub α] [Mul α] [Div α] [Neg α] [Zero α] [One α] [LT α] [LE α] [DecidableLT α] [DecidableLE α] [Elem α] in
theorem exists_limits (f : ULimit α → Option α) (js : List (UJoint α)) :
    (∃ L, List.Forall₂ (Spec.givesLimit f) js L) ↔ ∀ j ∈ js, ∃ x, Spec.givesLimit f j x := by
  constructor
  · rintro ⟨L, h⟩ j hj
    obtain ⟨x, -, hx⟩ := Forall₂.exists_right h hj
    exact ⟨x, hx⟩
  · intro h
    induction js with
    | nil => exact ⟨[], .nil⟩
    | cons j js ih =>
      obtain ⟨x, hx⟩ := h j (by simp)
      obtain ⟨L, hL⟩ := ih fun k hk => h k (by simp [hk])
      exact ⟨x :: L, .cons hx hL⟩

/-- C49: names, types and limits of the loaded robot are those of the moving joints of the chain, in order; the position limits are present iff
every moving joint has both, the velocity and effort limits iff every moving joint has one.  A chain with a joint that is neither fixed, revolute nor
prismatic is never loaded. -/
theorem C49_names_limits (fuel : Nat) (u : Urdf α) (hn : (u.joints.map UJoint.name).Nodup) (root tip : Option String) (r : Robot α)
    (h : urdfLoad fuel u root tip = .ok r) :
    ∃ rt t js, r.rootLink = some rt ∧ r.tipLink = some t ∧ Spec.Chain u rt js t ∧
      (∀ j ∈ js, j.jointType = "fixed" ∨ j.jointType = "revolute" ∨ j.jointType = "prismatic") ∧
      r.jointNames = some ((Spec.moving js).map UJoint.name) ∧
      r.jointType = (Spec.moving js).map (fun j => if j.jointType = "revolute" then 0 else 1) ∧
      (∀ L, r.lower = some L ↔ List.Forall₂ (Spec.givesLimit ULimit.lower) (Spec.moving js) L ∧
        ∀ j ∈ Spec.moving js, ∃ x, Spec.givesLimit ULimit.upper j x) ∧
      (∀ L, r.upper = some L ↔ List.Forall₂ (Spec.givesLimit ULimit.upper) (Spec.moving js) L ∧
        ∀ j ∈ Spec.moving js, ∃ x, Spec.givesLimit ULimit.lower j x) ∧
      (∀ L, r.vel = some L ↔ List.Forall₂ (Spec.givesLimit ULimit.velocity) (Spec.moving js) L) ∧
      (∀ L, r.effortLimit = some L ↔ List.Forall₂ (Spec.givesLimit ULimit.effort) (Spec.moving js) L) := by
  obtain ⟨⟨rt, t, tips, js, last, link, s, -, -, -, chain, -, loop, -, robot_eq, -⟩⟩ := urdfLoad_loaded hn h
  have A := urdfLoop_adds js _ _ loop
  have hlo := A.lower
  have hup := A.upper
  have hve := A.vel
  have hef := A.effort
  have hna := A.names
  have hty := A.ty
  simp only [List.nil_append] at hlo hup hve hef hna hty
  refine ⟨rt, t, js, by rw [robot_eq], by rw [robot_eq], chain, A.supported, by rw [robot_eq, hna], by rw [robot_eq, hty]; rfl, ?_, ?_, ?_, ?_⟩
  · intro L
    rw [robot_eq, hlo, hup, ← exists_limits]
    simp only [limitPair]
    rw [← noneIn_limits]
    simp only [← noneIn_limits]
    split
    · rename_i l u' h1 h2; simp [h1, h2]
    · rename_i h1
      simp only [reduceCtorEq, false_iff]
      rintro ⟨h2, L', h3⟩
      exact h1 _ _ h2 h3
  · intro L
    rw [robot_eq, hlo, hup, ← exists_limits]
    simp only [limitPair]
    rw [← noneIn_limits]
    simp only [← noneIn_limits]
    split
    · rename_i l u' h1 h2; simp [h1, h2]
    · rename_i h1
      simp only [reduceCtorEq, false_iff]
      rintro ⟨h2, L', h3⟩
      exact h1 _ _ h3 h2
  · intro L; rw [robot_eq, hve]; exact noneIn_limits _ _ _
  · intro L; rw [robot_eq, hef]; exact noneIn_limits _ _ _

/-! ## C50 -/

/-- a tip that the loader may choose: a link of the file that has no children, reached from the root by a chain with a moving joint and no floating
joint -/
def Spec.ValidTip (u : Urdf α) (rt t : String) : Prop :=
  t ∈ u.links.map ULink.name ∧ (∀ j ∈ u.joints, j.parent ≠ t) ∧ ∃ js, Spec.Chain u rt js t ∧
    (∃ j ∈ js, j.jointType ≠ "fixed") ∧ ∀ j ∈ js, j.jointType ≠ "floating"

omit [Add α] [Sub α] [Mul α] [Div α] [Neg α] [Zero α] [One α] [LT α] [LE α] [DecidableLT α] [DecidableLE α] [Elem α] in
theorem validTip_ok {u : Urdf α} (hn : (u.joints.map UJoint.name).Nodup) {fuel : Nat} {rt l : String} {b : Bool}
    (h : u.validTip fuel rt l = .ok b) : ∃ js, Spec.Chain u rt js l ∧
      (b = true ↔ (∃ j ∈ js, j.jointType ≠ "fixed") ∧ ∀ j ∈ js, j.jointType ≠ "floating") := by
  obtain ⟨c, hc, h⟩ := Except.bind_eq_ok h
  obtain ⟨js, hjs, hm⟩ := getChain_joints hn hc
  rw [hm, Except.bind_ok] at h
  cases h
  refine ⟨js, hjs, ?_⟩
  simp [and_comm]

omit [Add α] [Sub α] [Mul α] [Div α] [Neg α] [Zero α] [One α] [LT α] [LE α] [DecidableLT α] [DecidableLE α] [Elem α] in
theorem Spec.Chain.unique {u : Urdf α} (hn : (u.joints.map UJoint.child).Nodup) {rt l : String} {js ks : List (UJoint α)}
    (h1 : Spec.Chain u rt js l) (h2 : Spec.Chain u rt ks l) : js = ks := by
  have key : ∀ (n : Nat) (js ks : List (UJoint α)) (l : String), js.length = n → Spec.Chain u rt js l → Spec.Chain u rt ks l → js = ks := by
    intro n
    induction n with
    | zero =>
      intro js ks l hl h1 h2
      obtain rfl := List.eq_nil_of_length_eq_zero hl
      rcases h1.1.unsnoc with ⟨-, e⟩ | ⟨_, _, e, -⟩
      · rcases h2.1.unsnoc with ⟨rfl, -⟩ | ⟨_, k, rfl, -, hk, -⟩
        · rfl
        · exact absurd (hk.trans e.symm) (h2.2 k (by simp))
      · simp at e
    | succ n ih =>
      intro js ks l hl h1 h2
      rcases h1.1.unsnoc with ⟨rfl, -⟩ | ⟨js', j, rfl, hj, hjl, hjp⟩
      · simp at hl
      · rcases h2.1.unsnoc with ⟨rfl, e⟩ | ⟨ks', k, rfl, hk, hkl, hkp⟩
        · exact absurd (hjl.trans e.symm) (h1.2 j (by simp))
        · obtain rfl : j = k := List.inj_on_of_nodup_map hn hj hk (hjl.trans hkl.symm)
          rw [ih js' ks' j.parent (by simpa using hl) ⟨hjp, fun x hx => h1.2 x (by simp [hx])⟩ ⟨hkp, fun x hx => h2.2 x (by simp [hx])⟩]
  exact key _ js ks l rfl h1 h2

omit [Add α] [Sub α] [Mul α] [Div α] [Neg α] [Zero α] [One α] [LT α] [LE α] [DecidableLT α] [DecidableLE α] [Elem α] in
theorem tipLoop_mem {u : Urdf α} (hn : (u.joints.map UJoint.name).Nodup) (hc : (u.joints.map UJoint.child).Nodup) {fuel : Nat} {rt : String}
    (ls tips : List String) (h : u.tipLoop fuel rt ls = .ok tips) (t : String) :
    t ∈ tips ↔ t ∈ ls ∧ ∃ js, Spec.Chain u rt js t ∧ (∃ j ∈ js, j.jointType ≠ "fixed") ∧ ∀ j ∈ js, j.jointType ≠ "floating" := by
  induction ls generalizing tips with
  | nil => cases h; simp
  | cons l ls ih =>
    unfold Urdf.tipLoop at h
    split at h
    · rename_i hv
      obtain ⟨ts, hts, h⟩ := Except.bind_eq_ok h
      cases h
      obtain ⟨js, hjs, hb⟩ := validTip_ok hn hv
      rw [List.mem_cons, ih ts hts, List.mem_cons]
      constructor
      · rintro (rfl | ⟨h1, h2⟩)
        · exact ⟨Or.inl rfl, js, hjs, hb.1 rfl⟩
        · exact ⟨Or.inr h1, h2⟩
      · rintro ⟨rfl | h1, h2⟩
        · exact Or.inl rfl
        · exact Or.inr ⟨h1, h2⟩
    · rename_i hv
      obtain ⟨js, hjs, hb⟩ := validTip_ok hn hv
      rw [ih tips h, List.mem_cons]
      constructor
      · rintro ⟨h1, h2⟩; exact ⟨Or.inr h1, h2⟩
      · rintro ⟨rfl | h1, h2⟩
        · obtain ⟨ks, hks, h2⟩ := h2
          obtain rfl := hjs.unique hc hks
          exact absurd (hb.2 h2) (by simp)
        · exact ⟨h1, h2⟩
    · rename_i hv
      rw [ih tips h, List.mem_cons]
      constructor
      · rintro ⟨h1, h2⟩; exact ⟨Or.inr h1, h2⟩
      · rintro ⟨rfl | h1, h2⟩
        · obtain ⟨ks, hks, h2⟩ := h2
          exfalso
          unfold Urdf.validTip Urdf.getChain at hv
          rcases chainLoop_of_chain hc fuel _ [] ks hks with e | e
          · rw [e, Except.bind_ok, List.append_nil, mapM_joint hn ks hks.1.mem] at hv
            simp at hv
          · rw [e] at hv; simp at hv
        · exact ⟨h1, h2⟩
    · cases h

omit [Add α] [Sub α] [Mul α] [Div α] [Neg α] [Zero α] [One α] [LT α] [LE α] [DecidableLT α] [DecidableLE α] [Elem α] in
theorem tipLinks_mem {u : Urdf α} (hn : (u.joints.map UJoint.name).Nodup) (hc : (u.joints.map UJoint.child).Nodup) {fuel : Nat} {rt : String}
    {tips : List String} (h : u.tipLinks fuel rt = .ok tips) (t : String) : t ∈ tips ↔ Spec.ValidTip u rt t := by
  rw [tipLoop_mem hn hc _ _ h t]
  have : t ∈ u.linkNames.filter (fun l => !u.hasChild l) ↔ t ∈ u.links.map ULink.name ∧ ∀ j ∈ u.joints, j.parent ≠ t := by
    rw [List.mem_filter, Urdf.linkNames, List.mem_eraseDups]
    simp [Urdf.hasChild]
  rw [this, Spec.ValidTip, and_assoc]

omit [Add α] [Sub α] [Mul α] [Div α] [Neg α] [Zero α] [One α] [LT α] [LE α] [DecidableLT α] [DecidableLE α] [Elem α] in
/-- the root found by `get_root` is the only link that is nobody's child -/
theorem getRoot_spec {u : Urdf α} {rt : String} (h : u.getRoot = .ok rt) :
    ∀ l, (l ∈ u.links.map ULink.name ∧ ∀ j ∈ u.joints, j.child ≠ l) ↔ l = rt := by
  obtain ⟨o, h1, h2⟩ := Except.bind_eq_ok h
  have key : ∀ (ls : List String) (o o' : Option String), ls.foldlM (fun (root : Option String) l =>
      if u.hasParent l then (.ok root : Except PyErr _) else if root.isNone then .ok (some l) else .error .assertion) o = .ok o' →
      ∀ l, (o' = some l ↔ (o = some l ∨ (l ∈ ls ∧ u.hasParent l = false))) := by
    intro ls
    induction ls with
    | nil => intro o o' h l; rw [List.foldlM_nil] at h; cases h; simp
    | cons a ls ih =>
      intro o o' h l
      rw [List.foldlM_cons] at h
      obtain ⟨o1, h1, h⟩ := Except.bind_eq_ok h
      rw [ih o1 o' h l]
      split_ifs at h1 with ha hb
      · cases h1
        constructor
        · rintro (h | ⟨h2, h3⟩)
          · exact Or.inl h
          · exact Or.inr ⟨by simp [h2], h3⟩
        · rintro (h | ⟨h2, h3⟩)
          · exact Or.inl h
          · rcases List.mem_cons.1 h2 with rfl | h2
            · rw [ha] at h3; cases h3
            · exact Or.inr ⟨h2, h3⟩
      · cases h1
        have ho : o = none := by simpa using hb
        subst ho
        simp only [Option.some.injEq, reduceCtorEq, false_or, List.mem_cons]
        constructor
        · rintro (rfl | ⟨h2, h3⟩)
          · exact ⟨Or.inl rfl, by simpa using ha⟩
          · exact ⟨Or.inr h2, h3⟩
        · rintro ⟨rfl | h2, h3⟩
          · exact Or.inl rfl
          · exact Or.inr ⟨h2, h3⟩
  intro l
  have := key _ _ _ h1 l
  rcases o with _ | r
  · cases h2
  · cases h2
    simp only [Option.some.injEq, reduceCtorEq, false_or] at this
    rw [Urdf.linkNames, List.mem_eraseDups] at this
    rw [show (l = rt) = (rt = l) from propext eq_comm, this]
    simp [Urdf.hasParent]

/-- C50: without a given tip link the loader succeeds only if there is exactly one valid tip (a leaf reached from the root by a chain with a moving
joint and no floating joint), and that is the tip of the robot.  The root is the given one, or else the only link that is nobody's child.  The file has
distinct joint names and each link is the child of at most one joint. -/
theorem C50_tip_unique (fuel : Nat) (u : Urdf α) (hn : (u.joints.map UJoint.name).Nodup) (hc : (u.joints.map UJoint.child).Nodup)
    (root : Option String) (r : Robot α) (h : urdfLoad fuel u root none = .ok r) :
    ∃ rt t, r.rootLink = some rt ∧ r.tipLink = some t ∧ (∀ t', Spec.ValidTip u rt t' ↔ t' = t) ∧
      (∀ x, root = some x → rt = x ∧ x ∈ u.links.map ULink.name) ∧
      (root = none → ∀ l, (l ∈ u.links.map ULink.name ∧ ∀ j ∈ u.joints, j.child ≠ l) ↔ l = rt) := by
  obtain ⟨⟨rt, t, tips, js, last, link, s, hroot, htips, htip, chain, -, loop, -, robot_eq, -⟩⟩ := urdfLoad_loaded hn h
  refine ⟨rt, t, by rw [robot_eq], by rw [robot_eq], fun t' => ?_, ?_, ?_⟩
  · rw [← tipLinks_mem hn hc htips]
    unfold Urdf.tipLink at htip
    simp only at htip
    split at htip
    · cases htip; simp
    · cases htip
  · rintro x rfl
    unfold Urdf.rootLink at hroot
    simp only at hroot
    split_ifs at hroot with hx
    cases hroot
    exact ⟨rfl, by rwa [Urdf.linkNames, List.mem_eraseDups] at hx⟩
  · rintro rfl
    exact getRoot_spec hroot

/-- C50: with a given tip link the chain runs from the root to that link and is the only one. -/
theorem C50_given_tip (fuel : Nat) (u : Urdf α) (hn : (u.joints.map UJoint.name).Nodup) (hc : (u.joints.map UJoint.child).Nodup)
    (root : Option String) (t : String) (r : Robot α) (h : urdfLoad fuel u root (some t) = .ok r) :
    r.tipLink = some t ∧ ∃ rt js, r.rootLink = some rt ∧ js ≠ [] ∧ ∀ ks, Spec.Chain u rt ks t ↔ ks = js := by
  obtain ⟨⟨rt, t', tips, js, last, link, s, hroot, htips, htip, chain, hlast, loop, -, robot_eq, -⟩⟩ := urdfLoad_loaded hn h
  cases htip
  refine ⟨by rw [robot_eq], rt, js, by rw [robot_eq], by rintro rfl; simp at hlast, fun ks => ⟨fun hk => hk.unique hc chain, ?_⟩⟩
  rintro rfl; exact chain

end
