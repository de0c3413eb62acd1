import Verif.Model.RosMsg
import Verif.Props.Quaternion
import Verif.Props.Rotation
import Verif.Props.TransformProps
import Verif.Lemmas.RobotUp

/-!
# Properties C42-C44: ROS messages and TF
-/
set_option autoImplicit false

/-! ## C42 -/

/-- the entries of a 6-vector in order -/
def V6.entries {α : Type} (v : V6 α) : List α := [v.top.x, v.top.y, v.top.z, v.bot.x, v.bot.y, v.bot.z]

/-- the entries of a quaternion vector in order: scalar part first -/
def V4.entries {α : Type} (q : V4 α) : List α := [q.w, q.x, q.y, q.z]

section
variable {α : Type}

/-- C42: quaternion messages round-trip in both directions, for all entries (NaN and infinities included). -/
theorem C42_quaternion (m : RosQuaternion α) (q : V4 α) :
    q2msg (msg2q m).entries = .ok m ∧ (∃ m', q2msg q.entries = .ok m' ∧ msg2q m' = q ∧ m'.x = q.x ∧ m'.y = q.y ∧ m'.z = q.z ∧ m'.w = q.w) :=
  ⟨rfl, _, rfl, rfl, rfl, rfl, rfl, rfl⟩

/-- C42: vector and point messages round-trip in both directions. -/
theorem C42_vector (m : RosXYZ α) (p : V3 α) :
    (m.type = "geometry_msgs/Vector3" → p2msg (msg2p m).toList = .ok m) ∧
    (m.type = "geometry_msgs/Point" → p2point_msg (point_msg2p m).toList = .ok m) ∧
    (∃ m', p2msg p.toList = .ok m' ∧ msg2p m' = p ∧ m'.type = "geometry_msgs/Vector3") ∧
    (∃ m', p2point_msg p.toList = .ok m' ∧ point_msg2p m' = p ∧ m'.type = "geometry_msgs/Point") := by
  obtain ⟨t, x, y, z⟩ := m
  refine ⟨?_, ?_, ⟨_, rfl, rfl, rfl⟩, ⟨_, rfl, rfl, rfl⟩⟩
  · intro h; simp only at h; subst h; rfl
  · intro h; simp only at h; subst h; rfl

/-- C42: twists: the vector has the angular velocity first, the message has the linear velocity first; both directions
round-trip. -/
theorem C42_twist (m : RosTwist α) (ω v : V3 α) :
    (m.linear.type = "geometry_msgs/Vector3" → m.angular.type = "geometry_msgs/Vector3" → twist2msg (msg2twist m).entries = .ok m) ∧
    (∃ m', twist2msg (ω.toList ++ v.toList) = .ok m' ∧ msg2twist m' = ⟨ω, v⟩ ∧ msg2p m'.angular = ω ∧ msg2p m'.linear = v) := by
  obtain ⟨⟨t, x, y, z⟩, ⟨t', x', y', z'⟩⟩ := m
  refine ⟨?_, ⟨_, rfl, rfl, rfl, rfl⟩⟩
  intro h h'; simp only at h h'; subst h h'; rfl

/-- C42: wrenches: the vector has the torque first, the message has the force first; both directions round-trip. -/
theorem C42_wrench (m : RosWrench α) (τ f : V3 α) :
    (m.force.type = "geometry_msgs/Vector3" → m.torque.type = "geometry_msgs/Vector3" → wrench2msg (msg2wrench m).entries = .ok m) ∧
    (∃ m', wrench2msg (τ.toList ++ f.toList) = .ok m' ∧ msg2wrench m' = ⟨τ, f⟩ ∧ msg2p m'.torque = τ ∧ msg2p m'.force = f) := by
  obtain ⟨⟨t, x, y, z⟩, ⟨t', x', y', z'⟩⟩ := m
  refine ⟨?_, ⟨_, rfl, rfl, rfl, rfl⟩⟩
  intro h h'; simp only at h h'; subst h h'; rfl

/-- C42: arrays of any other size are rejected with ValueError. -/
theorem C42_sizes (l : List α) :
    ((∃ m, q2msg l = .ok m) ↔ l.length = 4) ∧ ((∃ m, p2msg l = .ok m) ↔ l.length = 3) ∧
    ((∃ m, p2point_msg l = .ok m) ↔ l.length = 3) ∧ ((∃ m, twist2msg l = .ok m) ↔ l.length = 6) ∧
    ((∃ m, wrench2msg l = .ok m) ↔ l.length = 6) ∧
    (l.length ≠ 4 → q2msg l = .error .value) ∧ (l.length ≠ 3 → p2msg l = .error .value ∧ p2point_msg l = .error .value) ∧
    (l.length ≠ 6 → twist2msg l = .error .value ∧ wrench2msg l = .error .value) := by
  rcases l with _ | ⟨a, _ | ⟨b, _ | ⟨c, _ | ⟨d, _ | ⟨e, _ | ⟨f, _ | ⟨g, l⟩⟩⟩⟩⟩⟩⟩ <;>
    simp [q2msg, p2msg, p2point_msg, twist2msg, wrench2msg]

-- messages with six different entries are told apart
example : twist2msg [(1 : Nat), 2, 3, 4, 5, 6] = .ok ⟨⟨"geometry_msgs/Vector3", 4, 5, 6⟩, ⟨"geometry_msgs/Vector3", 1, 2, 3⟩⟩ := rfl
example : q2msg [(1 : Nat), 2, 3, 4] = .ok ⟨2, 3, 4, 1⟩ := rfl
end

/-! ## C43 -/

/-- What a message without `None` makes of a frame id: `None` becomes `""`. -/
def Spec.frameId (o : Option String) : Option String := some (o.getD "")

theorem R2msg_spec (R : M3 ℝ) (h : IsRot R) : ∃ m : RosQuaternion XReal, R2msg R.up = .ok m ∧ msg2R m = R.up := by
  obtain ⟨q, h1, -, h3⟩ := C06_R2q_q2R R h
  refine ⟨⟨.fin q.x, .fin q.y, .fin q.z, .fin q.w⟩, ?_, ?_⟩
  · unfold R2msg; rw [h1]; rfl
  · show q2R q.up = R.up
    rw [q2R_up, h3]

/-- C43: `msg2transform` inverts each of the four conversions on rotation and position, for every rigid transform; a stamped
transform keeps both frame ids, a stamped pose the parent id; `None` comes back as the empty string, and the messages without
frame fields come back with `None`. -/
theorem C43_roundtrip (T : Transform ℝ) (h : T.IsRigid) :
    (∃ m, transform2msg T.up = .ok m ∧ msg2transform (.ofTransform m) = .ok ⟨T.R.up, T.p.up, none, none⟩) ∧
    (∃ m, transform2transform_stamped_msg T.up = .ok m ∧
      msg2transform (.ofTransformStamped m) = .ok ⟨T.R.up, T.p.up, Spec.frameId T.parent, Spec.frameId T.child⟩) ∧
    (∃ m, transform2pose_msg T.up = .ok m ∧ msg2transform (.ofPose m) = .ok ⟨T.R.up, T.p.up, none, none⟩) ∧
    (∃ m, transform2pose_stamped_msg T.up = .ok m ∧
      msg2transform (.ofPoseStamped m) = .ok ⟨T.R.up, T.p.up, Spec.frameId T.parent, none⟩) := by
  obtain ⟨m, h1, h2⟩ := R2msg_spec T.R h
  have h1 : R2msg T.up.R = .ok m := h1
  refine ⟨⟨⟨⟨rosVector3, .fin T.p.x, .fin T.p.y, .fin T.p.z⟩, m⟩, ?_, ?_⟩,
    ⟨⟨⟨T.parent.getD ""⟩, T.child.getD "", ⟨⟨rosVector3, .fin T.p.x, .fin T.p.y, .fin T.p.z⟩, m⟩⟩, ?_, ?_⟩,
    ⟨⟨⟨rosPoint, .fin T.p.x, .fin T.p.y, .fin T.p.z⟩, m⟩, ?_, ?_⟩,
    ⟨⟨⟨T.parent.getD ""⟩, ⟨⟨rosPoint, .fin T.p.x, .fin T.p.y, .fin T.p.z⟩, m⟩⟩, ?_, ?_⟩⟩
  · unfold transform2msg; rw [h1]; rfl
  · simp [msg2transform, RosObj.ofTransform, h2]; rfl
  · unfold transform2transform_stamped_msg; rw [h1]
    obtain ⟨_, _, _ | _, _ | _⟩ := T <;> rfl
  · simp [msg2transform, RosObj.ofTransformStamped, h2, Spec.frameId]; rfl
  · unfold transform2pose_msg; rw [h1]; rfl
  · simp [msg2transform, RosObj.ofPose, h2]; rfl
  · unfold transform2pose_stamped_msg; rw [h1]
    obtain ⟨_, _, _ | _, _ | _⟩ := T <;> rfl
  · simp [msg2transform, RosObj.ofPoseStamped, h2, Spec.frameId]; rfl

/-- C43, the other direction: converting a stamped transform with a unit quaternion to a `Transform` and back gives the same
message, up to the sign of the quaternion. -/
theorem C43_message_roundtrip (t : V3 ℝ) (q : V4 ℝ) (hq : IsUnit4 q) (frame child : String) :
    ∃ T : Transform XReal, msg2transform (.ofTransformStamped ⟨⟨frame⟩, child, ⟨⟨rosVector3, .fin t.x, .fin t.y, .fin t.z⟩, ⟨.fin q.x, .fin q.y, .fin q.z, .fin q.w⟩⟩⟩) = .ok T ∧
      ∃ s : ℝ, (s = 1 ∨ s = -1) ∧ transform2transform_stamped_msg T = .ok ⟨⟨frame⟩, child, ⟨⟨rosVector3, .fin t.x, .fin t.y, .fin t.z⟩,
        ⟨.fin (s * q.x), .fin (s * q.y), .fin (s * q.z), .fin (s * q.w)⟩⟩⟩ := by
  refine ⟨⟨q2R q.up, t.up, some frame, some child⟩, rfl, ?_⟩
  rcases C06_q2R_R2q q hq with h | h
  · refine ⟨1, Or.inl rfl, ?_⟩
    simp only [one_mul]
    unfold transform2transform_stamped_msg R2msg; rw [h]; rfl
  · refine ⟨-1, Or.inr rfl, ?_⟩
    simp only [neg_one_mul]
    unfold transform2transform_stamped_msg R2msg; rw [h]; rfl

/-- C43: objects with none of the four shapes are rejected. -/
theorem C43_other_rejected {α : Type} [Add α] [Sub α] [Mul α] [Div α] [Neg α] [Zero α] [One α] [LT α] [LE α]
    [DecidableLT α] [DecidableLE α] [Elem α] (o : RosObj α) (h1 : o.translation = none ∨ o.rotation = none)
    (h2 : o.header = none ∨ (o.transform = none ∧ o.pose = none)) (h3 : o.position = none ∨ o.orientation = none) :
    msg2transform o = .error .assertion := by
  obtain ⟨t, r, h, tr, c, p, q, ps⟩ := o
  simp only at h1 h2 h3
  rcases h1 with rfl | rfl <;> rcases h2 with rfl | ⟨rfl, rfl⟩ <;> rcases h3 with rfl | rfl <;>
    simp [msg2transform]

-- non-vacuity: a rigid transform with a parent id only
example : (⟨1, ⟨1, 2, 3⟩, some "world", none⟩ : Transform ℝ).IsRigid := IsRot.one
example : ∃ m, transform2transform_stamped_msg (Transform.up ⟨1, ⟨1, 2, 3⟩, some "world", none⟩) = .ok m ∧
    msg2transform (.ofTransformStamped m) = .ok ⟨M3.up 1, V3.up ⟨1, 2, 3⟩, some "world", some ""⟩ :=
  (C43_roundtrip ⟨1, ⟨1, 2, 3⟩, some "world", none⟩ IsRot.one).2.1

/-! ## C44 -/

section
variable {σ τ ε : Type}

/-- C44: when the listener answers with translation `t` and the quaternion of the turn by `θ` about `k`, the lookup returns that
rotation and translation, parent = target, child = source; the listener sees exactly one call with the same arguments; its
exceptions and its state pass through. -/
theorem C44_lookup (l : TfListener σ τ ε ℝ) (target source : String) (time : τ) (s s' : σ) :
    (∀ (t k : V3 ℝ) (θ : ℝ), IsUnit3 k →
      l.lookupTransform target source time s = (.ok (t, ⟨k.x * Real.sin (θ / 2), k.y * Real.sin (θ / 2), k.z * Real.sin (θ / 2), Real.cos (θ / 2)⟩), s') →
      l.tlLookup target source time s = (.ok ⟨rot k θ, t, some target, some source⟩, s')) ∧
    (∀ e, l.lookupTransform target source time s = (.error e, s') → l.tlLookup target source time s = (.error e, s')) := by
  refine ⟨fun t k θ hk h => ?_, fun e h => by simp [TfListener.tlLookup, h]⟩
  simp only [TfListener.tlLookup, h, TfListener.convert]
  rw [← q2R_rot2qA k hk θ]
  congr 4

/-- C44: the same for the full interface. -/
theorem C44_lookup_full (l : TfListener σ τ ε ℝ) (target source fixed : String) (t1 t2 : τ) (s s' : σ) :
    (∀ (t k : V3 ℝ) (θ : ℝ), IsUnit3 k →
      l.lookupTransformFull target t1 source t2 fixed s = (.ok (t, ⟨k.x * Real.sin (θ / 2), k.y * Real.sin (θ / 2), k.z * Real.sin (θ / 2), Real.cos (θ / 2)⟩), s') →
      l.tlLookupFull target t1 source t2 fixed s = (.ok ⟨rot k θ, t, some target, some source⟩, s')) ∧
    (∀ e, l.lookupTransformFull target t1 source t2 fixed s = (.error e, s') → l.tlLookupFull target t1 source t2 fixed s = (.error e, s')) := by
  refine ⟨fun t k θ hk h => ?_, fun e h => by simp [TfListener.tlLookupFull, h]⟩
  simp only [TfListener.tlLookupFull, h, TfListener.convert]
  rw [← q2R_rot2qA k hk θ]
  congr 4

/-- C44: composing lookups.  If the listener's own answers compose (the translation and Hamilton product of tf), so do the returned
`Transform`s, frame ids included. -/
theorem C44_compose (l : TfListener σ τ ε ℝ) (a b c : String) (time : τ) (s s1 s2 s3 : σ) (t1 t2 : V3 ℝ) (q1 q2 : V4 ℝ)
    (u1 : IsUnit4 q1) (u2 : IsUnit4 q2)
    (h1 : l.lookupTransform a b time s = (.ok (t1, ⟨q1.x, q1.y, q1.z, q1.w⟩), s1))
    (h2 : l.lookupTransform b c time s1 = (.ok (t2, ⟨q2.x, q2.y, q2.z, q2.w⟩), s2))
    (h3 : l.lookupTransform a c time s2 = (.ok (t1 + (q2R q1).mulVec t2,
      ⟨((quatproduct q1).mulVec q2).x, ((quatproduct q1).mulVec q2).y, ((quatproduct q1).mulVec q2).z, ((quatproduct q1).mulVec q2).w⟩), s3)) :
    ∃ A B C, l.tlLookup a b time s = (.ok A, s1) ∧ l.tlLookup b c time s1 = (.ok B, s2) ∧ l.tlLookup a c time s2 = (.ok C, s3) ∧
      C = A * B := by
  refine ⟨_, _, _, by rw [TfListener.tlLookup, h1], by rw [TfListener.tlLookup, h2], by rw [TfListener.tlLookup, h3], ?_⟩
  show Transform.mk (q2R ((quatproduct q1).mulVec q2)) _ _ _ = _
  rw [C05_q2R_quatproduct q1 q2 u1 u2]
  rfl

/-- The contract of `tf.TransformListener`: a lookup right after `canTransform` succeeds exactly if the answer was true, a lookup right
after a wait that ended without exception succeeds, and after `clear` no lookup between different frames does. -/
structure Spec.TfContract (l : TfListener σ τ ε ℝ) : Prop where
  can : ∀ a b t s ok s', l.canTransform a b t s = (.ok ok, s') → (ok = true ↔ ∃ x s'', l.lookupTransform a b t s' = (.ok x, s''))
  canFull : ∀ a ta b tb f s ok s', l.canTransformFull a ta b tb f s = (.ok ok, s') → (ok = true ↔ ∃ x s'', l.lookupTransformFull a ta b tb f s' = (.ok x, s''))
  wait : ∀ a b t w o s s', l.waitForTransform a b t w o s = (.ok (), s') → ∃ x s'', l.lookupTransform a b t s' = (.ok x, s'')
  waitFull : ∀ a ta b tb f w o s s', l.waitForTransformFull a ta b tb f w o s = (.ok (), s') → ∃ x s'', l.lookupTransformFull a ta b tb f s' = (.ok x, s'')
  clear : ∀ a b t s, a ≠ b → ∃ e s', l.lookupTransform a b t (l.clear s) = (.error e, s')

/-- C44: the wrapper keeps the contract of the listener: the four questions are about the transform that the corresponding lookup of the
wrapper then returns, from source to target. -/
theorem C44_available (l : TfListener σ τ ε ℝ) (h : Spec.TfContract l) (a b f : String) (t t' w : τ) (o : Option τ) (s s' : σ) :
    (∀ ok, l.tlCanTransform a b t s = (.ok ok, s') → (ok = true ↔ ∃ T s'', l.tlLookup a b t s' = (.ok T, s'') ∧ T.parent = some a ∧ T.child = some b)) ∧
    (∀ ok, l.tlCanTransformFull a t b t' f s = (.ok ok, s') →
      (ok = true ↔ ∃ T s'', l.tlLookupFull a t b t' f s' = (.ok T, s'') ∧ T.parent = some a ∧ T.child = some b)) ∧
    (l.tlWait a b t w o s = (.ok (), s') → ∃ T s'', l.tlLookup a b t s' = (.ok T, s'') ∧ T.parent = some a ∧ T.child = some b) ∧
    (l.tlWaitFull a t b t' f w o s = (.ok (), s') → ∃ T s'', l.tlLookupFull a t b t' f s' = (.ok T, s'') ∧ T.parent = some a ∧ T.child = some b) ∧
    (a ≠ b → ∃ e s'', l.tlLookup a b t (l.tlClear s) = (.error e, s'')) := by
  have lk : ∀ s, (∃ x s'', l.lookupTransform a b t s = (.ok x, s'')) ↔ ∃ T s'', l.tlLookup a b t s = (.ok T, s'') ∧ T.parent = some a ∧ T.child = some b := by
    intro s
    unfold TfListener.tlLookup
    rcases l.lookupTransform a b t s with ⟨e | x, s1⟩
    · simp
    · simp [TfListener.convert]
  have lkf : ∀ s, (∃ x s'', l.lookupTransformFull a t b t' f s = (.ok x, s'')) ↔
      ∃ T s'', l.tlLookupFull a t b t' f s = (.ok T, s'') ∧ T.parent = some a ∧ T.child = some b := by
    intro s
    unfold TfListener.tlLookupFull
    rcases l.lookupTransformFull a t b t' f s with ⟨e | x, s1⟩
    · simp
    · simp [TfListener.convert]
  refine ⟨fun ok hk => (h.can _ _ _ _ _ _ hk).trans (lk _), fun ok hk => (h.canFull _ _ _ _ _ _ _ _ hk).trans (lkf _),
    fun hk => (lk _).1 (h.wait _ _ _ _ _ _ _ hk), fun hk => (lkf _).1 (h.waitFull _ _ _ _ _ _ _ _ _ hk), fun hab => ?_⟩
  obtain ⟨e, s'', hl⟩ := h.clear a b t s hab
  exact ⟨e, s'', by unfold TfListener.tlLookup TfListener.tlClear; rw [hl]⟩

-- non-vacuity: a listener whose state is the set of known pairs of frames meets the contract, and knows one of two transforms
example : ∃ (l : TfListener (String → String → Bool) Nat String ℝ), Spec.TfContract l ∧
    (l.tlCanTransform "base" "tool" 0 fun _ b => b == "tool").1 = .ok true ∧ (l.tlCanTransform "base" "other" 0 fun _ b => b == "tool").1 = .ok false := by
  let l : TfListener (String → String → Bool) Nat String ℝ :=
    { canTransform := fun a b _ s => (.ok (s a b), s), canTransformFull := fun a _ b _ _ s => (.ok (s a b), s),
      waitForTransform := fun a b _ _ _ s => (if s a b then .ok () else .error "timeout", s),
      waitForTransformFull := fun a _ b _ _ _ _ s => (if s a b then .ok () else .error "timeout", s),
      clear := fun _ _ _ => false, lookupTransformFull := fun a _ b _ _ s => (if s a b then .ok (0, ⟨0, 0, 0, 1⟩) else .error "", s),
      lookupTransform := fun a b _ s => (if s a b then .ok (0, ⟨0, 0, 0, 1⟩) else .error "", s) }
  refine ⟨l, ⟨?_, ?_, ?_, ?_, ?_⟩, rfl, rfl⟩
  · intro a b t s ok s' h
    simp only [l, Prod.mk.injEq, Except.ok.injEq] at h
    obtain ⟨rfl, rfl⟩ := h
    by_cases hs : s a b <;> simp [l, hs]
  · intro a ta b tb f s ok s' h
    simp only [l, Prod.mk.injEq, Except.ok.injEq] at h
    obtain ⟨rfl, rfl⟩ := h
    by_cases hs : s a b <;> simp [l, hs]
  · intro a b t w o s s' h
    by_cases hs : s a b <;> simp [l, hs] at h
    subst h
    exact ⟨(0, ⟨0, 0, 0, 1⟩), s, by simp [l, hs]⟩
  · intro a ta b tb f w o s s' h
    by_cases hs : s a b <;> simp [l, hs] at h
    subst h
    exact ⟨(0, ⟨0, 0, 0, 1⟩), s, by simp [l, hs]⟩
  · intro a b t s _
    exact ⟨"", fun _ _ => false, by simp [l]⟩

-- non-vacuity: a listener that knows one transform
example : ∃ (l : TfListener Unit Nat String ℝ), l.tlLookup "base" "tool" 0 () = (.ok ⟨rot V3.ez 1, ⟨1, 2, 3⟩, some "base", some "tool"⟩, ()) ∧
    l.tlLookup "base" "other" 0 () = (.error "LookupException", ()) := by
  let l : TfListener Unit Nat String ℝ :=
    { canTransform := fun _ _ _ s => (.ok true, s), canTransformFull := fun _ _ _ _ _ s => (.ok true, s),
      waitForTransform := fun _ _ _ _ _ s => (.ok (), s), waitForTransformFull := fun _ _ _ _ _ _ _ s => (.ok (), s),
      clear := id, lookupTransformFull := fun _ _ _ _ _ s => (.error "", s),
      lookupTransform := fun _ b _ s => if b = "tool" then (.ok (⟨1, 2, 3⟩, ⟨0 * Real.sin (1 / 2), 0 * Real.sin (1 / 2), 1 * Real.sin (1 / 2), Real.cos (1 / 2)⟩), s)
        else (.error "LookupException", s) }
  exact ⟨l, (C44_lookup l "base" "tool" 0 () ()).1 _ V3.ez 1 (by simp [IsUnit3]) rfl, (C44_lookup l "base" "other" 0 () ()).2 _ rfl⟩
end
