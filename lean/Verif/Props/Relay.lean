import Verif.Lemmas.RelayNeg
import Verif.Props.RoundingTransform

/-!
# Property C93: a transform sent on through ROS messages, once and many times
-/
set_option autoImplicit false

namespace Spec

/-- The four kinds of message that a transform can be sent as. -/
inductive MsgKind where
  | transform
  | transformStamped
  | pose
  | poseStamped

section
variable {α : Type} [Add α] [Sub α] [Mul α] [Div α] [Neg α] [Zero α] [One α] [LT α] [LE α]
  [DecidableLT α] [DecidableLE α] [Elem α]

/-- A transform sent as a message and read back. -/
def relay (k : MsgKind) (T : Transform α) : Except PyErr (Transform α) :=
  match k with
  | .transform => transform2msg T >>= fun m => msg2transform (.ofTransform m)
  | .transformStamped => transform2transform_stamped_msg T >>= fun m => msg2transform (.ofTransformStamped m)
  | .pose => transform2pose_msg T >>= fun m => msg2transform (.ofPose m)
  | .poseStamped => transform2pose_stamped_msg T >>= fun m => msg2transform (.ofPoseStamped m)

/-- A transform sent on again and again, each time as a message of the kind named next. -/
def relays : List MsgKind → Transform α → Except PyErr (Transform α)
  | [], T => .ok T
  | k :: ks, T => relay k T >>= relays ks

/-- The frame ids after one message. -/
def frames (k : MsgKind) (T : Transform α) : Option String × Option String :=
  match k with
  | .transform => (none, none)
  | .transformStamped => (frameId T.parent, frameId T.child)
  | .pose => (none, none)
  | .poseStamped => (frameId T.parent, none)
end
end Spec

section
variable {α : Type} [Add α] [Sub α] [Mul α] [Div α] [Neg α] [Zero α] [One α] [LT α] [LE α]
  [DecidableLT α] [DecidableLE α] [Elem α]

theorem relay_ok (k : Spec.MsgKind) (T : Transform α) {q : V4 α} (h : R2q T.R = .ok q) :
    Spec.relay k T = .ok ⟨q2R q, T.p, (Spec.frames k T).1, (Spec.frames k T).2⟩ := by
  obtain ⟨R, p, pa, ch⟩ := T
  have h : R2q R = .ok q := h
  have hm : R2msg R = .ok ⟨q.x, q.y, q.z, q.w⟩ := by unfold R2msg; rw [h]; rfl
  cases k <;> cases pa <;> cases ch <;>
    simp only [Spec.relay, transform2msg, transform2transform_stamped_msg, transform2pose_msg, transform2pose_stamped_msg, hm] <;> rfl
end

variable {F : FSys}

/-- C93: a transform in floating-point arithmetic sent once, as a message of any kind, arrives: nothing is raised, the position is the same
to the last bit, the frame ids are those that the kind of message carries, and the rotation is within `9102 ε` of the rotation that the
given one is within `ε` of. -/
theorem C93_once (T' : Transform (Fl F)) (R : M3 ℝ) (hR : IsRot R) (k : Spec.MsgKind) (ε : ℝ) (hu : F.u ≤ ε) (hε : 41 * ε ≤ 1 / 1000)
    (h : Spec.MNear T'.R R ε) :
    ∃ T'', Spec.relay k T' = .ok T'' ∧ T''.p = T'.p ∧ (T''.parent, T''.child) = Spec.frames k T' ∧ Spec.MNear T''.R R (9102 * ε) := by
  obtain ⟨q', h1, h2⟩ := C63_roundtrip R hR T'.R ε hu hε h
  exact ⟨_, relay_ok k T' h1, rfl, rfl, h2⟩

/-- C93: and it compares equal (`==`) to what was sent. -/
theorem C93_once_eq (T' : Transform (Fl F)) (T : Transform ℝ) (hT : T.IsRigid) (k : Spec.MsgKind) (ε L : ℝ) (hu : F.u ≤ ε)
    (hε : 9103 * ε ≤ 9 / 1000000000) (h : Spec.MNear T'.R T.R ε) (hp : Spec.VNear T'.p T.p ε) (hL : 1 ≤ L) (hpL : T.p.norm ≤ L)
    (huL : 30000000000 * (F.u * L) ≤ 1) (hbig : 2 * L ≤ F.big) :
    ∃ T'', Spec.relay k T' = .ok T'' ∧ T''.eq T' = true ∧ T'.eq T'' = true := by
  have h0 := F.u_nonneg
  obtain ⟨T'', h1, h2, -, h3⟩ := C93_once T' T.R hT k ε hu (by linarith) h
  have hp' : Spec.VNear T''.p T.p (9102 * ε) := by
    rw [h2]
    exact Fl.VNear.mono hp (by linarith)
  obtain ⟨h4, h5⟩ := C69_eq_of_near T'' T' T hT (9102 * ε) ε L h3 hp' h hp (by linarith) hL hpL huL hbig
  exact ⟨T'', h1, h4, h5⟩

/-- What is kept along the relay. -/
theorem relays_inv {q : V4 ℝ} (hq : IsUnit4 q) (hw : 0 < q.w) {κ : ℝ} (hκ : κ = 1 - 2 * (q.x ^ 2 + q.y ^ 2 + q.z ^ 2)) (hκ0 : 0 < κ)
    (hu : F.u ≤ 1 / 100000) (ks : List Spec.MsgKind) : ∀ (T' : Transform (Fl F)) (q1' : V4 (Fl F)) (q1 : V4 ℝ) (E : ℝ), T'.R = q2R q1' →
      Spec.QNear q1' q1 0 → |q1.w| ≤ 2 → Relay.Inv q q1 κ E → Spec.MNear T'.R (q2R q) (8880 * E / κ) → F.u ≤ E →
      40000 * (E + 3690 * F.u * ks.length) ≤ κ ^ 2 →
      ∃ T'', Spec.relays ks T' = .ok T'' ∧ T''.p = T'.p ∧ Spec.MNear T''.R (q2R q) (8880 * (E + 3690 * F.u * ks.length) / κ) := by
  have hu0 := F.u_nonneg
  have hκ1 : κ ≤ 1 := by nlinarith [sq_nonneg q.x, sq_nonneg q.y, sq_nonneg q.z]
  induction ks with
  | nil =>
    intro T' q1' q1 E _ _ _ _ h _ _
    refine ⟨T', rfl, rfl, ?_⟩
    simpa using h
  | cons k ks ih =>
    intro T' q1' q1 E hT h1 hw1 hI hM huE hc
    rw [List.length_cons, Nat.cast_add, Nat.cast_one] at hc ⊢
    have hl : (0 : ℝ) ≤ ks.length := Nat.cast_nonneg _
    have hul : 0 ≤ F.u * ks.length := mul_nonneg hu0 hl
    set μ := 3690 * F.u with hμ
    have hμ0 : 0 ≤ μ := by linarith
    have hE0 : 0 ≤ E := hu0.trans huE
    have hc2 : 40000 * (E + μ) ≤ κ ^ 2 := by
      have : E + μ ≤ E + μ * (ks.length + 1) := by rw [hμ]; nlinarith
      linarith
    have hκκ : κ ^ 2 ≤ κ := by nlinarith
    -- bounds on the present quaternion
    obtain ⟨aw, ax, ay, az⟩ := Fl.unit4_abs hq
    have hβ : q.x ^ 2 + q.y ^ 2 + q.z ^ 2 = (1 - κ) / 2 := by linarith
    have hD : |(q1.x ^ 2 + q1.y ^ 2 + q1.z ^ 2) - (q.x ^ 2 + q.y ^ 2 + q.z ^ 2)| ≤ κ / 4 := Relay.d4 hκ0 hμ0 hI.b (by linarith)
    have hb : q1.x ^ 2 + q1.y ^ 2 + q1.z ^ 2 ≤ 11 / 20 := by
      have := (abs_le.1 hD).2
      rw [hβ] at this
      linarith
    unfold IsUnit4 at hq
    have sx := sq_nonneg q.x
    have sy := sq_nonneg q.y
    have sz := sq_nonneg q.z
    have m : ∀ {a b c : ℝ}, |a - b * c| ≤ 3 * E → b ^ 2 + c ^ 2 ≤ 1 → |a| ≤ 11 / 20 := by
      intro a b c h1 h2
      have := Relay.prod_half h2
      have := abs_sub_abs_le_abs_sub a (b * c)
      linarith
    obtain ⟨q2', q2, g1, g2, g3⟩ := Fl.relay_hop hu h1 hw1 hb (m hI.x (by linarith)) (m hI.y (by linarith)) (m hI.z (by linarith))
    obtain ⟨hI2, cw, cx, cy, cz⟩ := hI.step hq hw hκ hκ0 hμ0 (by linarith) g3
    rw [← hT] at g1
    have hrel := relay_ok k T' g1
    -- the next quaternion is near
    have near : ∀ {a : Fl F} {r v : ℝ}, a.Near r 0 → |r - v| * κ ≤ 40 * (E + μ) → a.Near v (40 * (E + μ) / κ) := by
      rintro a r v ⟨v', e, he⟩ h
      refine ⟨v', e, ?_⟩
      have : v' = r := by
        have := abs_nonpos_iff.1 he
        linarith
      rw [this, le_div_iff₀ hκ0]
      exact h
    have hsmall : 40 * (E + μ) / κ ≤ 1 / 1000 := by
      rw [div_le_iff₀ hκ0]
      linarith
    have hQ : Spec.QNear q2' q (40 * (E + μ) / κ) := ⟨near g2.1 cw, near g2.2.1 cx, near g2.2.2.1 cy, near g2.2.2.2 cz⟩
    have hle : F.u ≤ 40 * (E + μ) / κ := by
      rw [le_div_iff₀ hκ0]
      nlinarith
    have hM2 := Fl.q2R_near hq hle hsmall hQ
    have hM2 : Spec.MNear (q2R q2') (q2R q) (8880 * (E + μ) / κ) := Fl.MNear.mono hM2 (le_of_eq (by ring))
    have hw2 : |q2.w| ≤ 2 := by
      have h1 : |q2.w - q.w| ≤ 40 * (E + μ) / κ := by rw [le_div_iff₀ hκ0]; exact cw
      have := abs_sub_abs_le_abs_sub q2.w q.w
      linarith
    obtain ⟨T'', f1, f2, f3⟩ := ih ⟨q2R q2', T'.p, (Spec.frames k T').1, (Spec.frames k T').2⟩ q2' q2 (E + μ) rfl g2 hw2 hI2 hM2 (by linarith)
      (by
        have e : E + μ * (ks.length + 1) = E + μ + μ * ks.length := by ring
        rwa [e] at hc)
    refine ⟨T'', ?_, f2, ?_⟩
    · unfold Spec.relays
      rw [hrel]
      exact f1
    · have e : E + μ * (ks.length + 1) = E + μ + μ * ks.length := by ring
      rw [e]
      exact f3

/-- C93, the part that holds for many messages: a rotation by less than a right angle (`κ > 0` at most the cosine of the angle; the trace is
one plus twice the cosine) sent on through any messages, in any number, drifts away at most linearly in their number.  Missing, because
false: angles between 90° and 120° (`C93_unstable_false`); and angles of exactly 90° and 120°.  For more than 120° see
`C93_drift_obtuse_partial`. -/
theorem C93_drift_partial (T' : Transform (Fl F)) (R : M3 ℝ) (hR : IsRot R) (ε κ : ℝ) (hu : F.u ≤ ε) (h : Spec.MNear T'.R R ε) (hκ : 0 < κ)
    (htr : 1 + 2 * κ ≤ R.trace) (ks : List Spec.MsgKind) (hn : 40000 * (41 * ε + 3690 * F.u * ks.length) ≤ κ ^ 2) :
    ∃ T'', Spec.relays ks T' = .ok T'' ∧ T''.p = T'.p ∧ Spec.MNear T''.R R (8880 * (41 * ε + 3690 * F.u * ks.length) / κ) := by
  have hu0 := F.u_nonneg
  have hε0 : 0 ≤ ε := hu0.trans hu
  have hl0 : (0 : ℝ) ≤ ks.length := Nat.cast_nonneg _
  have hul : 0 ≤ F.u * ks.length := mul_nonneg hu0 hl0
  obtain ⟨⟨r00, -, -⟩, ⟨-, r11, -⟩, -, -, r22⟩ := hR.opLe.entries
  have hκ1 : κ ≤ 1 := by
    have : R.trace = R.a00 + R.a11 + R.a22 := rfl
    linarith [(abs_le.1 r00).2, (abs_le.1 r11).2, (abs_le.1 r22).2]
  have hκκ : κ ^ 2 ≤ 1 := pow_le_one₀ hκ.le hκ1
  rcases ks with _ | ⟨k, ks⟩
  · refine ⟨T', rfl, rfl, Fl.MNear.mono h ?_⟩
    rw [List.length_nil, Nat.cast_zero, mul_zero, add_zero, le_div_iff₀ hκ]
    have := mul_le_mul_of_nonneg_left hκ1 hε0
    linarith
  rw [List.length_cons, Nat.cast_add, Nat.cast_one] at hn hl0 hul ⊢
  have hl : (0 : ℝ) ≤ ks.length := Nat.cast_nonneg _
  have hulk : 0 ≤ F.u * ks.length := mul_nonneg hu0 hl
  have hε : 1000000 * ε ≤ 1 := by linarith
  obtain ⟨q', q, h1, h2, h3, h4⟩ := C63_R2q_rounding R hR T'.R ε hu (by linarith) h
  -- the quaternion with positive scalar part
  have htr' : R.trace = 3 - 4 * (q.x ^ 2 + q.y ^ 2 + q.z ^ 2) := by
    rw [← h3]
    simp [q2R, hat, V4.vec, M3.trace]
    ring
  have hq2 := h2
  unfold IsUnit4 at hq2
  have hw0 : q.w ≠ 0 := by
    intro h0
    rw [h0] at hq2
    linarith
  obtain ⟨p, p1, p2, p3, p4, p5⟩ : ∃ p : V4 ℝ, IsUnit4 p ∧ 0 < p.w ∧ q2R p = R ∧ (p.x ^ 2 + p.y ^ 2 + p.z ^ 2 = q.x ^ 2 + q.y ^ 2 + q.z ^ 2) ∧
      (p.w * p.x = q.w * q.x ∧ p.w * p.y = q.w * q.y ∧ p.w * p.z = q.w * q.z) := by
    rcases lt_or_gt_of_ne hw0 with hw | hw
    · refine ⟨⟨-q.w, -q.x, -q.y, -q.z⟩, ?_, by simpa using hw, ?_, ?_, ?_, ?_, ?_⟩
      · unfold IsUnit4
        simpa using hq2
      · rw [← h3]
        ext <;> simp [q2R, hat, V4.vec]
      all_goals simp
    · exact ⟨q, h2, hw, h3, rfl, rfl, rfl, rfl⟩
  set κ' := 1 - 2 * (p.x ^ 2 + p.y ^ 2 + p.z ^ 2) with hκ'
  have hκκ' : κ ≤ κ' := by
    rw [hκ', p4]
    linarith
  have hκ'0 : 0 < κ' := by linarith
  have hκ'1 : κ' ≤ 1 := by rw [hκ']; linarith [sq_nonneg p.x, sq_nonneg p.y, sq_nonneg p.z]
  -- the first computed quaternion
  obtain ⟨⟨w1, ew, hw1⟩, ⟨x1, ex, hx1⟩, ⟨y1, ey, hy1⟩, ⟨z1, ez, hz1⟩⟩ := h4
  have hQ : Spec.QNear q' ⟨w1, x1, y1, z1⟩ 0 := ⟨⟨_, ew, by simp⟩, ⟨_, ex, by simp⟩, ⟨_, ey, by simp⟩, _, ez, by simp⟩
  have hI0 := Relay.Inv.start (q := q) (q1 := ⟨w1, x1, y1, z1⟩) (κ := κ') (E := 41 * ε) h2 (by rw [hκ', p4]) (by linarith) hw1 hx1 hy1 hz1
  have hI : Relay.Inv p ⟨w1, x1, y1, z1⟩ κ' (41 * ε) :=
    ⟨by rw [p5.1]; exact hI0.x, by rw [p5.2.1]; exact hI0.y, by rw [p5.2.2]; exact hI0.z, by rw [p4]; exact hI0.b⟩
  have hM1 : Spec.MNear (q2R q') (q2R p) (8880 * (41 * ε) / κ') := by
    have := C63_q2R_rounding q h2 q' (41 * ε) (by linarith) (by linarith) ⟨⟨w1, ew, hw1⟩, ⟨x1, ex, hx1⟩, ⟨y1, ey, hy1⟩, ⟨z1, ez, hz1⟩⟩
    rw [h3] at this
    rw [p3]
    refine Fl.MNear.mono this ?_
    rw [le_div_iff₀ hκ'0]
    have := mul_le_mul_of_nonneg_left hκ'1 (by linarith : 0 ≤ 222 * (41 * ε))
    linarith
  have hw2 : |w1| ≤ 2 := by
    have := abs_sub_abs_le_abs_sub w1 q.w
    have := (Fl.unit4_abs h2).1
    linarith
  have hcond : 40000 * (41 * ε + 3690 * F.u * ks.length) ≤ κ' ^ 2 := by
    have : κ ^ 2 ≤ κ' ^ 2 := pow_le_pow_left₀ hκ.le hκκ' 2
    linarith
  obtain ⟨T'', f1, f2, f3⟩ := relays_inv p1 p2 hκ' hκ'0 (by linarith) ks ⟨q2R q', T'.p, (Spec.frames k T').1, (Spec.frames k T').2⟩ q' _ (41 * ε)
    rfl hQ hw2 hI hM1 (by linarith) hcond
  refine ⟨T'', ?_, f2, ?_⟩
  · unfold Spec.relays
    rw [relay_ok k T' h1]
    exact f1
  · rw [p3] at f3
    refine Fl.MNear.mono f3 ?_
    refine div_le_div₀ ?_ ?_ hκ hκκ'
    · linarith
    · linarith

/-- Non-vacuity of `C93_drift_partial`: a turn by 60° about z in binary64, a million messages. -/
example (lib : Libm) (T' : Transform (Fl (b64 lib))) (s : ℝ) (hs : s ^ 2 = 3 / 4)
    (h : Spec.MNear T'.R ⟨1/2, -s, 0, s, 1/2, 0, 0, 0, 1⟩ (2⁻¹ ^ 50)) (ks : List Spec.MsgKind) (hk : ks.length ≤ 1000000) :
    ∃ T'', Spec.relays ks T' = .ok T'' ∧ T''.p = T'.p ∧ Spec.MNear T''.R ⟨1/2, -s, 0, s, 1/2, 0, 0, 0, 1⟩ (1 / 10) := by
  have hR : IsRot (⟨1/2, -s, 0, s, 1/2, 0, 0, 0, 1⟩ : M3 ℝ) := by
    refine ⟨?_, ?_⟩
    · ext <;> simp <;> nlinarith
    · simp only [M3.det]
      nlinarith
  have hl : (ks.length : ℝ) ≤ 1000000 := by exact_mod_cast hk
  have hu : (b64 lib).u = 2⁻¹ ^ 50 := rfl
  have hb : 41 * 2⁻¹ ^ 50 + 3690 * (b64 lib).u * ks.length ≤ 1 / 200000 := by
    rw [hu]
    have := mul_le_mul_of_nonneg_left hl (by positivity : (0 : ℝ) ≤ 3690 * 2⁻¹ ^ 50)
    refine (add_le_add_right this _).trans ?_
    norm_num
  obtain ⟨T'', h1, h2, h3⟩ := C93_drift_partial T' _ hR (2⁻¹ ^ 50) (1 / 2) (le_of_eq hu) h (by norm_num) (by simp only [M3.trace]; norm_num) ks
    (by linarith)
  exact ⟨T'', h1, h2, Fl.MNear.mono h3 (by linarith)⟩

/-- What is kept along the relay when the trace is negative. -/
theorem relays_keep {q : V4 ℝ} (hq : IsUnit4 q) {τ : ℝ} (htr : 3 - 4 * (q.x ^ 2 + q.y ^ 2 + q.z ^ 2) ≤ -τ) (hτ : τ ≤ 1)
    (ks : List Spec.MsgKind) : ∀ (T' : Transform (Fl F)) (q1' : V4 (Fl F)) (q1 : V4 ℝ) (s E : ℝ), T'.R = q2R q1' → Spec.QNear q1' q1 0 →
      Relay.Keep q q1 s E → F.u ≤ E → 1000 * (E + 4140 * F.u * ks.length) ≤ τ →
      ∃ T'', Spec.relays ks T' = .ok T'' ∧ T''.p = T'.p ∧ Spec.MNear T''.R (q2R q) (222 * (E + 4140 * F.u * ks.length)) := by
  have hu0 := F.u_nonneg
  induction ks with
  | nil =>
    intro T' q1' q1 s E hT h1 hK huE hc
    rw [List.length_nil, Nat.cast_zero, mul_zero, add_zero] at hc ⊢
    refine ⟨T', rfl, rfl, ?_⟩
    have hunit : IsUnit4 (⟨s * q.w, s * q.x, s * q.y, s * q.z⟩ : V4 ℝ) := by
      unfold IsUnit4 at hq ⊢
      linear_combination (q.w ^ 2 + q.x ^ 2 + q.y ^ 2 + q.z ^ 2) * hK.sign + hq
    have near : ∀ {a : Fl F} {r v : ℝ}, a.Near r 0 → |r - v| ≤ E → a.Near v E := by
      rintro a r v ⟨v', e, he⟩ h
      refine ⟨v', e, ?_⟩
      have : v' = r := by
        have := abs_nonpos_iff.1 he
        linarith
      rw [this]
      exact h
    have hQ : Spec.QNear q1' ⟨s * q.w, s * q.x, s * q.y, s * q.z⟩ E := ⟨near h1.1 hK.w, near h1.2.1 hK.x, near h1.2.2.1 hK.y, near h1.2.2.2 hK.z⟩
    have := Fl.q2R_near hunit huE (by linarith) hQ
    rw [Relay.q2R_scale q hK.sign, ← hT] at this
    exact this
  | cons k ks ih =>
    intro T' q1' q1 s E hT h1 hK huE hc
    rw [List.length_cons, Nat.cast_add, Nat.cast_one] at hc ⊢
    have hl : (0 : ℝ) ≤ ks.length := Nat.cast_nonneg _
    have hul : 0 ≤ F.u * ks.length := mul_nonneg hu0 hl
    have hE : 1000 * E ≤ τ := by linarith
    have hE0 : 0 ≤ E := hu0.trans huE
    obtain ⟨aw, ax, ay, az⟩ := Fl.unit4_abs hq
    have sq : ∀ {a b : ℝ}, |a - s * b| ≤ E → |b| ≤ 1 → |a ^ 2 - b ^ 2| ≤ 21 / 10 * E := by
      intro a b h hb
      have hs : (s * b) ^ 2 = b ^ 2 := by linear_combination b ^ 2 * hK.sign
      have hsb : |s * b| ≤ 1 := by rw [← sq_le_one_iff_abs_le_one, hs, sq_le_one_iff_abs_le_one]; exact hb
      have e : a ^ 2 - b ^ 2 = (a - s * b) * (a - s * b + 2 * (s * b)) := by rw [← hs]; ring
      rw [e, abs_mul]
      have h2 : |a - s * b + 2 * (s * b)| ≤ 21 / 10 := by
        refine (abs_add_le _ _).trans ?_
        rw [abs_mul, abs_two]
        linarith
      calc _ ≤ E * (21 / 10) := mul_le_mul h h2 (abs_nonneg _) hE0
        _ = _ := by ring
    have w2 := abs_le.1 (sq hK.w aw)
    have x2 := abs_le.1 (sq hK.x ax)
    have y2 := abs_le.1 (sq hK.y ay)
    have z2 := abs_le.1 (sq hK.z az)
    have hq' := hq
    unfold IsUnit4 at hq'
    obtain ⟨q2', q2, t, g1, g2, g3⟩ := Fl.relay_keep (F := F) (by linarith) h1
      (by rw [abs_le]; constructor <;> linarith [w2.1, w2.2, x2.1, x2.2, y2.1, y2.2, z2.1, z2.2]) (by linarith [x2.1, y2.1, z2.1])
    rw [← hT] at g1
    have ht : |t| = 1 := by
      have : |t| * |t| = 1 := by rw [abs_mul_abs_self, g3.sign]
      rcases sq_eq_one_iff_of_side (x := |t|) (by rw [pow_two]; exact this) with h | h
      · exact h
      · linarith [abs_nonneg t]
    have comb : ∀ {a b c : ℝ}, |c - t * b| ≤ 4140 * F.u → |b - s * a| ≤ E → |c - t * s * a| ≤ E + 4140 * F.u := by
      intro a b c h1 h2
      have e : c - t * s * a = (c - t * b) + t * (b - s * a) := by ring
      rw [e]
      refine (abs_add_le _ _).trans ?_
      rw [abs_mul, ht, one_mul]
      linarith
    have hK2 : Relay.Keep q q2 (t * s) (E + 4140 * F.u) :=
      ⟨by linear_combination s * s * g3.sign + hK.sign, comb g3.w hK.w, comb g3.x hK.x, comb g3.y hK.y, comb g3.z hK.z⟩
    have e : E + 4140 * F.u * (ks.length + 1) = E + 4140 * F.u + 4140 * F.u * ks.length := by ring
    rw [e] at hc ⊢
    obtain ⟨T'', f1, f2, f3⟩ := ih ⟨q2R q2', T'.p, (Spec.frames k T').1, (Spec.frames k T').2⟩ q2' q2 (t * s) (E + 4140 * F.u) rfl g2 hK2 (by linarith) hc
    refine ⟨T'', ?_, f2, f3⟩
    unfold Spec.relays
    rw [relay_ok k T' g1]
    exact f1

/-- C93, the part that holds for many messages and rotations by more than 120° (`τ > 0`, the trace at most `-τ`): the drift is at most linear
in the number of messages. -/
theorem C93_drift_obtuse_partial (T' : Transform (Fl F)) (R : M3 ℝ) (hR : IsRot R) (ε τ : ℝ) (hu : F.u ≤ ε) (h : Spec.MNear T'.R R ε)
    (htr : R.trace ≤ -τ) (ks : List Spec.MsgKind) (hn : 1000 * (41 * ε + 4140 * F.u * ks.length) ≤ τ) :
    ∃ T'', Spec.relays ks T' = .ok T'' ∧ T''.p = T'.p ∧ Spec.MNear T''.R R (222 * (41 * ε + 4140 * F.u * ks.length)) := by
  have hu0 := F.u_nonneg
  have hε0 : 0 ≤ ε := hu0.trans hu
  rcases ks with _ | ⟨k, ks⟩
  · refine ⟨T', rfl, rfl, Fl.MNear.mono h ?_⟩
    rw [List.length_nil, Nat.cast_zero, mul_zero, add_zero]
    linarith
  rw [List.length_cons, Nat.cast_add, Nat.cast_one] at hn ⊢
  have hl : (0 : ℝ) ≤ ks.length := Nat.cast_nonneg _
  have hul : 0 ≤ F.u * ks.length := mul_nonneg hu0 hl
  have hτ : τ ≤ 1 := by
    obtain ⟨q, -, h2, h3⟩ := C06_R2q_q2R R hR
    have : R.trace = 3 - 4 * (q.x ^ 2 + q.y ^ 2 + q.z ^ 2) := by
      rw [← h3]
      simp [q2R, hat, V4.vec, M3.trace]
      ring
    unfold IsUnit4 at h2
    linarith [sq_nonneg q.w]
  obtain ⟨q', q, h1, h2, h3, h4⟩ := C63_R2q_rounding R hR T'.R ε hu (by linarith) h
  have htr' : R.trace = 3 - 4 * (q.x ^ 2 + q.y ^ 2 + q.z ^ 2) := by
    rw [← h3]
    simp [q2R, hat, V4.vec, M3.trace]
    ring
  obtain ⟨⟨w1, ew, hw1⟩, ⟨x1, ex, hx1⟩, ⟨y1, ey, hy1⟩, ⟨z1, ez, hz1⟩⟩ := h4
  have hQ : Spec.QNear q' ⟨w1, x1, y1, z1⟩ 0 := ⟨⟨_, ew, by simp⟩, ⟨_, ex, by simp⟩, ⟨_, ey, by simp⟩, _, ez, by simp⟩
  have hK : Relay.Keep q ⟨w1, x1, y1, z1⟩ 1 (41 * ε) :=
    ⟨one_mul 1, by rw [one_mul]; exact hw1, by rw [one_mul]; exact hx1, by rw [one_mul]; exact hy1, by rw [one_mul]; exact hz1⟩
  obtain ⟨T'', f1, f2, f3⟩ := relays_keep h2 (τ := τ) (by rw [← htr']; exact htr) hτ ks ⟨q2R q', T'.p, (Spec.frames k T').1, (Spec.frames k T').2⟩ q' _ 1
    (41 * ε) rfl hQ hK (by linarith) (by linarith)
  refine ⟨T'', ?_, f2, ?_⟩
  · unfold Spec.relays
    rw [relay_ok k T' h1]
    exact f1
  · rw [h3] at f3
    exact Fl.MNear.mono f3 (by linarith)

/-- Non-vacuity of `C93_drift_obtuse_partial`: half turns in binary64, ten thousand messages. -/
example (lib : Libm) (T' : Transform (Fl (b64 lib))) (h : Spec.MNear T'.R ⟨-1, 0, 0, 0, -1, 0, 0, 0, 1⟩ (2⁻¹ ^ 50)) (ks : List Spec.MsgKind)
    (hk : ks.length ≤ 10000) :
    ∃ T'', Spec.relays ks T' = .ok T'' ∧ T''.p = T'.p ∧ Spec.MNear T''.R ⟨-1, 0, 0, 0, -1, 0, 0, 0, 1⟩ (1 / 100000) := by
  have hl : (ks.length : ℝ) ≤ 10000 := by exact_mod_cast hk
  have hu : (b64 lib).u = 2⁻¹ ^ 50 := rfl
  have hb : 41 * 2⁻¹ ^ 50 + 4140 * (b64 lib).u * ks.length ≤ 1 / 25000000 := by
    rw [hu]
    have := mul_le_mul_of_nonneg_left hl (by positivity : (0 : ℝ) ≤ 4140 * 2⁻¹ ^ 50)
    refine (add_le_add_right this _).trans ?_
    norm_num
  obtain ⟨T'', h1, h2, h3⟩ := C93_drift_obtuse_partial T' _ ⟨by ext <;> simp, by norm_num [M3.det]⟩ (2⁻¹ ^ 50) 1 (le_of_eq hu) h
    (by simp only [M3.trace]; norm_num) ks (by linarith)
  exact ⟨T'', h1, h2, Fl.MNear.mono h3 (by linarith)⟩

/-- C93, a part that holds without bound on the number: in exact arithmetic, a matrix of a quaternion of any length whose trace is not
positive, as after a first message for rotations by 120° or more, is sent on unchanged for ever. -/
theorem C93_fixed_partial (q : V4 ℝ) (h : (q2R q).trace ≤ 0) (ks : List Spec.MsgKind) : ∀ T : Transform XReal, T.R = (q2R q).up →
    ∃ T', Spec.relays ks T = .ok T' ∧ T'.R = T.R ∧ T'.p = T.p := by
  induction ks with
  | nil => exact fun T _ => ⟨T, rfl, rfl, rfl⟩
  | cons k ks ih =>
    intro T hT
    obtain ⟨q2, h1, h2⟩ := Relay.fixed q h
    rw [← hT] at h1
    have h3 := relay_ok k T h1
    have h4 : q2R q2.up = T.R := by rw [q2R_up, h2, hT]
    obtain ⟨T', g1, g2, g3⟩ := ih ⟨q2R q2.up, T.p, (Spec.frames k T).1, (Spec.frames k T).2⟩ (by simp only; rw [h4, hT])
    refine ⟨T', ?_, by rw [g2]; exact h4, g3⟩
    unfold Spec.relays
    rw [h3]
    exact g1

/-- Non-vacuity: a half turn about x whose quaternion is a hundredth too long. -/
example : ∃ T', Spec.relays [.pose, .pose, .transformStamped] (⟨(q2R ⟨0, 101/100, 0, 0⟩ : M3 ℝ).up, 0, none, none⟩ : Transform XReal) = .ok T' ∧
    T'.R = (q2R ⟨0, 101/100, 0, 0⟩ : M3 ℝ).up := by
  obtain ⟨T', h1, h2, -⟩ := C93_fixed_partial ⟨0, 101/100, 0, 0⟩ (by simp [q2R, hat, V4.vec, M3.trace]; norm_num)
    [.pose, .pose, .transformStamped] ⟨(q2R ⟨0, 101/100, 0, 0⟩ : M3 ℝ).up, 0, none, none⟩ rfl
  exact ⟨T', h1, h2⟩

/-- The matrix with cosine `c` of a rotation about z whose sine is `2 √6 / 5`. -/
noncomputable def Spec.about_z (c : ℝ) : M3 ℝ := ⟨c, -(2 * Real.sqrt 6 / 5), 0, 2 * Real.sqrt 6 / 5, c, 0, 0, 0, 1⟩

theorem sine_sq : (2 * Real.sqrt 6 / 5) ^ 2 = 24 / 25 := by
  have := Real.sq_sqrt (show (0 : ℝ) ≤ 6 by norm_num)
  linear_combination 4 / 25 * this

/-- One message moves the distance `h` of the cosine from `-1/5` to `6 h / (4 + 5 h)`. -/
theorem relay_about_z (k : Spec.MsgKind) {h : ℝ} (h0 : 0 ≤ h) (T : Transform XReal) (hT : T.R = (Spec.about_z (-1/5 + h)).up) :
    ∃ T', Spec.relay k T = .ok T' ∧ T'.R = (Spec.about_z (-1/5 + 6 * h / (4 + 5 * h))).up ∧ T'.p = T.p := by
  obtain ⟨q, h1, h2⟩ := Relay.turn_z (c := -1/5 + h) (s := 2 * Real.sqrt 6 / 5) (by linarith)
  have h1' : R2q T.R = .ok q.up := by rw [hT]; exact h1
  refine ⟨_, relay_ok k T h1', ?_, rfl⟩
  show q2R q.up = _
  rw [q2R_up, h2, sine_sq]
  have e : 1 - 24 / 25 / (1 + (-1 / 5 + h)) = -1/5 + 6 * h / (4 + 5 * h) := by
    have : 4 + 5 * h ≠ 0 := by positivity
    rw [show 1 + (-1 / 5 + h) = (4 + 5 * h) / 5 by ring]
    field_simp
    ring
  rw [e]
  rfl

theorem relays_about_z (ks : List Spec.MsgKind) : ∀ {h : ℝ}, 0 < h → h ≤ 2/5 → ∀ T : Transform XReal, T.R = (Spec.about_z (-1/5 + h)).up →
    ∃ T' h', Spec.relays ks T = .ok T' ∧ T'.R = (Spec.about_z (-1/5 + h')).up ∧ T'.p = T.p ∧ h' ≤ 2/5 ∧
      (3/10 ≤ h' ∨ h * (12/11) ^ ks.length ≤ h') := by
  induction ks with
  | nil => exact fun {h} h0 h1 T hT => ⟨T, h, rfl, hT, rfl, h1, Or.inr (by simp)⟩
  | cons k ks ih =>
    intro h h0 h1 T hT
    obtain ⟨T1, f1, f2, f3⟩ := relay_about_z k h0.le T hT
    have hd : 0 < 4 + 5 * h := by linarith
    have g0 : 0 < 6 * h / (4 + 5 * h) := by positivity
    have g1 : 6 * h / (4 + 5 * h) ≤ 2/5 := by rw [div_le_iff₀ hd]; linarith
    obtain ⟨T', h', e1, e2, e3, e4, e5⟩ := ih g0 g1 T1 f2
    refine ⟨T', h', ?_, e2, e3.trans f3, e4, ?_⟩
    · unfold Spec.relays
      rw [f1]
      exact e1
    · rcases e5 with e5 | e5
      · exact Or.inl e5
      have hpow : (1 : ℝ) ≤ (12/11) ^ ks.length := one_le_pow₀ (by norm_num)
      rcases le_or_gt h (3/10) with hs | hs
      · right
        have : h * (12/11) ≤ 6 * h / (4 + 5 * h) := by rw [le_div_iff₀ hd]; nlinarith
        rw [List.length_cons, pow_succ']
        calc h * (12/11 * (12/11) ^ ks.length) = h * (12/11) * (12/11) ^ ks.length := by ring
          _ ≤ 6 * h / (4 + 5 * h) * (12/11) ^ ks.length := mul_le_mul_of_nonneg_right this (by linarith)
          _ ≤ h' := e5
      · left
        have : 3/10 ≤ 6 * h / (4 + 5 * h) := by rw [le_div_iff₀ hd]; nlinarith
        nlinarith

/-- C93 (counterexample): a rotation by an angle between 90° and 120°, here the one about z with cosine -1/5 (101.5°), is sent on unchanged by
any messages, but a matrix that differs from it by however little in two entries, as any stored matrix does, turns into one that is off by at
least 3/10 in these entries after enough messages, even when the conversions themselves make no error at all. -/
theorem C93_unstable_false :
    IsRot (Spec.about_z (-1/5)) ∧
    (∀ ks (T : Transform XReal), T.R = (Spec.about_z (-1/5)).up → ∃ T', Spec.relays ks T = .ok T' ∧ T'.R = T.R) ∧
    ∀ δ, 0 < δ → δ ≤ 2/5 → ∃ N : ℕ, ∀ ks : List Spec.MsgKind, N ≤ ks.length → ∀ T : Transform XReal, T.R = (Spec.about_z (-1/5 + δ)).up →
      ∃ T' c, Spec.relays ks T = .ok T' ∧ T'.R = (Spec.about_z c).up ∧ -1/5 + 3/10 ≤ c := by
  refine ⟨?_, ?_, ?_⟩
  · have := sine_sq
    refine ⟨?_, ?_⟩
    · ext <;> simp [Spec.about_z] <;> linarith
    · simp only [M3.det, Spec.about_z]
      linarith
  · intro ks
    induction ks with
    | nil => exact fun T _ => ⟨T, rfl, rfl⟩
    | cons k ks ih =>
      intro T hT
      obtain ⟨T1, f1, f2, -⟩ := relay_about_z k (h := 0) le_rfl T (by rw [add_zero]; exact hT)
      rw [mul_zero, zero_div, add_zero] at f2
      obtain ⟨T', e1, e2⟩ := ih T1 f2
      refine ⟨T', ?_, by rw [e2, f2, hT]⟩
      unfold Spec.relays
      rw [f1]
      exact e1
  · intro δ h0 h1
    obtain ⟨N, hN⟩ := pow_unbounded_of_one_lt (3/10 / δ) (show (1 : ℝ) < 12/11 by norm_num)
    refine ⟨N, fun ks hk T hT => ?_⟩
    obtain ⟨T', h', e1, e2, -, -, e5⟩ := relays_about_z ks h0 h1 T hT
    refine ⟨T', _, e1, e2, ?_⟩
    have : 3/10 ≤ h' := by
      rcases e5 with e5 | e5
      · exact e5
      have h3 : (12/11 : ℝ) ^ N ≤ (12/11) ^ ks.length := pow_le_pow_right₀ (by norm_num) hk
      have h4 : 3/10 / δ ≤ (12/11 : ℝ) ^ ks.length := by linarith
      rw [div_le_iff₀ h0] at h4
      linarith
    linarith

/-- Non-vacuity of `C93_once`: the quarter turn about z in binary64. -/
example (lib : Libm) (k : Spec.MsgKind) (R : M3 ℝ) (hR : IsRot R) (p : V3 (Fl (b64 lib))) (R' : M3 (Fl (b64 lib))) (h : Spec.MNear R' R (2⁻¹ ^ 50)) :
    ∃ T'', Spec.relay k ⟨R', p, some "world", none⟩ = .ok T'' ∧ T''.p = p ∧ Spec.MNear T''.R R (2⁻¹ ^ 36) := by
  obtain ⟨T'', h1, h2, -, h3⟩ := C93_once (F := b64 lib) ⟨R', p, some "world", none⟩ R hR k (2⁻¹ ^ 50) (le_refl ((2⁻¹ : ℝ) ^ 50)) (by norm_num) h
  exact ⟨T'', h1, h2, Fl.MNear.mono h3 (by norm_num)⟩
