import Verif.Model.Shared
import Verif.Props.InvkinMisc
import Verif.Lemmas.Opw

/-!
# Property C102: objects that share arrays
-/
set_option autoImplicit false

section
variable {α : Type} [Add α] [Sub α] [Mul α] [Div α] [Neg α] [Zero α] [One α] [LT α] [LE α] [DecidableLT α] [DecidableLE α] [Elem α]

/-- A call on one of a number of robot objects. -/
structure Spec.Call (α : Type) where
  obj : RobotObj α
  pose : Transform α
  last : Option (List α)

/-- A history of calls on robot objects: the memory at the end and all answers. -/
def Spec.sharedHistory (m : Mem α) : List (Spec.Call α) → Mem α × List (Except PyErr (List (List α)))
  | [] => (m, [])
  | c :: cs =>
    let r := callSpherical m c.obj c.pose c.last
    let rest := Spec.sharedHistory r.1 cs
    (rest.1, r.2 :: rest.2)

/-- Two robots that may share their matrix `P`: if they do, their fourth and sixth axes are the same. -/
def Spec.Compatible (o o' : RobotObj α) : Prop :=
  o.P = o'.P → o.body.H[3]? = o'.body.H[3]? ∧ o.body.H[5]? = o'.body.H[5]?

theorem moveColumn_congr (H H' P : List (V3 α)) (src ax dst : Nat) (h : H[ax]? = H'[ax]?) :
    moveColumn H P src ax dst = moveColumn H' P src ax dst := by
  unfold moveColumn
  rw [h]

theorem fixWrist_congr (H H' P : List (V3 α)) (h3 : H[3]? = H'[3]?) (h5 : H[5]? = H'[5]?) : fixWrist H P = fixWrist H' P := by
  unfold fixWrist
  rw [moveColumn_congr H H' P 4 3 3 h3]
  rcases moveColumn H' P 4 3 3 with ⟨P1, _ | _⟩
  · rfl
  · exact moveColumn_congr H H' P1 5 5 6 h5

/-- After a call on `o`, a compatible object is as before or as after a call of its own. -/
theorem call_get (m : Mem α) (o o' : RobotObj α) (hc : Spec.Compatible o o') (pose : Transform α) (last : Option (List α)) :
    o'.get (callSpherical m o pose last).1 = o'.get m ∨
    o'.get (callSpherical m o pose last).1 = (robot6_sphericalwrist_invkin (o'.get m) pose last).1 := by
  by_cases h : o.P = o'.P
  · obtain ⟨h3, h5⟩ := hc h
    right
    show ({ o'.body with P := if o'.P = o.P then (fixWrist o.body.H (m.mats o.P)).1 else m.mats o'.P } : Robot α) =
      { o'.body with P := (fixWrist o'.body.H (m.mats o'.P)).1 }
    rw [if_pos h.symm, fixWrist_congr _ _ _ h3 h5, h]
  · left
    show ({ o'.body with P := if o'.P = o.P then _ else m.mats o'.P } : Robot α) = { o'.body with P := m.mats o'.P }
    rw [if_neg (Ne.symm h)]

end

theorem Robot.Sized.call {m : Mem ℝ} {o o' : RobotObj ℝ} (h : (o'.get m).Sized) (pose : Transform ℝ) (last : Option (List ℝ)) :
    (o'.get (callSpherical m o pose last).1).Sized := by
  refine ⟨?_, h.joints⟩
  have hl := h.columns
  show (if o'.P = o.P then (fixWrist o.body.H (m.mats o.P)).1 else m.mats o'.P).length = _
  split_ifs with e
  · rw [← e]
    have : (fixWrist o.body.H (m.mats o'.P)).1.length = (m.mats o'.P).length := by
      unfold fixWrist
      have h1 := moveColumn_length o.body.H (m.mats o'.P) 4 3 3
      rcases hm : moveColumn o.body.H (m.mats o'.P) 4 3 3 with ⟨P1, _ | _⟩
      · rw [hm] at h1; exact h1
      · rw [hm] at h1; exact (moveColumn_length _ _ _ _ _).trans h1
    rw [this]; exact hl
  · exact hl

/-- C102 for robots that share a matrix `P` only if they have the same fourth and sixth axis (e.g. one arm with several tools): after
any history of calls of `robot6_sphericalwrist_invkin` on them, `fwdkin` and `robotjacobian` of each give what they gave before.
Missing: robots with other axes (`C102_shared_false`). -/
theorem C102_robots_partial (m : Mem ℝ) (cs : List (Spec.Call ℝ)) (o : RobotObj ℝ) (hz : (o.get m).Sized)
    (hc : ∀ c ∈ cs, Spec.Compatible c.obj o) (θ : List ℝ) (ignore : Bool) :
    fwdkin (o.get (Spec.sharedHistory m cs).1) θ ignore = fwdkin (o.get m) θ ignore ∧
    robotjacobian (o.get (Spec.sharedHistory m cs).1) θ ignore = robotjacobian (o.get m) θ ignore := by
  induction cs generalizing m with
  | nil => exact ⟨rfl, rfl⟩
  | cons c cs ih =>
    obtain ⟨h1, h2⟩ := ih (callSpherical m c.obj c.pose c.last).1 (hz.call c.pose c.last) (fun c' h => hc c' (List.mem_cons_of_mem _ h))
    have h := call_get m c.obj o (hc c List.mem_cons_self) c.pose c.last
    rcases h with h | h
    · rw [h] at h1 h2
      exact ⟨h1, h2⟩
    · obtain ⟨g1, g2⟩ := C33_robot_unchanged (o.get m) hz c.pose c.last θ ignore
      rw [h] at h1 h2
      exact ⟨h1.trans g1, h2.trans g2⟩

/-- C102 for the answers: in any history of calls on robots that share a matrix `P` only if they have the same fourth and sixth axis,
every call gives the answer that a robot with a matrix of its own would give.  Missing: robots with other axes (`C102_shared_false`). -/
theorem C102_answers_partial (m : Mem XReal) (cs : List (Spec.Call XReal)) (hc : ∀ c ∈ cs, ∀ c' ∈ cs, Spec.Compatible c.obj c'.obj) :
    (Spec.sharedHistory m cs).2 = cs.map fun c => (robot6_sphericalwrist_invkin (c.obj.get m) c.pose c.last).2 := by
  suffices h : ∀ m' : Mem XReal, (∀ c ∈ cs, ∀ pose last, (robot6_sphericalwrist_invkin (c.obj.get m') pose last).2 =
      (robot6_sphericalwrist_invkin (c.obj.get m) pose last).2) →
      (Spec.sharedHistory m' cs).2 = cs.map fun c => (robot6_sphericalwrist_invkin (c.obj.get m) c.pose c.last).2 from
    h m fun _ _ _ _ => rfl
  induction cs with
  | nil => intro m' _; rfl
  | cons c cs ih =>
    intro m' h'
    simp only [Spec.sharedHistory, List.map_cons]
    rw [show (callSpherical m' c.obj c.pose c.last).2 = _ from h' c List.mem_cons_self c.pose c.last,
      ih (fun a ha b hb => hc a (List.mem_cons_of_mem _ ha) b (List.mem_cons_of_mem _ hb)) (callSpherical m' c.obj c.pose c.last).1]
    intro c' hc' pose last
    have hm := List.mem_cons_of_mem c hc'
    rcases call_get m' c.obj c'.obj (hc c List.mem_cons_self c' hm) c.pose c.last with h | h
    · rw [h]; exact h' c' hm pose last
    · rw [h, C33_second_call]; exact h' c' hm pose last

/-- the position of the end of a bare chain of six rotary joints -/
theorem fwdkin_bare_six (robot : Robot ℝ) (h0 h1 h2 h3 h4 h5 p0 p1 p2 p3 p4 p5 p6 : V3 ℝ)
    (hH : robot.H = [h0, h1, h2, h3, h4, h5]) (hP : robot.P = [p0, p1, p2, p3, p4, p5, p6]) (hF : robot.Tflange = none)
    (hB : robot.Tbase = none) (hT : robot.Rtool = none) (ht : robot.jointType = [0, 0, 0, 0, 0, 0]) (t0 t1 t2 t3 t4 t5 : ℝ) :
    ∃ T, fwdkin robot [t0, t1, t2, t3, t4, t5] true = .ok T ∧
      T.p = p0 + (rot h0 t0).mulVec (p1 + (rot h1 t1).mulVec (p2 + (rot h2 t2).mulVec (p3 + (rot h3 t3).mulVec (p4 +
        (rot h4 t4).mulVec (p5 + (rot h5 t5).mulVec p6))))) := by
  rcases robot with ⟨H, P, jt, lo, up, ve, ac, M, Rt, pt, jn, rl, tl, Tf, Tb, ef⟩
  simp only at hH hP hF hB hT ht
  subst hH hP hF hB hT ht
  refine ⟨_, rfl, ?_⟩
  simp only [applyAux, fwdStep_rotary (t := 0) (Or.inl rfl), M3.one_mul', M3.mulVec_add, M3.mulVec_mulVec, M3.mul_assoc', add_assoc]

/-- C102 fails for robots with different axes: if the fourth axis of a robot is not along its fourth offset, but that of another robot
built from the same matrix `P` is, then one call on the other robot, whatever the pose, changes the pose that `fwdkin` gives for the
first. -/
theorem C102_shared_false (m : Mem ℝ) (o o' : RobotObj ℝ) (hs : o.P = o'.P) (p0 p1 p2 p3 p4 p6 h0 h1 h2 h3 h4 h5 k : V3 ℝ) (c : ℝ)
    (hP : m.mats o.P = [p0, p1, p2, p3, p4, 0, p6]) (hk : o.body.H[3]? = some k) (hk1 : IsUnit3 k) (hp : p4 = c • k)
    (hH : o'.body.H = [h0, h1, h2, h3, h4, h5]) (hu : IsUnit3 h3) (hx : h3.cross p4 ≠ 0) (hj : o'.body.jointType = [0, 0, 0, 0, 0, 0])
    (hF : o'.body.Tflange = none) (hB : o'.body.Tbase = none) (hT : o'.body.Rtool = none) (pose : Transform ℝ)
    (last : Option (List ℝ)) : ∃ θ T T', fwdkin (o'.get m) θ true = .ok T ∧
      fwdkin (o'.get (callSpherical m o pose last).1) θ true = .ok T' ∧ T.p ≠ T'.p := by
  have hz : ∀ v : V3 ℝ, isZeroV v ↔ v = 0 := by
    intro v
    simp only [isZeroV, feq_real, V3.ext_iff, V3.zero_x, V3.zero_y, V3.zero_z]
  have hkk : k.x * k.x + k.y * k.y + k.z * k.z = 1 := hk1
  have hne : p4 ≠ 0 := by
    rintro rfl
    apply hx
    ext <;> simp
  have hpar : isZeroV (p4 - V3.smul (p4.dot k) k) := by
    rw [hz]
    have hd : p4.dot k = c := by
      rw [hp]; simp only [V3.dot, V3.hsmul_x, V3.hsmul_y, V3.hsmul_z]; linear_combination c * hkk
    rw [hd, hp]
    ext <;> simp
  have hfix : (fixWrist o.body.H (m.mats o.P)).1 = [p0, p1, p2, p3 + p4, 0, 0, p6] := by
    have e1 : moveColumn o.body.H (m.mats o.P) 4 3 3 = ([p0, p1, p2, p3 + p4, 0, 0, p6], .ok ()) := by
      rw [hP]
      unfold moveColumn
      simp only [List.getElem?_cons_succ, List.getElem?_cons_zero, hk, if_neg (fun h => hne ((hz p4).1 h)), if_pos hpar]
      rfl
    unfold fixWrist
    rw [e1]
    unfold moveColumn
    simp only [List.getElem?_cons_succ, List.getElem?_cons_zero, if_pos ((hz 0).2 rfl)]
  obtain ⟨T, hT1, hT2⟩ := fwdkin_bare_six (o'.get m) h0 h1 h2 h3 h4 h5 p0 p1 p2 p3 p4 0 p6 hH (by rw [← hP, hs]; rfl) hF hB hT hj
    0 0 0 Real.pi 0 0
  obtain ⟨T', hT1', hT2'⟩ := fwdkin_bare_six (o'.get (callSpherical m o pose last).1) h0 h1 h2 h3 h4 h5 p0 p1 p2 (p3 + p4) 0 0 p6 hH
    (by
      show (if o'.P = o.P then (fixWrist o.body.H (m.mats o.P)).1 else m.mats o'.P) = _
      rw [if_pos hs.symm, hfix]) hF hB hT hj 0 0 0 Real.pi 0 0
  refine ⟨_, T, T', hT1, hT1', fun he => hx ?_⟩
  rw [hT2, hT2'] at he
  simp only [rot_zero, M3.mulVec_add, M3.one_mulVec] at he
  have key : (rot h3 Real.pi).mulVec p4 = p4 := by
    rw [V3.ext_iff] at he ⊢
    simp only [V3.add_x, V3.add_y, V3.add_z, V3.zero_x, V3.zero_y, V3.zero_z] at he ⊢
    have h0 : (rot h3 Real.pi).mulVec (0 : V3 ℝ) = 0 := by ext <;> simp
    rw [h0] at he
    simp only [V3.zero_x, V3.zero_y, V3.zero_z] at he
    exact ⟨by linarith [he.1], by linarith [he.2.1], by linarith [he.2.2]⟩
  rw [rot_mulVec h3 hu, Real.cos_pi, Real.sin_pi] at key
  have hs : p4 = (h3.dot p4) • h3 := by
    rw [V3.ext_iff] at key ⊢
    simp only [V3.add_x, V3.add_y, V3.add_z, V3.hsmul_x, V3.hsmul_y, V3.hsmul_z] at key ⊢
    exact ⟨by linarith [key.1], by linarith [key.2.1], by linarith [key.2.2]⟩
  rw [hs]
  generalize h3.dot p4 = d
  ext <;> simp <;> ring

/-- C102 fails for transforms: changing the array that was given as `p` changes the transform.  (Its rotation is a copy, and arrays at
other addresses have no effect.) -/
theorem C102_transform_false {α : Type} (m : Mem α) (R : M3 α) (addr other : Nat) (p : V3 α) :
    ((TransObj.new R addr).get (m.setVec addr p)).p = p ∧ ((TransObj.new R addr).get (m.setVec other p)).R = R ∧
    (other ≠ addr → (TransObj.new R addr).get (m.setVec other p) = (TransObj.new R addr).get m) := by
  refine ⟨by simp [TransObj.get, TransObj.new, Mem.setVec], rfl, fun h => ?_⟩
  simp [TransObj.get, TransObj.new, Mem.setVec, Ne.symm h]

/-- Objects that meet the hypotheses of `C102_shared_false`: two arms built from the same offsets, one with the fourth axis along the
fourth offset and one with it across. -/
example : ∃ (m : Mem ℝ) (o o' : RobotObj ℝ), o.P = o'.P ∧ m.mats o.P = [0, 0, V3.ez, V3.ez, (2 : ℝ) • V3.ex, 0, V3.ex] ∧
    o.body.H[3]? = some V3.ex ∧ o'.body.H = [V3.ez, V3.ey, V3.ey, V3.ez, V3.ey, V3.ez] ∧ IsUnit3 (V3.ex : V3 ℝ) ∧ IsUnit3 (V3.ez : V3 ℝ) ∧
    (V3.ez : V3 ℝ).cross ((2 : ℝ) • V3.ex) ≠ 0 ∧ o'.body.jointType = [0, 0, 0, 0, 0, 0] ∧ o'.body.Tflange = none ∧
    o'.body.Tbase = none ∧ o'.body.Rtool = none := by
  refine ⟨⟨fun _ => [0, 0, V3.ez, V3.ez, (2 : ℝ) • V3.ex, 0, V3.ex], fun _ => 0⟩,
    .new { H := [V3.ez, V3.ey, V3.ey, V3.ex, V3.ey, V3.ex], P := [], jointType := [0, 0, 0, 0, 0, 0] } 0,
    .new { H := [V3.ez, V3.ey, V3.ey, V3.ez, V3.ey, V3.ez], P := [], jointType := [0, 0, 0, 0, 0, 0] } 0,
    rfl, rfl, rfl, rfl, ?_, ?_, ?_, rfl, rfl, rfl, rfl⟩
  · simp [IsUnit3, V3.dot]
  · simp [IsUnit3, V3.dot]
  · intro h
    have := congrArg V3.y h
    simp at this

/-- Calls that meet the hypotheses of `C102_robots_partial` and `C102_answers_partial`: one arm with two tools, sharing all arrays. -/
example : ∃ (m : Mem ℝ) (o o' : RobotObj ℝ), (o.get m).Sized ∧ o.P = o'.P ∧ o.body.ptool ≠ o'.body.ptool ∧ Spec.Compatible o' o ∧
    (callSpherical m o' ⟨1, 0, none, none⟩ none).1.mats o.P ≠ m.mats o.P := by
  refine ⟨⟨fun _ => [0, 0, V3.ez, V3.ez, V3.ex, 0, V3.ex], fun _ => 0⟩,
    .new { H := [V3.ez, V3.ey, V3.ey, V3.ex, V3.ey, V3.ex], P := [], jointType := [0, 0, 0, 0, 0, 0] } 0,
    .new { H := [V3.ez, V3.ey, V3.ey, V3.ex, V3.ey, V3.ex], P := [], jointType := [0, 0, 0, 0, 0, 0], Rtool := some 1, ptool := some V3.ex } 0,
    ⟨rfl, rfl⟩, rfl, ?_, fun _ => ⟨rfl, rfl⟩, ?_⟩
  · simp [RobotObj.new]
  · intro h
    have h' : (fixWrist (α := ℝ) [V3.ez, V3.ey, V3.ey, V3.ex, V3.ey, V3.ex] [0, 0, V3.ez, V3.ez, V3.ex, 0, V3.ex]).1 =
      [0, 0, V3.ez, V3.ez, V3.ex, 0, V3.ex] := h
    simp [fixWrist, moveColumn, isZeroV, V3.dot] at h'
    have := congrArg V3.x h'.2
    simp at this
