import Verif.Lemmas.FlQprod
import Verif.Lemmas.B64

/-! # Property C77: products of quaternions in floating-point arithmetic -/
set_option autoImplicit false

/-- C77: multiplying any number `n` of unit quaternions with `quatproduct`, each stored with error `u` and every operation rounded, gives
finite numbers within `115 n u` of the Hamilton product: the drift is linear in the number of factors, and nothing needs to be normalised
on the way as long as it is below 1/20. -/
theorem C77_quatproduct_chain {F : FSys} (hu : F.u ≤ 1/1000) (qs : List (V4 ℝ)) (qs' : List (V4 (Fl F)))
    (h : List.Forall₂ (fun q' q => IsUnit4 q ∧ Spec.QNear q' q F.u) qs' qs) (hn : 115 * qs.length * F.u ≤ 1/20) :
    ∃ q : V4 ℝ, q.toH = (qs.map V4.toH).prod ∧ IsUnit4 q ∧ Spec.QNear (Spec.quatChain qs') q (115 * qs.length * F.u) := by
  have one : ‖(⟨1, 0, 0, 0⟩ : V4 ℝ).toH‖ = 1 := V4.toH_unit (by norm_num [IsUnit4])
  obtain ⟨c, e, h1, h2⟩ := Fl.quatChain_aux hu qs qs' h ⟨1, 0, 0, 0⟩ ⟨1, 0, 0, 0⟩ 0 one (by simp) (by simpa using hn)
  have toH1 : (⟨1, 0, 0, 0⟩ : V4 ℝ).toH = 1 := by ext <;> rfl
  rw [toH1, one_mul] at h2
  refine ⟨_, h2, ?_, ?_⟩
  · have hp : ‖(qs.map V4.toH).prod‖ = 1 := by
      have : ∀ (l' : List (V4 (Fl F))) (l : List (V4 ℝ)), List.Forall₂ (fun q' q => IsUnit4 q ∧ Spec.QNear q' q F.u) l' l →
          ‖(l.map V4.toH).prod‖ = 1 := by
        intro l' l hl
        induction hl with
        | nil => simp
        | cons h _ ih => rw [List.map_cons, List.prod_cons, norm_mul, ih, V4.toH_unit h.1, one_mul]
      exact this _ _ h
    rw [← h2] at hp
    have := V4.norm_toH_sq (qs.foldl (fun a q => (quatproduct a).mulVec q) ⟨1, 0, 0, 0⟩)
    rw [hp] at this
    unfold IsUnit4
    linarith
  · have e' : Spec.quatChain qs' = c.map Fl.of := e
    rw [e']
    exact Fl.qNear_of_toH (by simpa using h1)

/-- C77: the rotation of such a product, by `q2R`, is within `26000 n u` of the product of the rotations. -/
theorem C77_chain_rotation {F : FSys} (hu : F.u ≤ 1/1000) (qs : List (V4 ℝ)) (qs' : List (V4 (Fl F))) (h0 : qs ≠ [])
    (h : List.Forall₂ (fun q' q => IsUnit4 q ∧ Spec.QNear q' q F.u) qs' qs) (hn : 115 * qs.length * F.u ≤ 1/1000) :
    Spec.MNear (q2R (Spec.quatChain qs')) (qs.foldl (fun R q => R * q2R q) 1) (26000 * qs.length * F.u) := by
  obtain ⟨q, h1, h2, h3⟩ := C77_quatproduct_chain hu qs qs' h (by linarith)
  have u0 := F.u_nonneg
  have l1 : (1 : ℝ) ≤ qs.length := by
    have := List.length_pos_iff.2 h0
    exact_mod_cast this
  have lu : F.u ≤ qs.length * F.u := le_mul_of_one_le_left u0 l1
  have h4 := Fl.q2R_near h2 (by linarith) hn h3
  have prod : ∀ (l : List (V4 ℝ)), (∀ q ∈ l, IsUnit4 q) → ∀ a : V4 ℝ, IsUnit4 a →
      q2R (l.foldl (fun a q => (quatproduct a).mulVec q) a) = l.foldl (fun R q => R * q2R q) (q2R a) ∧
      (l.foldl (fun a q => (quatproduct a).mulVec q) a).toH = a.toH * (l.map V4.toH).prod := by
    intro l
    induction l with
    | nil => intro _ a _; simp
    | cons b l ih =>
      intro hl a ha
      have hb := hl b (by simp)
      have hab : IsUnit4 ((quatproduct a).mulVec b) := by
        have := V4.norm_toH_sq ((quatproduct a).mulVec b)
        rw [C08_quatproduct_hamilton, norm_mul, V4.toH_unit ha, V4.toH_unit hb] at this
        unfold IsUnit4
        linarith
      obtain ⟨i1, i2⟩ := ih (fun q hq => hl q (by simp [hq])) _ hab
      refine ⟨?_, ?_⟩
      · rw [List.foldl_cons, i1, List.foldl_cons, C05_q2R_quatproduct a b ha hb]
      · rw [List.foldl_cons, i2, C08_quatproduct_hamilton, List.map_cons, List.prod_cons, mul_assoc]
  have hall : ∀ q ∈ qs, IsUnit4 q := by
    have : ∀ (l' : List (V4 (Fl F))) (l : List (V4 ℝ)), List.Forall₂ (fun q' q => IsUnit4 q ∧ Spec.QNear q' q F.u) l' l →
        ∀ q ∈ l, IsUnit4 q := by
      intro l' l hl
      induction hl with
      | nil => simp
      | cons h _ ih =>
        intro q hq
        rcases List.mem_cons.1 hq with rfl | hq
        · exact h.1
        · exact ih q hq
    exact this _ _ h
  obtain ⟨p1, p2⟩ := prod qs hall ⟨1, 0, 0, 0⟩ (by norm_num [IsUnit4])
  have toH1 : (⟨1, 0, 0, 0⟩ : V4 ℝ).toH = 1 := by ext <;> rfl
  rw [toH1, one_mul, ← h1] at p2
  have e : qs.foldl (fun a q => (quatproduct a).mulVec q) ⟨1, 0, 0, 0⟩ = q := by
    have e0 := congrArg (fun z : Quaternion ℝ => z.re) p2
    have e1 := congrArg (fun z : Quaternion ℝ => z.imI) p2
    have e2 := congrArg (fun z : Quaternion ℝ => z.imJ) p2
    have e3 := congrArg (fun z : Quaternion ℝ => z.imK) p2
    exact V4.ext e0 e1 e2 e3
  have q1 : q2R (⟨1, 0, 0, 0⟩ : V4 ℝ) = 1 := by ext <;> simp [q2R]
  rw [e, q1] at p1
  rw [← p1]
  exact Fl.MNear.mono h4 (by linarith)

/-- C77: `rot2q` of a stored unit axis and angle is within `(2 T + 7) ε` of the exact quaternion, for angles up to `T`. -/
theorem C77_rot2q_rounding {F : FSys} (k : V3 ℝ) (hk : IsUnit3 k) (k' : V3 (Fl F)) (θ T ε : ℝ) (θ' : Fl F) (hu : F.u ≤ ε)
    (hε : ε ≤ 1/1000) (hk' : Spec.VNear k' k ε) (hθ : θ'.Near θ ε) (hT : |θ| ≤ T) (hT' : T ≤ 100000) :
    ∃ q', rot2q (.array k') θ' = .ok q' ∧
      Spec.QNear q' ⟨Real.cos (θ / 2), k.x * Real.sin (θ / 2), k.y * Real.sin (θ / 2), k.z * Real.sin (θ / 2)⟩ ((2 * T + 7) * ε) := by
  obtain ⟨c, rfl, hc⟩ := hk'
  have bx := (V3.abs_x_le (c - k)).trans hc
  have by' := (V3.abs_y_le (c - k)).trans hc
  have bz := (V3.abs_z_le (c - k)).trans hc
  refine ⟨_, rfl, ?_⟩
  have := Fl.rot2qA_near (T := T) (k' := c.map Fl.of) hk hu hε ⟨_, rfl, by rw [one_mul]; exact bx⟩ ⟨_, rfl, by rw [one_mul]; exact by'⟩
    ⟨_, rfl, by rw [one_mul]; exact bz⟩ (by rw [one_mul]; exact hθ) hT hT'
  have fin : rot2qA k θ = ⟨Real.cos (θ / 2), k.x * Real.sin (θ / 2), k.y * Real.sin (θ / 2), k.z * Real.sin (θ / 2)⟩ := by
    simp [rot2qA]
  rwa [fin] at this

/-- C77: `quatcomplement` and `quatjacobian` of a quaternion within `ε` of a unit quaternion. -/
theorem C77_complement_jacobian {F : FSys} (q : V4 ℝ) (hq : IsUnit4 q) (q' : V4 (Fl F)) (ε : ℝ) (hu : F.u ≤ ε) (hε : ε ≤ 1/1000)
    (h : Spec.QNear q' q ε) :
    Spec.QNear (quatcomplement q') ⟨q.w, -q.x, -q.y, -q.z⟩ (6 * ε) ∧
    Spec.VNear (quatjacobian q').row ⟨-q.x / 2, -q.y / 2, -q.z / 2⟩ (14 * ε) ∧
    Spec.MNear (quatjacobian q').blk ⟨q.w / 2, q.z / 2, -q.y / 2, -q.z / 2, q.w / 2, q.x / 2, q.y / 2, -q.x / 2, q.w / 2⟩ (21 * ε) := by
  have h1 := Fl.quatcomplement_near hq hu hε h
  have h2 := Fl.quatjacobian_near hq hu hε h
  have e1 : quatcomplement q = ⟨q.w, -q.x, -q.y, -q.z⟩ := by simp [quatcomplement]
  have e2 : (quatjacobian q).row = ⟨-q.x / 2, -q.y / 2, -q.z / 2⟩ := by ext <;> simp [quatjacobian] <;> ring
  have e3 : (quatjacobian q).blk = ⟨q.w / 2, q.z / 2, -q.y / 2, -q.z / 2, q.w / 2, q.x / 2, q.y / 2, -q.x / 2, q.w / 2⟩ := by
    ext <;> simp [quatjacobian] <;> ring
  rw [e1] at h1
  rw [e2, e3] at h2
  exact ⟨h1, h2⟩

/-- Non-vacuity: a million factors (3/5, 0, 0, 4/5) in binary64. -/
example (lib : Libm) : ∃ q : V4 ℝ, IsUnit4 q ∧
    Spec.QNear (Spec.quatChain (List.replicate 1000000 (⟨.of (3/5), .of 0, .of 0, .of (4/5)⟩ : V4 (Fl (b64 lib))))) q (2⁻¹ ^ 20) := by
  have hu : (b64 lib).u = 2⁻¹ ^ 50 := rfl
  have near : ∀ x : ℝ, (Fl.of x : Fl (b64 lib)).Near x (b64 lib).u := fun x => (Fl.near_of x).mono (b64 lib).u_nonneg
  obtain ⟨q, -, h2, h3⟩ := C77_quatproduct_chain (F := b64 lib) (by rw [hu]; norm_num) (List.replicate 1000000 ⟨3/5, 0, 0, 4/5⟩)
    (List.replicate 1000000 ⟨.of (3/5), .of 0, .of 0, .of (4/5)⟩)
    (by
      generalize 1000000 = n
      induction n with
      | zero => exact .nil
      | succ n ih => exact .cons ⟨by norm_num [IsUnit4], near _, near _, near _, near _⟩ ih)
    (by rw [hu, List.length_replicate]; norm_num)
  have le : 115 * ((List.replicate 1000000 (⟨3/5, 0, 0, 4/5⟩ : V4 ℝ)).length : ℝ) * (b64 lib).u ≤ 2⁻¹ ^ 20 := by
    rw [hu, List.length_replicate]; norm_num
  exact ⟨q, h2, h3.1.mono le, h3.2.1.mono le, h3.2.2.1.mono le, h3.2.2.2.mono le⟩
