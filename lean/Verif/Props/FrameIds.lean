import Verif.Props.TransformProps

/-!
# Property C14: frame ids, continued
-/
set_option autoImplicit false

/-- C14: `identity_transform()` carries no frame ids, so a product with it has none on that side and keeps the one on the other. -/
theorem C14_identity (T : Transform ℝ) :
    ((identityTransform * T).parent = none ∧ (identityTransform * T).child = T.child) ∧
    ((T * identityTransform).parent = T.parent ∧ (T * identityTransform).child = none) := ⟨⟨rfl, rfl⟩, rfl, rfl⟩

/-- C14: the ids never influence the pose, for chains of any length. -/
theorem C14_ids_irrelevant (T0 T0' : Transform ℝ) (Ts Ts' : List (Transform ℝ)) (h0 : SamePose T0 T0') (h : List.Forall₂ SamePose Ts Ts') :
    SamePose (Ts.foldl (· * ·) T0) (Ts'.foldl (· * ·) T0') := by
  induction h generalizing T0 T0' with
  | nil => exact h0
  | cons hab _ ih =>
    refine ih _ _ ?_
    obtain ⟨a1, a2⟩ := h0
    obtain ⟨b1, b2⟩ := hab
    constructor
    · show T0.R * _ = T0'.R * _
      rw [a1, b1]
    · show _ + T0.R.mulVec _ = _ + T0'.R.mulVec _
      rw [a1, a2, b2]

example : (identityTransform * (⟨1, 0, some "a", some "b"⟩ : Transform ℝ)).child = some "b" := rfl
