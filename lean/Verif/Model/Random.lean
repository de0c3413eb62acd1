import Verif.Model.Robot

/-!
# Model of `general_robotics_toolbox.py`, lines 906-915: random rotations, positions and transforms

The values drawn by `np.random.rand` are parameters.
-/
set_option autoImplicit false

variable {α : Type} [Add α] [Sub α] [Mul α] [Div α] [Neg α] [Zero α] [One α] [LT α] [LE α]
  [DecidableLT α] [DecidableLE α] [Elem α]

/-- `random_R` (lines 906-909); `draw` is the result of `np.random.rand(4)`. -/
def randomR (draw : V4 α) : M3 α := q2R (draw.sdiv draw.norm)

/-- `random_p` (lines 911-912); `draw` is the result of `np.random.rand(3)`. -/
def randomP (draw : V3 α) : V3 α := draw

/-- `random_transform` (lines 914-915); the rotation is drawn first. -/
def randomTransform (draw : V4 α) (draw' : V3 α) : Transform α := ⟨randomR draw, randomP draw', none, none⟩
