import Verif.Model.Tesseract

/-! # The rest of `TesseractRobot`

Source: `/repo/src/general_robotics_toolbox/tesseract.py`. -/

/-- What the code asks a `KinematicGroup` for (external): `getBaseLinkName()` and `getAllPossibleTipLinkNames()` (lines 843-844),
`getLimits().joint_limits` and `getRedundancyCapableJointIndices()` (lines 1068-1069). -/
structure KinGroup (α : Type) where
  base : String
  tips : List String
  limits : List (α × α)
  capable : List Nat

/-- An environment: its scene graph, and the kinematic groups by name (external, `getKinematicGroup`; simplification: a name that is
not there is reported as KeyError). -/
structure TEnv (α : Type) where
  graph : SGraph α
  group : String → Option (KinGroup α)

section
variable {α : Type} [Add α] [Sub α] [Mul α] [Div α] [Neg α] [Zero α] [One α] [LT α] [LE α]
  [DecidableLT α] [DecidableLE α] [Elem α]

/-- `TesseractRobot.__init__` (lines 810-844).  Robots and environments are objects without `__bool__` or `__len__`, so they are true. -/
def TRobot.new (robot : Option (Robot α)) (robotName : String) (solver : Option String) (env : Option (TEnv α)) :
    Except PyErr (TRobot α) := do
  pyAssert (robot.isSome || env.isSome)
  pyAssert (!(robot.isSome && env.isSome))
  match robot, env with
  | some robot, _ => TRobot.init robot robotName solver
  | none, some env =>
      match env.group robotName with
      | none => .error .key
      | some g => do
          let tip ← getI g.tips 0
          return ⟨env.graph, robotName, g.base, tip⟩
  | none, none => .error .attribute

/-- `redundant_solutions` (lines 1055-1073); `getRedundantSolutions` is external.  `flatten()` of a vector is the vector. -/
def redundantSolutions (getRedundant : List α → List (α × α) → List Nat → List (List α)) (g : KinGroup α) (θ : List α) : List (List α) :=
  getRedundant θ g.limits g.capable

/-- `TesseractRobot.redundant_solutions` (lines 935-947) -/
def TRobot.redundantSolutions (getRedundant : List α → List (α × α) → List Nat → List (List α)) (r : TRobot α) (env : TEnv α)
    (θ : List α) : Except PyErr (List (List α)) :=
  match env.group r.robotName with
  | none => .error .key
  | some g => .ok (_root_.redundantSolutions getRedundant g θ)

end
