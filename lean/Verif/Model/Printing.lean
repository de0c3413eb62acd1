import Verif.Model.Robot

/-!
# Model of the printing and the inequality of `Transform`

Line numbers refer to `/repo/src/general_robotics_toolbox/general_robotics_toolbox.py`.  The texts of the arrays (`np.array_repr` and
`np.array_str` with `precision=4, suppress_small=True`) are parameters.
-/
set_option autoImplicit false

/-- `s.replace('\n', '\n' + ' '*k)` (lines 506 and 516) -/
def indentLines (k : Nat) (s : String) : String :=
  String.ofList (s.toList.flatMap fun c => if c = '\n' then '\n' :: List.replicate k ' ' else [c])

/-- `"\n".join(r)` (lines 513 and 523) -/
def joinLines : List String → String
  | [] => ""
  | [a] => a
  | a :: b :: r => a ++ "\n" ++ joinLines (b :: r)

namespace Transform
variable {α : Type}

/-- Lines 508-511 and 518-521: one line for each frame id that is not `None`.  Simplification: a frame id that is neither `None` nor a
string, for which the concatenation raises TypeError, is excluded by the types. -/
def idLines (pad : String) (T : Transform α) : List String :=
  (match T.parent with
    | some s => [pad ++ "parent_frame_id = \"" ++ s ++ "\""]
    | none => []) ++
  (match T.child with
    | some s => [pad ++ "child_frame_id = \"" ++ s ++ "\""]
    | none => [])

/-- `Transform.__repr__` (lines 504-513) -/
def repr (reprR : M3 α → String) (reprP : V3 α → String) (T : Transform α) : String :=
  joinLines (["Transform(", "    R = " ++ indentLines 8 (reprR T.R), "    p = " ++ reprP T.p] ++ idLines "    " T ++ [")\n"])

/-- `Transform.__str__` (lines 515-523) -/
def str (strR : M3 α → String) (strP : V3 α → String) (T : Transform α) : String :=
  joinLines (["R = " ++ indentLines 4 (strR T.R), "p = " ++ strP T.p] ++ idLines "" T ++ ["\n"])

variable [Add α] [Sub α] [Mul α] [Div α] [Neg α] [Zero α] [One α] [LT α] [LE α] [DecidableLT α] [DecidableLE α] [Elem α]

/-- `Transform.__neq__` (lines 496-497).  Nothing calls it: the operator `!=` of Python 3 calls `__ne__`. -/
def neq (A B : Transform α) : Bool := !(A.eq B)

/-- The operator `A != B` of Python 3 for a class that defines `__eq__` but not `__ne__`: `object.__ne__` negates `__eq__`. -/
def ne (A B : Transform α) : Bool := !(A.eq B)

end Transform
