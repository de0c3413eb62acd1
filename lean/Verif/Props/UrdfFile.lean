import Verif.Model.UrdfFile
import Verif.Props.UrdfWell

/-! # Property C100: the ways to load a URDF file agree -/
set_option autoImplicit false

/-- The names a path goes through: what is between the slashes, empty names left out; `acc` is the name being read. -/
def Spec.namesFrom (acc : List Char) : List Char → List (List Char)
  | [] => if acc = [] then [] else [acc]
  | c :: s => if c = '/' then (if acc = [] then [] else [acc]) ++ Spec.namesFrom [] s else Spec.namesFrom (acc ++ [c]) s

/-- The names a path goes through. -/
def Spec.pathNames (s : String) : List (List Char) := Spec.namesFrom [] s.toList

theorem namesFrom_slash (a b : List Char) : ∀ acc, Spec.namesFrom acc (a ++ '/' :: b) = Spec.namesFrom acc a ++ Spec.namesFrom [] b := by
  induction a with
  | nil => intro acc; simp [Spec.namesFrom]
  | cons c a ih =>
    intro acc
    by_cases hc : c = '/'
    · simp only [List.cons_append, Spec.namesFrom, hc, if_true, ih, List.append_assoc]
    · simp only [List.cons_append, Spec.namesFrom, hc, if_false, ih]

theorem namesFrom_join (a b : List Char) (hb : b.head? ≠ some '/') :
    Spec.namesFrom [] (osPathJoin a b) = Spec.namesFrom [] a ++ Spec.namesFrom [] b := by
  unfold osPathJoin
  rw [if_neg hb]
  by_cases h : a = [] ∨ a.getLast? = some '/'
  · rw [if_pos h]
    rcases h with rfl | h
    · rfl
    · obtain ⟨a', rfl⟩ : ∃ a', a = a' ++ ['/'] := by
        rcases List.eq_nil_or_concat a with rfl | ⟨a', x, rfl⟩
        · cases h
        · simp at h; exact ⟨a', by rw [h]; simp⟩
      rw [List.append_assoc, List.singleton_append, namesFrom_slash, show a' ++ ['/'] = a' ++ '/' :: [] from rfl, namesFrom_slash]
      simp [Spec.namesFrom]
  · rw [if_neg h, namesFrom_slash]

section
variable {α : Type} [Add α] [Sub α] [Mul α] [Div α] [Neg α] [Zero α] [One α] [LT α] [LE α]
  [DecidableLT α] [DecidableLE α] [Elem α]

/-- C100: a relative file name with a package is the file whose path goes through the directory of the package and then through the
names in the file name; an error of the package index is passed on; without a package the file name is used as it is. -/
theorem C100_path_partial (io : UrdfIo α) (fname : String) (hf : fname.toList.head? ≠ some '/') (package : String) :
    (∀ dir, io.packagePath package = .ok dir → ∃ path, resolveFile io fname (some package) = .ok path ∧
      Spec.pathNames path = Spec.pathNames dir ++ Spec.pathNames fname ∧ (dir ≠ "" → path.toList.head? = dir.toList.head?)) ∧
    (∀ e, io.packagePath package = .error e → resolveFile io fname (some package) = .error e) ∧
    resolveFile io fname none = .ok fname := by
  refine ⟨fun dir hd => ⟨String.ofList (osPathJoin dir.toList fname.toList), ?_, ?_, fun h0 => ?_⟩, fun e he => ?_, rfl⟩
  · simp only [resolveFile, hd, Except.bind_ok, Except.pure_eq]
  · unfold Spec.pathNames
    rw [String.toList_ofList, namesFrom_join _ _ hf]
  · rw [String.toList_ofList]
    have h0' : dir.toList ≠ [] := fun h => h0 (by rw [← String.ofList_toList (s := dir), h])
    obtain ⟨c, s, hs⟩ := List.exists_cons_of_ne_nil h0'
    unfold osPathJoin
    rw [if_neg hf, hs]
    split_ifs <;> rfl
  · simp only [resolveFile, he]; rfl

/-- C100 fails for absolute file names: the package is looked up, but the file is the one named, wherever the package is. -/
theorem C100_absolute_false (io : UrdfIo α) (fname : String) (hf : fname.toList.head? = some '/') (package dir : String)
    (hd : io.packagePath package = .ok dir) : resolveFile io fname (some package) = .ok fname := by
  simp only [resolveFile, hd, Except.bind_ok, Except.pure_eq, osPathJoin, hf, if_true, String.ofList_toList]

/-- C100: loading from a file, from the output of xacro or from a string that holds the same text has the same outcome, robot or
exception; and so has loading from the parameter server if it holds the document that this text is parsed to. -/
theorem C100_agree (io : UrdfIo α) (fuel : Nat) (fname path : String) (package root tip : Option String) (key xml : String)
    (hp : resolveFile io fname package = .ok path) :
    (io.read path = .ok xml → robotFromXmlFile io fuel fname package root tip = robotFromXmlString io fuel xml root tip) ∧
    (io.xacro path = .ok xml → robotFromXacroFile io fuel fname package root tip = robotFromXmlString io fuel xml root tip) ∧
    (io.param key = io.parse xml → robotFromParameterServer io fuel key root tip = robotFromXmlString io fuel xml root tip) := by
  refine ⟨fun h => ?_, fun h => ?_, fun h => ?_⟩
  · simp only [robotFromXmlFile, hp, h, Except.bind_ok]
  · simp only [robotFromXacroFile, hp, h, Except.bind_ok]
  · simp only [robotFromParameterServer, robotFromXmlString, h]

/-- C100: a robot comes only from a document: if a call returns, the file was found and read (or run through xacro), its text was parsed,
and the robot is the one the loader makes of the document, with the root and tip links that were asked for. -/
theorem C100_from_document (io : UrdfIo α) (fuel : Nat) (fname : String) (package root tip : Option String) (r : Robot α) :
    (robotFromXmlFile io fuel fname package root tip = .ok r ↔ ∃ path xml u, resolveFile io fname package = .ok path ∧
      io.read path = .ok xml ∧ io.parse xml = .ok u ∧ urdfLoad fuel u root tip = .ok r) ∧
    (robotFromXacroFile io fuel fname package root tip = .ok r ↔ ∃ path xml u, resolveFile io fname package = .ok path ∧
      io.xacro path = .ok xml ∧ io.parse xml = .ok u ∧ urdfLoad fuel u root tip = .ok r) := by
  refine ⟨⟨fun h => ?_, ?_⟩, ⟨fun h => ?_, ?_⟩⟩
  · obtain ⟨path, h1, h⟩ := Except.bind_eq_ok h
    obtain ⟨xml, h2, h⟩ := Except.bind_eq_ok h
    obtain ⟨u, h3, h⟩ := Except.bind_eq_ok h
    exact ⟨path, xml, u, h1, h2, h3, h⟩
  · rintro ⟨path, xml, u, h1, h2, h3, h⟩
    simp only [robotFromXmlFile, robotFromXmlString, h1, h2, h3, h, Except.bind_ok]
  · obtain ⟨path, h1, h⟩ := Except.bind_eq_ok h
    obtain ⟨xml, h2, h⟩ := Except.bind_eq_ok h
    obtain ⟨u, h3, h⟩ := Except.bind_eq_ok h
    exact ⟨path, xml, u, h1, h2, h3, h⟩
  · rintro ⟨path, xml, u, h1, h2, h3, h⟩
    simp only [robotFromXacroFile, robotFromXmlString, h1, h2, h3, h, Except.bind_ok]

end

/-- A case of `C100_path_partial`: the names in a path, with doubled slashes. -/
example : Spec.pathNames "/opt//ros/" ++ Spec.pathNames "urdf/arm.urdf" = ["opt".toList, "ros".toList, "urdf".toList, "arm.urdf".toList] := by
  decide

/-- File names that meet the hypotheses of `C100_path_partial` and of `C100_absolute_false`. -/
example : "urdf/arm.urdf".toList.head? ≠ some '/' ∧ "/urdf/arm.urdf".toList.head? = some '/' := by decide
