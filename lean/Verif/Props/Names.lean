import Verif.Model.Names

/-!
# C08: names round-trip
-/

namespace PackingSolver

/-- Reading a word that is surrounded by white space returns the word. -/
theorem readToken_word (ws word rest : List Char) (hws : ∀ c ∈ ws, isSpace c = true)
    (hw : ∀ c ∈ word, isSpace c = false) (hr : ∀ c ∈ rest.head?, isSpace c = true) :
    readToken (ws ++ (word ++ rest)) = String.ofList word ∨ word = [] := by
  rcases word with _ | ⟨a, word⟩
  · exact Or.inr rfl
  · left
    unfold readToken
    congr 1
    rw [List.dropWhile_append_of_pos hws, List.cons_append,
      List.dropWhile_cons_of_neg (by simp [hw a (by simp)]),
      ← List.cons_append,
      List.takeWhile_append_of_pos (by intro c hc; simp [hw c hc])]
    rcases rest with _ | ⟨b, rest⟩
    · simp
    · rw [List.takeWhile_cons_of_neg (by simp [hr b (by simp)])]
      simp

theorem ite_some {α : Type} {p : Prop} [Decidable p] {a o : α} {e : Option α}
    (h : (if p then some a else e) = some o) : (p ∧ a = o) ∨ e = some o := by
  by_cases hp : p
  · rw [if_pos hp] at h; exact Or.inl ⟨hp, Option.some.inj h⟩
  · rw [if_neg hp] at h; exact Or.inr h

/-- The accepted names, by objective, as documented on the command line. -/
def objectiveNames : List (String × Objective) := [
  ("default", .default), ("Default", .default),
  ("feasibility", .feasibility), ("Feasibility", .feasibility), ("F", .feasibility),
  ("bin-packing", .binPacking), ("BinPacking", .binPacking), ("BPP", .binPacking),
  ("bin-packing-with-leftovers", .binPackingWithLeftovers),
  ("BinPackingWithLeftovers", .binPackingWithLeftovers), ("BPPL", .binPackingWithLeftovers),
  ("open-dimension-x", .openDimensionX), ("OpenDimensionX", .openDimensionX),
  ("ODX", .openDimensionX),
  ("open-dimension-y", .openDimensionY), ("OpenDimensionY", .openDimensionY),
  ("ODY", .openDimensionY),
  ("open-dimension-z", .openDimensionZ), ("OpenDimensionZ", .openDimensionZ),
  ("ODZ", .openDimensionZ),
  ("open-dimension-xy", .openDimensionXY), ("OpenDimensionXY", .openDimensionXY),
  ("ODXY", .openDimensionXY),
  ("knapsack", .knapsack), ("Knapsack", .knapsack), ("KP", .knapsack),
  ("variable-sized-bin-packing", .variableSizedBinPacking),
  ("VariableSizedBinPacking", .variableSizedBinPacking), ("VBPP", .variableSizedBinPacking),
  ("sequential-onedimensional-rectangle-subproblem",
    .sequentialOneDimensionalRectangleSubproblem),
  ("SequentialOneDimensionalRectangleSubproblem", .sequentialOneDimensionalRectangleSubproblem),
  ("BDRS", .sequentialOneDimensionalRectangleSubproblem),
  ("bin-packing-cutting-cost", .binPackingCuttingCost),
  ("BinPackingCuttingCost", .binPackingCuttingCost), ("BPPCC", .binPackingCuttingCost)]

/-- **C08** (objectives): a printed objective, surrounded by any white space and
followed by anything, is parsed as the same objective. -/
theorem objective_roundtrip (o : Objective) (ws rest : List Char)
    (hws : ∀ c ∈ ws, isSpace c = true) (hr : ∀ c ∈ rest.head?, isSpace c = true) :
    parseObjective (ws ++ ((showObjective o).toList ++ rest)) = some o := by
  have h := readToken_word ws (showObjective o).toList rest hws
    (by cases o <;> decide) hr
  have hne : (showObjective o).toList ≠ [] := by cases o <;> decide
  have ht := h.resolve_right hne
  unfold parseObjective
  rw [ht]
  cases o <;> decide +kernel

/-- **C08** (objectives): a text is accepted exactly when its first word is one of
the documented names of the result; any other text is rejected. -/
theorem objective_accepts_iff (stream : List Char) (o : Objective) :
    parseObjective stream = some o ↔ (readToken stream, o) ∈ objectiveNames := by
  unfold parseObjective
  generalize readToken stream = t
  constructor
  · intro h
    unfold objectiveOfToken at h
    iterate 12
      rcases ite_some h with ⟨h1, rfl⟩ | h
      · simp only [objectiveNames, List.mem_cons, Prod.mk.injEq, reduceCtorEq, and_true, and_false,
          or_false, false_or, List.not_mem_nil]
        exact h1
    cases h
  · have key : ∀ p ∈ objectiveNames, objectiveOfToken p.1 = some p.2 := by decide +kernel
    exact key (t, _)

/-- **C08** (problem types). -/
theorem problemType_roundtrip (p : ProblemType) (ws rest : List Char)
    (hws : ∀ c ∈ ws, isSpace c = true) (hr : ∀ c ∈ rest.head?, isSpace c = true) :
    parseProblemType (ws ++ ((showProblemType p).toList ++ rest)) = some p := by
  have h := readToken_word ws (showProblemType p).toList rest hws
    (by cases p <;> decide) hr
  have hne : (showProblemType p).toList ≠ [] := by cases p <;> decide
  have ht := h.resolve_right hne
  unfold parseProblemType
  rw [ht]
  cases p <;> decide +kernel

/-- The accepted problem type names. -/
def problemTypeNames : List (String × ProblemType) := [
  ("rectangleguillotine", .rectangleGuillotine), ("RectangleGuillotine", .rectangleGuillotine),
  ("RG", .rectangleGuillotine),
  ("rectangle", .rectangle), ("Rectangle", .rectangle), ("R", .rectangle),
  ("onedimensional", .oneDimensional), ("OneDimensional", .oneDimensional), ("1", .oneDimensional),
  ("box", .box), ("Box", .box), ("B", .box),
  ("boxstacks", .boxStacks), ("BoxStacks", .boxStacks), ("BS", .boxStacks),
  ("irregular", .irregular), ("Irregular", .irregular), ("I", .irregular)]

/-- **C08** (problem types): exactly the documented names are accepted. -/
theorem problemType_accepts_iff (stream : List Char) (p : ProblemType) :
    parseProblemType stream = some p ↔ (readToken stream, p) ∈ problemTypeNames := by
  unfold parseProblemType
  generalize readToken stream = t
  constructor
  · intro h
    unfold problemTypeOfToken at h
    iterate 6
      rcases ite_some h with ⟨h1, rfl⟩ | h
      · simp only [problemTypeNames, List.mem_cons, Prod.mk.injEq, reduceCtorEq, and_true, and_false,
          or_false, false_or, List.not_mem_nil]
        exact h1
    cases h
  · have key : ∀ p ∈ problemTypeNames, problemTypeOfToken p.1 = some p.2 := by decide +kernel
    exact key (t, _)

/-- **C08** (optimization modes), the part that holds: only `Anytime` survives
printing and parsing.  Missing: the three other modes, for which the property is
false (`optimizationMode_not_reparsed`). -/
theorem optimizationMode_roundtrip_partial (ws rest : List Char)
    (hws : ∀ c ∈ ws, isSpace c = true) (hr : ∀ c ∈ rest.head?, isSpace c = true) :
    parseOptimizationMode (ws ++ ((showOptimizationMode .anytime).toList ++ rest))
      = some .anytime := by
  have h := readToken_word ws (showOptimizationMode .anytime).toList rest hws (by decide) hr
  have ht := h.resolve_right (by decide)
  unfold parseOptimizationMode
  rw [ht]
  rfl

/-- **C08** is false for optimization modes: every mode other than `Anytime` is
printed as text that is rejected when parsed. -/
theorem optimizationMode_not_reparsed (m : OptimizationMode) (h : m ≠ .anytime) :
    parseOptimizationMode (showOptimizationMode m).toList = none := by
  cases m
  · exact absurd rfl h
  all_goals decide

/-- The accepted mode names. -/
def optimizationModeNames : List (String × OptimizationMode) := [
  ("anytime", .anytime), ("Anytime", .anytime),
  ("not-anytime", .notAnytime), ("NotAnytime", .notAnytime),
  ("not-anytime-deterministic", .notAnytimeDeterministic),
  ("NotAnytimeDeterministic", .notAnytimeDeterministic),
  ("not-anytime-sequential", .notAnytimeSequential),
  ("NotAnytimeSequential", .notAnytimeSequential)]

/-- **C08** (optimization modes): exactly the documented names are accepted. -/
theorem optimizationMode_accepts_iff (stream : List Char) (m : OptimizationMode) :
    parseOptimizationMode stream = some m ↔ (readToken stream, m) ∈ optimizationModeNames := by
  unfold parseOptimizationMode
  generalize readToken stream = t
  constructor
  · intro h
    unfold optimizationModeOfToken at h
    iterate 4
      rcases ite_some h with ⟨h1, rfl⟩ | h
      · simp only [optimizationModeNames, List.mem_cons, Prod.mk.injEq, reduceCtorEq, and_true, and_false,
          or_false, false_or, List.not_mem_nil]
        exact h1
    cases h
  · have key : ∀ p ∈ optimizationModeNames, optimizationModeOfToken p.1 = some p.2 := by decide +kernel
    exact key (t, _)

example : parseObjective "  KP\n12".toList = some .knapsack
    ∧ parseObjective "knapsacks".toList = none
    ∧ parseObjective [] = none
    ∧ parseObjective ("\t ".toList ++ ((showObjective .knapsack).toList ++ " x".toList))
      = some .knapsack := by decide

end PackingSolver
