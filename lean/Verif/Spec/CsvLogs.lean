import Verif.Model.CsvLogs
/-! Specification for C132: how a reader of a CSV file sees a line. -/
namespace Verif

/-- The fields of a line: separated by commas. -/
def csvFields : Text → List Text
  | [] => [[]]
  | c :: cs =>
    if c = ',' then [] :: csvFields cs
    else match csvFields cs with
      | [] => [[c]]
      | f :: fs => (c :: f) :: fs

/-- A text that can be a field. -/
def CsvField (t : Text) : Prop := ',' ∉ t

/-- The options are written as nonempty texts without commas. -/
structure ConfigTexts.Ok (c : ConfigTexts) : Prop where
  fields : ∀ t ∈ [c.interactionType, c.container, c.cellSizeFactor, c.traversal, c.loadEstimator, c.dataLayout, c.newton3], CsvField t ∧ t ≠ []

/-- The values of a configuration, in the order of `configColumns`. -/
def ConfigTexts.values (c : ConfigTexts) : List Text :=
  [c.interactionType, c.container, c.cellSizeFactor, c.traversal, c.loadEstimator, c.dataLayout, c.newton3]

/-- The columns of a configuration. -/
def configColumns : List Text :=
  ["Interaction Type".toList, "Container".toList, "CellSizeFactor".toList, "Traversal".toList, "Load Estimator".toList, "Data Layout".toList, "Newton 3".toList]

end Verif
