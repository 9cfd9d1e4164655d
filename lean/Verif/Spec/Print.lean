import Verif.Spec.Cli

/-! # Specification: reading the parseable output -/

namespace Xcvr.Spec

/-- `text` consists of the given cells with `sep` between them, and no cell contains `sep`. -/
def Cells (sep : Char) (text : List Char) (cells : List (List Char)) : Prop :=
  cells ≠ [] ∧ text = List.intercalate [sep] cells ∧ ∀ c ∈ cells, sep ∉ c

/-- `text` consists of one line for each row of the table, each line consists of the cells of its row, and no cell
contains the separator or a line break. -/
def Reads (sep : Char) (text : List Char) (table : List (List (List Char))) : Prop :=
  text = (table.map fun row => List.intercalate [sep] row ++ ['\n']).flatten ∧
  ∀ row ∈ table, row ≠ [] ∧ ∀ c ∈ row, sep ∉ c ∧ '\n' ∉ c

end Xcvr.Spec
