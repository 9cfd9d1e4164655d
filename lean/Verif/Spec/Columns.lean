import Verif.Spec.Info
import Verif.Model.CliTable

/-! # Specification: columns of text -/

namespace Xcvr.Spec

open Xcvr Cli

/-- The characters of a line from `start` on, `width` of them. -/
def column (start width : Nat) (line : List Char) : List Char := (line.drop start).take width

/-- The column holds the text, at its left, and nothing else. -/
def InColumn (start width : Nat) (text line : List Char) : Prop :=
  text.length ≤ width ∧ column start width line = text ++ List.replicate (width - text.length) ' '

/-- A line of the table of vendors: seven columns, one space apart; the first is aligned to the right. -/
structure VendorLine (line port ident name part revision serial date : List Char) : Prop where
  length : line.length = 106
  port : port.length ≤ 4 ∧ column 0 4 line = List.replicate (4 - port.length) ' ' ++ port
  ident : InColumn 5 24 ident line
  name : InColumn 30 16 name line
  part : InColumn 47 16 part line
  revision : InColumn 64 4 revision line
  serial : InColumn 69 16 serial line
  date : InColumn 86 20 date line
  gaps : ∀ i ∈ [4, 29, 46, 63, 68, 85], line[i]? = some ' '

end Xcvr.Spec
