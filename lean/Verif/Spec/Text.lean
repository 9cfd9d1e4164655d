import Verif.Model.Prim

/-! # What hexadecimal text means -/

namespace Xcvr.Spec

/-- The value of a hexadecimal digit, either case. -/
inductive HexDigit : Char → Nat → Prop
  | num (d : Nat) (h : d < 10) : HexDigit (Char.ofNat ('0'.toNat + d)) d
  | low (d : Nat) (h : d < 6) : HexDigit (Char.ofNat ('a'.toNat + d)) (10 + d)
  | up (d : Nat) (h : d < 6) : HexDigit (Char.ofNat ('A'.toNat + d)) (10 + d)

/-- `s` consists of hexadecimal digits, most significant first, and denotes `n`. -/
inductive HexNumber : List Char → Nat → Prop
  | nil : HexNumber [] 0
  | snoc {s n c d} : HexNumber s n → HexDigit c d → HexNumber (s ++ [c]) (16 * n + d)

/-- A text that Rust reads as the octet `x`: at least one hexadecimal digit, optionally preceded by a plus sign. -/
def OctetText (s : List Char) (x : U8) : Prop :=
  ∃ ds, (s = ds ∨ s = '+' :: ds) ∧ ds ≠ [] ∧ HexNumber ds x.toNat

/-- The documented form of an octet: exactly two hexadecimal digits. -/
def TwoDigits (s : List Char) : Prop := ∃ c d x y, s = [c, d] ∧ HexDigit c x ∧ HexDigit d y

end Xcvr.Spec
