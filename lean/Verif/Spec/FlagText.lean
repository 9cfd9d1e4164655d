import Verif.Spec.Cli

/-! # Specification: sets of status flags as text -/

namespace Xcvr.Spec

open Xcvr

/-- A hexadecimal number of `n` bits: at least one digit, optionally preceded by a plus sign. -/
def HexBits (n : Nat) (s : List Char) (x : BitVec n) : Prop :=
  ∃ ds, (s = ds ∨ s = '+' :: ds) ∧ ds ≠ [] ∧ Digits 16 ds x.toNat

/-- One part of a text of flags: the name of the bit `2 ^ k`, where `names` are those of the bits in order, or `0x` and a
number; white space around it does not count. -/
def FlagPart (n : Nat) (names : List (List Char)) (s : List Char) (x : BitVec n) : Prop :=
  ∃ a b c, s = a ++ b ++ c ∧ White a ∧ White c ∧
    ((∃ k, names[k]? = some b ∧ x.toNat = 2 ^ k) ∨ ∃ hex, b = '0' :: 'x' :: hex ∧ HexBits n hex x)

/-- Parts separated by bars, and the bits they stand for. -/
inductive FlagParts (n : Nat) (names : List (List Char)) : List Char → BitVec n → Prop
  | one {s x} : FlagPart n names s x → FlagParts n names s x
  | cons {s t x y} : FlagPart n names s x → FlagParts n names t y → FlagParts n names (s ++ '|' :: t) (x ||| y)

/-- A text of flags, and the bits it stands for. -/
def FlagsWritten (n : Nat) (names : List (List Char)) (s : List Char) (x : BitVec n) : Prop :=
  White s ∧ x = 0 ∨ FlagParts n names s x

end Xcvr.Spec
