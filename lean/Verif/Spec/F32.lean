import Verif.Model.F32

/-! # Specification: numbers of type `f32`, and numbers in text -/

namespace Xcvr.Spec

/-- How far two numbers are apart. -/
def gap (x y : Rat) : Rat := if x ≤ y then y - x else x - y

/-- The finite numbers of type `f32` (IEEE 754 `binary32`). -/
def IsSingle (x : Rat) : Prop :=
  ∃ m e : Int, m.natAbs < 2 ^ 24 ∧ -149 ≤ e ∧ e ≤ 104 ∧ x = (m : Rat) * (2 : Rat) ^ e

/-- Those with an even significand. -/
def IsEvenSingle (x : Rat) : Prop :=
  ∃ m e : Int, m.natAbs < 2 ^ 23 ∧ -148 ≤ e ∧ e ≤ 105 ∧ x = (m : Rat) * (2 : Rat) ^ e

/-- `y` is the number of the type nearest to `x`, or the even one of two. -/
structure RoundsTo (x y : Rat) : Prop where
  single : IsSingle y
  nearest : ∀ z, IsSingle z → gap x y ≤ gap x z
  even : ∀ z, IsSingle z → z ≠ y → gap x z = gap x y → IsEvenSingle y

/-- Zero, or a size at which numbers of the type have their full precision. -/
def Ordinary (x : Rat) : Prop := x = 0 ∨ ((2 : Rat) ^ (-126 : Int) ≤ gap 0 x ∧ gap 0 x ≤ (2 : Rat) ^ (127 : Int))

/-- The number that digits with at most one point stand for. -/
def readUnsigned (t : List Char) : Option Rat :=
  let whole := t.takeWhile (· != '.')
  let rest := (t.dropWhile (· != '.')).drop 1
  if whole ≠ [] ∧ (whole ++ rest).all Char.isDigit then
    some ((Nat.ofDigitChars 10 (whole ++ rest) 0 : Rat) / 10 ^ rest.length)
  else none

/-- The number that a text in decimal notation stands for. -/
def readNumber : List Char → Option Rat
  | '-' :: t => (readUnsigned t).map (- ·)
  | t => readUnsigned t

/-- What a text says of a number `x` of type `f32`: it reads back as `x`, no text with fewer decimals does, and it is within one part
in `2 ^ 24 - 1` of `x`. -/
def ShownFor (x : Rat) (text : List Char) : Prop :=
  ∃ z, readNumber text = some z ∧ RoundsTo z x ∧ gap z x ≤ gap 0 x / 16777215 ∧
    (x ≠ 0 → ∃ k j : Int, z = (k : Rat) * (10 : Rat) ^ j ∧ ∀ k' j' : Int, RoundsTo ((k' : Rat) * (10 : Rat) ^ j') x → j' ≤ j)

end Xcvr.Spec
