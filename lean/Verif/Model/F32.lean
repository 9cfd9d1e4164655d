/-!
# Numbers of type `f32`

A finite `f32` is the rational number it stands for. An operation of Rust on `f32` gives the number of that type nearest to
the exact result, and of two that are equally near the one whose significand is even (IEEE 754, `roundTiesToEven`).
Simplified: the exponent is not bounded and there is one zero. All numbers in the code that is modelled are zero or between
`2 ^ -126` and `2 ^ 128` in size, where this makes no difference (C100), and none is the negative zero.
-/

namespace Xcvr

/-- The integer nearest to `x`; of two, the even one. -/
def nearestEven (x : Rat) : Int :=
  let q := x.floor
  if x - q < 1 / 2 then q
  else if 1 / 2 < x - q then q + 1
  else if q % 2 = 0 then q
  else q + 1

/-- The exponent of the last of 24 binary digits of `x`. -/
def lastPlace (x : Rat) : Int :=
  let e : Int := (x.num.natAbs.log2 : Int) - (x.den.log2 : Int) - 23
  if (if x < 0 then -x else x) < 2 ^ (23 : Nat) * (2 : Rat) ^ e then e - 1 else e

/-- The `f32` that an operation with the exact result `x` gives. -/
def single (x : Rat) : Rat :=
  if x = 0 then 0
  else (nearestEven (x / (2 : Rat) ^ lastPlace x) : Rat) * (2 : Rat) ^ lastPlace x

/-! ## Formatting

Modelled after the Rust library (`core::fmt::float`, `core::num::flt2dec`), which the code under `/repo` calls with `{x}` and
`{x:0.4}` (`xcvradm.rs` 1740-1950). -/

/-- `m` units of the `k`-th decimal place, in decimal notation. -/
def pointed (k m : Nat) : List Char :=
  let ds := Nat.toDigits 10 m
  let ds := List.replicate (k + 1 - ds.length) '0' ++ ds
  if k = 0 then ds else ds.take (ds.length - k) ++ '.' :: ds.drop (ds.length - k)

/-- `{x:0.k}`: `k` decimals, rounded to nearest; of two, the even one. -/
def fixedText (k : Nat) (x : Rat) : List Char :=
  (if x < 0 then ['-'] else []) ++ pointed k (nearestEven ((if x < 0 then -x else x) * 10 ^ k)).natAbs

/-- The multiple of `10 ^ j` next to `x` that the type cannot tell from `x`, if there is one; of two, the nearer. -/
def sameAt (x : Rat) (j : Int) : Option Nat :=
  let unit := (10 : Rat) ^ j
  let q := (x / unit).floor
  let same (z : Int) : Bool := single (z * unit) == x
  if same (q + 1) && (!same q || 1 / 2 ≤ x / unit - q) then some (q + 1).natAbs
  else if same q then some q.natAbs
  else none

/-- The first place from `j` down at which there is such a multiple. -/
def firstSame (x : Rat) : Nat → Int → Option (Nat × Int)
  | 0, _ => none
  | fuel + 1, j =>
    match sameAt x j with
    | some m => some (m, j)
    | none => firstSame x fuel (j - 1)

/-- `m` units of `10 ^ j`. -/
def scaledText (m : Nat) (j : Int) : List Char :=
  if 0 ≤ j then Nat.toDigits 10 m ++ List.replicate j.toNat '0' else pointed (-j).toNat m

/-- `{x}`: as few digits as tell `x` from the other numbers of the type. The search starts at a place where all digits of `x`
are zeros, and ends at one that has all decimals of `x`. -/
def shortestText (x : Rat) : List Char :=
  if x = 0 then ['0']
  else
    let y := if x < 0 then -x else x
    let top := (Nat.toDigits 10 y.num.natAbs).length
    (if x < 0 then ['-'] else []) ++
      match firstSame y (top + y.den.log2 + 1) top with
      | some (m, j) => scaledText m j
      | none => []

end Xcvr
