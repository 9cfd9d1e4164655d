import Verif.Model.Prim

/-!
# `decode/src/utils.rs`: the `bitfield_enum!` macro

The macro turns a table into an enum type with conversions from and to bytes and strings. A table is a value here, and
the generated type and functions are functions of the table. Strings are lists of characters.
-/

namespace Xcvr

/-- A string literal as a list of character literals. -/
macro:max "chars!" s:str : term => do
  let cs := s.getString.toList.map fun c => Lean.Syntax.mkCharLit c
  `([$(cs.toArray),*])

/-- A catch-all variant: its name and its pattern. -/
structure OtherVariant where
  name : List Char
  pat : U8 → Bool

/-- The arguments of the first form of the macro, `utils.rs` 82-88: (bits, variant name, display) and the catch-alls. -/
structure BitfieldEnum where
  variants : List (U8 × List Char × List Char)
  others : List OtherVariant

/-- `utils.rs` 100-103: the generated enum; a named variant is its position in the table, a catch-all carries a byte. The
derived order compares positions first (named before catch-all) and payloads second. -/
inductive Bf (T : BitfieldEnum) where
  | known (i : Fin T.variants.length)
  | other (j : Fin T.others.length) (x : U8)
  deriving DecidableEq, Repr

namespace Bf

variable {T : BitfieldEnum}

/-- `utils.rs` 116-125 `From<u8>`: the first matching arm. Rust rejects a table that does not cover all bytes, so `none`
does not occur (class `Covers`). -/
def ofByte? (x : U8) : Option (Bf T) :=
  match T.variants.findFinIdx? fun v => v.1 == x with
  | some i => some (.known i)
  | none =>
    match T.others.findFinIdx? fun o => o.pat x with
    | some j => some (.other j x)
    | none => none

/-- The exhaustiveness check Rust makes on the `match` of `utils.rs` 120-123. -/
class Covers (T : BitfieldEnum) : Prop where
  covers : ∀ x : U8, (ofByte? (T := T) x).isSome = true

/-- `utils.rs` 116-125 `From<u8>`, for a table that Rust accepts. -/
def ofByte [Covers T] (x : U8) : Bf T := (ofByte? x).get (Covers.covers x)

/-- `utils.rs` 127-136 `From<Self> for u8`. -/
def toByte : Bf T → U8
  | .known i => T.variants[i].1
  | .other _ x => x

/-- A lower-case hexadecimal digit. -/
def hexDigit (n : Nat) : Char := if n < 10 then Char.ofNat (48 + n) else Char.ofNat (87 + n)

/-- `{x:02x}`. -/
def hex2 (x : U8) : List Char := [hexDigit (x.toNat / 16), hexDigit (x.toNat % 16)]

/-- `utils.rs` 105-114 `Display`. -/
def display : Bf T → List Char
  | .known i => T.variants[i].2.2
  | .other j x => T.others[j].name ++ chars!" (0x" ++ hex2 x ++ chars!")"

end Bf

/-- `char::to_digit(16)` on one character. -/
def hexVal (c : Char) : Option Nat :=
  if '0' ≤ c ∧ c ≤ '9' then some (c.toNat - 48)
  else if 'a' ≤ c ∧ c ≤ 'f' then some (c.toNat - 87)
  else if 'A' ≤ c ∧ c ≤ 'F' then some (c.toNat - 55)
  else none

/-- The digit loop of `u8::from_str_radix(_, 16)`: overflow is an error. -/
def hexLoop (acc : Nat) : List Char → Option Nat
  | [] => some acc
  | c :: cs =>
    match hexVal c with
    | none => none
    | some d => if acc * 16 + d < 256 then hexLoop (acc * 16 + d) cs else none

/-- `u8::from_str_radix(s, 16).ok()`: an optional plus sign, then at least one digit. -/
def u8FromHex (s : List Char) : Option U8 :=
  match s with
  | [] => none
  | '+' :: cs => if cs.isEmpty then none else (hexLoop 0 cs).map (BitVec.ofNat 8)
  | cs => (hexLoop 0 cs).map (BitVec.ofNat 8)

/-- `str::strip_prefix`. -/
def stripPrefix : List Char → List Char → Option (List Char)
  | s, [] => some s
  | [], _ :: _ => none
  | c :: s, p :: ps => if c = p then stripPrefix s ps else none

/-- `str::strip_suffix`. -/
def stripSuffix (s p : List Char) : Option (List Char) := (stripPrefix s.reverse p.reverse).map List.reverse

/-- `utils.rs` 348-357 `parse_u8_bitfield_variant`. -/
def parseU8BitfieldVariant (s variant : List Char) : Option U8 :=
  match stripSuffix s chars!")" with
  | none => none
  | some s =>
    match stripPrefix s variant with
    | none => none
    | some s =>
      match stripPrefix s chars!" (0x" with
      | none => none
      | some inner => u8FromHex inner

/-- The loop over catch-all variants of `utils.rs` 150-156: the first one whose text parses. -/
def firstOther (s : List Char) : (os : List OtherVariant) → Option (Fin os.length × U8)
  | [] => none
  | o :: os =>
    match parseU8BitfieldVariant s o.name with
    | some x => some (⟨0, by simp⟩, x)
    | none => (firstOther s os).map fun p => (p.1.succ, p.2)

/-- `utils.rs` 139-160 `FromStr`. -/
def Bf.fromStr {T : BitfieldEnum} (s : List Char) : Option (Bf T) :=
  match T.variants.findFinIdx? fun v => v.2.2 == s with
  | some i => some (.known i)
  | none => (firstOther s T.others).map fun p => .other p.1 p.2

end Xcvr
