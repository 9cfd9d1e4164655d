import Verif.Model.Prim

/-!
# `std::str::from_utf8` and `str::trim_end`

The standard library functions that `decode/src/ident.rs` 299-310 calls.
-/

namespace Xcvr

/-- A UTF-8 continuation byte. -/
def isCont (b : U8) : Bool := 0x80 ≤ b && b ≤ 0xbf

/-- The payload bits of a continuation byte. -/
def contBits (b : U8) : Nat := b.toNat % 64

/-- One step of the validation loop of `std::str::from_utf8`: the character at the start and the remaining bytes, or
`none` if the bytes do not start with a well-formed character. The ranges are those of the standard library (Unicode
table 3-7). -/
def utf8Next : Bytes → Option (Char × Bytes)
  | [] => none
  | a :: r =>
    if a < 0x80 then some (Char.ofNat a.toNat, r)
    else if 0xc2 ≤ a && a ≤ 0xdf then
      match r with
      | b :: r => if isCont b then some (Char.ofNat (a.toNat % 32 * 64 + contBits b), r) else none
      | _ => none
    else if 0xe0 ≤ a && a ≤ 0xef then
      match r with
      | b :: c :: r =>
        if ((a == 0xe0 && 0xa0 ≤ b && b ≤ 0xbf) || (0xe1 ≤ a && a ≤ 0xec && isCont b) ||
            (a == 0xed && 0x80 ≤ b && b ≤ 0x9f) || (0xee ≤ a && isCont b)) && isCont c
        then some (Char.ofNat (a.toNat % 16 * 4096 + contBits b * 64 + contBits c), r) else none
      | _ => none
    else if 0xf0 ≤ a && a ≤ 0xf4 then
      match r with
      | b :: c :: d :: r =>
        if ((a == 0xf0 && 0x90 ≤ b && b ≤ 0xbf) || (0xf1 ≤ a && a ≤ 0xf3 && isCont b) ||
            (a == 0xf4 && 0x80 ≤ b && b ≤ 0x8f)) && isCont c && isCont d
        then some (Char.ofNat (a.toNat % 8 * 262144 + contBits b * 4096 + contBits c * 64 + contBits d), r) else none
      | _ => none
    else none

/-- The validation loop: the characters of the longest well-formed prefix, and the bytes after it (`valid_up_to`). Every
step consumes at least one byte, so the length of the input is enough fuel. -/
def utf8Loop : Nat → Bytes → List Char × Bytes
  | 0, b => ([], b)
  | n + 1, b =>
    match utf8Next b with
    | none => ([], b)
    | some (c, r) => (c :: (utf8Loop n r).1, (utf8Loop n r).2)

/-- `std::str::from_utf8`: the text, or on failure the text of the valid prefix. -/
def fromUtf8 (b : Bytes) : Except (List Char) (List Char) :=
  match utf8Loop b.length b with
  | (cs, []) => .ok cs
  | (cs, _ :: _) => .error cs

/-- `char::is_whitespace`: the Unicode property White_Space. -/
def isWhitespace (c : Char) : Bool :=
  let n := c.toNat
  (0x9 ≤ n && n ≤ 0xd) || n == 0x20 || n == 0x85 || n == 0xa0 || n == 0x1680 || (0x2000 ≤ n && n ≤ 0x200a) ||
    n == 0x2028 || n == 0x2029 || n == 0x202f || n == 0x205f || n == 0x3000

/-- `str::trim_end`. -/
def trimEnd (s : List Char) : List Char := (s.reverse.dropWhile isWhitespace).reverse

end Xcvr
