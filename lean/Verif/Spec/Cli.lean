import Verif.Model.Cli
import Verif.Spec.Text
import Verif.Spec.MemoryMap

/-! # Specification: texts given to the command line tool -/

namespace Xcvr.Spec

open Xcvr.Cli

/-- `s` consists of digits of the given radix, most significant first, and denotes `n`. -/
inductive Digits (radix : Nat) : List Char → Nat → Prop
  | nil : Digits radix [] 0
  | snoc {s n c d} : Digits radix s n → HexDigit c d → d < radix → Digits radix (s ++ [c]) (radix * n + d)

/-- A text that denotes the octet `x`: at least one digit, optionally preceded by a plus sign. -/
def Number (radix : Nat) (s : List Char) (x : U8) : Prop :=
  ∃ ds, (s = ds ∨ s = '+' :: ds) ∧ ds ≠ [] ∧ Digits radix ds x.toNat

/-- A white space character. -/
abbrev IsWhite (c : Char) : Prop := c.toNat ∈ whiteSpace

/-- White space only. -/
def White (s : List Char) : Prop := ∀ c ∈ s, IsWhite c

/-- A decimal number with white space around it. -/
def PaddedNumber (s : List Char) (x : U8) : Prop := ∃ a b c, s = a ++ b ++ c ∧ White a ∧ White c ∧ Number 10 b x

/-- An item of a list of ports, and the ports it stands for: a single number or an increasing inclusive range. -/
inductive Item : List Char → (Nat → Prop) → Prop
  | single {s x} : PaddedNumber s x → Item s (fun p => p = x.toNat)
  | range {s t x y} : PaddedNumber s x → PaddedNumber t y → x < y →
      Item (s ++ '-' :: t) (fun p => x.toNat ≤ p ∧ p ≤ y.toNat)

/-- A comma-separated list of items, and the ports it stands for. -/
inductive PortList : List Char → (Nat → Prop) → Prop
  | one {s P} : Item s P → PortList s P
  | cons {s t P Q} : Item s P → PortList t Q → PortList (s ++ ',' :: t) (fun p => P p ∨ Q p)

/-- What `str::to_lowercase` does to one character: ASCII letters become small, the other ASCII characters and white
space stay. Any other character becomes some characters of which none is white space, those in ASCII are `i` or `k`, and
one is `k` or outside ASCII: in the Unicode tables only the Kelvin sign (`k`) and the dotted capital I (`i` and U+0307)
give ASCII characters. -/
def LowerPiece (c : Char) (piece : List Char) : Prop :=
  if c.toNat < 128 ∨ IsWhite c then piece = [c.toLower]
  else (∀ d ∈ piece, ¬ IsWhite d ∧ (d.toNat < 128 → d = 'i' ∨ d = 'k')) ∧
    ∃ d ∈ piece, 128 ≤ d.toNat ∨ d = 'k'

/-- What `str::to_lowercase` does to a text. -/
inductive Lowered : List Char → List Char → Prop
  | nil : Lowered [] []
  | cons {c piece s t} : LowerPiece c piece → Lowered s t → Lowered (c :: s) (piece ++ t)

/-- The words that select transceivers by state, and what they select. -/
def keywords : List (List Char × Transceivers) :=
  [ (chars!"all", .all), (chars!"present", .present), (chars!"off", .powerState .off),
    (chars!"low-power", .powerState .low), (chars!"lp", .powerState .low), (chars!"hi-power", .powerState .high),
    (chars!"high-power", .powerState .high), (chars!"hp", .powerState .high), (chars!"sff", .kind .sff8636),
    (chars!"cmis", .kind .cmis) ]

/-- `s` is the word `w`, in any mix of capital and small letters. -/
def IsWord (s w : List Char) : Prop := s.map Char.toLower = w

/-- The words of a text, separated by white space. -/
inductive Words : List Char → List (List Char) → Prop
  | nil {a} : White a → Words a []
  | cons {a w s ws} : White a → w ≠ [] → (∀ c ∈ w, ¬ IsWhite c) → (∀ c ∈ s.head?, IsWhite c) →
      Words s ws → Words (a ++ w ++ s) (w :: ws)

/-- `s` is `t` with a prefix of two characters before it any number of times. -/
inductive Prefixed (a b : Char) : List Char → List Char → Prop
  | none {t} : Prefixed a b t t
  | more {s t} : Prefixed a b s t → Prefixed a b (a :: b :: s) t

/-- The value of a word of the input: decimal, hexadecimal after any number of `0x`, or binary after any number of
`0b`. -/
def WordValue : InputKind → List Char → U8 → Prop
  | .decimal, s, x => Number 10 s x
  | .hex, s, x => ∃ t, Prefixed '0' 'x' s t ∧ Number 16 t x
  | .binaryString, s, x => ∃ t, Prefixed '0' 'b' s t ∧ Number 2 t x
  | .binary, _, _ => False

/-- The octets that a text denotes. -/
inductive Values (kind : InputKind) : List (List Char) → Bytes → Prop
  | nil : Values kind [] []
  | cons {w ws x xs} : WordValue kind w x → Values kind ws xs → Values kind (w :: ws) (x :: xs)

/-- What a text means as input of the given kind. -/
def TextMeans (kind : InputKind) (text : List Char) (data : Bytes) : Prop := ∃ ws, Words text ws ∧ Values kind ws data

end Xcvr.Spec
