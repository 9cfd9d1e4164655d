import Verif.Model.Prim

/-!
# The `hubpack` wire format

`hubpack` is an external crate used through `#[derive(Serialize, Deserialize, SerializedSize)]`, `hubpack::serialize`
and `hubpack::deserialize`. Its published format is modelled here: integers are little-endian with their natural
width, structures are the concatenation of their fields, an enum is one tag byte (position of the variant in the
declaration) followed by the variant's fields, `Option` is a tag byte 0 or 1 followed by the value for 1, `[u8; N]` is
its bytes. `deserialize` returns the value and the remaining bytes; it fails on truncated input and on unknown tags
(the code never distinguishes the kinds of failure, so failure is `none`). `SerializedSize::MAX_SIZE` is the sum over
fields, and one plus the maximum over variants for enums.
-/

namespace Xcvr

/-- A decoder: value and remaining bytes, or failure. -/
abbrev Decoder (α : Type) := Bytes → Option (α × Bytes)

/-- A wire type: `hubpack::serialize`, `hubpack::deserialize`, `SerializedSize::MAX_SIZE`. -/
class Codec (α : Type) where
  enc : α → Bytes
  dec : Decoder α
  maxSize : Nat

export Codec (enc dec maxSize)

/-- Little-endian bytes of a number, `n` of them. -/
def leEnc : Nat → Nat → Bytes
  | 0, _ => []
  | n + 1, x => BitVec.ofNat 8 x :: leEnc n (x / 256)

/-- Read `n` little-endian bytes. -/
def leDec : Nat → Decoder Nat
  | 0, bs => some (0, bs)
  | _ + 1, [] => none
  | n + 1, b :: bs =>
    match leDec n bs with
    | some (x, t) => some (b.toNat + 256 * x, t)
    | none => none

namespace Decoder

/-- Decode then build a value. -/
def map {α β : Type} (f : α → β) (d : Decoder α) : Decoder β := fun bs =>
  match d bs with
  | some (a, t) => some (f a, t)
  | none => none

end Decoder

/-- Tag byte followed by the decoder of that variant; tags past the last variant fail. -/
def enumDec {α : Type} (variants : List (Decoder α)) : Decoder α
  | [] => none
  | tag :: t =>
    match variants[tag.toNat]? with
    | some d => d t
    | none => none

/-- A variant without fields. -/
def unitVariant {α : Type} (a : α) : Decoder α := fun bs => some (a, bs)

/-- The largest of the given sizes. -/
def maxOf (l : List Nat) : Nat := l.foldl max 0

instance : Codec U8 where
  enc x := [x]
  dec
    | [] => none
    | b :: t => some (b, t)
  maxSize := 1

instance : Codec U16 where
  enc x := leEnc 2 x.toNat
  dec := (leDec 2 : Decoder Nat).map (BitVec.ofNat 16)
  maxSize := 2

instance : Codec U32 where
  enc x := leEnc 4 x.toNat
  dec := (leDec 4 : Decoder Nat).map (BitVec.ofNat 32)
  maxSize := 4

instance : Codec U64 where
  enc x := leEnc 8 x.toNat
  dec := (leDec 8 : Decoder Nat).map (BitVec.ofNat 64)
  maxSize := 8

/-- Consecutive fields. -/
instance {α β : Type} [Codec α] [Codec β] : Codec (α × β) where
  enc p := enc p.1 ++ enc p.2
  dec bs :=
    match (dec bs : Option (α × Bytes)) with
    | none => none
    | some (a, t) =>
      match (dec t : Option (β × Bytes)) with
      | none => none
      | some (b, t) => some ((a, b), t)
  maxSize := maxSize α + maxSize β

instance {α : Type} [Codec α] : Codec (Option α) where
  enc
    | none => [0]
    | some a => 1 :: enc a
  dec := enumDec [unitVariant none, Decoder.map some dec]
  maxSize := 1 + maxSize α

/-- An enum without variants: `SerializedSize` is the tag byte, nothing decodes. -/
instance : Codec Empty where
  enc := nofun
  dec := enumDec []
  maxSize := 1

end Xcvr
