import Verif.Model.Ident

/-! # Parts shared by all decoders of `decode/src` -/

namespace Xcvr

/-- `decode/src/lib.rs` 54-60 `ParseFromModule`: which reads to make, and what they mean. A module's answers to the reads
are given to `parse` in order. In the code they come from an iterator, and `parse` may not ask for all of them: `asks`
tells whether, after these answers (each of the length asked for), it asks for another. -/
structure ModuleDecoder (α : Type) where
  reads : Identifier → Exec DecodeError (List MemoryRead)
  parse : Identifier → List Bytes → Exec DecodeError α
  asks : Identifier → List Bytes → Bool

namespace Decode

variable {α : Type}

/-- The `match id` common to all decoders (e.g. `power.rs` 32-61): the two SFF-8636 identifiers, the two CMIS
identifiers, and all others. -/
def byKind (id : Identifier) (sff cmis : Exec DecodeError α) : Exec DecodeError α :=
  if id = Identifier.qsfpPlusSff8636 ∨ id = Identifier.qsfp28 then sff
  else if id = Identifier.qsfpPlusCmis ∨ id = Identifier.qsfpDD then cmis
  else .err (.unsupportedIdentifier id)

/-- Whether `parse` asks for another answer, by kind of module; for other modules it asks for none. -/
def asksByKind (id : Identifier) (sff cmis : Bool) : Bool :=
  if id = Identifier.qsfpPlusSff8636 ∨ id = Identifier.qsfp28 then sff
  else if id = Identifier.qsfpPlusCmis ∨ id = Identifier.qsfpDD then cmis
  else false

/-- `expr?` on an `mgmt::Error`, converted by `decode/src/lib.rs` 33. -/
def mgmt (x : Except MgmtError α) : Exec DecodeError α :=
  match x with
  | .ok a => .ok a
  | .error e => .err (.management e)

/-- `expr.unwrap()` on an `mgmt::Error`. -/
def unw (x : Except MgmtError α) : Exec DecodeError α := Exec.unwrapExcept x

/-- `iter.next().ok_or(Error::ParseFailed)?`: the item and the rest of the iterator. -/
def next : List Bytes → Exec DecodeError (Bytes × List Bytes)
  | [] => .err .parseFailed
  | b :: rest => .ok (b, rest)

/-- `iter.next().unwrap()` or `expect`. -/
def nextUnwrap : List Bytes → Exec DecodeError (Bytes × List Bytes)
  | [] => .panic
  | b :: rest => .ok (b, rest)

/-- `bytes.first().ok_or(Error::ParseFailed)?`. -/
def first : Bytes → Exec DecodeError U8
  | [] => .err .parseFailed
  | x :: _ => .ok x

/-- `reads.next().and_then(|bytes| bytes.first()).ok_or(Error::ParseFailed)`, e.g. `power.rs` 62-65. -/
def firstOfFirst (rs : List Bytes) : Exec DecodeError U8 := do
  let (b, _) ← next rs
  first b

/-- `bytes.get(i).ok_or(Error::ParseFailed)?`. -/
def get (b : Bytes) (i : Nat) : Exec DecodeError U8 :=
  match b[i]? with
  | some x => .ok x
  | none => .err .parseFailed

/-- `bytes[i]`. -/
def idx (b : Bytes) (i : Nat) : Exec DecodeError U8 := Exec.unwrap b[i]?

/-- `&bytes[start..stop]`. -/
def slice (b : Bytes) (start stop : Nat) : Exec DecodeError Bytes :=
  if start ≤ stop ∧ stop ≤ b.length then .ok ((b.drop start).take (stop - start)) else .panic

/-- `[bytes[i], bytes[i + 1]]`. -/
def pairAt (b : Bytes) (i : Nat) : Exec DecodeError (U8 × U8) := do
  let x ← idx b i
  let y ← idx b (i + 1)
  return (x, y)

/-- `assert_eq!(bytes.len(), n)`. -/
def assertLen (b : Bytes) (n : Nat) : Exec DecodeError Unit := if b.length = n then .ok () else .panic

/-- `utils.rs` 12-17 `extract_bit`. -/
def extractBit (word bit : U8) : Exec DecodeError Bool :=
  if bit > 7 then .err .bitOutOfRange else .ok (word &&& ((1 : U8) <<< bit) != 0)

end Decode

end Xcvr
