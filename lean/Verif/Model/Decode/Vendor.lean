import Verif.Model.Decode.Common
import Verif.Model.Utf8

/-! # `decode/src/ident.rs`: vendor information -/

namespace Xcvr

/-- `ident.rs` 148-155 `Vendor`. -/
structure Vendor where
  name : List Char
  oui : Oui
  part : List Char
  revision : List Char
  serial : List Char
  date : Option (List Char)
  deriving DecidableEq, Repr

/-- `ident.rs` 135-140 `VendorInfo`. -/
structure VendorInfo where
  identifier : Identifier
  vendor : Vendor
  deriving DecidableEq, Repr

/-- `ident.rs` 299-310 `ascii_to_string`. The inner `expect` cannot fail: the prefix was just validated. -/
def asciiToString (b : Bytes) : List Char :=
  match fromUtf8 b with
  | .ok s => trimEnd s
  | .error valid => trimEnd valid

namespace VendorInfo

open Decode

/-- `ident.rs` 202-206: `(129..190).step_by(8)`. -/
def cmisOffsets : List U8 := [129, 137, 145, 153, 161, 169, 177, 185]

/-- `ident.rs` 177-212 `reads`. -/
def reads (id : Identifier) : Exec DecodeError (List MemoryRead) :=
  byKind id
    (do let page ← mgmt (sffUpperPageNew 0)
        let r ← mgmt (MemAccess.newRead (SffPage.upper page) 148 (220 - 148))
        return [r])
    (do let page ← mgmt (cmisNewUnbanked 0)
        cmisOffsets.mapM fun offset => mgmt (MemAccess.newRead (CmisPage.upper page) offset 8))

/-- `Oui(bytes.try_into().unwrap())`. -/
def ouiOf : Bytes → Exec DecodeError Oui
  | [a, b, c] => .ok ⟨a, b, c⟩
  | _ => .panic

/-- `std::str::from_utf8(bytes).ok().map(String::from)`. -/
def dateOf (b : Bytes) : Option (List Char) :=
  match fromUtf8 b with
  | .ok s => some s
  | .error _ => none

/-- The body shared by `ident.rs` 239-258 and 275-293, given the six ranges. -/
def build (id : Identifier) (data : Bytes) (name oui part revision serial date : Nat × Nat) :
    Exec DecodeError VendorInfo := do
  let name ← slice data name.1 name.2
  let oui ← slice data oui.1 oui.2
  let oui ← ouiOf oui
  let part ← slice data part.1 part.2
  let revision ← slice data revision.1 revision.2
  let serial ← slice data serial.1 serial.2
  let date ← slice data date.1 date.2
  return ⟨id, ⟨asciiToString name, oui, asciiToString part, asciiToString revision, asciiToString serial, dateOf date⟩⟩

/-- `ident.rs` 223-225 `shift_range`. -/
def shiftRange (start len : Nat) : Nat × Nat := (start - 148, start - 148 + len)

/-- `ident.rs` 214-296 `parse`. -/
def parse (id : Identifier) (rs : List Bytes) : Exec DecodeError VendorInfo :=
  byKind id
    (do let (data, _) ← next rs
        build id data (shiftRange 148 16) (shiftRange 165 3) (shiftRange 168 16) (shiftRange 184 2)
          (shiftRange 196 16) (shiftRange 212 8))
    (build id rs.flatten (0, 16) (16, 19) (19, 35) (35, 37) (37, 53) (53, 61))

/-- `ident.rs` 234: one call of `next`; 274: all of the iterator. -/
def asks (id : Identifier) (rs : List Bytes) : Bool := asksByKind id (rs.length < 1) true

/-- `ident.rs` 176 `impl ParseFromModule for VendorInfo`. -/
def decoder : ModuleDecoder VendorInfo := ⟨reads, parse, asks⟩

end VendorInfo

end Xcvr
