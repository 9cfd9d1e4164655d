import Verif.Model.Decode.Common

/-! # `decode/src/power.rs` -/

namespace Xcvr

/-- `power.rs` 18-28 `PowerControl`. -/
inductive PowerControl where
  | useLpModePin
  | overrideLpModePin (lowPower : Bool)
  deriving DecidableEq, Repr

namespace PowerControl

open Decode

/-- `power.rs` 31-62 `reads`. -/
def reads (id : Identifier) : Exec DecodeError (List MemoryRead) :=
  byKind id
    (do let power ← unw (MemAccess.newRead SffPage.lower 93 1)
        return [power])
    (do let power ← unw (MemAccess.newRead CmisPage.lower 26 1)
        return [power])

/-- `power.rs` 58-94 `parse`. -/
def parse (id : Identifier) (rs : List Bytes) : Exec DecodeError PowerControl :=
  byKind id
    (do let power ← firstOfFirst rs
        return if power &&& 0b1 = 0 then useLpModePin else overrideLpModePin (power &&& 0b10 != 0))
    (do let power ← firstOfFirst rs
        return if power &&& 0b01000000 ≠ 0 then useLpModePin else overrideLpModePin (power &&& 0b00010000 != 0))

/-- `power.rs` 62-64 and 78-80: one call of `next`. -/
def asks (id : Identifier) (rs : List Bytes) : Bool := asksByKind id (rs.length < 1) (rs.length < 1)

/-- `power.rs` 30 `impl ParseFromModule for PowerControl`. -/
def decoder : ModuleDecoder PowerControl := ⟨reads, parse, asks⟩

end PowerControl

end Xcvr
