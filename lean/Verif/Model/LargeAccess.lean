import Verif.Model.Mgmt

/-! # `controller/src/large_access.rs`: splitting large memory accesses -/

namespace Xcvr

/-- The errors `build_many` can return: `Error::ByteOutOfRange(usize)` and `Error::Mgmt(mgmt::Error)` of
`controller/src/lib.rs`. -/
inductive LargeAccessError where
  | byteOutOfRange (n : Nat)
  | mgmt (e : MgmtError)
  deriving DecidableEq, Repr

/-- `(start..stop).step_by(size)` of the standard library. -/
def stepBy (start stop size : Nat) : List Nat :=
  (List.range ((stop - start + (size - 1)) / size)).map fun k => start + k * size

/-- `collect::<Result<Vec<_>, _>>()`: stops at the first error (or panic). -/
def collectExec {ε α β : Type} (f : α → Exec ε β) : List α → Exec ε (List β)
  | [] => .ok []
  | a :: as =>
    match f a with
    | .ok b =>
      match collectExec f as with
      | .ok bs => .ok (b :: bs)
      | .err e => .err e
      | .panic => .panic
    | .err e => .err e
    | .panic => .panic

/-- `u8::try_from(x).unwrap()` for a `u16` (here `Nat`) value. -/
def u8TryFromUnwrap {ε : Type} (x : Nat) : Exec ε U8 :=
  if x < 256 then .ok (BitVec.ofNat 8 x) else .panic

/-- The closure of `large_access.rs` 54-60. -/
def buildChunk (buildOne : U8 → U8 → Except MgmtError MemAccess) (size : U8) (stop newOffset : Nat) :
    Exec LargeAccessError MemAccess :=
  match u8TryFromUnwrap (stop - newOffset) with
  | .panic => .panic
  | .err e => .err e
  | .ok remainder =>
    let newLen := if size ≤ remainder then size else remainder
    match u8TryFromUnwrap newOffset with
    | .panic => .panic
    | .err e => .err e
    | .ok off =>
      match buildOne off newLen with
      | .ok a => .ok a
      | .error e => .err (.mgmt e)

/-- `large_access.rs` 41-62 `build_many`; `buildOne` is `Self::build_one` with the page fixed. -/
def buildMany (buildOne : U8 → U8 → Except MgmtError MemAccess) (size : U8) (offset len : U8) :
    Exec LargeAccessError (List MemAccess) :=
  let stop := offset.toNat + len.toNat
  if stop > 256 then .err (.byteOutOfRange stop)
  else collectExec (buildChunk buildOne size stop) (stepBy offset.toNat stop size.toNat)

/-- `large_access.rs` 65-72: reads of SFF-8636 modules. -/
def sffLargeRead (page : SffPage) : U8 → U8 → Exec LargeAccessError (List MemoryRead) :=
  buildMany (MemAccess.newRead page) 64

/-- `large_access.rs` 74-81: writes of SFF-8636 modules. -/
def sffLargeWrite (page : SffPage) : U8 → U8 → Exec LargeAccessError (List MemoryWrite) :=
  buildMany (MemAccess.newWrite page) 64

/-- `large_access.rs` 83-89: reads of CMIS modules. -/
def cmisLargeRead (page : CmisPage) : U8 → U8 → Exec LargeAccessError (List MemoryRead) :=
  buildMany (MemAccess.newRead page) (MemoryPage.maxReadSize CmisPage)

/-- `large_access.rs` 91-97: writes of CMIS modules. -/
def cmisLargeWrite (page : CmisPage) : U8 → U8 → Exec LargeAccessError (List MemoryWrite) :=
  buildMany (MemAccess.newWrite page) (MemoryPage.maxWriteSize CmisPage)

end Xcvr
