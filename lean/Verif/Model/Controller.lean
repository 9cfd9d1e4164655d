import Verif.Model.Prog
import Verif.Model.Results
import Verif.Model.BTree
import Verif.Model.Decode.Common

/-! # `controller/src/controller.rs`: requests, memory access and decoding of module information -/

namespace Xcvr

/-- `results.rs` fixes the error type. -/
abbrev Res (P : Type) := ModuleResult TransceiverError P

namespace Controller

/-- `data.split_at(n)`: panics if `n` is past the end. -/
def splitAt (d : Bytes) (n : Nat) : Exec CtlError (Bytes × Bytes) :=
  if n ≤ d.length then .ok (d.take n, d.drop n) else .panic

/-- `slice::chunks(n)` and itertools' `chunks(n)`: groups of `n`, the last one possibly shorter. -/
def chunks {α : Type} (n : Nat) (l : List α) : List (List α) :=
  (List.range ((l.length + (n - 1)) / n)).map fun i => (l.drop (i * n)).take n

/-- `slice::chunks_exact(n)`: groups of exactly `n`; panics for `n = 0`. -/
def chunksExact (n : Nat) (l : Bytes) : Exec CtlError (List Bytes) :=
  if n = 0 then .panic else .ok ((List.range (l.length / n)).map fun i => (l.drop (i * n)).take n)

/-- `controller.rs` 321-344 `deserialize_hw_errors`. -/
def deserializeHwErrors (failed : ModuleId) (data : Bytes) : Exec CtlError (FailedModules TransceiverError) :=
  match Xcvr.deserializeHwErrors failed data with
  | .error e => .err (.protocol e)
  | .ok hw => .ok ⟨failed, (hw.zip failed.toIndices).map fun p => .hardware p.2 p.1.1 p.1.2⟩

/-- `controller.rs` 907-926 `no_payload_request`. -/
def noPayloadRequest (r : HostRequest) : Prog (Res Unit) := do
  let response ← Prog.call (.host r)
  match response.message.body with
  | .spResponse (.ack success failed) =>
    let data ← Prog.ofExec (Exec.unwrap response.data)
    let failures ← Prog.ofExec (deserializeHwErrors failed data)
    return AckResult.new success failures
  | other => .fail (.unexpectedMessage other)

/-- `controller.rs` 841-844 `enable_power`. -/
def enablePower (m : ModuleId) : Prog (Res Unit) := noPayloadRequest (.enablePower m)
/-- `controller.rs` 850-853 `disable_power`. -/
def disablePower (m : ModuleId) : Prog (Res Unit) := noPayloadRequest (.disablePower m)
/-- `controller.rs` 856-859 `assert_reset`. -/
def assertReset (m : ModuleId) : Prog (Res Unit) := noPayloadRequest (.assertReset m)
/-- `controller.rs` 862-865 `deassert_reset`. -/
def deassertReset (m : ModuleId) : Prog (Res Unit) := noPayloadRequest (.deassertReset m)
/-- `controller.rs` 870-873 `clear_disable_latch`. -/
def clearDisableLatch (m : ModuleId) : Prog (Res Unit) := noPayloadRequest (.clearDisableLatch m)
/-- `controller.rs` 881-884 `assert_lpmode`. -/
def assertLpMode (m : ModuleId) : Prog (Res Unit) := noPayloadRequest (.assertLpMode m)
/-- `controller.rs` 892-895 `deassert_lpmode`. -/
def deassertLpMode (m : ModuleId) : Prog (Res Unit) := noPayloadRequest (.deassertLpMode m)
/-- `controller.rs` 900-903 `clear_power_fault`. -/
def clearPowerFault (m : ModuleId) : Prog (Res Unit) := noPayloadRequest (.clearPowerFault m)
/-- `controller.rs` 244-247 `set_leds`. -/
def setLeds (m : ModuleId) (s : LedState) : Prog (Res Unit) := noPayloadRequest (.setLedState m s)

/-- `message.rs` 730-784 `Status`: all eight bits are flags, so `from_bits` (`controller.rs` 949) accepts every byte. -/
abbrev Status := U8

namespace Status
/-- `message.rs` 743. -/
def enabled : Status := 0b00000010
/-- `message.rs` 749. -/
def reset : Status := 0b00000100
/-- `message.rs` 755. -/
def lowPowerMode : Status := 0b00001000
/-- `message.rs` 770. -/
def powerGood : Status := 0b00100000
/-- `bitflags` `contains`: all bits of `o` are set. -/
def contains (s o : Status) : Bool := s &&& o == o
end Status

/-- `controller.rs` 929-960 `status`. -/
def status (m : ModuleId) : Prog (Res Status) := do
  let response ← Prog.call (.host (.status m))
  match response.message.body with
  | .spResponse (.status modules failed) =>
    let data ← Prog.ofExec (Exec.unwrap response.data)
    let n ← Prog.ofExec (Exec.unwrap (SpResponse.status modules failed).expectedDataLen)
    let (data, errorData) ← Prog.ofExec (splitAt data n)
    let failures ← Prog.ofExec (deserializeHwErrors failed errorData)
    return ⟨modules, data, failures⟩
  | other => .fail (.unexpectedMessage other)

/-- `message.rs` 881-944 `ExtendedStatus`: nine flags. -/
def extendedStatusFlags : U32 := 0x1ff

/-- `message.rs` 975-1012: deserializing an `ExtendedStatus` rejects unknown bits. -/
def extendedStatusOf (b : Bytes) : Exec CtlError (U32 × Bytes) :=
  match (dec b : Option (U32 × Bytes)) with
  | some (x, rest) => if x &&& ~~~ extendedStatusFlags = 0 then .ok (x, rest) else .panic
  | none => .panic

/-- The loop of `controller.rs` 980-985. -/
def extendedStatusLoop : Nat → Bytes → Exec CtlError (List U32)
  | 0, _ => .ok []
  | n + 1, data => do
    let (d, rest) ← extendedStatusOf data
    let more ← extendedStatusLoop n rest
    return d :: more

/-- `controller.rs` 963-995 `extended_status`. -/
def extendedStatus (m : ModuleId) : Prog (Res U32) := do
  let response ← Prog.call (.host (.extendedStatus m))
  match response.message.body with
  | .spResponse (.extendedStatus modules failed) =>
    let data ← Prog.ofExec (Exec.unwrap response.data)
    let n ← Prog.ofExec (Exec.unwrap (SpResponse.extendedStatus modules failed).expectedDataLen)
    let (data, errorData) ← Prog.ofExec (splitAt data n)
    let status ← Prog.ofExec (extendedStatusLoop modules.count data)
    let failures ← Prog.ofExec (deserializeHwErrors failed errorData)
    return ⟨modules, status, failures⟩
  | other => .fail (.unexpectedMessage other)

/-- `hubpack::deserialize(chunk).unwrap().0`, `controller.rs` 229. -/
def ledOf (chunk : Bytes) : Exec CtlError LedState :=
  match (dec chunk : Option (LedState × Bytes)) with
  | some (s, _) => .ok s
  | none => .panic

/-- `controller.rs` 211-241 `leds`. -/
def leds (m : ModuleId) : Prog (Res LedState) := do
  let response ← Prog.call (.host (.ledState m))
  match response.message.body with
  | .spResponse (.ledState modules failed) =>
    let data ← Prog.ofExec (Exec.unwrap response.data)
    let n ← Prog.ofExec (Exec.unwrap (SpResponse.ledState modules failed).expectedDataLen)
    let (data, errorData) ← Prog.ofExec (splitAt data n)
    let state ← Prog.ofExec ((chunks (maxSize LedState) data).mapM ledOf)
    let failures ← Prog.ofExec (deserializeHwErrors failed errorData)
    return ⟨modules, state, failures⟩
  | other => .fail (.unexpectedMessage other)

/-- `controller.rs` 250-265 `mac_addrs`. -/
def macAddrs : Prog MacAddrs := do
  let response ← Prog.call (.host .macAddrs)
  match response.message.body with
  | .spResponse (.macAddrs (.ok macs)) => return macs
  | .spResponse (.macAddrs (.error e)) => .fail (.mac e)
  | other => .fail (.unexpectedMessage other)

/-! ## Memory access -/

/-- `controller.rs` 1326-1334 `split_large_reads`. `from_index_iter(..).unwrap()` cannot fail on indices taken from a
`ModuleId`; a failure would be a panic. -/
def splitLargeReads (m : ModuleId) (r : MemoryRead) : Exec CtlError (List ModuleId) :=
  (chunks (maxPayloadSize / r.len.toNat) m.toIndices).mapM fun c => Exec.unwrapExcept (ModuleId.fromIndexIter c)

/-- `controller.rs` 1338-1341 `fits_in_one_message`. -/
def fitsInOneMessage (m : ModuleId) (r : MemoryRead) : Bool := m.count * r.len.toNat ≤ maxPayloadSize

/-- `controller.rs` 1107-1150 `read_impl_one_message`. -/
def readImplOneMessage (m : ModuleId) (read : MemoryRead) : Prog (Res Bytes) := do
  if !fitsInOneMessage m read then Prog.panic
  let response ← Prog.call (.host (.read m read))
  match response.message.body with
  | .spResponse (.read modules failed rd) =>
    let data ← Prog.ofExec (Exec.unwrap response.data)
    let n ← Prog.ofExec (Exec.unwrap (SpResponse.read modules failed rd).expectedDataLen)
    let (readData, errorData) ← Prog.ofExec (splitAt data n)
    let data ← Prog.ofExec (chunksExact read.len.toNat readData)
    if data.length ≠ modules.count then Prog.panic
    let failures ← Prog.ofExec (deserializeHwErrors failed errorData)
    return ⟨modules, data, failures⟩
  | other => .fail (.unexpectedMessage other)

/-- The loop of `controller.rs` 1094-1097. -/
def readLoop (read : MemoryRead) (response : Res Bytes) : List ModuleId → Prog (Res Bytes)
  | [] => return response
  | m :: ms => do
    let next ← readImplOneMessage m read
    let response ← Prog.ofExec (Exec.unwrap (response.merge next))
    readLoop read response ms

/-- `controller.rs` 1082-1099 `read_impl`. -/
def readImpl (m : ModuleId) (read : MemoryRead) : Prog (Res Bytes) := do
  if m.count = 0 ∨ read.len = 0 then Prog.ofExec (Exec.unwrap (ModuleResult.success m []))
  else
    match ← Prog.ofExec (splitLargeReads m read) with
    | [] => .panic
    | first :: rest =>
      let response ← readImplOneMessage first read
      readLoop read response rest

/-- The read of `controller.rs` 269: `MemoryRead::new(sff8636::Page::Lower, 0, 1).unwrap()`. -/
def identifierRead : Exec CtlError MemoryRead := Exec.unwrapExcept (MemAccess.newRead SffPage.lower 0 1)

/-- `v[0]`, `controller.rs` 277. -/
def identifierOf (v : Bytes) : Exec CtlError Identifier :=
  match v with
  | [] => .panic
  | b :: _ => .ok (Bf.ofByte b)

/-- `controller.rs` 268-281 `identifier`. -/
def identifier (m : ModuleId) : Prog (Res Identifier) := do
  let read ← Prog.ofExec identifierRead
  let r ← readImpl m read
  let ids ← Prog.ofExec (r.data.mapM identifierOf)
  return ⟨r.modules, ids, r.failures⟩

/-- `controller.rs` 1343-1379 `verify_ids_for_page`. -/
def verifyIdsForPage (page : Page) (m : ModuleId) (ids : List Identifier) : Exec CtlError Unit :=
  let interface := page.managementInterface
  let bad (wrong : Identifier → Bool) : Exec CtlError Unit :=
    match (m.toIndices.zip ids).find? fun p => wrong p.2 with
    | none => .ok ()
    | some (ix, ident) => .err (.transceiver (.invalidInterfaceForModule ix ident interface))
  match interface with
  | .sff8636 => bad fun ident => !(ident = Identifier.qsfp28 || ident = Identifier.qsfpPlusSff8636)
  | .cmis => bad fun ident => !(ident = Identifier.qsfpDD || ident = Identifier.qsfpPlusCmis)
  | .unknown _ => .panic

/-- `controller.rs` 1066-1078 `read`. -/
def read (m : ModuleId) (rd : MemoryRead) : Prog (Res Bytes) := do
  if m.count = 0 ∨ rd.len = 0 then Prog.ofExec (Exec.unwrap (ModuleResult.success m []))
  else
    let result ← identifier m
    Prog.ofExec (verifyIdsForPage rd.page result.modules result.data)
    let readResult ← readImpl result.modules rd
    return { readResult with failures := result.failures.merge readResult.failures }

/-- `controller.rs` 1024-1056 `write_impl`. -/
def writeImpl (m : ModuleId) (write : MemoryWrite) (data : Bytes) : Prog (Res Unit) := do
  if write.len.toNat ≠ data.length then Prog.fail (.invalidWriteData write.len.toNat data.length)
  else
    let response ← Prog.call (.host (.write m write) (some data))
    match response.message.body with
    | .spResponse (.write success failed _) =>
      let data ← Prog.ofExec (Exec.unwrap response.data)
      let failures ← Prog.ofExec (deserializeHwErrors failed data)
      return AckResult.new success failures
    | other => .fail (.unexpectedMessage other)

/-- `controller.rs` 1005-1020 `write`. -/
def write (m : ModuleId) (w : MemoryWrite) (data : Bytes) : Prog (Res Unit) := do
  let ident ← identifier m
  Prog.ofExec (verifyIdsForPage w.page ident.modules ident.data)
  let result ← writeImpl ident.modules w data
  return AckResult.new result.modules (ident.failures.merge result.failures)

/-- `controller.rs` 290-307 `reset`. -/
def reset (m : ModuleId) : Prog (Res Unit) := do
  let r₁ ← assertReset m
  let r₂ ← deassertReset r₁.modules
  return AckResult.new r₂.modules (r₁.failures.merge r₂.failures)

/-! ## Decoding module information -/

/-- The derived order on `Identifier` (`utils.rs` 95-103): position in the declaration, then payload. -/
def identifierLt : Identifier → Identifier → Bool
  | .known i, .known j => i.val < j.val
  | .known _, .other _ _ => true
  | .other _ _, .known _ => false
  | .other i x, .other j y => i.val < j.val || (i.val == j.val && x < y)

/-- `controller.rs` 195-208 `split_modules_by_identifier`; the map is a list sorted by key. `set(port).unwrap()` cannot
fail on ports taken from a `ModuleId`. -/
def splitModulesByIdentifier (m : ModuleId) (ids : List Identifier) : Exec CtlError (List (Identifier × ModuleId)) :=
  if m.count ≠ ids.length then .panic
  else .ok ((m.toIndices.zip ids).foldl
    (fun out p => BMap.upsert identifierLt p.2 (fun s => ((s.getD ModuleId.empty).set p.1).1) out) [])

/-- State of `parse_modules_by_identifier` (`controller.rs` 1195-1200): the result under construction and the map
`data_by_index`. -/
structure ParseState (P : Type) where
  modules : ModuleId
  failures : FailedModules TransceiverError
  byIndex : List (U8 × P)

/-- `controller.rs` 1244-1254 and 1280-1289: move a module to the failed ones. `clear` and `set` cannot fail, because the
module comes from `to_indices`. -/
def ParseState.fault {P : Type} (s : ParseState P) (module : U8) (e : TransceiverError) : ParseState P :=
  { s with
    modules := (s.modules.clear module).1
    failures := ⟨(s.failures.modules.set module).1, s.failures.errors ++ [e]⟩ }

variable {P : Type}

/-- `controller.rs` 1222-1224: all reads for one kind of module. -/
def readAll (m : ModuleId) : List MemoryRead → Prog (List (Res Bytes))
  | [] => return []
  | rd :: rds => do
    let r ← readImpl m rd
    let rs ← readAll m rds
    return r :: rs

/-- `controller.rs` 1262-1276: `parse` on the data of one module, one item per read. The items are looked up when `parse`
asks for them, and `expect` panics at the first that is not there. -/
def parseFrom (d : ModuleDecoder P) (id : Identifier) (results : List (Res Bytes)) (module : U8) : Exec DecodeError P :=
  let items := results.map fun r => r.nth module
  let present := (items.takeWhile Option.isSome).filterMap fun x => x
  if present.length < items.length && d.asks id present then .panic else d.parse id present

/-- The body of `'module: for module in modules.to_indices()`, `controller.rs` 1234-1292. -/
def parseOne (d : ModuleDecoder P) (id : Identifier) (results : List (Res Bytes)) (s : ParseState P) (module : U8) :
    Exec CtlError (ParseState P) :=
  match results.findSome? fun r => r.nthErr module with
  | some e => .ok (s.fault module e)
  | none =>
    match parseFrom d id results module with
    | .ok parsed => return { s with byIndex := BMap.upsert u8Lt module (fun _ => parsed) s.byIndex }
    | .err e => return s.fault module (.decode e)
    | .panic => .panic

/-- One round of the loop over kinds, `controller.rs` 1205-1293. -/
def parseKind (d : ModuleDecoder P) (s : ParseState P) (kind : Identifier × ModuleId) : Prog (ParseState P) := do
  let reads ← match d.reads kind.1 with
    | .ok rs => .ret rs
    | .err e => .fail (.transceiver (.decode e))
    | .panic => .panic
  let results ← readAll kind.2 reads
  Prog.ofExec (kind.2.toIndices.foldlM (parseOne d kind.1 results) s)

/-- The loop of `controller.rs` 1205-1293. -/
def parseKinds (d : ModuleDecoder P) : ParseState P → List (Identifier × ModuleId) → Prog (ParseState P)
  | s, [] => return s
  | s, kind :: kinds => do
    let s ← parseKind d s kind
    parseKinds d s kinds

/-- `controller.rs` 1177-1298 `parse_modules_by_identifier`. -/
def parseModulesByIdentifier (d : ModuleDecoder P) (m : ModuleId) : Prog (Res P) := do
  let ident ← identifier m
  let byId ← Prog.ofExec (splitModulesByIdentifier ident.modules ident.data)
  let s ← parseKinds d ⟨ident.modules, ident.failures, []⟩ byId
  return ⟨s.modules, s.byIndex.map Prod.snd, s.failures⟩

end Controller

end Xcvr
