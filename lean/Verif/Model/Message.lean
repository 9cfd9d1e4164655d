import Verif.Model.Codec
import Verif.Model.ModuleId
import Verif.Model.Mac
import Verif.Model.Mgmt

/-!
# `messages/src/message.rs`: messages, and the wire format of every type in them
-/

namespace Xcvr

/-- `message.rs` 87-124 `ProtocolError`. -/
inductive ProtocolError where
  | wrongMessage
  | notSupported
  | requestTooLarge
  | wrongDataSize (expected actual : U32)
  | versionMismatch (expected actual : U8)
  | serialization
  deriving DecidableEq, Repr

/-- `message.rs` 129-228 `HwError`. -/
inductive HwError where
  | i2cError
  | invalidModuleIndex
  | fpgaError
  | disabledBySp
  | noFrontIo
  | frontIoNotReady
  | notPresent
  | notPowered
  | powerFault
  | notInitialized
  | i2cAddressNack
  | i2cByteNack
  | i2cSclStretchTimeout
  | i2cTransactionTimeout
  | unknown
  deriving DecidableEq, Repr

/-- `message.rs` 1036-1050 `LedState`. -/
inductive LedState where
  | off
  | on
  | blink
  deriving DecidableEq, Repr

/-- `message.rs` 374-385 `MessageKind`. -/
inductive MessageKind where
  | error
  | hostRequest
  | spResponse
  | spRequest
  | hostResponse
  deriving DecidableEq, Repr

/-- `message.rs` 337-347 `Header`. -/
structure Header where
  version : U8
  messageId : U64
  messageKind : MessageKind
  deriving DecidableEq, Repr

/-- `message.rs` 476-548 `HostRequest`. -/
inductive HostRequest where
  | read (modules : ModuleId) (read : MemoryRead)
  | write (modules : ModuleId) (write : MemoryWrite)
  | status (modules : ModuleId)
  | assertReset (modules : ModuleId)
  | deassertReset (modules : ModuleId)
  | assertLpMode (modules : ModuleId)
  | deassertLpMode (modules : ModuleId)
  | enablePower (modules : ModuleId)
  | disablePower (modules : ModuleId)
  | managementInterface (modules : ModuleId) (interface : ManagementInterface)
  | macAddrs
  | clearPowerFault (modules : ModuleId)
  | ledState (modules : ModuleId)
  | setLedState (modules : ModuleId) (state : LedState)
  | extendedStatus (modules : ModuleId)
  | clearDisableLatch (modules : ModuleId)
  deriving DecidableEq, Repr

/-- `message.rs` 711-716 `MacAddrResponse`. -/
inductive MacAddrResponse where
  | ok (addrs : MacAddrs)
  | error (e : BadMacAddrRange)
  deriving DecidableEq, Repr

/-- `message.rs` 581-664 `SpResponse`. -/
inductive SpResponse where
  | read (modules failedModules : ModuleId) (read : MemoryRead)
  | write (modules failedModules : ModuleId) (write : MemoryWrite)
  | status (modules failedModules : ModuleId)
  | ack (modules failedModules : ModuleId)
  | macAddrs (r : MacAddrResponse)
  | ledState (modules failedModules : ModuleId)
  | extendedStatus (modules failedModules : ModuleId)
  deriving DecidableEq, Repr

/-- `message.rs` 722 `SpRequest`: no variants. -/
abbrev SpRequest := Empty

/-- `message.rs` 728 `HostResponse`: no variants. -/
abbrev HostResponse := Empty

/-- `message.rs` 421-442 `MessageBody`. -/
inductive MessageBody where
  | error (e : ProtocolError)
  | hostRequest (r : HostRequest)
  | spResponse (r : SpResponse)
  | spRequest (r : SpRequest)
  | hostResponse (r : HostResponse)
  deriving DecidableEq, Repr

/-- `message.rs` 388-391 `Message`. -/
structure Message where
  version : U8
  body : MessageBody
  deriving DecidableEq, Repr

/-- `message.rs` 72-73, 77-78: `version::inner::{CURRENT, MIN}`, `version::outer::{CURRENT, MIN}`. -/
def innerCurrent : U8 := 7
def innerMin : U8 := 1
def outerCurrent : U8 := 1
def outerMin : U8 := 1

/-- `message.rs` 352-358 `Header::new`. -/
def Header.new (messageId : U64) (messageKind : MessageKind) : Header := ⟨outerCurrent, messageId, messageKind⟩

/-- `message.rs` 395-400 `Message::new` (and the `From` impls 444-472). -/
def Message.new (body : MessageBody) : Message := ⟨innerCurrent, body⟩

/-- `message.rs` 408-416 `Message::kind`. -/
def Message.kind (self : Message) : MessageKind :=
  match self.body with
  | .error _ => .error
  | .hostRequest _ => .hostRequest
  | .spResponse _ => .spResponse
  | .spRequest _ => .spRequest
  | .hostResponse _ => .hostResponse

/-! ## Wire format (derived `Serialize`, `Deserialize`, `SerializedSize`) -/

/-- `module_id.rs` 26-28 (newtype around `u64`). -/
instance : Codec ModuleId where
  enc m := enc m.mask
  dec := Decoder.map ModuleId.mk dec
  maxSize := maxSize U64

/-- `[u8; 6]`: the six bytes. -/
instance : Codec Mac where
  enc m := [m.b0, m.b1, m.b2, m.b3, m.b4, m.b5]
  dec
    | b0 :: b1 :: b2 :: b3 :: b4 :: b5 :: t => some (⟨b0, b1, b2, b3, b4, b5⟩, t)
    | _ => none
  maxSize := 6

/-- `mac.rs` 58-70. -/
instance : Codec MacAddrs where
  enc m := enc (m.baseMac, m.count, m.stride)
  dec := Decoder.map (fun p : Mac × U16 × U8 => ⟨p.1, p.2.1, p.2.2⟩) dec
  maxSize := maxSize (Mac × U16 × U8)

/-- `mac.rs` 35-55. -/
instance : Codec BadMacAddrReason where
  enc
    | .spansMultipleOuis => [0]
    | .zeroStrideOrCount => [1]
    | .multicastBaseAddr => [2]
  dec := enumDec [unitVariant .spansMultipleOuis, unitVariant .zeroStrideOrCount, unitVariant .multicastBaseAddr]
  maxSize := 1

/-- `mac.rs` 14-21. -/
instance : Codec BadMacAddrRange where
  enc m := enc (m.reason, m.baseMac, m.count, m.stride)
  dec := Decoder.map (fun p : BadMacAddrReason × Mac × U16 × U8 => ⟨p.1, p.2.1, p.2.2.1, p.2.2.2⟩) dec
  maxSize := maxSize (BadMacAddrReason × Mac × U16 × U8)

/-- `mgmt/mod.rs` 74-83. -/
instance : Codec ManagementInterface where
  enc
    | .sff8636 => [0]
    | .cmis => [1]
    | .unknown x => 2 :: enc x
  dec := enumDec [unitVariant .sff8636, unitVariant .cmis, Decoder.map .unknown dec]
  maxSize := 1 + maxOf [0, 0, maxSize U8]

/-- `mgmt/sff8636.rs` 19-25, 37-50. -/
instance : Codec SffPage where
  enc
    | .lower => [0]
    | .upper p => 1 :: enc p
  dec := enumDec [unitVariant .lower, Decoder.map .upper dec]
  maxSize := 1 + maxOf [0, maxSize U8]

/-- `mgmt/cmis.rs` 43-59. -/
instance : Codec CmisUpperPage where
  enc p := enc (p.bank, p.page)
  dec := Decoder.map (fun p : Option U8 × U8 => ⟨p.1, p.2⟩) dec
  maxSize := maxSize (Option U8 × U8)

/-- `mgmt/cmis.rs` 18-24. -/
instance : Codec CmisPage where
  enc
    | .lower => [0]
    | .upper p => 1 :: enc p
  dec := enumDec [unitVariant .lower, Decoder.map .upper dec]
  maxSize := 1 + maxOf [0, maxSize CmisUpperPage]

/-- `mgmt/mod.rs` 144-150. -/
instance : Codec Page where
  enc
    | .sff8636 p => 0 :: enc p
    | .cmis p => 1 :: enc p
  dec := enumDec [Decoder.map .sff8636 dec, Decoder.map .cmis dec]
  maxSize := 1 + maxOf [maxSize SffPage, maxSize CmisPage]

/-- `mgmt/mod.rs` 213-218, 252-257. Deserializing performs no validity check. -/
instance : Codec MemAccess where
  enc a := enc (a.page, a.offset, a.len)
  dec := Decoder.map (fun p : Page × U8 × U8 => ⟨p.1, p.2.1, p.2.2⟩) dec
  maxSize := maxSize (Page × U8 × U8)

instance : Codec ProtocolError where
  enc
    | .wrongMessage => [0]
    | .notSupported => [1]
    | .requestTooLarge => [2]
    | .wrongDataSize e a => 3 :: enc (e, a)
    | .versionMismatch e a => 4 :: enc (e, a)
    | .serialization => [5]
  dec := enumDec [unitVariant .wrongMessage, unitVariant .notSupported, unitVariant .requestTooLarge,
    Decoder.map (fun p : U32 × U32 => .wrongDataSize p.1 p.2) dec,
    Decoder.map (fun p : U8 × U8 => .versionMismatch p.1 p.2) dec, unitVariant .serialization]
  maxSize := 1 + maxOf [0, 0, 0, maxSize (U32 × U32), maxSize (U8 × U8), 0]

instance : Codec HwError where
  enc
    | .i2cError => [0]
    | .invalidModuleIndex => [1]
    | .fpgaError => [2]
    | .disabledBySp => [3]
    | .noFrontIo => [4]
    | .frontIoNotReady => [5]
    | .notPresent => [6]
    | .notPowered => [7]
    | .powerFault => [8]
    | .notInitialized => [9]
    | .i2cAddressNack => [10]
    | .i2cByteNack => [11]
    | .i2cSclStretchTimeout => [12]
    | .i2cTransactionTimeout => [13]
    | .unknown => [14]
  dec := enumDec [unitVariant .i2cError, unitVariant .invalidModuleIndex, unitVariant .fpgaError,
    unitVariant .disabledBySp, unitVariant .noFrontIo, unitVariant .frontIoNotReady, unitVariant .notPresent,
    unitVariant .notPowered, unitVariant .powerFault, unitVariant .notInitialized, unitVariant .i2cAddressNack,
    unitVariant .i2cByteNack, unitVariant .i2cSclStretchTimeout, unitVariant .i2cTransactionTimeout,
    unitVariant .unknown]
  maxSize := 1

instance : Codec LedState where
  enc
    | .off => [0]
    | .on => [1]
    | .blink => [2]
  dec := enumDec [unitVariant .off, unitVariant .on, unitVariant .blink]
  maxSize := 1

instance : Codec MessageKind where
  enc
    | .error => [0]
    | .hostRequest => [1]
    | .spResponse => [2]
    | .spRequest => [3]
    | .hostResponse => [4]
  dec := enumDec [unitVariant .error, unitVariant .hostRequest, unitVariant .spResponse, unitVariant .spRequest,
    unitVariant .hostResponse]
  maxSize := 1

instance : Codec Header where
  enc h := enc (h.version, h.messageId, h.messageKind)
  dec := Decoder.map (fun p : U8 × U64 × MessageKind => ⟨p.1, p.2.1, p.2.2⟩) dec
  maxSize := maxSize (U8 × U64 × MessageKind)

instance : Codec HostRequest where
  enc
    | .read m r => 0 :: enc (m, r)
    | .write m w => 1 :: enc (m, w)
    | .status m => 2 :: enc m
    | .assertReset m => 3 :: enc m
    | .deassertReset m => 4 :: enc m
    | .assertLpMode m => 5 :: enc m
    | .deassertLpMode m => 6 :: enc m
    | .enablePower m => 7 :: enc m
    | .disablePower m => 8 :: enc m
    | .managementInterface m i => 9 :: enc (m, i)
    | .macAddrs => [10]
    | .clearPowerFault m => 11 :: enc m
    | .ledState m => 12 :: enc m
    | .setLedState m s => 13 :: enc (m, s)
    | .extendedStatus m => 14 :: enc m
    | .clearDisableLatch m => 15 :: enc m
  dec := enumDec [
    Decoder.map (fun p : ModuleId × MemAccess => .read p.1 p.2) dec,
    Decoder.map (fun p : ModuleId × MemAccess => .write p.1 p.2) dec,
    Decoder.map .status dec, Decoder.map .assertReset dec, Decoder.map .deassertReset dec,
    Decoder.map .assertLpMode dec, Decoder.map .deassertLpMode dec, Decoder.map .enablePower dec,
    Decoder.map .disablePower dec,
    Decoder.map (fun p : ModuleId × ManagementInterface => .managementInterface p.1 p.2) dec,
    unitVariant .macAddrs, Decoder.map .clearPowerFault dec, Decoder.map .ledState dec,
    Decoder.map (fun p : ModuleId × LedState => .setLedState p.1 p.2) dec,
    Decoder.map .extendedStatus dec, Decoder.map .clearDisableLatch dec]
  maxSize := 1 + maxOf [maxSize (ModuleId × MemAccess), maxSize (ModuleId × MemAccess), maxSize ModuleId,
    maxSize (ModuleId × ManagementInterface), maxSize (ModuleId × LedState)]

instance : Codec MacAddrResponse where
  enc
    | .ok a => 0 :: enc a
    | .error e => 1 :: enc e
  dec := enumDec [Decoder.map .ok dec, Decoder.map .error dec]
  maxSize := 1 + maxOf [maxSize MacAddrs, maxSize BadMacAddrRange]

instance : Codec SpResponse where
  enc
    | .read m f r => 0 :: enc (m, f, r)
    | .write m f w => 1 :: enc (m, f, w)
    | .status m f => 2 :: enc (m, f)
    | .ack m f => 3 :: enc (m, f)
    | .macAddrs r => 4 :: enc r
    | .ledState m f => 5 :: enc (m, f)
    | .extendedStatus m f => 6 :: enc (m, f)
  dec := enumDec [
    Decoder.map (fun p : ModuleId × ModuleId × MemAccess => .read p.1 p.2.1 p.2.2) dec,
    Decoder.map (fun p : ModuleId × ModuleId × MemAccess => .write p.1 p.2.1 p.2.2) dec,
    Decoder.map (fun p : ModuleId × ModuleId => .status p.1 p.2) dec,
    Decoder.map (fun p : ModuleId × ModuleId => .ack p.1 p.2) dec,
    Decoder.map .macAddrs dec,
    Decoder.map (fun p : ModuleId × ModuleId => .ledState p.1 p.2) dec,
    Decoder.map (fun p : ModuleId × ModuleId => .extendedStatus p.1 p.2) dec]
  maxSize := 1 + maxOf [maxSize (ModuleId × ModuleId × MemAccess), maxSize (ModuleId × ModuleId × MemAccess),
    maxSize (ModuleId × ModuleId), maxSize MacAddrResponse]

instance : Codec MessageBody where
  enc
    | .error e => 0 :: enc e
    | .hostRequest r => 1 :: enc r
    | .spResponse r => 2 :: enc r
    | .spRequest r => 3 :: enc r
    | .hostResponse r => 4 :: enc r
  dec := enumDec [Decoder.map .error dec, Decoder.map .hostRequest dec, Decoder.map .spResponse dec,
    Decoder.map .spRequest dec, Decoder.map .hostResponse dec]
  maxSize := 1 + maxOf [maxSize ProtocolError, maxSize HostRequest, maxSize SpResponse, maxSize SpRequest,
    maxSize HostResponse]

instance : Codec Message where
  enc m := enc (m.version, m.body)
  dec := Decoder.map (fun p : U8 × MessageBody => ⟨p.1, p.2⟩) dec
  maxSize := maxSize (U8 × MessageBody)

/-- `messages/src/lib.rs` 148 `MAX_PAYLOAD_SIZE`. -/
def maxPayloadSize : Nat := 1024

/-- `messages/src/lib.rs` 149-150 `MAX_PACKET_SIZE`. -/
def maxPacketSize : Nat := maxPayloadSize + maxSize Header + maxSize Message

/-! ## Expected data lengths -/

/-- `message.rs` 554-561 `HostRequest::expected_data_len`. -/
def HostRequest.expectedDataLen : HostRequest → Option Nat
  | .write m w => some (m.count * w.len.toNat)
  | _ => none

/-- `message.rs` 670-689 `SpResponse::expected_data_len`: `Status` is one byte, `ExtendedStatus` four, `LedState` one. -/
def SpResponse.expectedDataLen : SpResponse → Option Nat
  | .read m _ r => some (m.count * r.len.toNat)
  | .status m _ => some (m.count * 1)
  | .extendedStatus m _ => some (m.count * maxSize U32)
  | .ledState m _ => some (m.count * maxSize LedState)
  | _ => none

/-- `message.rs` 694-706 `SpResponse::expected_error_data_len`. -/
def SpResponse.expectedErrorDataLen : SpResponse → Option Nat
  | .read _ f _ | .write _ f _ | .status _ f | .extendedStatus _ f | .ack _ f | .ledState _ f =>
    some (f.count * maxSize HwError)
  | .macAddrs _ => none

/-! ## Hardware errors -/

/-- `message.rs` 239-242 `Unknowns`. -/
inductive Unknowns where
  | knownUnknown
  | unknownUnknown (b : U8)
  deriving DecidableEq, Repr

/-- `message.rs` 248-250 `DeserializedErrors`. -/
abbrev DeserializedErrors := List (HwError × Option Unknowns)

/-- `message.rs` 272-290 `push` on a one-byte chunk (`HwError::MAX_SIZE` is 1, so `chunks_exact` yields single bytes). -/
def hwErrorOfByte (b : U8) : HwError × Option Unknowns :=
  match (dec [b] : Option (HwError × Bytes)) with
  | some (e, _) => (e, if e = .unknown then some .knownUnknown else none)
  | none => (.unknown, some (.unknownUnknown b))

/-- `message.rs` 254-270 `DeserializedErrors::new`. The two `u32::try_from(..).unwrap()` cannot fail for buffers that
fit in a UDP packet; they are modelled as truncations. Note line 266: all of `buf` is decoded. -/
def DeserializedErrors.new (errorCount : Nat) (buf : Bytes) : Except ProtocolError DeserializedErrors :=
  let nBytes := errorCount * maxSize HwError
  if buf.length < nBytes then .error (.wrongDataSize (BitVec.ofNat 32 nBytes) (BitVec.ofNat 32 buf.length))
  else .ok (buf.map hwErrorOfByte)

/-- `message.rs` 325-333 `deserialize_hw_errors`. -/
def deserializeHwErrors (failedModules : ModuleId) (buf : Bytes) : Except ProtocolError DeserializedErrors :=
  match failedModules.count with
  | 0 => .ok []
  | n => DeserializedErrors.new n buf

end Xcvr
