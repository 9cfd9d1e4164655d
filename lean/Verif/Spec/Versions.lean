import Verif.Spec.IoLoop

/-! # Protocol versions in datagrams, for C122-C123 -/

namespace Xcvr.Spec

open Xcvr

/-- The datagram with other versions in it: its first byte is the version of the header, which takes ten bytes, and the
byte after the header is the version of the message. A datagram without these bytes has no such versions. -/
def reversion (outer inner : U8) (bytes : Bytes) : Bytes := (bytes.set 0 outer).set 10 inner

/-- The same event, but for the versions in a received datagram. Version zero of a message, which no peer ever had, is
kept apart from the others. -/
inductive Reversioned : Event → Event → Prop where
  | same (e : Event) : Reversioned e e
  | packet (src : Addr) (bytes : Bytes) (ok : Bool) (outer inner : U8) (h : bytes[10]? = some 0 ↔ inner = 0) :
    Reversioned (.packet src bytes ok) (.packet src (reversion outer inner bytes) ok)

/-- An effect without the versions that were received: they show in what callers and the handler are given, and in the
headers of error messages. -/
def unversioned : Action → Action
  | .answer c (.ok r) => .answer c (.ok ⟨{ r.header with version := 0 }, { r.message with version := 0 }, r.data⟩)
  | .dispatch r => .dispatch ⟨{ r.header with version := 0 }, { r.message with version := 0 }, r.data⟩
  | .sendError dst pkt => .sendError dst (reversion 0 0 pkt)
  | a => a

/-- The version of the protocol in which an error of a module was introduced (`message.rs` 54-70: "additions"). -/
def introduced : HwError → Nat
  | .i2cError | .invalidModuleIndex | .fpgaError | .disabledBySp => 1
  | .noFrontIo | .frontIoNotReady | .notPresent | .notPowered | .powerFault | .notInitialized | .i2cAddressNack
  | .i2cByteNack => 4
  | .i2cSclStretchTimeout => 5
  | .i2cTransactionTimeout => 6
  | .unknown => 7

/-- The protocol error a datagram for a request stands for, given its kind and what follows its header: what an error
message says, or what is wrong with the datagram itself. None: it is a proper response, or has no error in it. -/
def failureOf (kind : MessageKind) (rest : Bytes) : Option ProtocolError :=
  match kind, messageOf rest with
  | .error, none => some .serialization
  | .error, some (⟨_, .error e⟩, _) => some e
  | .error, some _ => none
  | .spResponse, none => some (if rest[0]? = some 0 then .versionMismatch 7 0 else .serialization)
  | .spResponse, some (⟨_, .spResponse r⟩, trailing) =>
    match expectedTrailing r with
    | none => none
    | some n =>
      if trailing.length < n then some (.wrongDataSize (BitVec.ofNat 32 n) (BitVec.ofNat 32 trailing.length)) else none
  | .spResponse, some _ => some .wrongMessage
  | _, _ => none

end Xcvr.Spec
