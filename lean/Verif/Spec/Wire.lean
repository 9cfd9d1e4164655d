import Verif.Model.Message

/-! # Specification: byte layout of packets and meaning of hardware error codes -/

namespace Xcvr.Spec

/-- The value of little-endian bytes. -/
def leVal : Bytes → Nat
  | [] => 0
  | b :: bs => b.toNat + 256 * leVal bs

/-- Number of each kind of message. -/
def kindNumber : MessageKind → U8
  | .error => 0
  | .hostRequest => 1
  | .spResponse => 2
  | .spRequest => 3
  | .hostResponse => 4

/-- The documented hardware error codes, code `i` at position `i`. -/
def hwErrorCodes : List HwError :=
  [.i2cError, .invalidModuleIndex, .fpgaError, .disabledBySp, .noFrontIo, .frontIoNotReady, .notPresent, .notPowered,
   .powerFault, .notInitialized, .i2cAddressNack, .i2cByteNack, .i2cSclStretchTimeout, .i2cTransactionTimeout, .unknown]

/-- What one error byte means: the coded error, recording whether an unknown error was sent as such or is an
unrecognised code. -/
def errorOfCode (b : U8) : HwError × Option Unknowns :=
  match hwErrorCodes[b.toNat]? with
  | some .unknown => (.unknown, some .knownUnknown)
  | some e => (e, none)
  | none => (.unknown, some (.unknownUnknown b))

/-- Number of each host request on the wire. -/
def requestNumber : HostRequest → U8
  | .read .. => 0
  | .write .. => 1
  | .status .. => 2
  | .assertReset .. => 3
  | .deassertReset .. => 4
  | .assertLpMode .. => 5
  | .deassertLpMode .. => 6
  | .enablePower .. => 7
  | .disablePower .. => 8
  | .managementInterface .. => 9
  | .macAddrs => 10
  | .clearPowerFault .. => 11
  | .ledState .. => 12
  | .setLedState .. => 13
  | .extendedStatus .. => 14
  | .clearDisableLatch .. => 15

/-- The modules a request addresses. -/
def requestModules : HostRequest → Option ModuleId
  | .macAddrs => none
  | .read m _ | .write m _ | .status m | .assertReset m | .deassertReset m | .assertLpMode m | .deassertLpMode m
  | .enablePower m | .disablePower m | .managementInterface m _ | .clearPowerFault m | .ledState m | .setLedState m _
  | .extendedStatus m | .clearDisableLatch m => some m

/-- Number of each SP response on the wire. -/
def responseNumber : SpResponse → U8
  | .read .. => 0
  | .write .. => 1
  | .status .. => 2
  | .ack .. => 3
  | .macAddrs .. => 4
  | .ledState .. => 5
  | .extendedStatus .. => 6

/-- The successful and failed modules a response names. -/
def responseModules : SpResponse → Option (ModuleId × ModuleId)
  | .macAddrs _ => none
  | .read m f _ | .write m f _ | .status m f | .ack m f | .ledState m f | .extendedStatus m f => some (m, f)

end Xcvr.Spec
