import Verif.Model.CliMain

/-!
# The text of errors

The messages of the errors of modules (`thiserror`) and `print_failures` of `controller/src/bin/xcvradm.rs`. Text is a list
of characters, as in `CliPrint.lean`. The text of the error
`main` returns is in `MainText.lean`.
-/

namespace Xcvr

open Cli (decimal hexByte debugText Lines)

/-- `message.rs` 126-235: the messages of `HwError`. -/
def HwError.text : HwError → List Char
  | .i2cError => chars!"FPGA reported an I2C error"
  | .invalidModuleIndex => chars!"Invalid module index"
  | .fpgaError => chars!"Error interacting with FPGA"
  | .disabledBySp => chars!"Port is disabled by the SP"
  | .noFrontIo => chars!"Front IO board not present"
  | .frontIoNotReady => chars!"Front IO board not ready"
  | .notPresent => chars!"The module is not present"
  | .notPowered => chars!"The module is not powered"
  | .powerFault => chars!"The module's power faulted"
  | .notInitialized => chars!"The module is not initialized"
  | .i2cAddressNack => chars!"The module nack'd an I2C address byte"
  | .i2cByteNack => chars!"The module nack'd an I2C byte"
  | .i2cSclStretchTimeout => chars!"The module stretched SCL too long"
  | .i2cTransactionTimeout => chars!"The I2C transaction to the module timed out"
  | .unknown => chars!"Received an unknown error type"

/-- `lib.rs` 137-152 `Display for MaybeUnknown`; `{byte:#04x}` is `0x` and two digits. -/
def maybeUnknownText : Option Unknowns → List Char
  | none => []
  | some (.unknownUnknown b) => chars!" (could not deserialize " ++ hexByte b ++ chars!")"
  | some .knownUnknown => chars!" (peer sent HwError::Unknown)"

/-- The derived `Debug` of `mgmt/mod.rs` 73-83 `ManagementInterface`. -/
def ManagementInterface.debug : ManagementInterface → List Char
  | .sff8636 => chars!"Sff8636"
  | .cmis => chars!"Cmis"
  | .unknown x => chars!"Unknown(" ++ decimal x ++ chars!")"

/-- `mgmt/mod.rs` 17-71: the messages of `mgmt::Error`. -/
def MgmtError.text : MgmtError → List Char
  | .invalidPage p => chars!"Invalid upper memory page: " ++ hexByte p
  | .invalidBank b => chars!"Invalid upper memory bank: " ++ hexByte b
  | .pageIsUnbanked p => chars!"Page does not accept a bank number: " ++ hexByte p
  | .pageIsBanked p => chars!"Page requires a bank number: " ++ hexByte p
  | .invalidMemoryAccess offset len =>
    chars!"Invalid memory access: offset=" ++ hexByte offset ++ chars!", len=" ++ hexByte len
  | .invalidOperationSize size interface =>
    chars!"Write or read of " ++ decimal size ++ chars!" bytes too large for management interface " ++ interface.debug

/-- `decode/src/lib.rs` 27-46: the messages of `Error`. The cause of a management error is not part of its message. -/
def DecodeError.text : DecodeError → List Char
  | .unsupportedIdentifier id => chars!"Unsupported SFF-8024 Identifier: '" ++ id.display ++ chars!"'"
  | .management _ => chars!"Management error"
  | .parseFailed => chars!"Memory map parsing failed"
  | .invalidOui => chars!"Invalid OUI"
  | .invalidBitField => chars!"Invalid bitfield pattern"
  | .bitOutOfRange => chars!"Bit out of range"

/-- `module_id.rs` 47-51 `Display for InvalidPort`. -/
def InvalidPort.text (e : InvalidPort) : List Char := chars!"Invalid transceiver port: " ++ decimal e.port

/-- `lib.rs` 155-186: the messages of `TransceiverError`. -/
def TransceiverError.text : TransceiverError → List Char
  | .hardware i source unknown =>
    chars!"Hardware error accessing module " ++ decimal i ++ chars!": " ++ source.text ++ maybeUnknownText unknown
  | .decode e => chars!"Error decoding module data: " ++ e.text
  | .mgmt e => chars!"Module management interface error: " ++ e.text
  | .port e => chars!"Error addressing Sidecar port: " ++ e.text
  | .invalidInterfaceForModule i id interface =>
    chars!"Addressed module with index " ++ decimal i ++ chars!" with identifier " ++ debugText id ++
      chars!" does not use the specified management interface " ++ interface.debug

namespace Cli

/-- `xcvradm.rs` 1526 `{port:>WIDTH$} {err}`. -/
def failureLine (f : U8 × TransceiverError) : List Char := portColumn f.1 ++ chars!" " ++ f.2.text

/-- `xcvradm.rs` 1522-1530 `print_failures`: what it prints on standard error, given the pairs of `failureLines`. The code
tests for failed modules, not for pairs; the two agree for every result of the controller (`C110_said`). -/
def failureText (fs : List (U8 × TransceiverError)) : Lines :=
  if fs = [] then []
  else chars!"Some operations failed, errors below" :: chars!"Port Error" :: fs.map failureLine

end Cli

end Xcvr
