import Verif.Model.Debug
import Verif.Model.ErrText

/-!
# The error `main` returns

What `controller/src/bin/xcvradm.rs` prints and how it exits, with the text of the error if `main` returns one. The
standard library prints `Error: ` and the `Debug` text of the `anyhow` error: its message and the messages of its causes.
Text is a list of lines. Not modelled: backtraces (`RUST_BACKTRACE`), lines of the log (which are on standard error too),
and the errors before 946. Some messages of the standard library are given from outside, as one line each (`StdTexts`).
-/

namespace Xcvr

open Cli (Lines alignRight Cmd Input InputKind InputError SetupError WriteSetupError Transceivers Exit Fmt failureText)

/-- The messages of the standard library that the model does not know. -/
structure StdTexts where
  /-- An error of the socket and its causes. -/
  io : List (List Char)
  /-- Why a file cannot be opened. -/
  openFile : List Char
  /-- Why a number cannot be parsed. -/
  badNumber : List Char

/-- A number in decimal. -/
def natText (n : Nat) : List Char := Nat.toDigits 10 n

/-- `message.rs` 85-124: the messages of `ProtocolError`. -/
def ProtocolError.text : ProtocolError → List Char
  | .wrongMessage => chars!"Wrong message type"
  | .notSupported => chars!"Unsupported or unknown operation"
  | .requestTooLarge => chars!"Request too large for single protocol message"
  | .wrongDataSize e a =>
    chars!"Message trailing data has incorrect size: expected=" ++ natText e.toNat ++ chars!" actual=" ++ natText a.toNat
  | .versionMismatch e a => chars!"Version mismatch: expected=" ++ natText e.toNat ++ chars!", actual=" ++ natText a.toNat
  | .serialization => chars!"Serialization failed"

/-- `mac.rs` 23-33 `Display for BadMacAddrRange`. -/
def BadMacAddrRange.text (e : BadMacAddrRange) : List Char :=
  chars!"The MAC address range is invalid, reason: " ++ e.reason.debug.text ++ chars!", base: " ++ e.baseMac.debug.text ++
    chars!", count: " ++ natText e.count.toNat ++ chars!", stride: " ++ natText e.stride.toNat

/-- `decode/src/lib.rs` 27-46: the cause of an error. -/
def DecodeError.causes : DecodeError → List (List Char)
  | .management e => [e.text]
  | _ => []

/-- `lib.rs` 155-186: the causes of an error, also part of its message. -/
def TransceiverError.causes : TransceiverError → List (List Char)
  | .hardware _ source _ => [source.text]
  | .decode e => e.text :: e.causes
  | .mgmt e => [e.text]
  | .port e => [e.text]
  | .invalidInterfaceForModule .. => []

/-- `lib.rs` 188-245: the message of an error and those of its causes. -/
def CtlError.chain (std : StdTexts) : CtlError → List (List Char)
  | .protocol e => [chars!"Controller protocol error", e.text]
  | .io => chars!"Network or I/O error" :: std.io
  | .maxRetries n => [chars!"Maximum number of retries (" ++ natText n ++ chars!") reached without a response"]
  | .maxFaultMessages n =>
    [chars!"Maximum number of faulty messages (" ++ natText n ++ chars!") reached without a response"]
  | .unexpectedMessage b => [chars!"Received an unexpected message type in response: " ++ b.debug.text]
  | .invalidWriteData e a =>
    [chars!"Incorrect data length for memory write, expected = " ++ natText e ++ chars!" actual = " ++ natText a]
  | .invalidPowerStateTransition => [chars!"Invalid power state transition"]
  | .mac e => [chars!"Bad MAC address range", e.text]
  | .transceiver e => chars!"Error interacting with transceiver module" :: e.text :: e.causes

/-- `lib.rs` 188-245, for the errors of `build_many`. The message for a read past the end is fixed, 241. -/
def LargeAccessError.chain (std : StdTexts) : LargeAccessError → List (List Char)
  | .byteOutOfRange _ => [chars!"End of read (<the value>) is out of the range [0, 255]"]
  | .mgmt e => CtlError.chain std (.transceiver (.mgmt e))

/-- What standard error shows of an error: `Error: `, the message, and the causes, numbered if there is more than one.
From the `Debug` of `anyhow::Error`. -/
def errorReport (message : List Char) (causes : List (List Char)) : Lines :=
  (chars!"Error: " ++ message) ::
    match causes with
    | [] => []
    | [c] => [[], chars!"Caused by:", chars!"    " ++ c]
    | cs => [] :: chars!"Caused by:" :: cs.zipIdx.map fun (c, n) => alignRight 5 (natText n) ++ chars!": " ++ c

namespace Cli

/-- `xcvradm.rs` 1455-1516 `address_transceivers`: the `context` of its errors. -/
def selectionContext : Transceivers → List Char
  | .present => chars!"Failed to retrieve module status"
  | .powerState _ => chars!"Failed to retrieve module power state"
  | .kind _ => chars!"Failed to retrieve module identifiers"
  | .all | .index _ => []

/-- `xcvradm.rs` 955-1451: the `context` of the errors of the controller. -/
def Cmd.context : Cmd → List Char
  | .status .. => chars!"Failed to retrieve module status"
  | .reset => chars!"Failed to reset modules"
  | .setPower _ => chars!"Failed to set power state"
  | .power _ => chars!"Failed to get power mode"
  | .enablePower => chars!"Failed to enable power for modules"
  | .disablePower => chars!"Failed to disable power for modules"
  | .assertReset => chars!"Failed to assert reset for modules"
  | .deassertReset => chars!"Failed to deassert reset for modules"
  | .assertLpMode => chars!"Failed to assert lpmode for modules"
  | .deassertLpMode => chars!"Failed to deassert lpmode for modules"
  | .identify _ => chars!"Failed to identify transceiver modules"
  | .vendorInfo _ => chars!"Failed to fetch vendor information for transceiver modules"
  | .readLower .. | .readUpper .. => chars!"Failed to read transceiver modules"
  | .writeLower .. | .writeUpper .. => chars!"Failed to write transceiver modules"
  | .memoryModel _ => chars!"Failed to get memory model"
  | .macs _ => chars!"Failed to get MAC addresses"
  | .clearPowerFault => chars!"Failed to clear power fault for modules"
  | .clearDisableLatch => chars!"Failed to clear disable latch for modules"
  | .leds _ => chars!"Failed to get LED state"
  | .setLeds _ => chars!"Failed to set LED state"
  | .monitors _ => chars!"Failed to get monitoring data"
  | .datapath => chars!"Failed to get datapath state"

/-- `xcvradm.rs` 1190-1192, 1222-1225 and 1265-1277, 1311-1323: the pages of a command. -/
def Cmd.lower : Cmd → Bool
  | .readLower .. | .writeLower .. => true
  | _ => false

/-- Whether the flag `--cmis` is given. -/
def Cmd.cmis : Cmd → Bool
  | .readLower c .. | .readUpper c .. | .writeLower c .. | .writeUpper c .. => c
  | _ => false

/-- The kind of input given. -/
def Cmd.inputKind : Cmd → Option InputKind
  | .writeLower _ i _ | .writeUpper _ i .. => i.kind
  | _ => none

/-- `xcvradm.rs` 721-752, 863-892: the message of an error of reading input, and those of its causes. -/
def InputError.chain (std : StdTexts) (kind : Option InputKind) : InputError → List (List Char)
  | .notUtf8 =>
    (if kind.isSome then [] else [chars!"failed to read from stdin"]) ++ [chars!"stream did not contain valid UTF-8"]
  | .badNumber => [std.badNumber]
  | .tooLarge => [chars!"Input data too large"]
  | .empty => [chars!"No input provided on stdin"]

/-- The report on a command that is refused: `xcvradm.rs` 1189-1192, 1218-1226, 1262-1279, 1306-1326. -/
def SetupError.report (std : StdTexts) (cmd : Cmd) : SetupError → Lines
  | .noInput => errorReport chars!"Failed to load input data" [chars!"failed to open data file", std.openFile]
  | .input e => errorReport chars!"Failed to load input data" (e.chain std cmd.inputKind)
  | .page e =>
    errorReport (if cmd.cmis then chars!"Invalid CMIS upper page" else chars!"Invalid SFF-8636 upper page") [e.text]
  | .read e =>
    errorReport (if cmd.lower then chars!"Failed to setup lower page memory read"
      else chars!"Failed to setup upper page memory read") (e.chain std)
  | .write .tooLong =>
    errorReport chars!"Input data too long" [chars!"out of range integral type conversion attempted"]
  | .write (.access e) =>
    errorReport (if cmd.lower then chars!"Failed to setup lower page memory write"
      else chars!"Failed to setup upper page memory write") [e.text]

end Cli

/-- A program that goes on after an error of the first; it still aborts if that does. -/
def Prog.attempt {α : Type} : Prog α → Prog (Except CtlError α)
  | .ret a => .ret (.ok a)
  | .fail e => .ret (.error e)
  | .panic => .panic
  | .rpc c k => .rpc c fun r => (k r).attempt

namespace Cli

/-- What a process that does not abort leaves: its output and its status. -/
structure Outcome where
  stdout : Lines
  stderr : Lines
  status : Nat
  deriving DecidableEq

/-- `xcvradm.rs` 895-1453 `main`, from 946 on, and what the standard library makes of its result. Nothing is printed before
an error is returned. -/
def run (std : StdTexts) (fmt : Fmt) (transceivers : Option Transceivers) (ignoreErrors : Bool) (cmd : Cmd) :
    Prog Outcome := do
  match ← (addressTransceivers (transceivers.getD .all)).attempt with
  | .error e => return ⟨[], errorReport (selectionContext (transceivers.getD .all)) (e.chain std), 1⟩
  | .ok m =>
    match ← (dispatch fmt ignoreErrors m cmd).attempt with
    | .error e => return ⟨[], errorReport cmd.context (e.chain std), 1⟩
    | .ok (.refused e) => return ⟨[], e.report std cmd, 1⟩
    | .ok (.done ls fs) => return ⟨ls, failureText fs, 0⟩

end Cli

end Xcvr
