import Verif.Model.MainText
import Verif.Spec.Debug

/-!
# Specification: reading the error a run of the tool ends with

A reader of standard error, which knows the wording of the messages but not how they are put together.
-/

namespace Xcvr.Spec

open Xcvr
open Xcvr.Cli (Lines Cmd Transceivers SetupError)

/-- A numbered line, if it has the number expected. -/
def readNumbered (n : Nat) (line : List Char) : Option (List Char) :=
  match readCount (line.dropWhile (· = ' ')) with
  | some (k, s) => if k = n then afterWords chars!": " s else none
  | none => none

/-- Lines numbered from `n`. -/
def readNumberedFrom : Nat → Lines → Option (List (List Char))
  | _, [] => some []
  | n, l :: ls =>
    match readNumbered n l, readNumberedFrom (n + 1) ls with
    | some c, some cs => some (c :: cs)
    | _, _ => none

/-- The message of an error and its causes. -/
def readChain : Lines → Option (List Char × List (List Char))
  | [] => none
  | l :: ls =>
    match afterWords chars!"Error: " l, ls with
    | none, _ => none
    | some message, [] => some (message, [])
    | some message, [] :: heading :: causes =>
      if heading = chars!"Caused by:" then
        match causes with
        | [c] => (afterWords chars!"    " c).map fun c => (message, [c])
        | _ => (readNumberedFrom 0 causes).map (message, ·)
      else none
    | some _, _ => none

/-- The steps of a run that talk to the SP. -/
inductive Step where
  | moduleStatus | powerStates | identifiers
  | reset | setPower | powerMode | enablePower | disablePower | assertReset | deassertReset | assertLpMode | deassertLpMode
  | identify | vendor | read | write | memoryModel | macs | clearPowerFault | clearDisableLatch | leds | setLeds | monitors
  | datapath
  deriving DecidableEq, Repr

/-- Their wording. -/
def steps : List (Step × List Char) := [
  (.moduleStatus, chars!"Failed to retrieve module status"),
  (.powerStates, chars!"Failed to retrieve module power state"),
  (.identifiers, chars!"Failed to retrieve module identifiers"),
  (.reset, chars!"Failed to reset modules"),
  (.setPower, chars!"Failed to set power state"),
  (.powerMode, chars!"Failed to get power mode"),
  (.enablePower, chars!"Failed to enable power for modules"),
  (.disablePower, chars!"Failed to disable power for modules"),
  (.assertReset, chars!"Failed to assert reset for modules"),
  (.deassertReset, chars!"Failed to deassert reset for modules"),
  (.assertLpMode, chars!"Failed to assert lpmode for modules"),
  (.deassertLpMode, chars!"Failed to deassert lpmode for modules"),
  (.identify, chars!"Failed to identify transceiver modules"),
  (.vendor, chars!"Failed to fetch vendor information for transceiver modules"),
  (.read, chars!"Failed to read transceiver modules"),
  (.write, chars!"Failed to write transceiver modules"),
  (.memoryModel, chars!"Failed to get memory model"),
  (.macs, chars!"Failed to get MAC addresses"),
  (.clearPowerFault, chars!"Failed to clear power fault for modules"),
  (.clearDisableLatch, chars!"Failed to clear disable latch for modules"),
  (.leds, chars!"Failed to get LED state"),
  (.setLeds, chars!"Failed to set LED state"),
  (.monitors, chars!"Failed to get monitoring data"),
  (.datapath, chars!"Failed to get datapath state")]

/-- The step a message names. -/
def readStep (s : List Char) : Option Step := (steps.find? (·.2 = s)).map Prod.fst

/-- What the selection of modules asks of the SP, if anything. -/
def selectionStep : Transceivers → Option Step
  | .present => some .moduleStatus
  | .powerState _ => some .powerStates
  | .kind _ => some .identifiers
  | .all | .index _ => none

/-- What a command asks of the SP. -/
def commandStep : Cmd → Step
  | .status .. => .moduleStatus
  | .reset => .reset
  | .setPower _ => .setPower
  | .power _ => .powerMode
  | .enablePower => .enablePower
  | .disablePower => .disablePower
  | .assertReset => .assertReset
  | .deassertReset => .deassertReset
  | .assertLpMode => .assertLpMode
  | .deassertLpMode => .deassertLpMode
  | .identify _ => .identify
  | .vendorInfo _ => .vendor
  | .readLower .. => .read
  | .writeLower .. => .write
  | .readUpper .. => .read
  | .writeUpper .. => .write
  | .memoryModel _ => .memoryModel
  | .macs _ => .macs
  | .clearPowerFault => .clearPowerFault
  | .clearDisableLatch => .clearDisableLatch
  | .leds _ => .leds
  | .setLeds _ => .setLeds
  | .monitors _ => .monitors
  | .datapath => .datapath

/-- Why a step failed, with all particulars: for a module also the management error met while decoding. -/
inductive Why where
  | protocol (e : ProtocolError)
  | network
  | noResponse (tries : Nat)
  | faultyResponses (n : Nat)
  | unexpected (b : MessageBody)
  | dataLength (expected actual : Nat)
  | transition
  | badRange (e : BadMacAddrRange)
  | module (w : Told) (e : Option MgmtError)
  deriving DecidableEq, Repr

/-- The cause an error stands for. -/
def whyOf : CtlError → Why
  | .protocol e => .protocol e
  | .io => .network
  | .maxRetries n => .noResponse n
  | .maxFaultMessages n => .faultyResponses n
  | .unexpectedMessage b => .unexpected b
  | .invalidWriteData e a => .dataLength e a
  | .invalidPowerStateTransition => .transition
  | .mac e => .badRange e
  | .transceiver (.decode (.management e)) => .module .management (some e)
  | .transceiver e => .module (told e) none

/-- Two numbers, with given words before, between and after them. -/
def readTwo (before between : List Char) (s : List Char) : Option (Nat × Nat) :=
  match (afterWords before s).bind readCount with
  | some (a, s) =>
    match (afterWords between s).bind readLastCount with
    | some b => some (a, b)
    | none => none
  | none => none

/-- Read the message of a protocol error. -/
def readProtocolText (s : List Char) : Option ProtocolError :=
  if s = chars!"Wrong message type" then some .wrongMessage
  else if s = chars!"Unsupported or unknown operation" then some .notSupported
  else if s = chars!"Request too large for single protocol message" then some .requestTooLarge
  else if s = chars!"Serialization failed" then some .serialization
  else
    match readTwo chars!"Message trailing data has incorrect size: expected=" chars!" actual=" s with
    | some (e, a) => some (.wrongDataSize (BitVec.ofNat 32 e) (BitVec.ofNat 32 a))
    | none => (readTwo chars!"Version mismatch: expected=" chars!", actual=" s).map fun x =>
        .versionMismatch (BitVec.ofNat 8 x.1) (BitVec.ofNat 8 x.2)

/-- Read the message for a bad range of addresses: after some words, fields with names. -/
def readBadRange (s : List Char) : Option BadMacAddrRange :=
  match (afterWords chars!"The MAC address range is invalid, " s).bind fun s => readFields (2 * s.length + 1) .curly s with
  | some (fs, []) =>
    match (DbgFields.find chars!"reason" fs).bind readReason, (DbgFields.find chars!"base" fs).bind readAddress,
      (DbgFields.find chars!"count" fs).bind Dbg.number, (DbgFields.find chars!"stride" fs).bind Dbg.number with
    | some r, some base, some count, some stride => some ⟨r, base, BitVec.ofNat 16 count, BitVec.ofNat 8 stride⟩
    | _, _, _, _ => none
  | _ => none

/-- A number between given words. -/
def readOne (before following : List Char) (s : List Char) : Option Nat :=
  match (afterWords before s).bind readCount with
  | some (n, s) => if s = following then some n else none
  | none => none

/-- Read the cause of an error of a module. -/
def readModuleWhy : List (List Char) → Option Why
  | [] => none
  | e :: more =>
    match readError e with
    | some .management =>
      match more with
      | [_, m] => (readMgmt m).map fun m => .module .management (some m)
      | _ => none
    | some w => some (.module w none)
    | none => none

/-- Read a cause that is one line. -/
def readLine (s : List Char) : Option Why :=
  if s = chars!"Invalid power state transition" then some .transition
  else
    match afterWords chars!"Received an unexpected message type in response: " s with
    | some s => (readMessage s).map .unexpected
    | none =>
      match readOne chars!"Maximum number of retries (" chars!") reached without a response" s with
      | some n => some (.noResponse n)
      | none =>
        match readOne chars!"Maximum number of faulty messages (" chars!") reached without a response" s with
        | some n => some (.faultyResponses n)
        | none => (readTwo chars!"Incorrect data length for memory write, expected = " chars!" actual = " s).map fun x =>
            .dataLength x.1 x.2

/-- Read the causes of an error. -/
def readWhy : List (List Char) → Option Why
  | [] => none
  | l :: ls =>
    if l = chars!"Network or I/O error" then some .network
    else if l = chars!"Error interacting with transceiver module" then readModuleWhy ls
    else
      match ls with
      | [] => readLine l
      | [d] =>
        if l = chars!"Controller protocol error" then (readProtocolText d).map .protocol
        else if l = chars!"Bad MAC address range" then (readBadRange d).map .badRange
        else none
      | _ => none

/-- Read standard error: the step that failed and why. -/
def readReport (ls : Lines) : Option (Step × Why) :=
  match readChain ls with
  | some (message, causes) =>
    match readStep message, readWhy causes with
    | some s, some w => some (s, w)
    | _, _ => none
  | none => none

/-! ## Commands that are refused -/

/-- Why a command is refused. -/
inductive Objection where
  | noFile
  | notText
  | badNumber
  | tooMuchInput
  | noInput
  | tooLong
  | page (cmis : Bool) (e : MgmtError)
  | readPastEnd (lower : Bool)
  | read (lower : Bool) (e : MgmtError)
  | write (lower : Bool) (e : MgmtError)
  deriving DecidableEq, Repr

/-- The reason that an error of a command stands for; of a read past the end only that it is one. -/
def whyRefused : Cmd → SetupError → Option Objection
  | .writeLower .., .noInput | .writeUpper .., .noInput => some .noFile
  | .writeLower .., .input e | .writeUpper .., .input e => some (match e with
    | .notUtf8 => .notText
    | .badNumber => .badNumber
    | .tooLarge => .tooMuchInput
    | .empty => .noInput)
  | .writeLower .., .write .tooLong | .writeUpper .., .write .tooLong => some .tooLong
  | .readUpper cmis .., .page e | .writeUpper cmis .., .page e => some (.page cmis e)
  | .readLower .., .read (.byteOutOfRange _) => some (.readPastEnd true)
  | .readUpper .., .read (.byteOutOfRange _) => some (.readPastEnd false)
  | .readLower .., .read (.mgmt e) => some (.read true e)
  | .readUpper .., .read (.mgmt e) => some (.read false e)
  | .writeLower .., .write (.access e) => some (.write true e)
  | .writeUpper .., .write (.access e) => some (.write false e)
  | _, _ => none

/-- The last cause of those for which input cannot be used. -/
def readInputWhy (s : List Char) : Objection :=
  if s = chars!"stream did not contain valid UTF-8" then .notText
  else if s = chars!"Input data too large" then .tooMuchInput
  else if s = chars!"No input provided on stdin" then .noInput
  else .badNumber

/-- The last of some lines, if it tells a management error. -/
def readAccessWhy (cs : List (List Char)) : Option MgmtError := cs.getLast?.bind readMgmt

/-- Read standard error: why a command is refused. -/
def readRefusal (ls : Lines) : Option Objection :=
  match readChain ls with
  | none => none
  | some (message, causes) =>
    if message = chars!"Failed to load input data" then
      if causes.head? = some chars!"failed to open data file" then some .noFile else causes.getLast?.map readInputWhy
    else if message = chars!"Input data too long" then some .tooLong
    else if message = chars!"Invalid CMIS upper page" then (readAccessWhy causes).map (.page true)
    else if message = chars!"Invalid SFF-8636 upper page" then (readAccessWhy causes).map (.page false)
    else if message = chars!"Failed to setup lower page memory read" then
      some (match readAccessWhy causes with
        | some e => .read true e
        | none => .readPastEnd true)
    else if message = chars!"Failed to setup upper page memory read" then
      some (match readAccessWhy causes with
        | some e => .read false e
        | none => .readPastEnd false)
    else if message = chars!"Failed to setup lower page memory write" then (readAccessWhy causes).map (.write true)
    else if message = chars!"Failed to setup upper page memory write" then (readAccessWhy causes).map (.write false)
    else none

/-- The values an objection to a command tells are those of the command: the page or the bank, the offset and the length
of the data, or, for a read, a piece of what was to be read. A read past the end tells nothing. -/
def OwnValues : Cmd → Objection → Prop
  | .readUpper cmis _ page bank offset len _, o =>
    match o with
    | .page c e => c = cmis ∧ OfPage page bank e
    | .read _ e => ∃ x n, e = .invalidMemoryAccess x n ∧ offset ≤ x ∧ x.toNat + n.toNat ≤ offset.toNat + len.toNat
    | .readPastEnd _ => 256 < offset.toNat + len.toNat
    | _ => False
  | .readLower _ _ offset len _, o =>
    match o with
    | .read _ e => ∃ x n, e = .invalidMemoryAccess x n ∧ offset ≤ x ∧ x.toNat + n.toNat ≤ offset.toNat + len.toNat
    | .readPastEnd _ => 256 < offset.toNat + len.toNat
    | _ => False
  | .writeUpper cmis input page bank offset, o =>
    match o with
    | .page c e => c = cmis ∧ OfPage page bank e
    | .write _ e => ∃ d, input.load = .ok d ∧ OfWrite cmis offset d e
    | _ => True
  | .writeLower cmis input offset, o =>
    match o with
    | .page .. => False
    | .write _ e => ∃ d, input.load = .ok d ∧ OfWrite cmis offset d e
    | _ => True
  | _, _ => False
where
  OfPage (page : U8) (bank : Option U8) : MgmtError → Prop
    | .invalidPage p | .pageIsUnbanked p | .pageIsBanked p => p = page
    | .invalidBank b => bank = some b
    | _ => False
  OfWrite (cmis : Bool) (offset : U8) (d : Bytes) : MgmtError → Prop
    | .invalidMemoryAccess x n => x = offset ∧ n.toNat = d.length
    | .invalidOperationSize n f => n.toNat = d.length ∧ f = if cmis then .cmis else .sff8636
    | _ => False

/-- The messages of the standard library are not those of the tool. -/
def Foreign (std : StdTexts) : Prop :=
  std.badNumber ≠ chars!"failed to open data file" ∧ std.badNumber ≠ chars!"stream did not contain valid UTF-8" ∧
  std.badNumber ≠ chars!"Input data too large" ∧ std.badNumber ≠ chars!"No input provided on stdin"

end Xcvr.Spec
