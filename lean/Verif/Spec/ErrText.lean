import Verif.Model.ErrText
import Verif.Spec.Controller
import Verif.Spec.CliMain

/-!
# Specification: reading the failures a run of the tool lists

A reader of standard error, which knows the wording of the messages but not how they are put together.
-/

namespace Xcvr.Spec

open Xcvr

/-- What a listed failure tells. -/
inductive Told where
  | hardware (module : Nat) (cause : HwError) (code : Option Unknowns)
  | unsupported (identifier : List Char)
  | management
  | parseFailed
  | invalidOui
  | invalidBitField
  | bitOutOfRange
  | wrongInterface (module : Nat) (identifier : List Char) (interface : ManagementInterface)
  | access (e : MgmtError)
  | port (n : Nat)
  deriving DecidableEq, Repr

/-- What an error tells its reader: of a management error met while decoding only that it is one. -/
def told : TransceiverError → Told
  | .hardware i e u => .hardware i.toNat e u
  | .decode (.unsupportedIdentifier id) => .unsupported id.display
  | .decode (.management _) => .management
  | .decode .parseFailed => .parseFailed
  | .decode .invalidOui => .invalidOui
  | .decode .invalidBitField => .invalidBitField
  | .decode .bitOutOfRange => .bitOutOfRange
  | .invalidInterfaceForModule i id f => .wrongInterface i.toNat (Cli.debugText id) f
  | .mgmt e => .access e
  | .port e => .port e.port.toNat

/-- The rest of a text that starts with the given words. -/
def afterWords : (words : List Char) → List Char → Option (List Char)
  | [], s => some s
  | _ :: _, [] => none
  | w :: ws, c :: s => if w = c then afterWords ws s else none

/-- The documented hardware errors and their wording. -/
def causes : List (HwError × List Char) := [
  (.i2cError, chars!"FPGA reported an I2C error"),
  (.invalidModuleIndex, chars!"Invalid module index"),
  (.fpgaError, chars!"Error interacting with FPGA"),
  (.disabledBySp, chars!"Port is disabled by the SP"),
  (.noFrontIo, chars!"Front IO board not present"),
  (.frontIoNotReady, chars!"Front IO board not ready"),
  (.notPresent, chars!"The module is not present"),
  (.notPowered, chars!"The module is not powered"),
  (.powerFault, chars!"The module's power faulted"),
  (.notInitialized, chars!"The module is not initialized"),
  (.i2cAddressNack, chars!"The module nack'd an I2C address byte"),
  (.i2cByteNack, chars!"The module nack'd an I2C byte"),
  (.i2cSclStretchTimeout, chars!"The module stretched SCL too long"),
  (.i2cTransactionTimeout, chars!"The I2C transaction to the module timed out"),
  (.unknown, chars!"Received an unknown error type")]

/-- The value of a hexadecimal digit. -/
def nibble (c : Char) : Option Nat := chars!"0123456789abcdef".idxOf? c

/-- The remark after the cause: what the SP sent, if that was not one of the other errors. -/
def readCode (s : List Char) : Option (Option Unknowns) :=
  if s = [] then some none
  else if s = chars!" (peer sent HwError::Unknown)" then some (some .knownUnknown)
  else
    match afterWords chars!" (could not deserialize 0x" s with
    | some [x, y, ')'] =>
      match nibble x, nibble y with
      | some a, some b => some (some (.unknownUnknown (BitVec.ofNat 8 (16 * a + b))))
      | _, _ => none
    | _ => none

/-- A number at the start of a text, and the rest. -/
def readCount (s : List Char) : Option (Nat × List Char) :=
  if s.takeWhile isDigit = [] then none else some (valueOf (s.takeWhile isDigit), s.dropWhile isDigit)

def readHardware (s : List Char) : Option Told :=
  match readCount s with
  | none => none
  | some (n, s) =>
    match afterWords chars!": " s with
    | none => none
    | some s => causes.findSome? fun c => ((afterWords c.2 s).bind readCode).map (Told.hardware n c.1)

def readDecode (s : List Char) : Option Told :=
  if s = chars!"Management error" then some .management
  else if s = chars!"Memory map parsing failed" then some .parseFailed
  else if s = chars!"Invalid OUI" then some .invalidOui
  else if s = chars!"Invalid bitfield pattern" then some .invalidBitField
  else if s = chars!"Bit out of range" then some .bitOutOfRange
  else
    match afterWords chars!"Unsupported SFF-8024 Identifier: '" s with
    | some s => if s.getLast? = some '\'' then some (.unsupported s.dropLast) else none
    | none => none

/-- The names of the interfaces. -/
def readInterface (s : List Char) : Option ManagementInterface :=
  if s = chars!"Sff8636" then some .sff8636
  else if s = chars!"Cmis" then some .cmis
  else
    match (afterWords chars!"Unknown(" s).bind readCount with
    | some (n, [')']) => some (.unknown (BitVec.ofNat 8 n))
    | _ => none

/-- A module that does not have the interface asked for. The name of an identifier has no spaces. -/
def readWrong (s : List Char) : Option Told :=
  match readCount s with
  | none => none
  | some (n, s) =>
    match afterWords chars!" with identifier " s with
    | none => none
    | some s =>
      ((afterWords chars!" does not use the specified management interface " (s.dropWhile (· ≠ ' '))).bind readInterface).map
        (Told.wrongInterface n (s.takeWhile (· ≠ ' ')))

/-- A byte in hexadecimal at the start of a text, and the rest. -/
def readByte : List Char → Option (U8 × List Char)
  | '0' :: 'x' :: a :: b :: s =>
    match nibble a, nibble b with
    | some a, some b => some (BitVec.ofNat 8 (16 * a + b), s)
    | _, _ => none
  | _ => none

/-- A byte in hexadecimal and nothing else. -/
def readLastByte (s : List Char) : Option U8 :=
  match readByte s with
  | some (x, []) => some x
  | _ => none

/-- What is wrong with an access to a module's memory. -/
def readMgmt (s : List Char) : Option MgmtError :=
  match afterWords chars!"Invalid upper memory page: " s with
  | some s => (readLastByte s).map .invalidPage
  | none =>
    match afterWords chars!"Invalid upper memory bank: " s with
    | some s => (readLastByte s).map .invalidBank
    | none =>
      match afterWords chars!"Page does not accept a bank number: " s with
      | some s => (readLastByte s).map .pageIsUnbanked
      | none =>
        match afterWords chars!"Page requires a bank number: " s with
        | some s => (readLastByte s).map .pageIsBanked
        | none =>
          match afterWords chars!"Invalid memory access: offset=" s with
          | some s =>
            match readByte s with
            | some (offset, s) => ((afterWords chars!", len=" s).bind readLastByte).map (.invalidMemoryAccess offset)
            | none => none
          | none =>
            match (afterWords chars!"Write or read of " s).bind readCount with
            | some (size, s) =>
              ((afterWords chars!" bytes too large for management interface " s).bind readInterface).map
                (.invalidOperationSize (BitVec.ofNat 8 size))
            | none => none

/-- A number and nothing else. -/
def readLastCount (s : List Char) : Option Nat :=
  match readCount s with
  | some (n, []) => some n
  | _ => none

/-- Read the message of an error. -/
def readError (s : List Char) : Option Told :=
  match afterWords chars!"Hardware error accessing module " s with
  | some s => readHardware s
  | none =>
    match afterWords chars!"Error decoding module data: " s with
    | some s => readDecode s
    | none =>
      match afterWords chars!"Module management interface error: " s with
      | some s => (readMgmt s).map .access
      | none =>
        match afterWords chars!"Error addressing Sidecar port: Invalid transceiver port: " s with
        | some s => (readLastCount s).map .port
        | none => (afterWords chars!"Addressed module with index " s).bind readWrong

/-- Read one line of the list of failures: the port it is listed for and what it tells. -/
def readFailure (line : List Char) : Option (Nat × Told) :=
  match readCount (line.dropWhile (· = ' ')) with
  | none => none
  | some (p, s) => ((afterWords chars!" " s).bind readError).map (p, ·)

/-- Read standard error: nothing, or two lines of explanation and the failures. -/
def readFailures : List (List Char) → Option (List (Nat × Told))
  | [] => some []
  | [_] => none
  | _ :: _ :: ls => ls.mapM readFailure

/-! ## Where failures come from -/

/-- In some exchange the SP reported this error for port `p`. -/
def SaidOf (t : List Exchange) (p : Nat) (e : TransceiverError) : Prop := ∃ x ∈ t, errIn x p = some e

/-- In some exchange the SP reported this error. -/
def Said (t : List Exchange) (e : TransceiverError) : Prop := ∃ p, SaidOf t p e

/-- The SP reported the error, or the bytes of a module could not be decoded. -/
def Founded (t : List Exchange) (e : TransceiverError) : Prop := Said t e ∨ ∃ d, e = .decode d

/-- The methods that decode nothing but identifiers. -/
inductive PlainMethod : {P : Type} → Prog (Res P) → Prop
  | identifier (m) : PlainMethod (Controller.identifier m)
  | reset (m) : PlainMethod (Controller.reset m)
  | setPowerOff (m) : PlainMethod (Controller.setPower m .off)
  | enablePower (m) : PlainMethod (Controller.enablePower m)
  | disablePower (m) : PlainMethod (Controller.disablePower m)
  | assertReset (m) : PlainMethod (Controller.assertReset m)
  | deassertReset (m) : PlainMethod (Controller.deassertReset m)
  | assertLpMode (m) : PlainMethod (Controller.assertLpMode m)
  | deassertLpMode (m) : PlainMethod (Controller.deassertLpMode m)
  | clearPowerFault (m) : PlainMethod (Controller.clearPowerFault m)
  | clearDisableLatch (m) : PlainMethod (Controller.clearDisableLatch m)
  | status (m) : PlainMethod (Controller.status m)
  | extendedStatus (m) : PlainMethod (Controller.extendedStatus m)
  | write (m w data) : PlainMethod (Controller.write m w data)
  | read (m rd) : PlainMethod (Controller.read m rd)
  | leds (m) : PlainMethod (Controller.leds m)
  | setLeds (m s) : PlainMethod (Controller.setLeds m s)

/-- All methods that report on modules. -/
inductive Method : {P : Type} → Prog (Res P) → Prop
  | plain {P : Type} {p : Prog (Res P)} : PlainMethod p → Method p
  | decoding {P : Type} (d : ModuleDecoder P) (m) : Method (Controller.parseModulesByIdentifier d m)
  | power (m) : Method (Controller.power m)
  | setPower (m s) : Method (Controller.setPower m s)

/-- The commands that decode nothing but identifiers. -/
def PlainCommand : Cli.Cmd → Prop
  | .vendorInfo _ | .memoryModel _ | .monitors _ | .datapath | .power _ => False
  | .setPower s => s = .off
  | _ => True

end Xcvr.Spec
