import Verif.Model.CliTable
import Verif.Model.Ops

/-!
# `controller/src/bin/xcvradm.rs`: `main`

What a run of the tool asks of the controller and what it prints. Not modelled: parsing of the command line by `clap`
other than the parsers of values in `Cli.lean`, logging, starting the controller (`Config.lean`) and the handler of SP
requests (`Handler.lean`). Simplified: the two flags `--sff` and `--cmis`, of which `clap` requires exactly one, are one
truth value (`Args.lean` has both, and C150 shows that nothing is lost); if printing aborts, the lines printed before are lost; the text of errors is in `ErrText.lean` and
`MainText.lean`.
-/

namespace Xcvr.Cli

/-- The input of a write command, `xcvradm.rs` 874-892: the kind given, the contents of the file or of standard input
(nothing if the file cannot be opened), and the number of bytes the first `read` returns. -/
structure Input where
  kind : Option InputKind
  content : Option Bytes
  nread : Nat

/-- `xcvradm.rs` 329-697 `Cmd`. -/
inductive Cmd where
  | status (withFlags withoutFlags : Option U32) (all parseable : Bool) (output : List StatusField)
      (outputSeparator : Option (List Char)) (omitHeader : Bool)
  | reset
  | setPower (state : PowerState)
  | power (a : TableArgs PowerField)
  | enablePower
  | disablePower
  | assertReset
  | deassertReset
  | assertLpMode
  | deassertLpMode
  | identify (a : TableArgs IdentifyField)
  | vendorInfo (a : TableArgs VendorField)
  | readLower (cmis binary : Bool) (offset len : U8) (a : TableArgs DataField)
  | writeLower (cmis : Bool) (input : Input) (offset : U8)
  | readUpper (cmis binary : Bool) (page : U8) (bank : Option U8) (offset len : U8) (a : TableArgs DataField)
  | writeUpper (cmis : Bool) (input : Input) (page : U8) (bank : Option U8) (offset : U8)
  | memoryModel (a : TableArgs ModelField)
  | macs (summary : Bool)
  | clearPowerFault
  | clearDisableLatch
  | leds (a : TableArgs LedField)
  | setLeds (state : LedState)
  | monitors (a : TableArgs MonitorField)
  | datapath

/-- Why a command is refused without an error of the controller: the `context(..)?` on other results. -/
inductive SetupError where
  | noInput
  | input (e : InputError)
  | page (e : MgmtError)
  | read (e : LargeAccessError)
  | write (e : WriteSetupError)
  deriving DecidableEq

/-- How `main` returns: `Ok(())`, with the lines printed on standard output and the ports and errors listed on standard
error, or an error other than those of the controller. -/
inductive Exit where
  | done (stdout : Lines) (failures : List (U8 × TransceiverError))
  | refused (e : SetupError)
  deriving DecidableEq

/-- The exit status of the process: 1 for an error returned by `main`, 101 for a panic. -/
def exitStatus : Exec CtlError Exit → Nat
  | .ok (.done ..) => 0
  | .ok (.refused _) => 1
  | .err _ => 1
  | .panic => 101

/-- Printing either gives lines or aborts. -/
def print (x : Exec Unit Lines) : Prog Lines :=
  match x with
  | .ok ls => return ls
  | .err _ => Prog.panic
  | .panic => Prog.panic

/-- `if !args.ignore_errors { print_failures(&result.failures) }`, at the end of every command but `Macs`. -/
def listed (ignoreErrors : Bool) (f : FailedModules TransceiverError) : List (U8 × TransceiverError) :=
  if ignoreErrors then [] else failureLines f

/-- A command that prints a table: `xcvradm.rs` 1044-1051 and the same lines in the other commands. -/
def showing {P : Type} (ignoreErrors : Bool) (op : Prog (Res P)) (text : Res P → Exec Unit Lines) : Prog Exit := do
  let r ← op
  let ls ← print (text r)
  return .done ls (listed ignoreErrors r.failures)

/-- A command that only reports failures: `xcvradm.rs` 1010-1016 and the same lines in the other commands. -/
def acting (ignoreErrors : Bool) (op : Prog (Res Unit)) : Prog Exit := do
  let r ← op
  return .done [] (listed ignoreErrors r.failures)

/-- `xcvradm.rs` 1178-1209 and 1262-1295, given the page. -/
def readCmd (ignoreErrors : Bool) (m : ModuleId) (binary : Bool) (page : Except MgmtError Page) (offset len : U8)
    (a : TableArgs DataField) : Prog Exit :=
  if len = 0 then return .done [] []
  else match page with
    | .error e => return .refused (.page e)
    | .ok page =>
      match buildReads page offset len with
      | .err e => return .refused (.read e)
      | .panic => Prog.panic
      | .ok reads => showing ignoreErrors (readMany m reads) (dataTable binary a.kind)

/-- `xcvradm.rs` 874-892 `load_write_data`. -/
def Input.load (i : Input) : Exec SetupError Bytes :=
  match i.content with
  | none => .err .noInput
  | some content =>
    match loadWriteData i.kind content i.nread with
    | .ok d => .ok d
    | .err e => .err (.input e)
    | .panic => .panic

/-- `xcvradm.rs` 1218-1234 and 1306-1334, given the page. The length is checked before the page, 1307. -/
def writeCmd (ignoreErrors : Bool) (m : ModuleId) (page : Except MgmtError Page) (input : Input) (offset : U8) :
    Prog Exit :=
  match input.load with
  | .err e => return .refused e
  | .panic => Prog.panic
  | .ok data =>
    if 256 ≤ data.length then return .refused (.write .tooLong)
    else match page with
      | .error e => return .refused (.page e)
      | .ok page =>
        match buildWrite page offset data with
        | .error e => return .refused (.write e)
        | .ok w => acting ignoreErrors (Controller.write m w data)

/-- The lower page of either kind, `xcvradm.rs` 1189-1191. -/
def lowerPage (cmis : Bool) : Page := if cmis then .cmis .lower else .sff8636 .lower

/-- `xcvradm.rs` 955-1451: the commands, on the modules selected. -/
def dispatch (fmt : Fmt) (ignoreErrors : Bool) (m : ModuleId) : Cmd → Prog Exit
  | .status w wo all parseable output sep omitHeader =>
    match statusKind w wo all parseable with
    | .ok kind => showing ignoreErrors (statusCmd m) (statusTable kind omitHeader output sep)
    | _ => Prog.panic
  | .reset => acting ignoreErrors (Controller.reset m)
  | .setPower s => acting ignoreErrors (Controller.setPower m s)
  | .power a => showing ignoreErrors (Controller.power m) (powerTable a.kind)
  | .enablePower => acting ignoreErrors (Controller.enablePower m)
  | .disablePower => acting ignoreErrors (Controller.disablePower m)
  | .assertReset => acting ignoreErrors (Controller.assertReset m)
  | .deassertReset => acting ignoreErrors (Controller.deassertReset m)
  | .assertLpMode => acting ignoreErrors (Controller.assertLpMode m)
  | .deassertLpMode => acting ignoreErrors (Controller.deassertLpMode m)
  | .identify a => showing ignoreErrors (Controller.identifier m) (identifyTable a.kind)
  | .vendorInfo a => showing ignoreErrors (Controller.vendorInfo m) (vendorTable a.kind)
  | .readLower cmis binary offset len a => readCmd ignoreErrors m binary (.ok (lowerPage cmis)) offset len a
  | .writeLower cmis input offset => writeCmd ignoreErrors m (.ok (lowerPage cmis)) input offset
  | .readUpper cmis binary page bank offset len a =>
    readCmd ignoreErrors m binary (upperPage cmis page bank) offset len a
  | .writeUpper cmis input page bank offset => writeCmd ignoreErrors m (upperPage cmis page bank) input offset
  | .memoryModel a => showing ignoreErrors (Controller.memoryModel m) (modelTable a.kind)
  | .macs summary => do
    let macs ← Controller.macAddrs
    let ls ← print (macTable macs summary)
    return .done ls []
  | .clearPowerFault => acting ignoreErrors (Controller.clearPowerFault m)
  | .clearDisableLatch => acting ignoreErrors (Controller.clearDisableLatch m)
  | .leds a => showing ignoreErrors (Controller.leds m) (ledTable a.kind)
  | .setLeds s => acting ignoreErrors (Controller.setLeds m s)
  | .monitors a => showing ignoreErrors (Controller.monitors m) (monitorTable a.kind)
  | .datapath => showing ignoreErrors (Controller.datapath m) fun r => .ok (datapathTable fmt r)

/-- `xcvradm.rs` 895-1453 `main`, from 946 on. -/
def main (fmt : Fmt) (transceivers : Option Transceivers) (ignoreErrors : Bool) (cmd : Cmd) : Prog Exit := do
  let m ← addressTransceivers (transceivers.getD .all)
  dispatch fmt ignoreErrors m cmd

end Xcvr.Cli
