import Verif.Model.CliMain

/-!
# `controller/src/bin/xcvradm.rs`: the declared arguments

The options of each command, the rules between them that the attributes of `clap` declare, and the commands with all their
arguments, as `main` gets them. How `clap` splits a command line into options and values is not modelled; what is modelled of
it is what the attributes say: an option declared `short` has as letter the first of its name, one declared `long` has the
name with dashes; `conflicts_with` refuses two options together, `requires` one without the other, and a group that is
`required` takes exactly one of its options.
-/

namespace Xcvr.Cli

/-- An option: the name of the field, and whether it is declared `short` and `long`. A letter may be given (`short = 'P'`). -/
structure Opt where
  name : List Char
  short : Bool := false
  long : Bool := true
  given : Option Char := none
  deriving DecidableEq

/-- The letter of an option. -/
def Opt.letter (o : Opt) : Option Char :=
  if o.short then (match o.given with | some c => some c | none => o.name.head?) else none

/-- The name after `--`: the field in kebab case. -/
def Opt.longName (o : Opt) : Option (List Char) :=
  if o.long then some (o.name.map fun c => if c = '_' then '-' else c) else none

/-- `xcvradm.rs` 329-697: the commands that have options, and the tool itself (140-217). The commands without are `plain`. -/
inductive Sub where
  | tool | status | table | readLower | writeLower | readUpper | writeUpper | macs | plain
  deriving DecidableEq

/-- `xcvradm.rs` 700-716 `ParsableArgs`, which the commands that print a table take in. -/
def tableOpts : List Opt :=
  [{ name := chars!"parseable", short := true }, { name := chars!"output", short := true },
    { name := chars!"output_separator" }, { name := chars!"omit_header" }]

/-- The options of a command. `help` is added by `clap`, and `version` to the tool (141). -/
def Sub.options : Sub → List Opt
  /- 146-216. -/
  | .tool => [{ name := chars!"transceivers", short := true }, { name := chars!"address", short := true },
      { name := chars!"interface", short := true }, { name := chars!"port", short := true, given := some 'P' },
      { name := chars!"peer", short := true }, { name := chars!"peer_port" }, { name := chars!"n_retries", short := true },
      { name := chars!"retry_interval", short := true }, { name := chars!"log_level", short := true },
      { name := chars!"ignore_errors", short := true, given := some 'E' }, { name := chars!"help", short := true },
      { name := chars!"version", short := true, given := some 'V' }]
  /- 333-370. -/
  | .status => [{ name := chars!"with" }, { name := chars!"without" }, { name := chars!"all" },
      { name := chars!"parseable", short := true }, { name := chars!"output", short := true },
      { name := chars!"output_separator" }, { name := chars!"omit_header" }, { name := chars!"help", short := true }]
  /- 389-392, 429-438, 627-630, 655-658 and 681-684. -/
  | .table => tableOpts ++ [{ name := chars!"help", short := true }]
  /- 441-469. -/
  | .readLower => [{ name := chars!"sff" }, { name := chars!"cmis" }, { name := chars!"binary" }] ++ tableOpts ++
      [{ name := chars!"help", short := true }]
  /- 487-510. -/
  | .writeLower => [{ name := chars!"sff" }, { name := chars!"cmis" }, { name := chars!"input", short := true },
      { name := chars!"input_kind" }, { name := chars!"help", short := true }]
  /- 513-558. -/
  | .readUpper => [{ name := chars!"sff" }, { name := chars!"cmis" }, { name := chars!"binary" },
      { name := chars!"page", short := true }, { name := chars!"bank", short := true }] ++ tableOpts ++
      [{ name := chars!"help", short := true }]
  /- 576-618. -/
  | .writeUpper => [{ name := chars!"sff" }, { name := chars!"cmis" }, { name := chars!"input", short := true },
      { name := chars!"input_kind" }, { name := chars!"page", short := true }, { name := chars!"bank", short := true },
      { name := chars!"help", short := true }]
  /- 634-638. -/
  | .macs => [{ name := chars!"summary", short := true }, { name := chars!"help", short := true }]
  | .plain => [{ name := chars!"help", short := true }]

/-- A rule between options. -/
inductive Rule where
  | conflict (a b : List Char)
  | needs (a b : List Char)
  | exactlyOne (a b : List Char)

/-- Whether the options given meet a rule. -/
def Rule.met (given : List Char → Bool) : Rule → Bool
  | .conflict a b => !(given a && given b)
  | .needs a b => !given a || given b
  | .exactlyOne a b => given a != given b

/-- `xcvradm.rs` 706 and 710. -/
def tableRules : List Rule :=
  [.needs chars!"output" chars!"parseable", .needs chars!"output_separator" chars!"parseable"]

/-- The rules of a command. -/
def Sub.rules : Sub → List Rule
  /- 342, 344, 356, 360 and 364. -/
  | .status =>
    [.conflict chars!"with" chars!"all", .conflict chars!"without" chars!"all",
      .conflict chars!"parseable" chars!"with", .conflict chars!"parseable" chars!"without",
      .conflict chars!"parseable" chars!"all",
      .conflict chars!"output" chars!"with", .conflict chars!"output" chars!"without", .conflict chars!"output" chars!"all",
      .conflict chars!"output_separator" chars!"with", .conflict chars!"output_separator" chars!"without",
      .conflict chars!"output_separator" chars!"all"] ++ tableRules
  | .table => tableRules
  /- 441. -/
  | .readLower => .exactlyOne chars!"sff" chars!"cmis" :: tableRules
  /- 487 and 498. -/
  | .writeLower => [.exactlyOne chars!"sff" chars!"cmis", .needs chars!"input" chars!"input_kind"]
  /- 513 and 537. -/
  | .readUpper => [.exactlyOne chars!"sff" chars!"cmis", .conflict chars!"bank" chars!"sff"] ++ tableRules
  /- 576, 587 and 606. -/
  | .writeUpper => [.exactlyOne chars!"sff" chars!"cmis", .needs chars!"input" chars!"input_kind",
      .conflict chars!"bank" chars!"sff"]
  | .tool | .macs | .plain => []

/-- `xcvradm.rs` 329-697 `Cmd`, with both flags for the kind of module and with whether the input is a file. -/
inductive RawCmd where
  | status (withFlags withoutFlags : Option U32) (all parseable : Bool) (output : List StatusField)
      (outputSeparator : Option (List Char)) (omitHeader : Bool)
  | power (a : TableArgs PowerField)
  | identify (a : TableArgs IdentifyField)
  | vendorInfo (a : TableArgs VendorField)
  | memoryModel (a : TableArgs ModelField)
  | leds (a : TableArgs LedField)
  | monitors (a : TableArgs MonitorField)
  | readLower (sff cmis binary : Bool) (offset len : U8) (a : TableArgs DataField)
  | writeLower (sff cmis file : Bool) (input : Input) (offset : U8)
  | readUpper (sff cmis binary : Bool) (page : U8) (bank : Option U8) (offset len : U8) (a : TableArgs DataField)
  | writeUpper (sff cmis file : Bool) (input : Input) (page : U8) (bank : Option U8) (offset : U8)
  | macs (summary : Bool)
  | reset
  | setPower (state : PowerState)
  | enablePower
  | disablePower
  | assertReset
  | deassertReset
  | assertLpMode
  | deassertLpMode
  | clearPowerFault
  | clearDisableLatch
  | setLeds (state : LedState)
  | datapath

/-- Which options are declared for it. -/
def RawCmd.sub : RawCmd → Sub
  | .status .. => .status
  | .power _ | .identify _ | .vendorInfo _ | .memoryModel _ | .leds _ | .monitors _ => .table
  | .readLower .. => .readLower
  | .writeLower .. => .writeLower
  | .readUpper .. => .readUpper
  | .writeUpper .. => .writeUpper
  | .macs _ => .macs
  | _ => .plain

/-- The options of `ParsableArgs` that are given. -/
def tableGiven {F : Type} (a : TableArgs F) : List (List Char × Bool) :=
  [(chars!"parseable", a.parseable), (chars!"output", !a.output.isEmpty),
    (chars!"output_separator", a.outputSeparator.isSome), (chars!"omit_header", a.omitHeader)]

/-- The options that are given: flags that are set, and fields that have a value. A `page` has one by default. -/
def RawCmd.options : RawCmd → List (List Char × Bool)
  | .status w wo all parseable output sep omitHeader =>
    [(chars!"with", w.isSome), (chars!"without", wo.isSome), (chars!"all", all), (chars!"parseable", parseable),
      (chars!"output", !output.isEmpty), (chars!"output_separator", sep.isSome), (chars!"omit_header", omitHeader)]
  | .power a => tableGiven a
  | .identify a => tableGiven a
  | .vendorInfo a => tableGiven a
  | .memoryModel a => tableGiven a
  | .leds a => tableGiven a
  | .monitors a => tableGiven a
  | .readLower sff cmis binary _ _ a =>
    [(chars!"sff", sff), (chars!"cmis", cmis), (chars!"binary", binary)] ++ tableGiven a
  | .writeLower sff cmis file input _ =>
    [(chars!"sff", sff), (chars!"cmis", cmis), (chars!"input", file), (chars!"input_kind", input.kind.isSome)]
  | .readUpper sff cmis binary _ bank _ _ a =>
    [(chars!"sff", sff), (chars!"cmis", cmis), (chars!"binary", binary), (chars!"bank", bank.isSome)] ++ tableGiven a
  | .writeUpper sff cmis file input _ bank _ =>
    [(chars!"sff", sff), (chars!"cmis", cmis), (chars!"input", file), (chars!"input_kind", input.kind.isSome),
      (chars!"bank", bank.isSome)]
  | .macs summary => [(chars!"summary", summary)]
  | _ => []

/-- Whether an option is given. -/
def RawCmd.given (c : RawCmd) (name : List Char) : Bool := c.options.any fun o => o.1 == name && o.2

/-- Whether `clap` lets the arguments through. -/
def RawCmd.accepted (c : RawCmd) : Bool := c.sub.rules.all (Rule.met c.given)

/-! ## Values with names -/

/-- `ValueEnum::from_str`, with case (`ignore_case` is not set): the value with that name. -/
def valueOf {α : Type} (values : List α) (name : α → List Char) (s : List Char) : Option α :=
  values.find? fun v => name v == s

/-- The names that `lib.rs` 266 derives for `PowerState`, the argument of `set-power` (`xcvradm.rs` 381-382). -/
def powerName : PowerState → List Char
  | .off => chars!"off"
  | .low => chars!"low"
  | .high => chars!"high"

/-- What `set-power` takes. -/
def powerArg : List Char → Option PowerState := valueOf [.off, .low, .high] powerName

/-- The names that `message.rs` 1035 derives for `LedState`, the argument of `set-leds` (`xcvradm.rs` 663). -/
def ledName : LedState → List Char
  | .off => chars!"off"
  | .on => chars!"on"
  | .blink => chars!"blink"

/-- What `set-leds` takes. -/
def ledArg : List Char → Option LedState := valueOf [.off, .on, .blink] ledName

/-- What `--output` takes in `status`, `xcvradm.rs` 754-760. -/
def statusArg : List Char → Option StatusField := valueOf [.port, .status] StatusField.name

/-- What `--output` takes in `power`, `xcvradm.rs` 762-770. -/
def powerFieldArg : List Char → Option PowerField := valueOf [.port, .power, .override] PowerField.name

/-- What `--output` takes in `identify`, `xcvradm.rs` 772-780. -/
def identifyArg : List Char → Option IdentifyField := valueOf [.port, .ident, .description] IdentifyField.name

/-- What `--output` takes in `vendor-info`, `xcvradm.rs` 782-798. -/
def vendorArg : List Char → Option VendorField :=
  valueOf [.port, .identifier, .vendor, .part, .rev, .serial, .manufacturedDate] VendorField.name

/-- What `--output` takes in `read-lower` and `read-upper`, `xcvradm.rs` 800-806. -/
def dataArg : List Char → Option DataField := valueOf [.port, .data] DataField.name

/-- What `--output` takes in `memory-model`, `xcvradm.rs` 811-817. -/
def modelArg : List Char → Option ModelField := valueOf [.port, .model] ModelField.name

/-- What `--output` takes in `leds`, `xcvradm.rs` 827-833. -/
def ledFieldArg : List Char → Option LedField := valueOf [.port, .led] LedField.name

/-- What `--output` takes in `monitors`, `xcvradm.rs` 835-855. -/
def monitorArg : List Char → Option MonitorField :=
  valueOf [.port, .temperature, .supplyVoltage, .averageRxPower, .txBias, .txPower, .aux1, .aux2, .aux3] MonitorField.name

/-! ## `main`, without the help of the rules -/

/-- `xcvradm.rs` 1178-1194 and 1252-1280: the match on the two flags. -/
def readRaw (ignoreErrors : Bool) (m : ModuleId) (sff cmis binary : Bool) (page : Bool → Except MgmtError Page)
    (offset len : U8) (a : TableArgs DataField) : Prog Exit :=
  if len = 0 then return .done [] []
  else match sff, cmis with
    | true, false => readCmd ignoreErrors m binary (page false) offset len a
    | false, true => readCmd ignoreErrors m binary (page true) offset len a
    | _, _ => Prog.panic

/-- `xcvradm.rs` 874-892 `load_write_data`. A file without a kind is an error, 876 (its text, which differs from that of a
file that cannot be opened, is not modelled). -/
def loadRaw (file : Bool) (i : Input) : Exec SetupError Bytes :=
  if file then
    match i.kind with
    | none => .err .noInput
    | some kind =>
      match i.content with
      | none => .err .noInput
      | some content =>
        match loadKnownWriteData kind content i.nread with
        | .ok d => .ok d
        | .error e => .err (.input e)
  else i.load

/-- `xcvradm.rs` 1218-1234 and 1306-1334: the match on the two flags comes after the data is loaded. -/
def writeRaw (ignoreErrors : Bool) (m : ModuleId) (sff cmis file : Bool) (page : Bool → Except MgmtError Page)
    (input : Input) (offset : U8) : Prog Exit :=
  match loadRaw file input with
  | .err e => return .refused e
  | .panic => Prog.panic
  | .ok data =>
    if 256 ≤ data.length then return .refused (.write .tooLong)
    else
      let go (page : Except MgmtError Page) : Prog Exit :=
        match page with
        | .error e => return .refused (.page e)
        | .ok page =>
          match buildWrite page offset data with
          | .error e => return .refused (.write e)
          | .ok w => acting ignoreErrors (Controller.write m w data)
      match sff, cmis with
      | true, false => go (page false)
      | false, true => go (page true)
      | _, _ => Prog.panic

/-- `xcvradm.rs` 955-1451: the commands, on the modules selected. -/
def dispatchRaw (fmt : Fmt) (ign : Bool) (m : ModuleId) : RawCmd → Prog Exit
  | .status w wo all parseable output sep omitHeader => dispatch fmt ign m (.status w wo all parseable output sep omitHeader)
  | .power a => dispatch fmt ign m (.power a)
  | .identify a => dispatch fmt ign m (.identify a)
  | .vendorInfo a => dispatch fmt ign m (.vendorInfo a)
  | .memoryModel a => dispatch fmt ign m (.memoryModel a)
  | .leds a => dispatch fmt ign m (.leds a)
  | .monitors a => dispatch fmt ign m (.monitors a)
  | .readLower sff cmis binary offset len a => readRaw ign m sff cmis binary (fun c => .ok (lowerPage c)) offset len a
  | .writeLower sff cmis file input offset => writeRaw ign m sff cmis file (fun c => .ok (lowerPage c)) input offset
  | .readUpper sff cmis binary page bank offset len a =>
    readRaw ign m sff cmis binary (fun c => upperPage c page bank) offset len a
  | .writeUpper sff cmis file input page bank offset =>
    writeRaw ign m sff cmis file (fun c => upperPage c page bank) input offset
  | .macs summary => dispatch fmt ign m (.macs summary)
  | .reset => dispatch fmt ign m .reset
  | .setPower s => dispatch fmt ign m (.setPower s)
  | .enablePower => dispatch fmt ign m .enablePower
  | .disablePower => dispatch fmt ign m .disablePower
  | .assertReset => dispatch fmt ign m .assertReset
  | .deassertReset => dispatch fmt ign m .deassertReset
  | .assertLpMode => dispatch fmt ign m .assertLpMode
  | .deassertLpMode => dispatch fmt ign m .deassertLpMode
  | .clearPowerFault => dispatch fmt ign m .clearPowerFault
  | .clearDisableLatch => dispatch fmt ign m .clearDisableLatch
  | .setLeds s => dispatch fmt ign m (.setLeds s)
  | .datapath => dispatch fmt ign m .datapath

/-- `xcvradm.rs` 895-1453 `main`, on arguments that `clap` lets through; it ends with status 2 on others. -/
def mainRaw (fmt : Fmt) (transceivers : Option Transceivers) (ignoreErrors : Bool) (cmd : RawCmd) : Prog Exit := do
  let m ← addressTransceivers (transceivers.getD .all)
  dispatchRaw fmt ignoreErrors m cmd

end Xcvr.Cli
