import Verif.Model.CliPrint

/-!
# `controller/src/bin/xcvradm.rs`: the default form of the tables, monitors and datapaths

Together with `CliPrint.lean` this is all the tool prints on standard output. Left open, as the field of `Fmt`: how the
`tabled` crate lays out a grid of cells.
-/

namespace Xcvr.Cli

/-- Lines of text, each printed by one `println!`; one element may itself span lines (`grid`). -/
abbrev Lines := List (List Char)

/-- Formatting that is left open. -/
structure Fmt where
  /-- `builder.build().with(Style::empty())` of the `tabled` crate. -/
  grid : List Lines → List Char

/-- `{s:n$}` on text: at least `n` characters, filled on the right. -/
def alignLeft (n : Nat) (s : List Char) : List Char := s ++ List.replicate (n - s.length) ' '

/-- `{s:>n$}`: at least `n` characters, filled on the left. -/
def alignRight (n : Nat) (s : List Char) : List Char := List.replicate (n - s.length) ' ' ++ s

/-- `{port:>WIDTH$}`, with `xcvradm.rs` 1519 `WIDTH`. -/
def portColumn (port : U8) : List Char := alignRight 4 (decimal port)

/-! ## Tables -/

/-- `xcvradm.rs` 233-263 `OutputKind`. -/
inductive OutputKind (F : Type) where
  | default (header : Bool)
  | parseable (header : Bool) (fields : List F) (sep : List Char)

/-- `xcvradm.rs` 700-715 `ParsableArgs`. -/
structure TableArgs (F : Type) where
  parseable : Bool
  output : List F
  outputSeparator : Option (List Char)
  omitHeader : Bool

/-- `xcvradm.rs` 1038-1042 and the same lines in the other commands. -/
def TableArgs.kind {F : Type} (a : TableArgs F) : OutputKind F :=
  if a.parseable then .parseable (!a.omitHeader) a.output (separator a.outputSeparator) else .default (!a.omitHeader)

/-- A table in either form, given the header line and a row of the default form: 1532-1575 and the other functions. -/
def table {F P : Type} (head : List Char) (row : U8 → P → Exec Unit (List Char)) (name : F → List Char)
    (cell : F → U8 → P → Exec Unit (List Char)) (kind : OutputKind F) (rows : List (U8 × P)) : Exec Unit Lines :=
  match kind with
  | .default header => do
    let body ← rows.mapM fun r => row r.1 r.2
    return (if header then [head] else []) ++ body
  | .parseable header fields sep => tableLines header name cell fields sep rows

/-- `xcvradm.rs` 1532-1575 `print_power_mode`. -/
def powerTable (kind : OutputKind PowerField) (r : Res PowerMode) : Exec Unit Lines :=
  table chars!"Port  Power  Software-override"
    (fun port m => .ok (portColumn port ++ chars!"  " ++ alignLeft 5 (powerText m.state) ++ chars!"  " ++
      overrideText m.softwareOverride))
    PowerField.name PowerField.cell kind r.iter

/-- `xcvradm.rs` 1676-1718 `print_read_data`. -/
def dataTable (binary : Bool) (kind : OutputKind DataField) (r : Res Bytes) : Exec Unit Lines :=
  table chars!"Port Data"
    (fun port d => .ok (portColumn port ++ chars!" [" ++ dataText binary d ++ chars!"]"))
    DataField.name (DataField.cell binary) kind r.iter

/-- `xcvradm.rs` 1728-1768 `print_module_identifier`. -/
def identifyTable (kind : OutputKind IdentifyField) (r : Res Identifier) : Exec Unit Lines :=
  table chars!"Port Ident Description"
    (fun port id => .ok (portColumn port ++ chars!" " ++ alignLeft 5 (hexByte id.toByte) ++ chars!" " ++ id.display))
    IdentifyField.name IdentifyField.cell kind r.iter

/-- The columns of `print_vendor_info` after the port, 1772-1776 and 1798-1807: six texts in fixed widths (1720-1726). -/
def vendorColumns (ident name part rev serial date : List Char) : List Char :=
  alignLeft 24 ident ++ chars!" " ++ alignLeft 16 name ++ chars!" " ++ alignLeft 16 part ++ chars!" " ++
    alignLeft 4 rev ++ chars!" " ++ alignLeft 16 serial ++ chars!" " ++ alignLeft 20 date

/-- `xcvradm.rs` 1797-1808: one row. -/
def vendorRow (port : U8) (v : VendorInfo) : List Char :=
  portColumn port ++ chars!" " ++ vendorColumns (identText v.identifier) v.vendor.name v.vendor.part v.vendor.revision
    v.vendor.serial (v.vendor.date.getD chars!"Unknown")

/-- `xcvradm.rs` 1770-1833 `print_vendor_info`. -/
def vendorTable (kind : OutputKind VendorField) (r : Res VendorInfo) : Exec Unit Lines :=
  table (chars!"Port " ++ vendorColumns chars!"Identifier" chars!"Vendor" chars!"Part" chars!"Rev" chars!"Serial"
      chars!"Mfg date")
    (fun port v => .ok (vendorRow port v)) VendorField.name VendorField.cell kind r.iter

/-- `xcvradm.rs` 1835-1874 `print_module_memory_model`. -/
def modelTable (kind : OutputKind ModelField) (r : Res MemoryModel) : Exec Unit Lines :=
  table chars!"Port Model"
    (fun port m => do return portColumn port ++ chars!" " ++ (← modelText m))
    ModelField.name ModelField.cell kind r.iter

/-- The derived `Debug` of `message.rs` 1035-1050 `LedState`. -/
def ledDebug : LedState → List Char
  | .off => chars!"Off"
  | .on => chars!"On"
  | .blink => chars!"Blink"

/-- `xcvradm.rs` 1899-1931 `print_led_state`. -/
def ledTable (kind : OutputKind LedField) (r : Res LedState) : Exec Unit Lines :=
  table chars!"Port LED" (fun port s => .ok (portColumn port ++ chars!" " ++ ledDebug s))
    LedField.name LedField.cell kind r.iter

/-! ## Status -/

/-- `xcvradm.rs` 1647-1657 `print_all_status_header`. -/
def allHeader : Lines := [
  chars!" +------------------------------------- Port",
  chars!" |   +--------------------------------- " ++ statusText 0b000000001,
  chars!" |   |   +----------------------------- " ++ statusText 0b000000010,
  chars!" |   |   |   +------------------------- " ++ statusText 0b000000100,
  chars!" |   |   |   |   +--------------------- " ++ statusText 0b000001000,
  chars!" |   |   |   |   |   +----------------- " ++ statusText 0b000010000,
  chars!" |   |   |   |   |   |   +------------- " ++ statusText 0b000100000,
  chars!" |   |   |   |   |   |   |   +--------- " ++ statusText 0b001000000,
  chars!" |   |   |   |   |   |   |   |   +----- " ++ statusText 0b010000000,
  chars!" |   |   |   |   |   |   |   |   |   +- " ++ statusText 0b100000000,
  chars!" v   v   v   v   v   v   v   v   v   v"]

/-- `xcvradm.rs` 1667-1672: one row of `print_all_status`. -/
def allRow (port : U8) (s : U32) : List Char :=
  alignRight 2 (decimal port) ++ chars!"   " ++
    ((statusMarks s).map fun m => alignLeft 4 (if m.2 then chars!"1" else chars!"0")).flatten

/-- `xcvradm.rs` 1622-1627: what stands for the flags in the header. -/
def limitedText (w wo : U32) : List Char :=
  if wo = 0 then statusText w
  else if w = 0 then chars!"!(" ++ statusText wo ++ chars!")"
  else statusText w ++ chars!" && !(" ++ statusText wo ++ chars!")"

/-- `xcvradm.rs` 1577-1643 `print_module_status`. -/
def statusTable (kind : StatusKind) (omitHeader : Bool) (output : List StatusField) (sep : Option (List Char))
    (r : Res U32) : Exec Unit Lines :=
  match kind with
  | .parseable => .ok (statusLines omitHeader output (separator sep) r.iter)
  | .normal => .ok ((if omitHeader then [] else [chars!"Port Status"]) ++
      r.iter.map fun p => portColumn p.1 ++ chars!" " ++ statusText p.2)
  | .limited w wo => do
    let marks ← limitedColumn w wo r
    return (chars!"Port " ++ limitedText w wo) ::
      marks.map fun p => portColumn p.1 ++ chars!" " ++ (if p.2 then chars!"1" else chars!"0")
  | .all => .ok (allHeader ++ r.iter.map fun p => allRow p.1 p.2)

/-! ## MAC addresses -/

/-- `xcvradm.rs` 1876-1897 `print_mac_address_range`. -/
def macTable (macs : MacAddrs) (summary : Bool) : Exec Unit Lines :=
  if summary then
    .ok [chars!"Base:   " ++ macText macs.baseMac, chars!"Count:  " ++ Nat.toDigits 10 macs.count.toNat,
      chars!"Stride: " ++ Nat.toDigits 10 macs.stride.toNat]
  else match macLines macs with
    | .ok ls => .ok ls
    | .err e => nomatch e
    | .panic => .panic

/-! ## Monitors -/

variable (fmt : Fmt)

/-- `xcvradm.rs` 835-855 `MonitorFields`. -/
inductive MonitorField where
  | port | temperature | supplyVoltage | averageRxPower | txBias | txPower | aux1 | aux2 | aux3
  deriving DecidableEq, Repr

/-- The name `ValueEnum` derives. -/
def MonitorField.name : MonitorField → List Char
  | .port => chars!"port"
  | .temperature => chars!"temperature"
  | .supplyVoltage => chars!"supply-voltage"
  | .averageRxPower => chars!"average-rx-power"
  | .txBias => chars!"tx-bias"
  | .txPower => chars!"tx-power"
  | .aux1 => chars!"aux1"
  | .aux2 => chars!"aux2"
  | .aux3 => chars!"aux3"

/-- `xcvradm.rs` 1934-1939 `display_list`. -/
def displayList (xs : List Rat) : List Char := join chars!"," (xs.map (fixedText 4))

/-- `xcvradm.rs` 2110-2122 `aux1_monitor_value`. -/
def aux1Value : Option Aux1Monitor → List Char × Option (List Char)
  | some (.tecCurrent c) => (chars!"Aux 1, TEC current (mA)", some (shortestText c))
  | some (.custom c) =>
    (chars!"Aux 1, Custom", some (chars!"[" ++ hexByte c.1 ++ chars!"," ++ hexByte c.2 ++ chars!"]"))
  | none => (chars!"Aux 1", none)

/-- `xcvradm.rs` 2124-2133 `aux2_monitor_value`. -/
def aux2Value : Option Aux2Monitor → List Char × Option (List Char)
  | some (.tecCurrent c) => (chars!"Aux 2, TEC current (mA)", some (shortestText c))
  | some (.laserTemperature t) => (chars!"Aux 2, Laser temp (C)", some (shortestText t))
  | none => (chars!"Aux 2", none)

/-- `xcvradm.rs` 2135-2146 `aux3_monitor_value`. -/
def aux3Value : Option Aux3Monitor → List Char × Option (List Char)
  | some (.laserTemperature t) => (chars!"Aux 3, Laser temp (C)", some (shortestText t))
  | some (.additionalSupplyVoltage v) => (chars!"Aux 3, Supply voltage 2 (V)", some (shortestText v))
  | none => (chars!"Aux 3", none)

/-- `xcvradm.rs` 2053-2100: a cell of the parseable form; what is not supported is empty. -/
def MonitorField.cell (f : MonitorField) (port : U8) (m : Monitors) : Exec Unit (List Char) :=
  match f with
  | .port => .ok (decimal port)
  | .temperature => .ok ((m.temperature.map shortestText).getD [])
  | .supplyVoltage => .ok ((m.supplyVoltage.map shortestText).getD [])
  | .averageRxPower => .ok ((m.receiverPower.map fun rx => displayList (rx.map rxValue)).getD [])
  | .txBias => .ok ((m.transmitterBiasCurrent.map (displayList)).getD [])
  | .txPower => .ok ((m.transmitterPower.map (displayList)).getD [])
  | .aux1 => .ok ((aux1Value (m.auxMonitors.bind AuxMonitors.aux1)).2.getD [])
  | .aux2 => .ok ((aux2Value (m.auxMonitors.bind AuxMonitors.aux2)).2.getD [])
  | .aux3 => .ok ((aux3Value (m.auxMonitors.bind AuxMonitors.aux3)).2.getD [])

/-- A line of the default form: name and value, `--` (`xcvradm.rs` 1952) for what is not supported. -/
def monitorLine (name : List Char) (value : Option (List Char)) : List Char :=
  chars!"  " ++ alignRight 22 name ++ chars!": " ++ value.getD chars!"--"

/-- `xcvradm.rs` 1986-1990: the names for receiver power. -/
def rxNameText : Option RxName → List Char
  | some .average => chars!"Avg Rx power (mW)"
  | some .peakToPeak => chars!"P-P Rx power (mW)"
  | none => chars!"Rx power (mW)"

/-- A list in brackets. -/
def bracketed (xs : List Rat) : List Char := chars!"[" ++ displayList xs ++ chars!"]"

/-- `xcvradm.rs` 1963-2042: what is printed for one module. -/
def monitorBlock (port : U8) (m : Monitors) : Exec Unit Lines := do
  let name ← rxName m.receiverPower
  let aux1 := aux1Value (m.auxMonitors.bind AuxMonitors.aux1)
  let aux2 := aux2Value (m.auxMonitors.bind AuxMonitors.aux2)
  let aux3 := aux3Value (m.auxMonitors.bind AuxMonitors.aux3)
  return [
    chars!"Port " ++ decimal port,
    monitorLine chars!"Temperature (C)" (m.temperature.map shortestText),
    monitorLine chars!"Supply voltage (V)" (m.supplyVoltage.map shortestText),
    monitorLine (rxNameText name) (m.receiverPower.map fun rx => bracketed (rx.map rxValue)),
    monitorLine chars!"Tx bias (mA)" (m.transmitterBiasCurrent.map (bracketed)),
    monitorLine chars!"Tx power (mW)" (m.transmitterPower.map (bracketed)),
    monitorLine aux1.1 aux1.2,
    monitorLine aux2.1 aux2.2,
    monitorLine aux3.1 aux3.2]

/-- `need_newline`, `xcvradm.rs` 1953-1960 and 2149-2153: an empty line between blocks. -/
def separated : List Lines → Lines
  | [] => []
  | [b] => b
  | b :: c :: rest => b ++ [[]] ++ separated (c :: rest)

/-- `xcvradm.rs` 1941-2108 `print_monitors`. -/
def monitorTable (kind : OutputKind MonitorField) (r : Res Monitors) : Exec Unit Lines :=
  match kind with
  | .default _ => do return separated (← r.iter.mapM fun p => monitorBlock p.1 p.2)
  | .parseable header fields sep => tableLines header MonitorField.name MonitorField.cell fields sep r.iter

/-! ## Datapaths -/

/-- `bool::to_string`. -/
def boolText (b : Bool) : List Char := if b then chars!"true" else chars!"false"

/-- `xcvradm.rs` 2204-2207 and the like: `Unsupported` for what a module does not report. -/
def supportedText {α : Type} (text : α → List Char) (x : Option α) : List Char := (x.map text).getD chars!"Unsupported"

/-- `datapath.rs` 889-896 `Display for OutputStatus`. -/
def OutputStatus.text : OutputStatus → List Char
  | .valid => chars!"Valid"
  | .invalid => chars!"Invalid"

/-- `datapath.rs` 910-917 `Display for LanePolarity`. -/
def LanePolarity.text : LanePolarity → List Char
  | .normal => chars!"Normal"
  | .flipped => chars!"Flipped"

/-- `xcvradm.rs` 2214-2222. -/
def squelchText (disabled : Bool) : List Char := if disabled then chars!"Disabled" else chars!"Enabled"

/-- `ident.rs` 493-503 `Display for MediaInterfaceId`. -/
def mediaText : MediaInterfaceId → List Char
  | .mmf i => i.display ++ chars!" (MMF)"
  | .smf i => i.display ++ chars!" (SMF)"
  | .passiveCopper i => i.display ++ chars!" (Passive copper)"
  | .activeCable i => i.display ++ chars!" (Active cable)"
  | .baseT i => i.display ++ chars!" (BASE-T)"

/-- `datapath.rs` 107-114 `Display for SffComplianceCode`. -/
def complianceText : SffComplianceCode → List Char
  | .extended c => c.display
  | .ethernet c => c.display

/-- `xcvradm.rs` 2198-2281 `ROWS`. -/
def cmisRows : List (List Char × (CmisLaneStatus → List Char)) := [
  (chars!"State", fun st => CmisDatapathState.display st.state),
  (chars!"Tx enabled", fun st => supportedText boolText st.txOutputEnabled),
  (chars!"Tx input polarity", fun st => supportedText LanePolarity.text st.txInputPolarity),
  (chars!"Tx auto-squelch", fun st => supportedText squelchText st.txAutoSquelchDisable),
  (chars!"Tx force-squelch", fun st => supportedText boolText st.txForceSquelch),
  (chars!"Tx output", fun st => OutputStatus.text st.txOutputStatus),
  (chars!"Tx failure", fun st => supportedText boolText st.txFailure),
  (chars!"Tx LOS", fun st => supportedText boolText st.txLos),
  (chars!"Tx LOL", fun st => supportedText boolText st.txLol),
  (chars!"Tx adaptive EQ fail", fun st => supportedText boolText st.txAdaptiveEqFail),
  (chars!"Rx enabled", fun st => supportedText boolText st.rxOutputEnabled),
  (chars!"Rx output polarity", fun st => supportedText LanePolarity.text st.rxOutputPolarity),
  (chars!"Rx auto-squelch", fun st => supportedText squelchText st.rxAutoSquelchDisable),
  (chars!"Rx output", fun st => OutputStatus.text st.rxOutputStatus),
  (chars!"Rx LOS", fun st => supportedText boolText st.rxLos),
  (chars!"Rx LOL", fun st => supportedText boolText st.rxLol)]

/-- `xcvradm.rs` 2282-2300: the grid of one application, a column for each lane. -/
def cmisGrid (lanes : List (U8 × CmisLaneStatus)) : List Lines :=
  ([] :: lanes.map fun l => chars!"Lane " ++ decimal l.1) ::
    cmisRows.map fun r => r.1 :: lanes.map fun l => r.2 l.2

/-- `xcvradm.rs` 2188-2194: the supported lanes, counted from one. -/
def lanesText (supported : U8) : List Char :=
  join chars!"," (((List.range 8).filter fun i => supported.getLsbD i).map fun i => decimal (BitVec.ofNat 8 (i + 1)))

/-- `xcvradm.rs` 2184-2303: one application. -/
def cmisApplication (supported : U8) (id : U8) (d : CmisDatapath) : Lines :=
  [chars!"   Application ID: " ++ decimal id,
    chars!"  Supported lanes: [" ++ lanesText supported ++ chars!"]",
    chars!"   Host interface: " ++ d.application.hostId.display,
    chars!"  Media interface: " ++ mediaText d.application.mediaId] ++
  (if d.laneStatus.isEmpty then [] else [fmt.grid (cmisGrid d.laneStatus)]) ++ [[]]

/-- `xcvradm.rs` 2321-2331 `ROWS`. -/
def sffRows : List (List Char × (Sff8636Datapath → Bool)) := [
  (chars!"Tx enabled", fun p => p.txEnabled),
  (chars!"Tx LOS", fun p => p.txLos),
  (chars!"Tx LOL", fun p => p.txLol),
  (chars!"Tx CDR enabled", fun p => p.txCdrEnabled),
  (chars!"Tx adapt EQ fault", fun p => p.txAdaptiveEqFault),
  (chars!"Tx fault", fun p => p.txFault),
  (chars!"Rx LOS", fun p => p.rxLos),
  (chars!"Rx LOL", fun p => p.rxLol),
  (chars!"Rx CDR enabled", fun p => p.rxCdrEnabled)]

/-- `xcvradm.rs` 2317-2337: the grid of the four lanes. -/
def sffGrid (lanes : List Sff8636Datapath) : List Lines :=
  [[], chars!"Lane 0", chars!"Lane 1", chars!"Lane 2", chars!"Lane 3"] ::
    sffRows.map fun r => r.1 :: lanes.map fun l => boolText (r.2 l)

/-- `xcvradm.rs` 2175-2301 `print_cmis_datapath` and 2304-2337 `print_sff8636_datapath`. -/
def datapathBlock (port : U8) : Datapath → Lines
  | .cmis connector supported datapaths =>
    [chars!"Port " ++ decimal port, chars!"        Connector: " ++ connector.display] ++
      (datapaths.map fun d => cmisApplication fmt supported d.1 d.2).flatten
  | .sff8636 connector specification lanes =>
    [chars!"Port " ++ decimal port, chars!"        Connector: " ++ connector.display,
      chars!"    Specification: " ++ complianceText specification, [], fmt.grid (sffGrid lanes)]

/-- `xcvradm.rs` 2148-2170 `print_datapath`. -/
def datapathTable (r : Res Datapath) : Lines := separated (r.iter.map fun p => datapathBlock fmt p.1 p.2)

end Xcvr.Cli
