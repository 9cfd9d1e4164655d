import Verif.Model.Decode.Vendor
import Verif.Model.Decode.Monitors
import Verif.Model.Decode.Datapath
import Verif.Model.Power

/-!
# Module information as JSON (feature `api-traits`)

The `Serialize` and `Deserialize` implementations of the types that the controller returns, derived by `serde` or written
out, as `serde_json::to_string` and `serde_json::from_str` drive them. A document is a tree; its text (spaces, the escapes in
strings, the notation of numbers) is not modelled. Numbers are rounded to nearest when read; `serde_json` does so for up to
15 digits and powers of ten up to 22, which is all it ever writes here, and may be off by one in the last place of an `f64`
beyond. Numbers too large for an `f32`, which become infinite or are refused, are not modelled.
-/

namespace Xcvr

/-- A JSON document. Numbers are integers, or have a point or an exponent; these are taken for their value. -/
inductive Json where
  | null
  | bool (b : Bool)
  | int (n : Int)
  | dec (z : Rat)
  | str (s : List Char)
  | arr (xs : List Json)
  | obj (fs : List (List Char × Json))

/-- `f64`: as `single`, with 29 more digits. -/
def double (x : Rat) : Rat :=
  if x = 0 then 0
  else (nearestEven (x / (2 : Rat) ^ (lastPlace x - 29)) : Rat) * (2 : Rat) ^ (lastPlace x - 29)

/-- The number with as few digits as tell `x` from the other numbers of type `f32`, as in `shortestText`. -/
def shortestNumber (x : Rat) : Rat :=
  if x = 0 then 0
  else
    let y := if x < 0 then -x else x
    let top := (Nat.toDigits 10 y.num.natAbs).length
    match firstSame y (top + y.den.log2 + 1) top with
    | some (m, j) => if x < 0 then -((m : Rat) * (10 : Rat) ^ j) else (m : Rat) * (10 : Rat) ^ j
    | none => 0

namespace Json

/-! ## Values of the standard library -/

def ofU8 (x : U8) : Json := .int x.toNat

/-- `visit_u64` of the integer visitors. -/
def toU8 : Json → Option U8
  | .int n => if 0 ≤ n ∧ n < 256 then some (BitVec.ofNat 8 n.toNat) else none
  | _ => none

def toBool : Json → Option Bool
  | .bool b => some b
  | _ => none

def toStr : Json → Option (List Char)
  | .str s => some s
  | _ => none

/-- `serialize_f32`: a finite number always has a point or an exponent. -/
def ofF32 (x : Rat) : Json := .dec (shortestNumber x)

/-- `deserialize_f32`: the document is read as a `u64`, `i64` or `f64`, which is then converted. -/
def toF32 : Json → Option Rat
  | .dec z => some (single (double z))
  | .int n => if -2 ^ 63 ≤ n ∧ n < 2 ^ 64 then some (single n) else some (single (double n))
  | _ => none

def ofOption {α : Type} (w : α → Json) : Option α → Json
  | none => .null
  | some a => w a

def toOption {α : Type} (r : Json → Option α) : Json → Option (Option α)
  | .null => some none
  | v => (r v).map some

def ofList {α : Type} (w : α → Json) (l : List α) : Json := .arr (l.map w)

def toList {α : Type} (r : Json → Option α) : Json → Option (List α)
  | .arr xs => xs.mapM r
  | _ => none

/-- `[T; n]`. -/
def toArray {α : Type} (n : Nat) (r : Json → Option α) (v : Json) : Option (List α) := do
  let l ← toList r v
  if l.length = n then some l else none

def ofPair (b : U8 × U8) : Json := .arr [ofU8 b.1, ofU8 b.2]

def toPair (v : Json) : Option (U8 × U8) := do
  match ← toArray 2 toU8 v with
  | [a, b] => some (a, b)
  | _ => none

/-- The name of a `u8` key. -/
def keyText (k : U8) : List Char := Nat.toDigits 10 k.toNat

/-- A `u8` key: a number without sign and leading zeros. -/
def readKey (s : List Char) : Option U8 := ((List.range 256).find? fun n => Nat.toDigits 10 n == s).map (BitVec.ofNat 8)

/-- `BTreeMap<u8, T>`. -/
def ofMap {α : Type} (w : α → Json) (m : List (U8 × α)) : Json := .obj (m.map fun p => (keyText p.1, w p.2))

/-- `BTreeMap<u8, T>`: the entries are inserted one by one. -/
def toMap {α : Type} (r : Json → Option α) : Json → Option (List (U8 × α))
  | .obj fs => fs.foldlM (init := []) fun m f => do
    let k ← readKey f.1
    let v ← r f.2
    return BMap.upsert u8Lt k (fun _ => v) m
  | _ => none

/-! ## Derived implementations -/

/-- The fields of a struct: `visit_map`, or `visit_seq` with all of them in order. -/
def fields (names : List (List Char)) : Json → Option (List (List Char × Json))
  | .obj fs => some fs
  | .arr xs => if xs.length = names.length then some (names.zip xs) else none
  | _ => none

/-- The fields of a struct whose fields are all marked `default`: in order, the last ones may be left out. -/
def someFields (names : List (List Char)) : Json → Option (List (List Char × Json))
  | .obj fs => some fs
  | .arr xs => if xs.length ≤ names.length then some (names.zip xs) else none
  | _ => none

/-- The value of a field, if it is given; it must not be given twice. Other fields are ignored. -/
def field (fs : List (List Char × Json)) (name : List Char) : Option (Option Json) :=
  match fs.filter (·.1 == name) with
  | [] => some none
  | [f] => some (some f.2)
  | _ => none

/-- A field that must be given. -/
def required {α : Type} (fs : List (List Char × Json)) (name : List Char) (r : Json → Option α) : Option α := do
  match ← field fs name with
  | some v => r v
  | none => none

/-- A field of type `Option<T>`, which may be left out. -/
def optional {α : Type} (fs : List (List Char × Json)) (name : List Char) (r : Json → Option α) : Option (Option α) := do
  match ← field fs name with
  | some v => toOption r v
  | none => some none

/-- A field with `skip_serializing_if = "Option::is_none"`. -/
def skipNone {α : Type} (name : List Char) (w : α → Json) : Option α → List (List Char × Json)
  | none => []
  | some a => [(name, w a)]

/-- An enum value with fields, externally tagged. -/
def tagged (name : List Char) (v : Json) : Json := .obj [(name, v)]

/-- The name of an enum value without fields. -/
def unitName : Json → Option (List Char)
  | .str s => some s
  | .obj [(s, .null)] => some s
  | _ => none

/-- The tag and the content of such a value. -/
def untag : Json → Option (List Char × Json)
  | .obj [(name, v)] => some (name, v)
  | _ => none

/-- An enum value with `tag = "type"` and the given name of the content. -/
def adjacent (content name : List Char) (v : Json) : Json := .obj [(chars!"type", .str name), (content, v)]

/-- The tag and the content of such a value. -/
def unadjacent (content : List Char) (v : Json) : Option (List Char × Json) := do
  let fs ← fields [chars!"type", content] v
  let t ← required fs chars!"type" unitName
  let c ← required fs content some
  return (t, c)

/-- `utils.rs` 96-98 with 161-175: by way of `String`. -/
def ofBf {T : BitfieldEnum} (v : Bf T) : Json := .str v.display

def toBf {T : BitfieldEnum} (v : Json) : Option (Bf T) := do Bf.fromStr (← toStr v)

end Json

open Json

/-! ## `decode/src/ident.rs` -/

/-- `ident.rs` 77-82 `Oui`: the array. -/
def Oui.toJson (o : Oui) : Json := .arr [ofU8 o.b0, ofU8 o.b1, ofU8 o.b2]

def Oui.ofJson (v : Json) : Option Oui := do
  match ← toArray 3 toU8 v with
  | [a, b, c] => some ⟨a, b, c⟩
  | _ => none

/-- `ident.rs` 143-155 `Vendor`. -/
def Vendor.toJson (v : Vendor) : Json := .obj [
  (chars!"name", .str v.name), (chars!"oui", v.oui.toJson), (chars!"part", .str v.part), (chars!"revision", .str v.revision),
  (chars!"serial", .str v.serial), (chars!"date", ofOption .str v.date)]

def Vendor.ofJson (j : Json) : Option Vendor := do
  let fs ← fields [
    chars!"name", chars!"oui", chars!"part", chars!"revision", chars!"serial", chars!"date"] j
  return ⟨← required fs chars!"name" toStr, ← required fs chars!"oui" Oui.ofJson, ← required fs chars!"part" toStr,
    ← required fs chars!"revision" toStr, ← required fs chars!"serial" toStr, ← optional fs chars!"date" toStr⟩

/-- `ident.rs` 130-140 `VendorInfo`. -/
def VendorInfo.toJson (v : VendorInfo) : Json :=
  .obj [(chars!"identifier", ofBf v.identifier), (chars!"vendor", v.vendor.toJson)]

def VendorInfo.ofJson (j : Json) : Option VendorInfo := do
  let fs ← fields [chars!"identifier", chars!"vendor"] j
  return ⟨← required fs chars!"identifier" toBf, ← required fs chars!"vendor" Vendor.ofJson⟩

/-- `ident.rs` 476-491 `MediaInterfaceId`: `tag = "type"`, `content = "id"`. -/
def MediaInterfaceId.toJson : MediaInterfaceId → Json
  | .mmf i => adjacent chars!"id" chars!"mmf" (ofBf i)
  | .smf i => adjacent chars!"id" chars!"smf" (ofBf i)
  | .passiveCopper i => adjacent chars!"id" chars!"passive_copper" (ofBf i)
  | .activeCable i => adjacent chars!"id" chars!"active_cable" (ofBf i)
  | .baseT i => adjacent chars!"id" chars!"base_t" (ofBf i)

def MediaInterfaceId.ofJson (j : Json) : Option MediaInterfaceId := do
  let (t, v) ← unadjacent chars!"id" j
  if t = chars!"mmf" then return .mmf (← toBf v)
  else if t = chars!"smf" then return .smf (← toBf v)
  else if t = chars!"passive_copper" then return .passiveCopper (← toBf v)
  else if t = chars!"active_cable" then return .activeCable (← toBf v)
  else if t = chars!"base_t" then return .baseT (← toBf v)
  else none

/-! ## `decode/src/monitors.rs` -/

/-- `monitors.rs` 93-104 `ReceiverPower`. -/
def ReceiverPower.toJson : ReceiverPower → Json
  | .average x => tagged chars!"average" (ofF32 x)
  | .peakToPeak x => tagged chars!"peak_to_peak" (ofF32 x)

def ReceiverPower.ofJson (j : Json) : Option ReceiverPower := do
  let (t, v) ← untag j
  if t = chars!"average" then return .average (← toF32 v)
  else if t = chars!"peak_to_peak" then return .peakToPeak (← toF32 v)
  else none

/-- `monitors.rs` 157-175 `Aux1Monitor`. -/
def Aux1Monitor.toJson : Aux1Monitor → Json
  | .custom b => tagged chars!"custom" (ofPair b)
  | .tecCurrent x => tagged chars!"tec_current" (ofF32 x)

def Aux1Monitor.ofJson (j : Json) : Option Aux1Monitor := do
  let (t, v) ← untag j
  if t = chars!"custom" then return .custom (← toPair v)
  else if t = chars!"tec_current" then return .tecCurrent (← toF32 v)
  else none

/-- `monitors.rs` 177-195 `Aux2Monitor`. -/
def Aux2Monitor.toJson : Aux2Monitor → Json
  | .laserTemperature x => tagged chars!"laser_temperature" (ofF32 x)
  | .tecCurrent x => tagged chars!"tec_current" (ofF32 x)

def Aux2Monitor.ofJson (j : Json) : Option Aux2Monitor := do
  let (t, v) ← untag j
  if t = chars!"laser_temperature" then return .laserTemperature (← toF32 v)
  else if t = chars!"tec_current" then return .tecCurrent (← toF32 v)
  else none

/-- `monitors.rs` 197-209 `Aux3Monitor`. -/
def Aux3Monitor.toJson : Aux3Monitor → Json
  | .laserTemperature x => tagged chars!"laser_temperature" (ofF32 x)
  | .additionalSupplyVoltage x => tagged chars!"additional_supply_voltage" (ofF32 x)

def Aux3Monitor.ofJson (j : Json) : Option Aux3Monitor := do
  let (t, v) ← untag j
  if t = chars!"laser_temperature" then return .laserTemperature (← toF32 v)
  else if t = chars!"additional_supply_voltage" then return .additionalSupplyVoltage (← toF32 v)
  else none

/-- `monitors.rs` 117-153 `AuxMonitors`. -/
def AuxMonitors.toJson (a : AuxMonitors) : Json := .obj (
  skipNone chars!"aux1" Aux1Monitor.toJson a.aux1 ++ skipNone chars!"aux2" Aux2Monitor.toJson a.aux2 ++
  skipNone chars!"aux3" Aux3Monitor.toJson a.aux3 ++ skipNone chars!"custom" ofPair a.custom)

def AuxMonitors.ofJson (j : Json) : Option AuxMonitors := do
  let fs ← someFields [
    chars!"aux1", chars!"aux2", chars!"aux3", chars!"custom"] j
  return ⟨← optional fs chars!"aux1" Aux1Monitor.ofJson, ← optional fs chars!"aux2" Aux2Monitor.ofJson,
    ← optional fs chars!"aux3" Aux3Monitor.ofJson, ← optional fs chars!"custom" toPair⟩

/-- `monitors.rs` 21-74 `Monitors`. -/
def Monitors.toJson (m : Monitors) : Json := .obj (
  skipNone chars!"temperature" ofF32 m.temperature ++ skipNone chars!"supply_voltage" ofF32 m.supplyVoltage ++
  skipNone chars!"receiver_power" (ofList ReceiverPower.toJson) m.receiverPower ++
  skipNone chars!"transmitter_bias_current" (ofList ofF32) m.transmitterBiasCurrent ++
  skipNone chars!"transmitter_power" (ofList ofF32) m.transmitterPower ++
  skipNone chars!"aux_monitors" AuxMonitors.toJson m.auxMonitors)

def Monitors.ofJson (j : Json) : Option Monitors := do
  let fs ← someFields [
    chars!"temperature", chars!"supply_voltage", chars!"receiver_power", chars!"transmitter_bias_current",
    chars!"transmitter_power", chars!"aux_monitors"] j
  return ⟨← optional fs chars!"temperature" toF32, ← optional fs chars!"supply_voltage" toF32,
    ← optional fs chars!"receiver_power" (toList ReceiverPower.ofJson),
    ← optional fs chars!"transmitter_bias_current" (toList toF32), ← optional fs chars!"transmitter_power" (toList toF32),
    ← optional fs chars!"aux_monitors" AuxMonitors.ofJson⟩

/-! ## `decode/src/datapath.rs` -/

/-- `datapath.rs` 130-139, 166-198 `EthernetComplianceCode`: by way of `String`. -/
def EthernetComplianceCode.toJson (e : EthernetComplianceCode) : Json := .str e.display

def EthernetComplianceCode.ofJson (v : Json) : Option EthernetComplianceCode := do EthernetComplianceCode.fromStr (← toStr v)

/-- `datapath.rs` 93-105 `SffComplianceCode`: `tag = "type"`, `content = "code"`. -/
def SffComplianceCode.toJson : SffComplianceCode → Json
  | .extended c => adjacent chars!"code" chars!"extended" (ofBf c)
  | .ethernet c => adjacent chars!"code" chars!"ethernet" c.toJson

def SffComplianceCode.ofJson (j : Json) : Option SffComplianceCode := do
  let (t, v) ← unadjacent chars!"code" j
  if t = chars!"extended" then return .extended (← toBf v)
  else if t = chars!"ethernet" then return .ethernet (← EthernetComplianceCode.ofJson v)
  else none

/-- `datapath.rs` 680-732 `Sff8636Datapath`. -/
def Sff8636Datapath.toJson (d : Sff8636Datapath) : Json := .obj [
  (chars!"tx_enabled", .bool d.txEnabled), (chars!"tx_los", .bool d.txLos), (chars!"rx_los", .bool d.rxLos),
  (chars!"tx_adaptive_eq_fault", .bool d.txAdaptiveEqFault), (chars!"tx_fault", .bool d.txFault),
  (chars!"tx_lol", .bool d.txLol), (chars!"rx_lol", .bool d.rxLol), (chars!"tx_cdr_enabled", .bool d.txCdrEnabled),
  (chars!"rx_cdr_enabled", .bool d.rxCdrEnabled)]

def Sff8636Datapath.ofJson (j : Json) : Option Sff8636Datapath := do
  let fs ← fields [
    chars!"tx_enabled", chars!"tx_los", chars!"rx_los", chars!"tx_adaptive_eq_fault", chars!"tx_fault", chars!"tx_lol",
    chars!"rx_lol", chars!"tx_cdr_enabled", chars!"rx_cdr_enabled"] j
  return ⟨← required fs chars!"tx_enabled" toBool, ← required fs chars!"tx_los" toBool, ← required fs chars!"rx_los" toBool,
    ← required fs chars!"tx_adaptive_eq_fault" toBool, ← required fs chars!"tx_fault" toBool,
    ← required fs chars!"tx_lol" toBool, ← required fs chars!"rx_lol" toBool, ← required fs chars!"tx_cdr_enabled" toBool,
    ← required fs chars!"rx_cdr_enabled" toBool⟩

/-- `datapath.rs` 878-887 `OutputStatus`. -/
def OutputStatus.toJson : OutputStatus → Json
  | .valid => .str chars!"valid"
  | .invalid => .str chars!"invalid"

def OutputStatus.ofJson (j : Json) : Option OutputStatus := do
  let t ← unitName j
  if t = chars!"valid" then return .valid
  else if t = chars!"invalid" then return .invalid
  else none

/-- `datapath.rs` 899-908 `LanePolarity`. -/
def LanePolarity.toJson : LanePolarity → Json
  | .normal => .str chars!"normal"
  | .flipped => .str chars!"flipped"

def LanePolarity.ofJson (j : Json) : Option LanePolarity := do
  let t ← unitName j
  if t = chars!"normal" then return .normal
  else if t = chars!"flipped" then return .flipped
  else none

/-- `utils.rs` 239-241 with 293-307, for `datapath.rs` 863-876 `CmisDatapathState`: by way of `String`. -/
def CmisDatapathState.toJson (s : CmisDatapathState) : Json := .str s.display

def CmisDatapathState.ofJson (v : Json) : Option CmisDatapathState := do CmisDatapathState.fromStr (← toStr v)

/-- `datapath.rs` 928-957 `ApplicationDescriptor`. -/
def ApplicationDescriptor.toJson (a : ApplicationDescriptor) : Json := .obj [
  (chars!"host_id", ofBf a.hostId), (chars!"media_id", a.mediaId.toJson), (chars!"host_lane_count", ofU8 a.hostLaneCount),
  (chars!"media_lane_count", ofU8 a.mediaLaneCount),
  (chars!"host_lane_assignment_options", ofU8 a.hostLaneAssignmentOptions),
  (chars!"media_lane_assignment_options", ofU8 a.mediaLaneAssignmentOptions)]

def ApplicationDescriptor.ofJson (j : Json) : Option ApplicationDescriptor := do
  let fs ← fields [
    chars!"host_id", chars!"media_id", chars!"host_lane_count", chars!"media_lane_count",
    chars!"host_lane_assignment_options", chars!"media_lane_assignment_options"] j
  return ⟨← required fs chars!"host_id" toBf, ← required fs chars!"media_id" MediaInterfaceId.ofJson,
    ← required fs chars!"host_lane_count" toU8, ← required fs chars!"media_lane_count" toU8,
    ← required fs chars!"host_lane_assignment_options" toU8, ← required fs chars!"media_lane_assignment_options" toU8⟩

/-- `datapath.rs` 763-861 `CmisLaneStatus`. -/
def CmisLaneStatus.toJson (s : CmisLaneStatus) : Json := .obj [
  (chars!"state", CmisDatapathState.toJson s.state),
  (chars!"tx_input_polarity", ofOption LanePolarity.toJson s.txInputPolarity),
  (chars!"tx_output_enabled", ofOption .bool s.txOutputEnabled),
  (chars!"tx_auto_squelch_disable", ofOption .bool s.txAutoSquelchDisable),
  (chars!"tx_force_squelch", ofOption .bool s.txForceSquelch),
  (chars!"rx_output_polarity", ofOption LanePolarity.toJson s.rxOutputPolarity),
  (chars!"rx_output_enabled", ofOption .bool s.rxOutputEnabled),
  (chars!"rx_auto_squelch_disable", ofOption .bool s.rxAutoSquelchDisable),
  (chars!"rx_output_status", s.rxOutputStatus.toJson),
  (chars!"tx_output_status", s.txOutputStatus.toJson),
  (chars!"tx_failure", ofOption .bool s.txFailure),
  (chars!"tx_los", ofOption .bool s.txLos),
  (chars!"tx_lol", ofOption .bool s.txLol),
  (chars!"tx_adaptive_eq_fail", ofOption .bool s.txAdaptiveEqFail),
  (chars!"rx_los", ofOption .bool s.rxLos),
  (chars!"rx_lol", ofOption .bool s.rxLol)]

def CmisLaneStatus.ofJson (j : Json) : Option CmisLaneStatus := do
  let fs ← fields [
    chars!"state", chars!"tx_input_polarity", chars!"tx_output_enabled", chars!"tx_auto_squelch_disable",
    chars!"tx_force_squelch", chars!"rx_output_polarity", chars!"rx_output_enabled", chars!"rx_auto_squelch_disable",
    chars!"rx_output_status", chars!"tx_output_status", chars!"tx_failure", chars!"tx_los", chars!"tx_lol",
    chars!"tx_adaptive_eq_fail", chars!"rx_los", chars!"rx_lol"] j
  return ⟨← required fs chars!"state" CmisDatapathState.ofJson,
    ← optional fs chars!"tx_input_polarity" LanePolarity.ofJson,
    ← optional fs chars!"tx_output_enabled" toBool,
    ← optional fs chars!"tx_auto_squelch_disable" toBool,
    ← optional fs chars!"tx_force_squelch" toBool,
    ← optional fs chars!"rx_output_polarity" LanePolarity.ofJson,
    ← optional fs chars!"rx_output_enabled" toBool,
    ← optional fs chars!"rx_auto_squelch_disable" toBool,
    ← required fs chars!"rx_output_status" OutputStatus.ofJson,
    ← required fs chars!"tx_output_status" OutputStatus.ofJson,
    ← optional fs chars!"tx_failure" toBool,
    ← optional fs chars!"tx_los" toBool,
    ← optional fs chars!"tx_lol" toBool,
    ← optional fs chars!"tx_adaptive_eq_fail" toBool,
    ← optional fs chars!"rx_los" toBool,
    ← optional fs chars!"rx_lol" toBool⟩

/-- `datapath.rs` 746-757 `CmisDatapath`. -/
def CmisDatapath.toJson (d : CmisDatapath) : Json := .obj [
  (chars!"application", d.application.toJson), (chars!"lane_status", ofMap CmisLaneStatus.toJson d.laneStatus)]

def CmisDatapath.ofJson (j : Json) : Option CmisDatapath := do
  let fs ← fields [chars!"application", chars!"lane_status"] j
  return ⟨← required fs chars!"application" ApplicationDescriptor.ofJson,
    ← required fs chars!"lane_status" (toMap CmisLaneStatus.ofJson)⟩

/-- `datapath.rs` 28-64 `Datapath`. -/
def Datapath.toJson : Datapath → Json
  | .cmis c s ds => tagged chars!"cmis" (.obj [
      (chars!"connector", ofBf c), (chars!"supported_lanes", ofU8 s),
      (chars!"datapaths", ofMap CmisDatapath.toJson ds)])
  | .sff8636 c s ls => tagged chars!"sff8636" (.obj [
      (chars!"connector", ofBf c), (chars!"specification", s.toJson), (chars!"lanes", ofList Sff8636Datapath.toJson ls)])

def Datapath.ofJson (j : Json) : Option Datapath := do
  let (t, v) ← untag j
  if t = chars!"cmis" then
    let fs ← fields [chars!"connector", chars!"supported_lanes", chars!"datapaths"] v
    return .cmis (← required fs chars!"connector" toBf) (← required fs chars!"supported_lanes" toU8)
      (← required fs chars!"datapaths" (toMap CmisDatapath.ofJson))
  else if t = chars!"sff8636" then
    let fs ← fields [chars!"connector", chars!"specification", chars!"lanes"] v
    return .sff8636 (← required fs chars!"connector" toBf) (← required fs chars!"specification" SffComplianceCode.ofJson)
      (← required fs chars!"lanes" (toArray 4 Sff8636Datapath.ofJson))
  else none

/-! ## `controller/src/lib.rs` and `messages/src/message.rs` -/

/-- `lib.rs` 266-290 `PowerState`. -/
def PowerState.toJson : PowerState → Json
  | .off => .str chars!"off"
  | .low => .str chars!"low"
  | .high => .str chars!"high"

def PowerState.ofJson (j : Json) : Option PowerState := do
  let t ← unitName j
  if t = chars!"off" then return .off
  else if t = chars!"low" then return .low
  else if t = chars!"high" then return .high
  else none

/-- `lib.rs` 307-323 `PowerMode`. -/
def PowerMode.toJson (p : PowerMode) : Json :=
  .obj [(chars!"state", p.state.toJson), (chars!"software_override", ofOption .bool p.softwareOverride)]

def PowerMode.ofJson (j : Json) : Option PowerMode := do
  let fs ← fields [chars!"state", chars!"software_override"] j
  return ⟨← required fs chars!"state" PowerState.ofJson, ← optional fs chars!"software_override" toBool⟩

/-- `message.rs` 1030-1050 `LedState`. -/
def LedState.toJson : LedState → Json
  | .off => .str chars!"off"
  | .on => .str chars!"on"
  | .blink => .str chars!"blink"

def LedState.ofJson (j : Json) : Option LedState := do
  let t ← unitName j
  if t = chars!"off" then return .off
  else if t = chars!"on" then return .on
  else if t = chars!"blink" then return .blink
  else none

/-- `message.rs` 801-808 `Serialize for Status`. -/
def Status.toJson (s : Controller.Status) : Json := ofU8 s

/-- `message.rs` 810-864 `Deserialize for Status`: `visit_u64`; all eight bits are flags. -/
def Status.ofJson (v : Json) : Option Controller.Status := toU8 v

/-- `message.rs` 967-974 `Serialize for ExtendedStatus`. -/
def ExtendedStatus.toJson (s : U32) : Json := .int s.toNat

/-- `message.rs` 976-1012 `Deserialize for ExtendedStatus`: `visit_u64`, with `from_bits_truncate`. -/
def ExtendedStatus.ofJson : Json → Option U32
  | .int n => if 0 ≤ n ∧ n < 2 ^ 32 then some (BitVec.ofNat 32 n.toNat &&& Controller.extendedStatusFlags) else none
  | _ => none

end Xcvr
