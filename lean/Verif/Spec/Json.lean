import Verif.Model.Json
import Verif.Spec.F32

/-!
# Specification: the form of the JSON documents

Which document stands for which value: the names of the fields and of the variants, in any order of the fields, and with any further
fields; or the values of all fields in the order of their declaration. `Is… j v` reads: `j` stands for `v`.
-/

namespace Xcvr.Spec

open Xcvr

/-- The values that a document gives for a name. -/
def valuesOf (fs : List (List Char × Json)) (name : List Char) : List Json :=
  fs.filterMap fun f => if f.1 = name then some f.2 else none

/-- A field that is given once. -/
def Has (j : Json) (name : List Char) (P : Json → Prop) : Prop := ∃ fs v, j = .obj fs ∧ valuesOf fs name = [v] ∧ P v

/-- A field that is given once, with a value other than `null` if there is one; without, it is `null` or left out. -/
def May {α : Type} (j : Json) (name : List Char) (P : Json → α → Prop) : Option α → Prop
  | none => ∃ fs, j = .obj fs ∧ (valuesOf fs name = [] ∨ valuesOf fs name = [.null])
  | some a => Has j name fun v => v ≠ .null ∧ P v a

/-- Fields given by name, or all of them in order. -/
def Struct (names : List (List Char)) (P : Json → Prop) (j : Json) : Prop :=
  P j ∨ ∃ xs, j = .arr xs ∧ xs.length = names.length ∧ P (.obj (names.zip xs))

/-- Fields given by name, or the first so many of them in order. -/
def Prefix (names : List (List Char)) (P : Json → Prop) (j : Json) : Prop :=
  P j ∨ ∃ xs, j = .arr xs ∧ xs.length ≤ names.length ∧ P (.obj (names.zip xs))

def IsString (j : Json) (s : List Char) : Prop := j = .str s
def IsFlag (j : Json) (b : Bool) : Prop := j = .bool b
def IsByte (j : Json) (x : U8) : Prop := j = .int x.toNat

/-- A number of type `f32`: by way of `f64`, if it is not an integer of 64 bits. -/
def IsNumber (j : Json) (x : Rat) : Prop :=
  (∃ z, j = .dec z ∧ x = single (double z)) ∨
  ∃ n : Int, j = .int n ∧ x = if -2 ^ 63 ≤ n ∧ n < 2 ^ 64 then single n else single (double n)

/-- A list. -/
def IsList {α : Type} (P : Json → α → Prop) (j : Json) (l : List α) : Prop :=
  ∃ xs, j = .arr xs ∧ xs.length = l.length ∧ ∀ (n : Nat) (x : Json) (a : α), xs[n]? = some x → l[n]? = some a → P x a

/-- A map from bytes, in order. Names are decimal; the last value given for a name counts. -/
structure IsMap {α : Type} (P : Json → α → Prop) (j : Json) (m : List (U8 × α)) : Prop where
  sorted : m.Pairwise fun a b => a.1.toNat < b.1.toNat
  entries : ∃ fs, j = .obj fs ∧
    (∀ f ∈ fs, ∃ (k : U8) (a : α), f.1 = Nat.toDigits 10 k.toNat ∧ P f.2 a) ∧
    ∀ (k : U8) (a : α), (k, a) ∈ m ↔ ∃ v, (valuesOf fs (Nat.toDigits 10 k.toNat)).getLast? = some v ∧ P v a

/-- The name of a code. -/
def IsCode {T : BitfieldEnum} (j : Json) (v : Bf T) : Prop := ∃ s, j = .str s ∧ Bf.fromStr s = some v

/-- A variant and its content, as the only field. -/
def IsVariant (j : Json) (name : List Char) (P : Json → Prop) : Prop := ∃ v, j = .obj [(name, v)] ∧ P v

/-- The name of a variant without content. -/
def IsName (j : Json) (name : List Char) : Prop := j = .str name ∨ j = .obj [(name, .null)]

/-- A variant and its content, in two fields. -/
def IsAdjacent (j : Json) (content name : List Char) (P : Json → Prop) : Prop :=
  Struct [chars!"type", content] (fun v => Has v chars!"type" (IsName · name) ∧ Has v content P) j

def IsOui (j : Json) (o : Oui) : Prop := IsList IsByte j [o.b0, o.b1, o.b2]

structure VendorFields (j : Json) (v : Vendor) : Prop where
  name : Has j chars!"name" (IsString · v.name)
  oui : Has j chars!"oui" (IsOui · v.oui)
  part : Has j chars!"part" (IsString · v.part)
  revision : Has j chars!"revision" (IsString · v.revision)
  serial : Has j chars!"serial" (IsString · v.serial)
  date : May j chars!"date" IsString v.date

def IsVendor (j : Json) (v : Vendor) : Prop := Struct [
    chars!"name", chars!"oui", chars!"part", chars!"revision", chars!"serial", chars!"date"] (VendorFields · v) j

structure VendorInfoFields (j : Json) (v : VendorInfo) : Prop where
  identifier : Has j chars!"identifier" (IsCode · v.identifier)
  vendor : Has j chars!"vendor" (IsVendor · v.vendor)

def IsVendorInfo (j : Json) (v : VendorInfo) : Prop := Struct [
    chars!"identifier", chars!"vendor"] (VendorInfoFields · v) j

/-- Which kind of medium a code is for. -/
def IsMedia (j : Json) : MediaInterfaceId → Prop
  | .mmf i => IsAdjacent j chars!"id" chars!"mmf" (IsCode · i)
  | .smf i => IsAdjacent j chars!"id" chars!"smf" (IsCode · i)
  | .passiveCopper i => IsAdjacent j chars!"id" chars!"passive_copper" (IsCode · i)
  | .activeCable i => IsAdjacent j chars!"id" chars!"active_cable" (IsCode · i)
  | .baseT i => IsAdjacent j chars!"id" chars!"base_t" (IsCode · i)

def IsReceiverPower (j : Json) : ReceiverPower → Prop
  | .average x => IsVariant j chars!"average" (IsNumber · x)
  | .peakToPeak x => IsVariant j chars!"peak_to_peak" (IsNumber · x)

def IsPair (j : Json) (b : U8 × U8) : Prop := IsList IsByte j [b.1, b.2]

def IsAux1 (j : Json) : Aux1Monitor → Prop
  | .custom b => IsVariant j chars!"custom" (IsPair · b)
  | .tecCurrent x => IsVariant j chars!"tec_current" (IsNumber · x)

def IsAux2 (j : Json) : Aux2Monitor → Prop
  | .laserTemperature x => IsVariant j chars!"laser_temperature" (IsNumber · x)
  | .tecCurrent x => IsVariant j chars!"tec_current" (IsNumber · x)

def IsAux3 (j : Json) : Aux3Monitor → Prop
  | .laserTemperature x => IsVariant j chars!"laser_temperature" (IsNumber · x)
  | .additionalSupplyVoltage x => IsVariant j chars!"additional_supply_voltage" (IsNumber · x)

structure AuxFields (j : Json) (a : AuxMonitors) : Prop where
  aux1 : May j chars!"aux1" IsAux1 a.aux1
  aux2 : May j chars!"aux2" IsAux2 a.aux2
  aux3 : May j chars!"aux3" IsAux3 a.aux3
  custom : May j chars!"custom" IsPair a.custom

def IsAux (j : Json) (a : AuxMonitors) : Prop := Prefix [
    chars!"aux1", chars!"aux2", chars!"aux3", chars!"custom"] (AuxFields · a) j

structure MonitorsFields (j : Json) (m : Monitors) : Prop where
  temperature : May j chars!"temperature" IsNumber m.temperature
  supplyVoltage : May j chars!"supply_voltage" IsNumber m.supplyVoltage
  receiverPower : May j chars!"receiver_power" (IsList IsReceiverPower) m.receiverPower
  transmitterBiasCurrent : May j chars!"transmitter_bias_current" (IsList IsNumber) m.transmitterBiasCurrent
  transmitterPower : May j chars!"transmitter_power" (IsList IsNumber) m.transmitterPower
  auxMonitors : May j chars!"aux_monitors" IsAux m.auxMonitors

def IsMonitors (j : Json) (m : Monitors) : Prop := Prefix [
    chars!"temperature", chars!"supply_voltage", chars!"receiver_power", chars!"transmitter_bias_current",
    chars!"transmitter_power", chars!"aux_monitors"] (MonitorsFields · m) j

/-- The names of the seven codes with one bit. -/
def IsEthernet (j : Json) (e : EthernetComplianceCode) : Prop :=
  (e.code = 1 ∧ IsString j chars!"40G Active Cable") ∨ (e.code = 2 ∧ IsString j chars!"40GBASE-LR4") ∨
  (e.code = 4 ∧ IsString j chars!"40GBASE-SR4") ∨ (e.code = 8 ∧ IsString j chars!"40GBASE-CR4") ∨
  (e.code = 16 ∧ IsString j chars!"10GBASE-SR") ∨ (e.code = 32 ∧ IsString j chars!"10GBASE-LR") ∨
  (e.code = 64 ∧ IsString j chars!"10GBASE-LRM")

def IsSpecification (j : Json) : SffComplianceCode → Prop
  | .extended c => IsAdjacent j chars!"code" chars!"extended" (IsCode · c)
  | .ethernet c => IsAdjacent j chars!"code" chars!"ethernet" (IsEthernet · c)

structure SffLaneFields (j : Json) (d : Sff8636Datapath) : Prop where
  txEnabled : Has j chars!"tx_enabled" (IsFlag · d.txEnabled)
  txLos : Has j chars!"tx_los" (IsFlag · d.txLos)
  rxLos : Has j chars!"rx_los" (IsFlag · d.rxLos)
  txAdaptiveEqFault : Has j chars!"tx_adaptive_eq_fault" (IsFlag · d.txAdaptiveEqFault)
  txFault : Has j chars!"tx_fault" (IsFlag · d.txFault)
  txLol : Has j chars!"tx_lol" (IsFlag · d.txLol)
  rxLol : Has j chars!"rx_lol" (IsFlag · d.rxLol)
  txCdrEnabled : Has j chars!"tx_cdr_enabled" (IsFlag · d.txCdrEnabled)
  rxCdrEnabled : Has j chars!"rx_cdr_enabled" (IsFlag · d.rxCdrEnabled)

def IsSffLane (j : Json) (d : Sff8636Datapath) : Prop := Struct [
    chars!"tx_enabled", chars!"tx_los", chars!"rx_los", chars!"tx_adaptive_eq_fault", chars!"tx_fault", chars!"tx_lol",
    chars!"rx_lol", chars!"tx_cdr_enabled", chars!"rx_cdr_enabled"] (SffLaneFields · d) j

def IsOutputStatus (j : Json) : OutputStatus → Prop
  | .valid => IsName j chars!"valid"
  | .invalid => IsName j chars!"invalid"

def IsPolarity (j : Json) : LanePolarity → Prop
  | .normal => IsName j chars!"normal"
  | .flipped => IsName j chars!"flipped"

/-- The name of a state of a datapath. -/
def IsState (j : Json) (s : CmisDatapathState) : Prop := ∃ t, j = .str t ∧ CmisDatapathState.fromStr t = some s

structure AppDescriptorFields (j : Json) (a : ApplicationDescriptor) : Prop where
  hostId : Has j chars!"host_id" (IsCode · a.hostId)
  mediaId : Has j chars!"media_id" (IsMedia · a.mediaId)
  hostLaneCount : Has j chars!"host_lane_count" (IsByte · a.hostLaneCount)
  mediaLaneCount : Has j chars!"media_lane_count" (IsByte · a.mediaLaneCount)
  hostLaneAssignmentOptions : Has j chars!"host_lane_assignment_options" (IsByte · a.hostLaneAssignmentOptions)
  mediaLaneAssignmentOptions : Has j chars!"media_lane_assignment_options" (IsByte · a.mediaLaneAssignmentOptions)

def IsAppDescriptor (j : Json) (a : ApplicationDescriptor) : Prop := Struct [
    chars!"host_id", chars!"media_id", chars!"host_lane_count", chars!"media_lane_count",
    chars!"host_lane_assignment_options", chars!"media_lane_assignment_options"] (AppDescriptorFields · a) j

structure LaneStatusFields (j : Json) (s : CmisLaneStatus) : Prop where
  state : Has j chars!"state" (IsState · s.state)
  txInputPolarity : May j chars!"tx_input_polarity" IsPolarity s.txInputPolarity
  txOutputEnabled : May j chars!"tx_output_enabled" IsFlag s.txOutputEnabled
  txAutoSquelchDisable : May j chars!"tx_auto_squelch_disable" IsFlag s.txAutoSquelchDisable
  txForceSquelch : May j chars!"tx_force_squelch" IsFlag s.txForceSquelch
  rxOutputPolarity : May j chars!"rx_output_polarity" IsPolarity s.rxOutputPolarity
  rxOutputEnabled : May j chars!"rx_output_enabled" IsFlag s.rxOutputEnabled
  rxAutoSquelchDisable : May j chars!"rx_auto_squelch_disable" IsFlag s.rxAutoSquelchDisable
  rxOutputStatus : Has j chars!"rx_output_status" (IsOutputStatus · s.rxOutputStatus)
  txOutputStatus : Has j chars!"tx_output_status" (IsOutputStatus · s.txOutputStatus)
  txFailure : May j chars!"tx_failure" IsFlag s.txFailure
  txLos : May j chars!"tx_los" IsFlag s.txLos
  txLol : May j chars!"tx_lol" IsFlag s.txLol
  txAdaptiveEqFail : May j chars!"tx_adaptive_eq_fail" IsFlag s.txAdaptiveEqFail
  rxLos : May j chars!"rx_los" IsFlag s.rxLos
  rxLol : May j chars!"rx_lol" IsFlag s.rxLol

def IsLaneStatus (j : Json) (s : CmisLaneStatus) : Prop := Struct [
    chars!"state", chars!"tx_input_polarity", chars!"tx_output_enabled", chars!"tx_auto_squelch_disable",
    chars!"tx_force_squelch", chars!"rx_output_polarity", chars!"rx_output_enabled", chars!"rx_auto_squelch_disable",
    chars!"rx_output_status", chars!"tx_output_status", chars!"tx_failure", chars!"tx_los", chars!"tx_lol",
    chars!"tx_adaptive_eq_fail", chars!"rx_los", chars!"rx_lol"] (LaneStatusFields · s) j

structure CmisDatapathFields (j : Json) (d : CmisDatapath) : Prop where
  application : Has j chars!"application" (IsAppDescriptor · d.application)
  laneStatus : Has j chars!"lane_status" (IsMap IsLaneStatus · d.laneStatus)

def IsCmisDatapath (j : Json) (d : CmisDatapath) : Prop := Struct [
    chars!"application", chars!"lane_status"] (CmisDatapathFields · d) j

def IsDatapath (j : Json) : Datapath → Prop
  | .cmis c s ds => IsVariant j chars!"cmis" <| Struct [chars!"connector", chars!"supported_lanes", chars!"datapaths"] fun v =>
      Has v chars!"connector" (IsCode · c) ∧ Has v chars!"supported_lanes" (IsByte · s) ∧
      Has v chars!"datapaths" (IsMap IsCmisDatapath · ds)
  | .sff8636 c s ls => IsVariant j chars!"sff8636" <| Struct [chars!"connector", chars!"specification", chars!"lanes"] fun v =>
      Has v chars!"connector" (IsCode · c) ∧ Has v chars!"specification" (IsSpecification · s) ∧
      Has v chars!"lanes" (IsList IsSffLane · ls) ∧ ls.length = 4

def IsPowerState (j : Json) : PowerState → Prop
  | .off => IsName j chars!"off"
  | .low => IsName j chars!"low"
  | .high => IsName j chars!"high"

structure PowerModeFields (j : Json) (p : PowerMode) : Prop where
  state : Has j chars!"state" (IsPowerState · p.state)
  softwareOverride : May j chars!"software_override" IsFlag p.softwareOverride

def IsPowerMode (j : Json) (p : PowerMode) : Prop := Struct [
    chars!"state", chars!"software_override"] (PowerModeFields · p) j

def IsLedState (j : Json) : LedState → Prop
  | .off => IsName j chars!"off"
  | .on => IsName j chars!"on"
  | .blink => IsName j chars!"blink"

/-- No object in the document has two fields of the same name. -/
inductive Unambiguous : Json → Prop where
  | null : Unambiguous .null
  | bool (b : Bool) : Unambiguous (.bool b)
  | int (n : Int) : Unambiguous (.int n)
  | dec (z : Rat) : Unambiguous (.dec z)
  | str (s : List Char) : Unambiguous (.str s)
  | arr (xs : List Json) : (∀ x ∈ xs, Unambiguous x) → Unambiguous (.arr xs)
  | obj (fs : List (List Char × Json)) : (fs.map (·.1)).Nodup → (∀ f ∈ fs, Unambiguous f.2) → Unambiguous (.obj fs)

end Xcvr.Spec
