import Verif.Spec.Columns
import Verif.Spec.MemoryMap

/-! # Specification: what the information commands show of a module's memory -/

namespace Xcvr.Spec

open Xcvr Cli

/-- The kind of a module, by byte 0 of its memory. -/
abbrev kindOf (mem : ModuleMemory) : Identifier := Bf.ofByte (mem (.sff8636 .lower) 0)

/-- The vendor information of a module, by its memory. -/
def VendorSays (mem : ModuleMemory) (v : VendorInfo) : Prop :=
  v.identifier = kindOf mem ∧
  ((SffModule (kindOf mem) ∧ SffVendor mem v.vendor) ∨ (CmisModule (kindOf mem) ∧ CmisVendor mem v.vendor))

/-- The memory model of a module, by its memory. -/
def ModelSays (mem : ModuleMemory) (md : MemoryModel) : Prop :=
  (SffModule (kindOf mem) ∧ ((bit (sffLow mem 2) 2 = true ∧ md = .flat) ∨
    (bit (sffLow mem 2) 2 = false ∧ ∃ pages, md = .paged pages ∧ Increasing pages ∧ ∀ p, p ∈ pages ↔ SffHasPage mem p))) ∨
  (CmisModule (kindOf mem) ∧ ((bit (cmisLow mem 2) 7 = true ∧ md = .flat) ∨
    (bit (cmisLow mem 2) 7 = false ∧ ∃ b pages, cmisMaxBankOf mem = some b ∧ md = .paged pages ∧ Increasing pages ∧
      ∀ p, p ∈ pages ↔ CmisHasPage mem b p)))

/-- The monitors of a module other than the auxiliary ones, by its memory. -/
def MonitorsSay (mem : ModuleMemory) (m : Monitors) : Prop :=
  (SffModule (kindOf mem) ∧ m = sffMonitors mem) ∨
  (CmisModule (kindOf mem) ∧ ∃ scale, cmisBiasScale mem = some scale ∧ CmisMonitorsMain mem scale m)

/-- A line for a monitor: two spaces, a label at the right of 22 columns (longer labels are not cut), a colon, and the value,
or two dashes if the module has no such monitor. -/
def reading (label : List Char) (value : Option (List Char)) : List Char :=
  chars!"  " ++ List.replicate (22 - label.length) ' ' ++ label ++ chars!": " ++ (match value with
    | some v => v
    | none => chars!"--")

/-- The values of lanes. -/
def laneList (xs : List Rat) : List Char :=
  chars!"[" ++ [','].intercalate (xs.map (fixedText 4)) ++ chars!"]"

/-- The milliwatts of a received power. -/
def milliwattsOf : ReceiverPower → Rat
  | .average x => x
  | .peakToPeak x => x

/-- Does the module measure average received power? -/
def measuresAverage (mem : ModuleMemory) : Bool :=
  if kindOf mem = Bf.ofByte 0x0d ∨ kindOf mem = Bf.ofByte 0x11 then bit (sffUp00 mem 220) 3 else bit (cmisUp mem 1 151) 4

/-- The label of received power. -/
def rxLabel (mem : ModuleMemory) (m : Monitors) : List Char :=
  if m.receiverPower.isNone then chars!"Rx power (mW)"
  else if measuresAverage mem then chars!"Avg Rx power (mW)" else chars!"P-P Rx power (mW)"

/-- Does a module advertise auxiliary monitor 1, 2 or 3 (bits 2-4 of byte 159 of page 01)? Only CMIS modules have any. -/
def hasAux (mem : ModuleMemory) (k : Nat) : Bool :=
  (kindOf mem == Bf.ofByte 0x18 || kindOf mem == Bf.ofByte 0x1e) && bit (cmisUp mem 1 159) (k + 1)

/-- Byte 145 of page 01 says which of two quantities auxiliary monitor 1, 2 or 3 measures. -/
def auxKind (mem : ModuleMemory) (k : Nat) : Bool := bit (cmisUp mem 1 145) (k - 1)

/-- The label and value of an auxiliary monitor; `current` is the number that a module has at an address for the current of a
cooler, in parts of 32767. -/
def auxShown (current : ModuleMemory → Nat → Int) (mem : ModuleMemory) (k : Nat) :
    List Char × Option (List Char) :=
  let L := cmisLow mem
  let label (what : List Char) : List Char := chars!"Aux " ++ decimal (BitVec.ofNat 8 k) ++ what
  if hasAux mem k then
    match k, auxKind mem k with
    | 1, true => (label chars!", TEC current (mA)", some (shortestText (single ((current mem 18 : Rat) / 32767))))
    | 1, false => (label chars!", Custom",
        some (chars!"[" ++ hexByte (L 18) ++ chars!"," ++ hexByte (L 19) ++ chars!"]"))
    | 2, true => (label chars!", TEC current (mA)", some (shortestText (single ((current mem 20 : Rat) / 32767))))
    | 2, false => (label chars!", Laser temp (C)", some (shortestText (celsiusAt L 20)))
    | _, true => (label chars!", Supply voltage 2 (V)", some (shortestText (voltsAt L 22)))
    | _, false => (label chars!", Laser temp (C)", some (shortestText (celsiusAt L 22)))
  else (label [], none)

/-- The current of a cooler is a signed number. -/
def coolerSigned (mem : ModuleMemory) (a : Nat) : Int := signedAt (cmisLow mem) a

/-- The current of a cooler as the code reads it. -/
def coolerUnsigned (mem : ModuleMemory) (a : Nat) : Int := unsignedAt (cmisLow mem) a

/-- What is shown of the monitors of a module. -/
def MonitorText (current : ModuleMemory → Nat → Int) (mem : ModuleMemory) (port : U8) (ls : Lines) : Prop :=
  ∃ m, MonitorsSay mem m ∧ ls = [
    chars!"Port " ++ decimal port,
    reading chars!"Temperature (C)" (m.temperature.map shortestText),
    reading chars!"Supply voltage (V)" (m.supplyVoltage.map shortestText),
    reading (rxLabel mem m) (m.receiverPower.map fun rx => laneList (rx.map milliwattsOf)),
    reading chars!"Tx bias (mA)" (m.transmitterBiasCurrent.map (laneList)),
    reading chars!"Tx power (mW)" (m.transmitterPower.map (laneList))] ++
    [1, 2, 3].map fun k => reading (auxShown current mem k).1 (auxShown current mem k).2

/-- Values of lanes in the parseable form. -/
def laneFields (xs : List Rat) : List Char := [','].intercalate (xs.map (fixedText 4))

/-- A field of the parseable form; a monitor that the module does not have is empty. -/
def monitorValue (current : ModuleMemory → Nat → Int) (mem : ModuleMemory) (m : Monitors) (port : U8)
    (f : MonitorField) : List Char :=
  match f with
  | .port => decimal port
  | .temperature => (m.temperature.map shortestText).getD []
  | .supplyVoltage => (m.supplyVoltage.map shortestText).getD []
  | .averageRxPower => (m.receiverPower.map fun rx => laneFields (rx.map milliwattsOf)).getD []
  | .txBias => (m.transmitterBiasCurrent.map (laneFields)).getD []
  | .txPower => (m.transmitterPower.map (laneFields)).getD []
  | .aux1 => (auxShown current mem 1).2.getD []
  | .aux2 => (auxShown current mem 2).2.getD []
  | .aux3 => (auxShown current mem 3).2.getD []

end Xcvr.Spec
