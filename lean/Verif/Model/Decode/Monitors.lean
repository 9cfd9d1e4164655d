import Verif.Model.Decode.Common
import Verif.Model.F32

/-!
# `decode/src/monitors.rs`

Measured values are `f32`: every constant and every result of an operation is rounded by `single`. Conversions from 16-bit
integers are exact.
-/

namespace Xcvr

/-- `monitors.rs` 97-104 `ReceiverPower`. -/
inductive ReceiverPower where
  | average (mw : Rat)
  | peakToPeak (mw : Rat)
  deriving DecidableEq

/-- `monitors.rs` 161-172 `Aux1Monitor`. -/
inductive Aux1Monitor where
  | custom (b : U8 × U8)
  | tecCurrent (x : Rat)
  deriving DecidableEq

/-- `monitors.rs` 181-192 `Aux2Monitor`. -/
inductive Aux2Monitor where
  | laserTemperature (c : Rat)
  | tecCurrent (x : Rat)
  deriving DecidableEq

/-- `monitors.rs` 201-207 `Aux3Monitor`. -/
inductive Aux3Monitor where
  | laserTemperature (c : Rat)
  | additionalSupplyVoltage (v : Rat)
  deriving DecidableEq

/-- `monitors.rs` 122-152 `AuxMonitors`. -/
structure AuxMonitors where
  aux1 : Option Aux1Monitor
  aux2 : Option Aux2Monitor
  aux3 : Option Aux3Monitor
  custom : Option (U8 × U8)
  deriving DecidableEq

/-- `monitors.rs` 26-74 `Monitors`. -/
structure Monitors where
  temperature : Option Rat
  supplyVoltage : Option Rat
  receiverPower : Option (List ReceiverPower)
  transmitterBiasCurrent : Option (List Rat)
  transmitterPower : Option (List Rat)
  auxMonitors : Option AuxMonitors
  deriving DecidableEq

namespace Monitors

open Decode

/-- `monitors.rs` 214 `TX_BIAS_CURRENT_RESOLUTION`, amperes. -/
def txBiasCurrentResolution : Rat := single (2 / 1000000)
/-- `monitors.rs` 217 `TEMP_RESOLUTION`. -/
def tempResolution : Rat := single (1 / 256)
/-- `monitors.rs` 220 `SUPPLY_VOLTAGE_RESOLUTION`, volts. -/
def supplyVoltageResolution : Rat := single (100 / 1000000)
/-- `monitors.rs` 223 `OPTICAL_POWER_RESOLUTION`, watts. -/
def opticalPowerResolution : Rat := single (1 / 10000000)
/-- `monitors.rs` 226 `WATT_TO_MW` and 229 `AMP_TO_MA`. -/
def milli : Rat := 1000

/-- `u16::from_be_bytes`. -/
def u16Be (b : U8 × U8) : U16 := b.1 ++ b.2

/-- `monitors.rs` 231-233 `monitor_bytes_are_absurd`. -/
def absurdBytes (b : U8 × U8) : Bool := b == (0, 0) || b == (0xff, 0xff)

/-- `monitors.rs` 246-248 `decode_temperature` (with `utils.rs` 43-45 and `i16::from_be_bytes`). -/
def decodeTemperature (b : U8 × U8) : Rat := single (((u16Be b).toInt : Rat) * tempResolution)

/-- `monitors.rs` 261-264 `decode_supply_voltage`. -/
def decodeSupplyVoltage (b : U8 × U8) : Rat :=
  single (((u16Be b).toNat : Rat) * supplyVoltageResolution)

/-- `monitors.rs` 238-244 `decode_temperature_if_reasonable`. -/
def decodeTemperatureIfReasonable (b : U8 × U8) : Option Rat :=
  if absurdBytes b then none else some (decodeTemperature b)

/-- `monitors.rs` 253-259 `decode_voltage_if_reasonable`. -/
def decodeVoltageIfReasonable (b : U8 × U8) : Option Rat :=
  if absurdBytes b then none else some (decodeSupplyVoltage b)

/-- `monitors.rs` 266-269 `decode_optical_power`. -/
def decodeOpticalPower (b : U8 × U8) : Rat :=
  single (single (((u16Be b).toNat : Rat) * opticalPowerResolution) * milli)

/-- `monitors.rs` 271-274 `decode_bias_current`. -/
def decodeBiasCurrent (b : U8 × U8) : Rat :=
  single (single (((u16Be b).toNat : Rat) * txBiasCurrentResolution) * milli)

/-- `monitors.rs` 278 and 287: the value is read as unsigned and divided by `i16::MAX`. -/
def tec (b : U8 × U8) : Rat := single (((u16Be b).toNat : Rat) / 32767)

/-- `monitors.rs` 276-283 `decode_aux1`. -/
def decodeAux1 (b : U8 × U8) (isTec : Bool) : Aux1Monitor := if isTec then .tecCurrent (tec b) else .custom b

/-- `monitors.rs` 285-292 `decode_aux2`. -/
def decodeAux2 (b : U8 × U8) (isTec : Bool) : Aux2Monitor :=
  if isTec then .tecCurrent (tec b) else .laserTemperature (decodeTemperature b)

/-- `monitors.rs` 294-300 `decode_aux3`. -/
def decodeAux3 (b : U8 × U8) (isVcc2 : Bool) : Aux3Monitor :=
  if isVcc2 then .additionalSupplyVoltage (decodeSupplyVoltage b) else .laserTemperature (decodeTemperature b)

/-- `monitors.rs` 419-421: `(154..154 + 48).step_by(8)`. -/
def cmisLaneOffsets : List U8 := [154, 162, 170, 178, 186, 194]

/-- `monitors.rs` 303-435 `reads`. -/
def reads (id : Identifier) : Exec DecodeError (List MemoryRead) :=
  byKind id
    (do let status ← unw (MemAccess.newRead SffPage.lower 1 1)
        let page ← unw (sffUpperPageNew 0)
        let support ← unw (MemAccess.newRead (SffPage.upper page) 220 1)
        let moduleWide ← unw (MemAccess.newRead SffPage.lower 22 6)
        let perLane ← [0, 1, 2].mapM fun i => unw (MemAccess.newRead SffPage.lower (34 + 8 * i) 8)
        return [status, support, moduleWide] ++ perLane)
    (do let page ← unw (cmisNewUnbanked 1)
        let support ← unw (MemAccess.newRead (CmisPage.upper page) 159 2)
        let page ← unw (cmisNewUnbanked 1)
        let measured ← unw (MemAccess.newRead (CmisPage.upper page) 145 7)
        let mainModuleWide ← unw (MemAccess.newRead CmisPage.lower 14 4)
        let aux ← unw (MemAccess.newRead CmisPage.lower 18 8)
        let page ← unw (cmisNewBanked 0x11 0)
        let perLane ← cmisLaneOffsets.mapM fun start => unw (MemAccess.newRead (CmisPage.upper page) start 8)
        return [support, measured, mainModuleWide, aux] ++ perLane)

/-- `chunks_exact(2)` followed by `[chunk[0], chunk[1]]`. -/
def pairs : Bytes → List (U8 × U8)
  | a :: b :: rest => (a, b) :: pairs rest
  | _ => []

/-- `monitors.rs` 507-514 and 670-677. -/
def rxPower (average : Bool) (b : U8 × U8) : ReceiverPower :=
  if average then .average (decodeOpticalPower b) else .peakToPeak (decodeOpticalPower b)

/-- A decoded pair of bytes at a position, when a condition holds. -/
def whenAt {β : Type} (c : Bool) (b : Bytes) (i : Nat) (f : U8 × U8 → β) : Exec DecodeError (Option β) :=
  if c then (do return some (f (← pairAt b i))) else pure none

/-- `monitors.rs` 439-543: the SFF-8636 arm of `parse`. -/
def parseSff (rs : List Bytes) : Exec DecodeError Monitors := do
  let (b, rs) ← next rs
  let status ← first b
  let isPreRev2p8 : Bool := status < 0x08
  let (b, rs) ← next rs
  let byte ← first b
  let tempSupported := byte &&& 0b00100000 != 0
  let supplyVoltageSupported := byte &&& 0b00010000 != 0
  let rxPowerIsAverage := byte &&& 0b00001000 != 0
  let txPowerSupported := byte &&& 0b00000100 != 0
  let (moduleWide, rs) ← next rs
  let temperature ←
    if isPreRev2p8 then (do return decodeTemperatureIfReasonable (← pairAt moduleWide 0))
    else whenAt tempSupported moduleWide 0 decodeTemperature
  let supplyVoltage ←
    if isPreRev2p8 then (do return decodeVoltageIfReasonable (← pairAt moduleWide 4))
    else whenAt supplyVoltageSupported moduleWide 4 decodeSupplyVoltage
  let (rx, rs) ← next rs
  let receiverPower := some ((pairs rx).map (rxPower rxPowerIsAverage))
  let (txBias, rs) ← next rs
  let (txPower, _) ← next rs
  let bias := if txPowerSupported then some ((pairs txBias).map decodeBiasCurrent) else none
  let power := if txPowerSupported then some ((pairs txPower).map decodeOpticalPower) else none
  return { temperature, supplyVoltage, receiverPower, transmitterBiasCurrent := bias, transmitterPower := power,
           auxMonitors := none }

/-- `monitors.rs` 558-563 `tx_bias_scale`; the reserved value panics. -/
def biasScale (byte : U8) : Exec DecodeError Rat :=
  if (byte >>> 3) &&& 0b11 = 0b00 then .ok 1
  else if (byte >>> 3) &&& 0b11 = 0b01 then .ok 2
  else if (byte >>> 3) &&& 0b11 = 0b10 then .ok 4
  else .panic

/-- `monitors.rs` 544-695: the CMIS arm of `parse`. -/
def parseCmis (rs : List Bytes) : Exec DecodeError Monitors := do
  let (support, rs) ← next rs
  let byte ← first support
  let customSupported := byte &&& 0b00100000 != 0
  let aux3Supported := byte &&& 0b00010000 != 0
  let aux2Supported := byte &&& 0b00001000 != 0
  let aux1Supported := byte &&& 0b00000100 != 0
  let anyAuxSupported := byte &&& 0b00011111 != 0
  let voltageSupported := byte &&& 0b00000010 != 0
  let tempSupported := byte &&& 0b00000001 != 0
  let byte ← get support 1
  let txBiasScale ← biasScale byte
  let rxPowerSupported := byte &&& 0b100 != 0
  let txPowerSupported := byte &&& 0b010 != 0
  let txBiasSupported := byte &&& 0b001 != 0
  let (description, rs) ← next rs
  let observable ← first description
  let aux3IsVcc2 := observable &&& 0b100 != 0
  let aux2IsTec := observable &&& 0b010 != 0
  let aux1IsTec := observable &&& 0b001 != 0
  let rxType ← get description 6
  let rxPowerIsAverage := rxType &&& 0b00010000 != 0
  let (moduleWide, rs) ← next rs
  let temperature ← whenAt tempSupported moduleWide 0 decodeTemperature
  let supplyVoltage ← whenAt voltageSupported moduleWide 2 decodeSupplyVoltage
  let (aux, rs) ← next rs
  let aux1 ← whenAt aux1Supported aux 0 (decodeAux1 · aux1IsTec)
  let aux2 ← whenAt aux2Supported aux 2 (decodeAux2 · aux2IsTec)
  let aux3 ← whenAt aux3Supported aux 4 (decodeAux3 · aux3IsVcc2)
  let custom ← whenAt customSupported aux 6 id
  let auxMonitors := if anyAuxSupported then some { aux1, aux2, aux3, custom } else none
  let (txPower1, rs) ← next rs
  let (txPower2, rs) ← next rs
  let transmitterPower := if txPowerSupported then some ((pairs (txPower1 ++ txPower2)).map decodeOpticalPower) else none
  let (txBias1, rs) ← next rs
  let (txBias2, rs) ← next rs
  let transmitterBiasCurrent :=
    if txBiasSupported then some ((pairs (txBias1 ++ txBias2)).map fun b => single (decodeBiasCurrent b * txBiasScale)) else none
  let (rx1, rs) ← next rs
  let (rx2, _) ← next rs
  let receiverPower := if rxPowerSupported then some ((pairs (rx1 ++ rx2)).map (rxPower rxPowerIsAverage)) else none
  return { temperature, supplyVoltage, receiverPower, transmitterBiasCurrent, transmitterPower, auxMonitors }

/-- `monitors.rs` 437-698 `parse`. -/
def parse (id : Identifier) (rs : List Bytes) : Exec DecodeError Monitors := byKind id (parseSff rs) (parseCmis rs)

/-- `monitors.rs` 444-519: six calls of `next`; 547-672: ten. -/
def asks (id : Identifier) (rs : List Bytes) : Bool := asksByKind id (rs.length < 6) (rs.length < 10)

/-- `monitors.rs` 302 `impl ParseFromModule for Monitors`. -/
def decoder : ModuleDecoder Monitors := ⟨reads, parse, asks⟩

end Monitors

end Xcvr
