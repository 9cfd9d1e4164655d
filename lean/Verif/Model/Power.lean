import Verif.Model.Controller
import Verif.Model.Decode.Power
import Verif.Model.Decode.Vendor
import Verif.Model.Decode.MemoryModel
import Verif.Model.Decode.Monitors
import Verif.Model.Decode.Datapath

/-! # `controller/src/controller.rs`: module information and power control -/

namespace Xcvr

/-- `lib.rs` 264-291 `PowerState`. -/
inductive PowerState where
  | off
  | low
  | high
  deriving DecidableEq, Repr

/-- `lib.rs` 307-323 `PowerMode`. -/
structure PowerMode where
  state : PowerState
  softwareOverride : Option Bool
  deriving DecidableEq, Repr

/-- `lib.rs` 325-332 `Default`. -/
def PowerMode.default : PowerMode := ⟨.off, none⟩

namespace Controller

/-- `controller.rs` 284-287 `vendor_info`. -/
def vendorInfo (m : ModuleId) : Prog (Res VendorInfo) := parseModulesByIdentifier VendorInfo.decoder m
/-- `controller.rs` 1153-1156 `memory_model`. -/
def memoryModel (m : ModuleId) : Prog (Res MemoryModel) := parseModulesByIdentifier MemoryModel.decoder m
/-- `controller.rs` 1159-1161 `monitors`. -/
def monitors (m : ModuleId) : Prog (Res Monitors) := parseModulesByIdentifier Monitors.decoder m
/-- `controller.rs` 1164-1166 `datapath`. -/
def datapath (m : ModuleId) : Prog (Res Datapath) := parseModulesByIdentifier Datapath.decoder m
/-- `controller.rs` 310-313 `power_control`. -/
def powerControl (m : ModuleId) : Prog (Res PowerControl) := parseModulesByIdentifier PowerControl.decoder m

/-- `Status::POWER_GOOD | Status::ENABLED`. -/
def poweredFlags : Status := Status.powerGood ||| Status.enabled

/-- The closure of `controller.rs` 414-441. -/
def modeOf (control : PowerControl) (status : Status) : PowerMode :=
  match control with
  | .overrideLpModePin lowPower => ⟨if lowPower then .low else .high, some true⟩
  | .useLpModePin => ⟨if status.contains Status.lowPowerMode then .low else .high, some false⟩

/-- `controller.rs` 396-450: the modes of the modules expected to be readable. -/
def readableModes (readable : ModuleId) (readableStatus : List Status) : Prog (Res PowerMode) := do
  if readable.count = 0 then return ModuleResult.default
  else
    let control ← powerControl readable
    let (_, readableStatus) := filterModuleData readable readableStatus fun index _ => control.modules.has index
    return ⟨control.modules, (control.data.zip readableStatus).map fun p => modeOf p.1 p.2, control.failures⟩

/-- `controller.rs` 351-473 `power`. `std::iter::repeat` zipped with the indices of `known_off` yields one item per
module. -/
def power (m : ModuleId) : Prog (Res PowerMode) := do
  let st ← status m
  let (powered, poweredStatus) := filterModuleData st.modules st.data fun _ s => s.contains poweredFlags
  let unpowered := st.modules.remove powered
  let (inReset, _) := filterModuleData powered poweredStatus fun _ s => s.contains Status.reset
  let (readable, readableStatus) := removeModuleData powered poweredStatus inReset
  let result ← readableModes readable readableStatus
  let allFailures := result.failures.merge st.failures
  let knownOff := unpowered.merge inReset
  let (allModules, allModes) :=
    mergeModuleData knownOff (List.replicate knownOff.count PowerMode.default) result.modules result.data
  return ⟨allModules, allModes, allFailures⟩

/-- `controller.rs` 773-821: where the power control byte is, and its new value. Both kinds use
`sff8636::Page::Lower`. -/
def powerWord (ident : Identifier) (withOverride low : Bool) : Exec CtlError (MemoryWrite × U8) :=
  if ident = Identifier.qsfpPlusSff8636 ∨ ident = Identifier.qsfp28 then
    match MemAccess.newWrite SffPage.lower 93 1 with
    | .error e => .err (.transceiver (.mgmt e))
    | .ok write =>
      let overrideBit : U8 := if withOverride then 0b01 else 0b00
      let stateBit : U8 := if low then 0b10 else 0b00
      .ok (write, stateBit ||| overrideBit)
  else if ident = Identifier.qsfpPlusCmis ∨ ident = Identifier.qsfpDD then
    match MemAccess.newWrite SffPage.lower 26 1 with
    | .error e => .err (.transceiver (.mgmt e))
    | .ok write =>
      let overrideBit : U8 := if withOverride then 0b00000000 else 0b01000000
      let stateBit : U8 := if low then 0b00010000 else 0b00000000
      .ok (write, stateBit ||| overrideBit)
  else .err (.transceiver (.decode (.unsupportedIdentifier ident)))

/-- State of the loops of `controller.rs` 744-833: `success_modules`, `power_mode`, `failures`. -/
structure SoftState where
  success : ModuleId
  modes : List PowerMode
  failures : FailedModules TransceiverError

/-- The body of the inner loop, `controller.rs` 767-832. -/
def softWrite (ident : Identifier) (low : Bool) (s : SoftState) (p : Bool × ModuleId) : Prog SoftState := do
  let (write, word) ← Prog.ofExec (powerWord ident p.1 low)
  let w ← writeImpl p.2 write [word]
  let (newModules, newModes) := removeModuleData p.2 s.modes w.failures.modules
  return ⟨newModules, newModes, s.failures.merge w.failures⟩

/-- The body of the outer loop, `controller.rs` 748-833. `modules.contains(id)` is on ids from `to_indices`. -/
def softKind (low : Bool) (s : SoftState) (kind : Identifier × ModuleId) : Prog SoftState := do
  let (withOverride, _) := filterModuleData s.success s.modes fun id mode =>
    kind.2.has id && mode.softwareOverride == some true
  let (withoutOverride, _) := filterModuleData kind.2 s.modes fun id mode =>
    kind.2.has id && !(mode.softwareOverride == some true)
  let s ← softWrite kind.1 low s (true, withOverride)
  softWrite kind.1 low s (false, withoutOverride)

/-- The outer loop. -/
def softKinds (low : Bool) : SoftState → List (Identifier × ModuleId) → Prog SoftState
  | s, [] => return s
  | s, kind :: kinds => do
    let s ← softKind low s kind
    softKinds low s kinds

/-- `controller.rs` 705-835 `set_software_power_state`; `low` tells `PowerState::Low` from `PowerState::High` (the
`assert!` of line 710 excludes `Off`, with which it is never called). -/
def setSoftwarePowerState (r : Res PowerMode) (low : Bool) : Prog (Res Unit) := do
  let ident ← identifier r.modules
  let split ← Prog.ofExec (splitModulesByIdentifier ident.modules ident.data)
  let (success, modes) := keepModuleData r.modules r.data ident.modules
  let s ← softKinds low ⟨success, modes, r.failures.merge ident.failures⟩ split
  return AckResult.new s.success s.failures

/-- `controller.rs` 488-511: powering off. -/
def setPowerOff (m : ModuleId) : Prog (Res Unit) := do
  let r₁ ← deassertLpMode m
  let r₂ ← assertReset r₁.modules
  let failures := r₁.failures.merge r₂.failures
  let r₃ ← disablePower r₂.modules
  return { r₃ with failures := failures.merge r₃.failures }

/-- `controller.rs` 570-593, 596-606 and 661-677: run a step on some modules if there are any; the result has the modules
the step succeeded on, or `modules` if there was nothing to do. -/
def stepIfAny (step : ModuleId → Prog (Res Unit)) (target modules : ModuleId)
    (failures : FailedModules TransceiverError) : Prog (ModuleId × FailedModules TransceiverError) := do
  if target.count > 0 then
    let r ← step target
    return (r.modules, failures.merge r.failures)
  else return (modules, failures)

/-- `controller.rs` 558-562: modules without power, or in reset. -/
def needsPower (s : Status) : Bool := !s.contains poweredFlags || s.contains Status.reset

/-- `controller.rs` 512-694: low or high power. -/
def setPowerOn (m : ModuleId) (low : Bool) : Prog (Res Unit) := do
  let pw ← power m
  if !low && pw.data.any (fun mode => mode.state = .off) then Prog.fail .invalidPowerStateTransition
  else
    let st ← status pw.modules
    let failures := pw.failures.merge st.failures
    let (needPower, _) := filterModuleData st.modules st.data fun _ s => needsPower s
    let (needReset, _) := filterModuleData st.modules st.data fun _ s => s.contains Status.reset
    let needPowerNotReset := needPower.remove needReset
    let (modules, failures) ← stepIfAny assertReset needPowerNotReset st.modules failures
    let (modules, failures) ← stepIfAny enablePower needPower modules failures
    let r ← if low then assertLpMode modules else deassertLpMode modules
    let failures := failures.merge r.failures
    let (modules, failures) ← stepIfAny deassertReset needPower r.modules failures
    let (_, modes) := keepModuleData pw.modules pw.data modules
    setSoftwarePowerState ⟨modules, modes, failures⟩ low

/-- `controller.rs` 479-696 `set_power`. -/
def setPower (m : ModuleId) : PowerState → Prog (Res Unit)
  | .off => setPowerOff m
  | .low => setPowerOn m true
  | .high => setPowerOn m false

end Controller

end Xcvr
