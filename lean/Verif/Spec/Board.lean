import Verif.Spec.Power

/-!
# Specification: how a board of modules behaves

The state of a port is its three pins, its LED and the memory of its module. A request that the SP acknowledges for a
port has its effect there. A command that fails for a port may have had any effect on that port. A query has none. No
request has an effect on a port it does not name.

A supply that is enabled is taken to come up (status bit 5, power good, follows bit 1, enabled). The registers of the
module hold what is written to them. Reset and power may change the module's memory in any way.
-/

namespace Xcvr.Spec

open Xcvr

/-- The state of a port. The lower page is the same memory, however it is named. -/
structure PortState where
  enabled : Bool
  reset : Bool
  lowPin : Bool
  led : LedState
  lower : Nat → U8
  upper : Page → Nat → U8

/-- The memory of the module in a port. -/
def PortState.memory (s : PortState) : ModuleMemory := fun page a => if isLower page then s.lower a else s.upper page a

/-- Bytes with those from address `start` on replaced by `d`. -/
def overwrite (old : Nat → U8) (start : Nat) (d : Bytes) (a : Nat) : U8 :=
  if start ≤ a then d.getD (a - start) (old a) else old a

/-- A port after a write to its module's memory. -/
def PortState.store (s : PortState) (w : MemoryWrite) (d : Bytes) : PortState :=
  if isLower w.page then { s with lower := overwrite s.lower w.offset.toNat d }
  else { s with upper := fun page => if page = w.page then overwrite (s.upper page) w.offset.toNat d else s.upper page }

/-- The power state of a port: off without power or in reset, and otherwise as the module's control byte says, which may
leave it to the low power pin. -/
def PortState.power (s : PortState) : PowerState :=
  if s.enabled = false ∨ s.reset = true then .off
  else match controlIn s.memory with
    | some (.overrideLpModePin low) => if low then .low else .high
    | _ => if s.lowPin then .low else .high

/-- The same pins and LED; the memory may differ. -/
def SamePins (s s' : PortState) : Prop :=
  s'.enabled = s.enabled ∧ s'.reset = s.reset ∧ s'.lowPin = s.lowPin ∧ s'.led = s.led

/-- The effect of a request, with its data, that the SP acknowledged for the port. -/
def Effect (q : HostRequest) (d : Bytes) (s s' : PortState) : Prop :=
  match q with
  | .assertReset _ => SamePins { s with reset := true } s'
  | .deassertReset _ => SamePins { s with reset := false } s'
  | .enablePower _ => SamePins { s with enabled := true } s'
  | .disablePower _ => SamePins { s with enabled := false } s'
  | .assertLpMode _ => s' = { s with lowPin := true }
  | .deassertLpMode _ => s' = { s with lowPin := false }
  | .setLedState _ l => s' = { s with led := l }
  | .write _ w => s' = s.store w d
  | _ => s' = s

/-- The request names port `p`. -/
def Names (q : HostRequest) (p : Nat) : Prop := ∃ m, requestModules q = some m ∧ Mem m p

/-- What an answer to a query shows of a port: status bits, the LED, or memory. -/
def Shows (q : HostRequest) (b : Bytes) (s : PortState) : Prop :=
  match q with
  | .status _ => ∀ v, b = [v] → bit v 1 = s.enabled ∧ bit v 5 = s.enabled ∧ bit v 2 = s.reset ∧ bit v 3 = s.lowPin
  | .ledState _ => ledOfCode b = some s.led
  | .read _ rd => b = answer s.memory rd
  | .extendedStatus _ => (word b).getLsbD 1 = s.enabled ∧ (word b).getLsbD 5 = s.enabled ∧ (word b).getLsbD 2 = s.reset ∧
      (word b).getLsbD 3 = s.lowPin
  | _ => True

/-- One exchange takes port `p` from `s` to `s'`. -/
structure StepsAt (x : Exchange) (p : Nat) (s s' : PortState) : Prop where
  shows : ∀ q b, requestOf x = some q → okIn x p = some b → Shows q b s
  quiet : ∀ q, requestOf x = some q → IsQuery q ∨ ¬ Names q p → s' = s
  effect : ∀ q b, requestOf x = some q → okIn x p = some b → Effect q (x.1.data.getD []) s s'

/-- The exchanges `t` take port `p` from `s` to `s'`. -/
def EvolvesAt (p : Nat) : PortState → List Exchange → PortState → Prop
  | s, [], s' => s' = s
  | s, x :: t, s' => ∃ c : PortState, StepsAt x p s c ∧ EvolvesAt p c t s'

/-- The states of all ports. -/
abbrev BoardState := Nat → PortState

/-- The exchanges `t` take the board from `b` to `b'`. -/
def Evolves : BoardState → List Exchange → BoardState → Prop
  | b, [], b' => b' = b
  | b, x :: t, b' => ∃ c : BoardState, (∀ p, StepsAt x p (b p) (c p)) ∧ Evolves c t b'

end Xcvr.Spec
