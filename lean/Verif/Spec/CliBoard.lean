import Verif.Spec.CliMain
import Verif.Spec.Board
import Verif.Spec.Power

/-! # Specification: what a command of the tool is to bring about -/

namespace Xcvr.Spec

open Xcvr Cli

/-- The lines of failures name port `p`. -/
def Lined (fails : List (U8 × TransceiverError)) (p : Nat) : Prop := ∃ i e, (i, e) ∈ fails ∧ i.toNat = p

/-- What a command that acts is to bring about at a port: the power state asked for; a module out of reset, with its other
pins as before; or the effect of the one request that the command stands for. -/
def Settled (cmd : Cmd) (s s' : PortState) : Prop :=
  match cmd with
  | .setPower st => s'.power = st
  | .reset => SamePins { s with reset := false } s'
  | _ => ∃ q d, Changes cmd q d ∧ Effect q (d.getD []) s s'

/-- Each status answer shows all modules in need of power, or none. -/
def EvenPower (t : List Exchange) : Prop :=
  ∀ x ∈ t, ∀ g, requestOf x = some (.status g) →
    (∀ q s, okIn x q = some [s] → ¬ NeedsPower s) ∨ ∀ q s, okIn x q = some [s] → NeedsPower s

end Xcvr.Spec
