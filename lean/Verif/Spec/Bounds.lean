import Verif.Model.Ops
import Verif.Spec.Controller
import Verif.Spec.MemoryMap

/-! # Specification: how many requests a method may send -/

namespace Xcvr.Spec

open Xcvr Prog

/-- However the SP answers and however the program ends, it sends at most `n` requests. -/
def AtMost {α : Type} (n : Nat) (p : Prog α) : Prop := ∀ t o, Runs p t o → t.length ≤ n

/-- The requests to read `len` bytes of each of `n` modules, if an answer holds 1024 bytes. -/
def messagesFor (n len : Nat) : Nat := (n + (1024 / len - 1)) / (1024 / len)

/-- The most requests each method sends. Up to 64 modules of up to four kinds are each read in turn. -/
def requestsOf : Op → Nat
  | .identifier _ => 1
  | .vendorInfo _ => 23
  | .memoryModel _ => 9
  | .monitors _ => 33
  | .datapath _ => 41
  | .power _ => 6
  | .setPower _ .off => 3
  | .setPower _ _ => 20
  | .reset _ => 2
  | .write .. => 2
  | .read m rd => 1 + messagesFor 64 rd.len.toNat
  | _ => 1

end Xcvr.Spec
