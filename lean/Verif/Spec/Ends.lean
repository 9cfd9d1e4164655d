import Verif.Model.System
import Verif.Spec.Bounds

/-! # Specification: an operation comes to its end -/

namespace Xcvr.Spec

open Xcvr

variable {α : Type}

/-- The task has still something to do. -/
def Unfinished (tk : Task α) : Prop := tk.phase ≠ .cancelled ∧ ∃ c k, tk.prog = .rpc c k

/-- The event is one the tool itself brings about, and brings it forward: a task makes a call, puts it on the channel or
takes its answer; the loop takes the next request, or its timer runs out while a request is outstanding. -/
def Works (s : Sys α) : SysEvent → Bool
  | .number _ | .submit _ | .receive _ => true
  | .loop (.accept _) => s.io.status == .running && s.io.outstanding.isNone && !s.io.queue.isEmpty
  | .loop (.tick _) => s.io.status == .running && s.io.outstanding.isSome
  | _ => false

/-- The number of such events in a history. -/
def work (s : Sys α) : List SysEvent → Nat
  | [] => 0
  | e :: es => (if Works s e then 1 else 0) + (match s.step e with
    | some s' => work s' es
    | none => 0)

end Xcvr.Spec
