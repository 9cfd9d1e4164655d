import Verif.Spec.SysBoard

/-!
# Specification: calls of several tasks, one after the other

The calls of tasks that use one controller at the same time are put in a single order.
-/

namespace Xcvr.Spec

open Xcvr

/-- The call has its answer. -/
def answeredOk (x : Exchange) : Bool :=
  match x.2 with
  | .answer (.ok _) => true
  | _ => false

/-- The calls of task `i` in `order`. -/
def callsOf {ι : Type} [DecidableEq ι] (i : ι) (order : List (ι × Exchange)) : List Exchange :=
  (order.filter (·.1 == i)).map Prod.snd

/-- `order` has all the calls of the tasks that were answered, those of each task in the order it made them, and nothing
else. -/
structure Ordered {α : Type} (tasks : List (Task α)) (order : List (Nat × Exchange)) : Prop where
  calls : ∀ (i : Nat) (tk : Task α), tasks[i]? = some tk → callsOf i order = tk.past.filter answeredOk
  only : ∀ x ∈ order, x.1 < tasks.length

/-- The task had an answer to every call, and has no more to make. -/
def Finished {α : Type} (tk : Task α) : Prop := (∀ x ∈ tk.past, answeredOk x = true) ∧ ∀ c k, tk.prog ≠ .rpc c k

/-- `order` can be cut where the history was in state `s`: before the cut are the calls that had an answer, and of those that
tasks waited for, some. The calls made later are after it. -/
def CutAt {α : Type} (s : Sys α) (order : List (Nat × Exchange)) : Prop :=
  ∃ l₁ l₂, order = l₁ ++ l₂ ∧ ∀ (i : Nat) (tk : Task α), s.tasks[i]? = some tk →
    callsOf i l₁ = tk.past.filter answeredOk ∨
    ∃ c k chan req r, tk.prog = .rpc c k ∧ tk.phase = .waiting chan req ∧
      callsOf i l₁ = tk.past.filter answeredOk ++ [(c, r)]

end Xcvr.Spec
