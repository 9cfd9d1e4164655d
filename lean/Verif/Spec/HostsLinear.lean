import Verif.Spec.Hosts
import Verif.Spec.Linear

/-!
# Specification: one order for the calls of several hosts

A task is named by the number of its host and its number there.
-/

namespace Xcvr.Spec

open Xcvr

/-- The calls of host `k` in `order`. -/
def hostCalls (k : Nat) (order : List ((Nat × Nat) × Exchange)) : List (Nat × Exchange) :=
  (order.filter (·.1.1 == k)).map fun x => (x.1.2, x.2)

/-- No copy of a datagram that is to change port `p` is received after another datagram that was received after it, from
whatever host. Equal datagrams of different hosts are no copies. -/
def AllInOrderAt (p : Nat) (log : List (Nat × Bytes × List Bytes)) : Prop :=
  ∀ k a x q d, Received a q d → ¬ IsQuery q → Names q p → x ≠ (k, a) →
    ¬ [(k, a), x, (k, a)].Sublist (log.map fun y => (y.1, y.2.1))

/-- Copies of a datagram that is to change port `p` are acknowledged alike. -/
def AllAlikeAt (p : Nat) (log : List (Nat × Bytes × List Bytes)) : Prop :=
  ∀ x ∈ log, ∀ y ∈ log, x.1 = y.1 → x.2.1 = y.2.1 → ∀ q d, Received x.2.1 q d → ¬ IsQuery q → Names q p →
    SaysOk x.2.2 p → SaysOk y.2.2 p

/-- `order` has the calls the tasks had answers to in state `s`, and, of those they wait for, some. -/
def SoFar {α : Type} (s : Sys α) (order : List (Nat × Exchange)) : Prop :=
  ∀ (i : Nat) (tk : Task α), s.tasks[i]? = some tk →
    callsOf i order = tk.past.filter answeredOk ∨
    ∃ c k chan req r, tk.prog = .rpc c k ∧ tk.phase = .waiting chan req ∧
      callsOf i order = tk.past.filter answeredOk ++ [(c, r)]

/-- Host `k` was in state `s` at some time when the SP had received the first `n` datagrams of `log`. -/
def WasIn {α : Type} (log : List (Nat × Bytes × List Bytes)) (n k : Nat) (h : Host α) (s : Sys α) : Prop :=
  ∃ e₁ e₂, h.evs = e₁ ++ e₂ ∧ (Sys.init h.lim h.progs).run e₁ = some s ∧
    s.spLog.length = ((log.take n).filter (·.1 == k)).length

end Xcvr.Spec
