import Verif.Spec.SysBoard

/-!
# Specification: several hosts, one SP

Each host has its own loop, socket and message ids; ids of different hosts may well be the same. The SP serves the
datagrams of all of them, one after the other, in any order.
-/

namespace Xcvr.Spec

open Xcvr

/-- A host at some moment of its history, in which the SP answered properly. -/
structure Host (α : Type) where
  lim : Option Nat
  progs : List (Prog α)
  evs : List SysEvent
  state : Sys α
  ran : (Sys.init lim progs).run evs = some state
  proper : SpDoes Proper evs
  few : numbered evs ≤ 2 ^ 64

/-- All that the SP received, from all hosts, with the number of the host. For each host, it is what that host's history
has. -/
structure Together (hosts : List (Sigma Host)) (log : List (Nat × Bytes × List Bytes)) : Prop where
  known : ∀ x ∈ log, x.1 < hosts.length
  own : ∀ k h, hosts[k]? = some h → (log.filter (·.1 == k)).map Prod.snd = h.2.state.spLog

/-- What the SP received, from all hosts, takes the board from `b` to `b'`. -/
def AllEvolve (b : BoardState) (log : List (Nat × Bytes × List Bytes)) (b' : BoardState) : Prop :=
  LogEvolves b (log.map Prod.snd) b'

/-- All tasks, on all hosts, but task `j` of host `k`, are not to change the port. -/
def OthersSpare (hosts : List (Sigma Host)) (k j port : Nat) : Prop :=
  ∀ k' h, hosts[k']? = some h → ∀ j' p, h.2.progs[j']? = some p → (k', j') ≠ (k, j) → Spares p port

/-- No task on any host is to change the port. -/
def AllSpare (hosts : List (Sigma Host)) (port : Nat) : Prop :=
  ∀ h ∈ hosts, ∀ p ∈ h.2.progs, Spares p port

end Xcvr.Spec
