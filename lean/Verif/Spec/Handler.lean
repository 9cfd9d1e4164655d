import Verif.Model.Handler
import Verif.Spec.IoLoop

/-! # Observations on the loop and its handler, for C82 and C83 -/

namespace Xcvr.Spec

open Xcvr

/-- The request of the SP that a datagram carries. -/
def spRequestOf (bytes : Bytes) : Option SpRpcRequest :=
  match headerOf bytes with
  | some (h, rest) =>
    if h.messageKind = .spRequest then (messageOf rest).map fun m => ⟨h, m.1, none⟩ else none
  | none => none

/-- The requests of the SP that arrive in a history. -/
def arrived (evs : List HostEvent) : List SpRpcRequest :=
  evs.filterMap fun | .io (.packet _ bytes _) => spRequestOf bytes | _ => none

/-- The requests the handler received. -/
def handed (acts : List Action) : List SpRpcRequest := acts.filterMap fun | .dispatch r => some r | _ => none

/-- The replies the handler gave. -/
def replied (evs : List HostEvent) : List HandlerReply := evs.filterMap fun | .take r => r | _ => none

/-- The replies the loop received, and whether the operating system let it send them on. -/
def drains (evs : List HostEvent) : List Bool := evs.filterMap fun | .drain ok => some ok | _ => none

/-- What is transmitted for a reply: nothing, or the message and the data. -/
def transmission (r : HandlerReply) (ok : Bool) : Option Bytes :=
  match r with
  | .ok (some r) => if ok then some (enc r.message ++ r.data.getD []) else none
  | _ => none

/-- The datagrams sent as replies. -/
def responsesSent (acts : List Action) : List Bytes := acts.filterMap fun | .sendResponse p => some p | _ => none

/-- The callers of the controller, in the order in which they submitted requests. -/
def hostSubmitted (evs : List HostEvent) : List Chan :=
  evs.filterMap fun | .io (.submit c _) => some c | _ => none

/-- The handler does not go away. -/
def keepsHandler (evs : List HostEvent) : Prop := HostEvent.io .dropHandler ∉ evs

/-- Whatever happens from here on, short of the handler going away, the loop never does anything again: it transmits
nothing, answers nobody, hands over nothing. -/
def Stalled (h : Host) : Prop :=
  ∀ evs h' acts, keepsHandler evs → h.run evs = some (h', acts) → h'.pending = h.pending ∧ acts = []

/-- The loop is back at its `select!` after a few steps of handler and channels, whatever the handler replies. -/
def Recovers (h : Host) : Prop :=
  ∀ r : Option HandlerReply, ∃ evs h' acts, (∀ e ∈ evs, e = .put ∨ e = .take r ∨ e = .reply) ∧ evs.length ≤ 3 ∧
    h.run evs = some (h', acts) ∧ h'.pending = none

end Xcvr.Spec
