import Verif.Spec.System
import Verif.Spec.Board
import Verif.Spec.Scope

/-!
# Specification: what the SP does to the board with the datagrams it receives

The SP of the whole system (`Spec/System.lean`) carries out the requests it receives on the board of `Spec/Board.lean`, in
the order it receives them, as often as it receives them. Its answer to a datagram tells of the effect of that datagram.
It may carry out a request and send no answer, or several.
-/

namespace Xcvr.Spec

open Xcvr

/-- A datagram carries the request `q` with the bytes `d` after it. -/
def Received (pkt : Bytes) (q : HostRequest) (d : Bytes) : Prop :=
  ∃ (h : Header) (rest : Bytes) (m : Message), dec pkt = some (h, rest) ∧ dec rest = some (m, d) ∧ m.body = .hostRequest q

/-- Receiving the datagram `x.1`, and sending `x.2`, takes the board from `b` to `c`. -/
structure LogStep (x : Bytes × List Bytes) (b c : BoardState) : Prop where
  executed : ∀ q d, Received x.1 q d → ∀ pkt ∈ x.2, ∀ resp, Says pkt resp →
    ∀ p, StepsAt (Call.host q (some d), .answer (.ok resp)) p (b p) (c p)
  quiet : ∀ q d, Received x.1 q d → ∀ p, IsQuery q ∨ ¬ Names q p → c p = b p

/-- What the SP received takes the board from `b` to `b'`. -/
def LogEvolves : BoardState → List (Bytes × List Bytes) → BoardState → Prop
  | b, [], b' => b' = b
  | b, x :: log, b' => ∃ c : BoardState, LogStep x b c ∧ LogEvolves c log b'

/-- The same for port `p` alone: receiving the datagram `x.1`, and sending `x.2`, takes it from `s` to `s'`. -/
structure LogStepAt (p : Nat) (x : Bytes × List Bytes) (s s' : PortState) : Prop where
  executed : ∀ q d, Received x.1 q d → ∀ pkt ∈ x.2, ∀ resp, Says pkt resp →
    StepsAt (Call.host q (some d), .answer (.ok resp)) p s s'
  quiet : ∀ q d, Received x.1 q d → IsQuery q ∨ ¬ Names q p → s' = s

/-- What the SP received takes port `p` from `s` to `s'`. -/
def LogEvolvesAt (p : Nat) : PortState → List (Bytes × List Bytes) → PortState → Prop
  | s, [], s' => s' = s
  | s, x :: log, s' => ∃ c : PortState, LogStepAt p x s c ∧ LogEvolvesAt p c log s'

/-- A program that makes no requests but queries. -/
def Looks {α : Type} (p : Prog α) : Prop :=
  ∀ t o, Prog.Runs p t o → ∀ x ∈ t, ∃ q, requestOf x = some q ∧ IsQuery q

/-- A program that makes requests and nothing else. -/
def Requests {α : Type} (p : Prog α) : Prop := ∀ t o, Prog.Runs p t o → ∀ x ∈ t, ∃ q, requestOf x = some q

/-- A program that makes requests and nothing else, and none to change port `p`, if all answers are about the modules they
are asked for. -/
structure Spares {α : Type} (prog : Prog α) (p : Nat) : Prop where
  requests : Requests prog
  spares : ∀ t o, Prog.Runs prog t o → (∀ x ∈ t, OnTopic x) →
    ∀ x ∈ t, ∀ q, requestOf x = some q → IsQuery q ∨ ¬ Names q p

/-- Some task's program asked for a change of port `p`, or is about to, and all answers the task had were about what it
asked. -/
def AsksToChange {α : Type} (progs : List (Prog α)) (s : Sys α) (p : Nat) : Prop :=
  ∃ (i : Nat) (tk : Task α) (prog : Prog α) (t : List Exchange) (o : Exec CtlError α), s.tasks[i]? = some tk ∧
    progs[i]? = some prog ∧ Prog.Runs prog (tk.past ++ t) o ∧ (∀ x ∈ t, x.2 = .gone) ∧
    (∀ x ∈ tk.past ++ t, OnTopic x) ∧ ∃ x ∈ tk.past ++ t, ∃ q, requestOf x = some q ∧ ¬ IsQuery q ∧ Names q p

/-- The SP received no datagram that is to change something more than once. -/
def ChangesOnce (log : List (Bytes × List Bytes)) : Prop :=
  ∀ pkt q d, Received pkt q d → ¬ IsQuery q → (log.map Prod.fst).count pkt ≤ 1

/-- No copy of a datagram that is to change something was received after another datagram that came after a copy of it. -/
def InOrder (log : List (Bytes × List Bytes)) : Prop :=
  ∀ a x q d, Received a q d → ¬ IsQuery q → x ≠ a → ¬ [a, x, a].Sublist (log.map Prod.fst)

/-- Among the datagrams is an answer that acknowledges the request for port `p`. -/
def SaysOk (out : List Bytes) (p : Nat) : Prop :=
  ∃ pkt ∈ out, ∃ resp c, Says pkt resp ∧ (okIn (c, .answer (.ok resp)) p).isSome

/-- What is to change something is acknowledged for the same ports each time it is received. -/
def Alike (log : List (Bytes × List Bytes)) : Prop :=
  ∀ x ∈ log, ∀ y ∈ log, x.1 = y.1 → ∀ q d, Received x.1 q d → ¬ IsQuery q → ∀ p, SaysOk x.2 p → SaysOk y.2 p

/-- `InOrder` for what is to change port `p`. -/
def InOrderAt (p : Nat) (log : List (Bytes × List Bytes)) : Prop :=
  ∀ a x q d, Received a q d → ¬ IsQuery q → Names q p → x ≠ a → ¬ [a, x, a].Sublist (log.map Prod.fst)

/-- `Alike` for port `p`. -/
def AlikeAt (p : Nat) (log : List (Bytes × List Bytes)) : Prop :=
  ∀ x ∈ log, ∀ y ∈ log, x.1 = y.1 → ∀ q d, Received x.1 q d → ¬ IsQuery q → Names q p → SaysOk x.2 p → SaysOk y.2 p

/-- The network loses and delays datagrams to the SP, but neither copies them nor changes their order. -/
def Fifo {α : Type} (s : Sys α) : Prop := (s.spLog.map Prod.fst).Sublist s.wire

end Xcvr.Spec
