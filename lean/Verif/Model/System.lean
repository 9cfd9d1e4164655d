import Verif.Model.Ids

/-!
# The whole system: tasks that use one controller, the I/O loop, the network and the SP

Tasks call methods of one shared `Controller` (`Prog`). Every call takes a message id, puts the request on the channel of
the I/O loop, and waits for the answer on its one-shot channel. Steps of tasks, loop, network and SP interleave in any
order.

The environment is as follows. The network loses, delays, duplicates and reorders datagrams: once sent, a datagram may
arrive any number of times, at any later moment. The SP may receive any datagram the loop sent as a request, and sends
any datagrams in return. Anybody may send the host datagrams that are not responses, at any time.
-/

namespace Xcvr

/-- How far a task is with its current call. -/
inductive Phase where
  /-- About to make its next call. -/
  | ready
  /-- Has taken a message id (`next_header`, `controller.rs` 185-187) and is about to put the request on the channel, or
  waits for room there (1309-1312). -/
  | numbered (req : HostRpcRequest)
  /-- Waits for the answer (1313-1315). -/
  | waiting (chan : Chan) (req : HostRpcRequest)
  /-- The future was dropped. -/
  | cancelled
  deriving DecidableEq, Repr

/-- A task: what it has still to do, and its calls so far with their replies. -/
structure Task (α : Type) where
  prog : Prog α
  phase : Phase := .ready
  past : List (Call × Reply) := []

/-- The system. `mail` holds what was sent on one-shot channels, `wire` every datagram sent to the SP as a request, and
`spLog` every datagram the SP received with those it sent in return. -/
structure Sys (α : Type) where
  io : IoState
  counter : U64
  nextChan : Chan
  tasks : List (Task α)
  mail : List (Chan × Answer)
  wire : List Bytes
  spLog : List (Bytes × List Bytes)

inductive SysEvent where
  | number (i : Nat)
  | submit (i : Nat)
  | receive (i : Nat)
  | cancel (i : Nat)
  | sp (received : Bytes) (sent : List Bytes)
  | deliver (src : Addr) (bytes : Bytes) (sendOk : Bool)
  | noise (src : Addr) (bytes : Bytes) (sendOk : Bool)
  | loop (e : Event)
  deriving DecidableEq, Repr

namespace Sys

variable {α : Type}

/-- `Controller::new`, `controller.rs` 101-183: a fresh loop and a counter at zero; and some tasks. -/
def init (nRetries : Option Nat) (progs : List (Prog α)) : Sys α where
  io := IoState.init nRetries
  counter := 0
  nextChan := 0
  tasks := progs.map fun p => { prog := p }
  mail := []
  wire := []
  spLog := []

/-- The datagrams sent as requests. -/
def sent (acts : List Action) : List Bytes := acts.filterMap fun | .sendRequest _ pkt => some pkt | _ => none

/-- The answers put on one-shot channels. -/
def posted (acts : List Action) : List (Chan × Answer) := acts.filterMap fun | .answer c a => some (c, a) | _ => none

/-- One event of the I/O loop, with what it does to the rest. -/
def runLoop (s : Sys α) (e : Event) : Sys α :=
  let r := s.io.step e
  { s with io := r.1, wire := s.wire ++ sent r.2, mail := s.mail ++ posted r.2 }

/-- A datagram of kind `SpResponse`, as the loop sees it (`ioloop.rs` 798-883). -/
def isResponse (bytes : Bytes) : Bool :=
  match (dec (bytes.take maxPacketSize) : Option (Header × Bytes)) with
  | some (h, _) => h.messageKind == .spResponse
  | none => false

/-- The task's call gets a reply. -/
def resume (c : Call) (k : Reply → Prog α) (past : List (Call × Reply)) (r : Reply) : Task α :=
  { prog := k r, phase := .ready, past := past ++ [(c, r)] }

/-- One step; `none` if it is not possible. A request put on the channel of a loop that is gone is lost, and so is an
answer that a loop that is gone did not send (`controller.rs` 1309-1315). -/
def step (s : Sys α) : SysEvent → Option (Sys α)
  | .number i =>
    match s.tasks[i]? with
    | some ⟨.rpc c k, .ready, past⟩ =>
      let (header, counter) := nextHeader s.counter c.kind
      let req : HostRpcRequest := { header, message := c.message, data := c.data }
      some { s with counter, tasks := s.tasks.set i ⟨.rpc c k, .numbered req, past⟩ }
    | _ => none
  | .submit i =>
    match s.tasks[i]? with
    | some ⟨.rpc c k, .numbered req, past⟩ =>
      if s.io.status = .running then
        let s' := s.runLoop (.submit s.nextChan req)
        some { s' with nextChan := s.nextChan + 1, tasks := s.tasks.set i ⟨.rpc c k, .waiting s.nextChan req, past⟩ }
      else some { s with tasks := s.tasks.set i (resume c k past .gone) }
    | _ => none
  | .receive i =>
    match s.tasks[i]? with
    | some ⟨.rpc c k, .waiting chan _, past⟩ =>
      match s.mail.lookup chan with
      | some a => some { s with tasks := s.tasks.set i (resume c k past (.answer a)) }
      | none => if s.io.status = .running then none else some { s with tasks := s.tasks.set i (resume c k past .gone) }
    | _ => none
  | .cancel i =>
    match s.tasks[i]? with
    | some ⟨p, .waiting chan _, past⟩ =>
      some { s.runLoop (.dropCaller chan) with tasks := s.tasks.set i ⟨p, .cancelled, past⟩ }
    | some ⟨p, _, past⟩ => some { s with tasks := s.tasks.set i ⟨p, .cancelled, past⟩ }
    | none => none
  | .sp received out => if received ∈ s.wire then some { s with spLog := s.spLog ++ [(received, out)] } else none
  | .deliver src bytes sendOk =>
    if bytes ∈ s.spLog.flatMap Prod.snd then some (s.runLoop (.packet src bytes sendOk)) else none
  | .noise src bytes sendOk => if isResponse bytes then none else some (s.runLoop (.packet src bytes sendOk))
  | .loop e =>
    match e with
    | .submit .. | .dropCaller _ | .packet .. => none
    | e => some (s.runLoop e)

/-- A history of the system. -/
def run (s : Sys α) : List SysEvent → Option (Sys α)
  | [] => some s
  | e :: es =>
    match s.step e with
    | some s' => s'.run es
    | none => none

end Sys

end Xcvr
