import Verif.Model.IoLoop

/-!
# The I/O loop together with the handler of SP requests

Requests from the SP go to the user's handler through a bounded channel, and the replies come back through another one.
Both ends wait while a channel is full. While the loop waits for room in the handler's channel it does nothing else,
because `handle_sp_request` is awaited inside a branch of the `select!`.

Simplifications: what the handler computes is arbitrary, and is fixed when it takes a request; a handler works on at most
`width` requests at a time, `width = 1` being one that finishes each request before it takes the next.
-/

namespace Xcvr

/-- `messages.rs` 93: what a handler sends on `response_tx`. Which `Error` it sends makes no difference. -/
abbrev HandlerReply := Except Unit (Option HostRpcResponse)

/-- `lib.rs` 333 `NUM_OUTSTANDING_REQUESTS`. -/
def numOutstandingRequests : Nat := 1

/-- The loop, the two channels and the handler. -/
structure Host where
  io : IoState
  /-- Capacity of the channel given to `Controller::new` (`controller.rs` 111-115). -/
  capacity : Nat
  /-- How many requests the handler works on at a time. -/
  width : Nat
  /-- The request the loop is waiting to put on the handler's channel (`ioloop.rs` 292-295). -/
  pending : Option SpRpcRequest
  /-- Contents of the handler's channel. -/
  incoming : List SpRpcRequest
  /-- Replies the handler is waiting to put on the channel back. -/
  holding : List HandlerReply
  /-- Contents of the channel back, whose capacity is `NUM_OUTSTANDING_REQUESTS` (`ioloop.rs` 78). -/
  responses : List HandlerReply
  deriving DecidableEq, Repr

inductive HostEvent where
  /-- An event of the loop or of its callers, or the end of the handler. -/
  | io (e : Event)
  /-- The loop's request gets into the handler's channel. -/
  | put
  /-- The handler takes a request; it will reply, or not. -/
  | take (reply : Option HandlerReply)
  /-- A reply of the handler gets into the channel back. -/
  | reply
  /-- The loop receives a reply. -/
  | drain (sendOk : Bool)
  deriving DecidableEq, Repr

namespace Host

/-- `Controller::new` (`controller.rs` 111-183) and `IoLoop::new` (`ioloop.rs` 69-91). -/
def init (nRetries : Option Nat) (capacity width : Nat) : Host where
  io := IoState.init nRetries
  capacity
  width
  pending := none
  incoming := []
  holding := []
  responses := []

/-- The request a step of the loop has for the handler (`ioloop.rs` 283-295). -/
def dispatched (acts : List Action) : Option SpRpcRequest := acts.findSome? fun | .dispatch r => some r | _ => none

/-- What a step of the loop does at once. -/
def immediate (acts : List Action) : List Action := acts.filter fun | .dispatch _ => false | _ => true

/-- A branch of the `select!` (`ioloop.rs` 672-883). It is not polled while the loop waits for the handler. -/
def branch (h : Host) (e : Event) : Option (Host × List Action) :=
  if h.pending.isSome then none
  else
    let r := h.io.step e
    some ({ h with io := r.1, pending := dispatched r.2 }, immediate r.2)

/-- One step; `none` if it is not possible. The action `dispatch` stands for the handler receiving a request.
If the handler goes away while the loop waits, the `expect` of `ioloop.rs` 295 panics. -/
def step (h : Host) : HostEvent → Option (Host × List Action)
  | .io (.submit c r) => some ({ h with io := (h.io.step (.submit c r)).1 }, [])
  | .io (.dropCaller c) => some ({ h with io := (h.io.step (.dropCaller c)).1 }, [])
  | .io .closeRequests => some ({ h with io := (h.io.step .closeRequests).1 }, [])
  | .io .dropHandler =>
    let io := (h.io.step .dropHandler).1
    some ({ h with io := if h.pending.isSome then { io with status := .panicked } else io,
                   pending := none, incoming := [], holding := [] }, [])
  | .io (.handlerReply ..) => none
  | .io e => h.branch e
  | .put =>
    match h.pending with
    | some r =>
      if h.incoming.length < h.capacity then some ({ h with pending := none, incoming := h.incoming ++ [r] }, [])
      else none
    | none => none
  | .take reply =>
    match h.incoming with
    | r :: rest =>
      if h.holding.length < h.width then
        some ({ h with incoming := rest, holding := h.holding ++ reply.toList }, [.dispatch r])
      else none
    | [] => none
  | .reply =>
    match h.holding with
    | r :: rest =>
      if h.io.status ≠ .running then some ({ h with holding := rest }, [])
      else if h.responses.length < numOutstandingRequests then
        some ({ h with holding := rest, responses := h.responses ++ [r] }, [])
      else none
    | [] => none
  | .drain sendOk =>
    match h.responses with
    | r :: rest => if h.io.status ≠ .running then none else { h with responses := rest }.branch (.handlerReply r sendOk)
    | [] => none

/-- A history, and everything that was done. -/
def run (h : Host) : List HostEvent → Option (Host × List Action)
  | [] => some (h, [])
  | e :: es =>
    match h.step e with
    | none => none
    | some (h₁, a₁) =>
      match h₁.run es with
      | none => none
      | some (h₂, a₂) => some (h₂, a₁ ++ a₂)

end Host

end Xcvr
