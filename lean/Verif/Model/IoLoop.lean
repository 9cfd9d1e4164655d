import Verif.Model.Message

/-!
# `controller/src/ioloop.rs`, `controller/src/messages.rs`: the I/O loop

The loop is a state machine driven by events. `tokio::select!` picks among ready branches in an unspecified order, so
any order of events is a possible history. The UDP socket is represented by arbitrary received datagrams, by receive
errors, and by a flag on each event that may send, telling whether the operating system accepts the datagram. The
`resend` interval is represented by `tick` events at arbitrary moments.

Simplifications: time itself is not modelled; `n_error_messages` is unbounded (the code's `usize` would need 2^64 faulty
packets to overflow); a UDP `send_to` that succeeds sends the whole datagram (the code asserts it); waiting for room in
the request handler's channel (`ioloop.rs` 292-295) is one step, so a handler that never makes room shows up as a history
that ends there; log messages are dropped, and DTrace probes are in `Model/Probes.lean`.
-/

namespace Xcvr

/-- `messages.rs` 17-22 `HostRpcRequest`. -/
structure HostRpcRequest where
  header : Header
  message : Message
  data : Option Bytes
  deriving DecidableEq, Repr

/-- `messages.rs` 25-31 `SpRpcResponse`. -/
structure SpRpcResponse where
  header : Header
  message : Message
  data : Option Bytes
  deriving DecidableEq, Repr

/-- `messages.rs` 34-39 `SpRpcRequest`. -/
structure SpRpcRequest where
  header : Header
  message : Message
  data : Option Bytes
  deriving DecidableEq, Repr

/-- `messages.rs` 45-50 `HostRpcResponse`. -/
structure HostRpcResponse where
  header : Header
  message : Message
  data : Option Bytes
  deriving DecidableEq, Repr

/-- The identity of a caller's one-shot channel (`response_tx`). -/
abbrev Chan := Nat

/-- A socket address; only its identity matters. -/
abbrev Addr := Nat

/-- The `Error` variants (`lib.rs` 188-242) the I/O loop itself produces. -/
inductive IoError where
  | io
  | protocol (e : ProtocolError)
  | maxRetries (n : Nat)
  | maxFaultMessages (n : Nat)
  deriving DecidableEq, Repr

/-- What is sent on a caller's one-shot channel. -/
abbrev Answer := Except IoError SpRpcResponse

/-- `messages.rs` 53-73 `OutstandingHostRequest`. -/
structure Outstanding where
  chan : Chan
  request : HostRpcRequest
  nRetries : Nat
  nErrorMessages : Nat
  deriving DecidableEq, Repr

/-- Effects of the loop. The channel on `sendRequest` is an annotation saying whose request was put on the wire. -/
inductive Action where
  | sendRequest (chan : Chan) (pkt : Bytes)
  | sendError (to : Addr) (pkt : Bytes)
  | sendResponse (pkt : Bytes)
  | dispatch (req : SpRpcRequest)
  | answer (chan : Chan) (a : Answer)
  deriving DecidableEq, Repr

/-- Whether the I/O task is still alive. -/
inductive IoStatus where
  | running
  | exited
  | panicked
  deriving DecidableEq, Repr

/-- `ioloop.rs` 37-65 `IoLoop`, with its environment: the queue of `outgoing_request_rx` (a bounded `mpsc` channel whose
waiting senders are served first come first served), whether all its senders are gone, the callers that dropped their
end of the one-shot channel, and whether the handler's receiver is gone. -/
structure IoState where
  limit : Nat
  outstanding : Option Outstanding
  queue : List (Chan × HostRpcRequest)
  closed : Bool
  dropped : List Chan
  handlerGone : Bool
  status : IoStatus
  deriving DecidableEq, Repr

/-- `lib.rs` `NUM_ALLOWED_ERROR_MESSAGES`. -/
def numAllowedErrorMessages : Nat := 5

/-- `usize::MAX` on a 64-bit target. -/
def usizeMax : Nat := 2 ^ 64 - 1

/-- `ioloop.rs` 69-91 `IoLoop::new`. -/
def IoState.init (nRetries : Option Nat) : IoState where
  limit := nRetries.getD usizeMax
  outstanding := none
  queue := []
  closed := false
  dropped := []
  handlerGone := false
  status := .running

/-- Events. The first four are moves of the environment, the rest are the branches of the `select!`. -/
inductive Event where
  | submit (chan : Chan) (req : HostRpcRequest)
  | dropCaller (chan : Chan)
  | closeRequests
  | dropHandler
  | accept (sendOk : Bool)
  | tick (sendOk : Bool)
  | handlerReply (r : Except Unit (Option HostRpcResponse)) (sendOk : Bool)
  | packet (src : Addr) (bytes : Bytes) (sendOk : Bool)
  | recvError
  deriving DecidableEq, Repr

namespace IoState

/-- A panic in the task. -/
def die (s : IoState) : IoState × List Action := ({ s with status := .panicked }, [])

/-- `self.outstanding_request.take().expect(..).response_tx.send(a).expect(..)`, as in `ioloop.rs` 190-195, 413-418,
632-637, 728-742 and 758: sending on a one-shot channel whose receiver is gone is an error, and the code panics on it. -/
def answerOutstanding (s : IoState) (o : Outstanding) (a : Answer) : IoState × List Action :=
  let s' := { s with outstanding := none }
  if s.dropped.contains o.chan then s'.die else (s', [.answer o.chan a])

/-- The bytes of a request, `ioloop.rs` 145-167: header, message, data. -/
def requestPacket (r : HostRpcRequest) : Bytes := enc r.header ++ enc r.message ++ r.data.getD []

/-- `ioloop.rs` 139-222 `send_outgoing_request`. Serializing or copying past the end of `tx_buf` panics. -/
def sendOutgoingRequest (s : IoState) (sendOk : Bool) : IoState × List Action :=
  match s.outstanding with
  | none => s.die
  | some o =>
    let pkt := requestPacket o.request
    if maxPacketSize < pkt.length then s.die
    else if sendOk then
      ({ s with outstanding := some { o with nRetries := o.nRetries + 1 } }, [.sendRequest o.chan pkt])
    else s.answerOutstanding o (.error .io)

/-- `ioloop.rs` 94-134 `send_outgoing_response`: only the message and the data are serialized. -/
def sendOutgoingResponse (s : IoState) (r : HostRpcResponse) (sendOk : Bool) : IoState × List Action :=
  let pkt := enc r.message ++ r.data.getD []
  if maxPacketSize < pkt.length then s.die
  else (s, if sendOk then [.sendResponse pkt] else [])

/-- `ioloop.rs` 225-264 `send_protocol_error`. -/
def sendProtocolError (s : IoState) (peer : Addr) (header : Header) (err : ProtocolError) (sendOk : Bool) :
    IoState × List Action :=
  (s, if sendOk then [.sendError peer (enc header ++ enc (Message.new (.error err)))] else [])

/-- `ioloop.rs` 267-321 `handle_sp_request`. -/
def handleSpRequest (s : IoState) (peer : Addr) (header : Header) (rx : Bytes) (sendOk : Bool) :
    IoState × List Action :=
  match (dec rx : Option (Message × Bytes)) with
  | some (message, _) =>
    if s.handlerGone then s.die else (s, [.dispatch { header, message, data := none }])
  | none => s.sendProtocolError peer (Header.new header.messageId .error) .serialization sendOk

/-- `ioloop.rs` 386-395 `increment_faulty_message_count`. -/
def incrementFaulty (s : IoState) : IoState :=
  { s with outstanding := s.outstanding.map fun o => { o with nErrorMessages := o.nErrorMessages + 1 } }

/-- `ioloop.rs` 405-419 `fail_matching_outstanding_request`. -/
def failMatching (s : IoState) (header : Header) (err : ProtocolError) : IoState × List Action :=
  match s.outstanding with
  | none => (s, [])
  | some o =>
    if o.request.header.messageId ≠ header.messageId then (s, [])
    else s.answerOutstanding o (.error (.protocol err))

/-- `ioloop.rs` 323-383 `handle_sp_error`. -/
def handleSpError (s : IoState) (header : Header) (rx : Bytes) : IoState × List Action :=
  match (dec rx : Option (Message × Bytes)) with
  | some (message, _) =>
    match message.body with
    | .error err => s.incrementFaulty.failMatching header err
    | _ => (s.incrementFaulty, [])
  | none => s.incrementFaulty.failMatching header .serialization

/-- `ioloop.rs` 552-609: the answer to a matching response. The `u32::try_from(..).unwrap()` of lines 571-591 cannot
fail, because both lengths are below 2^16; they are modelled as truncations. -/
def collectResponse (header : Header) (message : Message) (response : SpResponse) (remainder : Bytes) : Answer :=
  match response.expectedDataLen, response.expectedErrorDataLen with
  | none, none => .ok { header, message, data := none }
  | dl, el =>
    let expectedLen := dl.getD 0 + el.getD 0
    if remainder.length < expectedLen then
      .error (.protocol (.wrongDataSize (BitVec.ofNat 32 expectedLen) (BitVec.ofNat 32 remainder.length)))
    else .ok { header, message, data := some (remainder.take expectedLen) }

/-- `ioloop.rs` 422-639 `handle_sp_response`. Line 484 indexes `rx_buf[0]`, which panics if nothing follows the
header. -/
def handleSpResponse (s : IoState) (header : Header) (rx : Bytes) : IoState × List Action :=
  match s.outstanding with
  | none => (s, [])
  | some o =>
    match (dec rx : Option (Message × Bytes)) with
    | none =>
      match rx with
      | [] => s.die
      | messageVersion :: _ =>
        let err : ProtocolError :=
          if messageVersion < innerMin then .versionMismatch innerCurrent messageVersion else .serialization
        s.incrementFaulty.failMatching header err
    | some (message, remainder) =>
      match message.body with
      | .spResponse response =>
        if o.request.header.messageId = header.messageId then
          s.answerOutstanding o (collectResponse header message response remainder)
        else (s, [])
      | _ => s.failMatching header .wrongMessage

/-- `ioloop.rs` 798-883: one datagram. `recv_from` drops what does not fit in `rx_buf`. -/
def handlePacket (s : IoState) (peer : Addr) (bytes : Bytes) (sendOk : Bool) : IoState × List Action :=
  match (dec (bytes.take maxPacketSize) : Option (Header × Bytes)) with
  | none => (s.incrementFaulty, [])
  | some (header, remainder) =>
    match header.messageKind with
    | .hostRequest | .hostResponse => s.incrementFaulty.sendProtocolError peer header .wrongMessage sendOk
    | .error => s.handleSpError header remainder
    | .spRequest => s.handleSpRequest peer header remainder sendOk
    | .spResponse => s.handleSpResponse header remainder

/-- `ioloop.rs` 676-698: dequeue a request, only if none is outstanding. `rpc` (`controller.rs` 1303-1308) submits
requests with both counters at zero. -/
def handleAccept (s : IoState) (sendOk : Bool) : IoState × List Action :=
  match s.outstanding with
  | some _ => (s, [])
  | none =>
    match s.queue with
    | [] => (if s.closed then { s with status := .exited } else s, [])
    | (chan, request) :: queue =>
      { s with queue, outstanding := some { chan, request, nRetries := 0, nErrorMessages := 0 } }.sendOutgoingRequest
        sendOk

/-- `ioloop.rs` 703-761: the resend timer, only if a request is outstanding. -/
def handleTick (s : IoState) (sendOk : Bool) : IoState × List Action :=
  match s.outstanding with
  | none => (s, [])
  | some o =>
    let atRetryLimit := o.nRetries ≥ s.limit
    let atErrorLimit := o.nErrorMessages ≥ numAllowedErrorMessages
    if ¬ atRetryLimit ∧ ¬ atErrorLimit then s.sendOutgoingRequest sendOk
    else if atRetryLimit then s.answerOutstanding o (.error (.maxRetries o.nRetries))
    else s.answerOutstanding o (.error (.maxFaultMessages o.nErrorMessages))

/-- `ioloop.rs` 764-795: a reply of the request handler. -/
def handleReply (s : IoState) (r : Except Unit (Option HostRpcResponse)) (sendOk : Bool) : IoState × List Action :=
  match r with
  | .ok (some r) => s.sendOutgoingResponse r sendOk
  | .ok none => (s, [])
  | .error _ => (s, [])

/-- One event. A task that exited or panicked handles nothing more; its environment goes on. -/
def step (s : IoState) (e : Event) : IoState × List Action :=
  match e with
  | .submit chan req => ({ s with queue := s.queue ++ [(chan, req)] }, [])
  | .dropCaller chan => ({ s with dropped := chan :: s.dropped }, [])
  | .closeRequests => ({ s with closed := true }, [])
  | .dropHandler => ({ s with handlerGone := true }, [])
  | e =>
    if s.status ≠ .running then (s, []) else
    match e with
    | .accept ok => s.handleAccept ok
    | .tick ok => s.handleTick ok
    | .handlerReply r ok => s.handleReply r ok
    | .packet src bytes ok => s.handlePacket src bytes ok
    | .recvError => (s.incrementFaulty, [])
    | _ => (s, [])

/-- A history of events, and everything the loop did. `ioloop.rs` 672: the `loop`. -/
def run (s : IoState) : List Event → IoState × List Action
  | [] => (s, [])
  | e :: es =>
    let (s₁, a₁) := s.step e
    let (s₂, a₂) := s₁.run es
    (s₂, a₁ ++ a₂)

end IoState

end Xcvr
