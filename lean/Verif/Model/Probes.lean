import Verif.Model.IoLoop
import Verif.Model.Debug

/-!
# `controller/src/lib.rs` 88-135, `controller/src/ioloop.rs`: the DTrace probes of the I/O loop

What an observer with DTrace sees of the loop: `fired` gives, in order, the probes that fire while the loop handles one
event. It goes along the functions of `Model/IoLoop.lean`, and changes nothing of what they do.

Simplifications: the pointer to the packet is represented by the bytes it points to, as many as the probe's `n_bytes`;
the duration of a timeout, which is always the interval of the retries, is left out.
-/

namespace Xcvr

/-- The strings given as the reason of `bad__message`, by the place in `ioloop.rs` that gives them. -/
inductive BadReason where
  /-- 834-836 -/
  | header
  /-- 852-854 -/
  | kind (k : MessageKind)
  /-- 305-310 -/
  | spRequest
  /-- 336-344 -/
  | mismatchedError (header message : MessageKind)
  /-- 373-376 -/
  | errorMessage
  /-- 431-436 -/
  | noRequest
  /-- 474 -/
  | response
  /-- 509-516 -/
  | mismatchedResponse (header message : MessageKind)
  /-- 574 -/
  | data (err : ProtocolError)
  /-- 612-614 -/
  | notOutstanding
  deriving DecidableEq, Repr

/-- `ioloop.rs` 725 and 744: the reasons of `message__dropped`. -/
inductive DropReason where
  | retries
  | faults
  deriving DecidableEq, Repr

/-- `lib.rs` 88-135: the probes. Addresses are those of hosts: `peer.ip()` drops the port. -/
inductive Probe where
  | packetReceived (peer : Nat) (nBytes : Nat) (data : Bytes)
  | packetSent (peer : Nat) (nBytes : Nat) (data : Bytes)
  | messageReceived (peer : Nat) (header : Header) (message : Message)
  | messageSent (peer : Nat) (header : Header) (message : Message)
  | messageMatched (header : Header) (request response : Message)
  | badMessage (peer : Nat) (reason : BadReason)
  | messageTimeout (header : Header) (message : Message)
  | messageDropped (header : Header) (message : Message) (reason : DropReason)
  deriving DecidableEq, Repr

/-- The host of a socket address, and the address of the SP (`peer_addr`, `ioloop.rs` 43). -/
structure Hosts where
  ip : Addr → Nat
  sp : Addr

/-- `#[derive(Debug)]` of `MessageKind`, `message.rs` 373-380. -/
def MessageKind.debugName : MessageKind → List Char
  | .error => chars!"Error"
  | .hostRequest => chars!"HostRequest"
  | .spResponse => chars!"SpResponse"
  | .spRequest => chars!"SpRequest"
  | .hostResponse => chars!"HostResponse"

/-- The reason as a string. `hub` is the `Debug` text of the error of `hubpack`. The string of lines 834-836 is not put
through `format!`, so it has the braces in it. -/
def BadReason.text (hub : List Char) : BadReason → List Char
  | .header => chars!"failed to deserialize header: {e:?}"
  | .kind k => chars!"invalid message kind: " ++ k.debugName
  | .spRequest => chars!"failed to deserialize SP request: " ++ hub
  | .mismatchedError h m => chars!"mismatched header and message kinds, header = " ++ h.debugName ++ chars!", message = " ++
      m.debugName
  | .errorMessage => chars!"failed to deserialize error message: " ++ hub
  | .noRequest => chars!"received response without an outstanding request"
  | .response => chars!"deserialization failed: " ++ hub
  | .mismatchedResponse h m => chars!"header message kind and actual message do not match, header = " ++ h.debugName ++
      chars!" message = " ++ m.debugName
  | .data err => err.debug.text
  | .notOutstanding => chars!"response for request that is not outstanding"

/-- The texts of `DropReason`. -/
def DropReason.text : DropReason → List Char
  | .retries => chars!"failed to send message within the retry limit"
  | .faults => chars!"received too many faulty messages"

namespace Probes

/-- Both probes of a packet that was sent: `ioloop.rs` 124-131, 206-213, 253-260. All three give `self.peer_addr` as the
peer. -/
def sent (hosts : Hosts) (header : Header) (message : Message) (pkt : Bytes) : List Probe :=
  [.packetSent (hosts.ip hosts.sp) pkt.length pkt, .messageSent (hosts.ip hosts.sp) header message]

/-- `ioloop.rs` 139-222 `send_outgoing_request`: the probes are on the path where sending succeeded. -/
def request (hosts : Hosts) (s : IoState) (sendOk : Bool) : List Probe :=
  match s.outstanding with
  | none => []
  | some o =>
    let pkt := IoState.requestPacket o.request
    if maxPacketSize < pkt.length then []
    else if sendOk then sent hosts o.request.header o.request.message pkt else []

/-- `ioloop.rs` 94-134 `send_outgoing_response`. -/
def response (hosts : Hosts) (r : HostRpcResponse) (sendOk : Bool) : List Probe :=
  let pkt := enc r.message ++ r.data.getD []
  if maxPacketSize < pkt.length then [] else if sendOk then sent hosts r.header r.message pkt else []

/-- `ioloop.rs` 225-264 `send_protocol_error`. -/
def protocolError (hosts : Hosts) (header : Header) (err : ProtocolError) (sendOk : Bool) : List Probe :=
  let message := Message.new (.error err)
  if sendOk then sent hosts header message (enc header ++ enc message) else []

/-- `ioloop.rs` 267-321 `handle_sp_request`. -/
def spRequest (hosts : Hosts) (peer : Addr) (header : Header) (rx : Bytes) (sendOk : Bool) : List Probe :=
  match (dec rx : Option (Message × Bytes)) with
  | some (message, _) => [.messageReceived (hosts.ip peer) header message]
  | none => .badMessage (hosts.ip peer) .spRequest ::
      protocolError hosts (Header.new header.messageId .error) .serialization sendOk

/-- `ioloop.rs` 323-383 `handle_sp_error`. -/
def spError (hosts : Hosts) (peer : Addr) (header : Header) (rx : Bytes) : List Probe :=
  match (dec rx : Option (Message × Bytes)) with
  | some (message, _) =>
    match message.body with
    | .error _ => [.messageReceived (hosts.ip peer) header message]
    | _ => [.badMessage (hosts.ip peer) (.mismatchedError header.messageKind message.kind)]
  | none => [.badMessage (hosts.ip peer) .errorMessage]

/-- `ioloop.rs` 552-609: the probe on a response that is too short. -/
def collected (hosts : Hosts) (peer : Addr) (r : SpResponse) (remainder : Bytes) : List Probe :=
  match r.expectedDataLen, r.expectedErrorDataLen with
  | none, none => []
  | dl, el =>
    let expectedLen := dl.getD 0 + el.getD 0
    if remainder.length < expectedLen then
      [.badMessage (hosts.ip peer)
        (.data (.wrongDataSize (BitVec.ofNat 32 expectedLen) (BitVec.ofNat 32 remainder.length)))]
    else []

/-- `ioloop.rs` 422-639 `handle_sp_response`. -/
def spResponse (hosts : Hosts) (s : IoState) (peer : Addr) (header : Header) (rx : Bytes) : List Probe :=
  match s.outstanding with
  | none => [.badMessage (hosts.ip peer) .noRequest]
  | some o =>
    match (dec rx : Option (Message × Bytes)) with
    | none => [.badMessage (hosts.ip peer) .response]
    | some (message, remainder) =>
      .messageReceived (hosts.ip peer) header message ::
      match message.body with
      | .spResponse r =>
        if o.request.header.messageId = header.messageId then
          .messageMatched o.request.header o.request.message message :: collected hosts peer r remainder
        else [.badMessage (hosts.ip peer) .notOutstanding]
      | _ => [.badMessage (hosts.ip peer) (.mismatchedResponse header.messageKind message.kind)]

/-- `ioloop.rs` 798-883: one datagram. -/
def packet (hosts : Hosts) (s : IoState) (peer : Addr) (bytes : Bytes) (sendOk : Bool) : List Probe :=
  let received := bytes.take maxPacketSize
  .packetReceived (hosts.ip peer) received.length received ::
  match (dec received : Option (Header × Bytes)) with
  | none => [.badMessage (hosts.ip peer) .header]
  | some (header, remainder) =>
    match header.messageKind with
    | .hostRequest | .hostResponse =>
      .badMessage (hosts.ip peer) (.kind header.messageKind) :: protocolError hosts header .wrongMessage sendOk
    | .error => spError hosts peer header remainder
    | .spRequest => spRequest hosts peer header remainder sendOk
    | .spResponse => spResponse hosts s peer header remainder

/-- `ioloop.rs` 676-698: a request is taken from the queue. -/
def accept (hosts : Hosts) (s : IoState) (sendOk : Bool) : List Probe :=
  match s.outstanding with
  | some _ => []
  | none =>
    match s.queue with
    | [] => []
    | (chan, req) :: queue =>
      request hosts { s with queue, outstanding := some { chan, request := req, nRetries := 0, nErrorMessages := 0 } } sendOk

/-- `ioloop.rs` 703-761: the resend timer. -/
def tick (hosts : Hosts) (s : IoState) (sendOk : Bool) : List Probe :=
  match s.outstanding with
  | none => []
  | some o =>
    .messageTimeout o.request.header o.request.message ::
      (if o.nRetries < s.limit ∧ o.nErrorMessages < numAllowedErrorMessages then request hosts s sendOk
       else if o.nRetries ≥ s.limit then [.messageDropped o.request.header o.request.message .retries]
       else [.messageDropped o.request.header o.request.message .faults])

/-- The probes of one event: `ioloop.rs` 672-886, the `select!`. -/
def fired (hosts : Hosts) (s : IoState) (e : Event) : List Probe :=
  if s.status ≠ .running then [] else
  match e with
  | .accept ok => accept hosts s ok
  | .tick ok => tick hosts s ok
  | .handlerReply (.ok (some r)) ok => response hosts r ok
  | .packet src bytes ok => packet hosts s src bytes ok
  | _ => []

/-- The probes of a history. -/
def history (hosts : Hosts) (s : IoState) : List Event → List Probe
  | [] => []
  | e :: es => fired hosts s e ++ history hosts (s.step e).1 es

end Probes

end Xcvr
