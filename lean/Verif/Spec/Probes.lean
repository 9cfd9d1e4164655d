import Verif.Model.Probes

/-!
# What an observer of the probes may expect
-/

namespace Xcvr.Spec

/-- The packets that go out, whatever they are. -/
def Action.onWire : Action → Option Bytes
  | .sendRequest _ pkt => some pkt
  | .sendError _ pkt => some pkt
  | .sendResponse pkt => some pkt
  | _ => none

/-- What the probe of a sent packet says. -/
def sentPacket : Probe → Option (Nat × Nat × Bytes)
  | .packetSent peer n data => some (peer, n, data)
  | _ => none

/-- What the probe of a received packet says. -/
def receivedPacket : Probe → Option (Nat × Nat × Bytes)
  | .packetReceived peer n data => some (peer, n, data)
  | _ => none

/-- The datagrams of a history that come in while the loop runs, each with its sender. -/
def takenIn (s : IoState) : List Event → List (Addr × Bytes)
  | [] => []
  | .packet src bytes ok :: es =>
    (if s.status = .running then [(src, bytes)] else []) ++ takenIn (s.step (.packet src bytes ok)).1 es
  | e :: es => takenIn (s.step e).1 es

def isBad : Probe → Bool
  | .badMessage _ _ => true
  | _ => false

def isReceived : Probe → Bool
  | .messageReceived _ _ _ => true
  | _ => false

/-- A datagram with nothing wrong about it, in a given state of the loop: an error message, any message that comes as a
request, or a response to the outstanding request with at least the data that it announces. -/
def WellFormed (s : IoState) (bytes : Bytes) : Prop :=
  ∃ (h : Header) (m : Message) (r1 r2 : Bytes),
    dec (bytes.take maxPacketSize) = some (h, r1) ∧ dec r1 = some (m, r2) ∧
    ((h.messageKind = .error ∧ m.kind = .error) ∨
     h.messageKind = .spRequest ∨
     (h.messageKind = .spResponse ∧ ∃ o r, s.outstanding = some o ∧ o.request.header.messageId = h.messageId ∧
        m.body = .spResponse r ∧ r.expectedDataLen.getD 0 + r.expectedErrorDataLen.getD 0 ≤ r2.length))

end Xcvr.Spec
