import Verif.Model.IoLoop
import Verif.Spec.Ports

/-! # Observations on histories of the I/O loop, for C21-C31 -/

namespace Xcvr.Spec

open Xcvr

/-- The callers, in the order in which they submitted requests. -/
def submitted (evs : List Event) : List Chan := evs.filterMap fun | .submit c _ => some c | _ => none

/-- The callers, in the order in which they were given an answer. -/
def answered (acts : List Action) : List Chan := acts.filterMap fun | .answer c _ => some c | _ => none

/-- The datagrams put on the wire for caller `c`, in order. -/
def sentFor (c : Chan) (acts : List Action) : List Bytes :=
  acts.filterMap fun | .sendRequest c' pkt => if c' = c then some pkt else none | _ => none

/-- The caller an action concerns: whose request is transmitted or answered. -/
def concerns : Action → Option Chan
  | .sendRequest c _ => some c
  | .answer c _ => some c
  | _ => none

/-- Number of timer ticks in a history. -/
def ticks (evs : List Event) : Nat := evs.countP fun | .tick _ => true | _ => false

/-- Header and rest of a received datagram, as far as it fits the 1060-byte receive buffer. -/
def headerOf (bytes : Bytes) : Option (Header × Bytes) := dec (bytes.take 1060)

/-- The message after a header, with what follows it. -/
def messageOf (rest : Bytes) : Option (Message × Bytes) := dec rest

/-- A faulty message: a receive error, a datagram without a header, one of a kind the peer must not send, an error
message (well-formed or not), or a response whose message does not decode. -/
def faulty : Event → Bool
  | .recvError => true
  | .packet _ bytes _ =>
    match headerOf bytes with
    | none => true
    | some (h, rest) =>
      match h.messageKind with
      | .hostRequest | .hostResponse | .error => true
      | .spRequest => false
      | .spResponse => (messageOf rest).isNone
  | _ => false

/-- Number of faulty messages in a history. -/
def faults (evs : List Event) : Nat := evs.countP faulty

/-- The bytes expected after a response: one record per successful module, then one error byte per failed module. -/
def expectedTrailing : SpResponse → Option Nat
  | .read m f r => some (card m * r.len.toNat + card f)
  | .status m f => some (card m + card f)
  | .extendedStatus m f => some (card m * 4 + card f)
  | .ledState m f => some (card m + card f)
  | .write _ f _ | .ack _ f => some (card f)
  | .macAddrs _ => none

/-- The loop after a history that starts with a fresh loop. -/
def after (nRetries : Option Nat) (evs : List Event) : IoState := ((IoState.init nRetries).run evs).1

/-- Everything the loop did in a history that starts with a fresh loop. -/
def effects (nRetries : Option Nat) (evs : List Event) : List Action := ((IoState.init nRetries).run evs).2

/-- What the loop does on one more event. -/
def next (nRetries : Option Nat) (evs : List Event) (e : Event) : List Action := ((after nRetries evs).step e).2

/-- The retry limit of a loop configured with `nRetries`: none means the largest `usize`. -/
def limitOf (nRetries : Option Nat) : Nat := nRetries.getD (2 ^ 64 - 1)

end Xcvr.Spec
