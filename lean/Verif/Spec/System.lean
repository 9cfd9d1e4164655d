import Verif.Model.System
import Verif.Spec.Controller

/-! # Specification: what the SP did for a call -/

namespace Xcvr.Spec

open Xcvr

/-- The SP labels each response with the id of the request it answers. -/
def Echoes (received : Bytes) (out : List Bytes) : Prop :=
  ∀ pkt ∈ out, ∀ h rest, headerOf pkt = some (h, rest) → h.messageKind = .spResponse →
    ∃ (h' : Header) (rest' : Bytes), dec received = some (h', rest') ∧ h'.messageId = h.messageId

/-- Every datagram the SP receives in a history is answered as `P` says. -/
def SpDoes (P : Bytes → List Bytes → Prop) (evs : List SysEvent) : Prop :=
  ∀ received out, SysEvent.sp received out ∈ evs → P received out

/-- Calls that took a message id. -/
def numbered (evs : List SysEvent) : Nat := evs.countP fun | .number _ => true | _ => false

/-- The bytes of a call with id `id`: header, message and data. -/
def callBytes (id : U64) (c : Call) : Bytes := enc (Header.new id c.kind) ++ enc c.message ++ c.data.getD []

/-- The datagram `pkt` says `resp`: its header, its message, and as many of the bytes after that as its message calls
for. -/
def Says (pkt : Bytes) (resp : SpRpcResponse) : Prop :=
  ∃ rest trailing body, headerOf pkt = some (resp.header, rest) ∧ messageOf rest = some (resp.message, trailing) ∧
    resp.header.messageKind = .spResponse ∧ resp.message.body = .spResponse body ∧
    match expectedTrailing body with
    | some n => n ≤ trailing.length ∧ resp.data = some (trailing.take n)
    | none => resp.data = none

/-- The SP received the exact bytes of the call `c`, and sent `resp` in return. -/
def Served (log : List (Bytes × List Bytes)) (c : Call) (resp : SpRpcResponse) : Prop :=
  ∃ id out pkt, (callBytes id c, out) ∈ log ∧ pkt ∈ out ∧ Says pkt resp ∧ resp.header.messageId = id

/-- An SP that answers requests properly: the bytes after each response are at least those called for, and with those
it is a proper answer to the request received. -/
def Proper (received : Bytes) (out : List Bytes) : Prop :=
  Echoes received out ∧
  ∀ pkt ∈ out, ∀ resp (h : Header) (rest : Bytes) (m : Message) D q body, Says pkt resp → resp.message.body = .spResponse body →
    dec received = some (h, rest) → dec rest = some (m, D) → m.body = .hostRequest q →
    Answers q body resp.data

end Xcvr.Spec
