import Verif.Model.IoLoop
import Verif.Model.Ident

/-!
# Operations of the controller as programs that make remote calls

`Controller` (`controller/src/controller.rs`) talks to the SP only through `rpc`: each method is a sequence of calls
whose replies decide how it goes on. A `Prog` is such a method, with the reply to each call left open. What the I/O loop
does with a call is modelled in `IoLoop.lean`.

Not modelled here: waiting (`sleep`), logging, and the message id, which `Ids.lean` adds. Concurrent use of one
`Controller` interleaves the calls of several programs; each program is still a sequence of calls and replies.
-/

namespace Xcvr

/-- `lib.rs` 155-186 `TransceiverError`. -/
inductive TransceiverError where
  | hardware (moduleIndex : U8) (source : HwError) (unknown : Option Unknowns)
  | decode (e : DecodeError)
  | mgmt (e : MgmtError)
  | port (e : InvalidPort)
  | invalidInterfaceForModule (moduleIndex : U8) (identifier : Identifier) (interface : ManagementInterface)
  deriving DecidableEq, Repr

/-- `lib.rs` 188-244 `Error`: the variants `Controller`'s methods return. -/
inductive CtlError where
  | protocol (e : ProtocolError)
  | io
  | maxRetries (n : Nat)
  | maxFaultMessages (n : Nat)
  | unexpectedMessage (b : MessageBody)
  | invalidWriteData (expected actual : Nat)
  | invalidPowerStateTransition
  | mac (e : BadMacAddrRange)
  | transceiver (e : TransceiverError)
  deriving DecidableEq, Repr

/-- The errors the I/O loop answers with are variants of the same enum. -/
def CtlError.ofIo : IoError → CtlError
  | .io => .io
  | .protocol e => .protocol e
  | .maxRetries n => .maxRetries n
  | .maxFaultMessages n => .maxFaultMessages n

/-- A request before it gets its message id: the message kind of its header, its message and its data. -/
structure Call where
  kind : MessageKind
  message : Message
  data : Option Bytes
  deriving DecidableEq, Repr

/-- A call that sends a `HostRequest`: `Message::from(request)` in every method. -/
def Call.host (r : HostRequest) (data : Option Bytes := none) : Call :=
  ⟨.hostRequest, Message.new (.hostRequest r), data⟩

/-- What becomes of a call: an answer on the one-shot channel, or the I/O task is gone. -/
inductive Reply where
  | answer (a : Answer)
  | gone
  deriving DecidableEq, Repr

/-- A method of `Controller`. -/
inductive Prog (α : Type) where
  | ret (a : α)
  | fail (e : CtlError)
  | panic
  | rpc (c : Call) (k : Reply → Prog α)

namespace Prog

variable {α β : Type}

/-- Rust `?`. -/
def bind : Prog α → (α → Prog β) → Prog β
  | ret a, f => f a
  | fail e, _ => fail e
  | panic, _ => panic
  | rpc c k, f => rpc c fun r => (k r).bind f

instance : Monad Prog where
  pure := ret
  bind := bind

/-- A computation that makes no call. -/
def ofExec : Exec CtlError α → Prog α
  | .ok a => ret a
  | .err e => fail e
  | .panic => panic

/-- `controller.rs` 1301-1316 `rpc`: panics if the I/O task is gone (`unwrap` 1312, `expect` 1315). -/
def call (c : Call) : Prog SpRpcResponse :=
  .rpc c fun
    | .gone => .panic
    | .answer (.ok r) => .ret r
    | .answer (.error e) => .fail (.ofIo e)

/-- One possible run of a program: the calls it made with their replies, and how it ended. -/
def Runs : Prog α → List (Call × Reply) → Exec CtlError α → Prop
  | ret a, [], o => o = .ok a
  | fail e, [], o => o = .err e
  | panic, [], o => o = .panic
  | rpc c k, (c', r) :: t, o => c' = c ∧ Runs (k r) t o
  | _, _, _ => False

/-- Run a program against an SP that answers call number `n` after the history `h` with `sp h c`. -/
def exec (sp : List (Call × Reply) → Call → Reply) (h : List (Call × Reply)) :
    Prog α → List (Call × Reply) × Exec CtlError α
  | ret a => ([], .ok a)
  | fail e => ([], .err e)
  | panic => ([], .panic)
  | rpc c k =>
    let r := sp h c
    let x := (k r).exec sp (h ++ [(c, r)])
    ((c, r) :: x.1, x.2)

end Prog

end Xcvr
