import Verif.Model.Controller
import Verif.Spec.Results
import Verif.Spec.Wire
import Verif.Spec.IoLoop

/-!
# Specification: exchanges with the SP and what a result may say about them

An exchange is a call with its reply. The reply's bytes say, for each addressed port, either a record or an error code;
a result is right if it says the same for each port.
-/

namespace Xcvr.Spec

open Xcvr

/-- An exchange. -/
abbrev Exchange := Call × Reply

/-- Every port of `m` is in exactly one of `s` and `f`, and no other port is. -/
def Partition (m s f : ModuleId) : Prop := ∀ p, (Mem m p ↔ Mem s p ∨ Mem f p) ∧ ¬ (Mem s p ∧ Mem f p)

/-- Bytes per successful module in a response. -/
def recordSize : SpResponse → Nat
  | .read _ _ r => r.len.toNat
  | .status .. | .ledState .. => 1
  | .extendedStatus .. => 4
  | .write .. | .ack .. | .macAddrs .. => 0

/-- The record of port `p` in the bytes `d` after a response: records come first, in port order. -/
def record (R : SpResponse) (d : Bytes) (p : Nat) : Option Bytes :=
  match responseModules R with
  | some (s, _) => if Mem s p then some ((d.drop (rank s p * recordSize R)).take (recordSize R)) else none
  | none => none

/-- The error code of port `p`: one byte per failed module, in port order, after the records. -/
def errorCode (R : SpResponse) (d : Bytes) (p : Nat) : Option U8 :=
  match responseModules R with
  | some (s, f) => datum f (d.drop (card s * recordSize R)) p
  | none => none

/-- The hardware error of port `p` for an error code. -/
def hardwareError (p : Nat) (b : U8) : TransceiverError :=
  .hardware (BitVec.ofNat 8 p) (errorOfCode b).1 (errorOfCode b).2

/-- The request of an exchange. -/
def requestOf (x : Exchange) : Option HostRequest :=
  match x.1.message.body with
  | .hostRequest q => some q
  | _ => none

/-- The response of an exchange and the bytes after it. -/
def responseOf (x : Exchange) : Option (SpResponse × Option Bytes) :=
  match x.2 with
  | .answer (.ok resp) =>
    match resp.message.body with
    | .spResponse R => some (R, resp.data)
    | _ => none
  | _ => none

/-- The record the SP returned for port `p` in an exchange. -/
def okIn (x : Exchange) (p : Nat) : Option Bytes :=
  match responseOf x with
  | some (R, some d) => record R d p
  | _ => none

/-- The error the SP returned for port `p` in an exchange. -/
def errIn (x : Exchange) (p : Nat) : Option TransceiverError :=
  match responseOf x with
  | some (R, some d) => (errorCode R d p).map (hardwareError p)
  | _ => none

/-- The first record for port `p` in a series of exchanges. -/
def okAmong (t : List Exchange) (p : Nat) : Option Bytes := t.findSome? (okIn · p)

/-- The first error for port `p` in a series of exchanges. -/
def errAmong (t : List Exchange) (p : Nat) : Option TransceiverError := t.findSome? (errIn · p)

/-- The response is of the kind that belongs to the request; memory accesses are echoed. -/
def SameKind : HostRequest → SpResponse → Prop
  | .read _ r, .read _ _ r' => r' = r
  | .write _ w, .write _ _ w' => w' = w
  | .status _, .status .. => True
  | .extendedStatus _, .extendedStatus .. => True
  | .ledState _, .ledState .. => True
  | .macAddrs, .macAddrs _ => True
  | .assertReset _, .ack .. | .deassertReset _, .ack .. | .assertLpMode _, .ack .. | .deassertLpMode _, .ack ..
  | .enablePower _, .ack .. | .disablePower _, .ack .. | .clearPowerFault _, .ack .. | .setLedState _ _, .ack ..
  | .clearDisableLatch _, .ack .. | .managementInterface _ _, .ack .. => True
  | _, _ => False

/-- The meaning of an LED record: off, on or blinking. -/
def ledOfCode (b : Bytes) : Option LedState :=
  match b with
  | [x] => [LedState.off, .on, .blink][x.toNat]?
  | _ => none

/-- The value of an extended status record. -/
def word (b : Bytes) : U32 := BitVec.ofNat 32 (leVal b)

/-- Records use only the documented values: extended status has nine flags, LEDs three states. -/
def KnownValues (R : SpResponse) (d : Bytes) : Prop :=
  match R with
  | .extendedStatus s f =>
    ∀ p b, record (.extendedStatus s f) d p = some b → leVal b < 512
  | .ledState s f => ∀ p b, record (.ledState s f) d p = some b → (ledOfCode b).isSome
  | _ => True

/-- A proper answer to a request: of the right kind, each addressed module a success or a failure, with the matching
number of data bytes, and known values in them. -/
structure Answers (q : HostRequest) (R : SpResponse) (data : Option Bytes) : Prop where
  kind : SameKind q R
  split : ∀ m s f, requestModules q = some m → responseModules R = some (s, f) → Partition m s f
  size : data.map List.length = expectedTrailing R
  values : ∀ d, data = some d → KnownValues R d

/-- An exchange with a proper answer. -/
def Conforms (x : Exchange) : Prop :=
  ∃ q R data, requestOf x = some q ∧ responseOf x = some (R, data) ∧ Answers q R data

/-- All exchanges have proper answers. -/
def Conforming (t : List Exchange) : Prop := ∀ x ∈ t, Conforms x

/-- A result for the modules `m` says exactly what a series of exchanges said: each port of `m` once, as a success with
its record or as a failure with its error. -/
structure Reports {P : Type} (f : Bytes → P) (m : ModuleId) (t : List Exchange) (res : Res P) : Prop where
  wf : WF res
  split : Partition m res.modules res.failures.modules
  ok : ∀ p, okAt res p = (okAmong t p).map f
  err : ∀ p, errAt res p = errAmong t p

/-- A result for the modules `m` after several steps: `t₂` are the exchanges of the last step and `t₁` the earlier ones.
Each port of `m` is reported once, as a success with the record of the last step or as a failure with the error of the
step it failed in. -/
structure ReportsLast {P : Type} (f : Bytes → P) (m : ModuleId) (t₁ t₂ : List Exchange) (res : Res P) : Prop where
  wf : WF res
  split : Partition m res.modules res.failures.modules
  ok : ∀ p, okAt res p = (okAmong t₂ p).map f
  err : ∀ p, errAt res p = errAmong (t₁ ++ t₂) p

/-- The management interface of a module, by its identifier byte (SFF-8024 codes of the supported kinds). -/
def interfaceOfCode (b : U8) : Option ManagementInterface :=
  if b = 0x0d ∨ b = 0x11 then some .sff8636 else if b = 0x18 ∨ b = 0x1e then some .cmis else none

/-- Byte 0 of the lower page, which identifies the kind of module. -/
def identifierByte : MemoryRead := ⟨.sff8636 .lower, 0, 1⟩

/-- Module groups that, one after the other, list exactly the ports of `m`. -/
def Splits (m : ModuleId) (gs : List ModuleId) : Prop :=
  (∀ p, Mem m p ↔ ∃ g ∈ gs, Mem g p) ∧ gs.Pairwise (fun g g' => ∀ p q, Mem g p → Mem g' q → p < q) ∧
    ∀ g ∈ gs, ∃ p, Mem g p

/-- The calls of `t` are reads of `rd`, from groups that split `m`. -/
def ReadsOf (m : ModuleId) (rd : MemoryRead) (t : List Exchange) : Prop :=
  ∃ gs, Splits m gs ∧ t.map Prod.fst = gs.map fun g => Call.host (.read g rd)

/-- Requests that only look. -/
def IsQuery : HostRequest → Prop
  | .read .. | .status _ | .macAddrs | .ledState _ | .extendedStatus _ => True
  | _ => False

/-- Commands answered by an acknowledgement. -/
def IsCommand : HostRequest → Prop
  | .assertReset _ | .deassertReset _ | .assertLpMode _ | .deassertLpMode _ | .enablePower _ | .disablePower _
  | .clearPowerFault _ | .setLedState _ _ | .clearDisableLatch _ | .managementInterface _ _ => True
  | _ => False

end Xcvr.Spec
