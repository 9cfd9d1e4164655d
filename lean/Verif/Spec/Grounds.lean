import Verif.Spec.Power
import Verif.Model.CliMain

/-!
# Specification: why an operation fails as a whole

Besides the errors in results there are errors that end an operation. Each must have its grounds in what happened: the
last request was not answered, the last answer was no proper answer, or modules answered earlier that what is asked cannot
be done with them. Nothing is assumed about the SP.
-/

namespace Xcvr.Spec

open Xcvr

/-- The last exchange. -/
def Last (t : List Exchange) (x : Exchange) : Prop := ∃ t', t = t' ++ [x]

/-- The last request got no answer, but an error from the request loop. -/
def NoAnswer (t : List Exchange) (e : CtlError) : Prop :=
  ∃ c err, Last t (c, .answer (.error err)) ∧ e = .ofIo err

/-- A response of the kind that belongs to the request; memory accesses are not compared. -/
def OfKind : HostRequest → MessageBody → Prop
  | .read .., .spResponse (.read ..) => True
  | .write .., .spResponse (.write ..) => True
  | .status _, .spResponse (.status ..) => True
  | .extendedStatus _, .spResponse (.extendedStatus ..) => True
  | .ledState _, .spResponse (.ledState ..) => True
  | .macAddrs, .spResponse (.macAddrs _) => True
  | q, .spResponse (.ack ..) => IsCommand q
  | _, _ => False

/-- The bytes after a response are too few for the errors of the failed modules. -/
def Truncated (r : SpRpcResponse) : Prop :=
  ∃ R s f d, r.message.body = .spResponse R ∧ responseModules R = some (s, f) ∧ r.data = some d ∧
    (d.drop (card s * recordSize R)).length < card f

/-- The last answer was of the wrong kind, or had too few bytes, or told a bad range of addresses. -/
def BadAnswer (t : List Exchange) (e : CtlError) : Prop :=
  ∃ c r q, Last t (c, .answer (.ok r)) ∧ requestOf (c, .answer (.ok r)) = some q ∧
    ((¬ OfKind q r.message.body ∧ e = .unexpectedMessage r.message.body) ∨
      (Truncated r ∧ ∃ expected actual, actual < expected ∧ e = .protocol (.wrongDataSize expected actual)) ∨
      (∃ bad, r.message.body = .spResponse (.macAddrs (.error bad)) ∧ e = .mac bad))

/-- In some exchange port `p` was asked for its identifier and answered `b`. -/
def Identifies (t : List Exchange) (p : Nat) (b : U8) : Prop :=
  ∃ x ∈ t, ∃ m, requestOf x = some (.read m identifierByte) ∧ okIn x p = some [b]

/-- In some exchange port `p` was reported to be without power or in reset. -/
def SeenOff (t : List Exchange) (p : Nat) : Prop :=
  ∃ x ∈ t, ∃ m s, requestOf x = some (.status m) ∧ okIn x p = some [s] ∧ NeedsPower s

/-- Some module is of a kind that is not supported. -/
def UnknownKind (t : List Exchange) (e : CtlError) : Prop :=
  ∃ p b, Identifies t p b ∧ interfaceOfCode b = none ∧ e = .transceiver (.decode (.unsupportedIdentifier (Bf.ofByte b)))

/-- Some module does not have the interface that is needed. -/
def OtherInterface (iface : ManagementInterface) (t : List Exchange) (e : CtlError) : Prop :=
  ∃ p : U8, ∃ b, Identifies t p.toNat b ∧ interfaceOfCode b ≠ some iface ∧
    e = .transceiver (.invalidInterfaceForModule p (Bf.ofByte b) iface)

/-- Some module would go from off to high power. -/
def FromOff (t : List Exchange) (e : CtlError) : Prop := (∃ p, SeenOff t p) ∧ e = .invalidPowerStateTransition

/-- What may be wrong with an operation on modules that answer properly. -/
def OpGrounds : Op → List Exchange → CtlError → Prop
  | .read _ rd, t, e => OtherInterface rd.page.managementInterface t e
  | .write _ w data, t, e =>
    OtherInterface w.page.managementInterface t e ∨
      (w.len.toNat ≠ data.length ∧ e = .invalidWriteData w.len.toNat data.length)
  | .vendorInfo _, t, e | .memoryModel _, t, e | .monitors _, t, e | .datapath _, t, e | .power _, t, e
  | .setPower _ .low, t, e => UnknownKind t e
  | .setPower _ .high, t, e => UnknownKind t e ∨ FromOff t e
  | _, _, _ => False

/-- The grounds of an error that ends an operation. -/
def Grounds (op : Op) (t : List Exchange) (e : CtlError) : Prop := NoAnswer t e ∨ BadAnswer t e ∨ OpGrounds op t e

/-- Every request but the last was answered, and if the last was not, the operation ends with the error there is
instead of the answer. -/
def Stops {α : Type} (t : List Exchange) (o : Exec CtlError α) : Prop :=
  ∀ t₁ t₂ c err, t = t₁ ++ (c, .answer (.error err)) :: t₂ → t₂ = [] ∧ o = .err (.ofIo err)

/-- What may be wrong with a selection of modules. -/
def SelectionGrounds : Cli.Transceivers → List Exchange → CtlError → Prop
  | .powerState _, t, e => UnknownKind t e
  | _, _, _ => False

/-- What may be wrong with a command of the tool. -/
def CommandGrounds : Cli.Cmd → List Exchange → CtlError → Prop
  | .readLower cmis .., t, e | .writeLower cmis .., t, e | .readUpper cmis .., t, e | .writeUpper cmis .., t, e =>
    OtherInterface (if cmis then .cmis else .sff8636) t e
  | .vendorInfo _, t, e | .memoryModel _, t, e | .monitors _, t, e | .datapath, t, e | .power _, t, e
  | .setPower .low, t, e => UnknownKind t e
  | .setPower .high, t, e => UnknownKind t e ∨ FromOff t e
  | _, _, _ => False

/-- The grounds of an error that ends a run of the tool. -/
def ToolGrounds (sel : Option Cli.Transceivers) (cmd : Cli.Cmd) (t : List Exchange) (e : CtlError) : Prop :=
  NoAnswer t e ∨ BadAnswer t e ∨ SelectionGrounds (sel.getD .all) t e ∨ CommandGrounds cmd t e

/-- As `Stops`, except that the `status` command asks for the plain status if the extended status is not answered. -/
def StopsBut {α : Type} (cmd : Cli.Cmd) (t : List Exchange) (o : Exec CtlError α) : Prop :=
  ∀ t₁ t₂ c err, t = t₁ ++ (c, .answer (.error err)) :: t₂ → (t₂ = [] ∧ o = .err (.ofIo err)) ∨
    ((∃ w wo a p out sep h, cmd = .status w wo a p out sep h) ∧
      ∃ m r t₃, requestOf (c, r) = some (.extendedStatus m) ∧ t₂ = (Call.host (.status m), r) :: t₃)

end Xcvr.Spec
