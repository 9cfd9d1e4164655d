import Verif.Model.Debug
import Verif.Spec.ErrText

/-!
# Specification: reading the `Debug` text of a message

A reader in two stages: from text to names and fields in brackets, and from these to a message.
-/

namespace Xcvr.Spec

open Xcvr

/-- Letters, digits and underscores. -/
def isWordChar (c : Char) : Bool := c.isAlphanum || c = '_'

/-- The bracket that follows a name, if any, and the rest. -/
def readOpening : List Char → Option (Brackets × List Char)
  | '(' :: s => some (.round, s)
  | '[' :: s => some (.square, s)
  | ' ' :: '{' :: ' ' :: s => some (.curly, s)
  | _ => none

/-- The name of a field, if fields have names. -/
def readLabel (b : Brackets) (s : List Char) : Option (List Char × List Char) :=
  match b with
  | .curly => (afterWords chars!": " (s.dropWhile isWordChar)).map (s.takeWhile isWordChar, ·)
  | _ => some ([], s)

mutual
/-- Read a value at the start of a text, in at most so many steps. -/
def readDbg : Nat → List Char → Option (Dbg × List Char)
  | 0, _ => none
  | n + 1, s =>
    match readOpening (s.dropWhile isWordChar) with
    | none => if s.takeWhile isWordChar = [] then none else some (.word (s.takeWhile isWordChar), s.dropWhile isWordChar)
    | some (b, r) =>
      match readFields n b r with
      | some (fs, r) => (afterWords b.closing r).map (.group (s.takeWhile isWordChar) b fs, ·)
      | none => none
/-- Read fields. -/
def readFields : Nat → Brackets → List Char → Option (DbgFields × List Char)
  | 0, _, _ => none
  | n + 1, b, s =>
    match readLabel b s with
    | none => none
    | some (name, s) =>
      match readDbg n s with
      | none => none
      | some (v, s) =>
        match afterWords chars!", " s with
        | none => some (.one name v, s)
        | some s =>
          match readFields n b s with
          | some (fs, s) => some (.cons name v fs, s)
          | none => none
end

/-- The name of a value. -/
def Dbg.name : Dbg → List Char
  | .word s => s
  | .group name _ _ => name

/-- The field with the given name; the empty name stands for the first field without a name. -/
def DbgFields.find (k : List Char) : DbgFields → Option Dbg
  | .one name v => if name = k then some v else none
  | .cons name v rest => if name = k then some v else DbgFields.find k rest

/-- All fields. -/
def DbgFields.values : DbgFields → List Dbg
  | .one _ v => [v]
  | .cons _ v rest => v :: DbgFields.values rest

/-- A field of a value. -/
def Dbg.field (k : List Char) : Dbg → Option Dbg
  | .word _ => none
  | .group _ _ fs => DbgFields.find k fs

/-- A number. -/
def Dbg.number : Dbg → Option Nat
  | .word s => if s.all isDigit ∧ s ≠ [] then some (valueOf s) else none
  | _ => none

/-- A number that is the value of a field. -/
def Dbg.numberAt (k : List Char) (d : Dbg) : Option Nat := (Dbg.field k d).bind Dbg.number

/-- The value of hexadecimal digits. -/
def hexValue (s : List Char) : Option Nat :=
  s.foldl (fun v c => match v, nibble c with
    | some v, some x => some (16 * v + x)
    | _, _ => none) (some 0)

/-- A set of modules, as a mask in hexadecimal. -/
def readModules (d : Dbg) : Option ModuleId :=
  if Dbg.name d = chars!"ModuleId" then
    match Dbg.field [] d with
    | some (.word s) => ((afterWords chars!"0x" s).bind hexValue).map fun n => ⟨BitVec.ofNat 64 n⟩
    | _ => none
  else none

/-- The modules of a value. -/
def modulesAt (k : List Char) (d : Dbg) : Option ModuleId := (Dbg.field k d).bind readModules

def readKind (d : Dbg) : Option ManagementInterface :=
  if Dbg.name d = chars!"Sff8636" then some .sff8636
  else if Dbg.name d = chars!"Cmis" then some .cmis
  else if Dbg.name d = chars!"Unknown" then (Dbg.numberAt [] d).map fun n => .unknown (BitVec.ofNat 8 n)
  else none

def readLed (d : Dbg) : Option LedState :=
  if Dbg.name d = chars!"Off" then some .off
  else if Dbg.name d = chars!"On" then some .on
  else if Dbg.name d = chars!"Blink" then some .blink
  else none

def readBank (d : Dbg) : Option (Option U8) :=
  if Dbg.name d = chars!"None" then some none
  else if Dbg.name d = chars!"Some" then (Dbg.numberAt [] d).map fun n => some (BitVec.ofNat 8 n)
  else none

def readPage (d : Dbg) : Option Page :=
  match Dbg.field [] d with
  | none => none
  | some p =>
    if Dbg.name d = chars!"Sff8636" then
      if Dbg.name p = chars!"Lower" then some (.sff8636 .lower)
      else ((Dbg.field [] p).bind (Dbg.numberAt [])).map fun n => .sff8636 (.upper (BitVec.ofNat 8 n))
    else if Dbg.name d = chars!"Cmis" then
      if Dbg.name p = chars!"Lower" then some (.cmis .lower)
      else
        match Dbg.field [] p with
        | none => none
        | some u =>
          match (Dbg.field chars!"bank" u).bind readBank, Dbg.numberAt chars!"page" u with
          | some bank, some page => some (.cmis (.upper ⟨bank, BitVec.ofNat 8 page⟩))
          | _, _ => none
    else none

def readAccess (name : List Char) (d : Dbg) : Option MemAccess :=
  if Dbg.name d = name then
    match (Dbg.field chars!"page" d).bind readPage, Dbg.numberAt chars!"offset" d, Dbg.numberAt chars!"len" d with
    | some page, some offset, some len => some ⟨page, BitVec.ofNat 8 offset, BitVec.ofNat 8 len⟩
    | _, _, _ => none
  else none

/-- The numbers expected and found. -/
def expectedActual (d : Dbg) : Option (Nat × Nat) :=
  match Dbg.numberAt chars!"expected" d, Dbg.numberAt chars!"actual" d with
  | some e, some a => some (e, a)
  | _, _ => none

def readProtocol (d : Dbg) : Option ProtocolError :=
  if Dbg.name d = chars!"WrongMessage" then some .wrongMessage
  else if Dbg.name d = chars!"NotSupported" then some .notSupported
  else if Dbg.name d = chars!"RequestTooLarge" then some .requestTooLarge
  else if Dbg.name d = chars!"Serialization" then some .serialization
  else if Dbg.name d = chars!"WrongDataSize" then
    (expectedActual d).map fun x => .wrongDataSize (BitVec.ofNat 32 x.1) (BitVec.ofNat 32 x.2)
  else if Dbg.name d = chars!"VersionMismatch" then
    (expectedActual d).map fun x => .versionMismatch (BitVec.ofNat 8 x.1) (BitVec.ofNat 8 x.2)
  else none

/-- The requests that only name modules. -/
def plainRequests : List (List Char × (ModuleId → HostRequest)) := [
  (chars!"Status", .status), (chars!"AssertReset", .assertReset), (chars!"DeassertReset", .deassertReset),
  (chars!"AssertLpMode", .assertLpMode), (chars!"DeassertLpMode", .deassertLpMode), (chars!"EnablePower", .enablePower),
  (chars!"DisablePower", .disablePower), (chars!"ClearPowerFault", .clearPowerFault), (chars!"LedState", .ledState),
  (chars!"ExtendedStatus", .extendedStatus), (chars!"ClearDisableLatch", .clearDisableLatch)]

def readRequest (d : Dbg) : Option HostRequest :=
  match plainRequests.find? (·.1 = Dbg.name d) with
  | some r => (modulesAt [] d).map r.2
  | none =>
    if Dbg.name d = chars!"MacAddrs" then some .macAddrs
    else
      match modulesAt chars!"modules" d with
      | none => none
      | some m =>
        if Dbg.name d = chars!"Read" then
          ((Dbg.field chars!"read" d).bind (readAccess chars!"MemoryRead")).map (.read m)
        else if Dbg.name d = chars!"Write" then
          ((Dbg.field chars!"write" d).bind (readAccess chars!"MemoryWrite")).map (.write m)
        else if Dbg.name d = chars!"ManagementInterface" then
          ((Dbg.field chars!"interface" d).bind readKind).map (.managementInterface m)
        else if Dbg.name d = chars!"SetLedState" then
          ((Dbg.field chars!"state" d).bind readLed).map (.setLedState m)
        else none

def readReason (d : Dbg) : Option BadMacAddrReason :=
  if Dbg.name d = chars!"SpansMultipleOuis" then some .spansMultipleOuis
  else if Dbg.name d = chars!"ZeroStrideOrCount" then some .zeroStrideOrCount
  else if Dbg.name d = chars!"MulticastBaseAddr" then some .multicastBaseAddr
  else none

/-- The bytes of an address. -/
def readAddress : Dbg → Option Mac
  | .group [] .square fs =>
    match (DbgFields.values fs).mapM Dbg.number with
    | some [a, b, c, d, e, f] => some ⟨BitVec.ofNat 8 a, BitVec.ofNat 8 b, BitVec.ofNat 8 c, BitVec.ofNat 8 d,
        BitVec.ofNat 8 e, BitVec.ofNat 8 f⟩
    | _ => none
  | _ => none

/-- First address, count and stride. -/
def readRange (d : Dbg) : Option (Mac × U16 × U8) :=
  match (Dbg.field chars!"base_mac" d).bind readAddress, Dbg.numberAt chars!"count" d, Dbg.numberAt chars!"stride" d with
  | some base, some count, some stride => some (base, BitVec.ofNat 16 count, BitVec.ofNat 8 stride)
  | _, _, _ => none

def readMacs (d : Dbg) : Option MacAddrResponse :=
  match Dbg.field [] d with
  | none => none
  | some v =>
    match readRange v with
    | none => none
    | some (base, count, stride) =>
      if Dbg.name d = chars!"Ok" then some (.ok ⟨base, count, stride⟩)
      else if Dbg.name d = chars!"Error" then
        ((Dbg.field chars!"reason" v).bind readReason).map fun r => .error ⟨r, base, count, stride⟩
      else none

/-- The responses that only name modules. -/
def plainResponses : List (List Char × (ModuleId → ModuleId → SpResponse)) := [
  (chars!"Status", .status), (chars!"Ack", .ack), (chars!"LedState", .ledState), (chars!"ExtendedStatus", .extendedStatus)]

def readResponse (d : Dbg) : Option SpResponse :=
  if Dbg.name d = chars!"MacAddrs" then ((Dbg.field [] d).bind readMacs).map .macAddrs
  else
    match modulesAt chars!"modules" d, modulesAt chars!"failed_modules" d with
    | some m, some f =>
      match plainResponses.find? (·.1 = Dbg.name d) with
      | some r => some (r.2 m f)
      | none =>
        if Dbg.name d = chars!"Read" then
          ((Dbg.field chars!"read" d).bind (readAccess chars!"MemoryRead")).map (.read m f)
        else if Dbg.name d = chars!"Write" then
          ((Dbg.field chars!"write" d).bind (readAccess chars!"MemoryWrite")).map (.write m f)
        else none
    | _, _ => none

def readBody (d : Dbg) : Option MessageBody :=
  match Dbg.field [] d with
  | none => none
  | some v =>
    if Dbg.name d = chars!"Error" then (readProtocol v).map .error
    else if Dbg.name d = chars!"HostRequest" then (readRequest v).map .hostRequest
    else if Dbg.name d = chars!"SpResponse" then (readResponse v).map .spResponse
    else none

/-- Read the `Debug` text of a message, which is all of the text given. -/
def readMessage (s : List Char) : Option MessageBody :=
  match readDbg (2 * s.length) s with
  | some (d, []) => readBody d
  | _ => none

end Xcvr.Spec
