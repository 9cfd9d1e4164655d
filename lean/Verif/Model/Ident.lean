import Verif.Model.Tables
import Verif.Model.Mgmt

/-! # `decode/src/ident.rs` and the code types of `decode/src/datapath.rs` -/

namespace Xcvr

/-- `decode/src/lib.rs` 28-46 `Error`. -/
inductive DecodeError where
  | unsupportedIdentifier (id : Identifier)
  | management (e : MgmtError)
  | parseFailed
  | invalidOui
  | invalidBitField
  | bitOutOfRange
  deriving DecidableEq, Repr

/-! ## All tables cover all bytes -/

instance : Bf.Covers identifierTable := ⟨by decide +kernel⟩
instance : Bf.Covers extendedSpecificationComplianceCodeTable := ⟨by decide +kernel⟩
instance : Bf.Covers hostElectricalInterfaceIdTable := ⟨by decide +kernel⟩
instance : Bf.Covers mediaTypeTable := ⟨by decide +kernel⟩
instance : Bf.Covers mmfMediaInterfaceIdTable := ⟨by decide +kernel⟩
instance : Bf.Covers smfMediaInterfaceIdTable := ⟨by decide +kernel⟩
instance : Bf.Covers passiveCopperMediaInterfaceIdTable := ⟨by decide +kernel⟩
instance : Bf.Covers activeCableMediaInterfaceIdTable := ⟨by decide +kernel⟩
instance : Bf.Covers baseTMediaInterfaceIdTable := ⟨by decide +kernel⟩
instance : Bf.Covers connectorTypeTable := ⟨by decide +kernel⟩

namespace Identifier

/-- `ident.rs` 18-63: the four supported variants. Their position in the table equals their code. -/
def qsfpPlusSff8636 : Identifier := .known (0x0d : Fin 31)
def qsfp28 : Identifier := .known (0x11 : Fin 31)
def qsfpDD : Identifier := .known (0x18 : Fin 31)
def qsfpPlusCmis : Identifier := .known (0x1e : Fin 31)

/-- `ident.rs` 66-73 `management_interface`. -/
def managementInterface (id : Identifier) : Except DecodeError ManagementInterface :=
  if id = qsfpPlusSff8636 ∨ id = qsfp28 then .ok .sff8636
  else if id = qsfpPlusCmis ∨ id = qsfpDD then .ok .cmis
  else .error (.unsupportedIdentifier id)

end Identifier

/-! ## OUIs -/

/-- `ident.rs` 82 `Oui`. -/
structure Oui where
  b0 : U8
  b1 : U8
  b2 : U8
  deriving DecidableEq, Repr

/-- `ident.rs` 123-127 `Display`. -/
def Oui.display (o : Oui) : List Char :=
  Bf.hex2 o.b0 ++ ['-'] ++ Bf.hex2 o.b1 ++ ['-'] ++ Bf.hex2 o.b2

/-- `str::len`: the number of bytes. -/
def strLen (s : List Char) : Nat := (s.map Char.utf8Size).sum

/-- Split at the first occurrence of a character: the part before it, and the part after it if it occurs. -/
def splitFirst (c : Char) : List Char → List Char × Option (List Char)
  | [] => ([], none)
  | x :: xs => if x = c then ([], some xs) else ((x :: (splitFirst c xs).1), (splitFirst c xs).2)

/-- `str::splitn(n, c)`: at most `n` parts, the last one unsplit. -/
def splitn (c : Char) : Nat → List Char → List (List Char)
  | 0, _ => []
  | 1, s => [s]
  | n + 2, s =>
    match splitFirst c s with
    | (a, none) => [a]
    | (a, some rest) => a :: splitn c (n + 1) rest

/-- `ident.rs` 87-106 `FromStr`. The loop stores at most three octets because `splitn` yields at most three parts. -/
def Oui.fromStr (s : List Char) : Except DecodeError Oui :=
  if strLen s > 3 * 2 + 2 then .error .invalidOui
  else
    match (splitn '-' 3 s).mapM u8FromHex with
    | some [a, b, c] => .ok ⟨a, b, c⟩
    | _ => .error .invalidOui

/-! ## Media interfaces -/

/-- `ident.rs` 485-491 `MediaInterfaceId`. -/
inductive MediaInterfaceId where
  | mmf (i : MmfMediaInterfaceId)
  | smf (i : SmfMediaInterfaceId)
  | passiveCopper (i : PassiveCopperMediaInterfaceId)
  | activeCable (i : ActiveCableMediaInterfaceId)
  | baseT (i : BaseTMediaInterfaceId)
  deriving DecidableEq, Repr

/-- `ident.rs` 455-474 `MediaType`: the named variants with an interface table. -/
def MediaType.multiModeFiber : MediaType := Bf.ofByte 0x01
def MediaType.singleModeFiber : MediaType := Bf.ofByte 0x02
def MediaType.passiveCopper : MediaType := Bf.ofByte 0x03
def MediaType.activeCable : MediaType := Bf.ofByte 0x04
def MediaType.baseT : MediaType := Bf.ofByte 0x05

/-- `ident.rs` 506-520 `from_u8`. -/
def MediaInterfaceId.fromU8 (t : MediaType) (x : U8) : Option MediaInterfaceId :=
  if t = MediaType.multiModeFiber then some (.mmf (Bf.ofByte x))
  else if t = MediaType.singleModeFiber then some (.smf (Bf.ofByte x))
  else if t = MediaType.passiveCopper then some (.passiveCopper (Bf.ofByte x))
  else if t = MediaType.activeCable then some (.activeCable (Bf.ofByte x))
  else if t = MediaType.baseT then some (.baseT (Bf.ofByte x))
  else none

/-! ## Compliance codes -/

/-- `datapath.rs` 139 `EthernetComplianceCode`. -/
structure EthernetComplianceCode where
  code : U8
  deriving DecidableEq, Repr

/-- `datapath.rs` 152-163: the named codes. The same seven pairs are the arms of `FromStr`, 177-187. -/
def ethernetCodes : List (U8 × List Char) := [
  (0b00000001, chars!"40G Active Cable"),
  (0b00000010, chars!"40GBASE-LR4"),
  (0b00000100, chars!"40GBASE-SR4"),
  (0b00001000, chars!"40GBASE-CR4"),
  (0b00010000, chars!"10GBASE-SR"),
  (0b00100000, chars!"10GBASE-LR"),
  (0b01000000, chars!"10GBASE-LRM")]

/-- `datapath.rs` 150-164 `Display`. -/
def EthernetComplianceCode.display (e : EthernetComplianceCode) : List Char :=
  match ethernetCodes.lookup e.code with
  | some s => s
  | none => chars!"Unknown (0x" ++ Bf.hex2 e.code ++ chars!")"

/-- `datapath.rs` 173-189 `FromStr`. -/
def EthernetComplianceCode.fromStr (s : List Char) : Option EthernetComplianceCode :=
  (ethernetCodes.find? fun c => c.2 == s).map fun c => ⟨c.1⟩

/-- `datapath.rs` 102-105 `SffComplianceCode`. -/
inductive SffComplianceCode where
  | extended (c : ExtendedSpecificationComplianceCode)
  | ethernet (c : EthernetComplianceCode)
  deriving DecidableEq, Repr

/-- `datapath.rs` 119-128 `SffComplianceCode::new`. -/
def SffComplianceCode.new (specification extended : U8) : SffComplianceCode :=
  if specification = 0x80 then .extended (Bf.ofByte extended) else .ethernet ⟨specification⟩

/-! ## The second form of the macro -/

/-- `datapath.rs` 863-876 `CmisDatapathState`: codes and display texts. -/
def cmisDatapathStates : List (U8 × List Char) := [
  (0x1, chars!"Deactivated"),
  (0x2, chars!"Initializing"),
  (0x3, chars!"Deinitializing"),
  (0x4, chars!"Activated"),
  (0x5, chars!"Tx turning on"),
  (0x6, chars!"Tx turning off"),
  (0x7, chars!"Initialized")]

/-- `utils.rs` 243-245 for `CmisDatapathState`: a variant is its position in the table. -/
abbrev CmisDatapathState := Fin 7

namespace CmisDatapathState

/-- `utils.rs` 229 `MASK` for `bits = 2:0`. -/
def mask : U8 := (0xff <<< 0) &&& (0xff >>> (7 - 2))

/-- `utils.rs` 257-268 `TryFrom<u8>`. -/
def tryFrom (x : U8) : Except DecodeError CmisDatapathState :=
  match cmisDatapathStates.findFinIdx? fun v => v.1 == ((x &&& mask) >>> 0) with
  | some i => .ok i
  | none => .error .invalidBitField

/-- `utils.rs` 270-278 `From<Self> for u8`. -/
def toByte (s : CmisDatapathState) : U8 := (cmisDatapathStates.get s).1

/-- `utils.rs` 247-255 `Display`. -/
def display (s : CmisDatapathState) : List Char := (cmisDatapathStates.get s).2

/-- `utils.rs` 280-291 `FromStr`. -/
def fromStr (t : List Char) : Option CmisDatapathState := cmisDatapathStates.findFinIdx? fun v => v.2 == t

end CmisDatapathState

end Xcvr
