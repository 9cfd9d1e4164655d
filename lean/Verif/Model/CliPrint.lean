import Verif.Model.CliCmd

/-!
# `controller/src/bin/xcvradm.rs`: output of the command line tool

Modelled: the parseable form of each table, the text of each of its cells apart from the numbers of `print_monitors`,
the name given to receiver power, and the printed MAC addresses. The default form is in `CliTable.lean`. Text is a list of
characters.
-/

namespace Xcvr.Cli

/-! ## Text of values -/

/-- `to_string` on `u8`. -/
def decimal (x : U8) : List Char :=
  let digit (n : Nat) := Char.ofNat (48 + n)
  if x.toNat < 10 then [digit x.toNat]
  else if x.toNat < 100 then [digit (x.toNat / 10), digit (x.toNat % 10)]
  else [digit (x.toNat / 100), digit (x.toNat / 10 % 10), digit (x.toNat % 10)]

/-- `[String]::join`. -/
def join (sep : List Char) : List (List Char) → List Char
  | [] => []
  | [x] => x
  | x :: y :: rest => x ++ sep ++ join sep (y :: rest)

/-- `xcvradm.rs` 1689 `0x{byte:02x}`. -/
def hexByte (x : U8) : List Char := chars!"0x" ++ Bf.hex2 x

/-- `xcvradm.rs` 1687 `0b{byte:08b}`. -/
def binByte (x : U8) : List Char :=
  chars!"0b" ++ [7, 6, 5, 4, 3, 2, 1, 0].map fun i => if x.getLsbD i then '1' else '0'

/-- `xcvradm.rs` 1686-1696: the bytes read from one module. -/
def dataText (binary : Bool) (data : Bytes) : List Char :=
  join chars!"," (data.map (if binary then binByte else hexByte))

/-- `message.rs` 1052-1061 `Display for LedState`. -/
def ledText : LedState → List Char
  | .off => chars!"off"
  | .on => chars!"on"
  | .blink => chars!"blink"

/-- The derived `Debug` of `lib.rs` 264-291 `PowerState`. -/
def powerText : PowerState → List Char
  | .off => chars!"Off"
  | .low => chars!"Low"
  | .high => chars!"High"

/-- `xcvradm.rs` 1547-1551. -/
def overrideText : Option Bool → List Char
  | none => chars!"-"
  | some true => chars!"Yes"
  | some false => chars!"No"

/-- The derived `Debug` of an enum made by `bitfield_enum!` (`utils.rs` 90-103). -/
def debugText {T : BitfieldEnum} : Bf T → List Char
  | .known i => T.variants[i].2.1
  | .other j x => T.others[j].name ++ chars!"(" ++ decimal x ++ chars!")"

/-- `xcvradm.rs` 1789-1793. -/
def identText (id : Identifier) : List Char := debugText id ++ chars!" (" ++ hexByte id.toByte ++ chars!")"

/-- `memory_model.rs` 44-58: one page; `page().unwrap()` panics on a lower page. -/
def pageText (p : Page) : Exec Unit (List Char) :=
  match p.page with
  | none => .panic
  | some n => .ok (hexByte n ++ match p.bank with | some b => chars!"/" ++ decimal b | none => [])

/-- `memory_model.rs` 34-63 `Display for MemoryModel`. -/
def modelText : MemoryModel → Exec Unit (List Char)
  | .flat => .ok chars!"Flat"
  | .paged pages => do
    let ts ← pages.mapM pageText
    return chars!"Paged [" ++ join chars!"," ts ++ chars!"]"

/-- `message.rs` 886-943: the flags of `ExtendedStatus` in order of declaration. -/
def flagNames : List (List Char × U32) := [
  (chars!"PRESENT", 0b000000001),
  (chars!"ENABLED", 0b000000010),
  (chars!"RESET", 0b000000100),
  (chars!"LOW_POWER_MODE", 0b000001000),
  (chars!"INTERRUPT", 0b000010000),
  (chars!"POWER_GOOD", 0b000100000),
  (chars!"FAULT_POWER_TIMEOUT", 0b001000000),
  (chars!"FAULT_POWER_LOST", 0b010000000),
  (chars!"DISABLED_BY_SP", 0b100000000)]

/-- `bitflags::parser::to_writer`: the names of the flags set, then the other bits in hexadecimal, separated by ` | `.
The flags of both tables used here are single bits, all different. -/
def flagsText {n : Nat} (names : List (List Char × BitVec n)) (s : BitVec n) : List Char :=
  let rest := s &&& ~~~ names.foldl (fun a f => a ||| f.2) 0
  join chars!" | " ((names.filter fun f => s &&& f.2 == f.2).map Prod.fst ++
    if rest = 0 then [] else [chars!"0x" ++ Nat.toDigits 16 rest.toNat])

/-- The digit loop of `from_str_radix(_, 16)` for an unsigned number of `n` bits: overflow is an error. -/
def hexLoop (n acc : Nat) : List Char → Option Nat
  | [] => some acc
  | c :: cs =>
    match digitVal 16 c with
    | none => none
    | some d => if acc * 16 + d < 2 ^ n then hexLoop n (acc * 16 + d) cs else none

/-- `from_str_radix(_, 16)` for an unsigned number of `n` bits: an optional plus sign, then at least one digit. -/
def bitsFromHex (n : Nat) (s : List Char) : Option (BitVec n) :=
  match s with
  | [] => none
  | '+' :: cs => if cs.isEmpty then none else (hexLoop n 0 cs).map (BitVec.ofNat n)
  | cs => (hexLoop n 0 cs).map (BitVec.ofNat n)

/-- `bitflags::parser::from_str` on one part without white space around it: a number after `0x`, of which all bits are
kept, or else a name. An empty part is an error. -/
def flagOf {n : Nat} (names : List (List Char × BitVec n)) (part : List Char) : Option (BitVec n) :=
  if part.isEmpty then none
  else
    match stripPrefix part chars!"0x" with
    | some hex => bitsFromHex n hex
    | none => (names.find? fun f => f.1 == part).map Prod.snd

/-- `bitflags::parser::from_str`: the flags of the parts are joined. -/
def flagsOf {n : Nat} (names : List (List Char × BitVec n)) : List (List Char) → Option (BitVec n)
  | [] => some 0
  | p :: ps =>
    match flagOf names (trim p), flagsOf names ps with
    | some a, some b => some (a ||| b)
    | _, _ => none

/-- `bitflags::parser::from_str`: the parts between `|`; white space only stands for no flags. -/
def flagsRead {n : Nat} (names : List (List Char × BitVec n)) (s : List Char) : Option (BitVec n) :=
  if (trim s).isEmpty then some 0 else flagsOf names (splitChar '|' s)

/-- `message.rs` 945-949 `Display for ExtendedStatus`. -/
def statusText (s : U32) : List Char := flagsText flagNames s

/-- `xcvradm.rs` 317-319 `parse_status`, with `message.rs` 959-965 `FromStr for ExtendedStatus`. -/
def parseStatus (s : List Char) : Option U32 := flagsRead flagNames s

/-- `message.rs` 731-784: the flags of `Status` in order of declaration. -/
def statusNames : List (List Char × U8) := [
  (chars!"PRESENT", 0b00000001),
  (chars!"ENABLED", 0b00000010),
  (chars!"RESET", 0b00000100),
  (chars!"LOW_POWER_MODE", 0b00001000),
  (chars!"INTERRUPT", 0b00010000),
  (chars!"POWER_GOOD", 0b00100000),
  (chars!"FAULT_POWER_TIMEOUT", 0b01000000),
  (chars!"FAULT_POWER_LOST", 0b10000000)]

/-- `message.rs` 787-791 `Display for Status`. -/
def shortStatusText (s : U8) : List Char := flagsText statusNames s

/-- `message.rs` 793-799 `FromStr for Status`. -/
def parseShortStatus (s : List Char) : Option U8 := flagsRead statusNames s

/-! ## Tables -/

/-- `xcvradm.rs` 2339-2355 `print_parseable_header`. -/
def headerLines {F : Type} (name : F → List Char) (fields : List F) (sep : List Char) : List (List Char) :=
  if fields.length > 0 then [join sep (fields.map name)] else []

/-- The lines of a parseable table: 1533-1574 of `print_power_mode`, and in the same way 1676-1717, 1728-1766,
1770-1833, 1835-1873 and 1899-1931. `cell` is the text of a field in the row of a port. -/
def tableLines {F P : Type} (header : Bool) (name : F → List Char) (cell : F → U8 → P → Exec Unit (List Char))
    (fields : List F) (sep : List Char) (rows : List (U8 × P)) : Exec Unit (List (List Char)) := do
  let body ← rows.mapM fun r =>
    if fields.length > 0 then do
      let cells ← fields.mapM fun f => cell f r.1 r.2
      return [join sep cells]
    else return []
  return (if header then headerLines name fields sep else []) ++ body.flatten

/-- `println!` on each line. -/
def printed (lines : List (List Char)) : List Char := (lines.map fun l => l ++ ['\n']).flatten

/-- `xcvradm.rs` 280-287 `ParseableOutputSeparator::as_str`. -/
def separator : Option (List Char) → List Char
  | none => chars!":"
  | some s => s

/-- `xcvradm.rs` 762-770 `PowerFields`. -/
inductive PowerField where
  | port | power | override
  deriving DecidableEq, Repr

/-- The name `ValueEnum` derives: the variant in kebab case. -/
def PowerField.name : PowerField → List Char
  | .port => chars!"port"
  | .power => chars!"power"
  | .override => chars!"override"

/-- `xcvradm.rs` 1562-1566. -/
def PowerField.cell (f : PowerField) (port : U8) (m : PowerMode) : Exec Unit (List Char) :=
  match f with
  | .port => .ok (decimal port)
  | .power => .ok (powerText m.state)
  | .override => .ok (overrideText m.softwareOverride)

/-- `xcvradm.rs` 772-780 `IdentifyFields`. -/
inductive IdentifyField where
  | port | ident | description
  deriving DecidableEq, Repr

/-- The name `ValueEnum` derives. -/
def IdentifyField.name : IdentifyField → List Char
  | .port => chars!"port"
  | .ident => chars!"ident"
  | .description => chars!"description"

/-- `xcvradm.rs` 1743 and 1756-1760. -/
def IdentifyField.cell (f : IdentifyField) (port : U8) (id : Identifier) : Exec Unit (List Char) :=
  match f with
  | .port => .ok (decimal port)
  | .ident => .ok (hexByte id.toByte)
  | .description => .ok id.display

/-- `xcvradm.rs` 782-798 `VendorInfoFields`. -/
inductive VendorField where
  | port | identifier | vendor | part | rev | serial | manufacturedDate
  deriving DecidableEq, Repr

/-- The name `ValueEnum` derives. -/
def VendorField.name : VendorField → List Char
  | .port => chars!"port"
  | .identifier => chars!"identifier"
  | .vendor => chars!"vendor"
  | .part => chars!"part"
  | .rev => chars!"rev"
  | .serial => chars!"serial"
  | .manufacturedDate => chars!"manufactured-date"

/-- `xcvradm.rs` 1789-1794 and 1817-1825. -/
def VendorField.cell (f : VendorField) (port : U8) (v : VendorInfo) : Exec Unit (List Char) :=
  match f with
  | .port => .ok (decimal port)
  | .identifier => .ok (identText v.identifier)
  | .vendor => .ok v.vendor.name
  | .part => .ok v.vendor.part
  | .rev => .ok v.vendor.revision
  | .serial => .ok v.vendor.serial
  | .manufacturedDate => .ok (v.vendor.date.getD chars!"Unknown")

/-- `xcvradm.rs` 800-806 `ReadDataFields`. -/
inductive DataField where
  | port | data
  deriving DecidableEq, Repr

/-- The name `ValueEnum` derives. -/
def DataField.name : DataField → List Char
  | .port => chars!"port"
  | .data => chars!"data"

/-- `xcvradm.rs` 1707-1710. -/
def DataField.cell (binary : Bool) (f : DataField) (port : U8) (d : Bytes) : Exec Unit (List Char) :=
  match f with
  | .port => .ok (decimal port)
  | .data => .ok (dataText binary d)

/-- `xcvradm.rs` 811-817 `MemoryModelFields`. -/
inductive ModelField where
  | port | model
  deriving DecidableEq, Repr

/-- The name `ValueEnum` derives. -/
def ModelField.name : ModelField → List Char
  | .port => chars!"port"
  | .model => chars!"model"

/-- `xcvradm.rs` 1863-1866. -/
def ModelField.cell (f : ModelField) (port : U8) (m : MemoryModel) : Exec Unit (List Char) :=
  match f with
  | .port => .ok (decimal port)
  | .model => modelText m

/-- `xcvradm.rs` 827-833 `LedFields`. -/
inductive LedField where
  | port | led
  deriving DecidableEq, Repr

/-- The name `ValueEnum` derives. -/
def LedField.name : LedField → List Char
  | .port => chars!"port"
  | .led => chars!"led"

/-- `xcvradm.rs` 1920-1923. -/
def LedField.cell (f : LedField) (port : U8) (s : LedState) : Exec Unit (List Char) :=
  match f with
  | .port => .ok (decimal port)
  | .led => .ok (ledText s)

/-- `xcvradm.rs` 754-760 `StatusFields`. -/
inductive StatusField where
  | port | status
  deriving DecidableEq, Repr

/-- `xcvradm.rs` 1590-1593. -/
def StatusField.name : StatusField → List Char
  | .port => chars!"port"
  | .status => chars!"status"

/-- `xcvradm.rs` 1604-1607. -/
def StatusField.cell (f : StatusField) (port : U8) (s : U32) : List Char :=
  match f with
  | .port => decimal port
  | .status => statusText s

/-- `xcvradm.rs` 1585-1614: the parseable form of `print_module_status`, which has no test for an empty list of
fields. -/
def statusLines (omitHeader : Bool) (fields : List StatusField) (sep : List Char) (rows : List (U8 × U32)) :
    List (List Char) :=
  (if omitHeader then [] else [join sep (fields.map StatusField.name)]) ++
    rows.map fun r => join sep (fields.map fun f => f.cell r.1 r.2)

/-- `xcvradm.rs` 1660-1673: the marks of one row of `print_all_status`. -/
def statusMarks (s : U32) : List (List Char × Bool) := flagNames.map fun f => (f.1, containsFlags s f.2)

/-! ## Monitors -/

/-- The two names of `xcvradm.rs` 1986-1990. -/
inductive RxName where
  | average
  | peakToPeak
  deriving DecidableEq, Repr

/-- `xcvradm.rs` 1985-1996: the name under which receiver power is printed; indexing an empty list panics. -/
def rxName : Option (List ReceiverPower) → Exec Unit (Option RxName)
  | none => .ok none
  | some [] => .panic
  | some (.average _ :: _) => .ok (some .average)
  | some (.peakToPeak _ :: _) => .ok (some .peakToPeak)

/-- `monitors.rs` 106-113 `ReceiverPower::value`. -/
def rxValue : ReceiverPower → Rat
  | .average x => x
  | .peakToPeak x => x

/-- `xcvradm.rs` 2065-2071: the numbers in the parseable field `average-rx-power`; none is an empty field. -/
def averageRxColumn (m : Monitors) : List Rat := (m.receiverPower.getD []).map rxValue

/-! ## MAC addresses -/

/-- `xcvradm.rs` 1889-1893: one address. -/
def macText (m : Mac) : List Char := join chars!":" ([m.b0, m.b1, m.b2, m.b3, m.b4, m.b5].map Bf.hex2)

/-- `xcvradm.rs` 1888: `for mac in macs.iter()`, which calls `next` until it gives nothing. A range holds at most
`count` addresses (C07), so `count + 1` calls are enough. -/
def macLines (macs : MacAddrs) : Exec Empty (List (List Char)) := do
  let (xs, _) ← MacAddrIter.take (macs.count.toNat + 1) macs.iter
  return ((xs.takeWhile Option.isSome).filterMap id).map macText

end Xcvr.Cli
