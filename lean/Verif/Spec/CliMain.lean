import Verif.Spec.Scope
import Verif.Spec.Memory
import Verif.Model.CliMain

/-! # Specification: what a run of the tool may do -/

namespace Xcvr.Spec

open Xcvr Cli

/-- The commands that only look. -/
def Inspecting : Cmd → Prop
  | .status .. | .power _ | .identify _ | .vendorInfo _ | .readLower .. | .readUpper .. | .memoryModel _ | .macs _
  | .leds _ | .monitors _ | .datapath => True
  | _ => False

/-- One byte for a power control register, byte 93 or 26 of the lower page, that asks for low power or for high power (bit
1 of byte 93, bit 4 of byte 26). -/
def PowerRegister (low : Bool) (w : MemoryWrite) (d : Bytes) : Prop :=
  w.page = .sff8636 .lower ∧ w.len = 1 ∧
    ((w.offset = 93 ∧ ∃ b, d = [b] ∧ b.getLsbD 1 = low) ∨ (w.offset = 26 ∧ ∃ b, d = [b] ∧ b.getLsbD 4 = low))

/-- The requests to change something that belong to a command, with the data they carry. -/
def Changes : Cmd → HostRequest → Option Bytes → Prop
  | .reset, .assertReset _, none | .reset, .deassertReset _, none => True
  | .setPower .off, .deassertLpMode _, none | .setPower .off, .assertReset _, none
  | .setPower .off, .disablePower _, none => True
  | .setPower .low, .assertReset _, none | .setPower .low, .enablePower _, none | .setPower .low, .assertLpMode _, none
  | .setPower .low, .deassertReset _, none => True
  | .setPower .high, .assertReset _, none | .setPower .high, .enablePower _, none
  | .setPower .high, .deassertLpMode _, none | .setPower .high, .deassertReset _, none => True
  | .setPower .low, .write _ w, some d => PowerRegister true w d
  | .setPower .high, .write _ w, some d => PowerRegister false w d
  | .enablePower, .enablePower _, none | .disablePower, .disablePower _, none | .assertReset, .assertReset _, none
  | .deassertReset, .deassertReset _, none | .assertLpMode, .assertLpMode _, none
  | .deassertLpMode, .deassertLpMode _, none | .clearPowerFault, .clearPowerFault _, none
  | .clearDisableLatch, .clearDisableLatch _, none => True
  | .setLeds s, .setLedState _ s', none => s' = s
  | .writeLower cmis input offset, .write _ w, some d =>
    input.load = .ok d ∧ w.page = (if cmis then .cmis .lower else .sff8636 .lower) ∧ w.offset = offset ∧
      w.len.toNat = d.length
  | .writeUpper cmis input page bank offset, .write _ w, some d =>
    input.load = .ok d ∧ isLower w.page = false ∧ w.page.page = some page ∧
      w.page.bank = (if cmis then bank else none) ∧ w.page.managementInterface = (if cmis then .cmis else .sff8636) ∧
      w.offset = offset ∧ w.len.toNat = d.length
  | _, _, _ => False

/-- The commands that act and whose failure lines are complete: all but setting low or high power (C45). -/
def Acts : Cmd → Prop
  | .reset | .setPower .off | .enablePower | .disablePower | .assertReset | .deassertReset | .assertLpMode
  | .deassertLpMode | .clearPowerFault | .clearDisableLatch | .setLeds _ | .writeLower .. | .writeUpper .. => True
  | _ => False

/-- The commands that print something about each module, in the default form. A read of no bytes prints nothing. -/
def Tabular : Cmd → Prop
  | .status _ _ _ parseable _ _ _ => parseable = false
  | .power a => a.parseable = false
  | .identify a => a.parseable = false
  | .vendorInfo a => a.parseable = false
  | .readLower _ _ _ len a => a.parseable = false ∧ len ≠ 0
  | .readUpper _ _ _ _ _ len a => a.parseable = false ∧ len ≠ 0
  | .memoryModel a => a.parseable = false
  | .leds a => a.parseable = false
  | .monitors a => a.parseable = false
  | .datapath => True
  | _ => False

/-- An upper page that the tool takes: one that the standard defines, named with a bank, 0 to 3, exactly if it has banks. Pages
of CMIS modules without banks are not checked further (C10). -/
def PageTaken (cmis : Bool) (page : U8) (bank : Option U8) : Prop :=
  if cmis then
    match bank with
    | some b => CmisBanked page.toNat ∧ b.toNat ≤ 3
    | none => ¬ CmisBanked page.toNat
  else SffDefined page.toNat

/-- The number of bytes that one write may have. -/
def FitsWrite (cmis : Bool) (d : Bytes) : Prop := 1 ≤ d.length ∧ d.length ≤ if cmis then 8 else 4

/-- Why a command cannot be carried out, from its arguments alone. -/
def Refusal : Cmd → SetupError → Prop
  | .readLower _ _ offset len _, .read _ => len ≠ 0 ∧ 128 < offset.toNat + len.toNat
  | .readUpper cmis _ page bank _ len _, .page _ => len ≠ 0 ∧ ¬ PageTaken cmis page bank
  | .readUpper cmis _ page bank offset len _, .read _ =>
    len ≠ 0 ∧ PageTaken cmis page bank ∧ (offset.toNat < 128 ∨ 256 < offset.toNat + len.toNat)
  | .writeLower _ input _, .noInput | .writeUpper _ input _ _ _, .noInput => input.content = none
  | .writeLower _ input _, .input e | .writeUpper _ input _ _ _, .input e =>
    ∃ c, input.content = some c ∧ loadWriteData input.kind c input.nread = .err e
  | .writeLower cmis input offset, .write _ =>
    ∃ d, input.load = .ok d ∧ ¬ (FitsWrite cmis d ∧ offset.toNat + d.length ≤ 128)
  | .writeUpper cmis input page bank _, .page _ =>
    ∃ d, input.load = .ok d ∧ d.length < 256 ∧ ¬ PageTaken cmis page bank
  | .writeUpper cmis input page bank offset, .write _ =>
    ∃ d, input.load = .ok d ∧ (256 ≤ d.length ∨ PageTaken cmis page bank ∧
      ¬ (FitsWrite cmis d ∧ 128 ≤ offset.toNat ∧ offset.toNat + d.length ≤ 256))
  | _, _ => False

def isDigit (c : Char) : Bool := decide (48 ≤ c.toNat ∧ c.toNat ≤ 57)

/-- The value of decimal digits. -/
def valueOf (ds : List Char) : Nat := ds.foldl (fun n c => 10 * n + (c.toNat - 48)) 0

/-- How a reader finds the port in a line: the number a line starts with, after spaces and the word `Port`, if any. -/
def linePort (line : List Char) : Option Nat :=
  let rest := if line.take 5 = ['P', 'o', 'r', 't', ' '] then line.drop 5 else line
  let word := (rest.dropWhile (· = ' ')).takeWhile (· ≠ ' ')
  if word = [] ∨ word.any (fun c => !isDigit c) then none else some (valueOf word)

end Xcvr.Spec
