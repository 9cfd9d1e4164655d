import Verif.Spec.InfoText
import Verif.Spec.Controller

/-! # Specification: how the tool shows what an SP reports of modules -/

namespace Xcvr.Spec

open Xcvr Cli

/-- The column for the port: at least four characters. -/
def portFour (i : U8) : List Char := List.replicate (4 - (decimal i).length) ' ' ++ decimal i

/-- The nine flags, by the number of their bit. -/
def flagList : Lines := [chars!"PRESENT", chars!"ENABLED", chars!"RESET", chars!"LOW_POWER_MODE", chars!"INTERRUPT",
  chars!"POWER_GOOD", chars!"FAULT_POWER_TIMEOUT", chars!"FAULT_POWER_LOST", chars!"DISABLED_BY_SP"]

/-- The names of the flags that are set, in order of their bits, and the other bits, if any, as one hexadecimal number,
between bars. -/
def flagsShown (s : U32) : List Char :=
  chars!" | ".intercalate ((flagList.zipIdx.filter fun f => s.getLsbD f.2).map Prod.fst ++
    if s.toNat < 512 then [] else [chars!"0x" ++ Nat.toDigits 16 (512 * (s.toNat / 512))])

/-- The power state and software override of a module in words. -/
def stateWord : PowerState → List Char
  | .off => chars!"Off"
  | .low => chars!"Low"
  | .high => chars!"High"

def overrideWord (o : Option Bool) : List Char :=
  if o = some true then chars!"Yes" else if o = some false then chars!"No" else chars!"-"

/-- The default line for the power of a module. -/
def powerShown (i : U8) (mode : PowerMode) : List Char :=
  portFour i ++ chars!"  " ++ stateWord mode.state ++ List.replicate (5 - (stateWord mode.state).length) ' ' ++ chars!"  " ++
    overrideWord mode.softwareOverride

def powerField (i : U8) (mode : PowerMode) : PowerField → List Char
  | .port => decimal i
  | .power => stateWord mode.state
  | .override => overrideWord mode.softwareOverride

/-- The state of an LED in words: capitalized in the default form, else not. -/
def ledWord (capital : Bool) : LedState → List Char
  | .off => (if capital then 'O' else 'o') :: chars!"ff"
  | .on => (if capital then 'O' else 'o') :: chars!"n"
  | .blink => (if capital then 'B' else 'b') :: chars!"link"

def ledField (i : U8) (s : LedState) : LedField → List Char
  | .port => decimal i
  | .led => ledWord false s

def statusFieldText (i : U8) (s : U32) : StatusField → List Char
  | .port => decimal i
  | .status => flagsShown s

/-- Bytes in hexadecimal or binary, between commas. -/
def bytesShown (binary : Bool) (d : Bytes) : List Char :=
  [','].intercalate (d.map fun x => if binary then binByte x else hexByte x)

def dataFieldText (binary : Bool) (i : U8) (d : Bytes) : DataField → List Char
  | .port => decimal i
  | .data => bytesShown binary d

/-- A row of the table of all flags: the port, and under each of nine labels a mark that is `1` if the flag is set. The label of
flag `k` points at column `5 + 4 * k`. -/
structure AllShown (i : U8) (s : U32) (l : List Char) : Prop where
  width : l.length = 41
  port : l.take 2 = List.replicate (2 - (decimal i).length) ' ' ++ decimal i
  mark : ∀ k, k < 9 → l[5 + 4 * k]? = some (if s.getLsbD k then '1' else '0')
  blank : ∀ c, 2 ≤ c → c < 41 → (∀ k, k < 9 → c ≠ 5 + 4 * k) → l[c]? = some ' '

/-- The labels above that table: line `k + 1` ends with the name of flag `k` and has a corner in its column; below it, the
column goes on to an arrow. -/
structure AllHeader (ls : Lines) : Prop where
  lines : ls.length = 11
  name : ∀ k, k < 9 → ∃ l, ls[k + 1]? = some l ∧ l.drop 40 = flagList.getD k [] ∧ l[5 + 4 * k]? = some '+' ∧
    ∀ j, k < j → j < 9 → ∃ l', ls[j + 1]? = some l' ∧ l'[5 + 4 * k]? = some '|'
  arrow : ∀ k, k < 9 → ∃ l, ls[10]? = some l ∧ l[5 + 4 * k]? = some 'v'

/-- What was asked about flags, as the header of that table shows it. -/
def filterShown (w wo : U32) : List Char :=
  if w = 0 then chars!"!(" ++ flagsShown wo ++ chars!")"
  else if wo = 0 then flagsShown w
  else flagsShown w ++ chars!" && !(" ++ flagsShown wo ++ chars!")"

end Xcvr.Spec
