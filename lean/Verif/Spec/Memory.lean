import Verif.Model.Mgmt

/-!
# Specification: legal pages and accesses of SFF-8636 and CMIS modules

Stated with plain numbers, independently of the checks in the code.
-/

namespace Xcvr.Spec

/-- Is this the lower half of the 256-byte map? -/
def isLower : Page → Bool
  | .sff8636 .lower => true
  | .cmis .lower => true
  | _ => false

/-- First address of the half of the map a page occupies. -/
def pageStart (p : Page) : Nat := if isLower p then 0 else 128

/-- `[offset, offset + len)` lies inside the half of the map the page occupies; `offset` itself is in that half. -/
def InHalf (p : Page) (offset len : Nat) : Prop :=
  pageStart p ≤ offset ∧ offset < pageStart p + 128 ∧ offset + len ≤ pageStart p + 128

instance (p : Page) (o l : Nat) : Decidable (InHalf p o l) := inferInstanceAs (Decidable (_ ∧ _))

/-- Largest single read / write. -/
def maxRead : Page → Nat
  | .sff8636 _ => 128
  | .cmis _ => 8

def maxWrite : Page → Nat
  | .sff8636 _ => 4
  | .cmis _ => 8

/-- A legal single read: nonempty, within the size limit, and inside the page. -/
def LegalRead (p : Page) (offset len : Nat) : Prop := 1 ≤ len ∧ len ≤ maxRead p ∧ InHalf p offset len

def LegalWrite (p : Page) (offset len : Nat) : Prop := 1 ≤ len ∧ len ≤ maxWrite p ∧ InHalf p offset len

instance (p : Page) (o l : Nat) : Decidable (LegalRead p o l) := inferInstanceAs (Decidable (_ ∧ _))
instance (p : Page) (o l : Nat) : Decidable (LegalWrite p o l) := inferInstanceAs (Decidable (_ ∧ _))

/-- Upper pages defined by SFF-8636: 0x00-0x21 and 0x80-0xFF. -/
def SffDefined (p : Nat) : Prop := p ≤ 0x21 ∨ 0x80 ≤ p

/-- Upper pages with banks in CMIS: 0x10-0x3F and 0x9F-0xAF. -/
def CmisBanked (p : Nat) : Prop := (0x10 ≤ p ∧ p ≤ 0x3F) ∨ (0x9F ≤ p ∧ p ≤ 0xAF)

/-- Upper pages defined by CMIS: 0x00-0x04, the banked ones, and 0xB0-0xFF. -/
def CmisDefined (p : Nat) : Prop := p ≤ 0x04 ∨ CmisBanked p ∨ 0xB0 ≤ p

/-- The chunks, in order, cover `[start, stop)` exactly: each is nonempty and starts where the previous one ends. -/
def Covers : List MemAccess → Nat → Nat → Prop
  | [], start, stop => start = stop
  | c :: cs, start, stop => c.offset.toNat = start ∧ 0 < c.len.toNat ∧ Covers cs (start + c.len.toNat) stop

end Xcvr.Spec
