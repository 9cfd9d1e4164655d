import Verif.Model.Prim

/-!
# `messages/src/mgmt/{mod,sff8636,cmis}.rs`: pages and memory accesses
-/

namespace Xcvr

/-- `mgmt/mod.rs` 75-83 `ManagementInterface`, in declaration order. -/
inductive ManagementInterface where
  | sff8636
  | cmis
  | unknown (x : U8)
  deriving DecidableEq, Repr

/-- `mgmt/mod.rs` 19-71 `mgmt::Error`, in declaration order. -/
inductive MgmtError where
  | invalidPage (page : U8)
  | invalidBank (bank : U8)
  | pageIsUnbanked (page : U8)
  | pageIsBanked (page : U8)
  | invalidMemoryAccess (offset len : U8)
  | invalidOperationSize (size : U8) (interface : ManagementInterface)
  deriving DecidableEq, Repr

/-- `mgmt/sff8636.rs` 22-25 and 50: `Page` and `UpperPage(u8)`. -/
inductive SffPage where
  | lower
  | upper (page : U8)
  deriving DecidableEq, Repr

/-- `mgmt/cmis.rs` 56-59 `UpperPage`. -/
structure CmisUpperPage where
  bank : Option U8
  page : U8
  deriving DecidableEq, Repr

/-- `mgmt/cmis.rs` 21-24 `Page`. -/
inductive CmisPage where
  | lower
  | upper (page : CmisUpperPage)
  deriving DecidableEq, Repr

/-- `mgmt/mod.rs` 147-150 `Page`. -/
inductive Page where
  | sff8636 (p : SffPage)
  | cmis (p : CmisPage)
  deriving DecidableEq, Repr

/-- `mgmt/sff8636.rs` 53-75 `UpperPage::new`; the `matches!` patterns are the disjuncts in order. -/
def sffUpperPageNew (n : U8) : Except MgmtError U8 :=
  if n == 0x00 || n == 0x01 || n == 0x02 || n == 0x03 || (0x20 ≤ n && n ≤ 0x21) || (0x04 ≤ n && n ≤ 0x1F) ||
      (0x80 ≤ n && n ≤ 0xFF)
  then .ok n else .error (.invalidPage n)

/-- `mgmt/cmis.rs` 106-116 `is_valid_page`. -/
def cmisIsValidPage (p : U8) : Bool :=
  (0x00 ≤ p && p ≤ 0x04) || (0x10 ≤ p && p ≤ 0x3F) || p == 0x9F || (0xA0 ≤ p && p ≤ 0xAF) || (0xB0 ≤ p && p ≤ 0xFF)

/-- `mgmt/cmis.rs` 121-123 `page_accepts_bank_number`. -/
def cmisPageAcceptsBank (p : U8) : Bool :=
  (0x10 ≤ p && p ≤ 0x3F) || p == 0x9F || (0xA0 ≤ p && p ≤ 0xAF)

/-- `mgmt/cmis.rs` 126 `MAX_BANK`. -/
def cmisMaxBank : U8 := 3

/-- `mgmt/cmis.rs` 66-71 `UpperPage::new_unbanked`. -/
def cmisNewUnbanked (page : U8) : Except MgmtError CmisUpperPage :=
  if cmisPageAcceptsBank page then .error (.pageIsBanked page) else .ok ⟨none, page⟩

/-- `mgmt/cmis.rs` 80-94 `UpperPage::new_banked`. -/
def cmisNewBanked (page bank : U8) : Except MgmtError CmisUpperPage :=
  if !cmisIsValidPage page then .error (.invalidPage page)
  else if bank > cmisMaxBank then .error (.invalidBank bank)
  else if !cmisPageAcceptsBank page then .error (.pageIsUnbanked page)
  else .ok ⟨some bank, page⟩

/-- `mgmt/mod.rs` 156-161 `Page::page` (with `sff8636.rs` 28-33, `cmis.rs` 27-32). -/
def Page.page : Page → Option U8
  | .sff8636 .lower => none
  | .sff8636 (.upper p) => some p
  | .cmis .lower => none
  | .cmis (.upper p) => some p.page

/-- `mgmt/mod.rs` 172-177 `Page::bank` (with `cmis.rs` 34-39). -/
def Page.bank : Page → Option U8
  | .sff8636 _ => none
  | .cmis .lower => none
  | .cmis (.upper p) => p.bank

/-- `mgmt/mod.rs` 180-185 `Page::management_interface`. -/
def Page.managementInterface : Page → ManagementInterface
  | .sff8636 _ => .sff8636
  | .cmis _ => .cmis

/-- `mgmt/mod.rs` 291-326 `trait MemoryPage` (together with `Into<Page>`, 188-210). -/
class MemoryPage (P : Type) where
  interface : ManagementInterface
  maxOffset : P → U8
  minOffset : P → U8
  minWriteSize : U8 := 1
  maxWriteSize : U8
  minReadSize : U8 := 1
  maxReadSize : U8
  toPage : P → Page

/-- `mgmt/sff8636.rs` 82-102 and `mgmt/mod.rs` 188-192. -/
instance : MemoryPage SffPage where
  interface := .sff8636
  maxOffset := fun | .lower => 127 | .upper _ => 255
  minOffset := fun | .lower => 0 | .upper _ => 128
  maxReadSize := 128
  maxWriteSize := 4
  toPage := .sff8636

/-- `mgmt/cmis.rs` 128-148 and `mgmt/mod.rs` 200-204. -/
instance : MemoryPage CmisPage where
  interface := .cmis
  maxOffset := fun | .lower => 127 | .upper _ => 255
  minOffset := fun | .lower => 0 | .upper _ => 128
  maxReadSize := 8
  maxWriteSize := 8
  toPage := .cmis

/-- `mgmt/mod.rs` 214-218 and 253-257: `MemoryRead` and `MemoryWrite` have the same fields; one structure models
both. -/
structure MemAccess where
  page : Page
  offset : U8
  len : U8
  deriving DecidableEq, Repr

abbrev MemoryRead := MemAccess
abbrev MemoryWrite := MemAccess

section
variable {P : Type} [MemoryPage P]

/-- The bounds check shared by `mgmt/mod.rs` 333-336 and 353-356: the sums are computed in `u16`, which cannot
overflow, so `Nat` is used. -/
def outOfBounds (page : P) (offset len : U8) : Bool :=
  offset < MemoryPage.minOffset page || offset > MemoryPage.maxOffset page ||
    decide (offset.toNat + len.toNat > (MemoryPage.maxOffset page).toNat + 1)

/-- `mgmt/mod.rs` 329-346 `verify_read`. -/
def verifyRead (page : P) (offset len : U8) : Except MgmtError Unit :=
  if outOfBounds page offset len then .error (.invalidMemoryAccess offset len)
  else if len < MemoryPage.minReadSize P || len > MemoryPage.maxReadSize P then
    .error (.invalidOperationSize len (MemoryPage.interface P))
  else .ok ()

/-- `mgmt/mod.rs` 349-366 `verify_write`. -/
def verifyWrite (page : P) (offset len : U8) : Except MgmtError Unit :=
  if outOfBounds page offset len then .error (.invalidMemoryAccess offset len)
  else if len < MemoryPage.minWriteSize P || len > MemoryPage.maxWriteSize P then
    .error (.invalidOperationSize len (MemoryPage.interface P))
  else .ok ()

/-- `mgmt/mod.rs` 222-232 `MemoryRead::new`. -/
def MemAccess.newRead (page : P) (offset len : U8) : Except MgmtError MemoryRead :=
  match verifyRead page offset len with
  | .error e => .error e
  | .ok () => .ok ⟨MemoryPage.toPage page, offset, len⟩

/-- `mgmt/mod.rs` 261-271 `MemoryWrite::new`. -/
def MemAccess.newWrite (page : P) (offset len : U8) : Except MgmtError MemoryWrite :=
  match verifyWrite page offset len with
  | .error e => .error e
  | .ok () => .ok ⟨MemoryPage.toPage page, offset, len⟩

end

end Xcvr
