import Verif.Model.Decode.Common

/-! # `decode/src/memory_model.rs` -/

namespace Xcvr

/-- `memory_model.rs` 27-32 `MemoryModel`. -/
inductive MemoryModel where
  | flat
  | paged (pages : List Page)
  deriving DecidableEq, Repr

/-- The derived order of `Option<u8>`: `None` first. -/
def optU8Le : Option U8 → Option U8 → Bool
  | none, _ => true
  | some _, none => false
  | some a, some b => a ≤ b

/-- The derived order of `mgmt/mod.rs` 144-150 `Page`, `sff8636.rs` 19-25 and 36-50, `cmis.rs` 18-24 and 43-59:
constructors in declaration order, then fields in declaration order (bank before page). -/
def Page.le : Page → Page → Bool
  | .sff8636 .lower, .sff8636 _ => true
  | .sff8636 (.upper _), .sff8636 .lower => false
  | .sff8636 (.upper a), .sff8636 (.upper b) => a ≤ b
  | .sff8636 _, .cmis _ => true
  | .cmis _, .sff8636 _ => false
  | .cmis .lower, .cmis _ => true
  | .cmis (.upper _), .cmis .lower => false
  | .cmis (.upper a), .cmis (.upper b) => if a.bank = b.bank then a.page ≤ b.page else optU8Le a.bank b.bank

/-- Insert before the first larger item. -/
def insertSorted {α : Type} (le : α → α → Bool) (a : α) : List α → List α
  | [] => [a]
  | b :: rest => if le a b then a :: b :: rest else b :: insertSorted le a rest

/-- `slice::sort`: the result of a stable sort is unique, so insertion sort computes the same list. -/
def stableSort {α : Type} (le : α → α → Bool) : List α → List α
  | [] => []
  | a :: rest => insertSorted le a (stableSort le rest)

namespace MemoryModel

open Decode

/-- `memory_model.rs` 66-109 `reads`. -/
def reads (id : Identifier) : Exec DecodeError (List MemoryRead) :=
  byKind id
    (do let status ← unw (MemAccess.newRead SffPage.lower 2 1)
        let page ← unw (sffUpperPageNew 0)
        let advertised ← unw (MemAccess.newRead (SffPage.upper page) 195 1)
        return [status, advertised])
    (do let characteristics ← unw (MemAccess.newRead CmisPage.lower 2 1)
        let page ← unw (cmisNewUnbanked 1)
        let advertised ← unw (MemAccess.newRead (CmisPage.upper page) 142 1)
        return [characteristics, advertised])

/-- `Page::from(sff8636::UpperPage::new(n).unwrap())`. -/
def sffPage (n : U8) : Exec DecodeError Page := do
  let p ← unw (sffUpperPageNew n)
  return .sff8636 (.upper p)

/-- `Page::from(cmis::UpperPage::new_unbanked(n).unwrap())`. -/
def cmisPage (n : U8) : Exec DecodeError Page := do
  let p ← unw (cmisNewUnbanked n)
  return .cmis (.upper p)

/-- `Page::from(cmis::UpperPage::new_banked(n, bank).unwrap())`. -/
def cmisBanked (bank n : U8) : Exec DecodeError Page := do
  let p ← unw (cmisNewBanked n bank)
  return .cmis (.upper p)

/-- `memory_model.rs` 124-139: the pages of a paged SFF-8636 module, before sorting. -/
def sffPages (advertised : U8) : Exec DecodeError (List Page) := do
  let p00 ← sffPage 0x00
  let p03 ← sffPage 0x03
  let a ← if advertised &&& ((1 : U8) <<< 7) ≠ 0 then (do return [← sffPage 0x02]) else pure []
  let b ← if advertised &&& ((1 : U8) <<< 6) ≠ 0 then (do return [← sffPage 0x01]) else pure []
  let c ← if advertised &&& ((1 : U8) <<< 0) ≠ 0 then (do return [← sffPage 0x20, ← sffPage 0x21]) else pure []
  return [p00, p03] ++ a ++ b ++ c

/-- `memory_model.rs` 167-172 `max_bank`; the reserved value panics. -/
def maxBank (advertised : U8) : Exec DecodeError U8 :=
  if advertised &&& 0b11 = 0b00 then .ok 0
  else if advertised &&& 0b11 = 0b01 then .ok 1
  else if advertised &&& 0b11 = 0b10 then .ok 3
  else .panic

/-- `memory_model.rs` 158-189: the pages of a paged CMIS module, before sorting. -/
def cmisPages (advertised : U8) : Exec DecodeError (List Page) := do
  let a ← [0x00, 0x01, 0x02].mapM cmisPage
  let bank ← maxBank advertised
  let b ← [0x10, 0x11].mapM (cmisBanked bank)
  let c ← if advertised &&& ((1 : U8) <<< 2) ≠ 0 then (do return [← cmisPage 0x03]) else pure []
  let d ← if advertised &&& ((1 : U8) <<< 5) ≠ 0 then [0x13, 0x14].mapM (cmisBanked bank) else pure []
  return a ++ b ++ c ++ d

/-- `memory_model.rs` 111-201 `parse`. `pages.sort()` sorts by the derived order. -/
def parse (id : Identifier) (rs : List Bytes) : Exec DecodeError MemoryModel :=
  byKind id
    (do let status ← firstOfFirst rs
        if status &&& ((1 : U8) <<< 2) = 0 then
          let advertised ← firstOfFirst rs.tail
          let pages ← sffPages advertised
          return .paged (stableSort Page.le pages)
        else return .flat)
    (do let status ← firstOfFirst rs
        if status &&& ((1 : U8) <<< 7) = 0 then
          let advertised ← firstOfFirst rs.tail
          let pages ← cmisPages advertised
          return .paged (stableSort Page.le pages)
        else return .flat)

/-- `memory_model.rs` 114-122 and 147-155: `next` is called again only for a paged module. -/
def asks (id : Identifier) (rs : List Bytes) : Bool :=
  let again (flat : U8) : Bool :=
    match rs with
    | [] => true
    | [status :: _] => status &&& ((1 : U8) <<< flat) = 0
    | _ => false
  asksByKind id (again 2) (again 7)

/-- `memory_model.rs` 65 `impl ParseFromModule for MemoryModel`. -/
def decoder : ModuleDecoder MemoryModel := ⟨reads, parse, asks⟩

end MemoryModel

end Xcvr
