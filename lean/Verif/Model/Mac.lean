import Verif.Model.Prim

/-!
# `messages/src/mac.rs`: MAC address ranges
-/

namespace Xcvr

/-- Rust `[u8; 6]` holding a MAC address. -/
structure Mac where
  b0 : U8
  b1 : U8
  b2 : U8
  b3 : U8
  b4 : U8
  b5 : U8
  deriving DecidableEq, Repr

/-- `mac.rs` 37-55 `BadMacAddrReason`, in declaration order. -/
inductive BadMacAddrReason where
  | spansMultipleOuis
  | zeroStrideOrCount
  | multicastBaseAddr
  deriving DecidableEq, Repr

/-- `mac.rs` 16-21 `BadMacAddrRange`. -/
structure BadMacAddrRange where
  reason : BadMacAddrReason
  baseMac : Mac
  count : U16
  stride : U8
  deriving DecidableEq, Repr

/-- `mac.rs` 59-70 `MacAddrs`. -/
structure MacAddrs where
  baseMac : Mac
  count : U16
  stride : U8
  deriving DecidableEq, Repr

/-- `u32::from_be_bytes` of four bytes. -/
def be32 (a b c d : U8) : U32 := a ++ b ++ c ++ d

/-- Byte `i` of `u32::to_be_bytes`. -/
def be32Byte (x : U32) (i : Nat) : U8 := x.extractLsb' (8 * (3 - i)) 8

/-- Rust `a * b` on `u32` with overflow checks: the product, or a panic. -/
def mulU32 {ε : Type} (a b : U32) : Exec ε U32 :=
  if a.toNat * b.toNat < 2 ^ 32 then .ok (a * b) else .panic

/-- Rust `a + b` on `u32` with overflow checks. -/
def addU32 {ε : Type} (a b : U32) : Exec ε U32 :=
  if a.toNat + b.toNat < 2 ^ 32 then .ok (a + b) else .panic

/-- `u32::checked_add`. -/
def checkedAddU32 (a b : U32) : Option U32 :=
  if a.toNat + b.toNat < 2 ^ 32 then some (a + b) else none

namespace MacAddrs

/-- The value of `base_n` computed at `mac.rs` 100 and 146-151. -/
def baseN (m : Mac) : U32 := be32 m.b2 m.b3 m.b4 m.b5

/-- `mac.rs` 79-116 `MacAddrs::new`. -/
def new (baseMac : Mac) (count : U16) (stride : U8) : Exec BadMacAddrRange MacAddrs :=
  if count == 0 || stride == 0 then .err ⟨.zeroStrideOrCount, baseMac, count, stride⟩
  else if baseMac.b0 &&& 1 != 0 then .err ⟨.multicastBaseAddr, baseMac, count, stride⟩
  else do
    let offset ← mulU32 (count.setWidth 32) (stride.setWidth 32)
    match checkedAddU32 (baseN baseMac) offset with
    | some last =>
      if be32Byte last 0 == baseMac.b2 then .ok ⟨baseMac, count, stride⟩
      else .err ⟨.spansMultipleOuis, baseMac, count, stride⟩
    | none => .err ⟨.spansMultipleOuis, baseMac, count, stride⟩

/-- `mac.rs` 142-172 `MacAddrs::nth`; lines 157 and 161 panic on overflow when overflow checks are on. -/
def nth (self : MacAddrs) (n : U16) : Exec Empty (Option Mac) :=
  if n ≥ self.count then .ok none
  else do
    let offset ← mulU32 (n.setWidth 32) (self.stride.setWidth 32)
    let newN ← addU32 (baseN self.baseMac) offset
    .ok (some ⟨self.baseMac.b0, self.baseMac.b1, self.baseMac.b2, be32Byte newN 1, be32Byte newN 2, be32Byte newN 3⟩)

end MacAddrs

/-- `mac.rs` 177-180 `MacAddrIter`. -/
structure MacAddrIter where
  macAddrs : MacAddrs
  current : U16
  deriving DecidableEq, Repr

/-- `mac.rs` 134-139 `MacAddrs::iter`. -/
def MacAddrs.iter (self : MacAddrs) : MacAddrIter := ⟨self, 0⟩

/-- `mac.rs` 185-193 `next`; `self.current += 1` panics on overflow. -/
def MacAddrIter.next (self : MacAddrIter) : Exec Empty (Option Mac × MacAddrIter) := do
  match ← self.macAddrs.nth self.current with
  | none => .ok (none, self)
  | some a =>
    if self.current.toNat + 1 < 2 ^ 16 then .ok (some a, { self with current := self.current + 1 })
    else .panic

/-- Calling `next` `k` times: the items returned and the final iterator. -/
def MacAddrIter.take : Nat → MacAddrIter → Exec Empty (List (Option Mac) × MacAddrIter)
  | 0, it => .ok ([], it)
  | k + 1, it => do
    let (x, it) ← it.next
    let (xs, it) ← take k it
    .ok (x :: xs, it)

end Xcvr
