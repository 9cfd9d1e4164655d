import Verif.Model.Prim

/-!
# Reads of any length, as a CMIS datapath is taken from them

The fifteen reads are: connector and lanes (0), lane configuration (1), media type (2), media lane assignments (3), four
reads of application descriptors (4 to 7), advertised controls (8), controls (9, 10), datapath states (11), output
status (12), transmit flags (13) and receive flags (14). Here they may be of any lengths.
-/

namespace Xcvr.Spec.Malformed

/-- Byte `j` of read `i`. -/
def byteOf (rs : List Bytes) (i j : Nat) : Option U8 := (rs[i]?.getD [])[j]?

/-- The length of read `i`; a read that is not there has no bytes. -/
def lengthOf (rs : List Bytes) (i : Nat) : Nat := (rs[i]?.getD []).length

/-- The first bytes of the whole groups of four in `b`. -/
def heads (b : Bytes) : Bytes := (List.range (b.length / 4)).map fun k => b[4 * k]?.getD 0

/-- The host interface codes of the application descriptors. -/
def hostCodes (rs : List Bytes) : Bytes := [4, 5, 6, 7].flatMap fun i => heads (rs[i]?.getD [])

/-- How many applications there are: those before the code that ends the list. -/
def described (rs : List Bytes) : Nat := ((hostCodes rs).takeWhile fun c => c != 0xff).length

/-- Lane `i` (from 0) is assigned to application `s`. -/
def AssignedTo (rs : List Bytes) (i s : Nat) : Prop := s ≠ 0 ∧ ∃ x : U8, byteOf rs 1 i = some x ∧ x.toNat / 16 = s

/-- What is needed whatever the lanes do. -/
structure FrontOk (rs : List Bytes) : Prop where
  connector : rs[0]?.map List.length = some 7
  lanes : rs[1]?.map List.length = some 8
  media : ∃ t : U8, byteOf rs 2 0 = some t ∧ (hostCodes rs ≠ [] → 1 ≤ t.toNat ∧ t.toNat ≤ 5)
  /-- One assignment for each descriptor that is looked at, which includes the one that ends the list. -/
  assignments : min (hostCodes rs).length (described rs + 1) ≤ lengthOf rs 3
  listed : ∀ i s, AssignedTo rs i s → s ≤ described rs
  all : 15 ≤ rs.length

/-- The bytes that are read before the state of lane `i` is looked at are there. -/
structure StateReached (rs : List Bytes) (i : Nat) : Prop where
  support : 4 ≤ lengthOf rs 8
  controls0 : 4 ≤ lengthOf rs 9
  controls1 : 6 ≤ lengthOf rs 10
  states : i / 2 < lengthOf rs 11
  status : 2 ≤ lengthOf rs 12
  txFlags : 4 ≤ lengthOf rs 13
  rxFlags : 1 ≤ lengthOf rs 14

/-- The code of the state of lane `i`: three bits, the upper ones of the byte for the first lane of a pair. -/
def stateCode (rs : List Bytes) (i : Nat) : Nat :=
  let x := ((byteOf rs 11 (i / 2)).getD 0).toNat
  if i % 2 = 0 then x / 16 % 8 else x % 8

/-- Everything for lane `i` is there. -/
def LaneRead (rs : List Bytes) (i : Nat) : Prop := StateReached rs i ∧ stateCode rs i ≠ 0 ∧ 2 ≤ lengthOf rs 14

/-- All there is wrong with lane `i`, up to its state, is its state. -/
def LaneUnknown (rs : List Bytes) (i : Nat) : Prop := StateReached rs i ∧ stateCode rs i = 0

/-- Lanes are looked at by application, then by number. -/
def Sooner (j t i s : Nat) : Prop := t < s ∨ t = s ∧ j < i

end Xcvr.Spec.Malformed
