import Verif.Model.Decode.Power
import Verif.Model.Decode.Vendor
import Verif.Model.Decode.MemoryModel
import Verif.Model.Decode.Monitors
import Verif.Model.Decode.Datapath
import Verif.Spec.Memory

/-!
# Specification: module memory maps and what they mean

A module's memory is a function from pages and absolute addresses to bytes. What a decoder reports must be a function of
the bytes at the documented addresses.
-/

namespace Xcvr.Spec

/-- The contents of a module's memory: the byte at an absolute address (0-255) of a page. -/
abbrev ModuleMemory := Page → Nat → U8

/-- What a module answers to a read. -/
def answer (mem : ModuleMemory) (r : MemoryRead) : Bytes :=
  (List.range r.len.toNat).map fun i => mem r.page (r.offset.toNat + i)

/-- Decode a module: make exactly the requested reads and parse the answers. -/
def decodeFrom {α : Type} (D : ModuleDecoder α) (id : Identifier) (mem : ModuleMemory) : Exec DecodeError α :=
  (D.reads id).bind fun rs => D.parse id (rs.map (answer mem))

/-- SFF-8024: QSFP+ and QSFP28 modules, managed by SFF-8636. -/
def SffModule (id : Identifier) : Prop := id = Bf.ofByte 0x0d ∨ id = Bf.ofByte 0x11

/-- SFF-8024: QSFP-DD modules and QSFP+ modules with CMIS. -/
def CmisModule (id : Identifier) : Prop := id = Bf.ofByte 0x18 ∨ id = Bf.ofByte 0x1e

/-! ## Reading bytes -/

/-- The lower page and upper page 00 of an SFF-8636 module. -/
abbrev sffLow (mem : ModuleMemory) : Nat → U8 := mem (.sff8636 .lower)
abbrev sffUp00 (mem : ModuleMemory) : Nat → U8 := mem (.sff8636 (.upper 0))

/-- The lower page, unbanked upper pages and bank 0 of banked upper pages of a CMIS module. -/
abbrev cmisLow (mem : ModuleMemory) : Nat → U8 := mem (.cmis .lower)
abbrev cmisUp (mem : ModuleMemory) (page : U8) : Nat → U8 := mem (.cmis (.upper ⟨none, page⟩))
abbrev cmisBank0 (mem : ModuleMemory) (page : U8) : Nat → U8 := mem (.cmis (.upper ⟨some 0, page⟩))

/-- `len` bytes from address `a` on. -/
def bytesAt (m : Nat → U8) (a len : Nat) : Bytes := (List.range len).map fun i => m (a + i)

/-- Is bit `k` (0 is the least significant) set? -/
def bit (x : U8) (k : Nat) : Bool := x.toNat / 2 ^ k % 2 == 1

/-- The unsigned number at `a` (most significant byte first). -/
def unsignedAt (m : Nat → U8) (a : Nat) : Nat := 256 * (m a).toNat + (m (a + 1)).toNat

/-- The two's complement number at `a`. -/
def signedAt (m : Nat → U8) (a : Nat) : Int :=
  if unsignedAt m a < 32768 then unsignedAt m a else (unsignedAt m a : Int) - 65536

/-! ## Power control -/

/-- SFF-8636 table 6-9, byte 93: bit 0 is software override, bit 1 forces low power. -/
def sffPowerControl (mem : ModuleMemory) : PowerControl :=
  if bit (sffLow mem 93) 0 then .overrideLpModePin (bit (sffLow mem 93) 1) else .useLpModePin

/-- CMIS table 8-10, byte 26: bit 6 lets the pin decide, bit 4 forces low power. -/
def cmisPowerControl (mem : ModuleMemory) : PowerControl :=
  if bit (cmisLow mem 26) 6 then .useLpModePin else .overrideLpModePin (bit (cmisLow mem 26) 4)

/-! ## Text -/

/-- The UTF-8 encoding of a character. -/
def utf8Encode (c : Char) : Bytes :=
  let n := c.toNat
  if n < 0x80 then [BitVec.ofNat 8 n]
  else if n < 0x800 then [BitVec.ofNat 8 (0xc0 + n / 64), BitVec.ofNat 8 (0x80 + n % 64)]
  else if n < 0x10000 then
    [BitVec.ofNat 8 (0xe0 + n / 4096), BitVec.ofNat 8 (0x80 + n / 64 % 64), BitVec.ofNat 8 (0x80 + n % 64)]
  else
    [BitVec.ofNat 8 (0xf0 + n / 262144), BitVec.ofNat 8 (0x80 + n / 4096 % 64), BitVec.ofNat 8 (0x80 + n / 64 % 64),
     BitVec.ofNat 8 (0x80 + n % 64)]

/-- `b` is the encoding of the text `s`. -/
def Encodes (s : List Char) (b : Bytes) : Prop := b = s.flatMap utf8Encode

/-- `s` is the text at the start of `b`, up to the first byte that does not continue it. -/
def TextPrefix (b : Bytes) (s : List Char) : Prop :=
  ∃ rest, b = s.flatMap utf8Encode ++ rest ∧ ∀ c r, rest ≠ utf8Encode c ++ r

/-- Unicode's white space characters. -/
def whiteSpace : List Nat :=
  [0x9, 0xa, 0xb, 0xc, 0xd, 0x20, 0x85, 0xa0, 0x1680, 0x2000, 0x2001, 0x2002, 0x2003, 0x2004, 0x2005, 0x2006, 0x2007,
   0x2008, 0x2009, 0x200a, 0x2028, 0x2029, 0x202f, 0x205f, 0x3000]

/-- `t` is `s` without its trailing white space. -/
def TrimmedEnd (s t : List Char) : Prop :=
  ∃ ws, s = t ++ ws ∧ (∀ c ∈ ws, c.toNat ∈ whiteSpace) ∧ ∀ u c, t = u ++ [c] → c.toNat ∉ whiteSpace

/-- `t` is the trimmed text at the start of `b`. -/
def IsText (b : Bytes) (t : List Char) : Prop := ∃ s, TextPrefix b s ∧ TrimmedEnd s t

/-- The date is reported verbatim if it is text, and is absent otherwise. -/
def IsDate (b : Bytes) (d : Option (List Char)) : Prop :=
  (∃ s, d = some s ∧ Encodes s b) ∨ (d = none ∧ ¬ ∃ s, Encodes s b)

/-- SFF-8636 table 6-14. -/
def SffVendor (mem : ModuleMemory) (v : Vendor) : Prop :=
  IsText (bytesAt (sffUp00 mem) 148 16) v.name ∧
  v.oui = ⟨sffUp00 mem 165, sffUp00 mem 166, sffUp00 mem 167⟩ ∧
  IsText (bytesAt (sffUp00 mem) 168 16) v.part ∧
  IsText (bytesAt (sffUp00 mem) 184 2) v.revision ∧
  IsText (bytesAt (sffUp00 mem) 196 16) v.serial ∧
  IsDate (bytesAt (sffUp00 mem) 212 8) v.date

/-- CMIS 5.0 table 8-24. -/
def CmisVendor (mem : ModuleMemory) (v : Vendor) : Prop :=
  IsText (bytesAt (cmisUp mem 0) 129 16) v.name ∧
  v.oui = ⟨cmisUp mem 0 145, cmisUp mem 0 146, cmisUp mem 0 147⟩ ∧
  IsText (bytesAt (cmisUp mem 0) 148 16) v.part ∧
  IsText (bytesAt (cmisUp mem 0) 164 2) v.revision ∧
  IsText (bytesAt (cmisUp mem 0) 166 16) v.serial ∧
  IsDate (bytesAt (cmisUp mem 0) 182 8) v.date

/-! ## Memory model -/

/-- The upper pages of an SFF-8636 module with paged memory: 00 and 03 always; byte 195 of page 00 advertises 02 (bit 7),
01 (bit 6), and 20 with 21 (bit 0). -/
def SffHasPage (mem : ModuleMemory) (p : Page) : Prop :=
  p = .sff8636 (.upper 0x00) ∨ p = .sff8636 (.upper 0x03) ∨
  (bit (sffUp00 mem 195) 7 = true ∧ p = .sff8636 (.upper 0x02)) ∨
  (bit (sffUp00 mem 195) 6 = true ∧ p = .sff8636 (.upper 0x01)) ∨
  (bit (sffUp00 mem 195) 0 = true ∧ (p = .sff8636 (.upper 0x20) ∨ p = .sff8636 (.upper 0x21)))

/-- The upper pages of a CMIS module with paged memory: 00, 01, 02, 10 and 11 always; byte 142 of page 01 advertises 03
(bit 2) and 13 with 14 (bit 5), and the highest bank of banked pages (bits 1-0). -/
def CmisHasPage (mem : ModuleMemory) (maxBank : U8) (p : Page) : Prop :=
  p = .cmis (.upper ⟨none, 0x00⟩) ∨ p = .cmis (.upper ⟨none, 0x01⟩) ∨ p = .cmis (.upper ⟨none, 0x02⟩) ∨
  p = .cmis (.upper ⟨some maxBank, 0x10⟩) ∨ p = .cmis (.upper ⟨some maxBank, 0x11⟩) ∨
  (bit (cmisUp mem 1 142) 2 = true ∧ p = .cmis (.upper ⟨none, 0x03⟩)) ∨
  (bit (cmisUp mem 1 142) 5 = true ∧
    (p = .cmis (.upper ⟨some maxBank, 0x13⟩) ∨ p = .cmis (.upper ⟨some maxBank, 0x14⟩)))

/-- CMIS table 8-40: one, two or four banks; the fourth code is reserved. -/
def cmisMaxBankOf (mem : ModuleMemory) : Option U8 :=
  match (cmisUp mem 1 142).toNat % 4 with
  | 0 => some 0
  | 1 => some 1
  | 2 => some 3
  | _ => none

/-- Pages are listed by increasing page number, without repeats. -/
def Increasing (pages : List Page) : Prop :=
  pages.Pairwise fun p q => ∃ a b, p.page = some a ∧ q.page = some b ∧ a.toNat < b.toNat

/-! ## Monitors -/

/-- Degrees Celsius, volts, milliwatts and milliamperes at an address. All but the first are rounded as arithmetic with `f32`
rounds: C100 says how far they are from the exact values. -/
def celsiusAt (m : Nat → U8) (a : Nat) : Rat := (signedAt m a : Rat) / 256
def voltsAt (m : Nat → U8) (a : Nat) : Rat := single (unsignedAt m a * single (1 / 10000))
def milliwattsAt (m : Nat → U8) (a : Nat) : Rat := single (single (unsignedAt m a * single (1 / 10000000)) * 1000)
def milliampsAt (m : Nat → U8) (a : Nat) : Rat := single (single (unsignedAt m a * single (2 / 1000000)) * 1000)

/-- The value is there if the module says so. -/
def given {β : Type} (c : Bool) (x : β) : Option β := if c then some x else none

/-- Both bytes all zeros or all ones. -/
def implausible (m : Nat → U8) (a : Nat) : Bool :=
  (m a == 0 && m (a + 1) == 0) || (m a == 0xff && m (a + 1) == 0xff)

/-- The received power of a lane. -/
def rxPowerAt (average : Bool) (m : Nat → U8) (a : Nat) : ReceiverPower :=
  if average then .average (milliwattsAt m a) else .peakToPeak (milliwattsAt m a)

/-- SFF-8636 tables 6-3, 6-7, 6-8, 6-23. Modules before revision 2.8 (revision code below 8) do not advertise temperature
and voltage; they are reported if plausible. -/
def sffMonitors (mem : ModuleMemory) : Monitors :=
  let L := sffLow mem
  let support := sffUp00 mem 220
  let old := decide ((L 1).toNat < 8)
  { temperature := given (if old then !implausible L 22 else bit support 5) (celsiusAt L 22)
    supplyVoltage := given (if old then !implausible L 26 else bit support 4) (voltsAt L 26)
    receiverPower := some ([34, 36, 38, 40].map (rxPowerAt (bit support 3) L))
    transmitterBiasCurrent := given (bit support 2) ([42, 44, 46, 48].map (milliampsAt L))
    transmitterPower := given (bit support 2) ([50, 52, 54, 56].map (milliwattsAt L))
    auxMonitors := none }

/-- CMIS table 8-47: the multiplier of bias currents, bits 4-3 of byte 160; the fourth code is reserved. -/
def cmisBiasScale (mem : ModuleMemory) : Option Rat :=
  match (cmisUp mem 1 160).toNat / 8 % 4 with
  | 0 => some 1
  | 1 => some 2
  | 2 => some 4
  | _ => none

/-- CMIS 5.0 sections 8.2.5, 8.4.9 and 8.9.4: the monitors other than the auxiliary ones. -/
def CmisMonitorsMain (mem : ModuleMemory) (scale : Rat) (m : Monitors) : Prop :=
  let support := cmisUp mem 1 159
  let lanes := cmisUp mem 1 160
  let D := cmisBank0 mem 0x11
  m.temperature = given (bit support 0) (celsiusAt (cmisLow mem) 14) ∧
  m.supplyVoltage = given (bit support 1) (voltsAt (cmisLow mem) 16) ∧
  m.transmitterPower = given (bit lanes 1) ([154, 156, 158, 160, 162, 164, 166, 168].map (milliwattsAt D)) ∧
  m.transmitterBiasCurrent =
    given (bit lanes 0) ([170, 172, 174, 176, 178, 180, 182, 184].map fun a => milliampsAt D a * scale) ∧
  m.receiverPower =
    given (bit lanes 2) ([186, 188, 190, 192, 194, 196, 198, 200].map (rxPowerAt (bit (cmisUp mem 1 151) 4) D))

/-- CMIS table 8-9: what each auxiliary monitor measures is in byte 145 of page 01. A thermo-electric cooler current is a
fraction of the maximum, positive when heating and negative when cooling; the fraction is rounded. -/
def cmisAux (mem : ModuleMemory) : AuxMonitors :=
  let support := cmisUp mem 1 159
  let kinds := cmisUp mem 1 145
  let L := cmisLow mem
  { aux1 := given (bit support 2) (if bit kinds 0 then .tecCurrent (single ((signedAt L 18 : Rat) / 32767))
      else .custom (L 18, L 19))
    aux2 := given (bit support 3) (if bit kinds 1 then .tecCurrent (single ((signedAt L 20 : Rat) / 32767))
      else .laserTemperature (celsiusAt L 20))
    aux3 := given (bit support 4) (if bit kinds 2 then .additionalSupplyVoltage (voltsAt L 22)
      else .laserTemperature (celsiusAt L 22))
    custom := given (bit support 5) (L 24, L 25) }

/-- At least one auxiliary monitor is advertised. -/
def AuxAdvertised (mem : ModuleMemory) : Prop :=
  bit (cmisUp mem 1 159) 2 = true ∨ bit (cmisUp mem 1 159) 3 = true ∨ bit (cmisUp mem 1 159) 4 = true ∨
  bit (cmisUp mem 1 159) 5 = true

/-- Auxiliary monitors as documented. -/
def CmisMonitorsAux (mem : ModuleMemory) (m : Monitors) : Prop :=
  (AuxAdvertised mem ∧ m.auxMonitors = some (cmisAux mem)) ∨ (¬ AuxAdvertised mem ∧ m.auxMonitors = none)

/-! ## Datapaths -/

/-- SFF-8636 tables 6-4, 6-5, 6-9: the flags of lane `k` (0-3). -/
def sffLaneFlags (mem : ModuleMemory) (k : Nat) : Sff8636Datapath :=
  let L := sffLow mem
  { txEnabled := !bit (L 86) k
    txLos := bit (L 3) (k + 4)
    rxLos := bit (L 3) k
    txAdaptiveEqFault := bit (L 4) (k + 4)
    txFault := bit (L 4) k
    txLol := bit (L 5) (k + 4)
    rxLol := bit (L 5) k
    txCdrEnabled := bit (L 98) (k + 4)
    rxCdrEnabled := bit (L 98) k }

/-- The datapath report of an SFF-8636 module: connector (byte 130), compliance (byte 131, or the extended code of byte
192 when byte 131 says so), and four lanes. -/
def sffDatapath (mem : ModuleMemory) : Datapath :=
  .sff8636 (Bf.ofByte (sffUp00 mem 130))
    (if sffUp00 mem 131 = 0x80 then .extended (Bf.ofByte (sffUp00 mem 192)) else .ethernet ⟨sffUp00 mem 131⟩)
    ([0, 1, 2, 3].map (sffLaneFlags mem))

/-- The application that lane `i` (0-7) is assigned to: the upper half of its configuration byte; zero means none. -/
def assigned (mem : ModuleMemory) (i : Nat) : Nat := (cmisBank0 mem 0x11 (206 + i)).toNat / 16

/-- The number of applications before the end marker (host interface 0xff), of eight. -/
def applicationCount (mem : ModuleMemory) : Nat :=
  ((List.range 8).takeWhile fun i => cmisLow mem (86 + 4 * i) != 0xff).length

/-- The descriptor of application `k` (1-8) as documented: four bytes of the lower page from 86 on, and byte 176 and on of
page 01. -/
def IsApplication (mem : ModuleMemory) (k : Nat) (app : ApplicationDescriptor) : Prop :=
  let a := 86 + 4 * (k - 1)
  app.hostId = Bf.ofByte (cmisLow mem a) ∧
  MediaInterfaceId.fromU8 (Bf.ofByte (cmisLow mem 85)) (cmisLow mem (a + 1)) = some app.mediaId ∧
  app.hostLaneCount.toNat = (cmisLow mem (a + 2)).toNat / 16 ∧
  app.mediaLaneCount.toNat = (cmisLow mem (a + 2)).toNat % 16 ∧
  app.hostLaneAssignmentOptions = cmisLow mem (a + 3) ∧
  app.mediaLaneAssignmentOptions = cmisUp mem 1 (176 + (k - 1))

/-- A flag of lane `i`: absent unless bit `b` of the support byte advertises it. -/
def advertised (support : U8) (b : Nat) (x : U8) (i : Nat) : Option Bool := given (bit support b) (bit x i)

/-- CMIS tables 8-44, 8-61, 8-75, 8-77, 8-78: the controls and flags of lane `i` (0-7). -/
def LaneFlags (mem : ModuleMemory) (i : Nat) (st : CmisLaneStatus) : Prop :=
  let S := cmisUp mem 0x01
  let C := cmisBank0 mem 0x10
  let F := cmisBank0 mem 0x11
  st.txInputPolarity = (advertised (S 155) 0 (C 129) i).map (fun x => if x then .flipped else .normal) ∧
  st.txOutputEnabled = (advertised (S 155) 1 (C 130) i).map (! ·) ∧
  st.txAutoSquelchDisable = advertised (S 155) 2 (C 131) i ∧
  st.txForceSquelch = advertised (S 155) 3 (C 132) i ∧
  st.rxOutputPolarity = (advertised (S 156) 0 (C 137) i).map (fun x => if x then .flipped else .normal) ∧
  st.rxOutputEnabled = (advertised (S 156) 1 (C 138) i).map (! ·) ∧
  st.rxAutoSquelchDisable = advertised (S 156) 2 (C 139) i ∧
  st.rxOutputStatus = (if bit (F 132) i then .valid else .invalid) ∧
  st.txOutputStatus = (if bit (F 133) i then .valid else .invalid) ∧
  st.txFailure = advertised (S 157) 0 (F 135) i ∧
  st.txLos = advertised (S 157) 1 (F 136) i ∧
  st.txLol = advertised (S 157) 2 (F 137) i ∧
  st.txAdaptiveEqFail = advertised (S 157) 3 (F 138) i ∧
  st.rxLos = advertised (S 158) 1 (F 147) i ∧
  st.rxLol = advertised (S 158) 2 (F 148) i

/-- CMIS table 8-73: the state of lane `i` (0-7) is a nibble of byte 128 + i / 2 of page 11, the low one for the first of
the two lanes. -/
def laneStateCode (mem : ModuleMemory) (i : Nat) : Nat :=
  let x := (cmisBank0 mem 0x11 (128 + i / 2)).toNat
  if i % 2 = 0 then x % 16 else x / 16

/-- The other nibble of the same byte. -/
def otherLaneStateCode (mem : ModuleMemory) (i : Nat) : Nat :=
  let x := (cmisBank0 mem 0x11 (128 + i / 2)).toNat
  if i % 2 = 0 then x / 16 else x % 16

/-- CMIS table 8-17: media types 1 to 5 have interface codes; 0 is undefined and the others are reserved or custom. -/
def MediaKnown (mem : ModuleMemory) : Prop := 1 ≤ (cmisLow mem 85).toNat ∧ (cmisLow mem 85).toNat ≤ 5

/-- Lanes are assigned only to applications in the list. -/
def AssignedListed (mem : ModuleMemory) : Prop := ∀ i, i < 8 → assigned mem i ≤ applicationCount mem

/-- The datapaths group the assigned lanes by application. Lanes are numbered from 1. -/
structure Grouped (mem : ModuleMemory) (dps : List (U8 × CmisDatapath)) : Prop where
  /-- Applications are listed in increasing order, without repeats. -/
  increasing : dps.Pairwise fun a b => a.1.toNat < b.1.toNat
  /-- Each datapath has the documented description of its application. -/
  application : ∀ e ∈ dps, e.1.toNat ≠ 0 ∧ IsApplication mem e.1.toNat e.2.application
  /-- Each datapath has at least one lane; lanes are listed in increasing order, without repeats. -/
  lanesIncreasing : ∀ e ∈ dps, e.2.laneStatus ≠ [] ∧ e.2.laneStatus.Pairwise fun a b => a.1.toNat < b.1.toNat
  /-- Lanes in a datapath are assigned to it, and have their own flags. -/
  sound : ∀ e ∈ dps, ∀ l ∈ e.2.laneStatus, ∃ i, i < 8 ∧ l.1.toNat = i + 1 ∧ assigned mem i = e.1.toNat ∧ LaneFlags mem i l.2
  /-- Every assigned lane is in its datapath. -/
  complete : ∀ i, i < 8 → assigned mem i ≠ 0 →
    ∃ e ∈ dps, e.1.toNat = assigned mem i ∧ ∃ l ∈ e.2.laneStatus, l.1.toNat = i + 1

end Xcvr.Spec
