import Verif.Model.CliTable
import Verif.Spec.MemoryMap
import Verif.Spec.Info

/-! # Specification: what the datapath command shows -/

namespace Xcvr.Spec

open Xcvr Cli

/-- What a grid shows in the row and the column so headed. -/
def gridCell (g : List Lines) (row col : List Char) : Option (List Char) :=
  match g with
  | head :: rows => (rows.find? fun r => r.head? == some row).bind fun r =>
      ((head.zip r).find? fun c => c.1 == col).map Prod.snd
  | [] => none

/-- The heading of a lane. -/
def laneName (n : Nat) : List Char := chars!"Lane " ++ [Char.ofNat (48 + n)]

/-- SFF-8636 tables 6-4, 6-5, 6-9: rows of flags, their byte in the lower page, the bit of the first lane, and whether the
bit is inverted. -/
def sffFlags : List (List Char × Nat × Nat × Bool) := [
  (chars!"Tx enabled", 86, 0, true), (chars!"Tx LOS", 3, 4, false), (chars!"Tx LOL", 5, 4, false),
  (chars!"Tx CDR enabled", 98, 4, false), (chars!"Tx adapt EQ fault", 4, 4, false), (chars!"Tx fault", 4, 0, false),
  (chars!"Rx LOS", 3, 0, false), (chars!"Rx LOL", 5, 0, false), (chars!"Rx CDR enabled", 98, 0, false)]

/-- The grid of an SFF-8636 module: a column for each of the lanes 0 to 3, a row for each flag. -/
structure SffGrid (mem : ModuleMemory) (g : List Lines) : Prop where
  head : g.head? = some [[], laneName 0, laneName 1, laneName 2, laneName 3]
  rows : g.tail.map List.head? = sffFlags.map fun f => some f.1
  rectangular : ∀ r ∈ g, r.length = 5
  cell : ∀ f ∈ sffFlags, ∀ k, k < 4 → gridCell g f.1 (laneName k) =
    some (if bit (sffLow mem f.2.1) (f.2.2.1 + k) != f.2.2.2 then chars!"true" else chars!"false")

/-- A row of the grid of a CMIS module: what advertises it (a byte of page 01 and a bit, if it is optional), its page (of
bank 0) and byte, and the text for a set and for a clear bit. -/
structure CmisFlag where
  name : List Char
  support : Option (Nat × Nat)
  page : U8
  byte : Nat
  set : List Char
  clear : List Char

/-- CMIS tables 8-44, 8-61, 8-75, 8-77, 8-78. -/
def cmisFlags : List CmisFlag := [
  ⟨chars!"Tx enabled", some (155, 1), 0x10, 130, chars!"false", chars!"true"⟩,
  ⟨chars!"Tx input polarity", some (155, 0), 0x10, 129, chars!"Flipped", chars!"Normal"⟩,
  ⟨chars!"Tx auto-squelch", some (155, 2), 0x10, 131, chars!"Disabled", chars!"Enabled"⟩,
  ⟨chars!"Tx force-squelch", some (155, 3), 0x10, 132, chars!"true", chars!"false"⟩,
  ⟨chars!"Tx output", none, 0x11, 133, chars!"Valid", chars!"Invalid"⟩,
  ⟨chars!"Tx failure", some (157, 0), 0x11, 135, chars!"true", chars!"false"⟩,
  ⟨chars!"Tx LOS", some (157, 1), 0x11, 136, chars!"true", chars!"false"⟩,
  ⟨chars!"Tx LOL", some (157, 2), 0x11, 137, chars!"true", chars!"false"⟩,
  ⟨chars!"Tx adaptive EQ fail", some (157, 3), 0x11, 138, chars!"true", chars!"false"⟩,
  ⟨chars!"Rx enabled", some (156, 1), 0x10, 138, chars!"false", chars!"true"⟩,
  ⟨chars!"Rx output polarity", some (156, 0), 0x10, 137, chars!"Flipped", chars!"Normal"⟩,
  ⟨chars!"Rx auto-squelch", some (156, 2), 0x10, 139, chars!"Disabled", chars!"Enabled"⟩,
  ⟨chars!"Rx output", none, 0x11, 132, chars!"Valid", chars!"Invalid"⟩,
  ⟨chars!"Rx LOS", some (158, 1), 0x11, 147, chars!"true", chars!"false"⟩,
  ⟨chars!"Rx LOL", some (158, 2), 0x11, 148, chars!"true", chars!"false"⟩]

/-- The text for lane `i` (0-7). -/
def CmisFlag.text (f : CmisFlag) (mem : ModuleMemory) (i : Nat) : List Char :=
  if f.support.all fun s => bit (cmisUp mem 1 s.1) s.2 then
    if bit (cmisBank0 mem f.page f.byte) i then f.set else f.clear
  else chars!"Unsupported"

/-- The lanes (0-7) assigned to an application. -/
def lanesOf (mem : ModuleMemory) (app : Nat) : List Nat := (List.range 8).filter fun i => assigned mem i == app

/-- The applications that lanes are assigned to. -/
def applicationsUsed (mem : ModuleMemory) : List Nat :=
  (List.range 16).filter fun k => k != 0 && (List.range 8).any fun i => assigned mem i == k

/-- The grid of an application: a column for each lane assigned to it, counted from 1, a row for the state (see C61) and one
for each flag. -/
structure CmisGrid (mem : ModuleMemory) (app : Nat) (g : List Lines) : Prop where
  head : g.head? = some ([] :: (lanesOf mem app).map fun i => laneName (i + 1))
  rows : g.tail.map List.head? = some chars!"State" :: cmisFlags.map fun f => some f.name
  rectangular : ∀ r ∈ g, r.length = (lanesOf mem app).length + 1
  cell : ∀ f ∈ cmisFlags, ∀ i ∈ lanesOf mem app, gridCell g f.name (laneName (i + 1)) = some (f.text mem i)

/-- The lanes in use: those whose bit in byte 209 of page 00 (lanes not supported) is clear. -/
def supportedLanes (mem : ModuleMemory) : List Char :=
  [','].intercalate (((List.range 8).filter fun i => !bit (cmisUp mem 0 209) i).map fun i => [Char.ofNat (49 + i)])

/-- CMIS table 8-17: the name of a media interface and, in parentheses, the kind of media, from the codes of both. -/
def mediaNamed (kind code : U8) : List Char :=
  match kind.toNat with
  | 1 => (Bf.ofByte code : MmfMediaInterfaceId).display ++ chars!" (MMF)"
  | 2 => (Bf.ofByte code : SmfMediaInterfaceId).display ++ chars!" (SMF)"
  | 3 => (Bf.ofByte code : PassiveCopperMediaInterfaceId).display ++ chars!" (Passive copper)"
  | 4 => (Bf.ofByte code : ActiveCableMediaInterfaceId).display ++ chars!" (Active cable)"
  | 5 => (Bf.ofByte code : BaseTMediaInterfaceId).display ++ chars!" (BASE-T)"
  | _ => []

/-- What is shown of an application. -/
def ApplicationText (fmt : Fmt) (mem : ModuleMemory) (k : Nat) (ls : Lines) : Prop :=
  ∃ g, k ≠ 0 ∧ MediaKnown mem ∧ CmisGrid mem k g ∧ ls =
    [chars!"   Application ID: " ++ decimal (BitVec.ofNat 8 k),
     chars!"  Supported lanes: [" ++ supportedLanes mem ++ chars!"]",
     chars!"   Host interface: " ++ (Bf.ofByte (cmisLow mem (86 + 4 * (k - 1))) : HostElectricalInterfaceId).display,
     chars!"  Media interface: " ++ mediaNamed (cmisLow mem 85) (cmisLow mem (86 + 4 * (k - 1) + 1)),
     fmt.grid g, []]

/-- What is shown of a module. -/
def DatapathText (fmt : Fmt) (mem : ModuleMemory) (port : U8) (ls : Lines) : Prop :=
  (SffModule (Bf.ofByte (mem (.sff8636 .lower) 0)) ∧ ∃ g, SffGrid mem g ∧ ls =
    [chars!"Port " ++ decimal port,
     chars!"        Connector: " ++ (Bf.ofByte (sffUp00 mem 130) : ConnectorType).display,
     chars!"    Specification: " ++ (if sffUp00 mem 131 = 0x80 then
       (Bf.ofByte (sffUp00 mem 192) : ExtendedSpecificationComplianceCode).display
       else (⟨sffUp00 mem 131⟩ : EthernetComplianceCode).display),
     [], fmt.grid g]) ∨
  (CmisModule (Bf.ofByte (mem (.sff8636 .lower) 0)) ∧ ∃ apps, Pairs (ApplicationText fmt mem) (applicationsUsed mem) apps ∧
    ls = [chars!"Port " ++ decimal port,
      chars!"        Connector: " ++ (Bf.ofByte (cmisUp mem 0 203) : ConnectorType).display] ++ apps.flatten)

end Xcvr.Spec
