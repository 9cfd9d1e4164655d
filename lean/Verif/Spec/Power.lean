import Verif.Model.Power
import Verif.Spec.Info
import Verif.Spec.MemoryMap

/-! # Specification: power -/

namespace Xcvr.Spec

open Xcvr

/-- A status byte of a module without power, or held in reset: power good (bit 5) and enabled (bit 1) are not both set, or
reset (bit 2) is. -/
def NeedsPower (s : U8) : Prop := bit s 5 = false ∨ bit s 1 = false ∨ bit s 2 = true

instance (s : U8) : Decidable (NeedsPower s) := inferInstanceAs (Decidable (_ ∨ _ ∨ _))

/-- The mode of a powered module: its software setting if that overrides the pin, the low power pin (status bit 3)
otherwise. -/
def modeFor (c : PowerControl) (s : U8) : PowerMode :=
  match c with
  | .overrideLpModePin low => ⟨if low then .low else .high, some true⟩
  | .useLpModePin => ⟨if bit s 3 then .low else .high, some false⟩

/-- The mode of port `p`, given the status exchange, the exchanges that identified the readable modules, and those that
read their power control bytes. -/
def ModeOf (x : Exchange) (t₁ t₂ : List Exchange) (p : Nat) (mode : PowerMode) : Prop :=
  ∃ s, okIn x p = some [s] ∧
    ((NeedsPower s ∧ mode = ⟨.off, none⟩) ∨
     (¬ NeedsPower s ∧ ∃ c, Gave PowerControl.decoder t₁ t₂ p c ∧ mode = modeFor c s))

/-- The byte `b` at the write's address selects software override and low power, for a module that identified itself with
`code`: SFF-8636 byte 93, bits 0 and 1; CMIS byte 26, bits 6 (inverted) and 4. -/
def Selects (code : U8) (w : MemoryWrite) (b : U8) (ov low : Bool) : Prop :=
  (interfaceOfCode code = some .sff8636 ∧ w = ⟨.sff8636 .lower, 93, 1⟩ ∧ bit b 0 = ov ∧ bit b 1 = low) ∨
  (interfaceOfCode code = some .cmis ∧ w = ⟨.sff8636 .lower, 26, 1⟩ ∧ bit b 6 = !ov ∧ bit b 4 = low)

/-- The modules that can be read: their status says powered and out of reset. -/
def Readable (x : Exchange) (p : Nat) : Prop := ∃ s, okIn x p = some [s] ∧ ¬ NeedsPower s

/-- How a power report for modules `m` may end, given the status exchange, the exchanges that identified the readable
modules, and those that read their power control bytes. -/
def PowerEnds (m : ModuleId) (x : Exchange) (t₁ t₂ : List Exchange) : Exec CtlError (Res PowerMode) → Prop
  | .ok res => WF res ∧ Partition m res.modules res.failures.modules ∧
      (∀ p mode, okAt res p = some mode → ModeOf x t₁ t₂ p mode) ∧
      (∀ p s, okIn x p = some [s] → NeedsPower s → okAt res p = some ⟨.off, none⟩) ∧
      ∀ p, Failed res p → (errIn x p).isSome ∨ ∃ e, OwnError PowerControl.decoder t₁ t₂ p e
  | .err e => ∃ p b, Readable x p ∧ Identified t₁ p b ∧ interfaceOfCode b = none ∧
      e = .transceiver (.decode (.unsupportedIdentifier (Bf.ofByte b)))
  | .panic => False

/-- The identifier of a module: byte 0 of its lower page. -/
def codeOf (mem : ModuleMemory) : U8 := mem (.sff8636 .lower) 0

/-- The power control of a module, by its memory. -/
def controlIn (mem : ModuleMemory) : Option PowerControl :=
  match interfaceOfCode (codeOf mem) with
  | some .sff8636 => some (sffPowerControl mem)
  | some .cmis => some (cmisPowerControl mem)
  | _ => none

end Xcvr.Spec
