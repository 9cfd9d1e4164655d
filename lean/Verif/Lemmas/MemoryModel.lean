import Verif.Lemmas.Decode

/-! # Lemmas about decoding power control and the memory model -/

namespace Xcvr

open Spec

namespace PowerControl

theorem decode_sff {id} (h : SffModule id) (mem : ModuleMemory) :
    decodeFrom decoder id mem = .ok (sffPowerControl mem) := by
  show (reads id).bind _ = _
  rw [reads_sff h]
  show parse id [[sffLow mem 93]] = _
  rw [parse, Decode.byKind_sff h, sffPowerControl]
  have (x : U8) : (if x &&& 0b1 = 0 then useLpModePin else overrideLpModePin (x &&& 0b10 != 0)) =
      if bit x 0 then overrideLpModePin (bit x 1) else useLpModePin := by
    revert x; decide +kernel
  exact congrArg Exec.ok (this _)

theorem decode_cmis {id} (h : CmisModule id) (mem : ModuleMemory) :
    decodeFrom decoder id mem = .ok (cmisPowerControl mem) := by
  show (reads id).bind _ = _
  rw [reads_cmis h]
  show parse id [[cmisLow mem 26]] = _
  rw [parse, Decode.byKind_cmis h, cmisPowerControl]
  have (x : U8) : (if x &&& 0b01000000 ≠ 0 then useLpModePin else overrideLpModePin (x &&& 0b00010000 != 0)) =
      if bit x 6 then useLpModePin else overrideLpModePin (bit x 4) := by
    revert x; decide +kernel
  exact congrArg Exec.ok (this _)

end PowerControl

namespace MemoryModel

/-- The sorted pages of a paged SFF-8636 module. -/
def sffSorted (x : U8) : List Page :=
  [.sff8636 (.upper 0x00)] ++ (if bit x 6 then [.sff8636 (.upper 0x01)] else []) ++
  (if bit x 7 then [.sff8636 (.upper 0x02)] else []) ++ [.sff8636 (.upper 0x03)] ++
  (if bit x 0 then [.sff8636 (.upper 0x20), .sff8636 (.upper 0x21)] else [])

/-- The sorted pages of a paged CMIS module. -/
def cmisSorted (b : U8) (x : U8) : List Page :=
  [.cmis (.upper ⟨none, 0x00⟩), .cmis (.upper ⟨none, 0x01⟩), .cmis (.upper ⟨none, 0x02⟩)] ++
  (if bit x 2 then [.cmis (.upper ⟨none, 0x03⟩)] else []) ++
  [.cmis (.upper ⟨some b, 0x10⟩), .cmis (.upper ⟨some b, 0x11⟩)] ++
  (if bit x 5 then [.cmis (.upper ⟨some b, 0x13⟩), .cmis (.upper ⟨some b, 0x14⟩)] else [])

theorem sffPages_eq (x : U8) :
    (sffPages x).bind (fun p => .ok (paged (stableSort Page.le p))) = .ok (paged (sffSorted x)) := by
  revert x; decide +kernel

/-- The highest bank for an advertising byte. -/
def bankOf (x : U8) : Option U8 := match x.toNat % 4 with | 0 => some 0 | 1 => some 1 | 2 => some 3 | _ => none

theorem cmisPages_eq (x : U8) :
    (cmisPages x).bind (fun p => .ok (paged (stableSort Page.le p))) =
      match bankOf x with | some b => .ok (paged (cmisSorted b x)) | none => .panic := by
  revert x; decide +kernel

theorem decode_sff {id} (h : SffModule id) (mem : ModuleMemory) :
    decodeFrom decoder id mem =
      if bit (sffLow mem 2) 2 then .ok .flat else .ok (.paged (sffSorted (sffUp00 mem 195))) := by
  show (reads id).bind _ = _
  rw [reads_sff h]
  show parse id [[sffLow mem 2], [sffUp00 mem 195]] = _
  rw [parse, Decode.byKind_sff h]
  have hc (x : U8) : (x &&& ((1 : U8) <<< 2) = 0) ↔ ¬ bit x 2 = true := by revert x; decide +kernel
  rw [← sffPages_eq]
  show (if sffLow mem 2 &&& ((1 : U8) <<< 2) = 0 then _ else _) = _
  by_cases hb : bit (sffLow mem 2) 2 = true
  · rw [if_neg (by rw [hc]; exact not_not_intro hb), if_pos hb]; rfl
  · rw [if_pos (by rw [hc]; exact hb), if_neg hb]; rfl

theorem decode_cmis {id} (h : CmisModule id) (mem : ModuleMemory) :
    decodeFrom decoder id mem =
      if bit (cmisLow mem 2) 7 then .ok .flat
      else match cmisMaxBankOf mem with | some b => .ok (.paged (cmisSorted b (cmisUp mem 1 142))) | none => .panic := by
  show (reads id).bind _ = _
  rw [reads_cmis h]
  show parse id [[cmisLow mem 2], [cmisUp mem 1 142]] = _
  rw [parse, Decode.byKind_cmis h]
  have hc (x : U8) : (x &&& ((1 : U8) <<< 7) = 0) ↔ ¬ bit x 7 = true := by revert x; decide +kernel
  have := cmisPages_eq (cmisUp mem 1 142)
  show (if cmisLow mem 2 &&& ((1 : U8) <<< 7) = 0 then _ else _) = _
  by_cases hb : bit (cmisLow mem 2) 7 = true
  · rw [if_neg (by rw [hc]; exact not_not_intro hb), if_pos hb]; rfl
  · rw [if_pos (by rw [hc]; exact hb), if_neg hb]; exact this

theorem sffSorted_increasing (x : U8) : Increasing (sffSorted x) := by
  unfold sffSorted Increasing
  cases bit x 6 <;> cases bit x 7 <;> cases bit x 0 <;> simp [Page.page]

theorem cmisSorted_increasing (b x : U8) : Increasing (cmisSorted b x) := by
  unfold cmisSorted Increasing
  cases bit x 2 <;> cases bit x 5 <;> simp [Page.page]

theorem mem_sffSorted (mem : ModuleMemory) (p : Page) : p ∈ sffSorted (sffUp00 mem 195) ↔ SffHasPage mem p := by
  unfold sffSorted SffHasPage
  generalize sffUp00 mem 195 = x
  cases bit x 6 <;> cases bit x 7 <;> cases bit x 0 <;> simp <;> grind

theorem mem_cmisSorted (mem : ModuleMemory) (b : U8) (p : Page) :
    p ∈ cmisSorted b (cmisUp mem 1 142) ↔ CmisHasPage mem b p := by
  unfold cmisSorted CmisHasPage
  generalize cmisUp mem 1 142 = x
  cases bit x 2 <;> cases bit x 5 <;> simp <;> grind

end MemoryModel

end Xcvr
