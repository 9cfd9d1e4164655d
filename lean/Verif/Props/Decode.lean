import Verif.Lemmas.Monitors
import Verif.Lemmas.MemoryModel
import Verif.Lemmas.Vendor
import Verif.Lemmas.Datapath

/-! # Decoding module memory: C53-C61 -/

namespace Xcvr

open Spec

/-! ## Sample modules -/

/-- A memory filled with one byte. -/
def constMemory (x : U8) : ModuleMemory := fun _ _ => x

/-- A CMIS module: the byte is given by page number (`none` for the lower page) and address. -/
def cmisMemory (f : Option U8 → Nat → U8) : ModuleMemory := fun p a => f p.page a

/-- A module with one application on two lanes (1 and 3), states 0x4 and 0x1 in the low and high nibbles. -/
def sampleCmis : ModuleMemory := cmisMemory fun
  | none, 85 => 2 | none, 86 => 0x11 | none, 87 => 0x1c | none, 88 => 0x21 | none, 89 => 1 | none, 90 => 0xff
  | some 1, 155 => 0xff | some 1, 157 => 0xff | some 1, 159 => 0x07 | some 1, 145 => 0x01 | some 1, 142 => 0x26
  | some 0x10, 130 => 0x04
  | some 0x11, 206 => 0x10 | some 0x11, 208 => 0x10 | some 0x11, 128 => 0x14 | some 0x11, 129 => 0x14
  | some 0x11, 136 => 0x04
  | none, 18 => 0xff | none, 19 => 0xff | none, 14 => 0x1a | none, 15 => 0x80
  | some 0, 129 => 0x41 | some 0, 130 => 0x63 | some 0, 131 => 0x20
  | _, _ => 0

theorem cmisModule_dd : CmisModule (Bf.ofByte 0x18) := Or.inl rfl
theorem sffModule_28 : SffModule (Bf.ofByte 0x11) := Or.inr rfl

/-! ## C53: decoders never abort on the reads they request -/

/-- SFF-8636 modules: all five decoders succeed, whatever the memory holds. -/
theorem C53_sff {id} (h : SffModule id) (mem : ModuleMemory) :
    (∃ x, decodeFrom PowerControl.decoder id mem = .ok x) ∧ (∃ x, decodeFrom VendorInfo.decoder id mem = .ok x) ∧
    (∃ x, decodeFrom MemoryModel.decoder id mem = .ok x) ∧ (∃ x, decodeFrom Monitors.decoder id mem = .ok x) ∧
    (∃ x, decodeFrom Datapath.decoder id mem = .ok x) := by
  refine ⟨⟨_, PowerControl.decode_sff h mem⟩, ?_, ?_, ⟨_, Monitors.decode_sff h mem⟩, ⟨_, Datapath.decode_sff h mem⟩⟩
  · obtain ⟨v, hv, _⟩ := VendorInfo.decode_sff h mem; exact ⟨_, hv⟩
  · rw [MemoryModel.decode_sff h]; split <;> exact ⟨_, rfl⟩

/-- CMIS modules: power control and vendor information always succeed; the other decoders abort exactly on reserved values:
the fourth bank code of a paged module, the fourth bias multiplier, a media type without interface codes, or a lane
assigned to an application that is not listed. -/
theorem C53_cmis_partial {id} (h : CmisModule id) (mem : ModuleMemory) :
    (∃ x, decodeFrom PowerControl.decoder id mem = .ok x) ∧ (∃ x, decodeFrom VendorInfo.decoder id mem = .ok x) ∧
    (decodeFrom MemoryModel.decoder id mem = .panic ↔ bit (cmisLow mem 2) 7 = false ∧ (cmisUp mem 1 142).toNat % 4 = 3) ∧
    (decodeFrom Monitors.decoder id mem = .panic ↔ (cmisUp mem 1 160).toNat / 8 % 4 = 3) ∧
    (decodeFrom Datapath.decoder id mem = .panic ↔ ¬ MediaKnown mem ∨ ¬ AssignedListed mem) := by
  refine ⟨⟨_, PowerControl.decode_cmis h mem⟩, ?_, ?_, ?_, ?_⟩
  · obtain ⟨v, hv, _⟩ := VendorInfo.decode_cmis h mem; exact ⟨_, hv⟩
  · rw [MemoryModel.decode_cmis h, cmisMaxBankOf]
    cases bit (cmisLow mem 2) 7 with
    | true => simp
    | false =>
      have : (cmisUp mem 1 142).toNat % 4 < 4 := Nat.mod_lt _ (by decide)
      generalize (cmisUp mem 1 142).toNat % 4 = n at *
      match n, this with
      | 0, _ => simp
      | 1, _ => simp
      | 2, _ => simp
      | 3, _ => simp
  · rw [Monitors.decode_cmis h, Monitors.biasScale_eq, cmisBiasScale]
    have : (cmisUp mem 1 160).toNat / 8 % 4 < 4 := Nat.mod_lt _ (by decide)
    generalize (cmisUp mem 1 160).toNat / 8 % 4 = n at *
    match n, this with
    | 0, _ => simp [Exec.bind]
    | 1, _ => simp [Exec.bind]
    | 2, _ => simp [Exec.bind]
    | 3, _ => simp [Exec.bind]
  · constructor
    · intro hp
      apply Classical.byContradiction
      intro hn
      simp only [not_or, Classical.not_not] at hn
      by_cases hs : ∀ i, i < 8 → assigned mem i ≠ 0 → Datapath.StateOk mem i
      · obtain ⟨dps, hd, _⟩ := Datapath.decode_cmis_ok h mem hn.1 hn.2 hs
        rw [hd] at hp; cases hp
      · simp only [Classical.not_forall] at hs
        obtain ⟨i, h1, h2, h3⟩ := hs
        rw [Datapath.decode_cmis_badState h mem hn.1 hn.2 ⟨i, h1, h2, h3⟩] at hp
        cases hp
    · rintro (hm | hl)
      · exact Datapath.decode_cmis_media h mem hm
      · exact Datapath.decode_cmis_unlisted h mem hl

/-- The property is false: a CMIS module may abort the three other decoders. -/
theorem C53_counterexample :
    decodeFrom MemoryModel.decoder (Bf.ofByte 0x18) (cmisMemory fun p a => if p = some 1 ∧ a = 142 then 3 else 0) = .panic ∧
    decodeFrom Monitors.decoder (Bf.ofByte 0x18) (constMemory 0x18) = .panic ∧
    decodeFrom Datapath.decoder (Bf.ofByte 0x18) (constMemory 0) = .panic ∧
    decodeFrom Datapath.decoder (Bf.ofByte 0x18) (constMemory 0xff) = .panic := by
  refine ⟨?_, ?_, ?_, ?_⟩ <;> decide +kernel

/-- A module with sound values decodes. -/
example : ∃ x, decodeFrom Datapath.decoder (Bf.ofByte 0x18) sampleCmis = .ok x := by
  have h1 : MediaKnown sampleCmis := by unfold MediaKnown; decide +kernel
  have h2 : AssignedListed sampleCmis := by unfold AssignedListed; decide +kernel
  have h3 : ∀ i, i < 8 → assigned sampleCmis i ≠ 0 → Datapath.StateOk sampleCmis i := by decide +kernel
  obtain ⟨d, hd, _⟩ := Datapath.decode_cmis_ok cmisModule_dd sampleCmis h1 h2 h3
  exact ⟨_, hd⟩

/-! ## C54: only legal reads of the right interface -/

/-- All requested reads are legal and on pages of this interface. -/
def LegalReads (isSff : Bool) (r : Exec DecodeError (List MemoryRead)) : Prop :=
  match r with
  | .ok rs => rs ≠ [] ∧ ∀ x ∈ rs, LegalRead x.page x.offset.toNat x.len.toNat ∧
      (match x.page with | .sff8636 _ => isSff = true | .cmis _ => isSff = false)
  | _ => False

theorem legalReads_of (isSff : Bool) (rs : List MemoryRead)
    (h : (rs.all fun x => decide (LegalRead x.page x.offset.toNat x.len.toNat) &&
      (match x.page with | .sff8636 _ => isSff == true | .cmis _ => isSff == false)) = true) (hn : rs ≠ []) :
    LegalReads isSff (.ok rs) := by
  refine ⟨hn, fun x hx => ?_⟩
  have := List.all_eq_true.mp h x hx
  rw [Bool.and_eq_true, decide_eq_true_eq] at this
  refine ⟨this.1, ?_⟩
  cases hp : x.page <;> simp_all

theorem C54_sff {id} (h : SffModule id) :
    LegalReads true (PowerControl.decoder.reads id) ∧ LegalReads true (VendorInfo.decoder.reads id) ∧
    LegalReads true (MemoryModel.decoder.reads id) ∧ LegalReads true (Monitors.decoder.reads id) ∧
    LegalReads true (Datapath.decoder.reads id) := by
  refine ⟨?_, ?_, ?_, ?_, ?_⟩
  · show LegalReads true (PowerControl.reads id)
    rw [PowerControl.reads_sff h]; exact legalReads_of _ _ (by decide +kernel) (by decide)
  · show LegalReads true (VendorInfo.reads id)
    rw [VendorInfo.reads_sff h]; exact legalReads_of _ _ (by decide +kernel) (by decide)
  · show LegalReads true (MemoryModel.reads id)
    rw [MemoryModel.reads_sff h]; exact legalReads_of _ _ (by decide +kernel) (by decide)
  · show LegalReads true (Monitors.reads id)
    rw [Monitors.reads_sff h]; exact legalReads_of _ _ (by decide +kernel) (by decide)
  · show LegalReads true (Datapath.reads id)
    rw [Datapath.reads_sff h]; exact legalReads_of _ _ (by decide +kernel) (by decide)

theorem C54_cmis {id} (h : CmisModule id) :
    LegalReads false (PowerControl.decoder.reads id) ∧ LegalReads false (VendorInfo.decoder.reads id) ∧
    LegalReads false (MemoryModel.decoder.reads id) ∧ LegalReads false (Monitors.decoder.reads id) ∧
    LegalReads false (Datapath.decoder.reads id) := by
  refine ⟨?_, ?_, ?_, ?_, ?_⟩
  · show LegalReads false (PowerControl.reads id)
    rw [PowerControl.reads_cmis h]; exact legalReads_of _ _ (by decide +kernel) (by decide)
  · show LegalReads false (VendorInfo.reads id)
    rw [VendorInfo.reads_cmis h]; exact legalReads_of _ _ (by decide +kernel) (by decide)
  · show LegalReads false (MemoryModel.reads id)
    rw [MemoryModel.reads_cmis h]; exact legalReads_of _ _ (by decide +kernel) (by decide)
  · show LegalReads false (Monitors.reads id)
    rw [Monitors.reads_cmis h]; exact legalReads_of _ _ (by decide +kernel) (by decide)
  · show LegalReads false (Datapath.reads id)
    rw [Datapath.reads_cmis h]; exact legalReads_of _ _ (by decide +kernel) (by decide)

/-- Every other identifier is refused by every decoder, both when asking for reads and when parsing any data. -/
theorem C54_refused {id} (h : ¬ SffModule id) (h' : ¬ CmisModule id) (rs : List Bytes) :
    PowerControl.decoder.reads id = .err (.unsupportedIdentifier id) ∧
    PowerControl.decoder.parse id rs = .err (.unsupportedIdentifier id) ∧
    VendorInfo.decoder.reads id = .err (.unsupportedIdentifier id) ∧
    VendorInfo.decoder.parse id rs = .err (.unsupportedIdentifier id) ∧
    MemoryModel.decoder.reads id = .err (.unsupportedIdentifier id) ∧
    MemoryModel.decoder.parse id rs = .err (.unsupportedIdentifier id) ∧
    Monitors.decoder.reads id = .err (.unsupportedIdentifier id) ∧
    Monitors.decoder.parse id rs = .err (.unsupportedIdentifier id) ∧
    Datapath.decoder.reads id = .err (.unsupportedIdentifier id) ∧
    Datapath.decoder.parse id rs = .err (.unsupportedIdentifier id) :=
  ⟨Decode.byKind_other h h' _ _, Decode.byKind_other h h' _ _, Decode.byKind_other h h' _ _, Decode.byKind_other h h' _ _,
   Decode.byKind_other h h' _ _, Decode.byKind_other h h' _ _, Decode.byKind_other h h' _ _, Decode.byKind_other h h' _ _,
   Decode.byKind_other h h' _ _, Decode.byKind_other h h' _ _⟩

/-- An SFP identifier is refused. -/
example : ¬ SffModule (Bf.ofByte 0x03) ∧ ¬ CmisModule (Bf.ofByte 0x03) := by
  unfold SffModule CmisModule; decide +kernel

/-! ## C55: vendor information -/

theorem C55_sff {id} (h : SffModule id) (mem : ModuleMemory) :
    ∃ v, decodeFrom VendorInfo.decoder id mem = .ok ⟨id, v⟩ ∧ SffVendor mem v := VendorInfo.decode_sff h mem

theorem C55_cmis {id} (h : CmisModule id) (mem : ModuleMemory) :
    ∃ v, decodeFrom VendorInfo.decoder id mem = .ok ⟨id, v⟩ ∧ CmisVendor mem v := VendorInfo.decode_cmis h mem

/-- The text that some bytes stand for is unique, so the specification leaves no freedom. -/
theorem C55_text_unique {b : Bytes} {t u : List Char} (h : IsText b t) (h' : IsText b u) : t = u := isText_unique h h'

/-- "Ac" and then a space before a byte that is not UTF-8. -/
example : IsText [0x41, 0x63, 0x20, 0xff, 0x42] ['A', 'c'] := by
  have := asciiToString_spec [0x41, 0x63, 0x20, 0xff, 0x42]
  rwa [show asciiToString [0x41, 0x63, 0x20, 0xff, 0x42] = ['A', 'c'] by decide +kernel] at this

/-! ## C56: monitors -/

theorem C56_sff {id} (h : SffModule id) (mem : ModuleMemory) :
    decodeFrom Monitors.decoder id mem = .ok (sffMonitors mem) := Monitors.decode_sff h mem

theorem C56_cmis {id} (h : CmisModule id) (mem : ModuleMemory) (scale : Rat) (hs : cmisBiasScale mem = some scale) :
    ∃ m, decodeFrom Monitors.decoder id mem = .ok m ∧ CmisMonitorsMain mem scale m := by
  refine ⟨Monitors.cmisOf mem scale, ?_, Monitors.cmisOf_main hs⟩
  rw [Monitors.decode_cmis h, Monitors.biasScale_eq, hs]
  rfl

example : cmisBiasScale sampleCmis = some 1 ∧ (sffMonitors (constMemory 0x80)).temperature = none := by decide +kernel

/-! ## C57: auxiliary monitors -/

/-- False: with only temperature advertised, an empty set of auxiliary monitors is reported; with only the custom monitor
advertised, none is; and a cooler current of -1/32767 is reported as about +2. -/
theorem C57_counterexample :
    (∃ m, decodeFrom Monitors.decoder (Bf.ofByte 0x18)
        (cmisMemory fun p a => if p = some 1 ∧ a = 159 then 0x01 else 0) = .ok m ∧
      ¬ CmisMonitorsAux (cmisMemory fun p a => if p = some 1 ∧ a = 159 then 0x01 else 0) m) ∧
    (∃ m, decodeFrom Monitors.decoder (Bf.ofByte 0x18)
        (cmisMemory fun p a => if p = some 1 ∧ a = 159 then 0x20 else 0) = .ok m ∧
      ¬ CmisMonitorsAux (cmisMemory fun p a => if p = some 1 ∧ a = 159 then 0x20 else 0) m) ∧
    (∃ m, decodeFrom Monitors.decoder (Bf.ofByte 0x18) sampleCmis = .ok m ∧
      m.auxMonitors.bind (·.aux1) = some (.tecCurrent (single (65535 / 32767))) ∧
      (cmisAux sampleCmis).aux1 = some (.tecCurrent (single (-1 / 32767)))) := by
  have he (mem : ModuleMemory) (hb : cmisBiasScale mem = some 1) :
      decodeFrom Monitors.decoder (Bf.ofByte 0x18) mem = .ok (Monitors.cmisOf mem 1) := by
    rw [Monitors.decode_cmis cmisModule_dd, Monitors.biasScale_eq, hb]; rfl
  refine ⟨⟨_, he _ (by decide +kernel), ?_⟩, ⟨_, he _ (by decide +kernel), ?_⟩,
    ⟨_, he _ (by decide +kernel), by decide +kernel, by decide +kernel⟩⟩ <;>
  · unfold CmisMonitorsAux AuxAdvertised; decide +kernel

/-- What holds: the property is true of modules that advertise aux1, aux2 or aux3, or that advertise neither temperature,
voltage nor the custom monitor, as long as no advertised cooler current is negative. -/
theorem C57_partial {id} (h : CmisModule id) (mem : ModuleMemory) (scale : Rat) (hs : cmisBiasScale mem = some scale)
    (hadv : (bit (cmisUp mem 1 159) 2 = true ∨ bit (cmisUp mem 1 159) 3 = true ∨ bit (cmisUp mem 1 159) 4 = true) ∨
      (bit (cmisUp mem 1 159) 0 = false ∧ bit (cmisUp mem 1 159) 1 = false ∧ bit (cmisUp mem 1 159) 5 = false))
    (h1 : bit (cmisUp mem 1 145) 0 = true → bit (cmisLow mem 18) 7 = false)
    (h2 : bit (cmisUp mem 1 145) 1 = true → bit (cmisLow mem 20) 7 = false) :
    ∃ m, decodeFrom Monitors.decoder id mem = .ok m ∧ CmisMonitorsAux mem m := by
  refine ⟨Monitors.cmisOf mem scale, ?_, ?_⟩
  · rw [Monitors.decode_cmis h, Monitors.biasScale_eq, hs]; rfl
  · have hmask (x : U8) : (x &&& 0b00011111 != 0) = (bit x 0 || bit x 1 || bit x 2 || bit x 3 || bit x 4) := by
      revert x; decide +kernel
    have hneg (a : Nat) (hb : bit (cmisLow mem a) 7 = false) : signedAt (cmisLow mem) a = (unsignedAt (cmisLow mem) a : Int) := by
      have hx (x : U8) : bit x 7 = false → x.toNat < 128 := by revert x; decide +kernel
      have := hx _ hb
      have := (cmisLow mem (a + 1)).isLt
      unfold signedAt
      rw [if_pos (by unfold unsignedAt; omega)]
    have haux : Monitors.auxOf mem = cmisAux mem := by
      unfold Monitors.auxOf cmisAux
      have t (a : Nat) : Monitors.tec (cmisLow mem a, cmisLow mem (a + 1)) =
          single (((unsignedAt (cmisLow mem) a : Nat) : Rat) / 32767) := by
        rw [Monitors.tec, u16Be_toNat, unsignedAt]
      have c1 : Monitors.decodeAux1 (cmisLow mem 18, cmisLow mem 19) (bit (cmisUp mem 1 145) 0) =
          if bit (cmisUp mem 1 145) 0 then .tecCurrent (single ((signedAt (cmisLow mem) 18 : Rat) / 32767))
          else .custom (cmisLow mem 18, cmisLow mem 19) := by
        rw [Monitors.decodeAux1]
        split
        · rename_i hb; rw [hneg 18 (h1 hb), t 18]; rfl
        · rfl
      have c2 : Monitors.decodeAux2 (cmisLow mem 20, cmisLow mem 21) (bit (cmisUp mem 1 145) 1) =
          if bit (cmisUp mem 1 145) 1 then .tecCurrent (single ((signedAt (cmisLow mem) 20 : Rat) / 32767))
          else .laserTemperature (celsiusAt (cmisLow mem) 20) := by
        rw [Monitors.decodeAux2]
        split
        · rename_i hb; rw [hneg 20 (h2 hb), t 20]; rfl
        · rw [← temperature_eq]
      have c3 : Monitors.decodeAux3 (cmisLow mem 22, cmisLow mem 23) (bit (cmisUp mem 1 145) 2) =
          if bit (cmisUp mem 1 145) 2 then .additionalSupplyVoltage (voltsAt (cmisLow mem) 22)
          else .laserTemperature (celsiusAt (cmisLow mem) 22) := by
        rw [Monitors.decodeAux3, ← temperature_eq, ← voltage_eq]
      rw [c1, c2, c3]
    unfold CmisMonitorsAux AuxAdvertised
    have hm : (Monitors.cmisOf mem scale).auxMonitors = given (cmisUp mem 1 159 &&& 0b00011111 != 0) (Monitors.auxOf mem) := rfl
    rw [hm, haux, hmask, given]
    generalize cmisUp mem 1 159 = x at *
    rcases hadv with hadv | ⟨e0, e1, e5⟩
    · left
      refine ⟨by rcases hadv with h | h | h <;> simp [h], ?_⟩
      rw [if_pos (by rcases hadv with h | h | h <;> simp [h])]
    · rw [e0, e1, e5]
      cases bit x 2 <;> cases bit x 3 <;> cases bit x 4 <;> simp

/-- Exactly when the code reports auxiliary monitors, for every CMIS module. -/
theorem C57_presence_partial {id} (h : CmisModule id) (mem : ModuleMemory) (m : Monitors)
    (hm : decodeFrom Monitors.decoder id mem = .ok m) :
    m.auxMonitors.isSome = true ↔ (cmisUp mem 1 159).toNat % 32 ≠ 0 := by
  rw [Monitors.decode_cmis h, Monitors.biasScale_eq] at hm
  have hx (x : U8) : (x &&& 0b00011111 != 0) = decide (x.toNat % 32 ≠ 0) := by revert x; decide +kernel
  cases hb : cmisBiasScale mem with
  | none => rw [hb] at hm; cases hm
  | some s =>
    rw [hb] at hm
    cases hm
    show (given (cmisUp mem 1 159 &&& 0b00011111 != 0) (Monitors.auxOf mem)).isSome = true ↔ _
    rw [hx, given]
    by_cases hz : (cmisUp mem 1 159).toNat % 32 = 0 <;> simp [hz]

/-- A module with only a positive cooler current advertised meets the hypotheses. -/
example : ∃ mem : ModuleMemory, cmisBiasScale mem = some 1 ∧ bit (cmisUp mem 1 159) 2 = true ∧
    bit (cmisUp mem 1 145) 0 = true ∧ bit (cmisLow mem 18) 7 = false ∧
    (cmisAux mem).aux1 = some (.tecCurrent 1) :=
  ⟨cmisMemory fun p a => if p = some 1 ∧ a = 159 then 0x04 else if p = some 1 ∧ a = 145 then 1
    else if p = none ∧ a = 18 then 0x7f else if p = none ∧ a = 19 then 0xff else 0, by decide +kernel⟩

/-! ## C58: memory model -/

theorem C58_sff {id} (h : SffModule id) (mem : ModuleMemory) :
    (bit (sffLow mem 2) 2 = true → decodeFrom MemoryModel.decoder id mem = .ok .flat) ∧
    (bit (sffLow mem 2) 2 = false → ∃ pages, decodeFrom MemoryModel.decoder id mem = .ok (.paged pages) ∧
      Increasing pages ∧ ∀ p, p ∈ pages ↔ SffHasPage mem p) := by
  rw [MemoryModel.decode_sff h]
  refine ⟨fun hb => if_pos hb, fun hb => ⟨_, by rw [hb]; rfl, MemoryModel.sffSorted_increasing _,
    MemoryModel.mem_sffSorted mem⟩⟩

theorem C58_cmis {id} (h : CmisModule id) (mem : ModuleMemory) :
    (bit (cmisLow mem 2) 7 = true → decodeFrom MemoryModel.decoder id mem = .ok .flat) ∧
    (bit (cmisLow mem 2) 7 = false → ∀ b, cmisMaxBankOf mem = some b →
      ∃ pages, decodeFrom MemoryModel.decoder id mem = .ok (.paged pages) ∧
        Increasing pages ∧ ∀ p, p ∈ pages ↔ CmisHasPage mem b p) := by
  rw [MemoryModel.decode_cmis h]
  refine ⟨fun hb => if_pos hb, fun hb b hbank => ⟨_, by rw [hb, hbank]; rfl, MemoryModel.cmisSorted_increasing _ _,
    MemoryModel.mem_cmisSorted mem b⟩⟩

/-- A CMIS module with four banks and both kinds of optional pages. -/
example : bit (cmisLow sampleCmis 2) 7 = false ∧ cmisMaxBankOf sampleCmis = some 3 ∧
    CmisHasPage sampleCmis 3 (.cmis (.upper ⟨some 3, 0x14⟩)) := by
  refine ⟨by decide +kernel, by decide +kernel, Or.inr (Or.inr (Or.inr (Or.inr (Or.inr (Or.inr ⟨by decide +kernel, Or.inr rfl⟩)))))⟩

/-! ## C59: SFF-8636 lanes -/

theorem C59_lanes {id} (h : SffModule id) (mem : ModuleMemory) :
    decodeFrom Datapath.decoder id mem = .ok (sffDatapath mem) := Datapath.decode_sff h mem

/-- A module with the transmitter of lane 2 disabled. -/
example : (sffLaneFlags (fun _ a => if a = 86 then 2 else 0) 1).txEnabled = false ∧
    (sffLaneFlags (fun _ a => if a = 86 then 2 else 0) 0).txEnabled = true := by decide +kernel

/-! ## C60: CMIS datapaths -/

/-- Whenever a CMIS module's datapaths are decoded, lanes are grouped by application. -/
theorem C60_grouped {id} (h : CmisModule id) (mem : ModuleMemory) (d : Datapath)
    (hd : decodeFrom Datapath.decoder id mem = .ok d) :
    ∃ dps, d = .cmis (Bf.ofByte (cmisUp mem 0 203)) (~~~ (cmisUp mem 0 209)) dps ∧ Grouped mem dps := by
  by_cases hm : MediaKnown mem
  · by_cases hl : AssignedListed mem
    · by_cases hs : ∀ i, i < 8 → assigned mem i ≠ 0 → Datapath.StateOk mem i
      · obtain ⟨dps, he, hg, _⟩ := Datapath.decode_cmis_ok h mem hm hl hs
        rw [he] at hd
        cases hd
        exact ⟨dps, rfl, hg⟩
      · simp only [Classical.not_forall] at hs
        obtain ⟨i, h1, h2, h3⟩ := hs
        rw [Datapath.decode_cmis_badState h mem hm hl ⟨i, h1, h2, h3⟩] at hd
        cases hd
    · rw [Datapath.decode_cmis_unlisted h mem hl] at hd; cases hd
  · rw [Datapath.decode_cmis_media h mem hm] at hd; cases hd

/-- Decoding succeeds when values are not reserved and assigned lanes have states the code accepts. -/
theorem C60_succeeds {id} (h : CmisModule id) (mem : ModuleMemory) (hm : MediaKnown mem) (hl : AssignedListed mem)
    (hs : ∀ i, i < 8 → assigned mem i ≠ 0 → otherLaneStateCode mem i % 8 ≠ 0) :
    ∃ d, decodeFrom Datapath.decoder id mem = .ok d := by
  obtain ⟨dps, he, _⟩ := Datapath.decode_cmis_ok h mem hm hl hs
  exact ⟨_, he⟩

example : MediaKnown sampleCmis ∧ AssignedListed sampleCmis ∧ assigned sampleCmis 2 = 1 ∧ assigned sampleCmis 1 = 0 := by
  unfold MediaKnown AssignedListed; decide +kernel

/-! ## C61: CMIS lane states -/

/-- The state of each reported lane is its documented nibble. -/
def StatesAsDocumented (mem : ModuleMemory) (d : Datapath) : Prop :=
  ∀ c s dps, d = .cmis c s dps → ∀ e ∈ dps, ∀ l ∈ e.2.laneStatus, ∀ i, l.1.toNat = i + 1 →
    l.2.state.toByte.toNat = laneStateCode mem i

/-- What holds: the state is the low three bits of the other nibble of the pair's byte; it is the documented one when both
lanes of each pair are in the same state. -/
theorem C61_partial {id} (h : CmisModule id) (mem : ModuleMemory) (d : Datapath)
    (hd : decodeFrom Datapath.decoder id mem = .ok d) :
    (∀ c s dps, d = .cmis c s dps → ∀ e ∈ dps, ∀ l ∈ e.2.laneStatus, ∀ i, l.1.toNat = i + 1 →
      l.2.state.toByte.toNat = otherLaneStateCode mem i % 8) ∧
    ((∀ i, i < 8 → otherLaneStateCode mem i = laneStateCode mem i ∧ laneStateCode mem i < 8) →
      StatesAsDocumented mem d) := by
  have hall : ∀ c s dps, d = .cmis c s dps → ∀ e ∈ dps, ∀ l ∈ e.2.laneStatus, ∀ i, l.1.toNat = i + 1 →
      l.2.state.toByte.toNat = otherLaneStateCode mem i % 8 := by
    by_cases hm : MediaKnown mem
    · by_cases hl : AssignedListed mem
      · by_cases hs : ∀ i, i < 8 → assigned mem i ≠ 0 → Datapath.StateOk mem i
        · obtain ⟨dps, he, _, hst⟩ := Datapath.decode_cmis_ok h mem hm hl hs
          rw [he] at hd
          cases hd
          intro c s dps' hc
          cases hc
          exact hst
        · simp only [Classical.not_forall] at hs
          obtain ⟨i, h1, h2, h3⟩ := hs
          rw [Datapath.decode_cmis_badState h mem hm hl ⟨i, h1, h2, h3⟩] at hd
          cases hd
      · rw [Datapath.decode_cmis_unlisted h mem hl] at hd; cases hd
    · rw [Datapath.decode_cmis_media h mem hm] at hd; cases hd
  refine ⟨hall, fun hsame c s dps hc e he l hl i hi => ?_⟩
  obtain ⟨dps', hd', hg⟩ := C60_grouped h mem d hd
  rw [hc] at hd'
  cases hd'
  obtain ⟨j, hj, hj1, _⟩ := hg.sound e he l hl
  have : i = j := by omega
  subst this
  rw [hall _ _ _ hc e he l hl i hi, (hsame i hj).1]
  exact Nat.mod_eq_of_lt (hsame i hj).2

/-- The property is false: lanes 1 and 3 of the sample module are activated (4), with lanes 2 and 4 deactivated (1), but
lane 1 is reported as deactivated. -/
theorem C61_counterexample :
    ∃ d, decodeFrom Datapath.decoder (Bf.ofByte 0x18) sampleCmis = .ok d ∧ ¬ StatesAsDocumented sampleCmis d := by
  have h1 : MediaKnown sampleCmis := by unfold MediaKnown; decide +kernel
  have h2 : AssignedListed sampleCmis := by unfold AssignedListed; decide +kernel
  have h3 : ∀ i, i < 8 → assigned sampleCmis i ≠ 0 → Datapath.StateOk sampleCmis i := by decide +kernel
  obtain ⟨dps, hd, hg, hst⟩ := Datapath.decode_cmis_ok cmisModule_dd sampleCmis h1 h2 h3
  refine ⟨_, hd, fun hdoc => ?_⟩
  obtain ⟨e, he, _, l, hl, hl1⟩ := hg.complete 0 (by decide) (by decide +kernel)
  have a := hst e he l hl 0 hl1
  have b := hdoc _ _ _ rfl e he l hl 0 hl1
  rw [a] at b
  revert b
  decide +kernel

end Xcvr
