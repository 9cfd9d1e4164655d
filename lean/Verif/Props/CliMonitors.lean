import Verif.Lemmas.F32Text
import Verif.Spec.InfoText
import Verif.Props.CliInfo
import Verif.Props.CliColumns
import Verif.Props.CliPrint

/-! # C95 and C96: what the information commands show is what the modules' memories say -/

namespace Xcvr

open Spec Prog Cli Controller

theorem refused_decode {P : Type} {d : ModuleDecoder P} {mem : ModuleMemory} {v : P}
    (hd : ∀ id, ¬ SffModule id → ¬ CmisModule id → d.reads id = .err (.unsupportedIdentifier id))
    (h : decodeFrom d (idOf mem) mem = .ok v) : SffModule (idOf mem) ∨ CmisModule (idOf mem) := by
  by_cases hs : SffModule (idOf mem)
  · exact .inl hs
  · by_cases hm : CmisModule (idOf mem)
    · exact .inr hm
    · unfold decodeFrom at h
      rw [hd _ hs hm] at h
      cases h

/-! ## C95: vendors, memory models and identifiers -/

theorem vendor_says {mem : ModuleMemory} {v : VendorInfo} (h : decodeFrom VendorInfo.decoder (idOf mem) mem = .ok v) :
    VendorSays mem v := by
  rcases refused_decode (fun _ h h' => (C54_refused h h' []).2.2.1) h with hs | hm
  · obtain ⟨w, h1, h2⟩ := C55_sff hs mem
    rw [h1] at h
    cases h
    exact ⟨rfl, .inl ⟨hs, h2⟩⟩
  · obtain ⟨w, h1, h2⟩ := C55_cmis hm mem
    rw [h1] at h
    cases h
    exact ⟨rfl, .inr ⟨hm, h2⟩⟩

theorem model_says {mem : ModuleMemory} {md : MemoryModel} (h : decodeFrom MemoryModel.decoder (idOf mem) mem = .ok md) :
    ModelSays mem md := by
  rcases refused_decode (fun _ h h' => (C54_refused h h' []).2.2.2.2.1) h with hs | hm
  · obtain ⟨h1, h2⟩ := C58_sff hs mem
    refine .inl ⟨hs, ?_⟩
    cases hb : bit (sffLow mem 2) 2 with
    | true =>
      rw [h1 hb] at h
      cases h
      exact .inl ⟨rfl, rfl⟩
    | false =>
      obtain ⟨pages, h3, h4⟩ := h2 hb
      rw [h3] at h
      cases h
      exact .inr ⟨rfl, pages, rfl, h4⟩
  · obtain ⟨h1, h2⟩ := C58_cmis hm mem
    refine .inr ⟨hm, ?_⟩
    cases hb : bit (cmisLow mem 2) 7 with
    | true =>
      rw [h1 hb] at h
      cases h
      exact .inl ⟨rfl, rfl⟩
    | false =>
      cases hk : cmisMaxBankOf mem with
      | none =>
        rw [MemoryModel.decode_cmis hm, hb, hk] at h
        cases h
      | some b =>
        obtain ⟨pages, h3, h4⟩ := h2 hb b hk
        rw [h3] at h
        cases h
        exact .inr ⟨rfl, b, pages, rfl, rfl, h4⟩

/-- **C95**, vendors in the default form: one line for each module shown, each text in its column and as the module's memory
has it. -/
theorem C95_vendor (fmt : Fmt) (m : ModuleId) (a : TableArgs VendorField) (ha : a.parseable = false)
    (t : List Exchange) (out : Lines) (fails : List (U8 × TransceiverError))
    (h : Runs (dispatch fmt false m (.vendorInfo a)) t (.ok (.done out fails))) (ht : Conforming t)
    (mem : Nat → ModuleMemory) (hf : Faithful mem t) :
    ∃ ports head lines, Shown m ports fails ∧ out = head ++ lines ∧
      head.length = (if a.omitHeader then 0 else 1) ∧
      Pairs (fun i l => ∃ v, VendorSays (mem i.toNat) v ∧ VendorLine l (decimal i) (identText (kindOf (mem i.toNat)))
        v.vendor.name v.vendor.part v.vendor.revision v.vendor.serial (v.vendor.date.getD chars!"Unknown")) ports lines := by
  obtain ⟨r, h1, h2, h3⟩ := shown_memory C41_decoders.2.1 h ht hf
  rw [kind_default ha] at h1
  unfold vendorTable table at h1
  dsimp only at h1
  rw [mapM_ok (g := fun x : U8 × VendorInfo => vendorRow x.1 x.2) fun _ _ => rfl] at h1
  cases h1
  refine ⟨_, _, _, h2, rfl, by cases a.omitHeader <;> rfl, pairs_of_map _ _ fun x hx => ?_⟩
  have h4 := vendor_says (h3 x hx)
  have hfit : VendorFits x.2 := by
    have := h3 x hx
    unfold decodeFrom at this
    cases hr : VendorInfo.decoder.reads (idOf (mem x.1.toNat)) with
    | ok rds => rw [hr] at this; exact parse_fits this
    | err e => rw [hr] at this; cases this
    | panic => rw [hr] at this; cases this
  refine ⟨x.2, h4, ?_⟩
  rw [← h4.1]
  exact vendorLine_of (decimal_length x.1) hfit.ident hfit.name hfit.part hfit.revision hfit.serial hfit.date

/-- What the lines of a parseable table are. -/
theorem parseable_lines {F P : Type} {head : List Char} {row : U8 → P → Exec Unit (List Char)} {name : F → List Char}
    {cell : F → U8 → P → Exec Unit (List Char)} {value : F → U8 → P → List Char} {a : TableArgs F}
    (ha : a.parseable = true) (hfs : a.output ≠ []) {rows : List (U8 × P)} {out : Lines}
    (hv : ∀ f, ∀ x ∈ rows, cell f x.1 x.2 = .ok (value f x.1 x.2))
    (h : table head row name cell a.kind rows = .ok out) :
    out = (if a.omitHeader then [] else [(separator a.outputSeparator).intercalate (a.output.map name)]) ++
      rows.map fun x => (separator a.outputSeparator).intercalate (a.output.map fun f => value f x.1 x.2) := by
  unfold TableArgs.kind at h
  rw [if_pos ha] at h
  unfold table at h
  dsimp only at h
  unfold tableLines at h
  have hpos : a.output.length > 0 := List.length_pos_iff.2 hfs
  rw [mapM_ok (g := fun x : U8 × P => [join (separator a.outputSeparator) (a.output.map fun f => value f x.1 x.2)])] at h
  · cases h
    congr 1
    · unfold headerLines
      cases a.omitHeader <;> simp [join_eq, hpos]
    · induction rows with
      | nil => rfl
      | cons x rows ih =>
        rw [List.map_cons, List.map_cons, List.flatten_cons, ih fun f y hy => hv f y (List.mem_cons_of_mem _ hy), join_eq]
        rfl
  · intro x hx
    rw [if_pos hpos, mapM_ok (g := fun f : F => value f x.1 x.2) fun f _ => hv f x hx]
    rfl

/-- **C95**, vendors in the parseable form. -/
theorem C95_vendor_parseable (fmt : Fmt) (m : ModuleId) (a : TableArgs VendorField) (ha : a.parseable = true)
    (hfs : a.output ≠ []) (t : List Exchange) (out : Lines) (fails : List (U8 × TransceiverError))
    (h : Runs (dispatch fmt false m (.vendorInfo a)) t (.ok (.done out fails))) (ht : Conforming t)
    (mem : Nat → ModuleMemory) (hf : Faithful mem t) :
    ∃ ports lines, Shown m ports fails ∧
      out = (if a.omitHeader then [] else [(separator a.outputSeparator).intercalate (a.output.map VendorField.name)]) ++ lines ∧
      Pairs (fun i l => ∃ v, VendorSays (mem i.toNat) v ∧
        l = (separator a.outputSeparator).intercalate (a.output.map fun f => vendorValue f i v)) ports lines := by
  obtain ⟨r, h1, h2, h3⟩ := shown_memory C41_decoders.2.1 h ht hf
  have h4 := parseable_lines (value := vendorValue) ha hfs (fun f _ _ => by cases f <;> rfl) h1
  exact ⟨_, _, h2, h4, pairs_of_map _ _ fun x hx => ⟨x.2, vendor_says (h3 x hx), rfl⟩⟩

/-- **C95**, memory models in both forms. -/
theorem C95_model (fmt : Fmt) (m : ModuleId) (a : TableArgs ModelField)
    (t : List Exchange) (out : Lines) (fails : List (U8 × TransceiverError))
    (h : Runs (dispatch fmt false m (.memoryModel a)) t (.ok (.done out fails))) (ht : Conforming t)
    (mem : Nat → ModuleMemory) (hf : Faithful mem t) :
    (a.parseable = false → ∃ ports lines, Shown m ports fails ∧
      out = (if a.omitHeader then [] else [chars!"Port Model"]) ++ lines ∧
      Pairs (fun i l => ∃ md, ModelSays (mem i.toNat) md ∧
        l = List.replicate (4 - (decimal i).length) ' ' ++ decimal i ++ chars!" " ++ modelValue md) ports lines) ∧
    (a.parseable = true → a.output ≠ [] → ∃ ports lines, Shown m ports fails ∧
      out = (if a.omitHeader then [] else [(separator a.outputSeparator).intercalate (a.output.map ModelField.name)]) ++ lines ∧
      Pairs (fun i l => ∃ md, ModelSays (mem i.toNat) md ∧
        l = (separator a.outputSeparator).intercalate (a.output.map fun f => memoryValue f i md)) ports lines) := by
  obtain ⟨r, h1, h2, h3⟩ := shown_memory C41_decoders.2.2.1 h ht hf
  refine ⟨fun ha => ?_, fun ha hfs => ?_⟩
  · rw [kind_default ha] at h1
    unfold modelTable table at h1
    dsimp only at h1
    rw [mapM_ok (g := fun x : U8 × MemoryModel => portColumn x.1 ++ chars!" " ++ modelValue x.2) fun x hx => by
      rw [C75_model (h3 x hx)]; rfl] at h1
    cases h1
    exact ⟨_, _, h2, by cases a.omitHeader <;> rfl, pairs_of_map _ _ fun x hx => ⟨x.2, model_says (h3 x hx), rfl⟩⟩
  · have h4 := parseable_lines (value := memoryValue) ha hfs (fun f x hx => by
      cases f with
      | port => rfl
      | model => exact C75_model (h3 x hx)) h1
    exact ⟨_, _, h2, h4, pairs_of_map _ _ fun x hx => ⟨x.2, model_says (h3 x hx), rfl⟩⟩

theorem identify_shown {m : ModuleId} {text : Res Identifier → Exec Unit Lines} {t : List Exchange} {out : Lines}
    {fails : List (U8 × TransceiverError)}
    (h : Runs (showing false (identifier m) text) t (.ok (.done out fails))) (hc : Conforming t)
    {mem : Nat → ModuleMemory} (hf : Faithful mem t) :
    ∃ r, text r = .ok out ∧ Shown m (r.iter.map Prod.fst) fails ∧ ∀ x ∈ r.iter, x.2 = kindOf (mem x.1.toNat) := by
  obtain ⟨r, ls, h1, h2, h3⟩ := showing_ok h
  cases h3
  obtain ⟨res, h4, h5, h6⟩ := identifier_spec h1 hc
  cases h4
  refine ⟨r, h2, shown_of h6.wf h6.split, fun x hx => ?_⟩
  have hx' : okAt r x.1.toNat = some x.2 := ((C20_iter r).2.1 x.1 x.2).1 hx
  rw [h6.ok] at hx'
  obtain ⟨b, h7, h8⟩ := Option.map_eq_some_iff.1 hx'
  unfold okAmong at h7
  obtain ⟨y, hy, h7⟩ := List.exists_of_findSome?_eq_some h7
  obtain ⟨g, hg⟩ := requestOf_readsOf h5 hy
  have := hf y hy g _ _ _ hg h7
  rw [← h8, this]
  rfl

/-- **C95**, identifiers in both forms: byte 0 of the module and its meaning. -/
theorem C95_identify (fmt : Fmt) (m : ModuleId) (a : TableArgs IdentifyField)
    (t : List Exchange) (out : Lines) (fails : List (U8 × TransceiverError))
    (h : Runs (dispatch fmt false m (.identify a)) t (.ok (.done out fails))) (ht : Conforming t)
    (mem : Nat → ModuleMemory) (hf : Faithful mem t) :
    (a.parseable = false → ∃ ports lines, Shown m ports fails ∧
      out = (if a.omitHeader then [] else [chars!"Port Ident Description"]) ++ lines ∧
      Pairs (fun i l => l = List.replicate (4 - (decimal i).length) ' ' ++ decimal i ++ chars!" " ++
        hexByte (mem i.toNat (.sff8636 .lower) 0) ++ chars!"  " ++ (kindOf (mem i.toNat)).display) ports lines) ∧
    (a.parseable = true → a.output ≠ [] → ∃ ports lines, Shown m ports fails ∧
      out = (if a.omitHeader then [] else [(separator a.outputSeparator).intercalate (a.output.map IdentifyField.name)]) ++ lines ∧
      Pairs (fun i l => l = (separator a.outputSeparator).intercalate
        (a.output.map fun f => identifyValue f i (kindOf (mem i.toNat)))) ports lines) := by
  obtain ⟨r, h1, h2, h3⟩ := identify_shown h ht hf
  refine ⟨fun ha => ?_, fun ha hfs => ?_⟩
  · rw [kind_default ha] at h1
    unfold identifyTable table at h1
    dsimp only at h1
    rw [mapM_ok (g := fun x : U8 × Identifier => portColumn x.1 ++ chars!" " ++ alignLeft 5 (hexByte x.2.toByte) ++
      chars!" " ++ x.2.display) fun _ _ => rfl] at h1
    cases h1
    refine ⟨_, _, h2, by cases a.omitHeader <;> rfl, pairs_of_map _ _ fun x hx => ?_⟩
    have hb (b : U8) : alignLeft 5 (hexByte (Bf.ofByte b : Identifier).toByte) = hexByte b ++ chars!" " := by
      revert b; decide +kernel
    rw [h3 x hx, hb, List.append_assoc (portColumn x.1 ++ chars!" "), List.append_assoc (portColumn x.1 ++ chars!" "),
      List.append_assoc (hexByte _)]
    simp [portColumn, alignRight]
  · have h4 := parseable_lines (value := identifyValue) ha hfs (fun f _ _ => by cases f <;> rfl) h1
    refine ⟨_, _, h2, h4, pairs_of_map _ _ fun x hx => ?_⟩
    rw [h3 x hx]

/-! ## C96: monitors -/

theorem monitorLine_eq (label : List Char) (value : Option (List Char)) : monitorLine label value = reading label value := by
  unfold monitorLine reading alignRight
  cases value <;> simp

theorem bracketed_eq : bracketed = laneList := by
  funext xs
  unfold bracketed laneList displayList
  rw [join_eq]

theorem displayList_eq : displayList = laneFields := by
  funext xs
  unfold displayList laneFields
  rw [join_eq]

theorem rxValue_eq : rxValue = milliwattsOf := by
  funext x
  cases x <;> rfl

/-- What the decoder gives for a module, by its memory. -/
theorem monitors_cases {mem : ModuleMemory} {m : Monitors} (h : decodeFrom Monitors.decoder (idOf mem) mem = .ok m) :
    (SffModule (idOf mem) ∧ m = sffMonitors mem) ∨
    (CmisModule (idOf mem) ∧ ∃ scale, cmisBiasScale mem = some scale ∧ m = Monitors.cmisOf mem scale) := by
  rcases refused_decode (fun _ h h' => (C54_refused h h' []).2.2.2.2.2.2.1) h with hs | hm
  · rw [C56_sff hs] at h
    cases h
    exact .inl ⟨hs, rfl⟩
  · rw [Monitors.decode_cmis hm, Monitors.biasScale_eq] at h
    cases hb : cmisBiasScale mem with
    | none => rw [hb] at h; cases h
    | some s =>
      rw [hb] at h
      cases h
      exact .inr ⟨hm, s, rfl, rfl⟩

theorem monitors_say {mem : ModuleMemory} {m : Monitors} (h : decodeFrom Monitors.decoder (idOf mem) mem = .ok m) :
    MonitorsSay mem m := by
  rcases monitors_cases h with h | ⟨h1, s, h2, rfl⟩
  · exact .inl h
  · exact .inr ⟨h1, s, h2, Monitors.cmisOf_main h2⟩

theorem rx_label {mem : ModuleMemory} {m : Monitors} (h : decodeFrom Monitors.decoder (idOf mem) mem = .ok m) :
    ∃ n, rxName m.receiverPower = .ok n ∧ rxNameText n = rxLabel mem m := by
  rcases monitors_cases h with ⟨hs, rfl⟩ | ⟨hm, s, -, rfl⟩
  · have hs' : kindOf mem = Bf.ofByte 0x0d ∨ kindOf mem = Bf.ofByte 0x11 := hs
    unfold rxLabel measuresAverage
    rw [if_pos hs']
    cases hb : bit (sffUp00 mem 220) 3 with
    | true => exact ⟨some .average, by simp [sffMonitors, hb, rxPowerAt, rxName], by simp [sffMonitors, rxNameText]⟩
    | false => exact ⟨some .peakToPeak, by simp [sffMonitors, hb, rxPowerAt, rxName], by simp [sffMonitors, rxNameText]⟩
  · have hm' : ¬ (kindOf mem = Bf.ofByte 0x0d ∨ kindOf mem = Bf.ofByte 0x11) := by
      rcases hm with h | h <;> (show ¬ (idOf mem = _ ∨ idOf mem = _)) <;> rw [h] <;> decide
    have he : (Monitors.cmisOf mem s).receiverPower = given (bit (cmisUp mem 1 160) 2)
      ([186, 188, 190, 192, 194, 196, 198, 200].map (rxPowerAt (bit (cmisUp mem 1 151) 4) (cmisBank0 mem 0x11))) := rfl
    unfold rxLabel measuresAverage
    rw [if_neg hm', he]
    generalize cmisBank0 mem 0x11 = L
    cases bit (cmisUp mem 1 160) 2 with
    | false => exact ⟨none, rfl, rfl⟩
    | true =>
      cases bit (cmisUp mem 1 151) 4 with
      | true => exact ⟨some .average, rfl, rfl⟩
      | false => exact ⟨some .peakToPeak, rfl, rfl⟩

theorem given_bind {α β : Type} {c d : Bool} {x : α} {y : β} {f : α → Option β} (hf : f x = given c y) (h : c = true → d = true) :
    (given d x).bind f = given c y := by
  cases d with
  | true => exact hf
  | false =>
    cases c with
    | true => cases h rfl
    | false => rfl

theorem aux_shown {mem : ModuleMemory} {m : Monitors} (h : decodeFrom Monitors.decoder (idOf mem) mem = .ok m) :
    aux1Value (m.auxMonitors.bind AuxMonitors.aux1) = auxShown coolerUnsigned mem 1 ∧
    aux2Value (m.auxMonitors.bind AuxMonitors.aux2) = auxShown coolerUnsigned mem 2 ∧
    aux3Value (m.auxMonitors.bind AuxMonitors.aux3) = auxShown coolerUnsigned mem 3 := by
  rcases monitors_cases h with ⟨hs, rfl⟩ | ⟨hm, s, -, rfl⟩
  · have hk (k : Nat) : hasAux mem k = false := by
      unfold hasAux
      rcases hs with h | h <;> (rw [show kindOf mem = _ from h]; rfl)
    unfold auxShown
    rw [hk, hk, hk]
    exact ⟨rfl, rfl, rfl⟩
  · have hk (k : Nat) : hasAux mem k = bit (cmisUp mem 1 159) (k + 1) := by
      unfold hasAux
      rcases hm with h | h <;> (rw [show kindOf mem = _ from h]; rfl)
    have hor2 (x : U8) : bit x 2 = true → (x &&& 0b00011111 != 0) = true := by revert x; decide +kernel
    have hor3 (x : U8) : bit x 3 = true → (x &&& 0b00011111 != 0) = true := by revert x; decide +kernel
    have hor4 (x : U8) : bit x 4 = true → (x &&& 0b00011111 != 0) = true := by revert x; decide +kernel
    unfold auxShown auxKind
    rw [hk, hk, hk]
    have he : (Monitors.cmisOf mem s).auxMonitors = given (cmisUp mem 1 159 &&& 0b00011111 != 0) (Monitors.auxOf mem) := rfl
    rw [he]
    rw [given_bind (f := AuxMonitors.aux1) (x := Monitors.auxOf mem) rfl (hor2 _),
      given_bind (f := AuxMonitors.aux2) (x := Monitors.auxOf mem) rfl (hor3 _),
      given_bind (f := AuxMonitors.aux3) (x := Monitors.auxOf mem) rfl (hor4 _)]
    have ht (a : Nat) : Monitors.tec (cmisLow mem a, cmisLow mem (a + 1)) =
        single ((coolerUnsigned mem a : Rat) / 32767) := by
      unfold Monitors.tec coolerUnsigned
      rw [u16Be_toNat]
      rfl
    refine ⟨?_, ?_, ?_⟩
    · cases bit (cmisUp mem 1 159) 2 with
      | false => rfl
      | true =>
        cases bit (cmisUp mem 1 145) 0 with
        | false => rfl
        | true =>
          rw [← ht 18]
          rfl
    · cases bit (cmisUp mem 1 159) 3 with
      | false => rfl
      | true =>
        cases bit (cmisUp mem 1 145) 1 with
        | false =>
          show (_, some (shortestText (Monitors.decodeTemperature (cmisLow mem 20, cmisLow mem (20 + 1))))) = _
          rw [temperature_eq]
          rfl
        | true =>
          rw [← ht 20]
          rfl
    · cases bit (cmisUp mem 1 159) 4 with
      | false => rfl
      | true =>
        cases bit (cmisUp mem 1 145) 2 with
        | false =>
          show (_, some (shortestText (Monitors.decodeTemperature (cmisLow mem 22, cmisLow mem (22 + 1))))) = _
          rw [temperature_eq]
          rfl
        | true =>
          show (_, some (shortestText (Monitors.decodeSupplyVoltage (cmisLow mem 22, cmisLow mem (22 + 1))))) = _
          rw [voltage_eq]
          rfl

theorem monitorBlock_spec (port : U8) {mem : ModuleMemory} {m : Monitors}
    (h : decodeFrom Monitors.decoder (idOf mem) mem = .ok m) :
    ∃ ls, monitorBlock port m = .ok ls ∧ MonitorText coolerUnsigned mem port ls := by
  obtain ⟨n, h1, h2⟩ := rx_label h
  obtain ⟨a1, a2, a3⟩ := aux_shown h
  unfold monitorBlock
  rw [h1, a1, a2, a3]
  refine ⟨_, rfl, m, monitors_say h, ?_⟩
  rw [h2]
  simp only [monitorLine_eq, bracketed_eq, rxValue_eq]
  rfl

theorem mapM_pairs {α β : Type} {f : α → Exec Unit β} {R : α → β → Prop} (xs : List α) (ys : List β)
    (h : xs.mapM f = .ok ys) (hf : ∀ x ∈ xs, ∃ y, f x = .ok y ∧ R x y) : Pairs R xs ys := by
  induction xs generalizing ys with
  | nil =>
    cases h
    exact .nil
  | cons x xs ih =>
    obtain ⟨y, h1, h2⟩ := hf x (by simp)
    rw [List.mapM_cons, h1] at h
    cases hr : xs.mapM f with
    | ok zs =>
      rw [hr] at h
      cases h
      exact .cons h2 (ih zs hr fun x hx => hf x (List.mem_cons_of_mem _ hx))
    | err e => rw [hr] at h; cases h
    | panic => rw [hr] at h; cases h

theorem Spec.Pairs.map_left {α β γ : Type} {R : β → γ → Prop} (f : α → β) {l : List α} {l' : List γ}
    (h : Pairs (fun x y => R (f x) y) l l') : Pairs R (l.map f) l' := by
  induction h with
  | nil => exact .nil
  | cons h _ ih => exact .cons h ih

/-- **C96**, in part: after a monitor command that ends normally, every module selected is shown or listed as a failure, and
the lines of a module are what its memory says. Missing: the current of a cooler is read as an unsigned number, and the custom
monitor is not shown. -/
theorem C96_monitors_partial (fmt : Fmt) (m : ModuleId) (a : TableArgs MonitorField) (ha : a.parseable = false)
    (t : List Exchange) (out : Lines) (fails : List (U8 × TransceiverError))
    (h : Runs (dispatch fmt false m (.monitors a)) t (.ok (.done out fails))) (ht : Conforming t)
    (mem : Nat → ModuleMemory) (hf : Faithful mem t) :
    ∃ ports blocks, Shown m ports fails ∧ out = [([] : List Char)].intercalate blocks ∧
      Pairs (fun i ls => MonitorText coolerUnsigned (mem i.toNat) i ls) ports blocks := by
  obtain ⟨r, h1, h2, h3⟩ := shown_memory C41_decoders.2.2.2.1 h ht hf
  rw [kind_default ha] at h1
  unfold monitorTable at h1
  dsimp only at h1
  cases hr : r.iter.mapM fun p => monitorBlock p.1 p.2 with
  | ok blocks =>
    rw [hr] at h1
    cases h1
    refine ⟨_, blocks, h2, separated_intercalate _, ?_⟩
    exact (mapM_pairs _ _ hr fun x hx => monitorBlock_spec x.1 (h3 x hx)).map_left Prod.fst
  | err e => rw [hr] at h1; cases h1
  | panic => rw [hr] at h1; cases h1

/-- No cooler of the module has a negative current. -/
def Spec.Heating (mem : ModuleMemory) : Prop :=
  ∀ a, a = 18 ∨ a = 20 → 0 ≤ signedAt (cmisLow mem) a

theorem auxShown_signed {mem : ModuleMemory} (h : Heating mem) (k : Nat) :
    auxShown coolerSigned mem k = auxShown coolerUnsigned mem k := by
  have hc (a : Nat) (ha : a = 18 ∨ a = 20) : coolerSigned mem a = coolerUnsigned mem a := by
    have := h a ha
    unfold coolerSigned coolerUnsigned
    unfold signedAt at this ⊢
    split at this <;> rename_i h1
    · rw [if_pos h1]
    · have := (cmisLow mem a).isLt
      have := (cmisLow mem (a + 1)).isLt
      unfold unsignedAt at *
      omega
  unfold auxShown
  rw [hc 18 (.inl rfl), hc 20 (.inr rfl)]

/-- **C96**, in part: as documented if no cooler has a negative current. Missing: the custom monitor is not shown. -/
theorem C96_heating_partial (fmt : Fmt) (m : ModuleId) (a : TableArgs MonitorField) (ha : a.parseable = false)
    (t : List Exchange) (out : Lines) (fails : List (U8 × TransceiverError))
    (h : Runs (dispatch fmt false m (.monitors a)) t (.ok (.done out fails))) (ht : Conforming t)
    (mem : Nat → ModuleMemory) (hf : Faithful mem t) (hh : ∀ i, Heating (mem i)) :
    ∃ ports blocks, Shown m ports fails ∧ out = [([] : List Char)].intercalate blocks ∧
      Pairs (fun i ls => MonitorText coolerSigned (mem i.toNat) i ls) ports blocks := by
  obtain ⟨ports, blocks, h1, h2, h3⟩ := C96_monitors_partial fmt m a ha t out fails h ht mem hf
  refine ⟨ports, blocks, h1, h2, h3.imp fun i ls hm => ?_⟩
  unfold MonitorText at hm ⊢
  simp only [auxShown_signed (hh i.toNat)]
  exact hm

/-- **C96**, in part: the parseable form. Missing: as above; the field for received power is called average even where the
module measures peaks (see C73). -/
theorem C96_parseable_partial (fmt : Fmt) (m : ModuleId) (a : TableArgs MonitorField) (ha : a.parseable = true)
    (hfs : a.output ≠ []) (t : List Exchange) (out : Lines) (fails : List (U8 × TransceiverError))
    (h : Runs (dispatch fmt false m (.monitors a)) t (.ok (.done out fails))) (ht : Conforming t)
    (mem : Nat → ModuleMemory) (hf : Faithful mem t) :
    ∃ ports lines, Shown m ports fails ∧
      out = (if a.omitHeader then [] else [(separator a.outputSeparator).intercalate (a.output.map MonitorField.name)]) ++ lines ∧
      Pairs (fun i l => ∃ mon, MonitorsSay (mem i.toNat) mon ∧ l = (separator a.outputSeparator).intercalate
        (a.output.map fun f => monitorValue coolerUnsigned (mem i.toNat) mon i f)) ports lines := by
  obtain ⟨r, h1, h2, h3⟩ := shown_memory C41_decoders.2.2.2.1 h ht hf
  have h4 := parseable_lines (head := []) (row := fun _ _ => .panic) (name := MonitorField.name) (cell := MonitorField.cell)
    (value := fun f p mon => monitorValue coolerUnsigned (mem p.toNat) mon p f) ha hfs (fun f x hx => by
      obtain ⟨a1, a2, a3⟩ := aux_shown (h3 x hx)
      cases f <;> simp only [MonitorField.cell, monitorValue, displayList_eq, rxValue_eq, a1, a2, a3]) (by
      rw [← h1]
      unfold TableArgs.kind
      rw [if_pos ha]
      rfl)
  exact ⟨_, _, h2, h4, pairs_of_map _ _ fun x hx => ⟨x.2, monitors_say (h3 x hx), rfl⟩⟩

/-! ## C73 for monitors -/

/-- What a module yields in a field of the parseable form. -/
def monitorCell (f : MonitorField) (port : U8) (m : Monitors) : List Char :=
  match f with
  | .port => decimal port
  | .temperature => (m.temperature.map shortestText).getD []
  | .supplyVoltage => (m.supplyVoltage.map shortestText).getD []
  | .averageRxPower => (m.receiverPower.map fun rx => laneFields (rx.map milliwattsOf)).getD []
  | .txBias => (m.transmitterBiasCurrent.map (laneFields)).getD []
  | .txPower => (m.transmitterPower.map (laneFields)).getD []
  | .aux1 => match m.auxMonitors.bind AuxMonitors.aux1 with
    | some (.tecCurrent x) => shortestText x
    | some (.custom c) => chars!"[" ++ hexByte c.1 ++ chars!"," ++ hexByte c.2 ++ chars!"]"
    | none => []
  | .aux2 => match m.auxMonitors.bind AuxMonitors.aux2 with
    | some (.tecCurrent x) => shortestText x
    | some (.laserTemperature x) => shortestText x
    | none => []
  | .aux3 => match m.auxMonitors.bind AuxMonitors.aux3 with
    | some (.laserTemperature x) => shortestText x
    | some (.additionalSupplyVoltage x) => shortestText x
    | none => []

theorem clean_nil : Clean [] := ⟨nofun, nofun⟩

theorem clean_getD {o : Option (List Char)} (h : ∀ x, o = some x → Clean x) : Clean (o.getD []) := by
  cases o with
  | none => exact clean_nil
  | some x => exact h x rfl

theorem clean_number (x : Rat) : Clean (shortestText x) ∧ Clean (fixedText 4 x) := by
  obtain ⟨h1, h2⟩ := numberText_chars x
  refine ⟨⟨fun h => ?_, fun h => ?_⟩, fun h => ?_, fun h => ?_⟩
  · exact absurd (h1 _ h) (by decide)
  · exact absurd (h1 _ h) (by decide)
  · exact absurd (h2 _ _ h) (by decide)
  · exact absurd (h2 _ _ h) (by decide)

/-- C73: monitors with the default separator. -/
theorem C73_monitors (header : Bool)
    (fields : List MonitorField) (hf : fields ≠ []) (r : Res Monitors) :
    ∃ lines, tableLines header MonitorField.name MonitorField.cell fields (separator none) r.iter = .ok lines ∧
      Reads ':' (printed lines) ((if header then [fields.map MonitorField.name] else []) ++
        r.iter.map fun x => fields.map fun f => monitorCell f x.1 x.2) := by
  have hnum := clean_number
  have hlanes (xs : List Rat) : Clean (laneFields xs) := by
    unfold laneFields
    rw [← join_eq]
    refine clean_join (by decide) fun x hx => ?_
    obtain ⟨y, -, rfl⟩ := List.mem_map.1 hx
    exact (hnum y).2
  refine reads_table (sep := ':') (name := MonitorField.name) (cell := MonitorField.cell) (value := monitorCell) hf
    (fun f _ => by cases f <;> decide) (fun f _ x _ => ?_) (fun f _ x _ => ?_)
  · cases f <;> simp only [MonitorField.cell, monitorCell, displayList_eq, rxValue_eq]
    · cases x.2.auxMonitors.bind AuxMonitors.aux1 with
      | none => rfl
      | some a => cases a <;> rfl
    · cases x.2.auxMonitors.bind AuxMonitors.aux2 with
      | none => rfl
      | some a => cases a <;> rfl
    · cases x.2.auxMonitors.bind AuxMonitors.aux3 with
      | none => rfl
      | some a => cases a <;> rfl
  · show Cli.Clean _
    cases f <;> simp only [monitorCell]
    · exact clean_decimal _
    · exact clean_getD fun y hy => by obtain ⟨z, -, rfl⟩ := Option.map_eq_some_iff.1 hy; exact (hnum z).1
    · exact clean_getD fun y hy => by obtain ⟨z, -, rfl⟩ := Option.map_eq_some_iff.1 hy; exact (hnum z).1
    · exact clean_getD fun y hy => by obtain ⟨z, -, rfl⟩ := Option.map_eq_some_iff.1 hy; exact hlanes _
    · exact clean_getD fun y hy => by obtain ⟨z, -, rfl⟩ := Option.map_eq_some_iff.1 hy; exact hlanes _
    · exact clean_getD fun y hy => by obtain ⟨z, -, rfl⟩ := Option.map_eq_some_iff.1 hy; exact hlanes _
    · split
      · exact (hnum _).1
      · exact clean_append (clean_append (clean_append (clean_append (by decide) (clean_hexByte _)) (by decide))
          (clean_hexByte _)) (by decide)
      · exact clean_nil
    · split
      · exact (hnum _).1
      · exact (hnum _).1
      · exact clean_nil
    · split
      · exact (hnum _).1
      · exact (hnum _).1
      · exact clean_nil

/-! ## Cases -/

/-- A CMIS module that advertises auxiliary monitor 1, a cooler current, and the custom monitor; the current is `hi` and `0xff`,
the custom monitor has two bytes `c`. -/
def coolerMemory (hi c : U8) (_ : Nat) : ModuleMemory :=
  fun page a => match page with
    | .sff8636 _ => 0x18
    | .cmis .lower => if a = 18 then hi else if a = 19 then 0xff else if a = 24 ∨ a = 25 then c else 0x18
    | .cmis (.upper q) => if q.page = 1 ∧ a = 159 then 0x24 else if q.page = 1 ∧ a = 145 then 1 else 0

/-- A run of a command against modules with these memories. -/
theorem run_memory (fmt : Fmt) (m : ModuleId) (cmd : Cmd) (mem : Nat → ModuleMemory) (bad : ModuleId) {p : Lines → Prop}
    {q : List U8} (h : ∃ out fails, ((dispatch fmt false m cmd).exec (Bench.ofMemory mem bad).sp []).2 = .ok (.done out fails) ∧
      p out ∧ fails.map Prod.fst = q) :
    ∃ t out fails, Runs (dispatch fmt false m cmd) t (.ok (.done out fails)) ∧ Conforming t ∧ Faithful mem t ∧ p out ∧
      fails.map Prod.fst = q := by
  have h1 := dispatch_bench (Bench.ofMemory mem bad) fmt m false cmd
  have hf := Bench.exec_faithful mem bad (dispatch fmt false m cmd)
  obtain ⟨out, fails, h2, h3⟩ := h
  rw [h2] at h1
  exact ⟨_, out, fails, h1.1, h1.2, hf, h3⟩

/-- Runs that meet the hypotheses of C95; module 3 fails. -/
example : ∃ t out fails, Runs (dispatch plainFmt false ⟨0b1110⟩ (.vendorInfo ⟨false, [], none, false⟩)) t (.ok (.done out fails)) ∧
    Conforming t ∧ Faithful pathMemory t ∧ out.length = 3 ∧ fails.map Prod.fst = [3] :=
  run_memory (p := fun out => out.length = 3) _ _ _ _ ⟨0b1000⟩ ⟨_, _, rfl, by decide +kernel⟩

example : ∃ t out fails, Runs (dispatch plainFmt false ⟨0b1110⟩ (.vendorInfo ⟨true, [.port, .serial], none, true⟩)) t
    (.ok (.done out fails)) ∧ Conforming t ∧ Faithful pathMemory t ∧ out.length = 2 ∧ fails.map Prod.fst = [3] :=
  run_memory (p := fun out => out.length = 2) _ _ _ _ ⟨0b1000⟩ ⟨_, _, rfl, by decide +kernel⟩

example : ∃ t out fails, Runs (dispatch plainFmt false ⟨0b1110⟩ (.memoryModel ⟨false, [], none, true⟩)) t
    (.ok (.done out fails)) ∧ Conforming t ∧ Faithful pathMemory t ∧ out.length = 2 ∧ fails.map Prod.fst = [3] :=
  run_memory (p := fun out => out.length = 2) _ _ _ _ ⟨0b1000⟩ ⟨_, _, rfl, by decide +kernel⟩

example : ∃ t out fails, Runs (dispatch plainFmt false ⟨0b1110⟩ (.identify ⟨false, [], none, true⟩)) t
    (.ok (.done out fails)) ∧ Conforming t ∧ Faithful pathMemory t ∧
    out = [chars!"   1 0x11  QSFP28 (SFF-8636)", chars!"   2 0x18  QSFP-DD 8X Pluggable"] ∧
    fails.map Prod.fst = [3] :=
  run_memory (p := fun out => out = _) _ _ _ _ ⟨0b1000⟩ ⟨_, _, rfl, by decide +kernel⟩

/-- A run that meets the hypotheses of C96, with a positive current of a cooler. -/
example : (∃ t out fails, Runs (dispatch plainFmt false ⟨0b110⟩ (.monitors ⟨false, [], none, true⟩)) t (.ok (.done out fails)) ∧
    Conforming t ∧ Faithful (coolerMemory 0x12 0) t ∧ out.length = 19 ∧ fails.map Prod.fst = []) ∧
    ∀ i, Heating (coolerMemory 0x12 0 i) := by
  refine ⟨run_memory (p := fun out => out.length = 19) _ _ _ _ ⟨0⟩ ⟨_, _, rfl, by decide +kernel⟩, fun i a ha => ?_⟩
  rcases ha with rfl | rfl
  · exact (by decide +kernel : (0 : Int) ≤ signedAt (cmisLow (coolerMemory 0x12 0 0)) 18)
  · exact (by decide +kernel : (0 : Int) ≤ signedAt (cmisLow (coolerMemory 0x12 0 0)) 20)

/-- **C96** is false: a negative current of a cooler is shown as a positive one. -/
theorem C96_counterexample : ∃ t out fails,
    Runs (dispatch plainFmt false ⟨0b10⟩ (.monitors ⟨false, [], none, true⟩)) t (.ok (.done out fails)) ∧ Conforming t ∧
    Faithful (coolerMemory 0xff 0) t ∧
    (out[6]? = some (reading chars!"Aux 1, TEC current (mA)" (some chars!"2.0000305")) ∧
      auxShown coolerSigned (coolerMemory 0xff 0 1) 1 = (chars!"Aux 1, TEC current (mA)", some chars!"-0.00003051851")) ∧
    fails.map Prod.fst = [] :=
  run_memory (p := fun out => out[6]? = some _ ∧ auxShown coolerSigned (coolerMemory 0xff 0 1) 1 = _)
    _ _ _ _ ⟨0⟩ ⟨_, _, rfl, by decide +kernel⟩

/-- **C96** is false: two modules whose custom monitors differ, `00 00` and `ff ff`, are shown alike. -/
theorem C96_custom_false : ∀ c : U8, c = 0 ∨ c = 0xff → ∃ t out fails,
    Runs (dispatch plainFmt false ⟨0b10⟩ (.monitors ⟨false, [], none, true⟩)) t (.ok (.done out fails)) ∧ Conforming t ∧
    Faithful (coolerMemory 0 c) t ∧
    (out = [chars!"Port 1", reading chars!"Temperature (C)" none, reading chars!"Supply voltage (V)" none,
      reading chars!"Rx power (mW)" none, reading chars!"Tx bias (mA)" none, reading chars!"Tx power (mW)" none,
      reading chars!"Aux 1, TEC current (mA)" (some chars!"0.00778222"), reading chars!"Aux 2" none, reading chars!"Aux 3" none] ∧
      (cmisAux (coolerMemory 0 c 1)).custom = some (c, c)) ∧ fails.map Prod.fst = [] := by
  rintro c (rfl | rfl)
  · exact run_memory (p := fun out => out = _ ∧ (cmisAux (coolerMemory 0 0 1)).custom = _)
      _ _ _ _ ⟨0⟩ ⟨_, _, rfl, by decide +kernel⟩
  · exact run_memory (p := fun out => out = _ ∧ (cmisAux (coolerMemory 0 0xff 1)).custom = _)
      _ _ _ _ ⟨0⟩ ⟨_, _, rfl, by decide +kernel⟩

end Xcvr
