import Verif.Lemmas.Print
import Verif.Lemmas.FlagText
import Verif.Lemmas.MemoryModel
import Verif.Props.Mac
import Verif.Props.Decode

/-! # Properties of the output of the command line tool -/

namespace Xcvr

open Spec Cli

/-! ## C73: parseable tables -/

/-- C73: a text can be read as a table in at most one way. -/
theorem C73_unique {sep : Char} (hs : sep ≠ '\n') {text : List Char} {a b : List (List (List Char))}
    (ha : Reads sep text a) (hb : Reads sep text b) : a = b := reads_unique hs ha hb

/-- C73 with any separator of one character: a table reads back as the names of the fields and one row for each port,
if the separator does not occur in the cells. -/
theorem C73_custom_partial {F P : Type} (header : Bool) (name : F → List Char) (value : F → U8 → P → List Char)
    (fields : List F) (sep : Char) (rows : List (U8 × P)) (hf : fields ≠ [])
    (hn : ∀ f ∈ fields, sep ∉ name f ∧ '\n' ∉ name f)
    (hv : ∀ f ∈ fields, ∀ r ∈ rows, sep ∉ value f r.1 r.2 ∧ '\n' ∉ value f r.1 r.2) :
    ∃ lines, tableLines header name (fun f p x => .ok (value f p x)) fields (separator (some [sep])) rows = .ok lines ∧
      Reads sep (printed lines) ((if header then [fields.map name] else []) ++
        rows.map fun r => fields.map fun f => value f r.1 r.2) :=
  reads_table hf hn (fun _ _ _ _ => rfl) hv

/-- The text of a field of a power mode in the row of a port. -/
def powerValue (f : PowerField) (port : U8) (x : PowerMode) : List Char :=
  match f with
  | .port => decimal port
  | .power => powerText x.state
  | .override => overrideText x.softwareOverride

/-- C73: power modes with the default separator. -/
theorem C73_power (header : Bool) (fields : List PowerField) (hf : fields ≠ []) (r : Res PowerMode) :
    ∃ lines, tableLines header PowerField.name PowerField.cell fields (separator none) r.iter = .ok lines ∧
      Reads ':' (printed lines) ((if header then [fields.map PowerField.name] else []) ++
        r.iter.map fun x => fields.map fun f => powerValue f x.1 x.2) := by
  refine reads_table (sep := ':') (name := PowerField.name) (cell := PowerField.cell) (value := powerValue) hf
    (fun f _ => by cases f <;> decide) (fun f _ x _ => by cases f <;> rfl) (fun f _ x _ => ?_)
  cases f
  · exact clean_decimal _
  · show Clean (powerText x.2.state)
    cases x.2.state <;> decide
  · show Clean (overrideText x.2.softwareOverride)
    rcases x.2.softwareOverride with _ | _ | _ <;> decide

/-- The text of a field of an identifier in the row of a port. -/
def identifyValue (f : IdentifyField) (port : U8) (x : Identifier) : List Char :=
  match f with
  | .port => decimal port
  | .ident => hexByte x.toByte
  | .description => x.display

/-- C73: identifiers with the default separator. -/
theorem C73_identify (header : Bool) (fields : List IdentifyField) (hf : fields ≠ []) (r : Res Identifier) :
    ∃ lines, tableLines header IdentifyField.name IdentifyField.cell fields (separator none) r.iter = .ok lines ∧
      Reads ':' (printed lines) ((if header then [fields.map IdentifyField.name] else []) ++
        r.iter.map fun x => fields.map fun f => identifyValue f x.1 x.2) := by
  refine reads_table (sep := ':') (name := IdentifyField.name) (cell := IdentifyField.cell) (value := identifyValue) hf
    (fun f _ => by cases f <;> decide) (fun f _ x _ => by cases f <;> rfl) (fun f _ x _ => ?_)
  cases f
  · exact clean_decimal _
  · exact clean_hexByte _
  · exact (clean_ident x.2).2

/-- The text of a field of the memory read in the row of a port. -/
def dataValue (binary : Bool) (f : DataField) (port : U8) (x : Bytes) : List Char :=
  match f with
  | .port => decimal port
  | .data => dataText binary x

/-- C73: memory with the default separator. -/
theorem C73_data (header binary : Bool) (fields : List DataField) (hf : fields ≠ []) (r : Res Bytes) :
    ∃ lines, tableLines header DataField.name (DataField.cell binary) fields (separator none) r.iter = .ok lines ∧
      Reads ':' (printed lines) ((if header then [fields.map DataField.name] else []) ++
        r.iter.map fun x => fields.map fun f => dataValue binary f x.1 x.2) := by
  refine reads_table (sep := ':') (name := DataField.name) (cell := (DataField.cell binary)) (value := dataValue binary) hf
    (fun f _ => by cases f <;> decide) (fun f _ x _ => by cases f <;> rfl) (fun f _ x _ => ?_)
  cases f
  · exact clean_decimal _
  · exact clean_dataText binary _

/-- The text of a field of an LED in the row of a port. -/
def ledValue (f : LedField) (port : U8) (x : LedState) : List Char :=
  match f with
  | .port => decimal port
  | .led => ledText x

/-- C73: LEDs with the default separator. -/
theorem C73_led (header : Bool) (fields : List LedField) (hf : fields ≠ []) (r : Res LedState) :
    ∃ lines, tableLines header LedField.name LedField.cell fields (separator none) r.iter = .ok lines ∧
      Reads ':' (printed lines) ((if header then [fields.map LedField.name] else []) ++
        r.iter.map fun x => fields.map fun f => ledValue f x.1 x.2) := by
  refine reads_table (sep := ':') (name := LedField.name) (cell := LedField.cell) (value := ledValue) hf
    (fun f _ => by cases f <;> decide) (fun f _ x _ => by cases f <;> rfl) (fun f _ x _ => ?_)
  cases f
  · exact clean_decimal _
  · show Clean (ledText x.2)
    cases x.2 <;> decide

/-- The text of a field of a status in the row of a port. -/
def statusValue (f : StatusField) (port : U8) (x : U32) : List Char :=
  match f with
  | .port => decimal port
  | .status => statusText x

/-- C73: status with the default separator. -/
theorem C73_status (omitHeader : Bool) (fields : List StatusField) (hf : fields ≠ []) (r : Res U32) :
    Reads ':' (printed (statusLines omitHeader fields (separator none) r.iter))
      ((if omitHeader then [] else [fields.map StatusField.name]) ++
        r.iter.map fun x => fields.map fun f => statusValue f x.1 x.2) := by
  have hcell (p : U8 × U32) : (fields.map fun f => f.cell p.1 p.2) = fields.map fun f => statusValue f p.1 p.2 :=
    List.map_congr_left fun f _ => by cases f <;> rfl
  refine ⟨?_, ?_⟩
  · rw [printed, statusLines]
    congr 1
    cases omitHeader <;> simp [join_eq, Function.comp_def, hcell, separator]
  · intro row hr
    rcases List.mem_append.1 hr with hr | hr
    · cases omitHeader
      · have : row = fields.map StatusField.name := by simpa using hr
        subst this
        refine ⟨by simpa using hf, fun c hc => ?_⟩
        obtain ⟨f, _, rfl⟩ := List.mem_map.1 hc
        cases f <;> decide
      · simp at hr
    · obtain ⟨p, _, rfl⟩ := List.mem_map.1 hr
      refine ⟨by simpa using hf, fun c hc => ?_⟩
      obtain ⟨f, _, rfl⟩ := List.mem_map.1 hc
      cases f
      · exact clean_decimal _
      · exact clean_statusText _

/-- The text of a field of vendor information in the row of a port. -/
def vendorValue (f : VendorField) (port : U8) (x : VendorInfo) : List Char :=
  match f with
  | .port => decimal port
  | .identifier => debugText x.identifier ++ chars!" (" ++ hexByte x.identifier.toByte ++ chars!")"
  | .vendor => x.vendor.name
  | .part => x.vendor.part
  | .rev => x.vendor.revision
  | .serial => x.vendor.serial
  | .manufacturedDate => x.vendor.date.getD chars!"Unknown"

/-- C73: vendor information with the default separator, if the texts stored in the modules contain no colon and no line
break. -/
theorem C73_vendor_partial (header : Bool) (fields : List VendorField) (hf : fields ≠ []) (r : Res VendorInfo)
    (ht : ∀ x ∈ r.iter, ∀ s ∈ [x.2.vendor.name, x.2.vendor.part, x.2.vendor.revision, x.2.vendor.serial,
      x.2.vendor.date.getD []], ':' ∉ s ∧ '\n' ∉ s) :
    ∃ lines, tableLines header VendorField.name VendorField.cell fields (separator none) r.iter = .ok lines ∧
      Reads ':' (printed lines) ((if header then [fields.map VendorField.name] else []) ++
        r.iter.map fun x => fields.map fun f => vendorValue f x.1 x.2) := by
  refine reads_table (sep := ':') (name := VendorField.name) (cell := VendorField.cell) (value := vendorValue) hf
    (fun f _ => by cases f <;> decide) (fun f _ x _ => by cases f <;> rfl) (fun f _ x hx => ?_)
  have ht := ht x hx
  cases f
  · exact clean_decimal _
  · exact clean_append (clean_append (clean_append (clean_ident x.2.identifier).1 (by decide)) (clean_hexByte _))
      (by decide)
  · exact ht x.2.vendor.name (by simp)
  · exact ht x.2.vendor.part (by simp)
  · exact ht x.2.vendor.revision (by simp)
  · exact ht x.2.vendor.serial (by simp)
  · show Clean (x.2.vendor.date.getD chars!"Unknown")
    cases hd : x.2.vendor.date with
    | none => decide
    | some d => exact ht d (by simp [hd])

/-- The memory of an SFF-8636 module that stores the given vendor name and part number. -/
def vendorMemory (name part : List Nat) : ModuleMemory := fun p a =>
  if p = .sff8636 (.upper 0) then
    if 148 ≤ a ∧ a < 164 then BitVec.ofNat 8 (name.getD (a - 148) 32)
    else if 168 ≤ a ∧ a < 184 then BitVec.ofNat 8 (part.getD (a - 168) 32)
    else 32
  else 0

/-- C73 is false of vendor information: two modules that store different vendors and parts print the same line. -/
theorem C73_counterexample :
    ∃ a b, decodeFrom VendorInfo.decoder (Bf.ofByte 0x11) (vendorMemory [65, 58, 66] [67]) = .ok a ∧
      decodeFrom VendorInfo.decoder (Bf.ofByte 0x11) (vendorMemory [65] [66, 58, 67]) = .ok b ∧
      a.vendor.name ≠ b.vendor.name ∧ a.vendor.part ≠ b.vendor.part ∧
      tableLines true VendorField.name VendorField.cell [.vendor, .part] (separator none) [(0, a)] =
        .ok [chars!"vendor:part", chars!"A:B:C"] ∧
      tableLines true VendorField.name VendorField.cell [.vendor, .part] (separator none) [(0, b)] =
        .ok [chars!"vendor:part", chars!"A:B:C"] :=
  ⟨⟨Bf.ofByte 0x11, ⟨chars!"A:B", ⟨32, 32, 32⟩, chars!"C", [], [], some chars!"        "⟩⟩,
   ⟨Bf.ofByte 0x11, ⟨chars!"A", ⟨32, 32, 32⟩, chars!"B:C", [], [], some chars!"        "⟩⟩,
   by decide +kernel⟩

/-- C73 is false of vendor information: one module can print two lines. -/
theorem C73_line_counterexample :
    ∃ a, decodeFrom VendorInfo.decoder (Bf.ofByte 0x11) (vendorMemory [65, 10, 66] [67]) = .ok a ∧
      (do return printed (← tableLines false VendorField.name VendorField.cell [.port, .vendor] (separator none)
        [(0, a)])) = Exec.ok chars!"0:A\nB\n" :=
  ⟨⟨Bf.ofByte 0x11, ⟨chars!"A\nB", ⟨32, 32, 32⟩, chars!"C", [], [], some chars!"        "⟩⟩, by decide +kernel⟩

/-- C73 as stated is false. -/
theorem C73_false : ¬ ∀ (mem : ModuleMemory) (v : VendorInfo),
    decodeFrom VendorInfo.decoder (Bf.ofByte 0x11) mem = .ok v →
    ∀ lines, tableLines false VendorField.name VendorField.cell [.vendor, .part] (separator none) [(0, v)] = .ok lines →
      Reads ':' (printed lines) [[v.vendor.name, v.vendor.part]] := by
  intro h
  have := h (vendorMemory [65, 58, 66] [67])
    ⟨Bf.ofByte 0x11, ⟨chars!"A:B", ⟨32, 32, 32⟩, chars!"C", [], [], some chars!"        "⟩⟩ (by decide +kernel) _ rfl
  exact ((this.2 _ List.mem_cons_self).2 _ List.mem_cons_self).1 (by decide)

/-- Two ports, with a header. -/
example : ∃ r : Res LedState, r.iter = [(3, .on), (7, .blink)] ∧
    tableLines true LedField.name LedField.cell [.led, .port] (separator none) r.iter =
      .ok [chars!"led:port", chars!"on:3", chars!"blink:7"] :=
  ⟨⟨⟨0x88⟩, [.on, .blink], ⟨⟨0⟩, []⟩⟩, by decide +kernel⟩

/-- Vendor texts without colons. -/
example : ∃ v, decodeFrom VendorInfo.decoder (Bf.ofByte 0x11) (vendorMemory [65] [66]) = .ok v ∧
    v.vendor.name = chars!"A" ∧ ':' ∉ v.vendor.part :=
  ⟨⟨Bf.ofByte 0x11, ⟨chars!"A", ⟨32, 32, 32⟩, chars!"B", [], [], some chars!"        "⟩⟩, by decide +kernel⟩

/-! ## C74: values -/

/-- C74: a printed port is its number in decimal. -/
theorem C74_port (x : U8) : Number 10 (decimal x) x := by
  refine u8FromRadix_iff.1 ?_
  revert x; decide +kernel

/-- C74: a printed byte is its number in hexadecimal, after `0x`; the tool reads it back. -/
theorem C74_hex (x : U8) : (∃ t, hexByte x = '0' :: 'x' :: t ∧ Number 16 t x) ∧ readU8 (hexByte x) = some x := by
  refine ⟨⟨Bf.hex2 x, rfl, u8FromRadix_iff.1 ?_⟩, ?_⟩
  · revert x; decide +kernel
  · revert x; decide +kernel

/-- C74: a byte printed in binary is its number in binary, after `0b`. -/
theorem C74_binary (x : U8) : ∃ t, binByte x = '0' :: 'b' :: t ∧ t.length = 8 ∧ Number 2 t x := by
  refine ⟨(binByte x).drop 2, rfl, rfl, u8FromRadix_iff.1 ?_⟩
  revert x; decide +kernel

/-- C74: the bytes of a module are printed in order, one between each two commas, and nothing else. -/
theorem C74_data (binary : Bool) (d : Bytes) :
    (d = [] → dataText binary d = []) ∧
    (d ≠ [] → Cells ',' (dataText binary d) (d.map fun x => if binary then binByte x else hexByte x)) := by
  have e : (d.map (if binary then binByte else hexByte)) = d.map fun x => if binary then binByte x else hexByte x :=
    List.map_congr_left fun x _ => by cases binary <;> rfl
  refine ⟨fun h => by subst h; rfl, fun h => ⟨by simpa using h, ?_, ?_⟩⟩
  · rw [dataText, join_eq, e]
  · intro c hc
    obtain ⟨x, _, rfl⟩ := List.mem_map.1 hc
    cases binary
    · exact comma_hexByte x
    · exact comma_binByte x

/-- C74: the printed text determines the bytes. -/
theorem C74_data_injective (binary : Bool) (d d' : Bytes) (h : dataText binary d = dataText binary d') : d = d' := by
  have hx : ∀ x y : U8, (if binary then binByte x else hexByte x) = (if binary then binByte y else hexByte y) → x = y := by
    intro x y hxy
    cases binary
    · have := congrArg readU8 hxy
      exact Option.some.inj (((C74_hex x).2.symm.trans this).trans (C74_hex y).2)
    · have hb : ∀ z : U8, u8FromRadix 2 ((binByte z).drop 2) = some z := by decide +kernel
      have := congrArg (fun s => u8FromRadix 2 (s.drop 2)) hxy
      exact Option.some.inj (((hb x).symm.trans this).trans (hb y))
  have hne : ∀ e : Bytes, e ≠ [] → dataText binary e ≠ [] := by
    intro e he h0
    have hc := (C74_data binary e).2 he
    have : splitChar ',' (dataText binary e) = _ := (congrArg (splitChar ',') (hc.2.1.trans (join_eq _ _).symm)).trans
      (splitChar_join hc.1 hc.2.2)
    rw [h0] at this
    cases e with
    | nil => exact he rfl
    | cons x xs =>
      have h2 := congrArg (·.head?) this
      have h3 : ([] : List Char) = if binary then binByte x else hexByte x := by
        simpa [splitChar] using h2
      cases binary <;> simp [binByte, hexByte] at h3
  by_cases h1 : d = []
  · by_cases h2 : d' = []
    · rw [h1, h2]
    · rw [h1] at h
      exact absurd h.symm (hne d' h2)
  · by_cases h2 : d' = []
    · rw [h2] at h
      exact absurd h (hne d h1)
    · have hc := (C74_data binary d).2 h1
      rw [h] at hc
      have e := cells_unique hc ((C74_data binary d').2 h2)
      exact List.map_inj_right (fun x y => hx x y) |>.1 e

/-- C74: the text of a set of status flags is read back by the option `--with`, also if it has bits without a name. -/
theorem C74_status (s : U32) : parseStatus (statusText s) = some s :=
  (flagsRead_iff goodNames _ _).2 (flagsText_written goodNames s)

theorem containsFlags_twoPow (s : U32) (i : Nat) (hi : i < 32) :
    containsFlags s (BitVec.twoPow 32 i) = s.getLsbD i := by
  rw [containsFlags, BitVec.and_twoPow]
  cases h : s.getLsbD i
  · have : (0#32 : U32) ≠ BitVec.twoPow 32 i := by
      intro h0
      have := congrArg (fun x : U32 => x.getLsbD i) h0
      simp [hi] at this
    simpa using this
  · simp

/-- C74: the table of all status bits has one mark for each of the nine flags, in the order of the bits, which says
whether the bit is set. -/
theorem C74_all (s : U32) : (statusMarks s).map Prod.snd = (List.range 9).map fun i => s.getLsbD i := by
  have e : flagNames.map Prod.snd = (List.range 9).map (BitVec.twoPow 32) := by decide +kernel
  have h1 : (statusMarks s).map Prod.snd = (flagNames.map Prod.snd).map (containsFlags s) := by
    rw [statusMarks, List.map_map, List.map_map]; rfl
  rw [h1, e, List.map_map]
  refine List.map_congr_left fun i hi => ?_
  exact containsFlags_twoPow s i (Nat.lt_trans (List.mem_range.1 hi) (by omega))

/-- C74: power states, overrides and LED states are printed as their names, which tell them apart. -/
theorem C74_words :
    [PowerState.off, .low, .high].map powerText = [chars!"Off", chars!"Low", chars!"High"] ∧
    [none, some true, some false].map overrideText = [chars!"-", chars!"Yes", chars!"No"] ∧
    [LedState.off, .on, .blink].map ledText = [chars!"off", chars!"on", chars!"blink"] ∧
    (∀ s s', powerText s = powerText s' → s = s') ∧ (∀ o o', overrideText o = overrideText o' → o = o') ∧
    ∀ l l', ledText l = ledText l' → l = l' := by
  refine ⟨by decide, by decide, by decide, fun s s' => ?_, fun o o' => ?_, fun l l' => ?_⟩
  · cases s <;> cases s' <;> decide
  · rcases o with _ | _ | _ <;> rcases o' with _ | _ | _ <;> decide
  · cases l <;> cases l' <;> decide

example : statusText 0b100100011 = chars!"PRESENT | ENABLED | POWER_GOOD | DISABLED_BY_SP" ∧
    dataText false [0x0a, 0xff] = chars!"0x0a,0xff" ∧ decimal 31 = chars!"31" := by decide +kernel

/-! ## C75: memory models -/

/-- The text of a page: its number in hexadecimal, and after a slash its bank in decimal. -/
def pageValue (p : Page) : List Char :=
  hexByte (p.page.getD 0) ++ match p.bank with | some b => '/' :: decimal b | none => []

theorem pageText_upper {p : Page} (h : p.page ≠ none) : pageText p = .ok (pageValue p) := by
  obtain ⟨n, hn⟩ := Option.ne_none_iff_exists'.1 h
  rw [pageText, pageValue, hn]
  cases p.bank <;> rfl

theorem decoded_pages {id : Identifier} {mem : ModuleMemory} {pages : List Page}
    (h : decodeFrom MemoryModel.decoder id mem = .ok (.paged pages)) : ∀ p ∈ pages, p.page ≠ none := by
  have hs (x : U8) : ∀ p ∈ MemoryModel.sffSorted x, p.page ≠ none := by revert x; decide +kernel
  have hc (x b : U8) : ∀ p ∈ MemoryModel.cmisSorted b x, p.page ≠ none := by
    intro p hp
    simp only [MemoryModel.cmisSorted, List.mem_append] at hp
    rcases hp with ((hp | hp) | hp) | hp
    · simp at hp; rcases hp with rfl | rfl | rfl <;> simp [Page.page]
    · split at hp <;> simp at hp; subst hp; simp [Page.page]
    · simp at hp; rcases hp with rfl | rfl <;> simp [Page.page]
    · split at hp <;> simp at hp; rcases hp with rfl | rfl <;> simp [Page.page]
  by_cases hk : SffModule id
  · rw [MemoryModel.decode_sff hk] at h
    split at h <;> cases h
    exact hs _
  · by_cases hk' : CmisModule id
    · rw [MemoryModel.decode_cmis hk'] at h
      split at h
      · cases h
      · split at h <;> cases h
        exact hc _ _
    · have h : (MemoryModel.reads id).bind _ = _ := h
      rw [MemoryModel.reads, Decode.byKind_other hk hk'] at h
      cases h

/-- The text of a memory model. -/
def modelValue : MemoryModel → List Char
  | .flat => chars!"Flat"
  | .paged pages => chars!"Paged [" ++ List.intercalate [','] (pages.map pageValue) ++ chars!"]"

/-- C75: printing a memory model decoded from a module never aborts. -/
theorem C75_model {id : Identifier} {mem : ModuleMemory} {m : MemoryModel}
    (h : decodeFrom MemoryModel.decoder id mem = .ok m) : modelText m = .ok (modelValue m) := by
  cases m with
  | flat => rfl
  | paged pages =>
    have := decoded_pages h
    rw [modelText, mapM_ok (fun p hp => pageText_upper (this p hp)), modelValue, ← join_eq]
    rfl

/-- C75: in general it can abort, on a model made in another way. -/
theorem C75_lower : modelText (.paged [.cmis .lower]) = .panic := rfl

theorem clean_pageValue (p : Page) : Clean (pageValue p) ∧ ',' ∉ pageValue p := by
  have hd (x : U8) : ',' ∉ decimal x := by revert x; decide +kernel
  rw [pageValue]
  cases p.bank with
  | none => simpa using ⟨clean_hexByte _, comma_hexByte _⟩
  | some b =>
    refine ⟨clean_append (clean_hexByte _) ?_, ?_⟩
    · exact clean_append (a := ['/']) (by decide) (clean_decimal b)
    · simp [comma_hexByte, hd]

theorem clean_modelValue (m : MemoryModel) : Clean (modelValue m) := by
  cases m with
  | flat => decide
  | paged pages =>
    refine clean_append (clean_append (by decide) ?_) (by decide)
    rw [← join_eq]
    refine clean_join (by decide) fun x hx => ?_
    obtain ⟨p, _, rfl⟩ := List.mem_map.1 hx
    exact (clean_pageValue p).1

theorem pageValue_inj {p q : Page} (hp : p.page ≠ none) (hq : q.page ≠ none) (h : pageValue p = pageValue q) :
    p.page = q.page ∧ p.bank = q.bank := by
  obtain ⟨a, ha⟩ := Option.ne_none_iff_exists'.1 hp
  obtain ⟨b, hb⟩ := Option.ne_none_iff_exists'.1 hq
  rw [pageValue, pageValue, ha, hb] at h
  obtain ⟨h1, h2⟩ := List.append_inj h rfl
  refine ⟨?_, ?_⟩
  · rw [ha, hb]
    have := congrArg readU8 h1
    rw [(C74_hex _).2, (C74_hex _).2] at this
    exact this
  · have hd (x : U8) : u8FromRadix 10 (decimal x) = some x := u8FromRadix_iff.2 (C74_port x)
    cases hpb : p.bank with
    | none =>
      cases hqb : q.bank with
      | none => rfl
      | some y => rw [hpb, hqb] at h2; cases h2
    | some x =>
      cases hqb : q.bank with
      | none => rw [hpb, hqb] at h2; cases h2
      | some y =>
        rw [hpb, hqb] at h2
        rw [← hd x, ← hd y, (List.cons.inj h2).2]

/-- C75: the text determines whether the memory is flat, and the numbers and banks of the pages in order. -/
theorem C75_injective {id id' : Identifier} {mem mem' : ModuleMemory} {m m' : MemoryModel}
    (h : decodeFrom MemoryModel.decoder id mem = .ok m) (h' : decodeFrom MemoryModel.decoder id' mem' = .ok m')
    (ht : modelText m = modelText m') :
    (m = .flat ∧ m' = .flat) ∨
    ∃ ps qs, m = .paged ps ∧ m' = .paged qs ∧ ps.map (fun p => (p.page, p.bank)) = qs.map fun p => (p.page, p.bank) := by
  rw [C75_model h, C75_model h'] at ht
  replace ht := Exec.ok.inj ht
  cases m with
  | flat =>
    cases m' with
    | flat => exact .inl ⟨rfl, rfl⟩
    | paged qs => cases ht
  | paged ps =>
    cases m' with
    | flat => cases ht
    | paged qs =>
      refine .inr ⟨ps, qs, rfl, rfl, ?_⟩
      have hp := decoded_pages h
      have hq := decoded_pages h'
      have e : List.intercalate [','] (ps.map pageValue) = List.intercalate [','] (qs.map pageValue) :=
        List.append_cancel_left (List.append_cancel_right (ht : chars!"Paged [" ++ _ ++ _ = _))
      have hlen : ∀ {l : List Page}, l ≠ [] → List.intercalate [','] (l.map pageValue) ≠ [] := by
        intro l hl
        cases l with
        | nil => exact absurd rfl hl
        | cons p l =>
          cases l with
          | nil => simp [List.intercalate, pageValue, hexByte]
          | cons q l => simp [List.intercalate, pageValue, hexByte]
      by_cases hps : ps = []
      · subst hps
        by_cases hqs : qs = []
        · rw [hqs]
        · exact absurd e.symm (hlen hqs)
      · by_cases hqs : qs = []
        · subst hqs
          exact absurd e (hlen hps)
        · have e2 : ps.map pageValue = qs.map pageValue :=
            cells_unique (sep := ',') (text := List.intercalate [','] (ps.map pageValue))
              ⟨by simpa using hps, rfl, fun c hc => by
                obtain ⟨p, _, rfl⟩ := List.mem_map.1 hc; exact (clean_pageValue p).2⟩
              ⟨by simpa using hqs, e, fun c hc => by
                obtain ⟨p, _, rfl⟩ := List.mem_map.1 hc; exact (clean_pageValue p).2⟩
          clear e ht hps hqs h h' hlen
          induction ps generalizing qs with
          | nil => cases qs with
            | nil => rfl
            | cons q qs => cases e2
          | cons p ps ih =>
            cases qs with
            | nil => cases e2
            | cons q qs =>
              have e2 := List.cons.inj e2
              have := pageValue_inj (hp p (by simp)) (hq q (by simp)) e2.1
              rw [List.map_cons, List.map_cons, ih qs (fun x hx => hp x (by simp [hx]))
                (fun x hx => hq x (by simp [hx])) e2.2, this.1, this.2]

/-- The text of a field of a memory model in the row of a port. -/
def memoryValue (f : ModelField) (port : U8) (x : MemoryModel) : List Char :=
  match f with
  | .port => decimal port
  | .model => modelValue x

/-- C73: memory models with the default separator. -/
theorem C73_model (header : Bool) (fields : List ModelField) (hf : fields ≠ []) (r : Res MemoryModel)
    (hm : ∀ x ∈ r.iter, ∃ id mem, decodeFrom MemoryModel.decoder id mem = .ok x.2) :
    ∃ lines, tableLines header ModelField.name ModelField.cell fields (separator none) r.iter = .ok lines ∧
      Reads ':' (printed lines) ((if header then [fields.map ModelField.name] else []) ++
        r.iter.map fun x => fields.map fun f => memoryValue f x.1 x.2) := by
  refine reads_table (sep := ':') (name := ModelField.name) (cell := ModelField.cell) (value := memoryValue) hf
    (fun f _ => by cases f <;> decide) (fun f _ x hx => ?_) (fun f _ x _ => ?_)
  · obtain ⟨id, mem, h⟩ := hm x hx
    cases f
    · rfl
    · exact C75_model h
  · cases f
    · exact clean_decimal _
    · exact clean_modelValue _

/-- The pages of a CMIS module with four banks. -/
example : ∃ m, decodeFrom MemoryModel.decoder (Bf.ofByte 0x18) sampleCmis = .ok m ∧
    modelText m = .ok chars!"Paged [0x00,0x01,0x02,0x03,0x10/3,0x11/3,0x13/3,0x14/3]" :=
  ⟨.paged (MemoryModel.cmisSorted 3 0x26), by decide +kernel, by decide +kernel⟩

/-! ## C76 and C77: receiver power -/

theorem lanes_alike {id : Identifier} {mem : ModuleMemory} {m : Monitors}
    (h : decodeFrom Monitors.decoder id mem = .ok m) :
    m.receiverPower = none ∨ (∃ x xs, m.receiverPower = some ((x :: xs).map .average)) ∨
      ∃ x xs, m.receiverPower = some ((x :: xs).map .peakToPeak) := by
  by_cases hk : SffModule id
  · rw [Monitors.decode_sff hk] at h
    cases h
    right
    show (∃ x xs, some _ = some _) ∨ ∃ x xs, some _ = some _
    cases hb : bit (sffUp00 mem 220) 3
    · exact .inr ⟨_, [_, _, _], rfl⟩
    · exact .inl ⟨_, [_, _, _], rfl⟩
  · by_cases hk' : CmisModule id
    · rw [Monitors.decode_cmis hk'] at h
      cases hs : Monitors.biasScale (cmisUp mem 1 160) with
      | panic => rw [hs] at h; cases h
      | err e => rw [hs] at h; cases h
      | ok s =>
        rw [hs] at h
        cases h
        show given (bit (cmisUp mem 1 160) 2) _ = _ ∨ (∃ x xs, given (bit (cmisUp mem 1 160) 2) _ = some _) ∨
          ∃ x xs, given (bit (cmisUp mem 1 160) 2) _ = some _
        cases bit (cmisUp mem 1 160) 2
        · exact .inl rfl
        · cases bit (cmisUp mem 1 151) 4
          · exact .inr (.inr ⟨_, [_, _, _, _, _, _, _], rfl⟩)
          · exact .inr (.inl ⟨_, [_, _, _, _, _, _, _], rfl⟩)
    · have h : (Monitors.reads id).bind _ = _ := h
      rw [Monitors.reads, Decode.byKind_other hk hk'] at h
      cases h

/-- C76: printing the monitors decoded from a module never aborts; receiver power has a name exactly if it is
supported, and the name is right for every lane. -/
theorem C76_name {id : Identifier} {mem : ModuleMemory} {m : Monitors}
    (h : decodeFrom Monitors.decoder id mem = .ok m) :
    ∃ n, rxName m.receiverPower = .ok n ∧ (n = none ↔ m.receiverPower = none) ∧
      ∀ lanes, m.receiverPower = some lanes → ∀ l ∈ lanes,
        (n = some .average → ∃ x, l = .average x) ∧ (n = some .peakToPeak → ∃ x, l = .peakToPeak x) := by
  rcases lanes_alike h with e | ⟨x, xs, e⟩ | ⟨x, xs, e⟩
  · refine ⟨none, by rw [e]; rfl, by simp [e], fun lanes hl => ?_⟩
    rw [e] at hl; cases hl
  · refine ⟨some .average, by rw [e]; rfl, by simp [e], fun lanes hl l hm => ⟨fun _ => ?_, nofun⟩⟩
    rw [e] at hl; cases hl
    obtain ⟨y, _, rfl⟩ := List.mem_map.1 hm
    exact ⟨y, rfl⟩
  · refine ⟨some .peakToPeak, by rw [e]; rfl, by simp [e], fun lanes hl l hm => ⟨nofun, fun _ => ?_⟩⟩
    rw [e] at hl; cases hl
    obtain ⟨y, _, rfl⟩ := List.mem_map.1 hm
    exact ⟨y, rfl⟩

/-- C76: it could abort on monitors made in another way. -/
theorem C76_empty : rxName (some []) = .panic := rfl

example : ∃ m, decodeFrom Monitors.decoder (Bf.ofByte 0x11) (constMemory 0x80) = .ok m ∧
    rxName m.receiverPower = .ok (some .peakToPeak) :=
  ⟨_, Monitors.decode_sff (Or.inr rfl) _, by decide +kernel⟩

/-- The average powers of the lanes. -/
def Averages (m : Monitors) (xs : List Rat) : Prop := m.receiverPower = some (xs.map .average)

/-- C77: the column of average power is empty for a module without the monitor, and holds the average of each lane in
order for a module that measures averages. -/
theorem C77_column_partial (m : Monitors) :
    (m.receiverPower = none → averageRxColumn m = []) ∧ ∀ xs, Averages m xs → averageRxColumn m = xs := by
  refine ⟨fun h => by rw [averageRxColumn, h]; rfl, fun xs h => ?_⟩
  rw [averageRxColumn, h, Option.getD_some, List.map_map]
  exact (List.map_congr_left fun _ _ => rfl).trans (List.map_id xs)

/-- C77 is false: a module that measures peak-to-peak power has the same column of average power as a module that
measures averages. -/
theorem C77_counterexample :
    ∃ m m', decodeFrom Monitors.decoder (Bf.ofByte 0x11) (constMemory 0x80) = .ok m ∧
      decodeFrom Monitors.decoder (Bf.ofByte 0x11)
        (fun p a => if p = .sff8636 (.upper 0) ∧ a = 220 then 0x88 else 0x80) = .ok m' ∧
      (∀ xs, ¬ Averages m xs) ∧ (∃ xs, xs ≠ [] ∧ Averages m' xs) ∧ averageRxColumn m = averageRxColumn m' :=
  ⟨_, _, Monitors.decode_sff (Or.inr rfl) _, Monitors.decode_sff (Or.inr rfl) _, by
    intro xs h
    have h : some _ = some _ := h
    cases xs with
    | nil => simp [sffMonitors] at h
    | cons x xs => simp [sffMonitors, rxPowerAt, bit, sffUp00, constMemory] at h,
    ⟨List.replicate 4 (single (single (32896 * single (1 / 10000000)) * 1000)), by decide, by unfold Averages; decide +kernel⟩,
    by decide +kernel⟩

/-- C77 as stated is false. -/
theorem C77_false : ¬ ∀ (id : Identifier) (mem : ModuleMemory) (m : Monitors),
    decodeFrom Monitors.decoder id mem = .ok m → averageRxColumn m ≠ [] → ∃ xs, Averages m xs ∧ averageRxColumn m = xs := by
  intro h
  obtain ⟨m, m', hm, -, hn, ⟨xs, hx, hxs⟩, he⟩ := C77_counterexample
  have hc : averageRxColumn m ≠ [] := by
    rw [he, (C77_column_partial m').2 xs hxs]; exact hx
  obtain ⟨ys, hy, _⟩ := h _ _ m hm hc
  exact hn ys hy

/-! ## C78: MAC addresses -/

/-- C78: an address is printed as its six octets in order, each as two hexadecimal digits, with colons between them. -/
theorem C78_text (m : Mac) : Cells ':' (macText m) [Bf.hex2 m.b0, Bf.hex2 m.b1, Bf.hex2 m.b2, Bf.hex2 m.b3,
    Bf.hex2 m.b4, Bf.hex2 m.b5] ∧ ∀ x : U8, Number 16 (Bf.hex2 x) x ∧ (Bf.hex2 x).length = 2 := by
  have hc : ∀ x : U8, ':' ∉ Bf.hex2 x := by decide +kernel
  refine ⟨⟨by simp, join_eq _ _, ?_⟩, fun x => ⟨u8FromRadix_iff.1 ?_, rfl⟩⟩
  · intro c hm
    simp only [List.mem_cons, List.not_mem_nil, or_false] at hm
    rcases hm with rfl | rfl | rfl | rfl | rfl | rfl <;> exact hc _
  · revert x; decide +kernel

theorem collect_some {α : Type} : ∀ (n : Nat) (xs : List (Option α)), (∀ i, i < n → ∃ a, xs[i]? = some (some a)) →
    xs[n]? = some none → ((xs.takeWhile Option.isSome).filterMap id).length = n ∧
      ∀ i, i < n → xs[i]? = ((xs.takeWhile Option.isSome).filterMap id)[i]?.map some
  | _, [], _, h => by simp at h
  | 0, x :: xs, _, h => by
    have : x = none := by simpa using h
    subst this
    exact ⟨rfl, fun i hi => absurd hi (by omega)⟩
  | n + 1, x :: xs, ha, h => by
    obtain ⟨a, h0⟩ := ha 0 (by omega)
    have : x = some a := by simpa using h0
    subst this
    obtain ⟨h1, h2⟩ := collect_some n xs (fun i hi => by simpa using ha (i + 1) (by omega)) (by simpa using h)
    have e : (((some a :: xs).takeWhile Option.isSome).filterMap id) =
        a :: (xs.takeWhile Option.isSome).filterMap id := by simp
    rw [e]
    refine ⟨by simp [h1], fun i hi => ?_⟩
    cases i with
    | zero => rfl
    | succ i => simpa using h2 i (by omega)

/-- C78: the addresses of a validated range are printed in order, all of them, and printing never aborts. -/
theorem C78_range (base : Mac) (count : U16) (stride : U8) (r : MacAddrs)
    (h : MacAddrs.new base count stride = .ok r) :
    ∃ lines, macLines r = .ok lines ∧ lines.length = count.toNat ∧
      ∀ i, i < count.toNat → ∃ a, lines[i]? = some (macText a) ∧ macVal a = macVal base + i * stride.toNat := by
  have hc : r.count = count := by rw [(new_ok h).1]
  obtain ⟨xs, it, h1, h2, h3⟩ := C07_iterate base count stride r h (count.toNat + 1)
  have hlt := count.isLt
  have hnth (i : Nat) (hi : i < count.toNat) : ∃ a, xs[i]? = some (some a) ∧
      macVal a = macVal base + i * stride.toNat := by
    obtain ⟨x, hx, hx2⟩ := h3 i (by omega)
    rw [if_pos hi] at hx2
    have hm : (BitVec.ofNat 16 i).toNat = i := by rw [BitVec.toNat_ofNat]; exact Nat.mod_eq_of_lt (by omega)
    obtain ⟨a, ha, hv, _⟩ := C05_addresses base count stride r h (BitVec.ofNat 16 i) (by rw [hm]; exact hi)
    rw [hx2.1] at ha
    cases ha
    exact ⟨a, hx, by rw [hv, hm]⟩
  have hend : xs[count.toNat]? = some none := by
    obtain ⟨x, hx, hx2⟩ := h3 count.toNat (by omega)
    rw [if_neg (by omega)] at hx2
    rw [hx, hx2]
  obtain ⟨h4, h5⟩ := collect_some count.toNat xs (fun i hi => ⟨_, (hnth i hi).choose_spec.1⟩) hend
  refine ⟨_, by rw [macLines, hc, h1]; rfl, by simpa using h4, fun i hi => ?_⟩
  obtain ⟨a, ha, hv⟩ := hnth i hi
  refine ⟨a, ?_, hv⟩
  have e := h5 i hi
  rw [ha] at e
  cases hg : ((xs.takeWhile Option.isSome).filterMap id)[i]? with
  | none => rw [hg] at e; cases e
  | some b =>
    rw [hg] at e
    cases e
    rw [List.getElem?_map, hg]
    rfl

/-- A range of three addresses. -/
example : ∃ r, MacAddrs.new ⟨0xa8, 0x40, 0x25, 0, 0, 0xfe⟩ 3 1 = .ok r ∧
    macLines r = .ok [chars!"a8:40:25:00:00:fe", chars!"a8:40:25:00:00:ff", chars!"a8:40:25:00:01:00"] :=
  ⟨⟨⟨0xa8, 0x40, 0x25, 0, 0, 0xfe⟩, 3, 1⟩, by decide +kernel⟩

end Xcvr
