import Verif.Lemmas.JsonForm
import Verif.Props.Info

/-! # C116-C119: values as JSON documents -/

namespace Xcvr

open Spec Json

/-! ## C116: what is written is read back -/

/-- **C116**, vendor information. -/
theorem C116_vendor (v : VendorInfo) : VendorInfo.ofJson v.toJson = some v := vendorInfo_json v

/-- **C116**, measurements: whatever the bytes they are decoded from. -/
theorem C116_monitors {id : Identifier} {rs : List Bytes} {m : Monitors} (h : Monitors.parse id rs = .ok m) :
    Monitors.ofJson m.toJson = some m := monitors_json (Monitors.parse_measured h)

/-- **C116**, power mode, LEDs and status. -/
theorem C116_states (p : PowerMode) (s : PowerState) (l : LedState) (b : Controller.Status) :
    PowerMode.ofJson p.toJson = some p ∧ PowerState.ofJson s.toJson = some s ∧ LedState.ofJson l.toJson = some l ∧
    Status.ofJson (Status.toJson b) = some b := ⟨powerMode_json p, powerState_json s, ledState_json l, status_json b⟩

/-- A code that has a name. -/
def NamedCode (d : Datapath) : Prop := ∀ c e ls, d = .sff8636 c (.ethernet e) ls → ∃ k, k < 7 ∧ e.code = (1 : U8) <<< k

theorem sffCode_none {e : EthernetComplianceCode} (h : ¬ ∃ k, k < 7 ∧ e.code = (1 : U8) <<< k) :
    EthernetComplianceCode.ofJson e.toJson = none := by
  have h2 : ∀ x : U8, EthernetComplianceCode.ofJson (EthernetComplianceCode.toJson ⟨x⟩) = none ∨
      EthernetComplianceCode.ofJson (EthernetComplianceCode.toJson ⟨x⟩) = some ⟨x⟩ := by decide +kernel
  rcases h2 e.code with h3 | h3
  · exact h3
  · exact absurd (ethernet_json_iff.1 h3) h

theorem sff_json_none {c : ConnectorType} {e : EthernetComplianceCode} {ls : List Sff8636Datapath}
    (h : ¬ ∃ k, k < 7 ∧ e.code = (1 : U8) <<< k) : Datapath.ofJson (Datapath.toJson (.sff8636 c (.ethernet e) ls)) = none := by
  have hs : SffComplianceCode.ofJson (SffComplianceCode.toJson (.ethernet e)) = none := by
    simp only [SffComplianceCode.toJson, SffComplianceCode.ofJson, unadjacent, adjacent, fields, bind, Option.bind, pure]
    rw [required_one (by rfl), required_one (by rfl)]
    dsimp only [unitName]
    simp only [reduceIte, List.cons.injEq, Char.reduceEq, false_and, and_false, true_and]
    rw [sffCode_none h]
  simp only [Datapath.toJson, Datapath.ofJson, untag, tagged, fields, bind, Option.bind, pure, reduceIte, List.cons.injEq,
    Char.reduceEq, false_and, and_false]
  rw [required_one (v := ofBf c) (by rfl), required_one (v := SffComplianceCode.toJson (.ethernet e)) (by rfl), hs,
    bf_json (by simp [codeTables])]

/-- **C116**, datapaths, as far as it is true: the document of a decoded datapath is read back, unless it is of an SFF-8636
module whose Ethernet code has no name; that document is refused. -/
theorem C116_datapath_partial {id : Identifier} {rs : List Bytes} {d : Datapath} (h : Datapath.parse id rs = .ok d) :
    (NamedCode d → Datapath.ofJson d.toJson = some d) ∧ (¬ NamedCode d → Datapath.ofJson d.toJson = none) := by
  have hp := Datapath.parse_proper h
  cases d with
  | cmis c s ds => exact ⟨fun _ => cmis_json hp.1 hp.2, fun hn => absurd (fun c e ls he => by cases he) hn⟩
  | sff8636 c s ls =>
    refine ⟨fun hn => sff_json hp fun e he => hn c e ls (by rw [he]), fun hn => ?_⟩
    cases s with
    | extended x => exact absurd (fun c e ls he => by cases he) hn
    | ethernet e =>
      refine sff_json_none fun hk => hn ?_
      intro c' e' ls' he
      cases he
      exact hk

/-- The reads of an SFF-8636 module that gives no Ethernet code, as many do, decode to a datapath whose document cannot be
read. -/
theorem C116_counterexample :
    ∃ d, Datapath.parse Identifier.qsfp28 [[0], [0, 0, 0], [0], [0x23, 0], [0]] = .ok d ∧ Datapath.ofJson d.toJson = none := by
  refine ⟨_, rfl, ?_⟩
  exact (C116_datapath_partial (id := Identifier.qsfp28) (rs := [[0], [0, 0, 0], [0], [0x23, 0], [0]]) rfl).2 fun hn => by
    obtain ⟨k, hk, he⟩ := hn _ _ _ rfl
    revert hk he
    have : ∀ k : Fin 7, (0 : U8) ≠ (1 : U8) <<< k.val := by decide
    intro hk he
    exact this ⟨k, hk⟩ he

/-- **C116**, what the controller returns: every measurement in an answer has a document that is read back, whatever the SP
sends, and every datapath does, but for codes without a name. -/
theorem C116_answers_partial {m : ModuleId} {t : List Exchange} (ht : Conforming t) :
    (∀ r, Prog.Runs (Controller.monitors m) t (.ok r) → ∀ p v, okAt r p = some v → Monitors.ofJson v.toJson = some v) ∧
    ∀ r, Prog.Runs (Controller.datapath m) t (.ok r) → ∀ p d, okAt r p = some d → NamedCode d →
      Datapath.ofJson d.toJson = some d := by
  refine ⟨fun r h p v hv => ?_, fun r h p d hd hn => ?_⟩
  · obtain ⟨t₁, t₂, -, -, h1⟩ := C41_attributed _ C41_decoders.2.2.2.1 m t _ h ht
    obtain ⟨b, -, rds, ds, -, -, h2⟩ := h1.ok _ _ hv
    exact C116_monitors h2
  · obtain ⟨t₁, t₂, -, -, h1⟩ := C41_attributed _ C41_decoders.2.2.2.2 m t _ h ht
    obtain ⟨b, -, rds, ds, -, -, h2⟩ := h1.ok _ _ hd
    exact (C116_datapath_partial h2).1 hn

/-- A CMIS datapath is always read back. -/
example (c : ConnectorType) (s : U8) (ds : List (U8 × CmisDatapath)) : NamedCode (.cmis c s ds) := fun _ _ _ h => by cases h

/-! ## C117: the form of the documents -/

/-- **C117**: the documents that are read as a value are those of the form specified, for each type. Fields may be in any order, and
there may be others; or all values may be given in order, without names. -/
theorem C117_read (j : Json) :
    (∀ v, VendorInfo.ofJson j = some v ↔ IsVendorInfo j v) ∧ (∀ m, Monitors.ofJson j = some m ↔ IsMonitors j m) ∧
    (∀ d, Datapath.ofJson j = some d ↔ IsDatapath j d) ∧ (∀ p, PowerMode.ofJson j = some p ↔ IsPowerMode j p) ∧
    (∀ s, PowerState.ofJson j = some s ↔ IsPowerState j s) ∧ (∀ l, LedState.ofJson j = some l ↔ IsLedState j l) ∧
    ∀ b, Status.ofJson j = some b ↔ IsByte j b :=
  ⟨vendorInfo_form j, monitors_form j, datapath_form j, powerMode_form j, powerState_form j, ledState_form j, byte_form j⟩

/-- **C117**: the documents written are of that form. -/
theorem C117_written (v : VendorInfo) (p : PowerMode) (s : PowerState) (l : LedState) (b : Controller.Status) :
    IsVendorInfo v.toJson v ∧ IsPowerMode p.toJson p ∧ IsPowerState s.toJson s ∧ IsLedState l.toJson l ∧
    IsByte (Status.toJson b) b :=
  ⟨(vendorInfo_form _ _).1 (vendorInfo_json v), (powerMode_form _ _).1 (powerMode_json p),
    (powerState_form _ _).1 (powerState_json s), (ledState_form _ _).1 (ledState_json l), (byte_form _ _).1 (status_json b)⟩

/-- **C117**: those written for measurements and datapaths, but for datapaths with a code that has no name. -/
theorem C117_written_decoded {id : Identifier} {rs : List Bytes} :
    (∀ m, Monitors.parse id rs = .ok m → IsMonitors m.toJson m) ∧
    ∀ d, Datapath.parse id rs = .ok d → NamedCode d → IsDatapath d.toJson d :=
  ⟨fun _ h => (monitors_form _ _).1 (C116_monitors h),
    fun _ h hn => (datapath_form _ _).1 ((C116_datapath_partial h).1 hn)⟩

/-- **C117**: a measurement that a module does not support is left out. -/
theorem C117_absent (m : Monitors) : ∃ fs, m.toJson = .obj fs ∧
    (valuesOf fs chars!"temperature" = [] ↔ m.temperature = none) ∧
    (valuesOf fs chars!"supply_voltage" = [] ↔ m.supplyVoltage = none) ∧
    (valuesOf fs chars!"receiver_power" = [] ↔ m.receiverPower = none) ∧
    (valuesOf fs chars!"transmitter_bias_current" = [] ↔ m.transmitterBiasCurrent = none) ∧
    (valuesOf fs chars!"transmitter_power" = [] ↔ m.transmitterPower = none) ∧
    (valuesOf fs chars!"aux_monitors" = [] ↔ m.auxMonitors = none) := by
  obtain ⟨a, b, c, d, e, f⟩ := m
  refine ⟨_, rfl, ?_⟩
  cases a <;> cases b <;> cases c <;> cases d <;> cases e <;> cases f <;> simp [skipNone, valuesOf]

theorem number_text {x : Rat} (hx : Digits24 x) : readNumber (shortestText x) = some (shortestNumber x) := by
  by_cases h0 : x = 0
  · subst h0
    decide +kernel
  · obtain ⟨m, j, h1, h2, -, -⟩ := shortestNumber_spec hx h0
    obtain ⟨r1, r2, r3⟩ := scaled_read m j
    rw [h1, h2]
    split
    · show (readUnsigned (scaledText m j)).map (- ·) = _
      rw [r1]; rfl
    · show readNumber (scaledText m j) = _
      rw [← r1]
      cases hs : scaledText m j with
      | nil => exact absurd hs r2
      | cons c t =>
        have hc := r3 c (by rw [hs]; simp)
        unfold readNumber
        split
        · next he =>
          cases he
          exact absurd hc (by decide)
        · rfl

/-- **C117**: the number in the document of a measurement is the one that the tool shows in its shortest form, and it reads
as the measurement both ways. -/
theorem C117_number {x : Rat} (hx : Measured x) :
    ∃ z, ofF32 x = .dec z ∧ readNumber (shortestText x) = some z ∧ single (double z) = x ∧ single z = x := by
  refine ⟨shortestNumber x, rfl, number_text hx.1, ?_, ?_⟩
  · have := toF32_ofF32 hx
    simpa [toF32, ofF32] using this
  · by_cases h0 : x = 0
    · subst h0; decide +kernel
    · obtain ⟨m, j, h1, h2, h3, -⟩ := shortestNumber_spec hx.1 h0
      rw [h2]
      have hg := gap_zero x
      split
      · rw [single_neg, h3, hg]; grind
      · rw [h3, hg]; grind

/-- A CMIS module that measures its temperature, its voltage and the power of eight lanes; the rest is left out. -/
def sampleReads : List Bytes :=
  [[0x03, 0x06], [0, 0, 0, 0, 0, 0, 0x10], [0x19, 0x80, 0x80, 0xe8], [0, 0, 0, 0, 0, 0, 0, 0],
    [0x11, 0x22, 0, 0, 0, 0, 0, 0], [0, 0, 0, 0, 0, 0, 0, 0], [0, 0, 0, 0, 0, 0, 0, 0], [0, 0, 0, 0, 0, 0, 0, 0],
    [0x30, 0x39, 0, 0, 0, 0, 0, 0], [0, 0, 0, 0, 0, 0, 0, 0]]

example : (match Monitors.parse Identifier.qsfpDD sampleReads with
    | .ok m => decide (m.temperature = some (51 / 2)) && m.transmitterBiasCurrent.isNone
    | _ => false) = true := by decide +kernel

/-- Fields in another order, another field, and an integer for a number. -/
example : Monitors.ofJson (.obj [(chars!"supply_voltage", .null), (chars!"unknown", .bool true),
    (chars!"receiver_power", .arr [.obj [(chars!"average", .dec (1 / 2))]]), (chars!"temperature", .int 25)]) =
    some ⟨some 25, none, some [.average (1 / 2)], none, none, none⟩ := by decide +kernel

/-- A field that is given twice, or has another type, is refused. -/
example : Monitors.ofJson (.obj [(chars!"temperature", .int 25), (chars!"temperature", .int 25)]) = none ∧
    Monitors.ofJson (.obj [(chars!"temperature", .str chars!"25")]) = none ∧
    PowerMode.ofJson (.obj [(chars!"software_override", .null)]) = none := by decide +kernel

/-- The same fields in order, where measurements may stop early and a power mode may not. -/
example : Monitors.ofJson (.arr [.int 25, .null]) = some ⟨some 25, none, none, none, none, none⟩ ∧
    PowerMode.ofJson (.arr [.obj [(chars!"low", .null)], .bool true]) = some ⟨.low, some true⟩ ∧
    PowerMode.ofJson (.arr [.str chars!"low"]) = none ∧
    PowerMode.ofJson (.arr [.str chars!"low", .null, .null]) = none := by decide +kernel

/-! ## C118: words of flags -/

/-- **C118**, status: a document is read as the byte it gives, or refused. -/
theorem C118_status (j : Json) (b : Controller.Status) : Status.ofJson j = some b ↔ j = .int b.toNat := byte_form j b

/-- C118 is false of the extended status: flags that are not known are dropped. -/
theorem C118_counterexample : ExtendedStatus.ofJson (.int 0x201) = some 0x001 := by decide +kernel

theorem C118_false : ¬ ∀ (n : Nat) (s : U32), ExtendedStatus.ofJson (.int n) = some s → s.toNat = n := by
  intro h
  have := h 0x201 0x001 C118_counterexample
  revert this
  decide

/-- **C118**, extended status, as far as it is true: a number is read as the known flags in it if it has at most 32 bits, and refused
otherwise; a status with known flags only is read back. -/
theorem C118_extended_partial :
    (∀ (n : Int) (s : U32), ExtendedStatus.ofJson (.int n) = some s ↔ 0 ≤ n ∧ n < 2 ^ 32 ∧
      ∀ i, s.getLsbD i = (n.toNat.testBit i && decide (i < 9))) ∧
    ∀ s : U32, (∀ i, s.getLsbD i = true → i < 9) → ExtendedStatus.ofJson (ExtendedStatus.toJson s) = some s := by
  have hf : ∀ i, (Controller.extendedStatusFlags).getLsbD i = decide (i < 9) := by
    intro i
    by_cases hi : i < 32
    · have : ∀ k : Fin 32, (Controller.extendedStatusFlags).getLsbD k.val = decide (k.val < 9) := by decide
      exact this ⟨i, hi⟩
    · rw [BitVec.getLsbD_of_ge _ _ (by omega)]
      simp; omega
  constructor
  · intro n s
    simp only [ExtendedStatus.ofJson]
    constructor
    · intro h
      split at h
      · next hn =>
        cases h
        refine ⟨hn.1, hn.2, fun i => ?_⟩
        rw [BitVec.getLsbD_and, hf, BitVec.getLsbD_ofNat]
        by_cases hi : i < 9
        · simp [hi]; omega
        · simp [hi]
      · cases h
    · rintro ⟨h1, h2, h3⟩
      rw [if_pos ⟨h1, h2⟩]
      congr 1
      apply BitVec.eq_of_getLsbD_eq
      intro i hi
      rw [BitVec.getLsbD_and, hf, BitVec.getLsbD_ofNat, h3]
      simp [hi]
  · intro s hs
    rw [extendedStatus_json]
    congr 1
    apply BitVec.eq_of_getLsbD_eq
    intro i hi
    rw [BitVec.getLsbD_and, hf]
    cases hb : s.getLsbD i with
    | false => rfl
    | true => simp [hs i hb]

/-! ## C119: different values have different documents -/

/-- The code that has a given name. -/
def codeShown (s : List Char) : Option U8 :=
  ((List.range 256).find? fun n => EthernetComplianceCode.display ⟨BitVec.ofNat 8 n⟩ == s).map (BitVec.ofNat 8)

theorem ethernet_inj {e e' : EthernetComplianceCode} (h : e.toJson = e'.toJson) : e = e' := by
  have h1 : ∀ x y : U8, EthernetComplianceCode.display ⟨x⟩ = EthernetComplianceCode.display ⟨y⟩ → x = y := by
    intro x y hxy
    have h2 : ∀ x : U8, (codeShown (EthernetComplianceCode.display ⟨x⟩)) = some x := by decide +kernel
    have h3 := h2 x
    rw [hxy, h2 y] at h3
    cases h3; rfl
  obtain ⟨x⟩ := e
  obtain ⟨y⟩ := e'
  rw [h1 x y (Json.str.inj h)]

theorem specification_inj {s s' : SffComplianceCode} (h : s.toJson = s'.toJson) : s = s' := by
  cases s with
  | extended c =>
    cases s' with
    | extended c' =>
      have h1 := bf_json (by simp [codeTables]) c
      have h2 := bf_json (by simp [codeTables]) c'
      simp only [SffComplianceCode.toJson, adjacent, Json.obj.injEq, List.cons.injEq, Prod.mk.injEq, and_true, true_and] at h
      rw [h, h2] at h1
      cases h1; rfl
    | ethernet e => simp [SffComplianceCode.toJson, adjacent] at h
  | ethernet e =>
    cases s' with
    | extended c => simp [SffComplianceCode.toJson, adjacent] at h
    | ethernet e' =>
      simp only [SffComplianceCode.toJson, adjacent, Json.obj.injEq, List.cons.injEq, Prod.mk.injEq, and_true, true_and] at h
      rw [ethernet_inj h]

/-- **C119**: two datapaths that modules have with the same document are the same, also if the document cannot be read. -/
theorem C119_datapath {id id' : Identifier} {rs rs' : List Bytes} {d d' : Datapath} (h : Datapath.parse id rs = .ok d)
    (h' : Datapath.parse id' rs' = .ok d') (he : d.toJson = d'.toJson) : d = d' := by
  by_cases hn : NamedCode d
  · by_cases hn' : NamedCode d'
    · have h1 := (C116_datapath_partial h).1 hn
      rw [he, (C116_datapath_partial h').1 hn'] at h1
      cases h1; rfl
    · have h1 := (C116_datapath_partial h).1 hn
      rw [he, (C116_datapath_partial h').2 hn'] at h1
      cases h1
  · cases d with
    | cmis c s ds => exact absurd (fun _ _ _ hx => by cases hx) hn
    | sff8636 c s ls =>
      cases d' with
      | cmis c' s' ds' => simp [Datapath.toJson, tagged] at he
      | sff8636 c' s' ls' =>
        simp only [Datapath.toJson, tagged, Json.obj.injEq, List.cons.injEq, Prod.mk.injEq, and_true, true_and] at he
        obtain ⟨h1, h2, h3⟩ := he
        have g1 := bf_json (by simp [codeTables]) c
        rw [h1, bf_json (by simp [codeTables]) c'] at g1
        have g3 := toList_ofList (l := ls) fun d _ => sffDatapath_json d
        rw [h3, toList_ofList (l := ls') fun d _ => sffDatapath_json d] at g3
        cases g1; cases g3
        rw [specification_inj h2]

/-- **C119**: the same for measurements. -/
theorem C119_monitors {id id' : Identifier} {rs rs' : List Bytes} {m m' : Monitors} (h : Monitors.parse id rs = .ok m)
    (h' : Monitors.parse id' rs' = .ok m') (he : m.toJson = m'.toJson) : m = m' := by
  have h1 := C116_monitors h
  rw [he, C116_monitors h'] at h1
  cases h1; rfl

/-- **C119**: and for vendor information, power modes and states. -/
theorem C119_others :
    (∀ v v' : VendorInfo, v.toJson = v'.toJson → v = v') ∧ (∀ p p' : PowerMode, p.toJson = p'.toJson → p = p') ∧
    (∀ s s' : U32, ExtendedStatus.toJson s = ExtendedStatus.toJson s' → s = s') ∧
    ∀ s s' : Controller.Status, Status.toJson s = Status.toJson s' → s = s' := by
  refine ⟨fun v v' h => ?_, fun p p' h => ?_, fun s s' h => ?_, fun s s' h => ?_⟩
  · have h1 := vendorInfo_json v
    rw [h, vendorInfo_json v'] at h1
    cases h1; rfl
  · have h1 := powerMode_json p
    rw [h, powerMode_json p'] at h1
    cases h1; rfl
  · simp only [ExtendedStatus.toJson, Json.int.injEq] at h
    exact BitVec.eq_of_toNat_eq (by omega)
  · have h1 := status_json s
    rw [h, status_json s'] at h1
    cases h1; rfl

end Xcvr
