import Verif.Lemmas.Schema

/-! # C125-C126: documents and their schemas -/

namespace Xcvr

open Json Spec Schema

/-! ## C125 -/

/-- **C125**, measurements, vendor, power mode, LEDs and status: what is written conforms to the schema of the type. -/
theorem C125_written (v : VendorInfo) (m : Monitors) (p : PowerMode) (s : PowerState) (l : LedState) (b : Controller.Status)
    (e : U32) :
    VendorInfo.schema v.toJson ∧ Monitors.schema m.toJson ∧ PowerMode.schema p.toJson ∧ PowerState.schema s.toJson ∧
    LedState.schema l.toJson ∧ Status.schema (Status.toJson b) ∧ ExtendedStatus.schema (ExtendedStatus.toJson e) :=
  ⟨vendorInfo_schema published_writes v, monitors_schema published_writes m, powerMode_schema p, powerState_schema s,
    ledState_schema l, published_writes.byte b,
    ⟨e.toNat, .inl rfl⟩⟩

/-- **C125**, datapaths: whatever the bytes they are decoded from. -/
theorem C125_datapath {id : Identifier} {rs : List Bytes} {d : Datapath} (h : Datapath.parse id rs = .ok d) :
    Datapath.schema d.toJson := by
  have hp := Datapath.parse_proper h
  refine datapath_schema published_writes d (fun c s ls e => ?_) fun _ _ _ _ => trivial
  subst e
  exact hp

/-- **C125**, what the controller returns, whatever the SP sends. -/
theorem C125_answers {m : ModuleId} {t : List Exchange} (ht : Conforming t) :
    ∀ r, Prog.Runs (Controller.datapath m) t (.ok r) → ∀ p d, okAt r p = some d → Datapath.schema d.toJson := by
  intro r h p d hd
  obtain ⟨t₁, t₂, -, -, h1⟩ := C41_attributed _ C41_decoders.2.2.2.2 m t _ h ht
  obtain ⟨b, -, rds, ds, -, -, h2⟩ := h1.ok _ _ hd
  exact C125_datapath h2

/-- **C125**: no object in a written document has two fields of the same name. -/
theorem C125_unambiguous (v : VendorInfo) (m : Monitors) (p : PowerMode) :
    Unambiguous v.toJson ∧ Unambiguous m.toJson ∧ Unambiguous p.toJson ∧
    ∀ {id : Identifier} {rs : List Bytes} {d : Datapath}, Datapath.parse id rs = .ok d → Unambiguous d.toJson := by
  refine ⟨unambiguous_vendor v, unambiguous_monitors m, .obj _ (by simp) ?_,
    fun h => unambiguous_datapath (Datapath.parse_proper h)⟩
  simp only [List.forall_mem_cons]
  exact ⟨by cases p.state <;> exact .str _, unambiguous_option .bool _, none_left⟩

example : Datapath.schema (Datapath.toJson (.cmis (Bf.ofByte 0x23) 8 [])) ∧ ¬ Datapath.schema (.obj []) ∧
    ¬ PowerState.schema (.str chars!"on") := by
  refine ⟨datapath_schema published_writes _ (fun _ _ _ h => by cases h) fun _ _ _ _ => trivial, ?_, ?_⟩
  · rintro ⟨i, hi, h⟩
    have h0 := (h i _ (List.getElem?_eq_getElem hi)).mpr rfl
    match i, hi with
    | 0, _ => obtain ⟨fs, e, hr, -⟩ := h0; cases e; obtain ⟨f, hf, -⟩ := hr _ List.mem_cons_self; cases hf
    | 1, _ => obtain ⟨fs, e, hr, -⟩ := h0; cases e; obtain ⟨f, hf, -⟩ := hr _ List.mem_cons_self; cases hf
  · rintro ⟨s, hs, e⟩
    cases e
    revert hs
    decide

/-! ## C126 -/

/-- C126 is false of the code, in both directions: documents that do not conform are read (a struct as an array, a name as
an object), and documents that conform are not (the schema of a byte has no maximum, that of a code is any string). -/
theorem C126_counterexample :
    (PowerMode.ofJson (.arr [.str chars!"low", .null]) = some ⟨.low, none⟩ ∧ ¬ PowerMode.schema (.arr [.str chars!"low", .null])) ∧
    (LedState.ofJson (.obj [(chars!"on", .null)]) = some .on ∧ ¬ LedState.schema (.obj [(chars!"on", .null)])) ∧
    (Status.schema (.int 256) ∧ Status.ofJson (.int 256) = none) ∧
    (Status.schema (.dec 7) ∧ Status.ofJson (.dec 7) = none) ∧
    (SffComplianceCode.schemaOf published (Json.adjacent chars!"code" chars!"ethernet" (.str chars!"?")) ∧
      SffComplianceCode.ofJson (Json.adjacent chars!"code" chars!"ethernet" (.str chars!"?")) = none) := by
  refine ⟨⟨by decide +kernel, ?_⟩, ⟨by decide +kernel, ?_⟩, ⟨⟨256, .inl rfl⟩, by decide +kernel⟩,
    ⟨⟨7, .inr rfl⟩, rfl⟩, ?_, by decide +kernel⟩
  · rintro ⟨fs, e, -⟩
    cases e
  · rintro ⟨s, -, e⟩
    cases e
  · have hc : chars!"code" ≠ chars!"type" := by decide
    exact adjacent_of (content := chars!"code") (n := chars!"ethernet") hc [
      (chars!"extended", published.code extendedSpecificationComplianceCodeTable), (chars!"ethernet", published.ethernet)]
      published.ethernet (by simp) (by simp) ⟨_, rfl⟩

theorem C126_false : ¬ (∀ j, Status.schema j ↔ ∃ b, Status.ofJson j = some b) ∧
    ¬ ∀ j, PowerMode.schema j ↔ ∃ p, PowerMode.ofJson j = some p := by
  obtain ⟨⟨h1, h2⟩, -, ⟨h3, h4⟩, -⟩ := C126_counterexample
  refine ⟨fun h => ?_, fun h => h2 ((h _).mpr ⟨_, h1⟩)⟩
  obtain ⟨b, hb⟩ := (h _).mp h3
  rw [h4] at hb
  cases hb

/-- C126, the part that holds: every document without a name given twice is read, if it conforms to the schema and, besides,
bytes are integers up to 255 without a point, codes are texts that stand for one, and keys are decimal bytes. Missing: the
published schemas do not say so; and structs and names that are written in another way are read too. -/
theorem C126_reads_partial (j : Json) (hu : Unambiguous j) :
    (VendorInfo.schemaOf readable j → ∃ v, VendorInfo.ofJson j = some v) ∧
    (Monitors.schemaOf readable j → ∃ m, Monitors.ofJson j = some m) ∧
    (Datapath.schemaOf readable j → ∃ d, Datapath.ofJson j = some d) ∧
    (PowerMode.schema j → ∃ p, PowerMode.ofJson j = some p) ∧ (PowerState.schema j → ∃ s, PowerState.ofJson j = some s) ∧
    (LedState.schema j → ∃ l, LedState.ofJson j = some l) ∧ (readable.byte j → ∃ b, Status.ofJson j = some b) :=
  ⟨fun h => vendorInfo_reads j h hu, fun h => monitors_reads j h hu, fun h => datapath_reads j h hu,
    fun h => powerMode_reads j h hu, fun h => powerState_reads j h hu, fun h => ledState_reads j h hu,
    fun h => byte_reads j h hu⟩

/-- C126: what is written meets these conditions as well, but for Ethernet codes without a name (see C116). -/
theorem C126_written_partial (v : VendorInfo) (m : Monitors) :
    VendorInfo.schemaOf readable v.toJson ∧ Monitors.schemaOf readable m.toJson ∧
    ∀ {id : Identifier} {rs : List Bytes} {d : Datapath}, Datapath.parse id rs = .ok d → NamedCode d →
      Datapath.schemaOf readable d.toJson := by
  refine ⟨vendorInfo_schema readable_writes v, monitors_schema readable_writes m, fun {id rs d} h hn => ?_⟩
  have hp := Datapath.parse_proper h
  refine datapath_schema readable_writes d (fun c s ls e => ?_) fun c e ls he => hn c e ls he
  subst e
  exact hp

/-- A monitor report that conforms and is read; one that is refused. -/
example : Monitors.schemaOf readable (.obj [(chars!"temperature", .int 20)]) ∧
    Monitors.ofJson (.obj [(chars!"temperature", .str chars!"20")]) = none := by
  refine ⟨⟨_, rfl, fun n h => by simp at h, fun f hf s hs => ?_⟩, by decide +kernel⟩
  simp only [List.mem_singleton] at hf
  subst hf
  simp [List.lookup] at hs
  subst hs
  exact .inr (.inl ⟨20, rfl⟩)

end Xcvr
