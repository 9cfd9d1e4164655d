import Verif.Spec.Schema
import Verif.Props.Json

/-! # Conformance of documents to schemas: lemmas for C125-C126 -/

namespace Xcvr

open Json Spec

namespace Schema

/-- What holds for the leaves that are written; Ethernet codes only if `P` holds for them. -/
structure Writes (L : Leaves) (P : EthernetComplianceCode → Prop) : Prop where
  byte : ∀ x, L.byte (ofU8 x)
  code : ∀ T ∈ codeTables, ∀ v : Bf T, L.code T (ofBf v)
  ethernet : ∀ e, P e → L.ethernet e.toJson
  state : ∀ s : CmisDatapathState, L.state s.toJson
  key : ∀ k, L.key (keyText k)

theorem published_writes : Writes published fun _ => True where
  byte x := ⟨x.toNat, .inl rfl⟩
  code _ _ _ := ⟨_, rfl⟩
  ethernet _ _ := ⟨_, rfl⟩
  state _ := ⟨_, rfl⟩
  key _ := trivial

theorem ofF32_number (x : Rat) : number (ofF32 x) := .inr ⟨_, rfl⟩

theorem ofOption_nullable {α : Type} {w : α → Json} {s : Schema} (h : ∀ a, s (w a)) (o : Option α) :
    nullable s (ofOption w o) := by
  cases o with
  | none => exact .inl rfl
  | some a => exact .inr (h a)

theorem ofList_array {α : Type} {w : α → Json} {s : Schema} (l : List α) (h : ∀ a ∈ l, s (w a)) :
    array s (ofList w l) := by
  refine ⟨_, rfl, fun x hx => ?_⟩
  obtain ⟨a, ha, rfl⟩ := List.mem_map.mp hx
  exact h a ha

theorem ofList_arrayOf {α : Type} {w : α → Json} {s : Schema} {n : Nat} (l : List α) (hl : l.length = n)
    (h : ∀ a, s (w a)) : arrayOf n s (ofList w l) := by
  refine ⟨_, rfl, by rw [List.length_map, hl], fun x hx => ?_⟩
  obtain ⟨a, -, rfl⟩ := List.mem_map.mp hx
  exact h a

theorem ofPair_arrayOf {s : Schema} (hs : ∀ x, s (ofU8 x)) (b : U8 × U8) : arrayOf 2 s (ofPair b) := by
  refine ⟨_, rfl, rfl, fun x hx => ?_⟩
  simp only [List.mem_cons, List.not_mem_nil, or_false] at hx
  rcases hx with rfl | rfl <;> exact hs _

theorem ofMap_map {α : Type} {key : List Char → Prop} {w : α → Json} {s : Schema} (m : List (U8 × α))
    (hk : ∀ k, key (keyText k)) (h : ∀ a, s (w a)) : map key s (ofMap w m) := by
  refine ⟨_, rfl, fun f hf => ?_⟩
  obtain ⟨p, -, rfl⟩ := List.mem_map.mp hf
  exact ⟨hk p.1, h p.2⟩

/-- The value of a property conforms to its schema. -/
theorem property {ps : List (List Char × Schema)} {n : List Char} {s₀ : Schema} {v : Json} (hn : ps.lookup n = some s₀)
    (h : s₀ v) : ∀ s, ps.lookup n = some s → s v := by
  intro s hs
  rw [hn] at hs
  cases hs
  exact h

theorem object_of {ps : List (List Char × Schema)} {req : List (List Char)} {fs : List (List Char × Json)}
    (hr : (req.all fun n => (fs.map (·.1)).contains n) = true) (h : ∀ f ∈ fs, ∀ s, ps.lookup f.1 = some s → s f.2) : object ps req (.obj fs) :=
  ⟨fs, rfl, fun n hn => by
    have := List.all_eq_true.mp hr n hn
    obtain ⟨f, hf, e⟩ := List.mem_map.mp (List.contains_iff_mem.mp this)
    exact ⟨f, hf, e⟩, h⟩

theorem none_left {α : Type} {P : α → Prop} : ∀ x ∈ ([] : List α), P x := nofun

theorem skipNone_property {α : Type} {ps : List (List Char × Schema)} {n : List Char} {w : α → Json} {s₀ : Schema}
    (hn : ps.lookup n = some (nullable s₀)) (o : Option α) (h : ∀ a, o = some a → s₀ (w a)) :
    ∀ f ∈ skipNone n w o, ∀ s, ps.lookup f.1 = some s → s f.2 := by
  intro f hf
  cases o with
  | none => cases hf
  | some a =>
    simp only [skipNone, List.mem_singleton] at hf
    subst hf
    exact property hn (.inr (h a rfl))

theorem variant_iff (name n : List Char) (s : Schema) (v : Json) : variant name s (tagged n v) ↔ n = name ∧ s v := by
  unfold variant closed tagged
  constructor
  · rintro ⟨fs, e, hr, h⟩
    cases e
    obtain ⟨s', hs, hv⟩ := h _ List.mem_cons_self
    simp only [List.lookup] at hs
    split at hs
    · next hb => cases hs; exact ⟨by simpa using hb, hv⟩
    · cases hs
  · rintro ⟨rfl, hv⟩
    refine ⟨_, rfl, fun m hm => ⟨_, List.mem_cons_self, (List.mem_singleton.mp hm).symm⟩, fun f hf => ?_⟩
    simp only [List.mem_singleton] at hf
    subst hf
    exact ⟨s, by simp [List.lookup], hv⟩

theorem adjacent_iff (content name n : List Char) (s : Schema) (v : Json) (hc : content ≠ chars!"type") :
    adjacent content name s (Json.adjacent content n v) ↔ n = name ∧ s v := by
  have l1 : List.lookup chars!"type" [(chars!"type", names [name]), (content, s)] = some (names [name]) := by simp [List.lookup]
  have l2 : List.lookup content [(chars!"type", names [name]), (content, s)] = some s := by
    have : (content == chars!"type") = false := by simpa using hc
    simp [List.lookup, this]
  unfold adjacent object Json.adjacent
  constructor
  · rintro ⟨fs, e, hr, h⟩
    cases e
    obtain ⟨x, hx, e⟩ := h _ List.mem_cons_self _ l1
    simp only [List.mem_singleton] at hx
    subst hx
    cases e
    exact ⟨rfl, h (content, v) (by simp) _ l2⟩
  · rintro ⟨rfl, hv⟩
    refine ⟨_, rfl, ?_, ?_⟩
    · intro m hm
      simp only [List.mem_cons, List.not_mem_nil, or_false] at hm
      rcases hm with rfl | rfl
      · exact ⟨_, List.mem_cons_self, rfl⟩
      · exact ⟨(m, v), by simp, rfl⟩
    · intro f hf
      simp only [List.mem_cons, List.not_mem_nil, or_false] at hf
      rcases hf with rfl | rfl
      · exact property l1 ⟨n, by simp, rfl⟩
      · exact property l2 hv

/-- One of several schemas that tell documents by a name. -/
theorem oneOf_named {f : List Char → Schema → Schema} {n : List Char} {v j : Json}
    (hf : ∀ name s, f name s j ↔ n = name ∧ s v) (ps : List (List Char × Schema)) (s : Schema)
    (hd : (ps.map (·.1)).Nodup) (h : (n, s) ∈ ps) (hv : s v) : oneOf (ps.map fun p => f p.1 p.2) j := by
  obtain ⟨i, hi, e⟩ := List.getElem_of_mem h
  refine ⟨i, by simpa using hi, fun k t hk => ?_⟩
  simp only [List.getElem?_map, Option.map_eq_some_iff] at hk
  obtain ⟨p, hp, rfl⟩ := hk
  rw [hf]
  constructor
  · rintro ⟨hn, -⟩
    obtain ⟨hk, hp⟩ := List.getElem?_eq_some_iff.mp hp
    have h1 : (ps.map (·.1))[k]'(by simpa using hk) = n := by simp [hp, hn]
    have h2 : (ps.map (·.1))[i]'(by simpa using hi) = n := by simp [e]
    exact (List.getElem_inj hd).mp (h1.trans h2.symm)
  · rintro rfl
    rw [List.getElem?_eq_getElem hi, e] at hp
    cases hp
    exact ⟨rfl, hv⟩

theorem variant_of {n : List Char} {v : Json} (ps : List (List Char × Schema)) (s : Schema)
    (hd : (ps.map (·.1)).Nodup) (h : (n, s) ∈ ps) (hv : s v) : oneOf (ps.map fun p => variant p.1 p.2) (tagged n v) :=
  oneOf_named (fun name s => variant_iff name n s v) ps s hd h hv

theorem adjacent_of {content n : List Char} {v : Json} (hc : content ≠ chars!"type") (ps : List (List Char × Schema))
    (s : Schema) (hd : (ps.map (·.1)).Nodup) (h : (n, s) ∈ ps) (hv : s v) :
    oneOf (ps.map fun p => adjacent content p.1 p.2) (Json.adjacent content n v) :=
  oneOf_named (fun name s => adjacent_iff content name n s v hc) ps s hd h hv

end Schema

open Schema

variable {L : Leaves} {P : EthernetComplianceCode → Prop}

theorem oui_schema (w : Writes L P) (o : Oui) : Oui.schemaOf L o.toJson := by
  refine ⟨_, rfl, rfl, fun x hx => ?_⟩
  simp only [List.mem_cons, List.not_mem_nil, or_false] at hx
  rcases hx with rfl | rfl | rfl <;> exact w.byte _

theorem vendor_schema (w : Writes L P) (v : Vendor) : Vendor.schemaOf L v.toJson := by
  refine object_of rfl ?_
  simp only [List.forall_mem_cons]
  exact ⟨property rfl ⟨_, rfl⟩, property rfl (oui_schema w _), property rfl ⟨_, rfl⟩, property rfl ⟨_, rfl⟩,
    property rfl ⟨_, rfl⟩, property rfl (ofOption_nullable (fun _ => ⟨_, rfl⟩) _), none_left⟩

theorem vendorInfo_schema (w : Writes L P) (v : VendorInfo) : VendorInfo.schemaOf L v.toJson := by
  refine object_of rfl ?_
  simp only [List.forall_mem_cons]
  exact ⟨property rfl (w.code _ (by simp [codeTables]) _), property rfl (vendor_schema w _), none_left⟩

theorem mediaInterfaceId_schema (w : Writes L P) (m : MediaInterfaceId) : MediaInterfaceId.schemaOf L m.toJson := by
  have hc : chars!"id" ≠ chars!"type" := by decide
  have key := fun n v s => adjacent_of (content := chars!"id") (n := n) (v := v) hc [
    (chars!"mmf", L.code mmfMediaInterfaceIdTable), (chars!"smf", L.code smfMediaInterfaceIdTable),
    (chars!"passive_copper", L.code passiveCopperMediaInterfaceIdTable),
    (chars!"active_cable", L.code activeCableMediaInterfaceIdTable),
    (chars!"base_t", L.code baseTMediaInterfaceIdTable)] s (by simp)
  cases m with
  | mmf i => exact key _ _ (L.code mmfMediaInterfaceIdTable) (by simp) (w.code _ (by simp [codeTables]) _)
  | smf i => exact key _ _ (L.code smfMediaInterfaceIdTable) (by simp) (w.code _ (by simp [codeTables]) _)
  | passiveCopper i => exact key _ _ (L.code passiveCopperMediaInterfaceIdTable) (by simp) (w.code _ (by simp [codeTables]) _)
  | activeCable i => exact key _ _ (L.code activeCableMediaInterfaceIdTable) (by simp) (w.code _ (by simp [codeTables]) _)
  | baseT i => exact key _ _ (L.code baseTMediaInterfaceIdTable) (by simp) (w.code _ (by simp [codeTables]) _)

theorem receiverPower_schema (r : ReceiverPower) : ReceiverPower.schema r.toJson := by
  have key := fun n v => variant_of (n := n) (v := v) [(chars!"average", number), (chars!"peak_to_peak", number)]
    number (by decide)
  cases r <;> exact key _ _ (by simp) (ofF32_number _)

theorem aux1_schema (w : Writes L P) (a : Aux1Monitor) : Aux1Monitor.schemaOf L a.toJson := by
  have key := fun n v s => variant_of (n := n) (v := v) [(chars!"custom", arrayOf 2 L.byte), (chars!"tec_current", number)]
    s (by simp)
  cases a with
  | custom b => exact key _ _ _ (by simp) (ofPair_arrayOf w.byte _)
  | tecCurrent x => exact key _ _ number (by simp) (ofF32_number _)

theorem aux2_schema (a : Aux2Monitor) : Aux2Monitor.schema a.toJson := by
  have key := fun n v => variant_of (n := n) (v := v) [(chars!"laser_temperature", number), (chars!"tec_current", number)]
    number (by decide)
  cases a <;> exact key _ _ (by simp) (ofF32_number _)

theorem aux3_schema (a : Aux3Monitor) : Aux3Monitor.schema a.toJson := by
  have key := fun n v => variant_of (n := n) (v := v) [(chars!"laser_temperature", number),
    (chars!"additional_supply_voltage", number)] number (by decide)
  cases a <;> exact key _ _ (by simp) (ofF32_number _)

theorem auxMonitors_schema (w : Writes L P) (a : AuxMonitors) : AuxMonitors.schemaOf L a.toJson := by
  refine object_of rfl ?_
  simp only [List.forall_mem_append]
  exact ⟨⟨⟨skipNone_property rfl _ fun _ _ => aux1_schema w _, skipNone_property rfl _ fun _ _ => aux2_schema _⟩,
    skipNone_property rfl _ fun _ _ => aux3_schema _⟩, skipNone_property rfl _ fun _ _ => ofPair_arrayOf w.byte _⟩

theorem monitors_schema (w : Writes L P) (m : Monitors) : Monitors.schemaOf L m.toJson := by
  refine object_of rfl ?_
  simp only [List.forall_mem_append]
  exact ⟨⟨⟨⟨⟨skipNone_property rfl _ fun _ _ => ofF32_number _, skipNone_property rfl _ fun _ _ => ofF32_number _⟩,
    skipNone_property rfl _ fun _ _ => ofList_array _ fun _ _ => receiverPower_schema _⟩,
    skipNone_property rfl _ fun _ _ => ofList_array _ fun _ _ => ofF32_number _⟩,
    skipNone_property rfl _ fun _ _ => ofList_array _ fun _ _ => ofF32_number _⟩,
    skipNone_property rfl _ fun _ _ => auxMonitors_schema w _⟩

theorem sffComplianceCode_schema (w : Writes L P) (c : SffComplianceCode) (h : ∀ e, c = .ethernet e → P e) :
    SffComplianceCode.schemaOf L c.toJson := by
  have hc : chars!"code" ≠ chars!"type" := by decide
  have key := fun n v s => adjacent_of (content := chars!"code") (n := n) (v := v) hc [
    (chars!"extended", L.code extendedSpecificationComplianceCodeTable), (chars!"ethernet", L.ethernet)] s (by simp)
  cases c with
  | extended c => exact key _ _ (L.code extendedSpecificationComplianceCodeTable) (by simp) (w.code _ (by simp [codeTables]) _)
  | ethernet e => exact key _ _ L.ethernet (by simp) (w.ethernet e (h e rfl))

theorem sffLane_schema (d : Sff8636Datapath) : Sff8636Datapath.schema d.toJson := by
  refine object_of rfl ?_
  simp only [List.forall_mem_cons]
  exact ⟨property rfl ⟨_, rfl⟩, property rfl ⟨_, rfl⟩, property rfl ⟨_, rfl⟩, property rfl ⟨_, rfl⟩, property rfl ⟨_, rfl⟩,
    property rfl ⟨_, rfl⟩, property rfl ⟨_, rfl⟩, property rfl ⟨_, rfl⟩, property rfl ⟨_, rfl⟩, none_left⟩

theorem outputStatus_schema (s : OutputStatus) : OutputStatus.schema s.toJson := by
  cases s <;> exact ⟨_, by decide, rfl⟩

theorem lanePolarity_schema (s : LanePolarity) : LanePolarity.schema s.toJson := by
  cases s <;> exact ⟨_, by decide, rfl⟩

theorem applicationDescriptor_schema (w : Writes L P) (a : ApplicationDescriptor) : ApplicationDescriptor.schemaOf L a.toJson := by
  refine object_of rfl ?_
  simp only [List.forall_mem_cons]
  exact ⟨property rfl (w.code _ (by simp [codeTables]) _), property rfl (mediaInterfaceId_schema w _), property rfl (w.byte _),
    property rfl (w.byte _), property rfl (w.byte _), property rfl (w.byte _), none_left⟩

theorem cmisLaneStatus_schema (w : Writes L P) (s : CmisLaneStatus) : CmisLaneStatus.schemaOf L s.toJson := by
  have hb : ∀ b : Bool, boolean (.bool b) := fun b => ⟨b, rfl⟩
  refine object_of rfl ?_
  simp only [List.forall_mem_cons]
  exact ⟨property rfl (w.state _), property rfl (ofOption_nullable lanePolarity_schema _), property rfl (ofOption_nullable hb _),
    property rfl (ofOption_nullable hb _), property rfl (ofOption_nullable hb _),
    property rfl (ofOption_nullable lanePolarity_schema _), property rfl (ofOption_nullable hb _),
    property rfl (ofOption_nullable hb _), property rfl (outputStatus_schema _), property rfl (outputStatus_schema _),
    property rfl (ofOption_nullable hb _), property rfl (ofOption_nullable hb _), property rfl (ofOption_nullable hb _),
    property rfl (ofOption_nullable hb _), property rfl (ofOption_nullable hb _), property rfl (ofOption_nullable hb _),
    none_left⟩

theorem cmisDatapath_schema (w : Writes L P) (d : CmisDatapath) : CmisDatapath.schemaOf L d.toJson := by
  refine object_of rfl ?_
  simp only [List.forall_mem_cons]
  exact ⟨property rfl (applicationDescriptor_schema w _), property rfl (ofMap_map _ w.key (cmisLaneStatus_schema w)), none_left⟩

/-- Four lanes, as the array of the code has. -/
def FourLanes (d : Datapath) : Prop := ∀ c s ls, d = .sff8636 c s ls → ls.length = 4

theorem datapath_schema (w : Writes L P) (d : Datapath) (h : FourLanes d)
    (hp : ∀ c e ls, d = .sff8636 c (.ethernet e) ls → P e) : Datapath.schemaOf L d.toJson := by
  have key := fun n v s => variant_of (n := n) (v := v) [(chars!"cmis", object
    [(chars!"connector", L.code connectorTypeTable), (chars!"supported_lanes", L.byte),
      (chars!"datapaths", map L.key (CmisDatapath.schemaOf L))]
    [chars!"connector", chars!"supported_lanes", chars!"datapaths"]),
    (chars!"sff8636", object
    [(chars!"connector", L.code connectorTypeTable), (chars!"specification", SffComplianceCode.schemaOf L),
      (chars!"lanes", arrayOf 4 Sff8636Datapath.schema)]
    [chars!"connector", chars!"specification", chars!"lanes"])] s (by simp)
  cases d with
  | cmis c s ds =>
    refine key _ _ _ List.mem_cons_self (object_of rfl ?_)
    simp only [List.forall_mem_cons]
    exact ⟨property rfl (w.code _ (by simp [codeTables]) _), property rfl (w.byte _),
      property rfl (ofMap_map _ w.key (cmisDatapath_schema w)), none_left⟩
  | sff8636 c s ls =>
    refine key _ _ _ (List.mem_cons_of_mem _ List.mem_cons_self) (object_of rfl ?_)
    simp only [List.forall_mem_cons]
    exact ⟨property rfl (w.code _ (by simp [codeTables]) _),
      property rfl (sffComplianceCode_schema w _ fun e he => hp c e ls (by rw [he])),
      property rfl (ofList_arrayOf _ (h c s ls rfl) sffLane_schema), none_left⟩

theorem powerState_schema (s : PowerState) : PowerState.schema s.toJson := by
  cases s <;> exact ⟨_, by decide, rfl⟩

theorem powerMode_schema (p : PowerMode) : PowerMode.schema p.toJson := by
  refine object_of rfl ?_
  simp only [List.forall_mem_cons]
  exact ⟨property rfl (powerState_schema _), property rfl (ofOption_nullable (fun _ => ⟨_, rfl⟩) _), none_left⟩

theorem ledState_schema (s : LedState) : LedState.schema s.toJson := by
  cases s <;> exact ⟨_, by decide, rfl⟩

/-! No name is given twice, so that all readers see the same document. -/

theorem unambiguous_option {α : Type} {w : α → Json} (h : ∀ a, Unambiguous (w a)) (o : Option α) :
    Unambiguous (ofOption w o) := by
  cases o with
  | none => exact .null
  | some a => exact h a

theorem unambiguous_list {α : Type} {w : α → Json} (h : ∀ a, Unambiguous (w a)) (l : List α) : Unambiguous (ofList w l) := by
  refine .arr _ fun x hx => ?_
  obtain ⟨a, -, rfl⟩ := List.mem_map.mp hx
  exact h a

theorem unambiguous_pair (b : U8 × U8) : Unambiguous (ofPair b) :=
  .arr _ (by simp only [List.forall_mem_cons]; exact ⟨.int _, .int _, none_left⟩)

theorem unambiguous_tagged {n : List Char} {v : Json} (h : Unambiguous v) : Unambiguous (tagged n v) :=
  .obj _ (by simp) (by simp only [List.forall_mem_cons]; exact ⟨h, none_left⟩)

theorem unambiguous_map {α : Type} {w : α → Json} {m : List (U8 × α)} (hm : BMap.Sorted u8Lt m)
    (h : ∀ p ∈ m, Unambiguous (w p.2)) : Unambiguous (ofMap w m) := by
  refine .obj _ ?_ fun f hf => ?_
  · rw [List.map_map]
    refine List.pairwise_map.mpr (hm.imp fun {a b} hab e => ?_)
    have h1 := readKey_keyText a.1
    have e' : keyText a.1 = keyText b.1 := e
    rw [e', readKey_keyText] at h1
    simp only [Option.some.injEq] at h1
    rw [h1] at hab
    simp [u8Lt] at hab
  · obtain ⟨p, hp, rfl⟩ := List.mem_map.mp hf
    exact h p hp

theorem unambiguous_media (m : MediaInterfaceId) : Unambiguous m.toJson := by
  cases m <;> exact .obj _ (by simp) (by simp only [List.forall_mem_cons]; exact ⟨.str _, .str _, none_left⟩)

theorem unambiguous_vendor (v : VendorInfo) : Unambiguous v.toJson := by
  refine .obj _ (by simp) ?_
  simp only [List.forall_mem_cons]
  refine ⟨.str _, .obj _ (by simp) ?_, none_left⟩
  simp only [List.forall_mem_cons]
  refine ⟨.str _, .arr _ ?_, .str _, .str _, .str _, unambiguous_option .str _, none_left⟩
  simp only [List.forall_mem_cons]
  exact ⟨.int _, .int _, .int _, none_left⟩

theorem nodup_skip {α : Type} {n : List Char} {w : α → Json} {o : Option α} {fs : List (List Char × Json)}
    (h : (fs.map (·.1)).Nodup) (hn : n ∉ fs.map (·.1)) : ((skipNone n w o ++ fs).map (·.1)).Nodup := by
  cases o with
  | none => exact h
  | some a => exact List.nodup_cons.mpr ⟨hn, h⟩

theorem names_skip {α : Type} {n : List Char} {w : α → Json} {o : Option α} {x : List Char}
    (h : x ∈ (skipNone n w o).map (·.1)) : x = n := by
  cases o with
  | none => cases h
  | some a => simpa [skipNone] using h

theorem all_skip {α : Type} {n : List Char} {w : α → Json} (o : Option α) (h : ∀ a, Unambiguous (w a)) :
    ∀ f ∈ skipNone n w o, Unambiguous f.2 := by
  intro f hf
  cases o with
  | none => cases hf
  | some a =>
    simp only [skipNone, List.mem_singleton] at hf
    subst hf
    exact h a

theorem unambiguous_aux (a : AuxMonitors) : Unambiguous a.toJson := by
  have h1 : ∀ a : Aux1Monitor, Unambiguous a.toJson := by
    intro a
    cases a with
    | custom b => exact unambiguous_tagged (unambiguous_pair b)
    | tecCurrent x => exact unambiguous_tagged (.dec _)
  have h2 : ∀ a : Aux2Monitor, Unambiguous a.toJson := by intro a; cases a <;> exact unambiguous_tagged (.dec _)
  have h3 : ∀ a : Aux3Monitor, Unambiguous a.toJson := by intro a; cases a <;> exact unambiguous_tagged (.dec _)
  refine .obj _ ?_ ?_
  · obtain ⟨a1, a2, a3, c⟩ := a
    cases a1 <;> cases a2 <;> cases a3 <;> cases c <;> simp [skipNone]
  · simp only [List.forall_mem_append]
    exact ⟨⟨⟨all_skip _ h1, all_skip _ h2⟩, all_skip _ h3⟩, all_skip _ unambiguous_pair⟩

theorem unambiguous_monitors (m : Monitors) : Unambiguous m.toJson := by
  have hr : ∀ a : ReceiverPower, Unambiguous a.toJson := by intro a; cases a <;> exact unambiguous_tagged (.dec _)
  have hf : ∀ x : Rat, Unambiguous (ofF32 x) := fun x => .dec _
  refine .obj _ ?_ ?_
  · obtain ⟨a1, a2, a3, a4, a5, a6⟩ := m
    cases a1 <;> cases a2 <;> cases a3 <;> cases a4 <;> cases a5 <;> cases a6 <;> simp [skipNone]
  · simp only [List.forall_mem_append]
    exact ⟨⟨⟨⟨⟨all_skip _ hf, all_skip _ hf⟩, all_skip _ (unambiguous_list hr)⟩, all_skip _ (unambiguous_list hf)⟩,
      all_skip _ (unambiguous_list hf)⟩, all_skip _ unambiguous_aux⟩

theorem unambiguous_lane (s : CmisLaneStatus) : Unambiguous s.toJson := by
  have hp : ∀ p : LanePolarity, Unambiguous p.toJson := by intro p; cases p <;> exact .str _
  have ho : ∀ p : OutputStatus, Unambiguous p.toJson := by intro p; cases p <;> exact .str _
  have hb : ∀ o : Option Bool, Unambiguous (ofOption .bool o) := unambiguous_option .bool
  refine .obj _ (by simp) ?_
  simp only [List.forall_mem_cons]
  exact ⟨.str _, unambiguous_option hp _, hb _, hb _, hb _, unambiguous_option hp _, hb _, hb _, ho _, ho _, hb _, hb _,
    hb _, hb _, hb _, hb _, none_left⟩

theorem unambiguous_application (a : ApplicationDescriptor) : Unambiguous a.toJson := by
  refine .obj _ (by simp) ?_
  simp only [List.forall_mem_cons]
  exact ⟨.str _, unambiguous_media _, .int _, .int _, .int _, .int _, none_left⟩

theorem unambiguous_sffLane (d : Sff8636Datapath) : Unambiguous d.toJson := by
  refine .obj _ (by simp) ?_
  simp only [List.forall_mem_cons]
  exact ⟨.bool _, .bool _, .bool _, .bool _, .bool _, .bool _, .bool _, .bool _, .bool _, none_left⟩

theorem unambiguous_datapath {d : Datapath} (h : d.Proper) : Unambiguous d.toJson := by
  cases d with
  | cmis c s ds =>
    refine unambiguous_tagged (.obj _ (by simp) ?_)
    simp only [List.forall_mem_cons]
    refine ⟨.str _, .int _, unambiguous_map h.1 fun p hp => .obj _ (by simp) ?_, none_left⟩
    simp only [List.forall_mem_cons]
    exact ⟨unambiguous_application _, unambiguous_map (h.2 p hp) fun q _ => unambiguous_lane _, none_left⟩
  | sff8636 c s ls =>
    refine unambiguous_tagged (.obj _ (by simp) ?_)
    simp only [List.forall_mem_cons]
    refine ⟨.str _, ?_, unambiguous_list unambiguous_sffLane _, none_left⟩
    cases s <;> exact .obj _ (by simp) (by simp only [List.forall_mem_cons]; exact ⟨.str _, .str _, none_left⟩)

theorem values_one {fs : List (List Char × Json)} {n : List Char} (hd : (fs.map (·.1)).Nodup) {f : List Char × Json}
    (hf : f ∈ fs) (hn : f.1 = n) : field fs n = some (some f.2) := by
  have : fs.filter (·.1 == n) = [f] := by
    induction fs with
    | nil => cases hf
    | cons g fs ih =>
      simp only [List.map_cons, List.nodup_cons] at hd
      rcases List.mem_cons.mp hf with rfl | h
      · rw [List.filter_cons_of_pos (by simpa using hn)]
        congr
        apply List.filter_eq_nil_iff.mpr
        intro g hg e
        exact hd.1 (List.mem_map.mpr ⟨g, hg, by rw [hn]; simpa using e⟩)
      · rw [List.filter_cons_of_neg, ih hd.2 h]
        intro e
        exact hd.1 (List.mem_map.mpr ⟨f, h, by rw [hn]; exact (by simpa using e : g.1 = n).symm⟩)
  unfold field
  rw [this]

theorem values_none {fs : List (List Char × Json)} {n : List Char} (h : ∀ f ∈ fs, f.1 ≠ n) : field fs n = some none := by
  have : fs.filter (·.1 == n) = [] := List.filter_eq_nil_iff.mpr fun f hf e => h f hf (by simpa using e)
  unfold field
  rw [this]

/-- A schema whose documents are read, if they have no name twice. -/
def Reads {α : Type} (s : Schema) (r : Json → Option α) : Prop := ∀ v, s v → Unambiguous v → ∃ a, r v = some a

/-- An object that conforms, and has no name twice. -/
structure Fields (ps : List (List Char × Schema)) (req : List (List Char)) (fs : List (List Char × Json)) : Prop where
  names : (fs.map (·.1)).Nodup
  values : ∀ f ∈ fs, Unambiguous f.2
  given : ∀ n ∈ req, ∃ f ∈ fs, f.1 = n
  conform : ∀ f ∈ fs, ∀ s, ps.lookup f.1 = some s → s f.2

theorem object_fields {ps : List (List Char × Schema)} {req : List (List Char)} {j : Json} (h : object ps req j)
    (hu : Unambiguous j) : ∃ fs, j = .obj fs ∧ Fields ps req fs := by
  obtain ⟨fs, rfl, hr, hp⟩ := h
  cases hu with
  | obj _ hd hv => exact ⟨fs, rfl, hd, hv, hr, hp⟩

section Readers

variable {α : Type} {fs : List (List Char × Json)} {n : List Char} {r : Json → Option α} {s : Schema}
  {ps : List (List Char × Schema)} {req : List (List Char)}

/-- A field that must be given and conforms is read. -/
theorem required_reads (h : Fields ps req fs) (hs : Reads s r) (hq : n ∈ req) (hp : ps.lookup n = some s) :
    ∃ a, required fs n r = some a := by
  obtain ⟨f, hf, rfl⟩ := h.given n hq
  obtain ⟨a, ha⟩ := hs f.2 (h.conform f hf s hp) (h.values f hf)
  exact ⟨a, by rw [required_one (values_one h.names hf rfl), ha]⟩

/-- A field that may be left out and conforms is read. -/
theorem optional_reads (h : Fields ps req fs) (hs : Reads s r) (hp : ps.lookup n = some (nullable s)) :
    ∃ a, Json.optional fs n r = some a := by
  by_cases hex : ∃ f ∈ fs, f.1 = n
  · obtain ⟨f, hf, rfl⟩ := hex
    rw [optional_one (values_one h.names hf rfl)]
    rcases h.conform f hf _ hp with e | e
    · rw [e]; exact ⟨none, rfl⟩
    · obtain ⟨a, ha⟩ := hs _ e (h.values f hf)
      generalize f.2 = v at *
      cases v with
      | null => exact ⟨none, rfl⟩
      | _ => exact ⟨some a, by simp [toOption, ha]⟩
  · refine ⟨none, ?_⟩
    unfold Json.optional
    rw [values_none fun f hf e => hex ⟨f, hf, e⟩]
    rfl

theorem array_reads (hs : Reads s r) : Reads (array s) (toList r) := by
  rintro _ ⟨xs, rfl, h⟩ hu
  cases hu with
  | arr _ hu =>
    unfold toList
    dsimp only
    induction xs with
    | nil => exact ⟨[], rfl⟩
    | cons x xs ih =>
      obtain ⟨a, ha⟩ := hs x (h x List.mem_cons_self) (hu x List.mem_cons_self)
      obtain ⟨l, hl⟩ := ih (fun y hy => h y (List.mem_cons_of_mem _ hy)) fun y hy => hu y (List.mem_cons_of_mem _ hy)
      exact ⟨a :: l, by simp [List.mapM_cons, ha, hl]⟩

theorem mapM_some_length {xs : List Json} {l : List α} (h : xs.mapM r = some l) : l.length = xs.length := by
  induction xs generalizing l with
  | nil => simp at h; simp [← h]
  | cons x xs ih =>
    simp only [List.mapM_cons, bind, Option.bind, pure] at h
    split at h
    · cases h
    · dsimp only at h
      split at h
      · cases h
      · next h2 => cases h; simp [ih h2]

theorem toArray_length {k : Nat} {j : Json} {l : List α} (h : toArray k r j = some l) : l.length = k := by
  unfold toArray at h
  simp only [bind, Option.bind] at h
  split at h
  · cases h
  · dsimp only at h
    split at h
    · next h' => cases h; exact h'
    · cases h

theorem arrayOf_reads {k : Nat} (hs : Reads s r) : Reads (arrayOf k s) (toArray k r) := by
  rintro _ ⟨xs, rfl, hl, h⟩ hu
  obtain ⟨l, hr⟩ := array_reads hs _ ⟨xs, rfl, h⟩ hu
  have : l.length = k := by
    rw [← hl]
    exact mapM_some_length hr
  exact ⟨l, by simp [toArray, hr, this]⟩

theorem map_reads {key : List Char → Prop} (hk : ∀ k, key k → ∃ b, readKey k = some b) (hs : Reads s r) :
    Reads (map key s) (toMap r) := by
  rintro _ ⟨fs, rfl, h⟩ hu
  cases hu with
  | obj _ hd hu =>
    clear hd
    unfold toMap
    dsimp only
    generalize ([] : List (U8 × α)) = m
    induction fs generalizing m with
    | nil => exact ⟨m, rfl⟩
    | cons f fs ih =>
      obtain ⟨k, hk'⟩ := hk _ (h f List.mem_cons_self).1
      obtain ⟨a, ha⟩ := hs _ (h f List.mem_cons_self).2 (hu f List.mem_cons_self)
      simp only [List.foldlM_cons, hk', ha, bind, Option.bind, pure]
      exact ih (fun g hg => h g (List.mem_cons_of_mem _ hg)) (fun g hg => hu g (List.mem_cons_of_mem _ hg)) _

end Readers

theorem oneOf_some {l : List Schema} {j : Json} (h : oneOf l j) : ∃ s ∈ l, s j := by
  obtain ⟨i, hi, h⟩ := h
  exact ⟨l[i], List.getElem_mem hi, (h i _ (List.getElem?_eq_getElem hi)).mpr rfl⟩

theorem variant_some {n : List Char} {s : Schema} {j : Json} (h : variant n s j) (hu : Unambiguous j) :
    ∃ v, j = .obj [(n, v)] ∧ s v ∧ Unambiguous v := by
  obtain ⟨fs, rfl, hr, h⟩ := h
  obtain ⟨f, hf, hn⟩ := hr n (by simp)
  have hall : ∀ g ∈ fs, g.1 = n ∧ s g.2 := by
    intro g hg
    obtain ⟨s', hs, hv⟩ := h g hg
    simp only [List.lookup] at hs
    split at hs
    · next hb => cases hs; exact ⟨by simpa using hb, hv⟩
    · cases hs
  cases hu with
  | obj _ hd hu =>
    match fs, hd, hall, hf, hu with
    | [], _, _, hf, _ => cases hf
    | [g], _, hall, _, hu =>
      obtain ⟨h1, h2⟩ := hall g (by simp)
      exact ⟨g.2, by rw [← h1], h2, hu g (by simp)⟩
    | g :: g' :: fs, hd, hall, _, _ =>
      have h1 := (hall g (by simp)).1
      have h2 := (hall g' (by simp)).1
      simp [h1, h2] at hd

theorem adjacent_some {content n : List Char} {s : Schema} {j : Json} (hc : content ≠ chars!"type")
    (h : adjacent content n s j) (hu : Unambiguous j) :
    ∃ v, unadjacent content j = some (n, v) ∧ s v ∧ Unambiguous v := by
  obtain ⟨fs, rfl, hf⟩ := object_fields h hu
  obtain ⟨f, hf1, e1⟩ := hf.given chars!"type" (by simp)
  obtain ⟨g, hg1, e2⟩ := hf.given content (by simp)
  have c1 := hf.conform f hf1 (names [n]) (by rw [e1]; simp [List.lookup])
  have c2 := hf.conform g hg1 s (by
    have : (content == chars!"type") = false := by simpa using hc
    rw [e2]; simp [List.lookup, this])
  obtain ⟨x, hx, c1⟩ := c1
  simp only [List.mem_singleton] at hx
  subst hx
  refine ⟨g.2, ?_, c2, hf.values g hg1⟩
  simp only [unadjacent, fields, bind, Option.bind, pure]
  rw [required_one (values_one hf.names hf1 e1), c1, required_one (values_one hf.names hg1 e2)]
  rfl

theorem names_reads {α : Type} {l : List (List Char)} {r : Json → Option α} (h : ∀ s ∈ l, ∃ a, r (.str s) = some a) :
    Reads (names l) r := by
  rintro _ ⟨s, hs, rfl⟩ -
  exact h s hs

theorem powerState_reads : Reads PowerState.schema PowerState.ofJson :=
  names_reads fun s hs => by
    simp only [List.mem_cons, List.not_mem_nil, or_false] at hs
    rcases hs with rfl | rfl | rfl <;> exact ⟨_, rfl⟩

theorem ledState_reads : Reads LedState.schema LedState.ofJson :=
  names_reads fun s hs => by
    simp only [List.mem_cons, List.not_mem_nil, or_false] at hs
    rcases hs with rfl | rfl | rfl <;> exact ⟨_, rfl⟩

theorem outputStatus_reads : Reads OutputStatus.schema OutputStatus.ofJson :=
  names_reads fun s hs => by
    simp only [List.mem_cons, List.not_mem_nil, or_false] at hs
    rcases hs with rfl | rfl <;> exact ⟨_, rfl⟩

theorem lanePolarity_reads : Reads LanePolarity.schema LanePolarity.ofJson :=
  names_reads fun s hs => by
    simp only [List.mem_cons, List.not_mem_nil, or_false] at hs
    rcases hs with rfl | rfl <;> exact ⟨_, rfl⟩

theorem boolean_reads : Reads boolean Json.toBool := by
  rintro _ ⟨b, rfl⟩ -
  exact ⟨b, rfl⟩

theorem string_reads : Reads string toStr := by
  rintro _ ⟨b, rfl⟩ -
  exact ⟨b, rfl⟩

theorem number_reads : Reads number toF32 := by
  rintro _ (⟨n, rfl⟩ | ⟨z, rfl⟩) -
  · unfold toF32
    dsimp only
    split <;> exact ⟨_, rfl⟩
  · exact ⟨_, rfl⟩

theorem powerMode_reads : Reads PowerMode.schema PowerMode.ofJson := by
  intro j h hu
  obtain ⟨fs, rfl, hf⟩ := object_fields h hu
  obtain ⟨a, ha⟩ := required_reads (n := chars!"state") hf powerState_reads (by simp) rfl
  obtain ⟨b, hb⟩ := optional_reads (n := chars!"software_override") hf boolean_reads rfl
  exact ⟨⟨a, b⟩, by simp [PowerMode.ofJson, fields, ha, hb]⟩

theorem sffLane_reads : Reads Sff8636Datapath.schema Sff8636Datapath.ofJson := by
  intro j h hu
  obtain ⟨fs, rfl, hf⟩ := object_fields h hu
  have key := fun n => required_reads (n := n) hf boolean_reads
  obtain ⟨a1, h1⟩ := key chars!"tx_enabled" (by simp) rfl
  obtain ⟨a2, h2⟩ := key chars!"tx_los" (by simp) rfl
  obtain ⟨a3, h3⟩ := key chars!"rx_los" (by simp) rfl
  obtain ⟨a4, h4⟩ := key chars!"tx_adaptive_eq_fault" (by simp) rfl
  obtain ⟨a5, h5⟩ := key chars!"tx_fault" (by simp) rfl
  obtain ⟨a6, h6⟩ := key chars!"tx_lol" (by simp) rfl
  obtain ⟨a7, h7⟩ := key chars!"rx_lol" (by simp) rfl
  obtain ⟨a8, h8⟩ := key chars!"tx_cdr_enabled" (by simp) rfl
  obtain ⟨a9, h9⟩ := key chars!"rx_cdr_enabled" (by simp) rfl
  exact ⟨⟨a1, a2, a3, a4, a5, a6, a7, a8, a9⟩, by
    simp [Sff8636Datapath.ofJson, fields, h1, h2, h3, h4, h5, h6, h7, h8, h9]⟩

theorem byte_reads : Reads readable.byte toU8 := by
  rintro _ ⟨x, rfl⟩ -
  exact ⟨x, toU8_ofU8 x⟩

theorem pair_reads : Reads (arrayOf 2 readable.byte) toPair := by
  intro j h hu
  obtain ⟨l, hl⟩ := arrayOf_reads (k := 2) byte_reads j h hu
  have h2 := toArray_length hl
  match l, h2 with
  | [a, b], _ => exact ⟨(a, b), by simp [toPair, hl]⟩

theorem oui_reads : Reads (Oui.schemaOf readable) Oui.ofJson := by
  intro j h hu
  obtain ⟨l, hl⟩ := arrayOf_reads (k := 3) byte_reads j h hu
  have h2 := toArray_length hl
  match l, h2 with
  | [a, b, c], _ => exact ⟨⟨a, b, c⟩, by simp [Oui.ofJson, hl]⟩

theorem code_reads (T : BitfieldEnum) : Reads (readable.code T) (toBf (T := T)) := by
  rintro _ ⟨s, v, rfl, h⟩ -
  exact ⟨v, by simp [toBf, toStr, h]⟩

theorem vendorInfo_reads : Reads (VendorInfo.schemaOf readable) VendorInfo.ofJson := by
  have hv : Reads (Vendor.schemaOf readable) Vendor.ofJson := by
    intro j h hu
    obtain ⟨fs, rfl, hf⟩ := object_fields h hu
    obtain ⟨a1, h1⟩ := required_reads (n := chars!"name") hf string_reads (by simp) rfl
    obtain ⟨a2, h2⟩ := required_reads (n := chars!"oui") hf oui_reads (by simp) rfl
    obtain ⟨a3, h3⟩ := required_reads (n := chars!"part") hf string_reads (by simp) rfl
    obtain ⟨a4, h4⟩ := required_reads (n := chars!"revision") hf string_reads (by simp) rfl
    obtain ⟨a5, h5⟩ := required_reads (n := chars!"serial") hf string_reads (by simp) rfl
    obtain ⟨a6, h6⟩ := optional_reads (n := chars!"date") hf string_reads rfl
    exact ⟨⟨a1, a2, a3, a4, a5, a6⟩, by simp [Vendor.ofJson, fields, h1, h2, h3, h4, h5, h6]⟩
  intro j h hu
  obtain ⟨fs, rfl, hf⟩ := object_fields h hu
  obtain ⟨a1, h1⟩ := required_reads (n := chars!"identifier") hf (code_reads _) (by simp) rfl
  obtain ⟨a2, h2⟩ := required_reads (n := chars!"vendor") hf hv (by simp) rfl
  exact ⟨⟨a1, a2⟩, by simp [VendorInfo.ofJson, fields, h1, h2]⟩

theorem receiverPower_reads : Reads ReceiverPower.schema ReceiverPower.ofJson := by
  intro j h hu
  obtain ⟨s, hs, h⟩ := oneOf_some h
  simp only [List.mem_cons, List.not_mem_nil, or_false] at hs
  rcases hs with rfl | rfl <;> obtain ⟨v, rfl, hv, hu⟩ := variant_some h hu <;> obtain ⟨x, hx⟩ := number_reads v hv hu
  · exact ⟨.average x, by simp [ReceiverPower.ofJson, untag, hx]⟩
  · exact ⟨.peakToPeak x, by simp [ReceiverPower.ofJson, untag, hx]⟩

theorem aux1_reads : Reads (Aux1Monitor.schemaOf readable) Aux1Monitor.ofJson := by
  intro j h hu
  obtain ⟨s, hs, h⟩ := oneOf_some h
  simp only [List.mem_cons, List.not_mem_nil, or_false] at hs
  rcases hs with rfl | rfl <;> obtain ⟨v, rfl, hv, hu⟩ := variant_some h hu
  · obtain ⟨x, hx⟩ := pair_reads v hv hu
    exact ⟨.custom x, by simp [Aux1Monitor.ofJson, untag, hx]⟩
  · obtain ⟨x, hx⟩ := number_reads v hv hu
    exact ⟨.tecCurrent x, by simp [Aux1Monitor.ofJson, untag, hx]⟩

theorem aux2_reads : Reads Aux2Monitor.schema Aux2Monitor.ofJson := by
  intro j h hu
  obtain ⟨s, hs, h⟩ := oneOf_some h
  simp only [List.mem_cons, List.not_mem_nil, or_false] at hs
  rcases hs with rfl | rfl <;> obtain ⟨v, rfl, hv, hu⟩ := variant_some h hu <;> obtain ⟨x, hx⟩ := number_reads v hv hu
  · exact ⟨.laserTemperature x, by simp [Aux2Monitor.ofJson, untag, hx]⟩
  · exact ⟨.tecCurrent x, by simp [Aux2Monitor.ofJson, untag, hx]⟩

theorem aux3_reads : Reads Aux3Monitor.schema Aux3Monitor.ofJson := by
  intro j h hu
  obtain ⟨s, hs, h⟩ := oneOf_some h
  simp only [List.mem_cons, List.not_mem_nil, or_false] at hs
  rcases hs with rfl | rfl <;> obtain ⟨v, rfl, hv, hu⟩ := variant_some h hu <;> obtain ⟨x, hx⟩ := number_reads v hv hu
  · exact ⟨.laserTemperature x, by simp [Aux3Monitor.ofJson, untag, hx]⟩
  · exact ⟨.additionalSupplyVoltage x, by simp [Aux3Monitor.ofJson, untag, hx]⟩

theorem monitors_reads : Reads (Monitors.schemaOf readable) Monitors.ofJson := by
  have ha : Reads (AuxMonitors.schemaOf readable) AuxMonitors.ofJson := by
    intro j h hu
    obtain ⟨fs, rfl, hf⟩ := object_fields h hu
    obtain ⟨a1, h1⟩ := optional_reads (n := chars!"aux1") hf aux1_reads rfl
    obtain ⟨a2, h2⟩ := optional_reads (n := chars!"aux2") hf aux2_reads rfl
    obtain ⟨a3, h3⟩ := optional_reads (n := chars!"aux3") hf aux3_reads rfl
    obtain ⟨a4, h4⟩ := optional_reads (n := chars!"custom") hf pair_reads rfl
    exact ⟨⟨a1, a2, a3, a4⟩, by simp [AuxMonitors.ofJson, someFields, h1, h2, h3, h4]⟩
  intro j h hu
  obtain ⟨fs, rfl, hf⟩ := object_fields h hu
  obtain ⟨a1, h1⟩ := optional_reads (n := chars!"temperature") hf number_reads rfl
  obtain ⟨a2, h2⟩ := optional_reads (n := chars!"supply_voltage") hf number_reads rfl
  obtain ⟨a3, h3⟩ := optional_reads (n := chars!"receiver_power") hf (array_reads receiverPower_reads) rfl
  obtain ⟨a4, h4⟩ := optional_reads (n := chars!"transmitter_bias_current") hf (array_reads number_reads) rfl
  obtain ⟨a5, h5⟩ := optional_reads (n := chars!"transmitter_power") hf (array_reads number_reads) rfl
  obtain ⟨a6, h6⟩ := optional_reads (n := chars!"aux_monitors") hf ha rfl
  exact ⟨⟨a1, a2, a3, a4, a5, a6⟩, by simp [Monitors.ofJson, someFields, h1, h2, h3, h4, h5, h6]⟩

theorem media_reads : Reads (MediaInterfaceId.schemaOf readable) MediaInterfaceId.ofJson := by
  intro j h hu
  have hc : chars!"id" ≠ chars!"type" := by decide
  obtain ⟨s, hs, h⟩ := oneOf_some h
  simp only [List.mem_cons, List.not_mem_nil, or_false] at hs
  rcases hs with rfl | rfl | rfl | rfl | rfl <;> obtain ⟨v, e, hv, hu⟩ := adjacent_some hc h hu <;>
    obtain ⟨x, hx⟩ := code_reads _ v hv hu
  · exact ⟨.mmf x, by simp [MediaInterfaceId.ofJson, e, hx]⟩
  · exact ⟨.smf x, by simp [MediaInterfaceId.ofJson, e, hx]⟩
  · exact ⟨.passiveCopper x, by simp [MediaInterfaceId.ofJson, e, hx]⟩
  · exact ⟨.activeCable x, by simp [MediaInterfaceId.ofJson, e, hx]⟩
  · exact ⟨.baseT x, by simp [MediaInterfaceId.ofJson, e, hx]⟩

theorem specification_reads : Reads (SffComplianceCode.schemaOf readable) SffComplianceCode.ofJson := by
  intro j h hu
  have hc : chars!"code" ≠ chars!"type" := by decide
  obtain ⟨s, hs, h⟩ := oneOf_some h
  simp only [List.mem_cons, List.not_mem_nil, or_false] at hs
  rcases hs with rfl | rfl <;> obtain ⟨v, e, hv, hu⟩ := adjacent_some hc h hu
  · obtain ⟨x, hx⟩ := code_reads _ v hv hu
    exact ⟨.extended x, by simp [SffComplianceCode.ofJson, e, hx]⟩
  · obtain ⟨t, x, rfl, hx⟩ := hv
    exact ⟨.ethernet x, by simp [SffComplianceCode.ofJson, e, EthernetComplianceCode.ofJson, toStr, hx]⟩

theorem application_reads : Reads (ApplicationDescriptor.schemaOf readable) ApplicationDescriptor.ofJson := by
  intro j h hu
  obtain ⟨fs, rfl, hf⟩ := object_fields h hu
  obtain ⟨a1, h1⟩ := required_reads (n := chars!"host_id") hf (code_reads _) (by simp) rfl
  obtain ⟨a2, h2⟩ := required_reads (n := chars!"media_id") hf media_reads (by simp) rfl
  obtain ⟨a3, h3⟩ := required_reads (n := chars!"host_lane_count") hf byte_reads (by simp) rfl
  obtain ⟨a4, h4⟩ := required_reads (n := chars!"media_lane_count") hf byte_reads (by simp) rfl
  obtain ⟨a5, h5⟩ := required_reads (n := chars!"host_lane_assignment_options") hf byte_reads (by simp) rfl
  obtain ⟨a6, h6⟩ := required_reads (n := chars!"media_lane_assignment_options") hf byte_reads (by simp) rfl
  exact ⟨⟨a1, a2, a3, a4, a5, a6⟩, by simp [ApplicationDescriptor.ofJson, fields, h1, h2, h3, h4, h5, h6]⟩

theorem lane_reads : Reads (CmisLaneStatus.schemaOf readable) CmisLaneStatus.ofJson := by
  have hst : Reads readable.state CmisDatapathState.ofJson := by
    rintro _ ⟨t, x, rfl, hx⟩ -
    exact ⟨x, by simp [CmisDatapathState.ofJson, toStr, hx]⟩
  intro j h hu
  obtain ⟨fs, rfl, hf⟩ := object_fields h hu
  have key := fun n => optional_reads (n := n) hf boolean_reads
  obtain ⟨a1, h1⟩ := required_reads (n := chars!"state") hf hst (by simp) rfl
  obtain ⟨a2, h2⟩ := optional_reads (n := chars!"tx_input_polarity") hf lanePolarity_reads rfl
  obtain ⟨a3, h3⟩ := key chars!"tx_output_enabled" rfl
  obtain ⟨a4, h4⟩ := key chars!"tx_auto_squelch_disable" rfl
  obtain ⟨a5, h5⟩ := key chars!"tx_force_squelch" rfl
  obtain ⟨a6, h6⟩ := optional_reads (n := chars!"rx_output_polarity") hf lanePolarity_reads rfl
  obtain ⟨a7, h7⟩ := key chars!"rx_output_enabled" rfl
  obtain ⟨a8, h8⟩ := key chars!"rx_auto_squelch_disable" rfl
  obtain ⟨a9, h9⟩ := required_reads (n := chars!"rx_output_status") hf outputStatus_reads (by simp) rfl
  obtain ⟨b1, g1⟩ := required_reads (n := chars!"tx_output_status") hf outputStatus_reads (by simp) rfl
  obtain ⟨b2, g2⟩ := key chars!"tx_failure" rfl
  obtain ⟨b3, g3⟩ := key chars!"tx_los" rfl
  obtain ⟨b4, g4⟩ := key chars!"tx_lol" rfl
  obtain ⟨b5, g5⟩ := key chars!"tx_adaptive_eq_fail" rfl
  obtain ⟨b6, g6⟩ := key chars!"rx_los" rfl
  obtain ⟨b7, g7⟩ := key chars!"rx_lol" rfl
  exact ⟨⟨a1, a2, a3, a4, a5, a6, a7, a8, a9, b1, b2, b3, b4, b5, b6, b7⟩, by
    simp [CmisLaneStatus.ofJson, fields, h1, h2, h3, h4, h5, h6, h7, h8, h9, g1, g2, g3, g4, g5, g6, g7]⟩

theorem datapath_reads : Reads (Datapath.schemaOf readable) Datapath.ofJson := by
  have hd : Reads (CmisDatapath.schemaOf readable) CmisDatapath.ofJson := by
    intro j h hu
    obtain ⟨fs, rfl, hf⟩ := object_fields h hu
    obtain ⟨a1, h1⟩ := required_reads (n := chars!"application") hf application_reads (by simp) rfl
    obtain ⟨a2, h2⟩ := required_reads (n := chars!"lane_status") hf (map_reads (fun _ h => h) lane_reads) (by simp) rfl
    exact ⟨⟨a1, a2⟩, by simp [CmisDatapath.ofJson, fields, h1, h2]⟩
  intro j h hu
  obtain ⟨s, hs, h⟩ := oneOf_some h
  simp only [List.mem_cons, List.not_mem_nil, or_false] at hs
  rcases hs with rfl | rfl <;> obtain ⟨v, rfl, hv, hu⟩ := variant_some h hu <;>
    obtain ⟨fs, rfl, hf⟩ := object_fields hv hu
  · obtain ⟨a1, h1⟩ := required_reads (n := chars!"connector") hf (code_reads _) (by simp) rfl
    obtain ⟨a2, h2⟩ := required_reads (n := chars!"supported_lanes") hf byte_reads (by simp) rfl
    obtain ⟨a3, h3⟩ := required_reads (n := chars!"datapaths") hf (map_reads (fun _ h => h) hd) (by simp) rfl
    exact ⟨.cmis a1 a2 a3, by simp [Datapath.ofJson, untag, fields, h1, h2, h3]⟩
  · obtain ⟨a1, h1⟩ := required_reads (n := chars!"connector") hf (code_reads _) (by simp) rfl
    obtain ⟨a2, h2⟩ := required_reads (n := chars!"specification") hf specification_reads (by simp) rfl
    obtain ⟨a3, h3⟩ := required_reads (n := chars!"lanes") hf (arrayOf_reads sffLane_reads) (by simp) rfl
    exact ⟨.sff8636 a1 a2 a3, by simp [Datapath.ofJson, untag, fields, h1, h2, h3]⟩

theorem readable_writes : Writes readable fun e => ∃ k, k < 7 ∧ e.code = (1 : U8) <<< k where
  byte x := ⟨x, rfl⟩
  code T hT v := ⟨_, v, rfl, C51_tables_partial T hT v⟩
  ethernet e h := by
    have : ∀ k, k < 7 → EthernetComplianceCode.fromStr (EthernetComplianceCode.display ⟨(1 : U8) <<< k⟩) =
        some ⟨(1 : U8) <<< k⟩ := by decide +kernel
    obtain ⟨k, hk, he⟩ := h
    obtain ⟨c⟩ := e
    cases he
    exact ⟨_, _, rfl, this k hk⟩
  state s := by
    have : ∀ s : CmisDatapathState, CmisDatapathState.fromStr s.display = some s := by decide +kernel
    exact ⟨_, s, rfl, this s⟩
  key k := ⟨k, readKey_keyText k⟩

end Xcvr
