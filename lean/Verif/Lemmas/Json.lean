import Verif.Lemmas.Measured
import Verif.Lemmas.BTree
import Verif.Lemmas.Identifier
import Verif.Props.Codes

/-! # Lemmas: what is written as JSON is read back -/

namespace Xcvr

open Spec

namespace Json

theorem toU8_ofU8 (x : U8) : toU8 (ofU8 x) = some x := by
  have := x.isLt
  unfold toU8 ofU8
  dsimp only
  rw [if_pos (by omega)]
  simp

theorem toList_ofList {α : Type} {w : α → Json} {r : Json → Option α} {l : List α} (h : ∀ a ∈ l, r (w a) = some a) :
    toList r (ofList w l) = some l := by
  unfold toList ofList
  dsimp only
  induction l with
  | nil => rfl
  | cons a l ih =>
    rw [List.map_cons, List.mapM_cons, h a (by simp), ih (fun b hb => h b (List.mem_cons_of_mem _ hb))]
    rfl

theorem toPair_ofPair (b : U8 × U8) : toPair (ofPair b) = some b := by
  simp [toPair, ofPair, toArray, toList, toU8_ofU8]

theorem toOption_ofOption {α : Type} {w : α → Json} {r : Json → Option α} {o : Option α} (hn : ∀ a, w a ≠ .null)
    (h : ∀ a ∈ o, r (w a) = some a) : toOption r (ofOption w o) = some o := by
  cases o with
  | none => rfl
  | some a =>
    have h1 := hn a
    have h2 := h a rfl
    show toOption r (w a) = _
    unfold toOption
    split
    · next he => exact absurd he h1
    · rw [h2]; rfl

theorem toBf_ofBf {T : BitfieldEnum} (hT : T ∈ codeTables) (v : Bf T) : toBf (ofBf v) = some v := C51_tables_partial T hT v

theorem readKey_keyText (k : U8) : readKey (keyText k) = some k := by
  revert k
  decide +kernel

theorem upsert_last {V : Type} {m : List (U8 × V)} {k : U8} {v : V} (h : ∀ e ∈ m, u8Lt e.1 k = true) :
    BMap.upsert u8Lt k (fun _ => v) m = m ++ [(k, v)] := by
  induction m with
  | nil => rfl
  | cons e m ih =>
    obtain ⟨k', v'⟩ := e
    have h1 := h (k', v') (by simp)
    have h2 : k ≠ k' := by
      intro he; subst he
      simp [u8Lt] at h1
    have h3 : u8Lt k k' = false := by
      simp only [u8Lt, decide_eq_true_eq, decide_eq_false_iff_not, BitVec.lt_def] at h1 ⊢
      omega
    unfold BMap.upsert
    rw [if_neg h2, if_neg (by rw [h3]; decide), ih fun e he => h e (List.mem_cons_of_mem _ he)]
    rfl

theorem toMap_ofMap {α : Type} {w : α → Json} {r : Json → Option α} {m : List (U8 × α)} (hs : BMap.Sorted u8Lt m)
    (h : ∀ p ∈ m, r (w p.2) = some p.2) : toMap r (ofMap w m) = some m := by
  unfold toMap ofMap
  dsimp only
  have key : ∀ (l acc : List (U8 × α)), BMap.Sorted u8Lt (acc ++ l) → (∀ p ∈ l, r (w p.2) = some p.2) →
      (l.map fun p => (keyText p.1, w p.2)).foldlM (init := acc) (fun m f => do
        let k ← readKey f.1
        let v ← r f.2
        return BMap.upsert u8Lt k (fun _ => v) m) = some (acc ++ l) := by
    intro l
    induction l with
    | nil => intro acc _ _; simp
    | cons p l ih =>
      intro acc hs h
      have hlt : ∀ e ∈ acc, u8Lt e.1 p.1 = true := by
        intro e he
        exact (List.pairwise_append.1 hs).2.2 e he p (by simp)
      rw [List.map_cons, List.foldlM_cons]
      simp only [readKey_keyText, h p (by simp), bind, Option.bind, pure, upsert_last hlt]
      have := ih (acc ++ [p]) (by rw [List.append_assoc]; exact hs) (fun q hq => h q (List.mem_cons_of_mem _ hq))
      rw [List.append_assoc] at this
      exact this
  exact key m [] hs h

theorem filter_skipNone {α : Type} (n n' : List Char) (w : α → Json) (o : Option α) :
    (skipNone n w o).filter (·.1 == n') = if n = n' then skipNone n w o else [] := by
  cases o with
  | none => simp [skipNone]
  | some a => by_cases h : n = n' <;> simp [skipNone, h]

theorem optional_skip {α : Type} {fs : List (List Char × Json)} {name : List Char} {w : α → Json} {r : Json → Option α}
    {o : Option α} (hf : fs.filter (·.1 == name) = skipNone name w o) (hn : ∀ a, w a ≠ .null)
    (h : ∀ a ∈ o, r (w a) = some a) : optional fs name r = some o := by
  unfold optional field
  rw [hf]
  cases o with
  | none => rfl
  | some a =>
    have := toOption_ofOption (o := some a) hn h
    show toOption r (w a) = _
    exact this

theorem required_one {α : Type} {fs : List (List Char × Json)} {name : List Char} {v : Json} {r : Json → Option α}
    (hf : field fs name = some (some v)) : required fs name r = r v := by
  unfold required; rw [hf]; rfl

theorem optional_one {α : Type} {fs : List (List Char × Json)} {name : List Char} {v : Json} {r : Json → Option α}
    (hf : field fs name = some (some v)) : optional fs name r = toOption r v := by
  unfold optional; rw [hf]; rfl

end Json

open Json

theorem oui_json (o : Oui) : Oui.ofJson o.toJson = some o := by
  simp [Oui.ofJson, Oui.toJson, toArray, toList, toU8_ofU8]

theorem vendor_json (v : Vendor) : Vendor.ofJson v.toJson = some v := by
  unfold Vendor.ofJson Vendor.toJson
  simp only [fields, bind, Option.bind, pure]
  rw [required_one (v := .str v.name) (by rfl), required_one (v := v.oui.toJson) (by rfl), required_one (v := .str v.part) (by rfl),
    required_one (v := .str v.revision) (by rfl), required_one (v := .str v.serial) (by rfl),
    optional_one (v := ofOption .str v.date) (by rfl), oui_json, toOption_ofOption (r := toStr) (w := .str) (o := v.date) (by simp) (fun _ _ => rfl)]
  rfl


theorem bf_json {T : BitfieldEnum} (hT : T ∈ codeTables) (v : Bf T) : toBf (ofBf v) = some v := toBf_ofBf hT v

theorem vendorInfo_json (v : VendorInfo) : VendorInfo.ofJson v.toJson = some v := by
  unfold VendorInfo.ofJson VendorInfo.toJson
  simp only [fields, bind, Option.bind, pure]
  rw [required_one (v := ofBf v.identifier) (by rfl), required_one (v := v.vendor.toJson) (by rfl), vendor_json,
    bf_json (by simp [codeTables])]

theorem mediaInterfaceId_json (m : MediaInterfaceId) : MediaInterfaceId.ofJson m.toJson = some m := by
  cases m <;> simp only [MediaInterfaceId.toJson, MediaInterfaceId.ofJson, unadjacent, adjacent, fields, bind, Option.bind, pure] <;>
    rw [required_one (by rfl), required_one (by rfl)] <;> dsimp only [unitName] <;>
    simp only [reduceIte, reduceCtorEq, List.cons.injEq, Char.reduceEq, false_and, and_false, true_and] <;>
    rw [bf_json (by simp [codeTables])]

theorem ethernet_json {e : EthernetComplianceCode} (h : ∃ k, k < 7 ∧ e.code = (1 : U8) <<< k) :
    EthernetComplianceCode.ofJson e.toJson = some e := (C51_ethernet_partial e).2 h

theorem ethernet_json_iff {e : EthernetComplianceCode} :
    EthernetComplianceCode.ofJson e.toJson = some e ↔ ∃ k, k < 7 ∧ e.code = (1 : U8) <<< k := C51_ethernet_partial e

theorem sffDatapath_json (d : Sff8636Datapath) : Sff8636Datapath.ofJson d.toJson = some d := by
  unfold Sff8636Datapath.ofJson Sff8636Datapath.toJson
  simp only [fields, bind, Option.bind, pure]
  rw [required_one (v := .bool d.txEnabled) (by rfl), required_one (v := .bool d.txLos) (by rfl),
    required_one (v := .bool d.rxLos) (by rfl), required_one (v := .bool d.txAdaptiveEqFault) (by rfl),
    required_one (v := .bool d.txFault) (by rfl), required_one (v := .bool d.txLol) (by rfl),
    required_one (v := .bool d.rxLol) (by rfl), required_one (v := .bool d.txCdrEnabled) (by rfl),
    required_one (v := .bool d.rxCdrEnabled) (by rfl)]
  rfl

theorem outputStatus_json (s : OutputStatus) : OutputStatus.ofJson s.toJson = some s := by cases s <;> rfl
theorem lanePolarity_json (s : LanePolarity) : LanePolarity.ofJson s.toJson = some s := by cases s <;> rfl
theorem datapathState_json (s : CmisDatapathState) : CmisDatapathState.ofJson (CmisDatapathState.toJson s) = some s :=
  C51_datapath_state_partial s
theorem lanePolarity_ne (s : LanePolarity) : s.toJson ≠ .null := by cases s <;> simp [LanePolarity.toJson]

theorem application_json (a : ApplicationDescriptor) : ApplicationDescriptor.ofJson a.toJson = some a := by
  unfold ApplicationDescriptor.ofJson ApplicationDescriptor.toJson
  simp only [fields, bind, Option.bind, pure]
  rw [required_one (v := ofBf a.hostId) (by rfl), required_one (v := a.mediaId.toJson) (by rfl),
    required_one (v := ofU8 a.hostLaneCount) (by rfl), required_one (v := ofU8 a.mediaLaneCount) (by rfl),
    required_one (v := ofU8 a.hostLaneAssignmentOptions) (by rfl),
    required_one (v := ofU8 a.mediaLaneAssignmentOptions) (by rfl), bf_json (by simp [codeTables]), mediaInterfaceId_json,
    toU8_ofU8, toU8_ofU8, toU8_ofU8, toU8_ofU8]

theorem optBool (o : Option Bool) : toOption toBool (ofOption .bool o) = some o := by
  rcases o with _ | _ <;> rfl
theorem optPolarity (o : Option LanePolarity) : toOption LanePolarity.ofJson (ofOption LanePolarity.toJson o) = some o :=
  toOption_ofOption lanePolarity_ne fun a _ => lanePolarity_json a

theorem laneStatus_json (s : CmisLaneStatus) : CmisLaneStatus.ofJson s.toJson = some s := by
  unfold CmisLaneStatus.ofJson CmisLaneStatus.toJson
  simp only [fields, bind, Option.bind, pure]
  rw [required_one (v := CmisDatapathState.toJson s.state) (by rfl),
    optional_one (v := ofOption LanePolarity.toJson s.txInputPolarity) (by rfl),
    optional_one (v := ofOption .bool s.txOutputEnabled) (by rfl),
    optional_one (v := ofOption .bool s.txAutoSquelchDisable) (by rfl),
    optional_one (v := ofOption .bool s.txForceSquelch) (by rfl),
    optional_one (v := ofOption LanePolarity.toJson s.rxOutputPolarity) (by rfl),
    optional_one (v := ofOption .bool s.rxOutputEnabled) (by rfl),
    optional_one (v := ofOption .bool s.rxAutoSquelchDisable) (by rfl),
    required_one (v := s.rxOutputStatus.toJson) (by rfl),
    required_one (v := s.txOutputStatus.toJson) (by rfl),
    optional_one (v := ofOption .bool s.txFailure) (by rfl),
    optional_one (v := ofOption .bool s.txLos) (by rfl),
    optional_one (v := ofOption .bool s.txLol) (by rfl),
    optional_one (v := ofOption .bool s.txAdaptiveEqFail) (by rfl),
    optional_one (v := ofOption .bool s.rxLos) (by rfl),
    optional_one (v := ofOption .bool s.rxLol) (by rfl), datapathState_json]
  simp only [optBool, optPolarity, outputStatus_json]

theorem cmisDatapath_json {d : CmisDatapath} (h : BMap.Sorted u8Lt d.laneStatus) : CmisDatapath.ofJson d.toJson = some d := by
  unfold CmisDatapath.ofJson CmisDatapath.toJson
  simp only [fields, bind, Option.bind, pure]
  rw [required_one (v := d.application.toJson) (by rfl),
    required_one (v := ofMap CmisLaneStatus.toJson d.laneStatus) (by rfl), application_json,
    toMap_ofMap h fun p _ => laneStatus_json p.2]

theorem sffCode_json {c : SffComplianceCode} (h : ∀ e, c = .ethernet e → ∃ k, k < 7 ∧ e.code = (1 : U8) <<< k) :
    SffComplianceCode.ofJson c.toJson = some c := by
  cases c with
  | extended c =>
    simp only [SffComplianceCode.toJson, SffComplianceCode.ofJson, unadjacent, adjacent, fields, bind, Option.bind, pure]
    rw [required_one (by rfl), required_one (by rfl)]
    dsimp only [unitName]
    simp only [reduceIte]
    rw [bf_json (by simp [codeTables])]
  | ethernet c =>
    simp only [SffComplianceCode.toJson, SffComplianceCode.ofJson, unadjacent, adjacent, fields, bind, Option.bind, pure]
    rw [required_one (by rfl), required_one (by rfl)]
    dsimp only [unitName]
    simp only [reduceIte, List.cons.injEq, Char.reduceEq, false_and, and_false, true_and]
    rw [ethernet_json (h c rfl)]

theorem cmis_json {c : ConnectorType} {s : U8} {ds : List (U8 × CmisDatapath)} (hs : BMap.Sorted u8Lt ds)
    (h : ∀ p ∈ ds, BMap.Sorted u8Lt p.2.laneStatus) : Datapath.ofJson (Datapath.toJson (.cmis c s ds)) = some (.cmis c s ds) := by
  simp only [Datapath.toJson, Datapath.ofJson, untag, tagged, fields, bind, Option.bind, pure, reduceIte]
  rw [required_one (v := ofBf c) (by rfl), required_one (v := ofU8 s) (by rfl),
    required_one (v := ofMap CmisDatapath.toJson ds) (by rfl), bf_json (by simp [codeTables]), toU8_ofU8,
    toMap_ofMap hs fun p hp => cmisDatapath_json (h p hp)]

theorem sff_json {c : ConnectorType} {s : SffComplianceCode} {ls : List Sff8636Datapath} (hl : ls.length = 4)
    (h : ∀ e, s = .ethernet e → ∃ k, k < 7 ∧ e.code = (1 : U8) <<< k) :
    Datapath.ofJson (Datapath.toJson (.sff8636 c s ls)) = some (.sff8636 c s ls) := by
  simp only [Datapath.toJson, Datapath.ofJson, untag, tagged, fields, bind, Option.bind, pure, reduceIte, List.cons.injEq,
    Char.reduceEq, false_and, and_false]
  rw [required_one (v := ofBf c) (by rfl), required_one (v := s.toJson) (by rfl),
    required_one (v := ofList Sff8636Datapath.toJson ls) (by rfl), bf_json (by simp [codeTables]), sffCode_json h]
  unfold toArray
  rw [toList_ofList fun d _ => sffDatapath_json d]
  simp [bind, Option.bind, hl]

/-! ## Monitors -/

theorem number_json {x : Rat} (h : Measured x) : toF32 (ofF32 x) = some x := toF32_ofF32 h
theorem number_ne (x : Rat) : ofF32 x ≠ .null := by simp [ofF32]

/-- The numbers in a value. -/
def ReceiverPower.Measured : ReceiverPower → Prop
  | .average x | .peakToPeak x => Xcvr.Measured x
def Aux1Monitor.Measured : Aux1Monitor → Prop
  | .custom _ => True
  | .tecCurrent x => Xcvr.Measured x
def Aux2Monitor.Measured : Aux2Monitor → Prop
  | .laserTemperature x | .tecCurrent x => Xcvr.Measured x
def Aux3Monitor.Measured : Aux3Monitor → Prop
  | .laserTemperature x | .additionalSupplyVoltage x => Xcvr.Measured x
def AuxMonitors.Measured (a : AuxMonitors) : Prop :=
  (∀ x ∈ a.aux1, x.Measured) ∧ (∀ x ∈ a.aux2, x.Measured) ∧ (∀ x ∈ a.aux3, x.Measured)
def Monitors.Measured (m : Monitors) : Prop :=
  (∀ x ∈ m.temperature, Xcvr.Measured x) ∧ (∀ x ∈ m.supplyVoltage, Xcvr.Measured x) ∧
  (∀ l ∈ m.receiverPower, ∀ x ∈ l, x.Measured) ∧ (∀ l ∈ m.transmitterBiasCurrent, ∀ x ∈ l, Xcvr.Measured x) ∧
  (∀ l ∈ m.transmitterPower, ∀ x ∈ l, Xcvr.Measured x) ∧ ∀ a ∈ m.auxMonitors, a.Measured

theorem receiverPower_json {p : ReceiverPower} (h : p.Measured) : ReceiverPower.ofJson p.toJson = some p := by
  cases p <;> simp only [ReceiverPower.Measured] at h <;>
    simp [ReceiverPower.toJson, ReceiverPower.ofJson, untag, tagged, number_json h]
theorem aux1_json {p : Aux1Monitor} (h : p.Measured) : Aux1Monitor.ofJson p.toJson = some p := by
  cases p with
  | custom b => simp [Aux1Monitor.toJson, Aux1Monitor.ofJson, untag, tagged, toPair_ofPair]
  | tecCurrent x =>
    simp only [Aux1Monitor.Measured] at h
    simp [Aux1Monitor.toJson, Aux1Monitor.ofJson, untag, tagged, number_json h]
theorem aux2_json {p : Aux2Monitor} (h : p.Measured) : Aux2Monitor.ofJson p.toJson = some p := by
  cases p <;> simp only [Aux2Monitor.Measured] at h <;>
    simp [Aux2Monitor.toJson, Aux2Monitor.ofJson, untag, tagged, number_json h]
theorem aux3_json {p : Aux3Monitor} (h : p.Measured) : Aux3Monitor.ofJson p.toJson = some p := by
  cases p <;> simp only [Aux3Monitor.Measured] at h <;>
    simp [Aux3Monitor.toJson, Aux3Monitor.ofJson, untag, tagged, number_json h]

theorem aux_json {a : AuxMonitors} (h : a.Measured) : AuxMonitors.ofJson a.toJson = some a := by
  unfold AuxMonitors.ofJson AuxMonitors.toJson
  simp only [someFields, bind, Option.bind, pure]
  rw [optional_skip (w := Aux1Monitor.toJson) (o := a.aux1) (by simp [List.filter_append, filter_skipNone])
      (fun x => by cases x <;> simp [Aux1Monitor.toJson, tagged]) (fun x hx => aux1_json (h.1 x hx)),
    optional_skip (w := Aux2Monitor.toJson) (o := a.aux2) (by simp [List.filter_append, filter_skipNone])
      (fun x => by cases x <;> simp [Aux2Monitor.toJson, tagged]) (fun x hx => aux2_json (h.2.1 x hx)),
    optional_skip (w := Aux3Monitor.toJson) (o := a.aux3) (by simp [List.filter_append, filter_skipNone])
      (fun x => by cases x <;> simp [Aux3Monitor.toJson, tagged]) (fun x hx => aux3_json (h.2.2 x hx)),
    optional_skip (w := ofPair) (o := a.custom) (by simp [List.filter_append, filter_skipNone])
      (fun x => by simp [ofPair]) (fun x _ => toPair_ofPair x)]

theorem monitors_json {m : Monitors} (h : m.Measured) : Monitors.ofJson m.toJson = some m := by
  obtain ⟨h1, h2, h3, h4, h5, h6⟩ := h
  unfold Monitors.ofJson Monitors.toJson
  simp only [someFields, bind, Option.bind, pure]
  rw [optional_skip (w := ofF32) (o := m.temperature) (by simp [List.filter_append, filter_skipNone])
      number_ne (fun x hx => number_json (h1 x hx)),
    optional_skip (w := ofF32) (o := m.supplyVoltage) (by simp [List.filter_append, filter_skipNone])
      number_ne (fun x hx => number_json (h2 x hx)),
    optional_skip (w := ofList ReceiverPower.toJson) (o := m.receiverPower) (by simp [List.filter_append, filter_skipNone])
      (fun x => by simp [ofList]) (fun l hl => toList_ofList fun x hx => receiverPower_json (h3 l hl x hx)),
    optional_skip (w := ofList ofF32) (o := m.transmitterBiasCurrent) (by simp [List.filter_append, filter_skipNone])
      (fun x => by simp [ofList]) (fun l hl => toList_ofList fun x hx => number_json (h4 l hl x hx)),
    optional_skip (w := ofList ofF32) (o := m.transmitterPower) (by simp [List.filter_append, filter_skipNone])
      (fun x => by simp [ofList]) (fun l hl => toList_ofList fun x hx => number_json (h5 l hl x hx)),
    optional_skip (w := AuxMonitors.toJson) (o := m.auxMonitors) (by simp [List.filter_append, filter_skipNone])
      (fun x => by simp [AuxMonitors.toJson]) (fun a ha => aux_json (h6 a ha))]

/-! ## Power and status -/

theorem powerState_json (p : PowerState) : PowerState.ofJson p.toJson = some p := by cases p <;> rfl
theorem powerMode_json (p : PowerMode) : PowerMode.ofJson p.toJson = some p := by
  unfold PowerMode.ofJson PowerMode.toJson
  simp only [fields, bind, Option.bind, pure]
  rw [required_one (v := p.state.toJson) (by rfl), optional_one (v := ofOption .bool p.softwareOverride) (by rfl),
    powerState_json, optBool]
theorem ledState_json (s : LedState) : LedState.ofJson s.toJson = some s := by cases s <;> rfl
theorem status_json (s : Controller.Status) : Status.ofJson (Status.toJson s) = some s := toU8_ofU8 s
theorem extendedStatus_json (s : U32) :
    ExtendedStatus.ofJson (ExtendedStatus.toJson s) = some (s &&& Controller.extendedStatusFlags) := by
  have := s.isLt
  unfold ExtendedStatus.ofJson ExtendedStatus.toJson
  dsimp only
  rw [if_pos (by omega)]
  simp

/-! ## What the decoders return -/

/-- Every result satisfies `P`. -/
def Exec.All {ε α : Type} (P : α → Prop) : Exec ε α → Prop
  | .ok a => P a
  | _ => True

theorem Exec.all_bind {ε α β : Type} {P : β → Prop} {Q : α → Prop} {x : Exec ε α} {f : α → Exec ε β} (hx : Exec.All Q x)
    (hf : ∀ a, Q a → Exec.All P (f a)) : Exec.All P (x >>= f) := by
  cases x with
  | ok a => exact hf a hx
  | err e => exact True.intro
  | panic => exact True.intro

theorem Exec.all_next {ε α β : Type} {P : β → Prop} {x : Exec ε α} {f : α → Exec ε β} (hf : ∀ a, Exec.All P (f a)) :
    Exec.All P (x >>= f) := by
  cases x with
  | ok a => exact hf a
  | err e => exact True.intro
  | panic => exact True.intro

theorem Exec.all_foldlM {ε α β : Type} {P : β → Prop} {f : β → α → Exec ε β} (hf : ∀ b a, P b → Exec.All P (f b a)) :
    ∀ (l : List α) (b : β), P b → Exec.All P (l.foldlM f b)
  | [], _, h => h
  | a :: l, b, h => by
    rw [List.foldlM_cons]
    exact Exec.all_bind (hf b a h) fun b' h' => Exec.all_foldlM hf l b' h'

namespace Monitors

theorem all_whenAt {β : Type} {P : β → Prop} {c : Bool} {b : Bytes} {i : Nat} {f : U8 × U8 → β} (h : ∀ p, P (f p)) :
    Exec.All (fun o : Option β => ∀ x ∈ o, P x) (whenAt c b i f) := by
  unfold whenAt
  split
  · refine Exec.all_next fun p => ?_
    rintro x ⟨rfl⟩
    exact h p
  · rintro x ⟨⟩

theorem rxPower_measured (c : Bool) (b : U8 × U8) : (rxPower c b).Measured := by
  unfold rxPower; split <;> exact measured_power b

theorem some_map {α β : Type} {P : β → Prop} {f : α → β} (h : ∀ a, P (f a)) {c : Prop} [Decidable c] {l : List α} :
    ∀ l' ∈ (if c then some (l.map f) else none), ∀ x ∈ l', P x := by
  split
  · rintro l' ⟨rfl⟩ x hx
    obtain ⟨a, _, rfl⟩ := List.mem_map.1 hx
    exact h a
  · rintro l' ⟨⟩

theorem parseSff_measured (rs : List Bytes) : Exec.All Monitors.Measured (parseSff rs) := by
  unfold parseSff
  refine Exec.all_next fun _ => Exec.all_next fun _ => Exec.all_next fun _ => Exec.all_next fun _ => Exec.all_next fun _ => ?_
  dsimp only
  have htemp : ∀ p, ∀ x ∈ decodeTemperatureIfReasonable p, Xcvr.Measured x := by
    intro p x hx
    unfold decodeTemperatureIfReasonable at hx
    split at hx
    · cases hx
    · cases hx; exact measured_temperature p
  have hvolt : ∀ p, ∀ x ∈ decodeVoltageIfReasonable p, Xcvr.Measured x := by
    intro p x hx
    unfold decodeVoltageIfReasonable at hx
    split at hx
    · cases hx
    · cases hx; exact measured_volts p
  have hrx : ∀ (c : Bool) (b : Bytes), ∀ l ∈ some ((pairs b).map (rxPower c)), ∀ x ∈ l, x.Measured := by
    rintro c b l ⟨rfl⟩ x hx
    obtain ⟨b, _, rfl⟩ := List.mem_map.1 hx
    exact rxPower_measured _ b
  split
  · refine Exec.all_bind (Q := fun o : Option Rat => ∀ x ∈ o, Xcvr.Measured x) (Exec.all_next fun p => htemp p) fun t ht => ?_
    refine Exec.all_bind (Q := fun o : Option Rat => ∀ x ∈ o, Xcvr.Measured x) (Exec.all_next fun p => hvolt p) fun v hv => ?_
    refine Exec.all_next fun _ => Exec.all_next fun _ => Exec.all_next fun _ => ?_
    exact ⟨ht, hv, hrx _ _, some_map measured_bias_one, some_map measured_power, fun a ha => by cases ha⟩
  · refine Exec.all_bind (all_whenAt measured_temperature) fun t ht => ?_
    refine Exec.all_bind (all_whenAt measured_volts) fun v hv => ?_
    refine Exec.all_next fun _ => Exec.all_next fun _ => Exec.all_next fun _ => ?_
    exact ⟨ht, hv, hrx _ _, some_map measured_bias_one, some_map measured_power, fun a ha => by cases ha⟩

theorem all_biasScale (b : U8) : Exec.All (fun s : Rat => s = 1 ∨ s = 2 ∨ s = 4) (biasScale b) := by
  unfold biasScale
  split
  · exact Or.inl rfl
  · split
    · exact Or.inr (Or.inl rfl)
    · split
      · exact Or.inr (Or.inr rfl)
      · exact True.intro

theorem parseCmis_measured (rs : List Bytes) : Exec.All Monitors.Measured (parseCmis rs) := by
  unfold parseCmis
  refine Exec.all_next fun _ => Exec.all_next fun _ => Exec.all_next fun _ => ?_
  refine Exec.all_bind (all_biasScale _) fun s hs => ?_
  refine Exec.all_next fun _ => Exec.all_next fun _ => Exec.all_next fun _ => Exec.all_next fun _ => ?_
  refine Exec.all_bind (all_whenAt measured_temperature) fun t ht => ?_
  refine Exec.all_bind (all_whenAt measured_volts) fun v hv => Exec.all_next fun _ => ?_
  refine Exec.all_bind (all_whenAt (P := Aux1Monitor.Measured) fun p => ?_) fun a1 h1 => ?_
  · unfold decodeAux1; split
    · exact measured_tec p
    · exact True.intro
  refine Exec.all_bind (all_whenAt (P := Aux2Monitor.Measured) fun p => ?_) fun a2 h2 => ?_
  · unfold decodeAux2; split
    · exact measured_tec p
    · exact measured_temperature p
  refine Exec.all_bind (all_whenAt (P := Aux3Monitor.Measured) fun p => ?_) fun a3 h3 => ?_
  · unfold decodeAux3; split
    · exact measured_volts p
    · exact measured_temperature p
  refine Exec.all_next fun _ => Exec.all_next fun _ => Exec.all_next fun _ => Exec.all_next fun _ => Exec.all_next fun _ =>
    Exec.all_next fun _ => Exec.all_next fun _ => ?_
  refine ⟨ht, hv, some_map (rxPower_measured _), some_map fun b => measured_bias b hs, some_map measured_power, ?_⟩
  dsimp only
  split
  · rintro a ⟨rfl⟩; exact ⟨h1, h2, h3⟩
  · rintro a ⟨⟩

theorem parse_measured {id : Identifier} {rs : List Bytes} {m : Monitors} (h : parse id rs = .ok m) : m.Measured := by
  have : Exec.All Monitors.Measured (parse id rs) := by
    unfold parse Decode.byKind
    split
    · exact parseSff_measured rs
    · split
      · exact parseCmis_measured rs
      · exact True.intro
  rw [h] at this
  exact this

end Monitors

namespace Datapath

/-- The maps of a datapath are in order, and an SFF-8636 module has four lanes. -/
def Proper : Datapath → Prop
  | .cmis _ _ ds => BMap.Sorted u8Lt ds ∧ ∀ p ∈ ds, BMap.Sorted u8Lt p.2.laneStatus
  | .sff8636 _ _ ls => ls.length = 4

theorem addLane_proper (r : LaneReads) (k : U8) (app : ApplicationDescriptor) (dps : List (U8 × CmisDatapath)) (lane : U8)
    (h : BMap.Sorted u8Lt dps ∧ ∀ p ∈ dps, BMap.Sorted u8Lt p.2.laneStatus) :
    Exec.All (fun ds => BMap.Sorted u8Lt ds ∧ ∀ p ∈ ds, BMap.Sorted u8Lt p.2.laneStatus) (addLane r k app dps lane) := by
  unfold addLane
  refine Exec.all_next fun st => ?_
  have hs := BMap.upsert_sorted u8Lt_strict h.1 k
    (fun e => let dp := e.getD ⟨app, []⟩; { dp with laneStatus := BMap.upsert u8Lt (1 + lane) (fun _ => st) dp.laneStatus })
  refine ⟨hs, fun p hp => ?_⟩
  obtain ⟨k', v⟩ := p
  have hg := BMap.get?_of_mem u8Lt_strict hs hp
  rw [BMap.get?_upsert u8Lt_strict h.1] at hg
  split at hg
  · cases hg
    refine BMap.upsert_sorted u8Lt_strict ?_ _ _
    cases hd : BMap.get? dps k with
    | none => exact List.Pairwise.nil
    | some d => exact h.2 _ (BMap.mem_of_get? hd)
  · exact h.2 _ (BMap.mem_of_get? hg)

theorem parse_proper {id : Identifier} {rs : List Bytes} {d : Datapath} (h : parse id rs = .ok d) : d.Proper := by
  have : Exec.All Proper (parse id rs) := by
    unfold parse Decode.byKind
    split
    · unfold parseSff
      iterate 13 refine Exec.all_next fun _ => ?_
      refine Exec.all_bind (Q := fun ls : List Sff8636Datapath => ls.length = 4) ?_ fun ls hl => hl
      generalize hx : List.mapM (m := Exec DecodeError) (β := Sff8636Datapath) _ _ = x
      cases x with
      | ok ls => exact mapM_length hx
      | err e => exact True.intro
      | panic => exact True.intro
    · split
      · unfold parseCmis
        iterate 22 refine Exec.all_next fun _ => ?_
        refine Exec.all_bind (Q := fun ds : List (U8 × CmisDatapath) => BMap.Sorted u8Lt ds ∧ ∀ p ∈ ds, BMap.Sorted u8Lt p.2.laneStatus) ?_
          fun ds hd => hd
        refine Exec.all_foldlM (fun b a hb => Exec.all_foldlM (fun b' a' hb' => addLane_proper _ _ _ _ _ hb') _ _ hb) _ _ ?_
        exact ⟨List.Pairwise.nil, fun p hp => by cases hp⟩
      · exact True.intro
  rw [h] at this
  exact this

end Datapath

end Xcvr
