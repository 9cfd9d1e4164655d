import Verif.Lemmas.Parse
import Verif.Lemmas.Bench
import Verif.Props.Decode

/-! # Decoded module information: C41, C42 -/

namespace Xcvr

open Spec Prog Controller

variable {P : Type}

/-- No read of the decoder is empty. -/
def Spec.NonemptyReads (d : ModuleDecoder P) : Prop := ∀ id rds, d.reads id = .ok rds → ∀ rd ∈ rds, rd.len ≠ 0

/-! ## C41 -/

/-- How an operation that decodes module information may end, given the exchanges that identified the modules and the
later ones. -/
def Spec.InfoEnds (d : ModuleDecoder P) (m : ModuleId) (t₁ t₂ : List Exchange) : Exec CtlError (Res P) → Prop
  | .ok res => Decoded d m t₁ t₂ res
  | .err e => ∃ p b e', Identified t₁ p b ∧ d.reads (Bf.ofByte b) = .err e' ∧ e = .transceiver (.decode e')
  | .panic => ∃ p b, Identified t₁ p b ∧ (d.reads (Bf.ofByte b) = .panic ∨
      ∃ rds ds, d.reads (Bf.ofByte b) = .ok rds ∧ DataOf t₂ p rds ds ∧ d.parse (Bf.ofByte b) ds = .panic)

/-- **C41**: the operation first identifies the modules. If it returns, every module is reported once, as a success with
the value decoded from its own bytes or as a failure that did occur. Otherwise some module identified itself as a kind the
decoder does not support, or decoding some module's own bytes aborts. -/
theorem C41_attributed (d : ModuleDecoder P) (hd : NonemptyReads d) (m : ModuleId) (t : List Exchange)
    (o : Exec CtlError (Res P)) (h : Runs (parseModulesByIdentifier d m) t o) (hc : Conforming t) :
    ∃ t₁ t₂, t = t₁ ++ t₂ ∧ ReadsOf m identifierByte t₁ ∧ InfoEnds d m t₁ t₂ o := by
  obtain ⟨t₁, t₂, ht, hr, ⟨res, rfl, hdec, -⟩ | ⟨p, b, e, rfl, hi, he⟩ | ⟨rfl, h'⟩⟩ := parse_spec hd h hc
  · exact ⟨t₁, t₂, ht, hr, hdec⟩
  · exact ⟨t₁, t₂, ht, hr, p, b, e, hi, he, rfl⟩
  · exact ⟨t₁, t₂, ht, hr, h'⟩

theorem nonempty_of_legal {isSff : Bool} {r : Exec DecodeError (List MemoryRead)} (h : LegalReads isSff r)
    {rds : List MemoryRead} (hr : r = .ok rds) {rd : MemoryRead} (hrd : rd ∈ rds) : rd.len ≠ 0 := by
  subst hr
  intro h0
  have := (h.2 rd hrd).1.1
  rw [h0] at this
  simp at this

theorem nonemptyReads_of {d : ModuleDecoder P} (h1 : ∀ id, SffModule id → LegalReads true (d.reads id))
    (h2 : ∀ id, CmisModule id → LegalReads false (d.reads id))
    (h3 : ∀ id, ¬ SffModule id → ¬ CmisModule id → d.reads id = .err (.unsupportedIdentifier id)) : NonemptyReads d := by
  intro id rds hr rd hrd
  by_cases hs : SffModule id
  · exact nonempty_of_legal (h1 id hs) hr hrd
  · by_cases hc : CmisModule id
    · exact nonempty_of_legal (h2 id hc) hr hrd
    · rw [h3 id hs hc] at hr
      cases hr

/-- All decoders meet the hypothesis of `C41_attributed`. -/
theorem C41_decoders : NonemptyReads PowerControl.decoder ∧ NonemptyReads VendorInfo.decoder ∧
    NonemptyReads MemoryModel.decoder ∧ NonemptyReads Monitors.decoder ∧ NonemptyReads Datapath.decoder :=
  ⟨nonemptyReads_of (fun _ h => (C54_sff h).1) (fun _ h => (C54_cmis h).1) fun _ h h' => (C54_refused h h' []).1,
   nonemptyReads_of (fun _ h => (C54_sff h).2.1) (fun _ h => (C54_cmis h).2.1) fun _ h h' => (C54_refused h h' []).2.2.1,
   nonemptyReads_of (fun _ h => (C54_sff h).2.2.1) (fun _ h => (C54_cmis h).2.2.1) fun _ h h' =>
     (C54_refused h h' []).2.2.2.2.1,
   nonemptyReads_of (fun _ h => (C54_sff h).2.2.2.1) (fun _ h => (C54_cmis h).2.2.2.1) fun _ h h' =>
     (C54_refused h h' []).2.2.2.2.2.2.1,
   nonemptyReads_of (fun _ h => (C54_sff h).2.2.2.2) (fun _ h => (C54_cmis h).2.2.2.2) fun _ h h' =>
     (C54_refused h h' []).2.2.2.2.2.2.2.2.1⟩

/-- The SP answers reads with the modules' memories. -/
def Spec.Faithful (mem : Nat → ModuleMemory) (t : List Exchange) : Prop :=
  ∀ x ∈ t, ∀ g rd p b, requestOf x = some (.read g rd) → okIn x p = some b → b = answer (mem p) rd

/-- The SP answers reads of the module in port `p` with its memory. -/
def Spec.FaithfulAt (p : Nat) (mem : ModuleMemory) (t : List Exchange) : Prop :=
  ∀ x ∈ t, ∀ g rd b, requestOf x = some (.read g rd) → okIn x p = some b → b = answer mem rd

theorem faithful_at {mem : Nat → ModuleMemory} {t : List Exchange} (h : Faithful mem t) (p : Nat) :
    FaithfulAt p (mem p) t := fun x hx g rd b => h x hx g rd p b

/-- The identifier of a module: byte 0 of its lower page. -/
def Spec.idOf (mem : ModuleMemory) : Identifier := Bf.ofByte (mem (.sff8636 .lower) 0)

theorem identified_mem {p : Nat} {mem : ModuleMemory} {t : List Exchange} (hf : FaithfulAt p mem t) {m : ModuleId}
    (hr : ReadsOf m identifierByte t) {b : U8} (h : Identified t p b) : Bf.ofByte b = idOf mem := by
  unfold Identified okAmong at h
  obtain ⟨x, hx, h⟩ := List.exists_of_findSome?_eq_some h
  obtain ⟨g, hg⟩ := requestOf_readsOf hr hx
  have := hf x hx g _ _ hg h
  rw [show answer mem identifierByte = [mem (.sff8636 .lower) 0] from rfl] at this
  simp only [List.cons.injEq, and_true] at this
  unfold idOf
  rw [this]

theorem dataOf_mem {p : Nat} {mem : ModuleMemory} {t : List Exchange} (hf : FaithfulAt p mem t)
    {rds : List MemoryRead} {ds : List Bytes} (h : DataOf t p rds ds) : ds = rds.map (answer mem) := by
  unfold DataOf at h
  induction h with
  | nil => rfl
  | cons h _ ih =>
    obtain ⟨x, hx, g, h1, h2⟩ := h
    rw [List.map_cons, hf x hx g _ _ h1 h2, ih]

theorem yields_mem {p : Nat} {mem : ModuleMemory} {t : List Exchange} (hf : FaithfulAt p mem t) {d : ModuleDecoder P}
    {id : Identifier} {v : P} (h : Yields d t id p (.ok v)) : decodeFrom d id mem = .ok v := by
  obtain ⟨rds, ds, h1, h2, h3⟩ := h
  unfold decodeFrom
  rw [h1, ← h3, dataOf_mem hf h2]
  rfl

/-- **C41** for one module, in terms of its memory. -/
theorem C41_module (d : ModuleDecoder P) (hd : NonemptyReads d) (m : ModuleId) (t : List Exchange) (res : Res P)
    (h : Runs (parseModulesByIdentifier d m) t (.ok res)) (hc : Conforming t) (p : Nat) (mem : ModuleMemory)
    (hf : FaithfulAt p mem t) (hp : Mem res.modules p) :
    ∃ v, okAt res p = some v ∧ decodeFrom d (idOf mem) mem = .ok v := by
  obtain ⟨t₁, t₂, rfl, hr, h⟩ := C41_attributed d hd m t _ h hc
  have hf1 : FaithfulAt p mem t₁ := fun x hx => hf x (List.mem_append_left _ hx)
  have hf2 : FaithfulAt p mem t₂ := fun x hx => hf x (List.mem_append_right _ hx)
  obtain ⟨v, hv⟩ := Option.isSome_iff_exists.1 ((datum_isSome h.wf.1).2 hp)
  obtain ⟨b, hb, hy⟩ := h.ok p v hv
  rw [identified_mem hf1 hr hb] at hy
  exact ⟨v, hv, yields_mem hf2 hy⟩

/-- **C41** in terms of the modules' memories: if the SP answers reads with the memories of the modules, each reported
value is the decoding of that module's memory. -/
theorem C41_memory (d : ModuleDecoder P) (hd : NonemptyReads d) (m : ModuleId) (t : List Exchange)
    (o : Exec CtlError (Res P)) (h : Runs (parseModulesByIdentifier d m) t o) (hc : Conforming t)
    (mem : Nat → ModuleMemory) (hf : Faithful mem t) :
    (∀ res, o = .ok res → Partition m res.modules res.failures.modules ∧
      ∀ p, Mem res.modules p → ∃ v, okAt res p = some v ∧ decodeFrom d (idOf (mem p)) (mem p) = .ok v) ∧
    (o = .panic → ∃ p, decodeFrom d (idOf (mem p)) (mem p) = .panic) := by
  have hrun := h
  obtain ⟨t₁, t₂, rfl, hr, h⟩ := C41_attributed d hd m t o h hc
  have hf1 : Faithful mem t₁ := fun x hx => hf x (List.mem_append_left _ hx)
  have hf2 : Faithful mem t₂ := fun x hx => hf x (List.mem_append_right _ hx)
  refine ⟨?_, ?_⟩
  · rintro res rfl
    exact ⟨h.split, fun p hp => C41_module d hd m _ res hrun hc p (mem p) (faithful_at hf p) hp⟩
  · rintro rfl
    obtain ⟨p, b, hb, h⟩ := h
    rw [identified_mem (faithful_at hf1 p) hr hb] at h
    refine ⟨p, ?_⟩
    unfold decodeFrom
    rcases h with h | ⟨rds, ds, h1, h2, h3⟩
    · rw [h]; rfl
    · rw [h1]
      show d.parse _ _ = _
      rw [← dataOf_mem (faithful_at hf2 p) h2, h3]

/-- The three supported kinds of outcome of identification. -/
theorem decodeFrom_unsupported {d : ModuleDecoder P} {id : Identifier} {e : DecodeError} (h : d.reads id = .err e)
    (mem : ModuleMemory) : decodeFrom d id mem = .err e := by
  unfold decodeFrom
  rw [h]; rfl

/-- Vendor information and power control never abort, whatever the memories hold. -/
theorem C41_no_abort (m : ModuleId) (t : List Exchange) (hc : Conforming t) (mem : Nat → ModuleMemory)
    (hf : Faithful mem t) :
    ¬ Runs (vendorInfo m) t .panic ∧ ¬ Runs (powerControl m) t .panic := by
  have key : ∀ {P : Type} (d : ModuleDecoder P), NonemptyReads d →
      (∀ id mem, SffModule id → ∃ x, decodeFrom d id mem = .ok x) →
      (∀ id mem, CmisModule id → ∃ x, decodeFrom d id mem = .ok x) →
      (∀ id, ¬ SffModule id → ¬ CmisModule id → d.reads id = .err (.unsupportedIdentifier id)) →
      ¬ Runs (parseModulesByIdentifier d m) t .panic := by
    intro P d hd h1 h2 h3 h
    obtain ⟨p, hp⟩ := (C41_memory d hd m t _ h hc mem hf).2 rfl
    by_cases hs : SffModule (idOf (mem p))
    · obtain ⟨x, hx⟩ := h1 _ (mem p) hs
      rw [hx] at hp; cases hp
    · by_cases hs' : CmisModule (idOf (mem p))
      · obtain ⟨x, hx⟩ := h2 _ (mem p) hs'
        rw [hx] at hp; cases hp
      · rw [decodeFrom_unsupported (h3 _ hs hs')] at hp
        cases hp
  exact ⟨key _ C41_decoders.2.1 (fun _ mem h => (C53_sff h mem).2.1) (fun _ mem h => (C53_cmis_partial h mem).2.1)
      fun _ h h' => (C54_refused h h' []).2.2.1,
    key _ C41_decoders.1 (fun _ mem h => (C53_sff h mem).1) (fun _ mem h => (C53_cmis_partial h mem).1)
      fun _ h h' => (C54_refused h h' []).1⟩

/-- A made-up SP: modules 0 and 2 are CMIS, 1 and 3 are SFF-8636. Module 0 is overridden to low power; module 3 fails its
read; module 4 does not identify itself. -/
def infoBench : Bench where
  failing _ q := match q with
    | .read _ rd => if rd.offset = 0 then ⟨0b10000⟩ else ⟨0b1000⟩
    | _ => ModuleId.empty
  memory _ i rd _ := if rd.offset = 0 then (if i = 0 ∨ i = 2 then 0x18 else 0x11) else if i = 2 then 0x40 else 0x13

example : ((powerControl ⟨0b11111⟩).exec infoBench.sp []).2 =
    .ok ⟨⟨0b111⟩, [.overrideLpModePin true, .overrideLpModePin true, .useLpModePin],
      ⟨⟨0b11000⟩, [.hardware 4 .disabledBySp none, .hardware 3 .disabledBySp none]⟩⟩ := by
  decide +kernel

/-! ## C42 -/

/-- The property is false. Module 3 (in the run above) fails its read and module 4 its identification, but the error of
module 4 is listed for module 3. -/
theorem C42_counterexample : ∃ res, ((powerControl ⟨0b11111⟩).exec infoBench.sp []).2 = .ok res ∧
    errAt res 3 = some (.hardware 4 .disabledBySp none) ∧ errAt res 4 = some (.hardware 3 .disabledBySp none) :=
  ⟨⟨⟨0b111⟩, [.overrideLpModePin true, .overrideLpModePin true, .useLpModePin],
      ⟨⟨0b11000⟩, [.hardware 4 .disabledBySp none, .hardware 3 .disabledBySp none]⟩⟩, by decide +kernel, rfl, rfl⟩

theorem hardware_own {x : Exchange} {p : Nat} {i : U8} {e : HwError} {u : Option Unknowns} {t : List Exchange}
    (h : errAmong t p = some (.hardware i e u) ∨ errIn x p = some (.hardware i e u)) : i = BitVec.ofNat 8 p := by
  have key : ∀ x : Exchange, errIn x p = some (.hardware i e u) → i = BitVec.ofNat 8 p := by
    intro x h
    unfold errIn at h
    split at h
    · rename_i R d _
      cases hc : errorCode R d p with
      | none => rw [hc] at h; cases h
      | some b =>
        rw [hc, Option.map_some, Option.some.injEq] at h
        unfold hardwareError at h
        exact (TransceiverError.hardware.inj h).1.symm
    · cases h
  rcases h with h | h
  · unfold errAmong at h
    obtain ⟨x, -, h⟩ := List.exists_of_findSome?_eq_some h
    exact key x h
  · exact key x h

/-- A hardware error names the module it belongs to. -/
theorem ownError_hardware {d : ModuleDecoder P} {t₁ t₂ : List Exchange} {p : Nat} {i : U8} {e : HwError}
    {u : Option Unknowns} (h : OwnError d t₁ t₂ p (.hardware i e u)) : i = BitVec.ofNat 8 p := by
  rcases h with h | ⟨b, -, rds, -, ⟨rd, -, x, -, g, -, h⟩ | ⟨ds, e', -, -, h⟩⟩
  · exact hardware_own (x := (Call.host .macAddrs, .gone)) (.inl h)
  · exact hardware_own (t := []) (.inr h)
  · cases h

theorem C42_false : ¬ ∀ (m : ModuleId) (t : List Exchange) (res : Res PowerControl),
    Runs (powerControl m) t (.ok res) → Conforming t →
    ∃ t₁ t₂, t = t₁ ++ t₂ ∧ ∀ p e, errAt res p = some e → OwnError PowerControl.decoder t₁ t₂ p e := by
  intro h
  obtain ⟨res, h1, h2, -⟩ := C42_counterexample
  have hr := Bench.exec_runs infoBench (powerControl ⟨0b11111⟩)
  rw [h1] at hr
  obtain ⟨t₁, t₂, -, h3⟩ := h _ _ _ hr (infoBench.exec_conforming (allCalls_parse _ _ fun _ _ => ⟨_, _, rfl⟩) [])
  have := ownError_hardware (h3 3 _ h2)
  exact absurd this (by decide)

/-- **C42**, what holds: the errors are the failed modules' own errors, listed in the order in which the modules were
worked on; a module's own error is listed for it if that order is the order of the ports. -/
theorem C42_partial (d : ModuleDecoder P) (hd : NonemptyReads d) (m : ModuleId) (t : List Exchange) (res : Res P)
    (h : Runs (parseModulesByIdentifier d m) t (.ok res)) (hc : Conforming t) :
    ∃ t₁ t₂, t = t₁ ++ t₂ ∧ ReadsOf m identifierByte t₁ ∧
      (∃ order : List U8, order.Nodup ∧ (∀ i, i ∈ order ↔ Failed res i.toNat) ∧
        order.Pairwise (fun i j => Before t₁ i.toNat j.toNat) ∧
        Pairs (fun i e => OwnError d t₁ t₂ i.toNat e) order res.failures.errors) ∧
      ((∀ p q, Failed res p → Failed res q → p < q → Before t₁ p q) →
        ∀ p e, errAt res p = some e → OwnError d t₁ t₂ p e) := by
  obtain ⟨t₁, t₂, ht, hr, ⟨res', h1, hdec, order, ho1, ho2, ho3, ho4⟩ | ⟨_, _, _, h1, -⟩ | ⟨h1, -⟩⟩ := parse_spec hd h hc
  · simp only [Exec.ok.injEq] at h1
    subst h1
    refine ⟨t₁, t₂, ht, hr, ⟨order, ho1, ho2, ho3, ho4⟩, fun hord p e he => ?_⟩
    have hasym : ∀ p q, Before t₁ p q → ¬ Before t₁ q p := by
      intro p q
      unfold Before
      cases okAmong t₁ p <;> cases okAmong t₁ q <;> simp
      · omega
      · rename_i a b
        intro h1
        by_cases hab : a = b
        · subst hab; simp at h1 ⊢; omega
        · simp [hab, Ne.symm hab] at h1 ⊢; omega
    have hsort : order.Pairwise (· < ·) := by
      have h2 : order.Pairwise (fun i j => i ≠ j ∧ Before t₁ i.toNat j.toNat) := ho1.and ho3
      refine h2.imp_of_mem ?_
      rintro i j hi hj ⟨hne, hb⟩
      rw [BitVec.lt_def]
      apply Classical.byContradiction
      intro hn
      have : j.toNat < i.toNat := by
        have : i.toNat ≠ j.toNat := fun h => hne (BitVec.toNat_inj.1 h)
        omega
      exact hasym _ _ hb (hord _ _ ((ho2 j).1 hj) ((ho2 i).1 hi) this)
    rw [eq_toIndices hsort ho2] at ho4
    have hpp := ofNat_toNat_lt (datum_lt he)
    have := (zip_of_pairs ho4).2 (BitVec.ofNat 8 p, e) (mem_zip_iff_datum.2 (by rw [hpp]; exact he))
    dsimp only at this
    rw [hpp] at this
    exact this
  · cases h1
  · cases h1

/-- In particular if the modules that failed gave the same identifier, or all failed to identify themselves; so also if
only one module failed. -/
theorem C42_same_kind_partial (d : ModuleDecoder P) (hd : NonemptyReads d) (m : ModuleId) (t : List Exchange) (res : Res P)
    (h : Runs (parseModulesByIdentifier d m) t (.ok res)) (hc : Conforming t) :
    ∃ t₁ t₂, t = t₁ ++ t₂ ∧ ReadsOf m identifierByte t₁ ∧
      ((∀ p q, Failed res p → Failed res q → okAmong t₁ p = okAmong t₁ q) →
        ∀ p e, errAt res p = some e → OwnError d t₁ t₂ p e) := by
  obtain ⟨t₁, t₂, ht, hr, -, h2⟩ := C42_partial d hd m t res h hc
  refine ⟨t₁, t₂, ht, hr, fun hs => h2 fun p q hp hq hlt => ?_⟩
  unfold Before
  rw [hs p q hp hq]
  cases okAmong t₁ q
  · exact hlt
  · exact .inr ⟨rfl, hlt⟩

/-- Two modules of one kind that fail: the errors are right. -/
example : ∃ res, ((powerControl ⟨0b1010⟩).exec
      ({ failing := fun _ q => match q with | .read _ rd => if rd.offset = 0 then ⟨0⟩ else ⟨0b1010⟩ | _ => ⟨0⟩
         memory := fun _ _ _ _ => 0x11 } : Bench).sp []).2 = .ok res ∧
    errAt res 1 = some (.hardware 1 .disabledBySp none) ∧ errAt res 3 = some (.hardware 3 .disabledBySp none) :=
  ⟨⟨⟨0⟩, [], ⟨⟨0b1010⟩, [.hardware 1 .disabledBySp none, .hardware 3 .disabledBySp none]⟩⟩, by decide +kernel, rfl, rfl⟩

end Xcvr
