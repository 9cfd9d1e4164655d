import Verif.Lemmas.Ops
import Verif.Props.Wire
import Verif.Model.IoLoop
import Verif.Model.Ids

/-!
# C32-C40: what the controller sends and what it makes of the answers

`Runs p t o`: the method `p` can make the exchanges `t` and end with `o`. `Conforming t`: the SP answered properly.
`Bench` is an SP made up for the examples; any program can be run against it.
-/

namespace Xcvr

open Spec Prog

/-! ## C32 -/

theorem numberCalls_getElem (c : U64) (calls : List Call) (i : Nat) (h : i < calls.length) :
    (numberCalls c calls)[i]? =
      some ⟨Header.new (c + BitVec.ofNat 64 i) calls[i].kind, calls[i].message, calls[i].data⟩ := by
  induction calls generalizing c i with
  | nil => simp at h
  | cons x calls ih =>
    cases i with
    | zero => simp [numberCalls, nextHeader]
    | succ i =>
      have := ih (c + 1) i (by simpa using h)
      simp only [numberCalls, nextHeader, List.getElem?_cons_succ, this, List.getElem_cons_succ, Option.some.injEq,
        HostRpcRequest.mk.injEq, and_true, Header.new, Header.mk.injEq, true_and]
      apply BitVec.eq_of_toNat_eq
      simp only [BitVec.toNat_add, BitVec.toNat_ofNat]
      have h1 : (1 : BitVec 64).toNat = 1 := rfl
      omega

theorem numberCalls_length (c : U64) (calls : List Call) : (numberCalls c calls).length = calls.length := by
  induction calls generalizing c with
  | nil => rfl
  | cons x calls ih => simp [numberCalls, nextHeader, ih]

/-- **C32.** The requests for up to 2^64 consecutive calls, whatever they are, have distinct message ids; each carries the
message, data and kind of its call. -/
theorem C32_distinct (counter : U64) (calls : List Call) (h : calls.length ≤ 2 ^ 64) :
    ((numberCalls counter calls).map fun r => r.header.messageId).Nodup ∧
    (numberCalls counter calls).map (fun r => (r.header.messageKind, r.message, r.data)) =
      calls.map fun c => (c.kind, c.message, c.data) := by
  constructor
  · rw [List.Nodup, List.pairwise_iff_getElem]
    intro i j hi hj hij
    rw [List.length_map, numberCalls_length] at hi hj
    have h1 := numberCalls_getElem counter calls i hi
    have h2 := numberCalls_getElem counter calls j hj
    obtain ⟨hi', h1⟩ := List.getElem?_eq_some_iff.1 h1
    obtain ⟨hj', h2⟩ := List.getElem?_eq_some_iff.1 h2
    rw [List.getElem_map, List.getElem_map, h1, h2]
    simp only [Header.new]
    intro heq
    have := congrArg BitVec.toNat heq
    simp only [BitVec.toNat_add, BitVec.toNat_ofNat] at this
    have := counter.isLt
    omega
  · apply List.ext_getElem
    · rw [List.length_map, List.length_map, numberCalls_length]
    · intro i hi hj
      rw [List.length_map] at hj
      have h1 := numberCalls_getElem counter calls i hj
      obtain ⟨hi', h1⟩ := List.getElem?_eq_some_iff.1 h1
      rw [List.getElem_map, List.getElem_map, h1]
      rfl

/-- The counter wraps around: three calls from the last id. -/
example : (numberCalls (BitVec.ofNat 64 (2 ^ 64 - 1))
    [Call.host .macAddrs, Call.host .macAddrs, Call.host .macAddrs]).map (fun r => r.header.messageId) =
    [BitVec.ofNat 64 (2 ^ 64 - 1), 0, 1] := by decide

/-! ## C33 -/

/-- **C33.** A non-empty read is split into groups that list the modules in increasing order, none empty, and a proper
answer for a group has at most 1024 bytes. -/
theorem C33_split (m : ModuleId) (rd : MemoryRead) (hlen : rd.len ≠ 0) :
    ∃ gs, Controller.splitLargeReads m rd = .ok gs ∧ Splits m gs ∧
      ∀ g ∈ gs, ∀ R data, Answers (.read g rd) R data → (data.getD []).length ≤ 1024 := by
  obtain ⟨gs, g1, g2, g3⟩ := splitLargeReads_spec m rd hlen
  have hsf := split_facts g2
  refine ⟨gs, g1, ⟨hsf.1, hsf.2, fun g hg => ?_⟩, fun g hg R data ha => ?_⟩
  · obtain ⟨i, hi⟩ := List.exists_mem_of_ne_nil _ (g3 g hg).1
    exact ⟨_, mem_toIndices.1 hi⟩
  · have hk := ha.kind
    cases R with
    | read s f rd' =>
      simp only [SameKind] at hk
      subst hk
      have hp := ha.split _ _ _ rfl rfl
      have hcard := partition_card hp
      have hsz := ha.size
      cases data with
      | none => simp
      | some d =>
        simp only [Option.map_some, expectedTrailing, Option.some.injEq] at hsz
        simp only [Option.getD_some, hsz]
        have hb := (g3 g hg).2
        have h0 : 1 ≤ rd'.len.toNat := by
          rcases Nat.eq_zero_or_pos rd'.len.toNat with h | h
          · exact absurd (BitVec.eq_of_toNat_eq h) hlen
          · exact h
        have h1 : card f ≤ card f * rd'.len.toNat := Nat.le_mul_of_pos_right _ h0
        rw [hcard, Nat.add_mul] at hb
        simp only [maxPayloadSize] at hb
        omega
    | _ => simp [SameKind] at hk

/-- 64 modules, 128 bytes each: eight groups of eight. -/
example : (match Controller.splitLargeReads ModuleId.all ⟨.sff8636 .lower, 0, 128⟩ with
    | .ok gs => gs.map fun g => g.count
    | _ => []) = [8, 8, 8, 8, 8, 8, 8, 8] := by decide +kernel

/-! ## C34, C35: reads -/

theorem read_eq {m : ModuleId} {rd : MemoryRead} (h : ¬ (m.count = 0 ∨ rd.len = 0)) :
    Controller.read m rd = (do
      let result ← Controller.identifier m
      Prog.ofExec (Controller.verifyIdsForPage rd.page result.modules result.data)
      let readResult ← Controller.readImpl result.modules rd
      return { readResult with failures := result.failures.merge readResult.failures }) := by
  unfold Controller.read
  rw [if_neg h]

theorem not_mem_of_count {m : ModuleId} (h : m.count = 0) (p : Nat) : ¬ Mem m p := by
  intro hp
  have := rank_lt_card hp
  rw [← count_eq_card, h] at this
  omega

theorem readsOf_nil {m : ModuleId} (h : m.count = 0) (rd : MemoryRead) : ReadsOf m rd [] :=
  ⟨[], ⟨fun p => by simp [not_mem_of_count h p], List.Pairwise.nil, by simp⟩, rfl⟩

/-- Reading: the modules are identified first (`t₁`); if all that answered have the page's interface, exactly those are
read (`t₂`). -/
theorem read_spec {m : ModuleId} {rd : MemoryRead} (hlen : rd.len ≠ 0) {t : List Exchange}
    {o : Exec CtlError (Res Bytes)} (h : Runs (Controller.read m rd) t o) (hc : Conforming t) :
    ∃ t₁ t₂, t = t₁ ++ t₂ ∧ ReadsOf m identifierByte t₁ ∧
      ((∃ s res, (∀ p, Mem s p ↔ (okAmong t₁ p).isSome) ∧
        (∀ p b, okAmong t₁ p = some [b] → interfaceOfCode b = some rd.page.managementInterface) ∧
        ReadsOf s rd t₂ ∧ o = .ok res ∧ ReportsLast id m t₁ t₂ res) ∨
      (∃ i b, t₂ = [] ∧
        o = .err (.transceiver (.invalidInterfaceForModule i (Bf.ofByte b) rd.page.managementInterface)) ∧
        okAmong t₁ i.toNat = some [b] ∧ interfaceOfCode b ≠ some rd.page.managementInterface ∧
        ∀ q b', q < i.toNat → okAmong t₁ q = some [b'] → interfaceOfCode b' = some rd.page.managementInterface)) := by
  by_cases h0 : m.count = 0
  · have h' := h
    unfold Controller.read at h
    have hsucc : (ModuleResult.success m [] : Option (Res Bytes)) = some ⟨m, [], .success⟩ := by
      unfold ModuleResult.success; rw [h0]; rfl
    rw [if_pos (.inl h0), hsucc] at h
    simp only [Exec.unwrap, ofExec_ok, runs_ret] at h
    obtain ⟨rfl, rfl⟩ := h
    have hno := not_mem_of_count h0
    refine ⟨[], [], rfl, readsOf_nil h0 _, .inl ⟨m, _, fun p => by simp [hno p], by simp, readsOf_nil h0 _, rfl,
      ⟨?_, ?_, ?_⟩, ?_, ?_, ?_⟩⟩
    · show _ = _
      rw [← count_eq_card]; exact h0.symm
    · show (0 : Nat) = card ModuleId.empty
      decide
    · exact fun p hp => hno p hp.1
    · intro p
      simp [FailedModules.success, mem_empty]
    · intro p; exact datum_none (hno p)
    · intro p; exact datum_none mem_empty
  · rw [read_eq (fun h => h.elim h0 hlen)] at h
    obtain ⟨t₁, t₂, a, rfl, h1, hc1, h2, hc2⟩ := runs_bind_ok h hc fun t o h hc => by
      obtain ⟨res, rfl, -⟩ := identifier_spec h hc
      exact ⟨_, rfl⟩
    obtain ⟨s, bytes, f, h3, h4, h5, h6⟩ := identifier_bytes h1 hc1
    simp only [Exec.ok.injEq] at h3
    subst h3
    refine ⟨t₁, t₂, rfl, h4, ?_⟩
    rcases verify_cases rd.page h6 with ⟨hv, hall⟩ | ⟨i, b, hv, hrest⟩
    · left
      simp only [hv, ofExec_ok, ret_bind] at h2
      obtain ⟨t₃, t₄, a, rfl, h7, hc3, h8, -⟩ := runs_bind_ok h2 hc2 fun t o h hc => by
        obtain ⟨res, rfl, -⟩ := readImpl_reports hlen h hc
        exact ⟨_, rfl⟩
      obtain ⟨res, h9, h10, h11⟩ := readImpl_reports hlen h7 hc3
      simp only [Exec.ok.injEq] at h9
      subst h9
      simp only [pure_eq, runs_ret] at h8
      obtain ⟨rfl, rfl⟩ := h8
      rw [List.append_nil]
      exact ⟨s, _, fun p => (reports_mem_ok h5).symm, hall, h10, rfl, reportsLast_step (reportsLast_of h5) h11⟩
    · right
      simp only [hv, ofExec_err, fail_bind, runs_fail] at h2
      obtain ⟨rfl, rfl⟩ := h2
      exact ⟨i, b, rfl, rfl, hrest⟩

/-- **C34.** Against an SP that answers properly, a read either fails because of a module of the other kind (C35), or
reports each addressed module exactly once: as a success with the bytes the SP returned for it, or as a failure with the
error the SP returned for it, when identifying it or when reading it. -/
theorem C34_read (m : ModuleId) (rd : MemoryRead) (hlen : rd.len ≠ 0) (t : List Exchange)
    (o : Exec CtlError (Res Bytes)) (h : Runs (Controller.read m rd) t o) (hc : Conforming t) :
    (∃ i b, o = .err (.transceiver (.invalidInterfaceForModule i (Bf.ofByte b) rd.page.managementInterface)) ∧
      interfaceOfCode b ≠ some rd.page.managementInterface) ∨
    ∃ t₁ t₂ s res, t = t₁ ++ t₂ ∧ ReadsOf m identifierByte t₁ ∧ (∀ p, Mem s p ↔ (okAmong t₁ p).isSome) ∧
      ReadsOf s rd t₂ ∧ o = .ok res ∧ ReportsLast id m t₁ t₂ res := by
  obtain ⟨t₁, t₂, rfl, h1, ⟨s, res, h2, -, h3, h4, h5⟩ | ⟨i, b, -, h2, -, h3, -⟩⟩ := read_spec hlen h hc
  · exact .inr ⟨t₁, t₂, s, res, rfl, h1, h2, h3, h4, h5⟩
  · exact .inl ⟨i, b, h2, h3⟩

/-- What `ReportsLast` says of one port of `m`: exactly one of success, with its bytes, and failure, with its error. -/
theorem C34_exactly_once {P : Type} (f : Bytes → P) (m : ModuleId) (t₁ t₂ : List Exchange) (res : Res P)
    (h : ReportsLast f m t₁ t₂ res) (p : Nat) (hp : Mem m p) :
    (∃ b, okAmong t₂ p = some b ∧ okAt res p = some (f b) ∧ errAt res p = none) ∨
    (∃ e, errAmong (t₁ ++ t₂) p = some e ∧ errAt res p = some e ∧ okAt res p = none) := by
  have hs := h.split p
  rcases hs.1.1 hp with h1 | h1
  · left
    have h2 : ¬ Mem res.failures.modules p := fun h2 => hs.2 ⟨h1, h2⟩
    have h3 := (datum_isSome h.wf.1 (p := p)).2 h1
    have h4 := h.ok p
    unfold okAt at h4
    rw [h4, Option.isSome_map] at h3
    obtain ⟨b, hb⟩ := Option.isSome_iff_exists.1 h3
    exact ⟨b, hb, by unfold okAt; rw [h4, hb]; rfl, datum_none h2⟩
  · right
    have h2 : ¬ Mem res.modules p := fun h2 => hs.2 ⟨h2, h1⟩
    have h3 := (datum_isSome h.wf.2.1 (p := p)).2 h1
    have h4 := h.err p
    unfold errAt at h4
    rw [h4] at h3
    obtain ⟨e, he⟩ := Option.isSome_iff_exists.1 h3
    exact ⟨e, he, by unfold errAt; rw [h4, he], datum_none h2⟩

/-- **C35**, against an SP that answers properly: if an identified module does not use the page's interface, the call
fails with the first such module and nothing but identification was sent; otherwise exactly the identified modules are
accessed. -/
theorem C35_read (m : ModuleId) (rd : MemoryRead) (hlen : rd.len ≠ 0) (t : List Exchange)
    (o : Exec CtlError (Res Bytes)) (h : Runs (Controller.read m rd) t o) (hc : Conforming t) :
    ∃ t₁ t₂, t = t₁ ++ t₂ ∧ ReadsOf m identifierByte t₁ ∧
      ((∀ p b, okAmong t₁ p = some [b] → interfaceOfCode b = some rd.page.managementInterface) →
        ∃ s, ReadsOf s rd t₂ ∧ ∀ p, Mem s p ↔ (okAmong t₁ p).isSome) ∧
      ∀ p b, okAmong t₁ p = some [b] → interfaceOfCode b ≠ some rd.page.managementInterface →
        (∀ q b', q < p → okAmong t₁ q = some [b'] → interfaceOfCode b' = some rd.page.managementInterface) →
        t₂ = [] ∧ o = .err (.transceiver
          (.invalidInterfaceForModule (BitVec.ofNat 8 p) (Bf.ofByte b) rd.page.managementInterface)) := by
  obtain ⟨t₁, t₂, rfl, h1, ⟨s, res, h2, h6, h3, h4, h5⟩ | ⟨i, b, h2, h3, h4, h5, h6⟩⟩ := read_spec hlen h hc
  · exact ⟨t₁, t₂, rfl, h1, fun _ => ⟨s, h3, h2⟩, fun p b hp hb => absurd (h6 p b hp) hb⟩
  · refine ⟨t₁, t₂, rfl, h1, fun hall => absurd (hall _ _ h4) h5, fun p b' hp hb' hfirst => ⟨h2, ?_⟩⟩
    have hpi : p = i.toNat := by
      rcases Nat.lt_trichotomy p i.toNat with hlt | heq | hgt
      · exact absurd (h6 p b' hlt hp) hb'
      · exact heq
      · exact absurd (hfirst _ _ hgt h4) h5
    subst hpi
    rw [h4] at hp
    simp only [Option.some.injEq, List.cons.injEq, and_true] at hp
    subst hp
    rw [h3, BitVec.ofNat_toNat, BitVec.setWidth_eq]

/-- A run against the made-up SP: modules 1 and 2 identify themselves as SFF-8636, module 3 does not answer, and module 2
fails the read. -/
def readBench : Bench where
  failing h q := match q with
    | .read _ rd => if rd.offset = 0 then ⟨0b1000⟩ else ⟨0b100⟩
    | _ => ModuleId.empty
  memory _ i rd k := if rd.offset = 0 then 0x0d else BitVec.ofNat 8 (16 * i.toNat + k)

example : ((Controller.read ⟨0b1110⟩ ⟨.sff8636 .lower, 22, 2⟩).exec readBench.sp []).2 =
    .ok ⟨⟨0b10⟩, [[16, 17]], ⟨⟨0b1100⟩, [.hardware 2 .disabledBySp none, .hardware 3 .disabledBySp none]⟩⟩ := by
  decide +kernel

example : ((Controller.read ⟨0b1110⟩ ⟨.cmis .lower, 22, 2⟩).exec readBench.sp []).2 =
    .err (.transceiver (.invalidInterfaceForModule 1 Identifier.qsfpPlusSff8636 .cmis)) := by
  decide +kernel

/-- **C35**, whatever the SP answers: the first requests of a read ask for the identifiers of the given modules. Further
requests are sent only after identification returned `ids` and every module in `ids` uses the page's interface; they are
reads of the given memory from modules in `ids`. -/
theorem C35_read_any_sp (m : ModuleId) (rd : MemoryRead) (t : List Exchange) (o : Exec CtlError (Res Bytes))
    (h : Runs (Controller.read m rd) t o) :
    ∃ t₁ t₂, t = t₁ ++ t₂ ∧ (∀ x ∈ t₁, ∃ g, x.1 = Call.host (.read g identifierByte) ∧ ∀ p, Mem g p → Mem m p) ∧
      (t₂ = [] ∨ ∃ ids, Runs (Controller.identifier m) t₁ (.ok ids) ∧
        ∀ x ∈ t₂, ∃ g, x.1 = Call.host (.read g rd) ∧ ∀ p, Mem g p →
          ∃ id, okAt ids p = some id ∧ id.managementInterface = .ok rd.page.managementInterface) := by
  have hident : ∀ {t : List Exchange} {o : Exec CtlError (Res Identifier)}, Runs (Controller.identifier m) t o →
      ∀ x ∈ t, ∃ g, x.1 = Call.host (.read g identifierByte) ∧ ∀ p, Mem g p → Mem m p := fun h =>
    allCalls_runs (allCalls_identifier (C := fun c => ∃ g, c = Call.host (.read g identifierByte) ∧
      ∀ p, Mem g p → Mem m p) fun g hg => ⟨g, rfl, hg⟩) h
  by_cases h0 : m.count = 0 ∨ rd.len = 0
  · unfold Controller.read at h
    rw [if_pos h0, runs_ofExec] at h
    exact ⟨[], [], by rw [h.1]; rfl, by simp, .inl rfl⟩
  · rw [read_eq h0] at h
    rcases runs_bind.1 h with ⟨t₁, t₂, ids, rfl, h1, h2⟩ | ⟨e, h1, -⟩ | ⟨h1, -⟩
    · refine ⟨t₁, t₂, rfl, hident h1, ?_⟩
      cases hv : Controller.verifyIdsForPage rd.page ids.modules ids.data with
      | ok u =>
        right
        refine ⟨ids, h1, ?_⟩
        rw [hv, ofExec_ok, ret_bind] at h2
        have hall := allCalls_runs (allCalls_bind (C := fun c => ∃ g, c = Call.host (.read g rd) ∧
            ∀ p, Mem g p → Mem ids.modules p) (allCalls_readImpl fun g hg _ => ⟨g, rfl, hg⟩) fun _ => allCalls_pure _) h2
        intro x hx
        obtain ⟨g, h3, h4⟩ := hall x hx
        refine ⟨g, h3, fun p hp => ?_⟩
        obtain ⟨id, hid⟩ := Option.isSome_iff_exists.1 ((datum_isSome (aligned_identifier h1)).2 (h4 p hp))
        exact ⟨id, hid, verify_ok hv p id hid⟩
      | err e => rw [hv] at h2; simp at h2; exact .inl h2.1
      | panic => rw [hv] at h2; simp at h2; exact .inl h2.1
    · exact ⟨t, [], by simp, hident h1, .inl rfl⟩
    · exact ⟨t, [], by simp, hident h1, .inl rfl⟩

/-- **C35** for writes, whatever the SP answers. -/
theorem C35_write_any_sp (m : ModuleId) (w : MemoryWrite) (data : Bytes) (t : List Exchange)
    (o : Exec CtlError (Res Unit)) (h : Runs (Controller.write m w data) t o) :
    ∃ t₁ t₂, t = t₁ ++ t₂ ∧ (∀ x ∈ t₁, ∃ g, x.1 = Call.host (.read g identifierByte) ∧ ∀ p, Mem g p → Mem m p) ∧
      (t₂ = [] ∨ ∃ ids r, Runs (Controller.identifier m) t₁ (.ok ids) ∧
        t₂ = [(Call.host (.write ids.modules w) (some data), r)] ∧ data.length = w.len.toNat ∧ ∀ p, Mem ids.modules p →
          ∃ id, okAt ids p = some id ∧ id.managementInterface = .ok w.page.managementInterface) := by
  have hident : ∀ {t : List Exchange} {o : Exec CtlError (Res Identifier)}, Runs (Controller.identifier m) t o →
      ∀ x ∈ t, ∃ g, x.1 = Call.host (.read g identifierByte) ∧ ∀ p, Mem g p → Mem m p := fun h =>
    allCalls_runs (allCalls_identifier (C := fun c => ∃ g, c = Call.host (.read g identifierByte) ∧
      ∀ p, Mem g p → Mem m p) fun g hg => ⟨g, rfl, hg⟩) h
  unfold Controller.write at h
  rcases runs_bind.1 h with ⟨t₁, t₂, ids, rfl, h1, h2⟩ | ⟨e, h1, -⟩ | ⟨h1, -⟩
  · refine ⟨t₁, t₂, rfl, hident h1, ?_⟩
    cases hv : Controller.verifyIdsForPage w.page ids.modules ids.data with
    | ok u =>
      rw [hv, ofExec_ok, ret_bind] at h2
      by_cases hl : w.len.toNat = data.length
      · right
        unfold Controller.writeImpl at h2
        rw [if_neg (by simp [hl]), LawfulMonad.bind_assoc] at h2
        obtain ⟨r, hr⟩ := runs_one_call (fun r => by
          refine allCalls_bind ?_ fun _ => trivial
          split
          · exact allCalls_bind (allCalls_ofExec _) fun _ => allCalls_bind (allCalls_ofExec _) fun _ => trivial
          · trivial) h2
        refine ⟨ids, r, h1, hr, hl.symm, fun p hp => ?_⟩
        obtain ⟨id, hid⟩ := Option.isSome_iff_exists.1 ((datum_isSome (aligned_identifier h1)).2 hp)
        exact ⟨id, hid, verify_ok hv p id hid⟩
      · left
        unfold Controller.writeImpl at h2
        rw [if_pos hl, fail_bind, runs_fail] at h2
        exact h2.1
    | err e => rw [hv] at h2; simp at h2; exact .inl h2.1
    | panic => rw [hv] at h2; simp at h2; exact .inl h2.1
  · exact ⟨t, [], by simp, hident h1, .inl rfl⟩
  · exact ⟨t, [], by simp, hident h1, .inl rfl⟩

/-! ## C36 -/

theorem writeImpl_spec {m : ModuleId} {w : MemoryWrite} {data : Bytes} (hlen : w.len.toNat = data.length)
    {t : List Exchange} {o : Exec CtlError (Res Unit)} (h : Runs (Controller.writeImpl m w data) t o)
    (hc : Conforming t) :
    ∃ r res, t = [(Call.host (.write m w) (some data), r)] ∧ o = .ok res ∧ Reports (fun _ => ()) m t res := by
  unfold Controller.writeImpl at h
  rw [if_neg (by simp [hlen])] at h
  obtain ⟨resp, R, t', rfl, hb, ha, h, -⟩ := runs_query h hc
  have hk := ha.kind
  cases R with
  | write s f w' =>
    have hsz := ha.size
    cases hd : resp.data with
    | none => rw [hd] at hsz; simp [expectedTrailing] at hsz
    | some d =>
      rw [hd] at hsz
      simp only [Option.map_some, expectedTrailing, Option.some.injEq] at hsz
      obtain ⟨errs, h1, h2, h3⟩ := deserialize_spec (f := f) (d := d) hsz
      simp only [hb, hd, Exec.unwrap, ofExec_ok, ret_bind, h1, pure_eq, runs_ret] at h
      obtain ⟨rfl, rfl⟩ := h
      refine ⟨_, _, rfl, rfl, reports_of hb hd (ha.split _ _ _ rfl rfl) ack_aligned ?_ h2 ?_⟩
      · intro p
        rw [datum_replicate (count_eq_card _)]
        simp only [record, responseModules]
        split <;> rfl
      · intro p
        rw [h3]; simp [errorCode, responseModules, recordSize]
  | _ => simp [SameKind] at hk

/-- **C36.** Against an SP that answers properly, a write identifies the modules (`t₁`) and then does exactly one of
three things: it refuses, without sending anything more, because of the first module of the other kind; it refuses,
without sending anything more, because the data has the wrong length; or it sends one write with exactly the given data
to exactly the modules that identified themselves, and reports each addressed module once. -/
theorem C36_write (m : ModuleId) (w : MemoryWrite) (data : Bytes) (t : List Exchange) (o : Exec CtlError (Res Unit))
    (h : Runs (Controller.write m w data) t o) (hc : Conforming t) :
    ∃ t₁ t₂, t = t₁ ++ t₂ ∧ ReadsOf m identifierByte t₁ ∧
      ((∃ i b, t₂ = [] ∧
        o = .err (.transceiver (.invalidInterfaceForModule i (Bf.ofByte b) w.page.managementInterface)) ∧
        okAmong t₁ i.toNat = some [b] ∧ interfaceOfCode b ≠ some w.page.managementInterface ∧
        ∀ q b', q < i.toNat → okAmong t₁ q = some [b'] → interfaceOfCode b' = some w.page.managementInterface) ∨
      ((∀ p b, okAmong t₁ p = some [b] → interfaceOfCode b = some w.page.managementInterface) ∧
        data.length ≠ w.len.toNat ∧ t₂ = [] ∧ o = .err (.invalidWriteData w.len.toNat data.length)) ∨
      ((∀ p b, okAmong t₁ p = some [b] → interfaceOfCode b = some w.page.managementInterface) ∧
        data.length = w.len.toNat ∧ ∃ s r res, (∀ p, Mem s p ↔ (okAmong t₁ p).isSome) ∧
          t₂ = [(Call.host (.write s w) (some data), r)] ∧ o = .ok res ∧ ReportsLast (fun _ => ()) m t₁ t₂ res)) := by
  unfold Controller.write at h
  obtain ⟨t₁, t₂, a, rfl, h1, hc1, h2, hc2⟩ := runs_bind_ok h hc fun t o h hc => by
    obtain ⟨res, rfl, -⟩ := identifier_spec h hc
    exact ⟨_, rfl⟩
  obtain ⟨s, bytes, f, h3, h4, h5, h6⟩ := identifier_bytes h1 hc1
  simp only [Exec.ok.injEq] at h3
  subst h3
  refine ⟨t₁, t₂, rfl, h4, ?_⟩
  rcases verify_cases w.page h6 with ⟨hv, hall⟩ | ⟨i, b, hv, hrest⟩
  · right
    simp only [hv, ofExec_ok, ret_bind] at h2
    by_cases hl : w.len.toNat = data.length
    · right
      obtain ⟨t₃, t₄, a, rfl, h7, hc3, h8, -⟩ := runs_bind_ok h2 hc2 fun t o h hc => by
        obtain ⟨r, res, -, rfl, -⟩ := writeImpl_spec hl h hc
        exact ⟨_, rfl⟩
      obtain ⟨r, res, h9, h10, h11⟩ := writeImpl_spec hl h7 hc3
      simp only [Exec.ok.injEq] at h10
      subst h10
      simp only [pure_eq, runs_ret] at h8
      obtain ⟨rfl, rfl⟩ := h8
      refine ⟨hall, hl.symm, s, r, _, fun p => (reports_mem_ok h5).symm, by simp [h9], rfl, ?_⟩
      have := reportsLast_step (reportsLast_of h5) h11
      rw [List.append_nil]
      refine ⟨⟨ack_aligned, this.wf.2⟩, this.split, fun p => ?_, this.err⟩
      have hok := this.ok p
      have hal : a.data = List.replicate a.modules.count () := by
        apply List.ext_getElem
        · have : a.data.length = card a.modules := h11.wf.1
          rw [this, List.length_replicate, count_eq_card]
        · intro i _ _; rfl
      simp only [AckResult.new]
      rw [← hal]
      exact hok
    · left
      unfold Controller.writeImpl at h2
      rw [if_pos hl, fail_bind, runs_fail] at h2
      exact ⟨hall, fun he => hl he.symm, h2.1, h2.2⟩
  · left
    simp only [hv, ofExec_err, fail_bind, runs_fail] at h2
    obtain ⟨rfl, rfl⟩ := h2
    exact ⟨i, b, rfl, rfl, hrest⟩

example : ((Controller.write ⟨0b1110⟩ ⟨.sff8636 .lower, 93, 1⟩ [5]).exec readBench.sp []).1.map Prod.fst =
    [Call.host (.read ⟨0b1110⟩ identifierByte), Call.host (.write ⟨0b110⟩ ⟨.sff8636 .lower, 93, 1⟩) (some [5])] := by
  decide +kernel

example : ((Controller.write ⟨0b1110⟩ ⟨.sff8636 .lower, 93, 1⟩ [5, 6]).exec readBench.sp []).2 =
    .err (.invalidWriteData 1 2) := by
  decide +kernel

/-! ## C37 -/

/-- The number of data bytes a request declares, `HostRequest::expected_data_len`. -/
def Spec.DeclaredMatches (c : Call) : Prop :=
  ∃ q, c.message.body = .hostRequest q ∧ c.data.map List.length = q.expectedDataLen

/-- A write of one byte to two modules sends one byte of data, but declares two. -/
theorem C37_counterexample :
    (Op.prog (.write ⟨0b110⟩ ⟨.sff8636 .lower, 93, 1⟩ [5])).exec readBench.sp [] =
      ([(Call.host (.read ⟨0b110⟩ identifierByte), Bench.respond (.read ⟨0b110⟩ ⟨0⟩ identifierByte) (some [0x0d, 0x0d])),
        (Call.host (.write ⟨0b110⟩ ⟨.sff8636 .lower, 93, 1⟩) (some [5]),
          Bench.respond (.write ⟨0b110⟩ ⟨0⟩ ⟨.sff8636 .lower, 93, 1⟩) (some []))], .ok ()) ∧
    (HostRequest.write ⟨0b110⟩ ⟨.sff8636 .lower, 93, 1⟩).expectedDataLen = some 2 := by
  decide +kernel

theorem C37_false : ¬ ∀ (op : Op) (t : List Exchange) (o : Exec CtlError Unit), Runs op.prog t o → ∀ x ∈ t,
    DeclaredMatches x.1 := by
  intro h
  have hr := Bench.exec_runs readBench (Op.prog (.write ⟨0b110⟩ ⟨.sff8636 .lower, 93, 1⟩ [5]))
  rw [C37_counterexample.1] at hr
  obtain ⟨q, hq, hd⟩ := h _ _ _ hr _ (List.mem_cons_of_mem _ List.mem_cons_self)
  simp only [Call.host, Message.new, MessageBody.hostRequest.injEq] at hq
  subst hq
  rw [C37_counterexample.2] at hd
  simp [Call.host] at hd

/-- **C37**, the part that holds of every method, whatever the SP answers: a request other than a write has no data, and
declares none; a write has as many bytes of data as it writes to each module, which is what it declares if it addresses
one module. -/
theorem C37_partial (op : Op) (t : List Exchange) (o : Exec CtlError Unit) (h : Runs op.prog t o) (x : Exchange)
    (hx : x ∈ t) :
    ∃ q, x.1.message.body = .hostRequest q ∧ x.1.kind = .hostRequest ∧
      (∀ m w, q = .write m w → x.1.data.map List.length = some w.len.toNat) ∧
      ((∀ m w, q = .write m w → card m = 1) → DeclaredMatches x.1) := by
  rcases allCalls_runs (allCalls_op op) h x hx with ⟨m, w, d, hc, hl⟩ | ⟨q, hq, hc⟩
  · refine ⟨.write m w, by rw [hc]; rfl, by rw [hc]; rfl, ?_, fun hone => ⟨.write m w, by rw [hc]; rfl, ?_⟩⟩
    · intro m' w' hw
      cases hw
      rw [hc]
      simp [Call.host, hl]
    · rw [hc]
      simp [Call.host, hl, HostRequest.expectedDataLen, count_eq_card, hone m w rfl]
  · refine ⟨q, by rw [hc]; rfl, by rw [hc]; rfl, fun m w hw => absurd hw (hq m w), fun _ => ⟨q, by rw [hc]; rfl, ?_⟩⟩
    rw [hc]
    cases q with
    | write m w => exact absurd rfl (hq m w)
    | _ => rfl

/-- **C29** for the controller: whatever the SP answers, a request that a method sends, under any message id, takes at most
291 bytes (a header, the largest message and 255 bytes of data), so it always fits in one packet. -/
theorem C29_controller (op : Op) (t : List Exchange) (o : Exec CtlError Unit) (h : Runs op.prog t o) (x : Exchange)
    (hx : x ∈ t) (id : U64) :
    (IoState.requestPacket ⟨Header.new id x.1.kind, x.1.message, x.1.data⟩).length ≤ 291 ∧ 291 ≤ maxPacketSize := by
  refine ⟨?_, by decide⟩
  have hd : (x.1.data.getD []).length ≤ 255 := by
    rcases allCalls_runs (allCalls_op op) h x hx with ⟨m, w, d, hc, hl⟩ | ⟨q, hq, hc⟩
    · rw [hc]
      have hlt := w.len.isLt
      simp only [Call.host, Option.getD_some]
      omega
    · rw [hc]
      simp [Call.host]
  have h1 := (C15_header (Header.new id x.1.kind)).1
  obtain ⟨h2, h3⟩ := C15_message x.1.message
  simp only [IoState.requestPacket, List.length_append]
  omega

/-- A write of 4 bytes: identifying the module takes 25 bytes, the write 29. -/
example : ((Op.prog (.write ⟨0b1⟩ ⟨.sff8636 .lower, 93, 4⟩ [1, 2, 3, 4])).exec readBench.sp []).1.map
    (fun x => (IoState.requestPacket ⟨Header.new 7 x.1.kind, x.1.message, x.1.data⟩).length) = [25, 29] := by decide +kernel

/-! ## C38 -/

theorem ack_data {res : Res Unit} (h : Aligned res.modules res.data) :
    res.data = List.replicate res.modules.count () := by
  apply List.ext_getElem
  · have : res.data.length = card res.modules := h
    rw [this, List.length_replicate, count_eq_card]
  · intro i _ _; rfl

/-- **C38.** Against an SP that answers properly, reset asserts reset on all given modules, then deasserts it on exactly
those that acknowledged, and reports as successes those that acknowledged both and the others with their own error. -/
theorem C38_reset (m : ModuleId) (t : List Exchange) (o : Exec CtlError (Res Unit))
    (h : Runs (Controller.reset m) t o) (hc : Conforming t) :
    ∃ x₁ x₂ s res, t = [x₁, x₂] ∧ x₁.1 = Call.host (.assertReset m) ∧ x₂.1 = Call.host (.deassertReset s) ∧
      (∀ p, Mem s p ↔ (okIn x₁ p).isSome) ∧ o = .ok res ∧ ReportsLast (fun _ => ()) m [x₁] [x₂] res := by
  unfold Controller.reset at h
  obtain ⟨t₁, t₂, a, rfl, h1, hc1, h2, hc2⟩ := runs_bind_ok h hc fun t o h hc => by
    obtain ⟨r, res, -, rfl, -⟩ := noPayloadRequest_spec (m := m) (by trivial) rfl h hc
    exact ⟨_, rfl⟩
  obtain ⟨r, res, rfl, h3, h4⟩ := noPayloadRequest_spec (m := m) (by trivial) rfl h1 hc1
  simp only [Exec.ok.injEq] at h3
  subst h3
  obtain ⟨t₃, t₄, b, rfl, h5, hc3, h6, -⟩ := runs_bind_ok h2 hc2 fun t o h hc => by
    obtain ⟨r, res, -, rfl, -⟩ := noPayloadRequest_spec (m := a.modules) (by trivial) rfl h hc
    exact ⟨_, rfl⟩
  obtain ⟨r', res, rfl, h7, h8⟩ := noPayloadRequest_spec (m := a.modules) (by trivial) rfl h5 hc3
  simp only [Exec.ok.injEq] at h7
  subst h7
  simp only [pure_eq, runs_ret] at h6
  obtain ⟨rfl, rfl⟩ := h6
  refine ⟨_, _, a.modules, _, rfl, rfl, rfl, fun p => ?_, rfl, ?_⟩
  · rw [← reports_mem_ok h4, okAmong_singleton]
  · have := reportsLast_step (reportsLast_of h4) h8
    unfold AckResult.new
    rw [← ack_data h8.wf.1]
    exact this

/-- Module 2 fails the first step and module 3 the second. -/
def resetBench : Bench where
  failing _ q := match q with
    | .assertReset _ => ⟨0b100⟩
    | _ => ⟨0b1000⟩

example : ((Controller.reset ⟨0b1110⟩).exec resetBench.sp []).2 =
    .ok ⟨⟨0b10⟩, [()], ⟨⟨0b1100⟩, [.hardware 2 .disabledBySp none, .hardware 3 .disabledBySp none]⟩⟩ := by
  decide +kernel

/-! ## C39 -/

/-- The single-step commands and their requests. -/
def Spec.commands (m : ModuleId) (led : LedState) : List (Prog (Res Unit) × HostRequest) :=
  [(Controller.enablePower m, .enablePower m), (Controller.disablePower m, .disablePower m),
   (Controller.assertReset m, .assertReset m), (Controller.deassertReset m, .deassertReset m),
   (Controller.assertLpMode m, .assertLpMode m), (Controller.deassertLpMode m, .deassertLpMode m),
   (Controller.clearPowerFault m, .clearPowerFault m), (Controller.clearDisableLatch m, .clearDisableLatch m),
   (Controller.setLeds m led, .setLedState m led)]

theorem commands_eq (m : ModuleId) (led : LedState) (c : Prog (Res Unit) × HostRequest) (h : c ∈ commands m led) :
    c.1 = Controller.noPayloadRequest c.2 ∧ IsCommand c.2 ∧ requestModules c.2 = some m := by
  simp only [commands, List.mem_cons, List.not_mem_nil, or_false] at h
  rcases h with rfl | rfl | rfl | rfl | rfl | rfl | rfl | rfl | rfl <;> exact ⟨rfl, trivial, rfl⟩

/-- **C39.** Whatever the SP answers, a single-step command sends exactly one request, its own, naming exactly the given
modules. -/
theorem C39_one_request (m : ModuleId) (led : LedState) (c : Prog (Res Unit) × HostRequest) (hm : c ∈ commands m led)
    (t : List Exchange) (o : Exec CtlError (Res Unit)) (h : Runs c.1 t o) :
    requestModules c.2 = some m ∧ ∃ r, t = [(Call.host c.2, r)] := by
  obtain ⟨h1, -, h3⟩ := commands_eq m led c hm
  rw [h1] at h
  exact ⟨h3, noPayloadRequest_one h⟩

theorem C39_one_status (m : ModuleId) (t : List Exchange) :
    (∀ o, Runs (Controller.status m) t o → ∃ r, t = [(Call.host (.status m), r)]) ∧
    (∀ o, Runs (Controller.extendedStatus m) t o → ∃ r, t = [(Call.host (.extendedStatus m), r)]) ∧
    (∀ o, Runs (Controller.leds m) t o → ∃ r, t = [(Call.host (.ledState m), r)]) ∧
    (∀ o, Runs Controller.macAddrs t o → ∃ r, t = [(Call.host .macAddrs, r)]) := by
  refine ⟨fun o h => ?_, fun o h => ?_, fun o h => ?_, fun o h => ?_⟩
  · refine runs_one_call (fun r => ?_) h
    split
    · exact allCalls_bind (allCalls_ofExec _) fun _ => allCalls_bind (allCalls_ofExec _) fun _ =>
        allCalls_bind (allCalls_ofExec _) fun _ => allCalls_bind (allCalls_ofExec _) fun _ => trivial
    · trivial
  · refine runs_one_call (fun r => ?_) h
    split
    · exact allCalls_bind (allCalls_ofExec _) fun _ => allCalls_bind (allCalls_ofExec _) fun _ =>
        allCalls_bind (allCalls_ofExec _) fun _ => allCalls_bind (allCalls_ofExec _) fun _ =>
          allCalls_bind (allCalls_ofExec _) fun _ => trivial
    · trivial
  · refine runs_one_call (fun r => ?_) h
    split
    · exact allCalls_bind (allCalls_ofExec _) fun _ => allCalls_bind (allCalls_ofExec _) fun _ =>
        allCalls_bind (allCalls_ofExec _) fun _ => allCalls_bind (allCalls_ofExec _) fun _ =>
          allCalls_bind (allCalls_ofExec _) fun _ => trivial
    · trivial
  · refine runs_one_call (fun r => ?_) h
    split <;> trivial

/-- **C39.** Against an SP that answers properly, the successes and errors of a single-step command are those of the
response. -/
theorem C39_command (m : ModuleId) (led : LedState) (c : Prog (Res Unit) × HostRequest) (hm : c ∈ commands m led)
    (t : List Exchange) (o : Exec CtlError (Res Unit)) (h : Runs c.1 t o) (hc : Conforming t) :
    ∃ res, o = .ok res ∧ Reports (fun _ => ()) m t res := by
  obtain ⟨h1, h2, h3⟩ := commands_eq m led c hm
  rw [h1] at h
  obtain ⟨r, res, -, h4, h5⟩ := noPayloadRequest_spec h2 h3 h hc
  exact ⟨res, h4, h5⟩

theorem C39_status (m : ModuleId) (t : List Exchange) (o : Exec CtlError (Res Controller.Status))
    (h : Runs (Controller.status m) t o) (hc : Conforming t) :
    ∃ res, o = .ok res ∧ Reports (fun b => b.headD 0) m t res := by
  obtain ⟨r, res, -, h4, h5⟩ := status_spec h hc
  exact ⟨res, h4, h5⟩

theorem C39_extended_status (m : ModuleId) (t : List Exchange) (o : Exec CtlError (Res U32))
    (h : Runs (Controller.extendedStatus m) t o) (hc : Conforming t) :
    ∃ res, o = .ok res ∧ Reports word m t res := by
  obtain ⟨r, res, -, h4, h5⟩ := extendedStatus_spec h hc
  exact ⟨res, h4, h5⟩

theorem C39_leds (m : ModuleId) (t : List Exchange) (o : Exec CtlError (Res LedState))
    (h : Runs (Controller.leds m) t o) (hc : Conforming t) :
    ∃ res, o = .ok res ∧ Reports (fun b => (ledOfCode b).getD .off) m t res := by
  obtain ⟨r, res, -, h4, h5⟩ := leds_spec h hc
  exact ⟨res, h4, h5⟩

/-- **C39**: the MAC addresses are those in the SP's response to the one request, and an error is the SP's error. This holds
for any answer of the right kind. -/
theorem C39_mac_addrs (t : List Exchange) (o : Exec CtlError MacAddrs) (h : Runs Controller.macAddrs t o) :
    ∃ r, t = [(Call.host .macAddrs, r)] ∧
      ∀ R data, responseOf (Call.host .macAddrs, r) = some (.macAddrs R, data) →
        o = match R with
          | .ok macs => .ok macs
          | .error e => .err (.mac e) := by
  unfold Controller.macAddrs at h
  rcases runs_call_bind.1 h with ⟨rfl, rfl⟩ | ⟨resp, t', rfl, h'⟩ | ⟨e, rfl, rfl⟩
  · exact ⟨_, rfl, fun R data hr => by simp [responseOf] at hr⟩
  · have key : t' = [] := by
      split at h'
      · simp only [pure_eq, runs_ret] at h'; exact h'.1
      · simp only [runs_fail] at h'; exact h'.1
      · simp only [runs_fail] at h'; exact h'.1
    subst key
    refine ⟨_, rfl, fun R data hr => ?_⟩
    unfold responseOf at hr
    cases hb : resp.message.body with
    | spResponse R' =>
      simp only [hb, Option.some.injEq, Prod.mk.injEq] at hr
      obtain ⟨rfl, rfl⟩ := hr
      rw [hb] at h'
      cases R with
      | ok macs => simpa using h'
      | error e => simpa using h'
    | _ => simp [hb] at hr
  · exact ⟨_, rfl, fun R data hr => by simp [responseOf] at hr⟩

example : ((Controller.macAddrs).exec ({} : Bench).sp []).2 = .ok ⟨⟨0xa8, 0x40, 0x25, 0, 0, 0⟩, 32, 1⟩ := by
  decide +kernel

/-- Status of modules 0 and 5; module 6 fails. -/
def statusBench : Bench where
  failing _ _ := ⟨0b1000000⟩
  status _ i := i + 1
  led _ i := if i = 0 then 2 else 1

example : ((Controller.status ⟨0b1100001⟩).exec statusBench.sp []).2 =
    .ok ⟨⟨0b100001⟩, [1, 6], ⟨⟨0b1000000⟩, [.hardware 6 .disabledBySp none]⟩⟩ := by
  decide +kernel

example : ((Controller.leds ⟨0b1100001⟩).exec statusBench.sp []).2 =
    .ok ⟨⟨0b100001⟩, [.blink, .on], ⟨⟨0b1000000⟩, [.hardware 6 .disabledBySp none]⟩⟩ := by
  decide +kernel

/-- Proper answers exist for every method: any method run against the made-up SP makes only proper exchanges. -/
theorem conforming_runs_exist (op : Op) (b : Bench) :
    ∃ t o, Runs op.prog t o ∧ Conforming t :=
  ⟨_, _, b.exec_runs _, b.exec_conforming (allCalls_mono (fun _ => isHost_of_shape) (allCalls_op op)) []⟩

/-! ## C40 -/

/-- The message is a response of the kind that belongs to the request. -/
def Spec.RightKind : HostRequest → MessageBody → Prop
  | .read .., .spResponse (.read ..) => True
  | .read .., _ => False
  | .write .., .spResponse (.write ..) => True
  | .write .., _ => False
  | .status _, .spResponse (.status ..) => True
  | .status _, _ => False
  | .extendedStatus _, .spResponse (.extendedStatus ..) => True
  | .extendedStatus _, _ => False
  | .ledState _, .spResponse (.ledState ..) => True
  | .ledState _, _ => False
  | .macAddrs, .spResponse (.macAddrs _) => True
  | .macAddrs, _ => False
  | _, .spResponse (.ack ..) => True
  | _, _ => False

theorem answer_wrong {α : Type} {q : HostRequest} {D : Option Bytes} {k : SpRpcResponse → Prog α} {t : List Exchange}
    {o : Exec CtlError α} (h : Runs (Prog.call (.host q D) >>= k) t o) {resp : SpRpcResponse} {t' : List Exchange}
    (ht : t = (Call.host q D, .answer (.ok resp)) :: t') : Runs (k resp) t' o := by
  subst ht
  rw [runs_call_bind] at h
  rcases h with ⟨h1, -⟩ | ⟨r, t'', h1, h2⟩ | ⟨e, h1, -⟩
  · cases h1
  · cases h1; exact h2
  · cases h1

/-- **C40**, the part that holds: an answer of the wrong kind makes any of the operations fail with an error that contains
the message, and nothing more is sent. (The property says `WrongMessage`, a protocol error; the code reports
`UnexpectedMessage`.) -/
theorem C40_wrong_kind_partial (m : ModuleId) (resp : SpRpcResponse) (t : List Exchange) :
    (∀ led, ∀ c ∈ commands m led, ∀ o, Runs c.1 ((Call.host c.2, .answer (.ok resp)) :: t) o →
      ¬ RightKind c.2 resp.message.body → t = [] ∧ o = .err (.unexpectedMessage resp.message.body)) ∧
    (∀ o, Runs (Controller.status m) ((Call.host (.status m), .answer (.ok resp)) :: t) o →
      ¬ RightKind (.status m) resp.message.body → t = [] ∧ o = .err (.unexpectedMessage resp.message.body)) ∧
    (∀ o, Runs (Controller.extendedStatus m) ((Call.host (.extendedStatus m), .answer (.ok resp)) :: t) o →
      ¬ RightKind (.extendedStatus m) resp.message.body → t = [] ∧ o = .err (.unexpectedMessage resp.message.body)) ∧
    (∀ o, Runs (Controller.leds m) ((Call.host (.ledState m), .answer (.ok resp)) :: t) o →
      ¬ RightKind (.ledState m) resp.message.body → t = [] ∧ o = .err (.unexpectedMessage resp.message.body)) ∧
    (∀ o, Runs Controller.macAddrs ((Call.host .macAddrs, .answer (.ok resp)) :: t) o →
      ¬ RightKind .macAddrs resp.message.body → t = [] ∧ o = .err (.unexpectedMessage resp.message.body)) ∧
    (∀ rd o, Runs (Controller.readImplOneMessage m rd) ((Call.host (.read m rd), .answer (.ok resp)) :: t) o →
      ¬ RightKind (.read m rd) resp.message.body → t = [] ∧ o = .err (.unexpectedMessage resp.message.body)) ∧
    (∀ w d o, Runs (Controller.writeImpl m w d) ((Call.host (.write m w) (some d), .answer (.ok resp)) :: t) o →
      ¬ RightKind (.write m w) resp.message.body → t = [] ∧ o = .err (.unexpectedMessage resp.message.body)) := by
  refine ⟨fun led c hm o h hk => ?_, fun o h hk => ?_, fun o h hk => ?_, fun o h hk => ?_, fun o h hk => ?_,
    fun rd o h hk => ?_, fun w d o h hk => ?_⟩
  · obtain ⟨h1, h2, -⟩ := commands_eq m led c hm
    rw [h1] at h
    have h := answer_wrong h rfl
    split at h
    · rename_i heq
      rw [heq] at hk
      cases hq : c.2 <;> rw [hq] at hk h2 <;> simp [RightKind, IsCommand] at hk h2
    · exact runs_fail.1 h
  · have h := answer_wrong h rfl
    split at h
    · rename_i heq; rw [heq] at hk; exact absurd trivial hk
    · exact runs_fail.1 h
  · have h := answer_wrong h rfl
    split at h
    · rename_i heq; rw [heq] at hk; exact absurd trivial hk
    · exact runs_fail.1 h
  · have h := answer_wrong h rfl
    split at h
    · rename_i heq; rw [heq] at hk; exact absurd trivial hk
    · exact runs_fail.1 h
  · have h := answer_wrong h rfl
    split at h
    · rename_i heq; rw [heq] at hk; exact absurd trivial hk
    · rename_i heq; rw [heq] at hk; exact absurd trivial hk
    · exact runs_fail.1 h
  · by_cases hf : Controller.fitsInOneMessage m rd = true
    · rw [readImplOneMessage_eq (fits_iff.1 hf)] at h
      have h := answer_wrong h rfl
      split at h
      · rename_i heq; rw [heq] at hk; exact absurd trivial hk
      · exact runs_fail.1 h
    · unfold Controller.readImplOneMessage at h
      rw [Bool.not_eq_true] at hf
      rw [hf] at h
      simp at h
  · unfold Controller.writeImpl at h
    split at h
    · simp at h
    · have h := answer_wrong h rfl
      split at h
      · rename_i heq; rw [heq] at hk; exact absurd trivial hk
      · exact runs_fail.1 h

/-- An SP that answers every request with the same response. -/
def constantSp (R : SpResponse) (d : Option Bytes) (_ : List Exchange) (_ : Call) : Reply := Bench.respond R d

/-- An unknown LED state, an unknown flag in the extended status, or a read answered with another read make the
controller panic; so does an answer without data where data is due. A wrong kind is not reported as `WrongMessage`. -/
theorem C40_counterexample :
    ((Controller.leds ⟨1⟩).exec (constantSp (.ledState ⟨1⟩ ⟨0⟩) (some [3])) []).2 = .panic ∧
    ((Controller.extendedStatus ⟨1⟩).exec (constantSp (.extendedStatus ⟨1⟩ ⟨0⟩) (some [0, 2, 0, 0])) []).2 = .panic ∧
    ((Controller.readImplOneMessage ⟨1⟩ ⟨.sff8636 .lower, 0, 2⟩).exec
      (constantSp (.read ⟨1⟩ ⟨0⟩ ⟨.sff8636 .lower, 0, 1⟩) (some [7])) []).2 = .panic ∧
    ((Controller.status ⟨1⟩).exec (constantSp (.ack ⟨1⟩ ⟨0⟩) (some [])) []).2 =
      .err (.unexpectedMessage (.spResponse (.ack ⟨1⟩ ⟨0⟩))) := by
  decide +kernel

/-- **C40** as stated is false: some answer makes a method panic. -/
theorem C40_false : ¬ ∀ (op : Op) (t : List Exchange) (o : Exec CtlError Unit), Runs op.prog t o →
    (∀ x ∈ t, x.2 ≠ .gone) → o ≠ .panic := by
  intro h
  have hr := runs_exec (constantSp (.ledState ⟨1⟩ ⟨0⟩) (some [3])) (Op.prog (.leds ⟨1⟩)) []
  have he : (Op.prog (.leds ⟨1⟩)).exec (constantSp (.ledState ⟨1⟩ ⟨0⟩) (some [3])) [] =
      ([(Call.host (.ledState ⟨1⟩), Bench.respond (.ledState ⟨1⟩ ⟨0⟩) (some [3]))], .panic) := by decide +kernel
  rw [he] at hr
  refine h _ _ _ hr ?_ rfl
  intro x hx
  simp only [List.mem_singleton] at hx
  subst hx
  intro hx
  cases hx

end Xcvr
