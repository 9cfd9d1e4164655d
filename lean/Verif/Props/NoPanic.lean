import Verif.Props.Controller
import Verif.Props.Info
import Verif.Props.Power
import Verif.Props.CliCmd
import Verif.Props.Scope

/-! # C40: with a proper SP, only decoding a module's own bytes can abort a method -/

namespace Xcvr

open Spec Prog Controller

/-- Every response among the answers answers its request; errors of the I/O loop may come at any point. -/
def Spec.ProperReplies (t : List Exchange) : Prop :=
  ∀ x ∈ t, x.2 ≠ .gone ∧ ∀ resp, x.2 = .answer (.ok resp) → Conforms x

/-- The reserved codes on which a method aborts: the fourth bank code of a paged module, the fourth bias multiplier, a
media type without interface codes, or a lane assigned to an application that is not listed. -/
def Spec.Reserved : Op → ModuleMemory → Prop
  | .memoryModel _, mem => bit (cmisLow mem 2) 7 = false ∧ (cmisUp mem 1 142).toNat % 4 = 3
  | .monitors _, mem => (cmisUp mem 1 160).toNat / 8 % 4 = 3
  | .datapath _, mem => ¬ MediaKnown mem ∨ ¬ AssignedListed mem
  | _, _ => False

/-- The reads a method makes of a module that identified itself. -/
def Spec.readsOfOp (op : Op) (id : Identifier) : Exec DecodeError (List MemoryRead) :=
  match op with
  | .memoryModel _ => MemoryModel.reads id
  | .monitors _ => Monitors.reads id
  | .datapath _ => Datapath.reads id
  | _ => .err .parseFailed

/-- A module identified itself as a CMIS module, and what it returned to the method's reads holds a reserved code. -/
def Spec.SawReserved (op : Op) (t : List Exchange) : Prop :=
  ∃ t₁ t₂ p b rds mem, t = t₁ ++ t₂ ∧ Identified t₁ p b ∧ CmisModule (Bf.ofByte b) ∧
    readsOfOp op (Bf.ofByte b) = .ok rds ∧ DataOf t₂ p rds (rds.map (answer mem)) ∧ Reserved op mem

/-! ## A memory that explains the answers -/

/-- No two reads share a byte. -/
def Apart (r s : MemoryRead) : Prop :=
  r.page = s.page → r.offset.toNat + r.len.toNat ≤ s.offset.toNat ∨ s.offset.toNat + s.len.toNat ≤ r.offset.toNat

instance (r s : MemoryRead) : Decidable (Apart r s) := by unfold Apart; infer_instance

/-- The memory with the answers to the reads in it. -/
def memoryOf : List MemoryRead → List Bytes → ModuleMemory
  | r :: rs, b :: bs => fun page a =>
    if page = r.page ∧ r.offset.toNat ≤ a ∧ a < r.offset.toNat + r.len.toNat then b.getD (a - r.offset.toNat) 0
    else memoryOf rs bs page a
  | _, _ => fun _ _ => 0

theorem answer_memoryOf {rs : List MemoryRead} (hr : rs.Pairwise Apart) {bs : List Bytes}
    (hb : bs.map List.length = rs.map fun r => r.len.toNat) : bs = rs.map (answer (memoryOf rs bs)) := by
  induction rs generalizing bs with
  | nil => cases bs with
    | nil => rfl
    | cons b bs => simp at hb
  | cons r rs ih =>
    cases bs with
    | nil => simp at hb
    | cons b bs =>
      simp only [List.map_cons, List.cons.injEq] at hb
      rw [List.pairwise_cons] at hr
      rw [List.map_cons]
      congr 1
      · unfold answer
        apply List.ext_getElem
        · simp [hb.1]
        · intro i h1 h2
          have : i < r.len.toNat := by omega
          simp only [List.getElem_map, List.getElem_range, memoryOf]
          rw [if_pos ⟨trivial, by omega, by omega⟩, Nat.add_sub_cancel_left, List.getD_eq_getElem?_getD,
            List.getElem?_eq_getElem h1, Option.getD_some]
      · rw (occs := [1]) [ih hr.2 hb.2]
        apply List.map_congr_left
        intro s hs
        unfold answer
        apply List.map_congr_left
        intro i hi
        rw [List.mem_range] at hi
        show _ = memoryOf (r :: rs) (b :: bs) s.page (s.offset.toNat + i)
        simp only [memoryOf]
        rw [if_neg]
        rintro ⟨h1, h2, h3⟩
        have := hr.1 s hs h1.symm
        omega

/-- An aborted run received no error from the I/O loop. -/
theorem conforming_of_panic {α : Type} {C : Call → Prop} {p : Prog α} (hp : AllCalls C p) {t : List Exchange}
    (h : Runs p t .panic) (ht : ProperReplies t) : Conforming t := by
  induction p generalizing t with
  | ret a => simp at h
  | fail e => simp at h
  | panic =>
    obtain ⟨rfl, -⟩ := runs_panic.1 h
    intro x hx
    cases hx
  | rpc c k ih =>
    obtain ⟨r, t', rfl, h'⟩ := runs_rpc.1 h
    obtain ⟨⟨-, -, he⟩, hk⟩ := hp
    intro x hx
    rcases List.mem_cons.1 hx with rfl | hx
    · cases r with
      | gone => exact absurd rfl (ht _ (List.mem_cons_self ..)).1
      | answer a =>
        cases a with
        | ok resp => exact (ht _ (List.mem_cons_self ..)).2 resp rfl
        | error e =>
          rw [he e] at h'
          cases (runs_fail.1 h').2
    · exact ih r (hk r) h' (fun x hx => ht x (List.mem_cons_of_mem _ hx)) x hx

theorem runs_discard_panic {α : Type} {p : Prog α} {t : List Exchange} (h : Runs (do let _ ← p : Prog Unit) t .panic) :
    Runs p t .panic := by
  rcases runs_bind.1 h with ⟨t₁, t₂, a, rfl, h1, h2⟩ | ⟨e, -, h2⟩ | ⟨h1, -⟩
  · cases (runs_ret.1 h2).2
  · cases h2
  · exact h1

theorem runs_map_panic {α β : Type} {p : Prog α} {f : α → β} {t : List Exchange}
    (h : Runs (p >>= fun a => pure (f a)) t .panic) : Runs p t .panic := by
  rcases runs_bind.1 h with ⟨t₁, t₂, a, rfl, h1, h2⟩ | ⟨e, -, h2⟩ | ⟨h1, -⟩
  · cases (runs_ret.1 h2).2
  · cases h2
  · exact h1

theorem dataOf_lengths {t : List Exchange} (hc : Conforming t) {p : Nat} {rds : List MemoryRead} {ds : List Bytes}
    (h : DataOf t p rds ds) : ds.map List.length = rds.map fun rd => rd.len.toNat := by
  unfold DataOf at h
  induction h with
  | nil => rfl
  | @cons rd b _ _ h _ ih =>
    obtain ⟨x, hx, g, h1, h2⟩ := h
    rw [List.map_cons, List.map_cons, ih, okIn_length_of h1 (hc x hx) h2]

/-! ## Decoders -/

/-- What a decoder that aborts was given. -/
theorem parse_panic {P : Type} {d : ModuleDecoder P} (hd : NonemptyReads d)
    (hs : ∀ id, SffModule id → ∃ rds, d.reads id = .ok rds ∧ rds.Pairwise Apart)
    (hm : ∀ id, CmisModule id → ∃ rds, d.reads id = .ok rds ∧ rds.Pairwise Apart)
    (hx : ∀ id, ¬ SffModule id → ¬ CmisModule id → d.reads id = .err (.unsupportedIdentifier id))
    (hsff : ∀ id mem, SffModule id → ∃ x, decodeFrom d id mem = .ok x)
    {m : ModuleId} {t : List Exchange} (h : Runs (parseModulesByIdentifier d m) t .panic) (hc : Conforming t) :
    ∃ t₁ t₂ p b rds mem, t = t₁ ++ t₂ ∧ Identified t₁ p b ∧ CmisModule (Bf.ofByte b) ∧ d.reads (Bf.ofByte b) = .ok rds ∧
      DataOf t₂ p rds (rds.map (answer mem)) ∧ decodeFrom d (Bf.ofByte b) mem = .panic := by
  obtain ⟨t₁, t₂, rfl, -, p, b, hi, h⟩ := C41_attributed d hd m t _ h hc
  have hc2 : Conforming t₂ := fun x hx => hc x (List.mem_append_right _ hx)
  have key : ∀ rds, d.reads (Bf.ofByte b) = .ok rds → rds.Pairwise Apart →
      ∃ mem, DataOf t₂ p rds (rds.map (answer mem)) ∧ decodeFrom d (Bf.ofByte b) mem = .panic := by
    intro rds h1 h2
    rcases h with h | ⟨rds', ds, h3, h4, h5⟩
    · rw [h1] at h; cases h
    · rw [h1] at h3
      cases h3
      have e := answer_memoryOf h2 (dataOf_lengths hc2 h4)
      refine ⟨memoryOf rds ds, e ▸ h4, ?_⟩
      unfold decodeFrom
      rw [h1]
      show d.parse _ _ = _
      rw [← e, h5]
  by_cases h1 : SffModule (Bf.ofByte b)
  · obtain ⟨rds, h2, h3⟩ := hs _ h1
    obtain ⟨mem, -, h4⟩ := key rds h2 h3
    obtain ⟨x, h5⟩ := hsff _ mem h1
    rw [h5] at h4; cases h4
  · by_cases h2 : CmisModule (Bf.ofByte b)
    · obtain ⟨rds, h3, h4⟩ := hm _ h2
      obtain ⟨mem, h5, h6⟩ := key rds h3 h4
      exact ⟨t₁, t₂, p, b, rds, mem, rfl, hi, h2, h3, h5, h6⟩
    · have e := hx _ h1 h2
      rcases h with h | ⟨rds', ds, h3, -⟩
      · rw [e] at h; cases h
      · rw [e] at h3; cases h3

theorem vendorInfo_no_panic {m : ModuleId} {t : List Exchange} (h : Runs (vendorInfo m) t .panic)
    (hc : Conforming t) : False := by
  obtain ⟨t₁, t₂, p, b, rds, mem, -, -, h1, -, -, h2⟩ := parse_panic C41_decoders.2.1
    (fun _ h => ⟨_, VendorInfo.reads_sff h, by decide⟩) (fun _ h => ⟨_, VendorInfo.reads_cmis h, by decide⟩)
    (fun _ h h' => (C54_refused h h' []).2.2.1) (fun _ mem h => (C53_sff h mem).2.1) h hc
  obtain ⟨x, hx⟩ := (C53_cmis_partial h1 mem).2.1
  rw [hx] at h2; cases h2

theorem memoryModel_panic {m : ModuleId} {t : List Exchange} (h : Runs (Controller.memoryModel m) t .panic)
    (hc : Conforming t) : SawReserved (.memoryModel m) t := by
  obtain ⟨t₁, t₂, p, b, rds, mem, h0, h1, h2, h3, h4, h5⟩ := parse_panic C41_decoders.2.2.1
    (fun _ h => ⟨_, MemoryModel.reads_sff h, by decide⟩) (fun _ h => ⟨_, MemoryModel.reads_cmis h, by decide⟩)
    (fun _ h h' => (C54_refused h h' []).2.2.2.2.1) (fun _ mem h => (C53_sff h mem).2.2.1) h hc
  exact ⟨t₁, t₂, p, b, rds, mem, h0, h1, h2, h3, h4, (C53_cmis_partial h2 mem).2.2.1.1 h5⟩

theorem monitors_panic {m : ModuleId} {t : List Exchange} (h : Runs (Controller.monitors m) t .panic)
    (hc : Conforming t) : SawReserved (.monitors m) t := by
  obtain ⟨t₁, t₂, p, b, rds, mem, h0, h1, h2, h3, h4, h5⟩ := parse_panic C41_decoders.2.2.2.1
    (fun _ h => ⟨_, Monitors.reads_sff h, by decide⟩) (fun _ h => ⟨_, Monitors.reads_cmis h, by decide⟩)
    (fun _ h h' => (C54_refused h h' []).2.2.2.2.2.2.1) (fun _ mem h => (C53_sff h mem).2.2.2.1) h hc
  exact ⟨t₁, t₂, p, b, rds, mem, h0, h1, h2, h3, h4, (C53_cmis_partial h2 mem).2.2.2.1.1 h5⟩

theorem datapath_panic {m : ModuleId} {t : List Exchange} (h : Runs (Controller.datapath m) t .panic)
    (hc : Conforming t) : SawReserved (.datapath m) t := by
  obtain ⟨t₁, t₂, p, b, rds, mem, h0, h1, h2, h3, h4, h5⟩ := parse_panic C41_decoders.2.2.2.2
    (fun _ h => ⟨_, Datapath.reads_sff h, by decide⟩) (fun _ h => ⟨_, Datapath.reads_cmis h, by decide⟩)
    (fun _ h h' => (C54_refused h h' []).2.2.2.2.2.2.2.2.1) (fun _ mem h => (C53_sff h mem).2.2.2.2) h hc
  exact ⟨t₁, t₂, p, b, rds, mem, h0, h1, h2, h3, h4, (C53_cmis_partial h2 mem).2.2.2.2.1 h5⟩

/-! ## The other methods -/

theorem command_no_panic {q : HostRequest} {m : ModuleId} (hq : IsCommand q) (hm : requestModules q = some m)
    {t : List Exchange} (h : Runs (noPayloadRequest q) t .panic) (hc : Conforming t) : False := by
  obtain ⟨r, res, -, h, -⟩ := noPayloadRequest_spec hq hm h hc
  cases h

theorem power_no_panic {m : ModuleId} {t : List Exchange} (h : Runs (power m) t .panic) (hc : Conforming t) : False := by
  obtain ⟨x, t₁, t₂, readable, -, -, -, -, -, h⟩ := power_spec h hc
  exact h

theorem setPower_no_panic {m : ModuleId} {s : PowerState} {t : List Exchange} (h : Runs (setPower m s) t .panic)
    (hc : Conforming t) : False := by
  have on : ∀ low, Runs (setPowerOn m low) t .panic → False := by
    intro low h
    rcases setPowerOn_spec h hc with ⟨e, -, h⟩ | ⟨tp, pw, t', rfl, -, ⟨-, -, -, h⟩ | ⟨-, t₁, t₂, modules, modes, failures,
      xs, xl, need, -, -, ha, -, h, hc⟩⟩
    · cases h
    · cases h
    · obtain ⟨ti, tw, -, -, -, ⟨res, h, -⟩ | ⟨p, code, -, -, h⟩, -⟩ := setSoft_spec ha h hc <;> cases h
  cases s with
  | off =>
    obtain ⟨x₁, x₂, x₃, s₁, s₂, res, -, -, -, -, -, -, h, -⟩ := C43_power_off m t _ h hc
    cases h
  | low => exact on true h
  | high => exact on false h

/-! ## C40 -/

/-- **C40**, the part that holds against an SP whose responses answer the requests: whatever errors the I/O loop reports and
at whatever point, a method aborts only if it decodes modules and some CMIS module returned a reserved code. Missing: other
responses of the right kind can abort it (`C40_counterexample`). -/
theorem C40_proper_partial (op : Op) (t : List Exchange) (h : Runs op.prog t .panic) (ht : ProperReplies t)
    (hlen : ∀ m rd, op = .read m rd → rd.len ≠ 0) : SawReserved op t := by
  have hc : Conforming t := conforming_of_panic (writes_op op) h ht
  cases op with
  | memoryModel m => exact memoryModel_panic (runs_discard_panic h) hc
  | monitors m => exact monitors_panic (runs_discard_panic h) hc
  | datapath m => exact datapath_panic (runs_discard_panic h) hc
  | vendorInfo m => exact (vendorInfo_no_panic (runs_discard_panic h) hc).elim
  | identifier m =>
    obtain ⟨res, h, -⟩ := identifier_spec (runs_discard_panic h) hc
    cases h
  | reset m =>
    obtain ⟨x₁, x₂, s, res, -, -, -, -, h, -⟩ := C38_reset m t _ (runs_discard_panic h) hc
    cases h
  | power m => exact (power_no_panic (runs_discard_panic h) hc).elim
  | setPower m s => exact (setPower_no_panic (runs_discard_panic h) hc).elim
  | status m =>
    obtain ⟨r, res, -, h, -⟩ := status_spec (runs_discard_panic h) hc
    cases h
  | extendedStatus m =>
    obtain ⟨r, res, -, h, -⟩ := extendedStatus_spec (runs_discard_panic h) hc
    cases h
  | leds m =>
    obtain ⟨r, res, -, h, -⟩ := leds_spec (runs_discard_panic h) hc
    cases h
  | write m w data =>
    obtain ⟨t₁, t₂, -, -, ⟨i, b, -, h, -⟩ | ⟨-, -, -, h⟩ | h⟩ := C36_write m w data t _ (runs_discard_panic h) hc
    · cases h
    · cases h
    · obtain ⟨-, -, s, r, res, -, -, h, -⟩ := h
      cases h
  | read m rd => exact (read_no_panic (hlen m rd rfl) (runs_discard_panic h) hc).elim
  | macAddrs =>
    have h := runs_discard_panic h
    obtain ⟨r, rfl, hr⟩ := C39_mac_addrs t _ h
    obtain ⟨q, R, data, h1, h2, ha⟩ := hc _ (List.mem_cons_self ..)
    cases (show q = .macAddrs from Option.some.inj h1.symm)
    have hk := ha.kind
    cases R <;> simp only [SameKind] at hk
    have := hr _ _ h2
    split at this <;> cases this
  | enablePower m => exact (command_no_panic (q := .enablePower m) (m := m) trivial rfl (runs_discard_panic h) hc).elim
  | disablePower m => exact (command_no_panic (q := .disablePower m) (m := m) trivial rfl (runs_discard_panic h) hc).elim
  | assertReset m => exact (command_no_panic (q := .assertReset m) (m := m) trivial rfl (runs_discard_panic h) hc).elim
  | deassertReset m => exact (command_no_panic (q := .deassertReset m) (m := m) trivial rfl (runs_discard_panic h) hc).elim
  | assertLpMode m => exact (command_no_panic (q := .assertLpMode m) (m := m) trivial rfl (runs_discard_panic h) hc).elim
  | deassertLpMode m => exact (command_no_panic (q := .deassertLpMode m) (m := m) trivial rfl (runs_discard_panic h) hc).elim
  | clearPowerFault m => exact (command_no_panic (q := .clearPowerFault m) (m := m) trivial rfl (runs_discard_panic h) hc).elim
  | clearDisableLatch m => exact (command_no_panic (q := .clearDisableLatch m) (m := m) trivial rfl (runs_discard_panic h) hc).elim
  | setLeds m s => exact (command_no_panic (q := .setLedState m s) (m := m) trivial rfl (runs_discard_panic h) hc).elim

/-- Module 0 is a CMIS module whose bias multiplier code is the reserved 3. -/
def reservedBench : Bench where
  memory _ _ _ _ := 0x18

/-- Such a module does abort a method, against an SP that answers every request. -/
example : ∃ t, Runs (Op.monitors ⟨1⟩).prog t .panic ∧ ProperReplies t ∧ t.length = 11 := by
  have hr := Bench.exec_runs reservedBench (Op.monitors ⟨1⟩).prog
  have ho : ((Op.monitors ⟨1⟩).prog.exec reservedBench.sp []).2 = .panic := by decide +kernel
  rw [ho] at hr
  have hc : Conforming ((Op.monitors ⟨1⟩).prog.exec reservedBench.sp []).1 :=
    reservedBench.exec_conforming (allCalls_bind (allCalls_parse _ _ fun _ _ => ⟨_, _, rfl⟩) fun _ => allCalls_pure _) []
  refine ⟨_, hr, fun x hx => ⟨?_, fun _ _ => hc x hx⟩, by decide +kernel⟩
  obtain ⟨q, R, data, -, h, -⟩ := hc x hx
  intro hg
  simp [responseOf, hg] at h

/-- An error of the I/O loop in place of an answer does not abort it. -/
example : Runs (Op.leds ⟨1⟩).prog [(Call.host (.ledState ⟨1⟩), .answer (.error (.maxRetries 3)))] (.err (.maxRetries 3)) :=
  ⟨rfl, rfl⟩

end Xcvr
