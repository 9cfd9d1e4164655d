import Verif.Props.Controller
import Verif.Props.Info
import Verif.Spec.Power

/-! # Lemmas about power -/

namespace Xcvr

open Spec Prog Controller

/-! ## Status bytes -/

theorem status_bits : ∀ s : U8,
    (Status.contains s poweredFlags = (bit s 5 && bit s 1)) ∧ (Status.contains s Status.reset = bit s 2) ∧
    (Status.contains s Status.lowPowerMode = bit s 3) ∧ needsPower s = decide (NeedsPower s) ∧
    (NeedsPower s ↔ ¬ (Status.contains s poweredFlags = true ∧ Status.contains s Status.reset = false)) := by
  decide +kernel

theorem needsPower_iff {s : U8} : needsPower s = true ↔ NeedsPower s := by
  rw [(status_bits s).2.2.2.1, decide_eq_true_eq]

theorem modeOf_eq (c : PowerControl) (s : U8) : modeOf c s = modeFor c s := by
  cases c with
  | overrideLpModePin low => rfl
  | useLpModePin =>
    simp only [modeOf, modeFor]
    rw [(status_bits s).2.2.1]

theorem status_record {x : Exchange} {m : ModuleId} (hx : x.1 = Call.host (.status m)) (hc : Conforms x) {p : Nat}
    {b : Bytes} (h : okIn x p = some b) : ∃ s, b = [s] := by
  obtain ⟨q, R, data, h1, h2, ha⟩ := hc
  have hq : q = .status m := by
    unfold requestOf at h1
    rw [hx] at h1
    simp only [Call.host, Message.new] at h1
    exact (Option.some.inj h1).symm
  subst hq
  have hk := ha.kind
  cases R with
  | status s f =>
    unfold okIn at h
    rw [h2] at h
    cases data with
    | none => simp at h
    | some d =>
      have hsz := ha.size
      simp only [Option.map_some, expectedTrailing, Option.some.injEq] at hsz
      simp only [record, responseModules, recordSize] at h
      split at h
      · rename_i hp
        simp only [Option.some.injEq] at h
        have hr := rank_lt_card hp
        have hl : b.length = 1 := by
          rw [← h, List.length_take, List.length_drop]
          omega
        match b, hl with
        | [s], _ => exact ⟨s, rfl⟩
      · simp at h
  | _ => simp [SameKind] at hk

/-- What a proper answer to a status request says. -/
theorem status_data {m : ModuleId} {x : Exchange} (hx : x.1 = Call.host (.status m)) (hc : Conforms x)
    {st : Res Controller.Status} (h : Reports (fun b => b.headD 0) m [x] st) (p : Nat) (s : U8) :
    datum st.modules st.data p = some s ↔ okIn x p = some [s] := by
  have := h.ok p
  rw [okAmong_singleton] at this
  unfold okAt at this
  rw [this]
  cases hb : okIn x p with
  | none => simp
  | some b =>
    obtain ⟨s', rfl⟩ := status_record hx hc hb
    simp

/-! ## Filtered data -/

theorem datum_filter {T : Type} {m : ModuleId} {d : List T} (f : U8 → T → Bool) (h : Aligned m d) (p : Nat) (x : T) :
    datum (filterModuleData m d f).1 (filterModuleData m d f).2 p = some x ↔
      datum m d p = some x ∧ f (BitVec.ofNat 8 p) x = true := by
  by_cases hp : p < 64
  · have hpp : (BitVec.ofNat 8 p).toNat = p := ofNat_toNat_lt hp
    have := (C04_filter m d f h).2 (BitVec.ofNat 8 p)
    rw [hpp] at this
    rw [this, Option.filter_eq_some_iff]
  · have : ∀ m : ModuleId, ¬ Mem m p := fun m hm => hp (mem_lt hm)
    rw [datum_none (this _), datum_none (this _)]
    simp

theorem mem_filter' {T : Type} {m : ModuleId} {d : List T} (f : U8 → T → Bool) (h : Aligned m d) (p : Nat) :
    Mem (filterModuleData m d f).1 p ↔ ∃ x, datum m d p = some x ∧ f (BitVec.ofNat 8 p) x = true := by
  rw [← datum_isSome (filterModuleData_pairs h).1, Option.isSome_iff_exists]
  exact exists_congr fun x => datum_filter f h p x

theorem mem_iff_datum {T : Type} {m : ModuleId} {d : List T} (h : Aligned m d) (p : Nat) :
    Mem m p ↔ ∃ x, datum m d p = some x := by
  rw [← datum_isSome h, Option.isSome_iff_exists]

/-! ## Power control never aborts -/

theorem byKind_no_panic {α : Type} (id : Identifier) {a b : Exec DecodeError α} (ha : a ≠ .panic) (hb : b ≠ .panic) :
    Decode.byKind id a b ≠ .panic := by
  by_cases hs : SffModule id
  · rw [Decode.byKind_sff hs]; exact ha
  · by_cases hc : CmisModule id
    · rw [Decode.byKind_cmis hc]; exact hb
    · rw [Decode.byKind_other hs hc]; simp

theorem firstOfFirst_bind {α : Type} (ds : List Bytes) (f : U8 → Exec DecodeError α) (hf : ∀ x, f x ≠ .panic) :
    (Decode.firstOfFirst ds >>= f) ≠ .panic := by
  match ds with
  | [] => show Exec.err _ ≠ _; simp
  | [] :: ds => show Exec.err _ ≠ _; simp
  | (x :: _) :: ds => exact hf x

theorem powerControl_no_panic (id : Identifier) (ds : List Bytes) :
    PowerControl.decoder.reads id ≠ .panic ∧ PowerControl.decoder.parse id ds ≠ .panic := by
  refine ⟨byKind_no_panic id (by simp [Decode.unw, Exec.unwrapExcept]; decide) (by decide),
    byKind_no_panic id (firstOfFirst_bind ds _ fun x => ?_) (firstOfFirst_bind ds _ fun x => ?_)⟩
  · show Exec.ok _ ≠ _; simp
  · show Exec.ok _ ≠ _; simp

theorem kind_of_code : ∀ b : U8, (interfaceOfCode b = some .sff8636 ↔ SffModule (Bf.ofByte b)) ∧
    (interfaceOfCode b = some .cmis ↔ CmisModule (Bf.ofByte b)) := by
  have h : ∀ b : U8, (interfaceOfCode b = some .sff8636 ↔ (b = 0x0d ∨ b = 0x11)) ∧
    (interfaceOfCode b = some .cmis ↔ (b = 0x18 ∨ b = 0x1e)) := by decide +kernel
  intro b
  refine ⟨(h b).1.trans ?_, (h b).2.trans ?_⟩
  · unfold SffModule
    exact ⟨by rintro (rfl | rfl) <;> simp, by rintro (h | h) <;> simp [ofByte_injective h]⟩
  · unfold CmisModule
    exact ⟨by rintro (rfl | rfl) <;> simp, by rintro (h | h) <;> simp [ofByte_injective h]⟩

theorem powerControl_unsupported {b : U8} {e : DecodeError} (h : PowerControl.decoder.reads (Bf.ofByte b) = .err e) :
    interfaceOfCode b = none ∧ e = .unsupportedIdentifier (Bf.ofByte b) := by
  by_cases hs : SffModule (Bf.ofByte b)
  · have := (C54_sff hs).1
    rw [h] at this
    exact this.elim
  · by_cases hc : CmisModule (Bf.ofByte b)
    · have := (C54_cmis hc).1
      rw [h] at this
      exact this.elim
    · rw [(C54_refused hs hc []).1] at h
      simp only [Exec.err.injEq] at h
      refine ⟨?_, h.symm⟩
      rw [← (kind_of_code b).1] at hs
      rw [← (kind_of_code b).2] at hc
      unfold interfaceOfCode at *
      split at hs
      · simp at hs
      · rename_i h1
        rw [if_neg h1] at hc ⊢
        split at hc
        · simp at hc
        · rename_i h2
          rw [if_neg h2]

theorem datum_zip' {A B : Type} {m : ModuleId} {a : List A} {b : List B} (ha : Aligned m a) (hb : Aligned m b) :
    Aligned m (a.zip b) ∧ ∀ p x y, datum m (a.zip b) p = some (x, y) ↔ datum m a p = some x ∧ datum m b p = some y := by
  refine ⟨by unfold Aligned at *; rw [List.length_zip]; omega, fun p x y => ?_⟩
  rw [datum_zip]
  cases datum m a p <;> cases datum m b p <;> simp

/-- A record comes from a module that was asked. -/
theorem okIn_asked {x : Exchange} (hc : Conforms x) {q : HostRequest} (hq : requestOf x = some q) {m : ModuleId}
    (hm : requestModules q = some m) {p : Nat} {b : Bytes} (h : okIn x p = some b) : Mem m p := by
  obtain ⟨q', R, data, h1, h2, ha⟩ := hc
  rw [hq, Option.some.injEq] at h1
  subst h1
  unfold okIn at h
  rw [h2] at h
  cases data with
  | none => simp at h
  | some d =>
    simp only [record] at h
    cases hR : responseModules R with
    | none => rw [hR] at h; simp at h
    | some sf =>
      rw [hR] at h
      simp only at h
      split at h
      · rename_i hp
        exact ((ha.split m sf.1 sf.2 hm hR p).1).2 (.inl hp)
      · cases h

theorem identified_asked {m : ModuleId} {t : List Exchange} (h : ReadsOf m identifierByte t) (hc : Conforming t) {p : Nat}
    {b : U8} (hb : Identified t p b) : Mem m p := by
  unfold Identified okAmong at hb
  obtain ⟨x, hx, hb⟩ := List.exists_of_findSome?_eq_some hb
  obtain ⟨gs, hs, hg⟩ := h
  have : x.1 ∈ t.map Prod.fst := List.mem_map_of_mem hx
  rw [hg] at this
  obtain ⟨g, hgs, hgx⟩ := List.mem_map.1 this
  have hq : requestOf x = some (.read g identifierByte) := by
    unfold requestOf
    rw [← hgx]; rfl
  exact (hs.1 p).2 ⟨g, hgs, okIn_asked (hc x hx) hq rfl hb⟩

/-! ## The power report -/

theorem count_zero {m : ModuleId} (h : m.count = 0) (p : Nat) : ¬ Mem m p := fun hp => by
  have := rank_lt_card hp
  rw [count_eq_card] at h
  omega

theorem readsOf_none {m : ModuleId} (h : ∀ p, ¬ Mem m p) (rd : MemoryRead) : ReadsOf m rd [] :=
  ⟨[], ⟨fun p => by simp [h], by simp, by simp⟩, rfl⟩

theorem readableModes_spec {r : ModuleId} {ss : List Controller.Status} (ha : Aligned r ss) {t : List Exchange}
    {o : Exec CtlError (Res PowerMode)} (h : Runs (readableModes r ss) t o) (hc : Conforming t) :
    ∃ t₁ t₂, t = t₁ ++ t₂ ∧ ReadsOf r identifierByte t₁ ∧
      ((∃ res, o = .ok res ∧ WF res ∧ Partition r res.modules res.failures.modules ∧
        (∀ p mode, okAt res p = some mode → ∃ s c, datum r ss p = some s ∧ Gave PowerControl.decoder t₁ t₂ p c ∧
          mode = modeFor c s) ∧
        ∀ p, Failed res p → ∃ e, OwnError PowerControl.decoder t₁ t₂ p e) ∨
      ∃ p b, Mem r p ∧ Identified t₁ p b ∧ interfaceOfCode b = none ∧
        o = .err (.transceiver (.decode (.unsupportedIdentifier (Bf.ofByte b))))) := by
  unfold readableModes at h
  split at h
  · rename_i h0
    simp only [pure_eq, runs_ret] at h
    obtain ⟨rfl, rfl⟩ := h
    have hn := count_zero h0
    refine ⟨[], [], rfl, readsOf_none hn _, .inl ⟨_, rfl, ⟨rfl, rfl, fun p hp => mem_empty hp.1⟩, fun p => ?_, ?_, ?_⟩⟩
    · simp [hn p, ModuleResult.default, mem_empty]
    · intro p mode hp
      rw [okAt, ModuleResult.default, datum_none mem_empty] at hp
      cases hp
    · exact fun p hp => absurd hp mem_empty
  · have hr : ∀ {t o}, Runs (powerControl r) t o → Conforming t → _ := fun {t o} h hc =>
      C41_attributed PowerControl.decoder C41_decoders.1 r t o h hc
    rcases runs_bind.1 h with ⟨t₃, t₄, a, rfl, h1, h2⟩ | ⟨e, h1, rfl⟩ | ⟨h1, rfl⟩
    · simp only [pure_eq, runs_ret] at h2
      obtain ⟨rfl, rfl⟩ := h2
      rw [List.append_nil] at hc ⊢
      obtain ⟨t₁, t₂, rfl, h3, h4⟩ := hr h1 hc
      refine ⟨t₁, t₂, rfl, h3, .inl ⟨_, rfl, ?_⟩⟩
      have hf := filterModuleData_pairs (f := fun index _ => a.modules.has index) ha
      have heq : (filterModuleData r ss fun index _ => a.modules.has index).1 = a.modules := by
        refine moduleId_ext_mem fun p => ?_
        rw [mem_filter' _ ha]
        constructor
        · rintro ⟨s, hs, hp⟩
          rw [has_eq (by rw [ofNat_toNat_lt (datum_lt hs)]; exact datum_lt hs), ofNat_toNat_lt (datum_lt hs)] at hp
          simpa using hp
        · intro hp
          obtain ⟨s, hs⟩ := (mem_iff_datum ha p).1 (((h4.split p).1).2 (.inl hp))
          refine ⟨s, hs, ?_⟩
          rw [has_eq (by rw [ofNat_toNat_lt (datum_lt hs)]; exact datum_lt hs), ofNat_toNat_lt (datum_lt hs)]
          simpa using hp
      have hf1 := hf.1
      have hdf := datum_filter (fun index _ => a.modules.has index) ha
      rw [heq] at hf1 hdf
      obtain ⟨hz1, hz2⟩ := datum_zip' h4.wf.1 hf1
      refine ⟨⟨?_, h4.wf.2⟩, h4.split, ?_, h4.failed⟩
      · show List.length _ = _
        rw [List.length_map]
        exact hz1
      · intro p mode hm
        rw [okAt, datum_map] at hm
        obtain ⟨⟨c, s⟩, hcs, rfl⟩ := Option.map_eq_some_iff.1 hm
        obtain ⟨hc', hs⟩ := (hz2 p c s).1 hcs
        exact ⟨s, c, ((hdf p s).1 hs).1, h4.ok p c hc', modeOf_eq c s⟩
    · obtain ⟨t₁, t₂, rfl, h3, p, b, e', h4, h5, rfl⟩ := hr h1 hc
      obtain ⟨h6, rfl⟩ := powerControl_unsupported h5
      exact ⟨t₁, t₂, rfl, h3, .inr ⟨p, b, identified_asked h3 (fun x hx => hc x (List.mem_append_left _ hx)) h4, h4, h6, rfl⟩⟩
    · obtain ⟨t₁, t₂, rfl, h3, p, b, h4, h5 | ⟨rds, ds, -, -, h5⟩⟩ := hr h1 hc
      · exact absurd h5 (powerControl_no_panic _ []).1
      · exact absurd h5 (powerControl_no_panic _ _).2

theorem power_spec {m : ModuleId} {t : List Exchange} {o : Exec CtlError (Res PowerMode)} (h : Runs (power m) t o)
    (hc : Conforming t) :
    ∃ x t₁ t₂ readable, t = x :: (t₁ ++ t₂) ∧ x.1 = Call.host (.status m) ∧ Conforms x ∧
      (∀ p, Mem readable p ↔ Readable x p) ∧ ReadsOf readable identifierByte t₁ ∧ PowerEnds m x t₁ t₂ o := by
  unfold power at h
  obtain ⟨t₃, t₄, st, rfl, h1, hc1, h2, hc2⟩ := runs_bind_ok h hc fun t o h hc => by
    obtain ⟨r, res, -, rfl, -⟩ := status_spec h hc
    exact ⟨_, rfl⟩
  obtain ⟨r, res, rfl, h3, hst⟩ := status_spec h1 hc1
  simp only [Exec.ok.injEq] at h3
  subst h3
  have hcx := hc1 _ (List.mem_cons_self ..)
  have hd := status_data (m := m) rfl hcx hst
  have hx1 : (Call.host (.status m), r).1 = Call.host (.status m) := rfl
  generalize (Call.host (.status m), r) = x at *
  dsimp only at h2
  have hal := hst.wf.1
  have hf1 := filterModuleData_pairs (f := fun _ (s : Status) => s.contains poweredFlags) hal
  have hd1 := datum_filter (fun _ (s : Status) => s.contains poweredFlags) hal
  generalize filterModuleData st.modules st.data (fun _ (s : Status) => s.contains poweredFlags) = P at *
  obtain ⟨powered, ps⟩ := P
  dsimp only at h2 hd1 hf1
  have hf2 := filterModuleData_pairs (f := fun _ (s : Status) => s.contains Status.reset) hf1.1
  have hd2 := datum_filter (fun _ (s : Status) => s.contains Status.reset) hf1.1
  generalize filterModuleData powered ps (fun _ (s : Status) => s.contains Status.reset) = R at *
  obtain ⟨inReset, rs⟩ := R
  dsimp only at h2 hd2 hf2
  have hf3 := C04_remove powered inReset ps hf1.1
  generalize removeModuleData powered ps inReset = R at *
  obtain ⟨readable, rd⟩ := R
  dsimp only at h2 hf3
  obtain ⟨hm3, ha3, hd3⟩ := hf3
  -- the readable modules and the others
  have hrd : ∀ p s, datum readable rd p = some s ↔ okIn x p = some [s] ∧ ¬ NeedsPower s := by
    intro p s
    have hir := mem_iff_datum hf2.1 p
    simp only [hd2, hd1, hd] at hir
    have hb := (status_bits s).2.2.2.2
    rw [hd3]
    split
    · rename_i hp
      obtain ⟨s', ⟨h4, h5⟩, h6⟩ := hir.1 hp
      constructor
      · intro h; cases h
      · rintro ⟨h7, h8⟩
        rw [h4, Option.some.injEq, List.cons.injEq] at h7
        rw [← h7.1] at hb h8
        rw [hb, h5, h6] at h8
        simp at h8
    · rename_i hp
      rw [hd1, hd]
      constructor
      · rintro ⟨h4, h5⟩
        refine ⟨h4, fun h6 => hb.1 h6 ⟨h5, ?_⟩⟩
        cases h7 : Status.contains s Status.reset with
        | false => rfl
        | true => exact absurd (hir.2 ⟨s, ⟨h4, h5⟩, h7⟩) hp
      · rintro ⟨h4, h5⟩
        rw [hb, Classical.not_not] at h5
        exact ⟨h4, h5.1⟩
  have hoff : ∀ p, Mem ((st.modules.remove powered).merge inReset) p ↔ ∃ s, okIn x p = some [s] ∧ NeedsPower s := by
    intro p
    rw [mem_merge, mem_remove, mem_iff_datum hal, mem_iff_datum hf1.1, mem_iff_datum hf2.1]
    simp only [hd2, hd1, hd]
    constructor
    · rintro (⟨⟨s, h4⟩, h5⟩ | ⟨s, ⟨h4, h5⟩, h6⟩)
      · refine ⟨s, h4, ?_⟩
        rw [(status_bits s).2.2.2.2]
        exact fun h6 => h5 ⟨s, h4, h6.1⟩
      · refine ⟨s, h4, ?_⟩
        rw [(status_bits s).2.2.2.2, h6]
        simp
    · rintro ⟨s, h4, h5⟩
      rw [(status_bits s).2.2.2.2] at h5
      by_cases hp : Status.contains s poweredFlags = true
      · right
        refine ⟨s, ⟨h4, hp⟩, ?_⟩
        cases h7 : Status.contains s Status.reset with
        | false => exact absurd ⟨hp, h7⟩ h5
        | true => rfl
      · left
        refine ⟨⟨s, h4⟩, ?_⟩
        rintro ⟨s', h6, h7⟩
        rw [h4, Option.some.injEq, List.cons.injEq] at h6
        rw [← h6.1] at h7
        exact hp h7
  have hread : ∀ p, Mem readable p ↔ Readable x p := by
    intro p
    rw [mem_iff_datum ha3]
    exact exists_congr fun s => hrd p s
  have hall : ∀ p, Mem st.modules p ↔ ∃ s, okIn x p = some [s] := by
    intro p
    rw [mem_iff_datum hal]
    exact exists_congr fun s => hd p s
  have hx : ∃ t₁ t₂, t₄ = t₁ ++ t₂ ∧ ReadsOf readable identifierByte t₁ ∧ PowerEnds m x t₁ t₂ o := by
    rcases runs_bind.1 h2 with ⟨t₅, t₆, a, rfl, h4, h5⟩ | ⟨e, h4, rfl⟩ | ⟨h4, rfl⟩
    · simp only [pure_eq, runs_ret] at h5
      obtain ⟨rfl, rfl⟩ := h5
      rw [List.append_nil] at hc2 ⊢
      obtain ⟨t₁, t₂, rfl, h6, ⟨res, h7, h8, h9, h10, h11⟩ | ⟨_, _, _, _, _, h7⟩⟩ := readableModes_spec ha3 h4 hc2
      · simp only [Exec.ok.injEq] at h7
        subst h7
        refine ⟨t₁, t₂, rfl, h6, ?_⟩
        generalize (st.modules.remove powered).merge inReset = off at *
        have hrep : Aligned off (List.replicate off.count PowerMode.default) := by
          show List.length _ = _
          rw [List.length_replicate, count_eq_card]
        obtain ⟨hm, hA, hD⟩ := C03_merge off a.modules _ a.data hrep h8.1
        have hdisj : ∀ p, ¬ (Mem off p ∧ Mem a.modules p) := by
          rintro p ⟨h12, h13⟩
          obtain ⟨s, h14, h15⟩ := (hoff p).1 h12
          obtain ⟨s', h16, h17⟩ := (hread p).1 (((h9 p).1).2 (.inl h13))
          rw [h14, Option.some.injEq, List.cons.injEq] at h16
          rw [h16.1] at h15
          exact h17 h15
        have hall' : ∀ p, Mem st.modules p ↔ Mem off p ∨ Mem readable p := by
          intro p
          rw [hall, hoff, hread, Readable, ← exists_or]
          exact exists_congr fun s => by by_cases hn : NeedsPower s <;> simp [hn]
        have hsplit : Partition m (mergeModuleData off (List.replicate off.count PowerMode.default) a.modules a.data).1
            (a.failures.merge st.failures).modules := by
          intro p
          have e1 : Mem (a.failures.merge st.failures).modules p ↔ Mem a.failures.modules p ∨ Mem st.failures.modules p :=
            mem_merge
          have e2 := hst.split p
          have e3 := h9 p
          have e4 := hall' p
          have e5 : ¬ (Mem off p ∧ Mem readable p) := by
            rintro ⟨h12, h13⟩
            obtain ⟨s, h14, h15⟩ := (hoff p).1 h12
            obtain ⟨s', h16, h17⟩ := (hread p).1 h13
            rw [h14, Option.some.injEq, List.cons.injEq] at h16
            rw [h16.1] at h15
            exact h17 h15
          have e6 := hm p
          rw [e1, e6]
          grind
        refine ⟨⟨hA, aligned_merge h8.2.1 hst.wf.2.1, fun p => (hsplit p).2⟩, hsplit, ?_, ?_, ?_⟩
        · intro p mode hmode
          replace hmode : (if Mem a.modules p then datum a.modules a.data p else
              datum off (List.replicate off.count PowerMode.default) p) = some mode := by
            rw [← hD]; exact hmode
          split at hmode
          · obtain ⟨s, c, h12, h13, h14⟩ := h10 p mode hmode
            obtain ⟨h15, h16⟩ := (hrd p s).1 h12
            exact ⟨s, h15, .inr ⟨h16, c, h13, h14⟩⟩
          · rw [datum_replicate (count_eq_card _)] at hmode
            split at hmode
            · rename_i hp
              obtain ⟨s, h14, h15⟩ := (hoff p).1 hp
              simp only [Option.some.injEq] at hmode
              exact ⟨s, h14, .inl ⟨h15, hmode.symm⟩⟩
            · cases hmode
        · intro p s hp hs
          have hpo := (hoff p).2 ⟨s, hp, hs⟩
          show datum _ _ p = _
          rw [hD, if_neg fun ha => hdisj p ⟨hpo, ha⟩, datum_replicate (count_eq_card _), if_pos hpo]
          rfl
        · intro p hp
          rcases (mem_merge (m := a.failures.modules) (n := st.failures.modules)).1 hp with hp | hp
          · exact .inr (h11 p hp)
          · left
            rw [← errAmong_singleton]
            exact (reports_mem_err hst).2 hp
      · cases h7
    · obtain ⟨t₁, t₂, rfl, h6, ⟨res, h7, -⟩ | ⟨p, b, h7, h8, h9, h10⟩⟩ := readableModes_spec ha3 h4 hc2
      · cases h7
      · simp only [Exec.err.injEq] at h10
        exact ⟨t₁, t₂, rfl, h6, p, b, (hread p).1 h7, h8, h9, h10⟩
    · obtain ⟨t₁, t₂, rfl, h6, ⟨res, h7, -⟩ | ⟨p, b, h7, h8, h9, h10⟩⟩ := readableModes_spec ha3 h4 hc2
      · cases h7
      · cases h10
  obtain ⟨t₁, t₂, rfl, h4, h5⟩ := hx
  exact ⟨x, t₁, t₂, readable, rfl, hx1, hcx, hread, h4, h5⟩

end Xcvr
