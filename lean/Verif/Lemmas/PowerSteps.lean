import Verif.Lemmas.Power
import Verif.Lemmas.Ops

/-! # Lemmas about the steps of powering on -/

namespace Xcvr

open Spec Prog Controller

/-! ## Filters without alignment -/

theorem filter_sub {T : Type} {m : ModuleId} {d : List T} {f : U8 → T → Bool} {p : Nat}
    (h : Mem (filterModuleData m d f).1 p) : Mem m p ∧ ∃ x, f (BitVec.ofNat 8 p) x = true := by
  unfold filterModuleData at h
  rw [filterModuleData_fold] at h
  have hl : ∀ a ∈ (m.toIndices.zip d).filter (fun p => f p.1 p.2), a.1.toNat < 64 := by
    intro a ha
    have := (List.of_mem_zip (List.mem_filter.1 ha).1).1
    exact mem_lt (mem_toIndices.1 this)
  rcases (mem_fold_set _ _ hl p).1 h with h | ⟨a, ha, rfl⟩
  · exact absurd h mem_empty
  · obtain ⟨h1, h2⟩ := List.mem_filter.1 ha
    refine ⟨mem_toIndices.1 (List.of_mem_zip h1).1, a.2, ?_⟩
    rw [BitVec.ofNat_toNat, BitVec.setWidth_eq]
    exact h2

/-! ## Partitions -/

theorem partition_step {m s s' : ModuleId} {f f' : FailedModules TransceiverError} (h : Partition m s f.modules)
    (h' : Partition s s' f'.modules) : Partition m s' (f.merge f').modules := by
  intro p
  have e : Mem (f.merge f').modules p ↔ Mem f.modules p ∨ Mem f'.modules p := mem_merge
  have h1 := h p
  have h2 := h' p
  rw [e]
  grind

/-- A result is well formed and reports each of `m` once. -/
structure Covers (m s : ModuleId) (f : FailedModules TransceiverError) : Prop where
  split : Partition m s f.modules
  aligned : Aligned f.modules f.errors

theorem Covers.step {m s s' : ModuleId} {f f' : FailedModules TransceiverError} (h : Covers m s f) (h' : Covers s s' f') :
    Covers m s' (f.merge f') := ⟨partition_step h.split h'.split, aligned_merge h.aligned h'.aligned⟩

theorem Covers.of_reports {P : Type} {g : Bytes → P} {m : ModuleId} {t : List Exchange} {r : Res P}
    (h : Reports g m t r) : Covers m r.modules r.failures := ⟨h.split, h.wf.2.1⟩

/-! ## Steps -/

/-- A step that is skipped if there is nothing to do. -/
def StepRan (q : ModuleId → HostRequest) (target modules : ModuleId) (failures : FailedModules TransceiverError)
    (t : List Exchange) (modules' : ModuleId) (failures' : FailedModules TransceiverError) : Prop :=
  ((∃ p, Mem target p) ∧ ∃ (x : Exchange) (r : Res Unit), t = [x] ∧ x.1 = Call.host (q target) ∧
    Reports (fun _ => ()) target [x] r ∧ modules' = r.modules ∧ failures' = failures.merge r.failures) ∨
  ((∀ p, ¬ Mem target p) ∧ t = [] ∧ modules' = modules ∧ failures' = failures)

theorem count_pos {m : ModuleId} (h : m.count > 0) : ∃ p, Mem m p := by
  apply Classical.byContradiction
  intro hn
  have : m = ModuleId.empty := moduleId_ext_mem fun p => ⟨fun hp => absurd ⟨p, hp⟩ hn, fun hp => absurd hp mem_empty⟩
  subst this
  revert h
  decide

theorem stepIfAny_spec {q : ModuleId → HostRequest} (hq : ∀ m, IsCommand (q m))
    (hm : ∀ m, requestModules (q m) = some m) {target modules : ModuleId}
    {failures : FailedModules TransceiverError} {t : List Exchange}
    {o : Exec CtlError (ModuleId × FailedModules TransceiverError)}
    (h : Runs (stepIfAny (fun m => noPayloadRequest (q m)) target modules failures) t o) (hc : Conforming t) :
    ∃ m' f', o = .ok (m', f') ∧ StepRan q target modules failures t m' f' := by
  unfold stepIfAny at h
  split at h
  · rename_i h0
    obtain ⟨t₁, t₂, a, rfl, h1, hc1, h2, -⟩ := runs_bind_ok h hc fun t o h hc => by
      obtain ⟨r, res, -, rfl, -⟩ := noPayloadRequest_spec (hq target) (hm target) h hc
      exact ⟨_, rfl⟩
    obtain ⟨r, res, rfl, h3, h4⟩ := noPayloadRequest_spec (hq target) (hm target) h1 hc1
    simp only [Exec.ok.injEq] at h3
    subst h3
    simp only [pure_eq, runs_ret] at h2
    obtain ⟨rfl, rfl⟩ := h2
    exact ⟨_, _, rfl, .inl ⟨count_pos h0, _, a, rfl, rfl, h4, rfl, rfl⟩⟩
  · rename_i h0
    simp only [pure_eq, runs_ret] at h
    obtain ⟨rfl, rfl⟩ := h
    exact ⟨_, _, rfl, .inr ⟨count_zero (by omega), rfl, rfl, rfl⟩⟩

/-- What powering on does after the power report `pw`, until only the software settings remain. -/
structure OnSteps (low : Bool) (pw : Res PowerMode) (t : List Exchange) (modules : ModuleId)
    (failures : FailedModules TransceiverError) (xs xl : Exchange) (need : ModuleId) : Prop where
  /-- The steps: status, assert reset, enable power, set the low power pin, deassert reset. -/
  steps : ∃ (st : Res Controller.Status) (ta tb td : List Exchange) (noReset m₁ m₂ : ModuleId)
    (f₁ f₂ : FailedModules TransceiverError) (rl : Res Unit),
    t = xs :: (ta ++ (tb ++ xl :: td)) ∧
    Reports (fun b => b.headD 0) pw.modules [xs] st ∧
    (∀ p, Mem noReset p ↔ ∃ s, okIn xs p = some [s] ∧ NeedsPower s ∧ bit s 2 = false) ∧
    StepRan .assertReset noReset st.modules (pw.failures.merge st.failures) ta m₁ f₁ ∧
    StepRan .enablePower need m₁ f₁ tb m₂ f₂ ∧
    xl.1 = Call.host (if low then .assertLpMode m₂ else .deassertLpMode m₂) ∧
    Reports (fun _ => ()) m₂ [xl] rl ∧
    StepRan .deassertReset need rl.modules (f₂.merge rl.failures) td modules failures
  status : xs.1 = Call.host (.status pw.modules)
  conforms : Conforms xs
  need : ∀ p, Mem need p ↔ ∃ s, okIn xs p = some [s] ∧ NeedsPower s

theorem setPowerOn_spec {m : ModuleId} {low : Bool} {t : List Exchange} {o : Exec CtlError (Res Unit)}
    (h : Runs (setPowerOn m low) t o) (hc : Conforming t) :
    (∃ e, Runs (power m) t (.err e) ∧ o = .err e) ∨
    ∃ tp pw t', t = tp ++ t' ∧ Runs (power m) tp (.ok pw) ∧
      ((low = false ∧ (∃ mode ∈ pw.data, mode.state = .off) ∧ t' = [] ∧ o = .err .invalidPowerStateTransition) ∨
       ((low = false → ∀ mode ∈ pw.data, mode.state ≠ .off) ∧
        ∃ t₁ t₂ modules modes failures xs xl need, t' = t₁ ++ t₂ ∧ OnSteps low pw t₁ modules failures xs xl need ∧
          Aligned modules modes ∧ (∀ p, datum modules modes p = if Mem modules p then okAt pw p else none) ∧
          Runs (setSoftwarePowerState ⟨modules, modes, failures⟩ low) t₂ o ∧ Conforming t₂)) := by
  unfold setPowerOn at h
  rcases runs_bind.1 h with ⟨tp, t', pw, rfl, h1, h2⟩ | ⟨e, h1, rfl⟩ | ⟨h1, rfl⟩
  · right
    have hcp : Conforming tp := fun x hx => hc x (List.mem_append_left _ hx)
    have hc' : Conforming t' := fun x hx => hc x (List.mem_append_right _ hx)
    obtain ⟨x, t₁, t₂, readable, -, -, -, -, -, hpw, hpart, -⟩ := power_spec h1 hcp
    refine ⟨tp, pw, t', rfl, h1, ?_⟩
    split at h2
    · rename_i hoff
      left
      simp only [Bool.and_eq_true, Bool.not_eq_true', List.any_eq_true, decide_eq_true_eq] at hoff
      rw [runs_fail] at h2
      exact ⟨hoff.1, hoff.2, h2.1, h2.2⟩
    · rename_i hoff
      right
      refine ⟨fun hl mode hm he => hoff ?_, ?_⟩
      · simp only [Bool.and_eq_true, Bool.not_eq_true', List.any_eq_true, decide_eq_true_eq]
        exact ⟨hl, mode, hm, he⟩
      clear hoff h h1 hc hcp hpart
      obtain ⟨t₃, t₄, st, rfl, h3, hc3, h4, hc4⟩ := runs_bind_ok h2 hc' fun t o h hc => by
        obtain ⟨r, res, -, rfl, -⟩ := status_spec h hc
        exact ⟨_, rfl⟩
      obtain ⟨r, res, rfl, h5, hst⟩ := status_spec h3 hc3
      simp only [Exec.ok.injEq] at h5
      subst h5
      have hcx := hc3 _ (List.mem_cons_self ..)
      have hd := status_data rfl hcx hst
      have hx1 : (Call.host (.status pw.modules), r).1 = Call.host (.status pw.modules) := rfl
      generalize (Call.host (.status pw.modules), r) = xs at *
      dsimp only at h4
      have hal := hst.wf.1
      have hneed : ∀ p, Mem (filterModuleData st.modules st.data fun _ s => needsPower s).1 p ↔
          ∃ s, okIn xs p = some [s] ∧ NeedsPower s := by
        intro p
        rw [mem_filter' _ hal]
        exact exists_congr fun s => by rw [hd, needsPower_iff]
      have hnr : ∀ p, Mem ((filterModuleData st.modules st.data fun _ s => needsPower s).1.remove
          (filterModuleData st.modules st.data fun _ s => s.contains Status.reset).1) p ↔
          ∃ s, okIn xs p = some [s] ∧ NeedsPower s ∧ bit s 2 = false := by
        intro p
        rw [mem_remove, hneed, mem_filter' _ hal]
        simp only [hd, (status_bits _).2.1]
        constructor
        · rintro ⟨⟨s, h6, h7⟩, h8⟩
          refine ⟨s, h6, h7, ?_⟩
          cases hb : bit s 2 with
          | false => rfl
          | true => exact absurd ⟨s, h6, hb⟩ h8
        · rintro ⟨s, h6, h7, h8⟩
          refine ⟨⟨s, h6, h7⟩, ?_⟩
          rintro ⟨s', h9, h10⟩
          rw [h6, Option.some.injEq, List.cons.injEq] at h9
          rw [← h9.1, h8] at h10
          cases h10
      generalize (filterModuleData st.modules st.data fun _ s => needsPower s).1.remove
          (filterModuleData st.modules st.data fun _ s => s.contains Status.reset).1 = noReset at *
      generalize (filterModuleData st.modules st.data fun _ s => needsPower s).1 = need at *
      obtain ⟨ta, t₅, a, rfl, h6, hc6, h7, hc7⟩ := runs_bind_ok h4 hc4 fun t o h hc => by
        obtain ⟨m', f', rfl, -⟩ := stepIfAny_spec (q := .assertReset) (fun _ => trivial) (fun _ => rfl) h hc
        exact ⟨_, rfl⟩
      obtain ⟨m₁, f₁, h8, ha⟩ := stepIfAny_spec (q := .assertReset) (fun _ => trivial) (fun _ => rfl) h6 hc6
      simp only [Exec.ok.injEq] at h8
      subst h8
      dsimp only at h7
      obtain ⟨tb, t₆, a, rfl, h9, hc9, h10, hc10⟩ := runs_bind_ok h7 hc7 fun t o h hc => by
        obtain ⟨m', f', rfl, -⟩ := stepIfAny_spec (q := .enablePower) (fun _ => trivial) (fun _ => rfl) h hc
        exact ⟨_, rfl⟩
      obtain ⟨m₂, f₂, h11, hb⟩ := stepIfAny_spec (q := .enablePower) (fun _ => trivial) (fun _ => rfl) h9 hc9
      simp only [Exec.ok.injEq] at h11
      subst h11
      dsimp only at h10
      have hcmd : IsCommand (if low then .assertLpMode m₂ else .deassertLpMode m₂) := by cases low <;> trivial
      have hreq : requestModules (if low then .assertLpMode m₂ else .deassertLpMode m₂) = some m₂ := by
        cases low <;> rfl
      replace h10 : Runs (noPayloadRequest (if low then .assertLpMode m₂ else .deassertLpMode m₂) >>= fun r => do
          let x ← stepIfAny deassertReset need r.modules (f₂.merge r.failures)
          setSoftwarePowerState ⟨x.1, (keepModuleData pw.modules pw.data x.1).2, x.2⟩ low) t₆ o := by
        cases low <;> exact h10
      obtain ⟨tl, t₇, rl, rfl, h12, hc12, h13, hc13⟩ := runs_bind_ok h10 hc10 fun t o h hc => by
        obtain ⟨r, res, -, rfl, -⟩ := noPayloadRequest_spec hcmd hreq h hc
        exact ⟨_, rfl⟩
      obtain ⟨r', res, rfl, h14, hrl⟩ := noPayloadRequest_spec hcmd hreq h12 hc12
      simp only [Exec.ok.injEq] at h14
      subst h14
      obtain ⟨td, t₈, a, rfl, h15, hc15, h16, hc16⟩ := runs_bind_ok h13 hc13 fun t o h hc => by
        obtain ⟨m', f', rfl, -⟩ := stepIfAny_spec (q := .deassertReset) (fun _ => trivial) (fun _ => rfl) h hc
        exact ⟨_, rfl⟩
      obtain ⟨m₃, f₃, h17, hdr⟩ := stepIfAny_spec (q := .deassertReset) (fun _ => trivial) (fun _ => rfl) h15 hc15
      simp only [Exec.ok.injEq] at h17
      subst h17
      dsimp only at h16
      -- the final modules are among those of the power report
      have sub : ∀ {P : Type} {g : Bytes → P} {m : ModuleId} {t : List Exchange} {r : Res P}, Reports g m t r →
          ∀ p, Mem r.modules p → Mem m p := fun h p hp => ((h.split p).1).2 (.inl hp)
      have hst' := sub hst
      have hneed' : ∀ p, Mem need p → Mem st.modules p := by
        intro p hp
        obtain ⟨s, h18, -⟩ := (hneed p).1 hp
        exact (mem_iff_datum hal p).2 ⟨s, (hd p s).2 h18⟩
      have hnr' : ∀ p, Mem noReset p → Mem st.modules p := by
        intro p hp
        obtain ⟨s, h18, -⟩ := (hnr p).1 hp
        exact (mem_iff_datum hal p).2 ⟨s, (hd p s).2 h18⟩
      have hs1 : ∀ p, Mem m₁ p → Mem st.modules p := by
        rcases ha with ⟨-, x, r, -, -, hr, rfl, -⟩ | ⟨-, -, rfl, -⟩
        · exact fun p hp => hnr' p (sub hr p hp)
        · exact fun p hp => hp
      have hs2 : ∀ p, Mem m₂ p → Mem st.modules p := by
        rcases hb with ⟨-, x, r, -, -, hr, rfl, -⟩ | ⟨-, -, rfl, -⟩
        · exact fun p hp => hneed' p (sub hr p hp)
        · exact hs1
      have hs3 : ∀ p, Mem m₃ p → Mem st.modules p := by
        rcases hdr with ⟨-, x, r, -, -, hr, rfl, -⟩ | ⟨-, -, rfl, -⟩
        · exact fun p hp => hneed' p (sub hr p hp)
        · exact fun p hp => hs2 p (sub hrl p hp)
      obtain ⟨hk1, hk2, hk3⟩ := C04_keep pw.modules m₃ pw.data hpw.1
      have hkm : (keepModuleData pw.modules pw.data m₃).1 = m₃ :=
        moduleId_ext_mem fun p => (hk1 p).trans ⟨fun h => h.2, fun h => ⟨hst' p (hs3 p h), h⟩⟩
      rw [hkm] at hk2 hk3
      refine ⟨xs :: (ta ++ (tb ++ (Call.host (if low then .assertLpMode m₂ else .deassertLpMode m₂), r') :: td)), t₈, m₃, _,
        f₃, xs, _, need, by simp [List.append_assoc],
        ⟨⟨st, ta, tb, td, noReset, m₁, m₂, f₁, f₂, rl, rfl, hst, hnr, ha, hb, rfl, hrl, hdr⟩, hx1, hcx, hneed⟩,
        hk2, hk3, h16, hc16⟩
  · exact .inl ⟨e, h1, rfl⟩
  · obtain ⟨_, _, _, _, -, -, -, -, -, h3⟩ := power_spec h1 hc
    exact h3.elim

/-! ## The software settings -/

theorem powerWord_eq : ∀ (b : U8) (ov low : Bool), powerWord (Bf.ofByte b) ov low =
    if interfaceOfCode b = some .sff8636 then
      .ok (⟨.sff8636 .lower, 93, 1⟩, (if low then 0b10 else 0) ||| (if ov then 1 else 0))
    else if interfaceOfCode b = some .cmis then
      .ok (⟨.sff8636 .lower, 26, 1⟩, (if low then 0b10000 else 0) ||| (if ov then 0 else 0b1000000))
    else .err (.transceiver (.decode (.unsupportedIdentifier (Bf.ofByte b)))) := by
  decide +kernel

theorem selects_of_word {code : U8} {ov low : Bool} {w : MemoryWrite} {b : U8}
    (h : powerWord (Bf.ofByte code) ov low = .ok (w, b)) : Selects code w b ov low := by
  rw [powerWord_eq] at h
  split at h
  · rename_i hs
    simp only [Exec.ok.injEq, Prod.mk.injEq] at h
    obtain ⟨rfl, rfl⟩ := h
    refine .inl ⟨hs, rfl, ?_⟩
    revert ov low
    decide
  · split at h
    · rename_i hs
      simp only [Exec.ok.injEq, Prod.mk.injEq] at h
      obtain ⟨rfl, rfl⟩ := h
      refine .inr ⟨hs, rfl, ?_⟩
      revert ov low
      decide
    · cases h

theorem powerWord_ends (code : U8) (ov low : Bool) :
    (∃ w b, powerWord (Bf.ofByte code) ov low = .ok (w, b) ∧ w.len = 1) ∨
    (interfaceOfCode code = none ∧ powerWord (Bf.ofByte code) ov low =
      .err (.transceiver (.decode (.unsupportedIdentifier (Bf.ofByte code))))) := by
  rw [powerWord_eq]
  split
  · exact .inl ⟨_, _, rfl, rfl⟩
  · rename_i h1
    split
    · exact .inl ⟨_, _, rfl, rfl⟩
    · rename_i h2
      refine .inr ⟨?_, rfl⟩
      unfold interfaceOfCode at *
      split at h1
      · simp at h1
      · rename_i h3
        rw [if_neg h3] at h2 ⊢
        split at h2
        · simp at h2
        · rename_i h4
          rw [if_neg h4]

/-- A write of the power control byte of kind `code`. -/
def SoftWritten (code : U8) (ov low : Bool) (g : ModuleId) (x : Exchange) (r : Res Unit) : Prop :=
  (∃ w b, Selects code w b ov low ∧ x.1 = Call.host (.write g w) (some [b])) ∧ Reports (fun _ => ()) g [x] r

/-- The error for an unsupported kind. -/
def unsupported (code : U8) : CtlError := .transceiver (.decode (.unsupportedIdentifier (Bf.ofByte code)))

theorem softWrite_spec {code : U8} {low : Bool} {s : SoftState} {p : Bool × ModuleId} {t : List Exchange}
    {o : Exec CtlError SoftState} (h : Runs (softWrite (Bf.ofByte code) low s p) t o) (hc : Conforming t) :
    (∃ x r, t = [x] ∧ SoftWritten code p.1 low p.2 x r ∧
      o = .ok ⟨r.modules, (removeModuleData p.2 s.modes r.failures.modules).2, s.failures.merge r.failures⟩) ∨
    (interfaceOfCode code = none ∧ t = [] ∧ o = .err (unsupported code)) := by
  unfold softWrite at h
  rcases powerWord_ends code p.1 low with ⟨w, b, h1, h2⟩ | ⟨h1, h2⟩
  · left
    rw [h1, ofExec_ok, ret_bind] at h
    dsimp only at h
    have hl : w.len.toNat = [b].length := by rw [h2]; rfl
    obtain ⟨t₁, t₂, a, rfl, h3, hc3, h4, -⟩ := runs_bind_ok h hc fun t o h hc => by
      obtain ⟨r, res, -, rfl, -⟩ := writeImpl_spec hl h hc
      exact ⟨_, rfl⟩
    obtain ⟨r, res, rfl, h5, h6⟩ := writeImpl_spec hl h3 hc3
    simp only [Exec.ok.injEq] at h5
    subst h5
    simp only [pure_eq, runs_ret] at h4
    obtain ⟨rfl, rfl⟩ := h4
    refine ⟨_, a, rfl, ⟨⟨w, b, selects_of_word h1, rfl⟩, h6⟩, ?_⟩
    have : (removeModuleData p.2 s.modes a.failures.modules).1 = a.modules := by
      refine moduleId_ext_mem fun q => ?_
      show Mem (p.2.remove a.failures.modules) q ↔ _
      rw [mem_remove]
      have := h6.split q
      grind
    rw [← this]
  · right
    rw [h2, ofExec_err] at h
    simp only [fail_bind, runs_fail] at h
    exact ⟨h1, h.1, h.2⟩

/-- The modules of a kind under software override. -/
def withOverride (s : SoftState) (g : ModuleId) : ModuleId :=
  (filterModuleData s.success s.modes fun id mode => g.has id && mode.softwareOverride == some true).1

/-- The others. -/
def withoutOverride (s : SoftState) (g : ModuleId) : ModuleId :=
  (filterModuleData g s.modes fun id mode => g.has id && !(mode.softwareOverride == some true)).1

theorem softKind_spec {code : U8} {low : Bool} {s : SoftState} {g : ModuleId} {t : List Exchange}
    {o : Exec CtlError SoftState} (h : Runs (softKind low s (Bf.ofByte code, g)) t o) (hc : Conforming t) :
    (∃ x₁ x₂ r₁ r₂ modes, t = [x₁, x₂] ∧ SoftWritten code true low (withOverride s g) x₁ r₁ ∧
      SoftWritten code false low (withoutOverride s g) x₂ r₂ ∧
      o = .ok ⟨r₂.modules, modes, (s.failures.merge r₁.failures).merge r₂.failures⟩) ∨
    (interfaceOfCode code = none ∧ t = [] ∧ o = .err (unsupported code)) := by
  unfold softKind at h
  dsimp only at h
  rcases runs_bind.1 h with ⟨t₁, t₂, a, rfl, h1, h2⟩ | ⟨e, h1, rfl⟩ | ⟨h1, rfl⟩
  · have hc1 : Conforming t₁ := fun x hx => hc x (List.mem_append_left _ hx)
    have hc2 : Conforming t₂ := fun x hx => hc x (List.mem_append_right _ hx)
    rcases softWrite_spec h1 hc1 with ⟨x₁, r₁, rfl, h3, h4⟩ | ⟨-, -, h4⟩
    · simp only [Exec.ok.injEq] at h4
      subst h4
      rcases softWrite_spec h2 hc2 with ⟨x₂, r₂, rfl, h5, h6⟩ | ⟨h5, rfl, h6⟩
      · exact .inl ⟨x₁, x₂, r₁, r₂, _, rfl, h3, h5, h6⟩
      · exfalso
        obtain ⟨⟨w, b, h7 | h7, -⟩, -⟩ := h3
        · rw [h5] at h7; cases h7.1
        · rw [h5] at h7; cases h7.1
    · cases h4
  · rcases softWrite_spec h1 hc with ⟨x₁, r₁, rfl, h3, h4⟩ | ⟨h3, rfl, h4⟩
    · cases h4
    · exact .inr ⟨h3, rfl, by cases h4; rfl⟩
  · rcases softWrite_spec h1 hc with ⟨x₁, r₁, rfl, h3, h4⟩ | ⟨h3, rfl, h4⟩ <;> cases h4

theorem has_of_ofNat {m g : ModuleId} {p : Nat} (hp : Mem m p) (h : g.has (BitVec.ofNat 8 p) = true) : Mem g p := by
  have := ofNat_toNat_lt (mem_lt hp)
  rw [has_eq (by rw [this]; exact mem_lt hp), this] at h
  simpa using h

theorem has_ofNat {g : ModuleId} {p : Nat} (hp : Mem g p) : g.has (BitVec.ofNat 8 p) = true := by
  have := ofNat_toNat_lt (mem_lt hp)
  rw [has_eq (by rw [this]; exact mem_lt hp), this]
  simpa using hp

theorem withOverride_sub {s : SoftState} {g : ModuleId} {p : Nat} (h : Mem (withOverride s g) p) : Mem g p := by
  obtain ⟨h1, x, h2⟩ := filter_sub h
  rw [Bool.and_eq_true] at h2
  exact has_of_ofNat h1 h2.1

theorem withoutOverride_sub {s : SoftState} {g : ModuleId} {p : Nat} (h : Mem (withoutOverride s g) p) : Mem g p :=
  (filter_sub h).1

/-- If all modules are of one kind, the two groups are those under software override and the others. -/
theorem withOverride_one {s : SoftState} (ha : Aligned s.success s.modes) (p : Nat) :
    (Mem (withOverride s s.success) p ↔ ∃ mode, datum s.success s.modes p = some mode ∧
      mode.softwareOverride = some true) ∧
    (Mem (withoutOverride s s.success) p ↔ ∃ mode, datum s.success s.modes p = some mode ∧
      mode.softwareOverride ≠ some true) := by
  unfold withOverride withoutOverride
  rw [mem_filter' _ ha, mem_filter' _ ha]
  constructor
  · refine exists_congr fun mode => and_congr_right fun h => ?_
    rw [has_ofNat ((mem_iff_datum ha p).2 ⟨mode, h⟩)]
    simp
  · refine exists_congr fun mode => and_congr_right fun h => ?_
    rw [has_ofNat ((mem_iff_datum ha p).2 ⟨mode, h⟩)]
    simp

theorem softKinds_spec {low : Bool} {s : SoftState} {ks : List (Identifier × ModuleId)}
    (hk : ∀ k ∈ ks, ∃ code : U8, k.1 = Bf.ofByte code) {t : List Exchange} {o : Exec CtlError SoftState}
    (h : Runs (softKinds low s ks) t o) (hc : Conforming t) :
    (∀ x ∈ t, ∃ code g' g ov r, (Bf.ofByte code, g') ∈ ks ∧ SoftWritten code ov low g x r ∧ ∀ p, Mem g p → Mem g' p) ∧
    ((∃ s', o = .ok s' ∧ (ks = [] → s' = s) ∧ (ks ≠ [] → ∀ p, Mem s'.success p → ∃ k ∈ ks, Mem k.2 p) ∧
      (∀ p, Mem s'.failures.modules p → Mem s.failures.modules p ∨ ∃ k ∈ ks, Mem k.2 p) ∧
      (Aligned s.failures.modules s.failures.errors → Aligned s'.failures.modules s'.failures.errors)) ∨
     ∃ code g, (Bf.ofByte code, g) ∈ ks ∧ interfaceOfCode code = none ∧ o = .err (unsupported code)) := by
  induction ks generalizing s t with
  | nil =>
    simp only [softKinds, pure_eq, runs_ret] at h
    obtain ⟨rfl, rfl⟩ := h
    exact ⟨by simp, .inl ⟨s, rfl, fun _ => rfl, fun h => absurd rfl h, fun p hp => .inl hp, id⟩⟩
  | cons k ks ih =>
    obtain ⟨kid, g⟩ := k
    obtain ⟨code, hcode⟩ := hk _ (List.mem_cons_self ..)
    dsimp only at hcode
    subst hcode
    have hk' : ∀ k ∈ ks, ∃ code : U8, k.1 = Bf.ofByte code := fun k h => hk k (List.mem_cons_of_mem _ h)
    unfold softKinds at h
    rcases runs_bind.1 h with ⟨t₁, t₂, a, rfl, h1, h2⟩ | ⟨e, h1, rfl⟩ | ⟨h1, rfl⟩
    · have hc1 : Conforming t₁ := fun x hx => hc x (List.mem_append_left _ hx)
      have hc2 : Conforming t₂ := fun x hx => hc x (List.mem_append_right _ hx)
      rcases softKind_spec h1 hc1 with ⟨x₁, x₂, r₁, r₂, modes, rfl, h3, h4, h5⟩ | ⟨-, -, h5⟩
      · simp only [Exec.ok.injEq] at h5
        subst h5
        obtain ⟨h6, h7⟩ := ih hk' h2 hc2
        have sub1 : ∀ p, Mem r₁.modules p ∨ Mem r₁.failures.modules p → Mem g p := fun p hp =>
          withOverride_sub (((h3.2.split p).1).2 hp)
        have sub2 : ∀ p, Mem r₂.modules p ∨ Mem r₂.failures.modules p → Mem g p := fun p hp =>
          withoutOverride_sub (((h4.2.split p).1).2 hp)
        refine ⟨?_, ?_⟩
        · intro x hx
          rcases List.mem_append.1 hx with hx | hx
          · simp only [List.mem_cons, List.not_mem_nil, or_false] at hx
            rcases hx with rfl | rfl
            · exact ⟨code, g, _, true, r₁, List.mem_cons_self .., h3, fun p hp => withOverride_sub hp⟩
            · exact ⟨code, g, _, false, r₂, List.mem_cons_self .., h4, fun p hp => withoutOverride_sub hp⟩
          · obtain ⟨c, g', g'', ov, r, h8, h9⟩ := h6 x hx
            exact ⟨c, g', g'', ov, r, List.mem_cons_of_mem _ h8, h9⟩
        · rcases h7 with ⟨s', rfl, h8, h9, h10, h11⟩ | ⟨c, g', h8, h9, rfl⟩
          · refine .inl ⟨s', rfl, fun h => (by cases h), fun _ p hp => ?_, fun p hp => ?_, fun hal => h11 ?_⟩
            · by_cases hks : ks = []
              · rw [h8 hks] at hp
                exact ⟨_, List.mem_cons_self .., sub2 p (.inl hp)⟩
              · obtain ⟨k, hk, hp⟩ := h9 hks p hp
                exact ⟨k, List.mem_cons_of_mem _ hk, hp⟩
            · rcases h10 p hp with hp | ⟨k, hk, hp⟩
              · rcases (mem_merge (m := (s.failures.merge r₁.failures).modules) (n := r₂.failures.modules)).1 hp with hp | hp
                · rcases (mem_merge (m := s.failures.modules) (n := r₁.failures.modules)).1 hp with hp | hp
                  · exact .inl hp
                  · exact .inr ⟨_, List.mem_cons_self .., sub1 p (.inr hp)⟩
                · exact .inr ⟨_, List.mem_cons_self .., sub2 p (.inr hp)⟩
              · exact .inr ⟨k, List.mem_cons_of_mem _ hk, hp⟩
            · exact aligned_merge (aligned_merge hal h3.2.wf.2.1) h4.2.wf.2.1
          · exact .inr ⟨c, g', List.mem_cons_of_mem _ h8, h9, rfl⟩
      · cases h5
    · rcases softKind_spec h1 hc with ⟨x₁, x₂, r₁, r₂, modes, rfl, h3, h4, h5⟩ | ⟨h4, rfl, h5⟩
      · cases h5
      · refine ⟨by simp, .inr ⟨code, g, List.mem_cons_self .., h4, by cases h5; rfl⟩⟩
    · rcases softKind_spec h1 hc with ⟨x₁, x₂, r₁, r₂, modes, rfl, h3, h4, h5⟩ | ⟨h4, rfl, h5⟩ <;> cases h5

theorem kinds_one {m : ModuleId} {ids : List Identifier} {kinds : List (Identifier × ModuleId)} (h : Kinds m ids kinds)
    (h1 : ∀ p q a b, datum m ids p = some a → datum m ids q = some b → a = b) :
    kinds = [] ∨ ∃ k, kinds = [k] := by
  match kinds, h with
  | [], _ => exact .inl rfl
  | [k], _ => exact .inr ⟨k, rfl⟩
  | k :: k' :: ks, h =>
    exfalso
    obtain ⟨p, hp⟩ := h.nonempty k (by simp)
    obtain ⟨q, hq⟩ := h.nonempty k' (by simp)
    have e := h1 p q _ _ ((h.mem k.1 k.2 (by simp) p).1 hp) ((h.mem k'.1 k'.2 (by simp) q).1 hq)
    have hs := h.sorted
    rw [List.pairwise_cons] at hs
    have := hs.1 k' (by simp)
    rw [e, identifierLt_strict.irrefl] at this
    cases this

/-- The two writes to modules of one kind, given their modes. -/
structure OneKind (low : Bool) (M : ModuleId) (modes : List PowerMode) (F : FailedModules TransceiverError)
    (ti : List Exchange) (code : U8) (x₁ x₂ : Exchange) (res : Res Unit) : Prop where
  writes : ∃ (I g₁ g₂ : ModuleId) (r₁ r₂ : Res Unit) (fi : FailedModules TransceiverError), Covers M I fi ∧
    (∀ p, Mem I p ↔ Identified ti p code) ∧
    (∀ p, Mem g₁ p ↔ Mem I p ∧ ∃ mode, datum M modes p = some mode ∧ mode.softwareOverride = some true) ∧
    (∀ p, Mem g₂ p ↔ Mem I p ∧ ∃ mode, datum M modes p = some mode ∧ mode.softwareOverride ≠ some true) ∧
    SoftWritten code true low g₁ x₁ r₁ ∧ SoftWritten code false low g₂ x₂ r₂ ∧
    res = AckResult.new r₂.modules (((F.merge fi).merge r₁.failures).merge r₂.failures)

theorem setSoft_spec {M : ModuleId} {modes : List PowerMode} {F : FailedModules TransceiverError} {low : Bool}
    {t : List Exchange} {o : Exec CtlError (Res Unit)} (ha : Aligned M modes)
    (h : Runs (setSoftwarePowerState ⟨M, modes, F⟩ low) t o) (hc : Conforming t) :
    ∃ ti tw, t = ti ++ tw ∧ ReadsOf M identifierByte ti ∧
      (∀ x ∈ tw, ∃ code g ov r, SoftWritten code ov low g x r ∧ ∀ p, Mem g p → Identified ti p code) ∧
      ((∃ res, o = .ok res ∧ (∀ p, Mem res.modules p → Mem M p ∧ (okAmong ti p).isSome) ∧
          (∀ p, Failed res p → Mem F.modules p ∨ Mem M p) ∧ Aligned res.modules res.data ∧
          (Aligned F.modules F.errors → Aligned res.failures.modules res.failures.errors)) ∨
        ∃ p code, Identified ti p code ∧ interfaceOfCode code = none ∧ o = .err (unsupported code)) ∧
      ((∀ p q a b, Identified ti p a → Identified ti q b → a = b) → ∀ res, o = .ok res →
        (tw = [] ∧ (∀ p, okAmong ti p = none) ∧ ∃ I fi, (∀ p, ¬ Mem I p) ∧ Covers M I fi ∧
          res = AckResult.new I (F.merge fi)) ∨
        ∃ code x₁ x₂, tw = [x₁, x₂] ∧ OneKind low M modes F ti code x₁ x₂ res) := by
  unfold setSoftwarePowerState at h
  obtain ⟨ti, tw, a, rfl, h1, hc1, h2, hc2⟩ := runs_bind_ok h hc fun t o h hc => by
    obtain ⟨s, bytes, f, rfl, -⟩ := identifier_bytes h hc
    exact ⟨_, rfl⟩
  obtain ⟨I, bytes, fi, h3, h4, h5, h6⟩ := identifier_bytes h1 hc1
  simp only [Exec.ok.injEq] at h3
  subst h3
  have hia : Aligned I (bytes.map (Bf.ofByte : U8 → Identifier)) := by
    show _ = _
    rw [List.length_map]; exact h5.wf.1
  obtain ⟨kinds, h7, hk⟩ := split_kinds hia
  dsimp only at h2
  rw [h7, ofExec_ok, ret_bind] at h2
  have hid : ∀ p code, Identified ti p code ↔ datum I bytes p = some code := by
    intro p code
    unfold Identified
    rw [h6]
    cases datum I bytes p <;> simp
  have hcov : Covers M I fi := Covers.of_reports h5
  have hIM : ∀ p, Mem I p → Mem M p := fun p hp => ((hcov.split p).1).2 (.inl hp)
  have hIok : ∀ p, Mem I p ↔ (okAmong ti p).isSome := by
    intro p
    rw [h6, Option.isSome_map, datum_isSome h5.wf.1]
  have hdk : ∀ p code, datum I (bytes.map (Bf.ofByte : U8 → Identifier)) p = some (Bf.ofByte code) ↔
      Identified ti p code := by
    intro p code
    rw [hid, datum_map]
    cases hb : datum I bytes p with
    | none => simp
    | some b =>
      simp only [Option.map_some, Option.some.injEq]
      exact ⟨fun h => ofByte_injective h, fun h => by rw [h]⟩
  have hkmem : ∀ k ∈ kinds, ∀ p, Mem k.2 p → Mem I p := by
    intro k hk' p hp
    exact (mem_iff_datum hia p).2 ⟨_, (hk.mem k.1 k.2 hk' p).1 hp⟩
  have hcode : ∀ k ∈ kinds, ∃ code : U8, k.1 = Bf.ofByte code := by
    intro k hk'
    obtain ⟨p, hp⟩ := hk.nonempty k hk'
    have := (hk.mem k.1 k.2 hk' p).1 hp
    rw [datum_map] at this
    obtain ⟨b, -, hb⟩ := Option.map_eq_some_iff.1 this
    exact ⟨b, hb.symm⟩
  have hkid : ∀ code g, (Bf.ofByte code, g) ∈ kinds → ∀ p, Mem g p → Identified ti p code := fun code g hg p hp =>
    (hdk p code).1 ((hk.mem _ g hg p).1 hp)
  obtain ⟨hs1, hs2, hs3⟩ := C04_keep M I modes ha
  have hsI : (keepModuleData M modes I).1 = I :=
    moduleId_ext_mem fun p => (hs1 p).trans ⟨fun h => h.2, fun h => ⟨hIM p h, h⟩⟩
  rw [hsI] at hs2 hs3
  refine ⟨ti, tw, rfl, h4, ?_⟩
  rcases runs_bind.1 h2 with ⟨t₁, t₂, s', rfl, h8, h9⟩ | ⟨e, h8, rfl⟩ | ⟨h8, rfl⟩
  · simp only [pure_eq, runs_ret] at h9
    obtain ⟨rfl, rfl⟩ := h9
    rw [List.append_nil] at hc2 ⊢
    obtain ⟨h10, h11⟩ := softKinds_spec hcode h8 hc2
    refine ⟨?_, ?_, ?_⟩
    · intro x hx
      obtain ⟨code, g', g, ov, r, h12, h13, h14⟩ := h10 x hx
      exact ⟨code, g, ov, r, h13, fun p hp => hkid code g' h12 p (h14 p hp)⟩
    · rcases h11 with ⟨s'', h12, h13, h14, h15, h16⟩ | ⟨_, _, _, _, h12⟩
      · simp only [Exec.ok.injEq] at h12
        subst h12
        refine .inl ⟨_, rfl, ?_, ?_, ack_aligned, ?_⟩
        · intro p hp
          have hpI : Mem I p := by
            by_cases hks : kinds = []
            · rw [h13 hks] at hp
              replace hp : Mem (keepModuleData M modes I).1 p := hp
              rw [hsI] at hp
              exact hp
            · obtain ⟨k, hk', hp⟩ := h14 hks p hp
              exact hkmem k hk' p hp
          exact ⟨hIM p hpI, (hIok p).1 hpI⟩
        · intro p hp
          rcases h15 p hp with hp | ⟨k, hk', hp⟩
          · rcases (mem_merge (m := F.modules) (n := fi.modules)).1 hp with hp | hp
            · exact .inl hp
            · exact .inr (((hcov.split p).1).2 (.inr hp))
          · exact .inr (hIM p (hkmem k hk' p hp))
        · exact fun hF => h16 (aligned_merge hF hcov.aligned)
      · cases h12
    · intro hone res hres
      simp only [Exec.ok.injEq] at hres
      subst hres
      have hone' : ∀ p q a b, datum I (bytes.map (Bf.ofByte : U8 → Identifier)) p = some a →
          datum I (bytes.map (Bf.ofByte : U8 → Identifier)) q = some b → a = b := by
        intro p q a b hp hq
        rw [datum_map] at hp hq
        obtain ⟨a, hp', rfl⟩ := Option.map_eq_some_iff.1 hp
        obtain ⟨b, hq', rfl⟩ := Option.map_eq_some_iff.1 hq
        rw [hone p q a b ((hid p a).2 hp') ((hid q b).2 hq')]
      rcases kinds_one hk hone' with rfl | ⟨k, rfl⟩
      · left
        simp only [softKinds, pure_eq, runs_ret] at h8
        obtain ⟨rfl, h8⟩ := h8
        simp only [Exec.ok.injEq] at h8
        subst h8
        have hno : ∀ p, ¬ Mem I p := by
          intro p hp
          obtain ⟨id, hd⟩ := (mem_iff_datum hia p).1 hp
          obtain ⟨g, hg⟩ := hk.cover p id hd
          cases hg
        refine ⟨rfl, fun p => ?_, I, fi, hno, hcov, ?_⟩
        · cases hb : okAmong ti p with
          | none => rfl
          | some b => exact absurd ((hIok p).2 (by rw [hb]; rfl)) (hno p)
        · show AckResult.new (keepModuleData M modes I).1 _ = _
          rw [hsI]
      · right
        obtain ⟨kid, g⟩ := k
        obtain ⟨code, hcd⟩ := hcode _ (List.mem_cons_self ..)
        dsimp only at hcd
        subst hcd
        have hgI : g = I := by
          refine moduleId_ext_mem fun p => ⟨hkmem _ (List.mem_cons_self ..) p, fun hp => ?_⟩
          obtain ⟨id, hd⟩ := (mem_iff_datum hia p).1 hp
          obtain ⟨g', hg⟩ := hk.cover p id hd
          simp only [List.mem_cons, List.not_mem_nil, or_false, Prod.mk.injEq] at hg
          obtain ⟨rfl, rfl⟩ := hg
          exact (hk.mem _ _ (List.mem_cons_self ..) p).2 hd
        subst hgI
        simp only [softKinds] at h8
        rcases runs_bind.1 h8 with ⟨t₃, t₄, s'', rfl, h12, h13⟩ | ⟨e, -, h12⟩ | ⟨-, h12⟩
        · simp only [pure_eq, runs_ret, Exec.ok.injEq] at h13
          obtain ⟨rfl, rfl⟩ := h13
          rw [List.append_nil] at hc2 ⊢
          rw [hsI] at h12
          rcases softKind_spec h12 hc2 with ⟨x₁, x₂, r₁, r₂, modes', rfl, h14, h15, h16⟩ | ⟨_, _, h16⟩
          · simp only [Exec.ok.injEq] at h16
            subst h16
            refine ⟨code, x₁, x₂, rfl, ⟨g, _, _, r₁, r₂, fi, hcov, ?_, ?_, ?_, h14, h15, rfl⟩⟩
            · intro p
              refine ⟨hkid code g (List.mem_cons_self ..) p, fun hp => ?_⟩
              exact (hIok p).2 (by unfold Identified at hp; rw [hp]; rfl)
            · intro p
              rw [(withOverride_one (s := ⟨g, (keepModuleData M modes g).2, F.merge fi⟩) hs2 p).1]
              simp only [hs3]
              by_cases hp : Mem g p <;> simp [hp]
            · intro p
              rw [(withOverride_one (s := ⟨g, (keepModuleData M modes g).2, F.merge fi⟩) hs2 p).2]
              simp only [hs3]
              by_cases hp : Mem g p <;> simp [hp]
          · cases h16
        · cases h12
        · cases h12
  · obtain ⟨h10, h11⟩ := softKinds_spec hcode h8 hc2
    refine ⟨?_, ?_, fun _ res hres => by cases hres⟩
    · intro x hx
      obtain ⟨code, g', g, ov, r, h12, h13, h14⟩ := h10 x hx
      exact ⟨code, g, ov, r, h13, fun p hp => hkid code g' h12 p (h14 p hp)⟩
    · rcases h11 with ⟨s'', h12, -⟩ | ⟨code, g, h12, h13, h14⟩
      · cases h12
      · obtain ⟨p, hp⟩ := hk.nonempty _ h12
        exact .inr ⟨p, code, hkid code g h12 p hp, h13, by cases h14; rfl⟩
  · obtain ⟨h10, ⟨s'', h12, -⟩ | ⟨code, g, h12, h13, h14⟩⟩ := softKinds_spec hcode h8 hc2
    · cases h12
    · cases h14

/-! ## Consequences -/

theorem Covers.none {m : ModuleId} {f : FailedModules TransceiverError} (h : ∀ p, ¬ Mem f.modules p)
    (ha : Aligned f.modules f.errors) : Covers m m f := ⟨fun p => by simp [h p], ha⟩

/-- Among modules of one kind and not under software override, the software settings report each once. -/
theorem soft_covers {m M : ModuleId} {modes : List PowerMode} {F : FailedModules TransceiverError} {low : Bool}
    {t : List Exchange} {res : Res Unit} (hcov : Covers m M F) (ha : Aligned M modes)
    (hno : ∀ p mode, datum M modes p = some mode → mode.softwareOverride ≠ some true)
    (h : Runs (setSoftwarePowerState ⟨M, modes, F⟩ low) t (.ok res)) (hc : Conforming t)
    (hone : ∀ ti tw, t = ti ++ tw → ReadsOf M identifierByte ti → ∀ p q a b, Identified ti p a → Identified ti q b →
      a = b) : Covers m res.modules res.failures ∧ Aligned res.modules res.data := by
  obtain ⟨ti, tw, h1, h2, -, -, h3⟩ := setSoft_spec ha h hc
  rcases h3 (hone ti tw h1 h2) res rfl with ⟨-, -, I, fi, -, h4, rfl⟩ |
    ⟨code, x₁, x₂, -, I, g₁, g₂, r₁, r₂, fi, h4, -, h5, h6, h7, h8, rfl⟩
  · exact ⟨hcov.step h4, ack_aligned⟩
  · refine ⟨?_, ack_aligned⟩
    have hg1 : ∀ p, ¬ Mem g₁ p := by
      intro p hp
      obtain ⟨-, mode, h9, h10⟩ := (h5 p).1 hp
      exact hno p mode h9 h10
    have hg2 : g₂ = I := by
      refine moduleId_ext_mem fun p => (h6 p).trans ⟨fun h => h.1, fun h => ⟨h, ?_⟩⟩
      obtain ⟨mode, hm⟩ := (mem_iff_datum ha p).1 (((h4.split p).1).2 (.inl h))
      exact ⟨mode, hm, hno p mode hm⟩
    subst hg2
    refine ((hcov.step h4).step (.none ?_ h7.2.wf.2.1)).step (Covers.of_reports h8.2)
    intro p hp
    exact hg1 p (((h7.2.split p).1).2 (.inr hp))

/-- Commands are not queries or writes. -/
theorem stepRan_calls {q : ModuleId → HostRequest} {a b : ModuleId} {f f' : FailedModules TransceiverError}
    {t : List Exchange} {m' : ModuleId} (h : StepRan q a b f t m' f') {x : Exchange} (hx : x ∈ t) :
    ∃ g, x.1 = Call.host (q g) := by
  rcases h with ⟨-, y, r, rfl, h1, -⟩ | ⟨-, rfl, -⟩
  · rw [List.mem_singleton] at hx
    subst hx
    exact ⟨_, h1⟩
  · cases hx

theorem requestOf_host {x : Exchange} {q : HostRequest} {D : Option Bytes} (h : x.1 = Call.host q D) :
    requestOf x = some q := by
  unfold requestOf
  rw [h]; rfl

theorem onSteps_calls {low : Bool} {pw : Res PowerMode} {t : List Exchange} {M : ModuleId}
    {F : FailedModules TransceiverError} {xs xl : Exchange} {need : ModuleId} (h : OnSteps low pw t M F xs xl need)
    {x : Exchange} (hx : x ∈ t) : ∃ q, requestOf x = some q ∧ ((∃ m, q = .status m) ∨ IsCommand q) := by
  obtain ⟨st, ta, tb, td, noReset, m₁, m₂, f₁, f₂, rl, rfl, -, -, h1, h2, h3, -, h4⟩ := h.steps
  simp only [List.mem_cons, List.mem_append] at hx
  rcases hx with rfl | hx | hx | rfl | hx
  · exact ⟨_, requestOf_host h.status, .inl ⟨_, rfl⟩⟩
  · obtain ⟨g, hg⟩ := stepRan_calls h1 hx
    exact ⟨_, requestOf_host hg, .inr trivial⟩
  · obtain ⟨g, hg⟩ := stepRan_calls h2 hx
    exact ⟨_, requestOf_host hg, .inr trivial⟩
  · exact ⟨_, requestOf_host h3, .inr (by cases low <;> trivial)⟩
  · obtain ⟨g, hg⟩ := stepRan_calls h4 hx
    exact ⟨_, requestOf_host hg, .inr trivial⟩

theorem power_queries {m : ModuleId} {t : List Exchange} {o : Exec CtlError (Res PowerMode)} (h : Runs (power m) t o) :
    ∀ x ∈ t, ∃ q, requestOf x = some q ∧ IsQuery q := by
  intro x hx
  obtain ⟨q, h1, h2⟩ := allCalls_runs (C := fun c => ∃ q, c = Call.host q ∧ IsQuery q)
    (allCalls_power m (fun g rd => ⟨_, rfl, trivial⟩) ⟨_, rfl, trivial⟩) h x hx
  exact ⟨q, requestOf_host h1, h2⟩

end Xcvr
