import Verif.Lemmas.PowerSteps
import Verif.Lemmas.Ops

/-! # Power: C43-C49 -/

namespace Xcvr

open Spec Prog Controller

/-! ## C43 -/

/-- **C43.** Against an SP that answers properly, powering off deasserts low power mode on all given modules, then asserts
reset on exactly those that acknowledged, then disables power on exactly those that acknowledged that, and reports as
successes those that acknowledged all three and the others with their own error. -/
theorem C43_power_off (m : ModuleId) (t : List Exchange) (o : Exec CtlError (Res Unit))
    (h : Runs (setPower m .off) t o) (hc : Conforming t) :
    ∃ x₁ x₂ x₃ s₁ s₂ res, t = [x₁, x₂, x₃] ∧ x₁.1 = Call.host (.deassertLpMode m) ∧
      x₂.1 = Call.host (.assertReset s₁) ∧ x₃.1 = Call.host (.disablePower s₂) ∧
      (∀ p, Mem s₁ p ↔ (okIn x₁ p).isSome) ∧ (∀ p, Mem s₂ p ↔ (okIn x₂ p).isSome) ∧
      o = .ok res ∧ ReportsLast (fun _ => ()) m [x₁, x₂] [x₃] res := by
  unfold setPower setPowerOff at h
  obtain ⟨t₁, t₂, a, rfl, h1, hc1, h2, hc2⟩ := runs_bind_ok h hc fun t o h hc => by
    obtain ⟨r, res, -, rfl, -⟩ := noPayloadRequest_spec (m := m) (by trivial) rfl h hc
    exact ⟨_, rfl⟩
  obtain ⟨r, res, rfl, h3, h4⟩ := noPayloadRequest_spec (m := m) (by trivial) rfl h1 hc1
  simp only [Exec.ok.injEq] at h3
  subst h3
  obtain ⟨t₃, t₄, b, rfl, h5, hc3, h6, hc4⟩ := runs_bind_ok h2 hc2 fun t o h hc => by
    obtain ⟨r, res, -, rfl, -⟩ := noPayloadRequest_spec (m := a.modules) (by trivial) rfl h hc
    exact ⟨_, rfl⟩
  obtain ⟨r', res, rfl, h7, h8⟩ := noPayloadRequest_spec (m := a.modules) (by trivial) rfl h5 hc3
  simp only [Exec.ok.injEq] at h7
  subst h7
  obtain ⟨t₅, t₆, c, rfl, h9, hc5, h10, -⟩ := runs_bind_ok h6 hc4 fun t o h hc => by
    obtain ⟨r, res, -, rfl, -⟩ := noPayloadRequest_spec (m := b.modules) (by trivial) rfl h hc
    exact ⟨_, rfl⟩
  obtain ⟨r'', res, rfl, h11, h12⟩ := noPayloadRequest_spec (m := b.modules) (by trivial) rfl h9 hc5
  simp only [Exec.ok.injEq] at h11
  subst h11
  simp only [pure_eq, runs_ret] at h10
  obtain ⟨rfl, rfl⟩ := h10
  refine ⟨_, _, _, a.modules, b.modules, _, rfl, rfl, rfl, rfl, fun p => ?_, fun p => ?_, rfl, ?_⟩
  · rw [← reports_mem_ok h4, okAmong_singleton]
  · rw [← reports_mem_ok h8, okAmong_singleton]
  · exact reportsLast_step (reportsLast_step (reportsLast_of h4) h8) h12

/-- Module 2 fails the first step, module 3 the second and module 4 the third. -/
def offBench : Bench where
  failing _ q := match q with
    | .deassertLpMode _ => ⟨0b100⟩
    | .assertReset _ => ⟨0b1000⟩
    | _ => ⟨0b10000⟩

example : ((setPower ⟨0b11110⟩ .off).exec offBench.sp []).2 =
      .ok ⟨⟨0b10⟩, [()], ⟨⟨0b11100⟩, [.hardware 2 .disabledBySp none, .hardware 3 .disabledBySp none,
        .hardware 4 .disabledBySp none]⟩⟩ ∧
    ((setPower ⟨0b11110⟩ .off).exec offBench.sp []).1.map (fun x => requestOf x) =
      [some (.deassertLpMode ⟨0b11110⟩), some (.assertReset ⟨0b11010⟩), some (.disablePower ⟨0b10010⟩)] := by
  decide +kernel

/-! ## C48 -/

/-- **C48.** Against an SP that answers properly, the power report asks for the status of all given modules, then identifies
exactly those that are powered and out of reset and reads their power control. Every module is reported once: as off if it
is unpowered or held in reset; else low or high by its software setting if that overrides the pin, and by the pin if not;
or as a failure. Nothing else can happen, except that some module is of an unsupported kind. -/
theorem C48_report (m : ModuleId) (t : List Exchange) (o : Exec CtlError (Res PowerMode)) (h : Runs (power m) t o)
    (hc : Conforming t) :
    ∃ x t₁ t₂ readable, t = x :: (t₁ ++ t₂) ∧ x.1 = Call.host (.status m) ∧
      (∀ p, Mem readable p ↔ Readable x p) ∧ ReadsOf readable identifierByte t₁ ∧ PowerEnds m x t₁ t₂ o := by
  obtain ⟨x, t₁, t₂, readable, h1, h2, -, h3⟩ := power_spec h hc
  exact ⟨x, t₁, t₂, readable, h1, h2, h3⟩

/-- What the power mode of a module should be, from its status and memory. -/
def Spec.modeIn (mem : ModuleMemory) (s : U8) (mode : PowerMode) : Prop :=
  (NeedsPower s → mode = ⟨.off, none⟩) ∧
  (¬ NeedsPower s →
    (SffModule (idOf mem) ∧ mode = modeFor (sffPowerControl mem) s) ∨
    (CmisModule (idOf mem) ∧ mode = modeFor (cmisPowerControl mem) s))

/-- **C48** for one module, in terms of its memory. -/
theorem C48_module (m : ModuleId) (t : List Exchange) (res : Res PowerMode) (h : Runs (power m) t (.ok res))
    (hc : Conforming t) :
    ∃ x t', t = x :: t' ∧ x.1 = Call.host (.status m) ∧ Partition m res.modules res.failures.modules ∧
      ∀ p mem, FaithfulAt p mem t → Mem res.modules p →
        ∃ s mode, okIn x p = some [s] ∧ okAt res p = some mode ∧ modeIn mem s mode := by
  obtain ⟨x, t₁, t₂, r, rfl, h1, -, h2, h3, h4⟩ := power_spec h hc
  refine ⟨x, _, rfl, h1, h4.2.1, fun p mem hf hp => ?_⟩
  obtain ⟨mode, hm⟩ := (mem_iff_datum h4.1.1 p).1 hp
  obtain ⟨s, h5, h6⟩ := h4.2.2.1 p mode hm
  refine ⟨s, mode, h5, hm, ?_⟩
  rcases h6 with ⟨h7, rfl⟩ | ⟨h7, c, ⟨b, h8, h9⟩, rfl⟩
  · exact ⟨fun _ => rfl, fun h => absurd h7 h⟩
  · refine ⟨fun h => absurd h h7, fun _ => ?_⟩
    have hf1 : FaithfulAt p mem t₁ := fun x hx => hf x (List.mem_cons_of_mem _ (List.mem_append_left _ hx))
    have hf2 : FaithfulAt p mem t₂ := fun x hx => hf x (List.mem_cons_of_mem _ (List.mem_append_right _ hx))
    rw [identified_mem hf1 h3 h8] at h9
    have hy := yields_mem hf2 h9
    by_cases hs : SffModule (idOf mem)
    · rw [PowerControl.decode_sff hs, Exec.ok.injEq] at hy
      exact .inl ⟨hs, by rw [hy]⟩
    · by_cases hs' : CmisModule (idOf mem)
      · rw [PowerControl.decode_cmis hs', Exec.ok.injEq] at hy
        exact .inr ⟨hs', by rw [hy]⟩
      · rw [decodeFrom_unsupported (C54_refused hs hs' []).1] at hy
        cases hy

/-- **C48** in terms of the modules' memories. -/
theorem C48_memory (m : ModuleId) (t : List Exchange) (res : Res PowerMode) (h : Runs (power m) t (.ok res))
    (hc : Conforming t) (mem : Nat → ModuleMemory) (hf : Faithful mem t) :
    ∃ x t', t = x :: t' ∧ x.1 = Call.host (.status m) ∧ Partition m res.modules res.failures.modules ∧
      ∀ p, Mem res.modules p → ∃ s mode, okIn x p = some [s] ∧ okAt res p = some mode ∧ modeIn (mem p) s mode := by
  obtain ⟨x, t', rfl, h1, h2, h3⟩ := C48_module m t res h hc
  exact ⟨x, t', rfl, h1, h2, fun p hp => h3 p (mem p) (faithful_at hf p) hp⟩

/-- Modules 0 to 3 are SFF-8636, the others CMIS. Module 0 is off, 1 held in reset, 2 is under pin control at high power,
3 overridden to low, 4 under pin control at low, 5 overridden to high; 6 fails. -/
def powerBench : Bench where
  failing _ q := match q with
    | .status _ => ⟨0b1000000⟩
    | _ => ⟨0⟩
  status _ i := if i = 0 then 0 else if i = 1 then 0x26 else if i = 4 then 0x2a else 0x22
  memory _ i rd _ := if rd.offset = 0 then (if i.toNat < 4 then 0x11 else 0x1e)
    else if i = 3 then 0x03 else if i = 4 then 0x40 else 0

example : ((power ⟨0b1111111⟩).exec powerBench.sp []).2 =
    .ok ⟨⟨0b111111⟩, [⟨.off, none⟩, ⟨.off, none⟩, ⟨.high, some false⟩, ⟨.low, some true⟩, ⟨.low, some false⟩,
      ⟨.high, some true⟩], ⟨⟨0b1000000⟩, [.hardware 6 .disabledBySp none]⟩⟩ := by
  decide +kernel

/-! ## C49 -/

/-- **C49.** The byte written to select software override or pin control, and low or high power, of an SFF-8636 module goes
to the byte that power control is decoded from, and any byte that agrees with it on the two bits concerned decodes to
that selection. -/
theorem C49_sff {id : Identifier} (h : SffModule id) (ov low : Bool) :
    ∃ b, powerWord id ov low = .ok (⟨.sff8636 .lower, 93, 1⟩, b) ∧
      ∀ mem : ModuleMemory, bit (mem (.sff8636 .lower) 93) 0 = bit b 0 → bit (mem (.sff8636 .lower) 93) 1 = bit b 1 →
        decodeFrom PowerControl.decoder id mem = .ok (if ov then .overrideLpModePin low else .useLpModePin) := by
  have key : ∀ ov low : Bool, bit ((if low then 0b10 else 0) ||| (if ov then 1 else 0)) 0 = ov ∧
    bit ((if low then 0b10 else 0) ||| (if ov then 1 else 0)) 1 = low := by decide
  refine ⟨(if low then 0b10 else 0) ||| (if ov then 1 else 0), ?_, fun mem h0 h1 => ?_⟩
  · obtain rfl | rfl := h <;> rw [powerWord_eq] <;> rfl
  · rw [PowerControl.decode_sff h]
    rw [(key ov low).1] at h0
    rw [(key ov low).2] at h1
    unfold sffPowerControl sffLow
    rw [h0, h1]

/-- **C49** for CMIS. The write names the lower page by its SFF-8636 name; it is the same page. -/
theorem C49_cmis {id : Identifier} (h : CmisModule id) (ov low : Bool) :
    ∃ b, powerWord id ov low = .ok (⟨.sff8636 .lower, 26, 1⟩, b) ∧
      ∀ mem : ModuleMemory, bit (mem (.cmis .lower) 26) 6 = bit b 6 → bit (mem (.cmis .lower) 26) 4 = bit b 4 →
        decodeFrom PowerControl.decoder id mem = .ok (if ov then .overrideLpModePin low else .useLpModePin) := by
  have key : ∀ ov low : Bool, bit ((if low then 0b10000 else 0) ||| (if ov then 0 else 0b1000000)) 6 = !ov ∧
    bit ((if low then 0b10000 else 0) ||| (if ov then 0 else 0b1000000)) 4 = low := by decide
  refine ⟨(if low then 0b10000 else 0) ||| (if ov then 0 else 0b1000000), ?_, fun mem h0 h1 => ?_⟩
  · obtain rfl | rfl := h <;> rw [powerWord_eq] <;> rfl
  · rw [PowerControl.decode_cmis h]
    rw [(key ov low).1] at h0
    rw [(key ov low).2] at h1
    unfold cmisPowerControl cmisLow
    rw [h0, h1]
    cases ov <;> rfl

/-- **C49**: no other kind of module is written to. -/
theorem C49_refused {id : Identifier} (h : ¬ SffModule id) (h' : ¬ CmisModule id) (ov low : Bool) :
    powerWord id ov low = .err (.transceiver (.decode (.unsupportedIdentifier id))) := by
  unfold powerWord
  rw [if_neg (show ¬ (id = Identifier.qsfpPlusSff8636 ∨ id = Identifier.qsfp28) from h),
    if_neg (show ¬ (id = Identifier.qsfpPlusCmis ∨ id = Identifier.qsfpDD) from fun e => h' e.symm)]

/-! ## C44 -/

/-- **C44**, whatever the SP answers: going to high power starts with a power report, which only asks; if the report lists
a module that is off, nothing more is sent and the error is `InvalidPowerStateTransition`. -/
theorem C44_any_sp (m : ModuleId) (t : List Exchange) (o : Exec CtlError (Res Unit)) (h : Runs (setPower m .high) t o) :
    ∃ tp t' op, t = tp ++ t' ∧ Runs (power m) tp op ∧ (∀ x ∈ tp, ∃ q, requestOf x = some q ∧ IsQuery q) ∧
      ((∀ pw, op ≠ .ok pw) → t' = [] ∧ ∀ res, o ≠ .ok res) ∧
      ∀ pw, op = .ok pw → (∃ mode ∈ pw.data, mode.state = .off) → t' = [] ∧ o = .err .invalidPowerStateTransition := by
  unfold setPower setPowerOn at h
  rcases runs_bind.1 h with ⟨tp, t', pw, rfl, h1, h2⟩ | ⟨e, h1, rfl⟩ | ⟨h1, rfl⟩
  · refine ⟨tp, t', _, rfl, h1, power_queries h1, fun h => absurd rfl (h pw), fun pw' hpw hoff => ?_⟩
    simp only [Exec.ok.injEq] at hpw
    subst hpw
    rw [if_pos, runs_fail] at h2
    · exact h2
    · simp only [Bool.not_false, Bool.true_and, List.any_eq_true, decide_eq_true_eq]
      exact hoff
  · exact ⟨t, [], _, by simp, h1, power_queries h1, fun _ => ⟨rfl, by simp⟩, fun pw h => by cases h⟩
  · exact ⟨t, [], _, by simp, h1, power_queries h1, fun _ => ⟨rfl, by simp⟩, fun pw h => by cases h⟩

/-- **C44** against an SP that answers properly: if the status of some module says that it is unpowered or held in reset,
only queries are sent and the operation fails, with `InvalidPowerStateTransition` unless some module of the set is of an
unsupported kind. -/
theorem C44_high (m : ModuleId) (t : List Exchange) (o : Exec CtlError (Res Unit)) (h : Runs (setPower m .high) t o)
    (hc : Conforming t) :
    ∃ x t', t = x :: t' ∧ x.1 = Call.host (.status m) ∧
      ∀ p s, okIn x p = some [s] → NeedsPower s →
        (∀ x ∈ t, ∃ q, requestOf x = some q ∧ IsQuery q) ∧
        (o = .err .invalidPowerStateTransition ∨ ∃ q code, Readable x q ∧ Identified t' q code ∧
          interfaceOfCode code = none ∧ o = .err (unsupported code)) := by
  rcases setPowerOn_spec h hc with ⟨e, h1, rfl⟩ | ⟨tp, pw, t', rfl, h1, h2⟩
  · obtain ⟨x, t₁, t₂, r, rfl, hx, -, -, -, q, b, h5, h6, h7, rfl⟩ := power_spec h1 hc
    refine ⟨x, _, rfl, hx, fun p s _ _ => ⟨power_queries h1, .inr ⟨q, b, h5, ?_, h7, rfl⟩⟩⟩
    unfold Identified at *
    rw [okAmong_append, h6]
    rfl
  · obtain ⟨x, t₁, t₂, r, rfl, hx, -, h3, h4, h5, h6, -, h7, -⟩ :=
      power_spec h1 fun x hx => hc x (List.mem_append_left _ hx)
    refine ⟨x, _, rfl, hx, fun p s hp hs => ?_⟩
    rcases h2 with ⟨-, -, rfl, rfl⟩ | ⟨hno, -⟩
    · rw [List.append_nil]
      exact ⟨power_queries h1, .inl rfl⟩
    · exfalso
      have := h7 p s hp hs
      unfold okAt datum at this
      split at this
      · exact hno rfl _ (List.mem_of_getElem? this) rfl
      · cases this

example : ((setPower ⟨0b11⟩ .high).exec powerBench.sp []).2 = .err .invalidPowerStateTransition := by
  decide +kernel

/-! ## C45 -/

/-- A powered SFF-8636 module under software override, at low power. -/
def overrideBench : Bench where
  status _ _ := 0x22
  memory _ _ rd _ := if rd.offset = 0 then 0x11 else 0x03

/-- The property is false. Setting the power of a module under software override reports nothing, although the module was
written to and acknowledged the write. -/
theorem C45_override_counterexample :
    ((setPower ⟨0b1⟩ .high).exec overrideBench.sp []).2 = .ok ⟨⟨0⟩, [], ⟨⟨0⟩, []⟩⟩ := by
  decide +kernel

/-- Module 0 is off, module 1 powered. -/
def mixedBench : Bench where
  status _ i := if i = 0 then 0 else 0x22
  memory _ _ rd _ := if rd.offset = 0 then 0x11 else 0

/-- Nor is a powered module reported if another one was off. -/
theorem C45_mixed_counterexample :
    ((setPower ⟨0b11⟩ .low).exec mixedBench.sp []).2 = .ok ⟨⟨0b1⟩, [()], ⟨⟨0⟩, []⟩⟩ := by
  decide +kernel

/-- Module 0 is off and fails to acknowledge low power mode. -/
def twiceBench : Bench where
  failing _ q := match q with
    | .assertLpMode _ => ⟨0b1⟩
    | _ => ⟨0⟩
  status _ _ := 0
  memory _ _ rd _ := if rd.offset = 0 then 0x11 else 0

/-- A module can be reported twice: it is a success although low power mode failed, and also a failure. -/
theorem C45_twice_counterexample :
    ((setPower ⟨0b1⟩ .low).exec twiceBench.sp []).2 =
      .ok ⟨⟨0b1⟩, [()], ⟨⟨0b1⟩, [.hardware 0 .disabledBySp none]⟩⟩ := by
  decide +kernel

theorem setPower_conforming (b : Bench) (m : ModuleId) (st : PowerState) :
    Conforming ((setPower m st).exec b.sp []).1 := by
  refine b.exec_conforming ?_ []
  have hh : ∀ q : HostRequest, (∀ m w, q ≠ .write m w) → Bench.IsHost (Call.host q) := fun q _ => ⟨q, none, rfl⟩
  have hw : ∀ m (w : MemoryWrite) (d : Bytes), d.length = w.len.toNat → Bench.IsHost (Call.host (.write m w) (some d)) :=
    fun m w d _ => ⟨_, _, rfl⟩
  cases st with
  | off => exact allCalls_setPowerOff m hh
  | low => exact allCalls_setPowerOn m true hh hw
  | high => exact allCalls_setPowerOn m false hh hw

theorem C45_false : ¬ ∀ (m : ModuleId) (st : PowerState) (t : List Exchange) (res : Res Unit), st ≠ .off →
    Runs (setPower m st) t (.ok res) → Conforming t → Partition m res.modules res.failures.modules := by
  intro h
  have hr := Bench.exec_runs overrideBench (setPower ⟨0b1⟩ .high)
  rw [C45_override_counterexample] at hr
  have := h _ _ _ _ (by decide) hr (setPower_conforming _ _ _) 0
  revert this
  decide

/-- All identifier reads of a run gave the same code. -/
def Spec.SameKinds (t : List Exchange) : Prop :=
  ∀ x ∈ t, ∀ y ∈ t, ∀ g g' p q a b, requestOf x = some (.read g identifierByte) →
    requestOf y = some (.read g' identifierByte) → okIn x p = some [a] → okIn y q = some [b] → a = b

/-- No status answer of a run shows a module without power or in reset. -/
def Spec.AllPowered (t : List Exchange) : Prop :=
  ∀ x ∈ t, ∀ g p s, requestOf x = some (.status g) → okIn x p = some [s] → ¬ NeedsPower s

/-- Every status answer of a run shows modules without power or in reset. -/
def Spec.NonePowered (t : List Exchange) : Prop :=
  ∀ x ∈ t, ∀ g p s, requestOf x = some (.status g) → okIn x p = some [s] → NeedsPower s

theorem sameKinds_identified {t ti : List Exchange} (h : SameKinds t) (hs : ∀ x ∈ ti, x ∈ t) {M : ModuleId}
    (hr : ReadsOf M identifierByte ti) {p q : Nat} {a b : U8} (hp : Identified ti p a) (hq : Identified ti q b) :
    a = b := by
  unfold Identified okAmong at hp hq
  obtain ⟨x, hx, hp⟩ := List.exists_of_findSome?_eq_some hp
  obtain ⟨y, hy, hq⟩ := List.exists_of_findSome?_eq_some hq
  obtain ⟨g, hg⟩ := requestOf_readsOf hr hx
  obtain ⟨g', hg'⟩ := requestOf_readsOf hr hy
  exact h x (hs x hx) y (hs y hy) g g' p q a b hg hg' hp hq

theorem status_reports {m : ModuleId} {xs : Exchange} {st : Res Controller.Status}
    (hx : xs.1 = Call.host (.status m)) (hc : Conforms xs) (h : Reports (fun b => b.headD 0) m [xs] st) (p : Nat) :
    Mem st.modules p ↔ ∃ s, okIn xs p = some [s] := by
  rw [mem_iff_datum h.wf.1]
  exact exists_congr fun s => status_data hx hc h p s

/-- **C45**, what holds, first case: if the modules are powered, of one kind and not under software override, setting the
power reports each of them once. -/
theorem C45_powered_partial (m : ModuleId) (st : PowerState) (hst : st ≠ .off) (t : List Exchange) (res : Res Unit)
    (h : Runs (setPower m st) t (.ok res)) (hc : Conforming t) (hk : SameKinds t) (hp : AllPowered t)
    (hno : ∀ tp t' pw, t = tp ++ t' → Runs (power m) tp (.ok pw) → ∀ mode ∈ pw.data, mode.softwareOverride ≠ some true) :
    WF res ∧ Partition m res.modules res.failures.modules := by
  have key : ∀ low, Runs (setPowerOn m low) t (.ok res) → WF res ∧ Partition m res.modules res.failures.modules := by
    intro low h
    rcases setPowerOn_spec h hc with ⟨e, -, h1⟩ | ⟨tp, pw, t', rfl, h1, ⟨-, -, -, h2⟩ | ⟨-, h2⟩⟩
    · cases h1
    · cases h2
    · obtain ⟨t₁, t₂, M, modes, F, xs, xl, need, rfl, hs, ha, hd, hr, hc2⟩ := h2
      have hno' := hno tp _ pw rfl h1
      obtain ⟨x, t₃, t₄, r, htp, -, -, -, -, hwf, hpart, -⟩ := power_spec h1 fun x hx => hc x (List.mem_append_left _ hx)
      obtain ⟨str, ta, tb, td, noReset, m₁, m₂, f₁, f₂, rl, rfl, e1, e2, e3, e4, e5, e6, e7⟩ := hs.steps
      have hpx : ∀ p s, okIn xs p = some [s] → ¬ NeedsPower s := fun p s =>
        hp xs (by simp) _ p s (requestOf_host hs.status)
      have hneed : ∀ p, ¬ Mem need p := by
        intro p hp'
        obtain ⟨s, h3, h4⟩ := (hs.need p).1 hp'
        exact hpx p s h3 h4
      have hnr : ∀ p, ¬ Mem noReset p := by
        intro p hp'
        obtain ⟨s, h3, h4, -⟩ := (e2 p).1 hp'
        exact hpx p s h3 h4
      rcases e3 with ⟨⟨p, h3⟩, -⟩ | ⟨-, rfl, rfl, rfl⟩
      · exact absurd h3 (hnr p)
      rcases e4 with ⟨⟨p, h3⟩, -⟩ | ⟨-, rfl, rfl, rfl⟩
      · exact absurd h3 (hneed p)
      rcases e7 with ⟨⟨p, h3⟩, -⟩ | ⟨-, rfl, rfl, rfl⟩
      · exact absurd h3 (hneed p)
      have hcov : Covers m rl.modules ((pw.failures.merge str.failures).merge rl.failures) :=
        ((Covers.mk hpart hwf.2.1).step (Covers.of_reports e1)).step (Covers.of_reports e6)
      obtain ⟨h3, h4⟩ := soft_covers hcov ha (fun p mode hm => by
        rw [hd] at hm
        split at hm
        · unfold okAt datum at hm
          split at hm
          · exact hno' mode (List.mem_of_getElem? hm)
          · cases hm
        · cases hm) hr hc2 fun ti tw htw hti p q a b h5 h6 =>
          sameKinds_identified hk (fun x hx => by rw [htw]; simp [hx]) hti h5 h6
      exact ⟨⟨h4, h3.aligned, fun p => (h3.split p).2⟩, h3.split⟩
  cases st with
  | off => exact absurd rfl hst
  | low => exact key true h
  | high => exact key false h

/-- No module failed a request of the kinds concerned. -/
def Spec.NoFailures (t : List Exchange) : Prop :=
  ∀ x ∈ t, ∀ q p, requestOf x = some q → IsCommand q → (∀ g, q ≠ .deassertReset g) → errIn x p = none

theorem stepRan_covers {q : ModuleId → HostRequest} {a b : ModuleId} {f f' : FailedModules TransceiverError}
    {t : List Exchange} {m' M m : ModuleId} (h : StepRan q a b f t m' f') (hf : ∀ x ∈ t, ∀ p, errIn x p = none)
    (hc : Covers m M f) : Covers m M f' ∧ ((∃ p, Mem a p) → m' = a) := by
  rcases h with ⟨-, x, r, rfl, -, h2, rfl, rfl⟩ | ⟨h1, -, rfl, rfl⟩
  · have hno : ∀ p, ¬ Mem r.failures.modules p := by
      intro p hp
      have := (reports_mem_err h2).2 hp
      rw [errAmong_singleton, hf x (by simp) p] at this
      cases this
    refine ⟨hc.step (.none hno h2.wf.2.1), fun _ => moduleId_ext_mem fun p => ?_⟩
    have := h2.split p
    have := hno p
    grind
  · exact ⟨hc, fun ⟨p, hp⟩ => absurd hp (h1 p)⟩

/-- **C45**, what holds, second case: if the modules are all unpowered or in reset, of one kind, and none fails to
acknowledge asserting reset, enabling power or asserting low power mode, setting the power to low reports each of them
once. -/
theorem C45_unpowered_partial (m : ModuleId) (t : List Exchange) (res : Res Unit)
    (h : Runs (setPower m .low) t (.ok res)) (hc : Conforming t) (hk : SameKinds t) (hp : NonePowered t)
    (hf : NoFailures t) : WF res ∧ Partition m res.modules res.failures.modules := by
  rcases setPowerOn_spec h hc with ⟨e, -, h1⟩ | ⟨tp, pw, t', rfl, h1, ⟨-, -, -, h2⟩ | ⟨-, h2⟩⟩
  · cases h1
  · cases h2
  · obtain ⟨t₁, t₂, M, modes, F, xs, xl, need, rfl, hs, ha, hd, hr, hc2⟩ := h2
    obtain ⟨x, t₃, t₄, r, htp, hx1, -, -, -, hwf, hpart, hmode, -⟩ :=
      power_spec h1 fun x hx => hc x (List.mem_append_left _ hx)
    obtain ⟨str, ta, tb, td, noReset, m₁, m₂, f₁, f₂, rl, rfl, e1, e2, e3, e4, e5, e6, e7⟩ := hs.steps
    have hpx : ∀ p s, okIn xs p = some [s] → NeedsPower s := fun p s =>
      hp xs (by simp) _ p s (requestOf_host hs.status)
    have hneed : need = str.modules := moduleId_ext_mem fun p => by
      rw [hs.need, status_reports hs.status hs.conforms e1]
      exact exists_congr fun s => ⟨fun h => h.1, fun h => ⟨h, hpx p s h⟩⟩
    subst hneed
    have c0 : Covers m str.modules (pw.failures.merge str.failures) :=
      (Covers.mk hpart hwf.2.1).step (Covers.of_reports e1)
    have cmd : ∀ {q : ModuleId → HostRequest} {a b : ModuleId} {f f' : FailedModules TransceiverError}
        {tx : List Exchange} {m' : ModuleId}, StepRan q a b f tx m' f' → (∀ g, IsCommand (q g)) →
        (∀ g g', q g ≠ .deassertReset g') → (∀ x ∈ tx, x ∈ xs :: (ta ++ (tb ++ xl :: td))) →
        ∀ x ∈ tx, ∀ p, errIn x p = none := by
      intro q a b f f' tx m' hst h3 h4 h5 x hx p
      obtain ⟨g, hg⟩ := stepRan_calls hst hx
      exact hf x (by
        have := h5 x hx
        simp only [List.mem_append] at this ⊢
        exact .inr (.inl this)) _ p (requestOf_host hg) (h3 g) (h4 g)
    have c1 := (stepRan_covers e3 (cmd e3 (fun _ => trivial) (fun _ _ h => by cases h)
      (fun x hx => by simp [hx])) c0).1
    obtain ⟨c2, hm2⟩ := stepRan_covers e4 (cmd e4 (fun _ => trivial) (fun _ _ h => by cases h)
      (fun x hx => by simp [hx])) c1
    have hlno : ∀ p, ¬ Mem rl.failures.modules p := by
      intro p hp'
      have := (reports_mem_err e6).2 hp'
      rw [errAmong_singleton, hf xl (by simp) _ p (requestOf_host e5) trivial (fun g h => by cases h)] at this
      cases this
    have c3 : Covers m str.modules (f₂.merge rl.failures) := c2.step (.none hlno e6.wf.2.1)
    have c4 : Covers m M F := by
      rcases e7 with ⟨-, x, r, -, -, h3, rfl, rfl⟩ | ⟨h3, -, rfl, rfl⟩
      · exact c3.step (Covers.of_reports h3)
      · have hnr : ∀ p, ¬ Mem noReset p := by
          intro p hp'
          obtain ⟨s, h4, -⟩ := (e2 p).1 hp'
          exact h3 p ((status_reports hs.status hs.conforms e1 p).2 ⟨s, h4⟩)
        rcases e3 with ⟨⟨p, h4⟩, -⟩ | ⟨-, -, rfl, -⟩
        · exact absurd h4 (hnr p)
        rcases e4 with ⟨⟨p, h4⟩, -⟩ | ⟨-, -, rfl, -⟩
        · exact absurd h4 (h3 p)
        have : rl.modules = str.modules := moduleId_ext_mem fun p => by
          have := e6.split p
          have := hlno p
          grind
        rw [this]
        exact c3
    obtain ⟨h3, h4⟩ := soft_covers c4 ha (fun p mode hm => by
      rw [hd] at hm
      split at hm
      · obtain ⟨s, h5, ⟨-, rfl⟩ | ⟨h6, -⟩⟩ := hmode p mode hm
        · simp
        · exact absurd (hp x (by rw [htp]; simp) _ p s (requestOf_host hx1) h5) h6
      · cases hm) hr hc2 fun ti tw htw hti p q a b h5 h6 =>
        sameKinds_identified hk (fun x hx => by rw [htw]; simp [hx]) hti h5 h6
    exact ⟨⟨h4, h3.aligned, fun p => (h3.split p).2⟩, h3.split⟩

/-- Setting the power of the powered modules 1 and 2, and of the unpowered module 0. -/
example : ((setPower ⟨0b110⟩ .high).exec mixedBench.sp []).2 = .ok ⟨⟨0b110⟩, [(), ()], ⟨⟨0⟩, []⟩⟩ ∧
    ((setPower ⟨0b1⟩ .low).exec mixedBench.sp []).2 = .ok ⟨⟨0b1⟩, [()], ⟨⟨0⟩, []⟩⟩ := by
  decide +kernel

/-! ## C46 -/

/-- **C46.** If setting the power to low succeeds for a module whose status showed it powered, low power mode was asserted
on that module and acknowledged. -/
theorem C46_low (m : ModuleId) (t : List Exchange) (res : Res Unit) (h : Runs (setPower m .low) t (.ok res))
    (hc : Conforming t) (p : Nat) (hp : Mem res.modules p)
    (hpow : ∀ x ∈ t, ∀ g s, requestOf x = some (.status g) → okIn x p = some [s] → ¬ NeedsPower s) :
    ∃ x ∈ t, ∃ g, requestOf x = some (.assertLpMode g) ∧ Mem g p ∧ (okIn x p).isSome := by
  rcases setPowerOn_spec h hc with ⟨e, -, h1⟩ | ⟨tp, pw, t', rfl, h1, ⟨-, -, -, h2⟩ | ⟨-, h2⟩⟩
  · cases h1
  · cases h2
  · obtain ⟨t₁, t₂, M, modes, F, xs, xl, need, rfl, hs, ha, hd, hr, hc2⟩ := h2
    obtain ⟨str, ta, tb, td, noReset, m₁, m₂, f₁, f₂, rl, rfl, e1, e2, e3, e4, e5, e6, e7⟩ := hs.steps
    obtain ⟨ti, tw, -, -, -, ⟨res', h3, h4, -⟩ | ⟨_, _, _, _, h3⟩, -⟩ := setSoft_spec ha hr hc2
    · simp only [Exec.ok.injEq] at h3
      subst h3
      have hM := (h4 p hp).1
      rcases e7 with ⟨-, x, r, -, -, h5, rfl, -⟩ | ⟨-, -, rfl, -⟩
      · exfalso
        obtain ⟨s, h6, h7⟩ := (hs.need p).1 (((h5.split p).1).2 (.inl hM))
        exact hpow xs (by simp) _ s (requestOf_host hs.status) h6 h7
      · refine ⟨xl, by simp, m₂, requestOf_host e5, ((e6.split p).1).2 (.inl hM), ?_⟩
        have := (reports_mem_ok e6).2 hM
        rwa [okAmong_singleton] at this
    · cases h3

example : ((setPower ⟨0b110⟩ .low).exec mixedBench.sp []).2 = .ok ⟨⟨0b110⟩, [(), ()], ⟨⟨0⟩, []⟩⟩ ∧
    ((setPower ⟨0b110⟩ .low).exec mixedBench.sp []).1.map requestOf =
      [some (.status ⟨0b110⟩), some (.read ⟨0b110⟩ identifierByte), some (.read ⟨0b110⟩ ⟨.sff8636 .lower, 93, 1⟩),
       some (.status ⟨0b110⟩), some (.assertLpMode ⟨0b110⟩), some (.read ⟨0b110⟩ identifierByte),
       some (.write ⟨0⟩ ⟨.sff8636 .lower, 93, 1⟩), some (.write ⟨0b110⟩ ⟨.sff8636 .lower, 93, 1⟩)] := by
  decide +kernel

/-- But not every powered module is reached: if another one is off (module 0 here), low power mode is not asserted on the
powered module 1, which is not reported either. -/
theorem C46_reach_counterexample :
    ((setPower ⟨0b11⟩ .low).exec mixedBench.sp []).2 = .ok ⟨⟨0b1⟩, [()], ⟨⟨0⟩, []⟩⟩ ∧
    ∀ x ∈ ((setPower ⟨0b11⟩ .low).exec mixedBench.sp []).1, ∀ g, requestOf x = some (.assertLpMode g) → ¬ Mem g 1 := by
  have h : ((setPower ⟨0b11⟩ .low).exec mixedBench.sp []).1.all (fun x => match requestOf x with
      | some (.assertLpMode g) => !decide (Mem g 1)
      | _ => true) = true := by decide +kernel
  refine ⟨by decide +kernel, fun x hx g hg hm => ?_⟩
  have := List.all_eq_true.1 h x hx
  rw [hg] at this
  simp [hm] at this

/-! ## C47 -/

/-- Module 0 is CMIS under pin control, module 1 SFF-8636 under software override; both powered. -/
def kindsBench : Bench where
  status _ _ := 0x22
  memory _ i rd _ := if rd.offset = 0 then (if i = 0 then 0x1e else 0x11) else if i = 0 then 0x40 else 0x01

/-- The property is false. Setting the power of both modules to low writes to module 1, which is under software override,
that it should obey the pin. -/
theorem C47_counterexample :
    ((power ⟨0b11⟩).exec kindsBench.sp []).2 =
      .ok ⟨⟨0b11⟩, [⟨.high, some false⟩, ⟨.high, some true⟩], ⟨⟨0⟩, []⟩⟩ ∧
    ∃ x ∈ ((setPower ⟨0b11⟩ .low).exec kindsBench.sp []).1,
      x.1 = Call.host (.write ⟨0b10⟩ ⟨.sff8636 .lower, 93, 1⟩) (some [0b10]) ∧ okIn x 1 = some [] := by
  decide +kernel

/-- Module 0 is SFF-8636 under pin control, module 1 CMIS under software override; both powered. -/
def skipBench : Bench where
  status _ _ := 0x22
  memory _ i rd _ := if rd.offset = 0 then (if i = 0 then 0x11 else 0x1e) else 0

/-- A module under software override may also not be written to at all, so that it does not get the requested power, and
is not reported: module 1 here. -/
theorem C47_skipped_counterexample :
    ((power ⟨0b11⟩).exec skipBench.sp []).2 =
      .ok ⟨⟨0b11⟩, [⟨.high, some false⟩, ⟨.high, some true⟩], ⟨⟨0⟩, []⟩⟩ ∧
    ((setPower ⟨0b11⟩ .low).exec skipBench.sp []).2 = .ok ⟨⟨0⟩, [], ⟨⟨0⟩, []⟩⟩ ∧
    ∀ x ∈ ((setPower ⟨0b11⟩ .low).exec skipBench.sp []).1, ∀ g w, requestOf x = some (.write g w) → ¬ Mem g 1 := by
  have h : ((setPower ⟨0b11⟩ .low).exec skipBench.sp []).1.all (fun x => match requestOf x with
      | some (.write g _) => !decide (Mem g 1)
      | _ => true) = true := by decide +kernel
  refine ⟨by decide +kernel, by decide +kernel, fun x hx g w hg hm => ?_⟩
  have := List.all_eq_true.1 h x hx
  rw [hg] at this
  simp [hm] at this

/-- Where a write to port `p` comes from: the module identified itself in a read of the same run. -/
def Spec.Known (t : List Exchange) (p : Nat) (code : U8) : Prop :=
  ∃ x ∈ t, ∃ g, requestOf x = some (.read g identifierByte) ∧ okIn x p = some [code]

theorem known_of {t ti : List Exchange} (hs : ∀ x ∈ ti, x ∈ t) {M : ModuleId} (hr : ReadsOf M identifierByte ti) {p : Nat}
    {code : U8} (h : Identified ti p code) : Known t p code := by
  unfold Identified okAmong at h
  obtain ⟨x, hx, h⟩ := List.exists_of_findSome?_eq_some h
  obtain ⟨g, hg⟩ := requestOf_readsOf hr hx
  exact ⟨x, hs x hx, g, hg, h⟩

theorem readsOf_call {M : ModuleId} {ti : List Exchange} (hr : ReadsOf M identifierByte ti) {x : Exchange} (hx : x ∈ ti)
    {g : ModuleId} {w : MemoryWrite} : requestOf x ≠ some (.write g w) := by
  obtain ⟨g', hg⟩ := requestOf_readsOf hr hx
  rw [hg]
  simp

/-- **C47**, what holds in general: setting the power writes only to the power control byte of the module's own kind, with
the low power bit as requested. -/
theorem C47_own_byte_partial (m : ModuleId) (st : PowerState) (t : List Exchange) (o : Exec CtlError (Res Unit))
    (h : Runs (setPower m st) t o) (hc : Conforming t) :
    ∀ x ∈ t, ∀ g w, requestOf x = some (.write g w) → st ≠ .off ∧
      ∃ b ov, x.1 = Call.host (.write g w) (some [b]) ∧
        ∀ p, Mem g p → ∃ code, Known t p code ∧ Selects code w b ov (st = .low) := by
  have key : ∀ low, Runs (setPowerOn m low) t o → ∀ x ∈ t, ∀ g w, requestOf x = some (.write g w) →
      ∃ b ov, x.1 = Call.host (.write g w) (some [b]) ∧
        ∀ p, Mem g p → ∃ code, Known t p code ∧ Selects code w b ov low := by
    intro low h x hx g w hq
    have noq : ∀ {q}, requestOf x = some q → IsQuery q → False := by
      intro q h1 h2
      rw [hq, Option.some.injEq] at h1
      subst h1
      exact h2
    rcases setPowerOn_spec h hc with ⟨e, h1, rfl⟩ | ⟨tp, pw, t', rfl, h1, h2⟩
    · obtain ⟨q, h3, h4⟩ := power_queries h1 x hx
      exact (noq h3 h4).elim
    · rcases List.mem_append.1 hx with hx | hx
      · obtain ⟨q, h3, h4⟩ := power_queries h1 x hx
        exact (noq h3 h4).elim
      · rcases h2 with ⟨-, -, rfl, -⟩ | ⟨-, t₁, t₂, M, modes, F, xs, xl, need, rfl, hs, ha, hd, hr, hc2⟩
        · cases hx
        rcases List.mem_append.1 hx with hx | hx
        · obtain ⟨q, h3, h4⟩ := onSteps_calls hs hx
          rw [hq, Option.some.injEq] at h3
          subst h3
          rcases h4 with ⟨m', h4⟩ | h4
          · cases h4
          · exact h4.elim
        · obtain ⟨ti, tw, rfl, hti, hw, -⟩ := setSoft_spec ha hr hc2
          rcases List.mem_append.1 hx with hx | hx
          · exact absurd hq (readsOf_call hti hx)
          · obtain ⟨code, g', ov, r, ⟨⟨w', b, h3, h4⟩, -⟩, h5⟩ := hw x hx
            have := requestOf_host h4
            rw [hq] at this
            simp only [Option.some.injEq, HostRequest.write.injEq] at this
            obtain ⟨rfl, rfl⟩ := this
            exact ⟨b, ov, h4, fun p hp => ⟨code, known_of (fun y hy => by simp [hy]) hti (h5 p hp), h3⟩⟩
  intro x hx g w hq
  cases st with
  | off =>
    exfalso
    obtain ⟨x₁, x₂, x₃, s₁, s₂, res, rfl, h1, h2, h3, -⟩ := C43_power_off m t o h hc
    simp only [List.mem_cons, List.not_mem_nil, or_false] at hx
    rcases hx with rfl | rfl | rfl
    · rw [requestOf_host h1] at hq; simp at hq
    · rw [requestOf_host h2] at hq; simp at hq
    · rw [requestOf_host h3] at hq; simp at hq
  | low => exact ⟨by decide, key true h x hx g w hq⟩
  | high => exact ⟨by decide, key false h x hx g w hq⟩

/-- **C47**, what holds for modules of one kind: the override bit written to a module is what the power report found, and
off modules are left under pin control. -/
theorem C47_one_kind_partial (m : ModuleId) (st : PowerState) (t : List Exchange) (res : Res Unit)
    (h : Runs (setPower m st) t (.ok res)) (hc : Conforming t) (hk : SameKinds t) :
    ∀ x ∈ t, ∀ g w, requestOf x = some (.write g w) →
      ∃ tp t' pw b ov, t = tp ++ t' ∧ Runs (power m) tp (.ok pw) ∧ x.1 = Call.host (.write g w) (some [b]) ∧
        ∀ p, Mem g p → ∃ code mode, Known t p code ∧ Selects code w b ov (st = .low) ∧ okAt pw p = some mode ∧
          (ov = true ↔ mode.softwareOverride = some true) := by
  intro x hx g w hq
  have hon : st ≠ .off := (C47_own_byte_partial m st t _ h hc x hx g w hq).1
  have key : ∀ low, Runs (setPowerOn m low) t (.ok res) →
      ∃ tp t' pw b ov, t = tp ++ t' ∧ Runs (power m) tp (.ok pw) ∧ x.1 = Call.host (.write g w) (some [b]) ∧
        ∀ p, Mem g p → ∃ code mode, Known t p code ∧ Selects code w b ov low ∧ okAt pw p = some mode ∧
          (ov = true ↔ mode.softwareOverride = some true) := by
    intro low h
    have noq : ∀ {q}, requestOf x = some q → IsQuery q → False := by
      intro q h1 h2
      rw [hq, Option.some.injEq] at h1
      subst h1
      exact h2
    rcases setPowerOn_spec h hc with ⟨e, h1, h2⟩ | ⟨tp, pw, t', rfl, h1, h2⟩
    · cases h2
    · rcases List.mem_append.1 hx with hx | hx
      · obtain ⟨q, h3, h4⟩ := power_queries h1 x hx
        exact (noq h3 h4).elim
      · rcases h2 with ⟨-, -, rfl, -⟩ | ⟨-, t₁, t₂, M, modes, F, xs, xl, need, rfl, hs, ha, hd, hr, hc2⟩
        · cases hx
        rcases List.mem_append.1 hx with hx | hx
        · obtain ⟨q, h3, h4⟩ := onSteps_calls hs hx
          rw [hq, Option.some.injEq] at h3
          subst h3
          rcases h4 with ⟨m', h4⟩ | h4
          · cases h4
          · exact h4.elim
        · obtain ⟨ti, tw, rfl, hti, -, -, hone⟩ := setSoft_spec ha hr hc2
          rcases List.mem_append.1 hx with hx | hx
          · exact absurd hq (readsOf_call hti hx)
          · rcases hone (fun p q a b h5 h6 => sameKinds_identified hk (fun x hx => by simp [hx]) hti h5 h6) res rfl with
              ⟨rfl, -⟩ | ⟨code, x₁, x₂, rfl, I, g₁, g₂, r₁, r₂, fi, h4, hI, h5, h6, h7, h8, -⟩
            · cases hx
            have hmode : ∀ p mode, datum M modes p = some mode → okAt pw p = some mode := by
              intro p mode hm
              rw [hd] at hm
              split at hm
              · exact hm
              · cases hm
            have fin : ∀ ov g' (r : Res Unit), SoftWritten code ov low g' x r →
                (∀ p, Mem g' p → Mem I p ∧ ∃ mode, datum M modes p = some mode ∧
                  (ov = true ↔ mode.softwareOverride = some true)) →
                ∃ tp' t' pw' b ov, tp ++ (t₁ ++ (ti ++ [x₁, x₂])) = tp' ++ t' ∧ Runs (power m) tp' (.ok pw') ∧
                  x.1 = Call.host (.write g w) (some [b]) ∧
                  ∀ p, Mem g p → ∃ code mode, Known (tp ++ (t₁ ++ (ti ++ [x₁, x₂]))) p code ∧ Selects code w b ov low ∧
                    okAt pw' p = some mode ∧ (ov = true ↔ mode.softwareOverride = some true) := by
              intro ov g' r hsw hg
              obtain ⟨⟨w', b, h9, h10⟩, -⟩ := hsw
              have := requestOf_host h10
              rw [hq] at this
              simp only [Option.some.injEq, HostRequest.write.injEq] at this
              obtain ⟨rfl, rfl⟩ := this
              refine ⟨tp, _, pw, b, ov, rfl, h1, h10, fun p hp => ?_⟩
              obtain ⟨h11, mode, h12, h13⟩ := hg p hp
              exact ⟨code, mode, known_of (fun y hy => by simp [hy]) hti ((hI p).1 h11), h9, hmode p mode h12, h13⟩
            simp only [List.mem_cons, List.not_mem_nil, or_false] at hx
            rcases hx with rfl | rfl
            · exact fin true g₁ r₁ h7 fun p hp => by
                obtain ⟨h9, mode, h10, h11⟩ := (h5 p).1 hp
                exact ⟨h9, mode, h10, by simp [h11]⟩
            · exact fin false g₂ r₂ h8 fun p hp => by
                obtain ⟨h9, mode, h10, h11⟩ := (h6 p).1 hp
                exact ⟨h9, mode, h10, by simp [h11]⟩
  cases st with
  | off => exact absurd rfl hon
  | low => exact key true h
  | high => exact key false h

/-- **C47**, what holds for powered modules of one kind: each of them that is not reported as failed was told the requested
power and acknowledged it, both at its pin and in its control byte, which keeps the override bit that the power report
found. (A module under software override is not reported as done either, see `C45_override_counterexample`.) -/
theorem C47_reached_partial (m : ModuleId) (st : PowerState) (hst : st ≠ .off) (t : List Exchange) (res : Res Unit)
    (h : Runs (setPower m st) t (.ok res)) (hc : Conforming t) (hk : SameKinds t) (hp : AllPowered t) (p : Nat)
    (hm : Mem m p) (hf : ¬ Failed res p) :
    ∃ tp t' pw mode, t = tp ++ t' ∧ Runs (power m) tp (.ok pw) ∧ okAt pw p = some mode ∧
      (∃ x ∈ t', ∃ g, requestOf x = some (if st = .low then .assertLpMode g else .deassertLpMode g) ∧ Mem g p ∧
        (okIn x p).isSome) ∧
      ∃ x ∈ t', ∃ g w b code, x.1 = Call.host (.write g w) (some [b]) ∧ Mem g p ∧ (okIn x p).isSome ∧
        Known t p code ∧ Selects code w b (mode.softwareOverride = some true) (st = .low) := by
  have key : ∀ low, Runs (setPowerOn m low) t (.ok res) →
      ∃ tp t' pw mode, t = tp ++ t' ∧ Runs (power m) tp (.ok pw) ∧ okAt pw p = some mode ∧
        (∃ x ∈ t', ∃ g, requestOf x = some (if low = true then .assertLpMode g else .deassertLpMode g) ∧ Mem g p ∧
          (okIn x p).isSome) ∧
        ∃ x ∈ t', ∃ g w b code, x.1 = Call.host (.write g w) (some [b]) ∧ Mem g p ∧ (okIn x p).isSome ∧
          Known t p code ∧ Selects code w b (mode.softwareOverride = some true) low := by
    intro low h
    rcases setPowerOn_spec h hc with ⟨e, -, h1⟩ | ⟨tp, pw, t', rfl, h1, ⟨-, -, -, h2⟩ | ⟨-, h2⟩⟩
    · cases h1
    · cases h2
    obtain ⟨t₁, t₂, M, modes, F, xs, xl, need, rfl, hs, ha, hd, hr, hc2⟩ := h2
    obtain ⟨x, t₃, t₄, r, htp, -, -, -, -, hwf, hpart, -⟩ := power_spec h1 fun x hx => hc x (List.mem_append_left _ hx)
    obtain ⟨str, ta, tb, td, noReset, m₁, m₂, f₁, f₂, rl, rfl, e1, e2, e3, e4, e5, e6, e7⟩ := hs.steps
    have hpx : ∀ p s, okIn xs p = some [s] → ¬ NeedsPower s := fun p s =>
      hp xs (by simp) _ p s (requestOf_host hs.status)
    rcases e3 with ⟨⟨p, h3⟩, -⟩ | ⟨-, rfl, rfl, rfl⟩
    · obtain ⟨s, h3, h4, -⟩ := (e2 p).1 h3
      exact absurd h4 (hpx p s h3)
    rcases e4 with ⟨⟨p, h3⟩, -⟩ | ⟨-, rfl, rfl, rfl⟩
    · obtain ⟨s, h3, h4⟩ := (hs.need p).1 h3
      exact absurd h4 (hpx p s h3)
    rcases e7 with ⟨⟨p, h3⟩, -⟩ | ⟨-, rfl, rfl, rfl⟩
    · obtain ⟨s, h3, h4⟩ := (hs.need p).1 h3
      exact absurd h4 (hpx p s h3)
    have hcov : Covers m rl.modules ((pw.failures.merge str.failures).merge rl.failures) :=
      ((Covers.mk hpart hwf.2.1).step (Covers.of_reports e1)).step (Covers.of_reports e6)
    obtain ⟨ti, tw, rfl, hti, -, -, hone⟩ := setSoft_spec ha hr hc2
    have hmerge : ∀ f f' : FailedModules TransceiverError, Mem (f.merge f').modules p ↔ Mem f.modules p ∨ Mem f'.modules p :=
      fun f f' => mem_merge
    have hsplit := (hcov.split p).1.1 hm
    rcases hone (fun p q a b h5 h6 => sameKinds_identified hk (fun x hx => by simp [hx]) hti h5 h6) res rfl with
      ⟨-, -, I, fi, h3, h4, rfl⟩ | ⟨code, x₁, x₂, rfl, I, g₁, g₂, r₁, r₂, fi, h4, hI, h5, h6, h7, h8, rfl⟩
    · exfalso
      apply hf
      show Mem (FailedModules.merge _ fi).modules p
      rw [hmerge]
      rcases hsplit with h9 | h9
      · exact .inr (((h4.split p).1.1 h9).resolve_left (h3 p))
      · exact .inl h9
    · have hf' : ¬ Mem ((FailedModules.merge (FailedModules.merge (FailedModules.merge _ fi) r₁.failures)
        r₂.failures).modules) p := hf
      rw [hmerge, hmerge, hmerge] at hf'
      have hM : Mem rl.modules p := hsplit.resolve_right fun h9 => hf' (.inl (.inl (.inl h9)))
      have hIp : Mem I p := ((h4.split p).1.1 hM).resolve_right fun h9 => hf' (.inl (.inl (.inr h9)))
      obtain ⟨mode, hmode⟩ := (mem_iff_datum ha p).1 hM
      have hpw : okAt pw p = some mode := by
        rw [hd, if_pos hM] at hmode
        exact hmode
      have hm2 : Mem str.modules p := ((e6.split p).1).2 (.inl hM)
      refine ⟨tp, _, pw, mode, rfl, h1, hpw, ⟨xl, by simp, str.modules, ?_, hm2, ?_⟩, ?_⟩
      · rw [requestOf_host e5]
      · have := (reports_mem_ok e6).2 hM
        rwa [okAmong_singleton] at this
      have fin : ∀ ov g (r : Res Unit) x, x ∈ [x₁, x₂] → SoftWritten code ov low g x r → Mem g p →
          ¬ Mem r.failures.modules p → ov = decide (mode.softwareOverride = some true) →
          ∃ x ∈ xs :: ([] ++ ([] ++ xl :: [])) ++ (ti ++ [x₁, x₂]), ∃ g w b code,
            x.1 = Call.host (.write g w) (some [b]) ∧ Mem g p ∧ (okIn x p).isSome ∧
            Known (tp ++ (xs :: ([] ++ ([] ++ xl :: [])) ++ (ti ++ [x₁, x₂]))) p code ∧
            Selects code w b (mode.softwareOverride = some true) low := by
        intro ov g r x hx hsw hg hr hov
        obtain ⟨⟨w, b, h9, h10⟩, h11⟩ := hsw
        refine ⟨x, by simp only [List.mem_append]; exact .inr (.inr hx), g, w, b, code, h10, hg, ?_,
          known_of (fun y hy => by simp [hy]) hti ((hI p).1 hIp), hov ▸ h9⟩
        have := (reports_mem_ok h11).2 (((h11.split p).1.1 hg).resolve_right hr)
        rwa [okAmong_singleton] at this
      by_cases hov : mode.softwareOverride = some true
      · exact fin true g₁ r₁ x₁ (by simp) h7 ((h5 p).2 ⟨hIp, mode, hmode, hov⟩) (fun h9 => hf' (.inl (.inr h9)))
          (by simp [hov])
      · exact fin false g₂ r₂ x₂ (by simp) h8 ((h6 p).2 ⟨hIp, mode, hmode, hov⟩) (fun h9 => hf' (.inr h9))
          (by simp [hov])
  cases st with
  | off => exact absurd rfl hst
  | low => simpa using key true h
  | high => simpa using key false h

/-- A powered module under software override, told to go to high power: it is told so at its pin and by its control byte,
which keeps the override. The result reports no failure. -/
example : ((setPower ⟨0b1⟩ .high).exec overrideBench.sp []).2 = .ok ⟨⟨0⟩, [], ⟨⟨0⟩, []⟩⟩ ∧
    ((setPower ⟨0b1⟩ .high).exec overrideBench.sp []).1.map (fun x => (requestOf x, x.1.data, (okIn x 0).isSome)) =
      [(some (.status ⟨0b1⟩), none, true), (some (.read ⟨0b1⟩ identifierByte), none, true),
        (some (.read ⟨0b1⟩ ⟨.sff8636 .lower, 93, 1⟩), none, true), (some (.status ⟨0b1⟩), none, true),
        (some (.deassertLpMode ⟨0b1⟩), none, true), (some (.read ⟨0b1⟩ identifierByte), none, true),
        (some (.write ⟨0b1⟩ ⟨.sff8636 .lower, 93, 1⟩), some [0b01], true),
        (some (.write ⟨0⟩ ⟨.sff8636 .lower, 93, 1⟩), some [0b00], false)] := by
  decide +kernel

end Xcvr
