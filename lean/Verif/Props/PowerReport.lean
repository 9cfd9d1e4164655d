import Verif.Lemmas.CliBoard

/-! # C45: which modules setting low or high power does not report -/

namespace Xcvr

open Spec Prog Controller

/-- In the answer to a status request, the module needs no power while another one does. -/
def Spec.PassedOver (x : Exchange) (p : Nat) : Prop :=
  (∃ s, okIn x p = some [s] ∧ ¬ NeedsPower s) ∧ ∃ q s, okIn x q = some [s] ∧ NeedsPower s

/-- The module's power report says that software overrides its low power pin. -/
def Spec.Overridden (pw : Res PowerMode) (p : Nat) : Prop :=
  ∃ mode, okAt pw p = some mode ∧ mode.softwareOverride = some true

/-- Identifier reads of a run gave two different codes. -/
def Spec.TwoKinds (t : List Exchange) : Prop :=
  ∃ x ∈ t, ∃ y ∈ t, ∃ g g' p q a b, requestOf x = some (.read g identifierByte) ∧
    requestOf y = some (.read g' identifierByte) ∧ okIn x p = some [a] ∧ okIn y q = some [b] ∧ a ≠ b

theorem not_sameKinds {t : List Exchange} (h : ¬ SameKinds t) : TwoKinds t := by
  apply Classical.byContradiction
  intro hn
  refine h fun x hx y hy g g' p q a b h1 h2 h3 h4 => ?_
  apply Classical.byContradiction
  intro hab
  exact hn ⟨x, hx, y, hy, g, g', p, q, a, b, h1, h2, h3, h4, hab⟩

theorem stepRan_failures {q : ModuleId → HostRequest} {target a a' : ModuleId} {f f' : FailedModules TransceiverError}
    {t : List Exchange} (h : StepRan q target a f t a' f') {p : Nat} :
    (Mem f.modules p → Mem f'.modules p) ∧ (Mem target p → Mem a' p ∨ Mem f'.modules p) ∧
      ((∃ q, Mem target q) → Mem a' p → Mem target p) ∧ ((∀ q, ¬ Mem target q) → a' = a) := by
  rcases h with ⟨h0, x, r, -, -, h2, rfl, rfl⟩ | ⟨h1, -, rfl, rfl⟩
  · refine ⟨fun h => mem_merge.2 (.inl h), fun h => ?_, fun _ h => (h2.split p).1.2 (.inl h), fun h => ?_⟩
    · rcases (h2.split p).1.1 h with h3 | h3
      · exact .inl h3
      · exact .inr (mem_merge.2 (.inr h3))
    · obtain ⟨q, hq⟩ := h0
      exact absurd hq (h q)
  · exact ⟨id, fun h => absurd h (h1 p), fun ⟨q, hq⟩ => absurd hq (h1 q), fun _ => rfl⟩

/-- Which of the modules asked for reach the software step. -/
theorem onSteps_reach {low : Bool} {m : ModuleId} {pw : Res PowerMode} {t : List Exchange} {M : ModuleId}
    {F : FailedModules TransceiverError} {xs xl : Exchange} {need : ModuleId} (hs : OnSteps low pw t M F xs xl need)
    (hpart : Partition m pw.modules pw.failures.modules) {p : Nat} (hp : Mem m p) (hf : ¬ Mem F.modules p) :
    (Mem M p ↔ ¬ PassedOver xs p) ∧ Mem pw.modules p ∧ ∃ s, okIn xs p = some [s] := by
  obtain ⟨str, ta, tb, td, noReset, m₁, m₂, f₁, f₂, rl, rfl, e1, e2, e3, e4, e5, e6, e7⟩ := hs.steps
  have k7 := stepRan_failures (p := p) e7
  have k4 := stepRan_failures (p := p) e4
  have k3 := stepRan_failures (p := p) e3
  have hfl : ¬ Mem (f₂.merge rl.failures).modules p := fun h => hf (k7.1 h)
  have hf2 : ¬ Mem f₂.modules p := fun h => hfl (mem_merge.2 (.inl h))
  have hfr : ¬ Mem rl.failures.modules p := fun h => hfl (mem_merge.2 (.inr h))
  have hf1 : ¬ Mem f₁.modules p := fun h => hf2 (k4.1 h)
  have hf0 : ¬ Mem (pw.failures.merge str.failures).modules p := fun h => hf1 (k3.1 h)
  have hpw : Mem pw.modules p := ((hpart p).1.1 hp).resolve_right fun h => hf0 (mem_merge.2 (.inl h))
  have hpst : Mem str.modules p := ((e1.split p).1.1 hpw).resolve_right fun h => hf0 (mem_merge.2 (.inr h))
  obtain ⟨v, hv⟩ := (status_reports hs.status hs.conforms e1 p).1 hpst
  refine ⟨⟨?_, fun hn => ?_⟩, hpw, v, hv⟩
  · rintro hM ⟨⟨s, h1, h2⟩, q, s', h3, h4⟩
    obtain ⟨s'', h5, h6⟩ := (hs.need p).1 (k7.2.2.1 ⟨q, (hs.need q).2 ⟨s', h3, h4⟩⟩ hM)
    rw [h1] at h5
    cases h5
    exact h2 h6
  · by_cases hv' : NeedsPower v
    · exact (k7.2.1 ((hs.need p).2 ⟨v, hv, hv'⟩)).resolve_right hf
    · have hno : ∀ q, ¬ Mem need q := by
        intro q hq
        obtain ⟨s, h1, h2⟩ := (hs.need q).1 hq
        exact hn ⟨⟨v, hv, hv'⟩, q, s, h1, h2⟩
      have hnr : ∀ q, ¬ Mem noReset q := by
        intro q hq
        obtain ⟨s, h3, h4, -⟩ := (e2 q).1 hq
        exact hno q ((hs.need q).2 ⟨s, h3, h4⟩)
      rw [k7.2.2.2 hno]
      refine reports_success e6 ?_ hfr
      rw [k4.2.2.2 hno, k3.2.2.2 hnr]
      exact hpst

/-- **C45**, what holds of modules of one kind: a module that is not reported as a failure is left out of the report
exactly if it needed no power while another did, or if it is under software override. -/
theorem C45_silent_partial (m : ModuleId) (st : PowerState) (hst : st ≠ .off) (t : List Exchange) (res : Res Unit)
    (h : Runs (setPower m st) t (.ok res)) (hc : Conforming t) (hk : SameKinds t) :
    ∃ tp x t' pw, t = tp ++ x :: t' ∧ Runs (power m) tp (.ok pw) ∧ requestOf x = some (.status pw.modules) ∧
      ∀ p, Mem m p → ¬ Mem res.failures.modules p → (¬ Mem res.modules p ↔ PassedOver x p ∨ Overridden pw p) := by
  have key : ∀ low, Runs (setPowerOn m low) t (.ok res) →
      ∃ tp x t' pw, t = tp ++ x :: t' ∧ Runs (power m) tp (.ok pw) ∧ requestOf x = some (.status pw.modules) ∧
        ∀ p, Mem m p → ¬ Mem res.failures.modules p → (¬ Mem res.modules p ↔ PassedOver x p ∨ Overridden pw p) := by
    intro low h
    rcases setPowerOn_spec h hc with ⟨e, -, h1⟩ | ⟨tp, pw, t', rfl, h1, ⟨-, -, -, h2⟩ | ⟨-, h2⟩⟩
    · cases h1
    · cases h2
    obtain ⟨t₁, t₂, M, modes, F, xs, xl, need, rfl, hs, ha, hd, hr, hc2⟩ := h2
    obtain ⟨x, t₃, t₄, r, htp, -, -, -, -, -, hpart, -⟩ := power_spec h1 fun x hx => hc x (List.mem_append_left _ hx)
    obtain ⟨str, ta, tb, td, -, -, -, -, -, -, ht1, -⟩ := hs.steps
    refine ⟨tp, xs, (ta ++ (tb ++ xl :: td)) ++ t₂, pw, by rw [ht1]; simp, h1, requestOf_host hs.status, fun p hp hf => ?_⟩
    obtain ⟨ti, tw, rfl, hti, -, -, hone⟩ := setSoft_spec ha hr hc2
    rcases hone (fun p q a b h5 h6 => sameKinds_identified hk (fun x hx => by simp [hx]) hti h5 h6) res rfl with
      ⟨-, -, I, fi, h3, h4, rfl⟩ | ⟨code, x₁, x₂, rfl, I, g₁, g₂, r₁, r₂, fi, h4, hI, h5, h6, h7, h8, rfl⟩
    · have hf' : ¬ Mem (F.merge fi).modules p := hf
      obtain ⟨hM, -, -⟩ := onSteps_reach hs hpart hp fun h => hf' (mem_merge.2 (.inl h))
      refine ⟨fun _ => .inl ?_, fun _ => h3 p⟩
      apply Classical.byContradiction
      intro hn
      exact hf' (mem_merge.2 (.inr (((h4.split p).1.1 (hM.2 hn)).resolve_left (h3 p))))
    · have hf' : ¬ Mem ((FailedModules.merge (FailedModules.merge (FailedModules.merge F fi) r₁.failures)
        r₂.failures).modules) p := hf
      have hfF : ¬ Mem F.modules p := fun h =>
        hf' (mem_merge.2 (.inl (mem_merge.2 (.inl (mem_merge.2 (.inl h))))))
      have hfi : ¬ Mem fi.modules p := fun h =>
        hf' (mem_merge.2 (.inl (mem_merge.2 (.inl (mem_merge.2 (.inr h))))))
      have hf2 : ¬ Mem r₂.failures.modules p := fun h => hf' (mem_merge.2 (.inr h))
      obtain ⟨hM, hpw, -⟩ := onSteps_reach hs hpart hp hfF
      have hres : Mem (AckResult.new r₂.modules (((F.merge fi).merge r₁.failures).merge r₂.failures)).modules p ↔
          Mem g₂ p := ⟨fun h => (h8.2.split p).1.2 (.inl h), fun h => ((h8.2.split p).1.1 h).resolve_right hf2⟩
      rw [hres, h6 p]
      constructor
      · intro hn
        apply Classical.byContradiction
        intro hn'
        rw [not_or] at hn'
        have hMp := hM.2 hn'.1
        obtain ⟨mode, hmode⟩ := (mem_iff_datum ha p).1 hMp
        refine hn ⟨((h4.split p).1.1 hMp).resolve_right hfi, mode, hmode, fun hov => hn'.2 ⟨mode, ?_, hov⟩⟩
        rw [hd, if_pos hMp] at hmode
        exact hmode
      · rintro hcase ⟨hI', mode, hmode, hov⟩
        have hMp : Mem M p := (h4.split p).1.2 (.inl hI')
        rcases hcase with hpo | ⟨mode', hm', ho'⟩
        · exact hM.1 hMp hpo
        · rw [hd, if_pos hMp, hm'] at hmode
          cases hmode
          exact hov ho'
  cases st with
  | off => exact absurd rfl hst
  | low => exact key true h
  | high => exact key false h

/-- **C45**, what holds of all modules: only for one of three reasons is a module missing from the report. -/
theorem C45_missing_partial (m : ModuleId) (st : PowerState) (hst : st ≠ .off) (t : List Exchange) (res : Res Unit)
    (h : Runs (setPower m st) t (.ok res)) (hc : Conforming t) (p : Nat) (hp : Mem m p)
    (hf : ¬ Mem res.failures.modules p) (hm : ¬ Mem res.modules p) :
    TwoKinds t ∨ ∃ tp x t' pw, t = tp ++ x :: t' ∧ Runs (power m) tp (.ok pw) ∧
      requestOf x = some (.status pw.modules) ∧ (PassedOver x p ∨ Overridden pw p) := by
  by_cases hk : SameKinds t
  · obtain ⟨tp, x, t', pw, h1, h2, h3, h4⟩ := C45_silent_partial m st hst t res h hc hk
    exact .inr ⟨tp, x, t', pw, h1, h2, h3, (h4 p hp hf).1 hm⟩
  · exact .inl (not_sameKinds hk)

/-- A request to a module to change its pins on the way to low or high power, other than the last one. -/
def Spec.OnTheWay (p : Nat) (q : HostRequest) : Prop :=
  match q with
  | .assertReset g | .enablePower g | .assertLpMode g | .deassertLpMode g => Mem g p
  | _ => False

/-- **C45**, what holds of modules of one kind that are reported both as a success and as a failure: they needed power, and
failed to be put in reset, to be given power or to have their low power pin set. The failure is passed over when they are
taken out of reset. -/
theorem C45_twice_partial (m : ModuleId) (st : PowerState) (hst : st ≠ .off) (t : List Exchange) (res : Res Unit)
    (h : Runs (setPower m st) t (.ok res)) (hc : Conforming t) (hk : SameKinds t) (p : Nat) (hp : Mem res.modules p)
    (hf : Mem res.failures.modules p) :
    (∃ x ∈ t, ∃ g s, requestOf x = some (.status g) ∧ okIn x p = some [s] ∧ NeedsPower s) ∧
      ∃ x ∈ t, ∃ q, requestOf x = some q ∧ OnTheWay p q ∧ (errIn x p).isSome := by
  have key : ∀ low, Runs (setPowerOn m low) t (.ok res) →
      (∃ x ∈ t, ∃ g s, requestOf x = some (.status g) ∧ okIn x p = some [s] ∧ NeedsPower s) ∧
        ∃ x ∈ t, ∃ q, requestOf x = some q ∧ OnTheWay p q ∧ (errIn x p).isSome := by
    intro low h
    rcases setPowerOn_spec h hc with ⟨e, -, h1⟩ | ⟨tp, pw, t', rfl, h1, ⟨-, -, -, h2⟩ | ⟨-, h2⟩⟩
    · cases h1
    · cases h2
    obtain ⟨t₁, t₂, M, modes, F, xs, xl, need, rfl, hs, ha, hd, hr, hc2⟩ := h2
    obtain ⟨x, t₃, t₄, r, htp, -, -, -, -, -, hpart, -⟩ := power_spec h1 fun x hx => hc x (List.mem_append_left _ hx)
    obtain ⟨ti, tw, rfl, hti, -, -, hone⟩ := setSoft_spec ha hr hc2
    -- it failed before the software step
    have hMF : Mem M p ∧ Mem F.modules p := by
      rcases hone (fun p q a b h5 h6 => sameKinds_identified hk (fun x hx => by simp [hx]) hti h5 h6) res rfl with
        ⟨-, -, I, fi, h3, h4, rfl⟩ | ⟨code, x₁, x₂, rfl, I, g₁, g₂, r₁, r₂, fi, h4, hI, h5, h6, h7, h8, rfl⟩
      · exact absurd hp (h3 p)
      · have hp' : Mem r₂.modules p := hp
        have hf' : Mem ((FailedModules.merge (FailedModules.merge (FailedModules.merge F fi) r₁.failures)
          r₂.failures).modules) p := hf
        have hg2 : Mem g₂ p := (h8.2.split p).1.2 (.inl hp')
        obtain ⟨hIp, mode, hmode, hov⟩ := (h6 p).1 hg2
        have hMp : Mem M p := (h4.split p).1.2 (.inl hIp)
        refine ⟨hMp, ?_⟩
        rcases mem_merge.1 hf' with h9 | h9
        · rcases mem_merge.1 h9 with h9 | h9
          · rcases mem_merge.1 h9 with h9 | h9
            · exact h9
            · exact absurd ⟨hIp, h9⟩ (h4.split p).2
          · obtain ⟨-, mode', hmode', hov'⟩ := (h5 p).1 ((h7.2.split p).1.2 (.inr h9))
            rw [hmode] at hmode'
            cases hmode'
            exact absurd hov' hov
        · exact absurd ⟨hp', h9⟩ (h8.2.split p).2
    obtain ⟨hMp, hFp⟩ := hMF
    have hs' := hs
    obtain ⟨str, ta, tb, td, noReset, m₁, m₂, f₁, f₂, rl, rfl, e1, e2, e3, e4, e5, e6, e7⟩ := hs'.steps
    have failed : ∀ {q : HostRequest} {g : ModuleId} {y : Exchange} {r : Res Unit}, y.1 = Call.host q →
        Reports (fun _ => ()) g [y] r → Mem r.failures.modules p → (errIn y p).isSome := by
      intro q g y r _ h2 h3
      have := (reports_mem_err h2).2 h3
      rwa [errAmong_singleton] at this
    have hstm : Mem str.modules p → ¬ Mem (pw.failures.merge str.failures).modules p := by
      intro h3 h4
      have hpw : Mem pw.modules p := (e1.split p).1.2 (.inl h3)
      rcases mem_merge.1 h4 with h4 | h4
      · exact (hpart p).2 ⟨hpw, h4⟩
      · exact (e1.split p).2 ⟨h3, h4⟩
    rcases e7 with ⟨-, y, ry, rfl, h3, h4, rfl, rfl⟩ | ⟨hno, rfl, rfl, rfl⟩
    · have hneed : Mem need p := (h4.split p).1.2 (.inl hMp)
      obtain ⟨v, hv, hv'⟩ := (hs.need p).1 hneed
      have hst' := hstm ((status_reports hs.status hs.conforms e1 p).2 ⟨v, hv⟩)
      refine ⟨⟨xs, by simp, _, v, requestOf_host hs.status, hv, hv'⟩, ?_⟩
      have h5 : Mem (f₂.merge rl.failures).modules p := (mem_merge.1 hFp).resolve_right fun h => (h4.split p).2 ⟨hMp, h⟩
      rcases mem_merge.1 h5 with h5 | h5
      · rcases e4 with ⟨-, y', r', rfl, h6, h7, rfl, rfl⟩ | ⟨hno, -⟩
        · rcases mem_merge.1 h5 with h5 | h5
          · rcases e3 with ⟨-, y'', r'', rfl, h8, h9, rfl, rfl⟩ | ⟨-, -, -, rfl⟩
            · have h10 := (mem_merge.1 h5).resolve_left hst'
              exact ⟨y'', by simp, _, requestOf_host h8, (h9.split p).1.2 (.inr h10), failed h8 h9 h10⟩
            · exact absurd h5 hst'
          · exact ⟨y', by simp, _, requestOf_host h6, hneed, failed h6 h7 h5⟩
        · exact absurd hneed (hno p)
      · have hm2 : Mem m₂ p := (e6.split p).1.2 (.inr h5)
        refine ⟨xl, by simp, _, requestOf_host e5, ?_, failed e5 e6 h5⟩
        cases low <;> exact hm2
    · exfalso
      have hnr : ∀ q, ¬ Mem noReset q := by
        intro q hq
        obtain ⟨s, h3, h4, -⟩ := (e2 q).1 hq
        exact hno q ((hs.need q).2 ⟨s, h3, h4⟩)
      rcases e4 with ⟨⟨q, h3⟩, -⟩ | ⟨-, -, rfl, rfl⟩
      · exact hno q h3
      rcases e3 with ⟨⟨q, h3⟩, -⟩ | ⟨-, -, rfl, rfl⟩
      · exact hnr q h3
      have h5 : Mem str.modules p := (e6.split p).1.2 (.inl hMp)
      rcases mem_merge.1 hFp with h6 | h6
      · exact hstm h5 h6
      · exact (e6.split p).2 ⟨hMp, h6⟩
  cases st with
  | off => exact absurd rfl hst
  | low => exact key true h
  | high => exact key false h

/-! ### Examples -/

/-- All identifier reads gave `c`, by looking at each exchange. -/
theorem sameKinds_of {t : List Exchange} (c : U8) (h : (t.all fun x =>
    match requestOf x with
    | some (.read _ rd) => decide (rd ≠ identifierByte) || (List.range 64).all fun p => (okIn x p).all (· == [c])
    | _ => true) = true) : SameKinds t := by
  have key : ∀ x ∈ t, ∀ g p a, requestOf x = some (.read g identifierByte) → okIn x p = some [a] → a = c := by
    intro x hx g p a h1 h2
    have h3 := List.all_eq_true.1 h x hx
    rw [h1] at h3
    simp only [ne_eq, not_true, decide_false, Bool.false_or, List.all_eq_true, List.mem_range] at h3
    have hlt : p < 64 := by
      unfold okIn at h2
      split at h2
      · exact record_lt h2
      · cases h2
    have := h3 p hlt
    rw [h2] at this
    simpa using this
  intro x hx y hy g g' p q a b h1 h2 h3 h4
  rw [key x hx g p a h1 h3, key y hy g' q b h2 h4]

/-- `C45_silent_partial`: the module under override of `C45_override_counterexample`, and the powered module of
`C45_mixed_counterexample`. -/
example : SameKinds ((setPower ⟨0b1⟩ .high).exec overrideBench.sp []).1 ∧
    (((power ⟨0b1⟩).exec overrideBench.sp []).2 = .ok ⟨⟨0b1⟩, [⟨.low, some true⟩], ⟨⟨0⟩, []⟩⟩) ∧
    SameKinds ((setPower ⟨0b11⟩ .low).exec mixedBench.sp []).1 ∧
    ((setPower ⟨0b11⟩ .low).exec mixedBench.sp []).1.any (fun x =>
      match requestOf x with
      | some (.status _) => okIn x 0 = some [0] && okIn x 1 = some [0x22]
      | _ => false) :=
  ⟨sameKinds_of 0x11 (by decide +kernel), by decide +kernel, sameKinds_of 0x11 (by decide +kernel), by decide +kernel⟩

/-- `C45_twice_partial`: the module of `C45_twice_counterexample`. -/
example : SameKinds ((setPower ⟨0b1⟩ .low).exec twiceBench.sp []).1 ∧
    ((setPower ⟨0b1⟩ .low).exec twiceBench.sp []).2 =
      .ok ⟨⟨0b1⟩, [()], ⟨⟨0b1⟩, [.hardware 0 .disabledBySp none]⟩⟩ :=
  ⟨sameKinds_of 0x11 (by decide +kernel), C45_twice_counterexample⟩

end Xcvr
