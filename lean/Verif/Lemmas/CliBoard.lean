import Verif.Spec.CliBoard
import Verif.Props.SysBoard

/-! # Lemmas on what becomes of modules that a command of the tool does not list as failures -/

namespace Xcvr

open Spec Prog Cli Controller

/-- After the control byte is written, overriding the pin, it decides. -/
theorem soft_override {code : U8} {w : MemoryWrite} {v : U8} {low : Bool} (h : Selects code w v true low) {s : PortState}
    (hcode : s.lower 0 = code) (he : s.enabled = true) (hr : s.reset = false) :
    (s.store w [v]).power = if low then .low else .high := by
  obtain ⟨⟨k1, k2, k3, -⟩, k5⟩ := store_kept h s
  unfold PortState.power
  rw [k1, k2, he, hr, if_neg (by simp)]
  have hc : codeOf (s.store w [v]).memory = code := by
    rw [← hcode, ← k5]; rfl
  unfold controlIn
  rw [hc]
  rcases h with ⟨hi, rfl, h0, h1⟩ | ⟨hi, rfl, h6, h4⟩
  · rw [hi]
    have : sffPowerControl (s.store ⟨.sff8636 .lower, 93, 1⟩ [v]).memory = .overrideLpModePin low := by
      unfold sffPowerControl
      have : sffLow (s.store ⟨.sff8636 .lower, 93, 1⟩ [v]).memory 93 = v := rfl
      rw [this, h0, h1]
      rfl
    rw [this]
  · rw [hi]
    have : cmisPowerControl (s.store ⟨.sff8636 .lower, 26, 1⟩ [v]).memory = .overrideLpModePin low := by
      unfold cmisPowerControl
      have : cmisLow (s.store ⟨.sff8636 .lower, 26, 1⟩ [v]).memory 26 = v := rfl
      rw [this, h6, h4]
      rfl
    rw [this]

theorem stepRan_aligned {q : ModuleId → HostRequest} {target a a' : ModuleId} {f f' : FailedModules TransceiverError}
    {t : List Exchange} (h : StepRan q target a f t a' f') (hf : Aligned f.modules f.errors) :
    Aligned f'.modules f'.errors := by
  rcases h with ⟨-, x, r, -, -, h2, -, rfl⟩ | ⟨-, -, -, rfl⟩
  · exact aligned_merge hf h2.wf.2.1
  · exact hf

theorem stepRan_sub {q : ModuleId → HostRequest} {target a a' : ModuleId} {f f' : FailedModules TransceiverError}
    {t : List Exchange} (h : StepRan q target a f t a' f') {p : Nat} (hp : Mem a' p) : Mem target p ∨ Mem a p := by
  rcases h with ⟨-, x, r, -, -, h2, rfl, -⟩ | ⟨-, -, rfl, -⟩
  · exact .inl ((h2.split p).1.2 (.inl hp))
  · exact .inr hp

/-- The failures of setting low or high power each have their error. -/
theorem on_aligned {m : ModuleId} {low : Bool} {t : List Exchange} {res : Res Unit}
    (h : Runs (setPowerOn m low) t (.ok res)) (hc : Conforming t) :
    Aligned res.failures.modules res.failures.errors := by
  rcases setPowerOn_spec h hc with ⟨e, -, h1⟩ | ⟨tp, pw, t', rfl, h1, ⟨-, -, -, h2⟩ | ⟨-, h2⟩⟩
  · cases h1
  · cases h2
  obtain ⟨t₁, t₂, M, modes, F, xs, xl, need, rfl, hs, ha, -, hr, hc2⟩ := h2
  obtain ⟨str, ta, tb, td, noReset, m₁, m₂, f₁, f₂, rl, rfl, e1, e2, e3, e4, e5, e6, e7⟩ := hs.steps
  obtain ⟨x, t₃, t₄, r, htp, -, -, -, -, hwf, -⟩ := power_spec h1 fun x hx => hc x (List.mem_append_left _ hx)
  obtain ⟨ti, tw, rfl, hti, -, hk, -⟩ := setSoft_spec ha hr hc2
  rcases hk with ⟨res', h3, -, -, -, h4⟩ | ⟨_, _, _, _, h3⟩
  · cases h3
    exact h4 (stepRan_aligned e7 (aligned_merge (stepRan_aligned e4 (stepRan_aligned e3
      (aligned_merge hwf.2.1 e1.wf.2.1))) e6.wf.2.1))
  · cases h3

/-- Setting low or high power, where each status answer shows all modules in need of power or none, and the modules are of
one kind: a module that did not fail is in the state asked for. -/
theorem on_even {m : ModuleId} {low : Bool} {t : List Exchange} {res : Res Unit}
    (h : Runs (setPowerOn m low) t (.ok res)) (hc : Conforming t) {p : Nat} {b b' : PortState} (he : EvolvesAt p b t b')
    (hu : ∀ x ∈ t, ∀ g, (∀ q, Mem g q → Mem m q) → requestOf x = some (.status g) →
      (∀ q s, okIn x q = some [s] → ¬ NeedsPower s) ∨ ∀ q s, okIn x q = some [s] → NeedsPower s)
    (hk : ∀ ti M, (∀ x ∈ ti, x ∈ t) → (∀ q, Mem M q → Mem m q) → ReadsOf M identifierByte ti →
      ∀ q q' a a', Identified ti q a → Identified ti q' a' → a = a')
    (hp : Mem m p) (hf : ¬ Mem res.failures.modules p) : b'.power = if low then .low else .high := by
  rcases setPowerOn_spec h hc with ⟨e, -, h1⟩ | ⟨tp, pw, t', rfl, h1, ⟨-, -, -, h2⟩ | ⟨-, h2⟩⟩
  · cases h1
  · cases h2
  obtain ⟨t₁, t₂, M, modes, F, xs, xl, need, rfl, hs, ha, -, hr, hc2⟩ := h2
  obtain ⟨x, t₃, t₄, r, htp, -, -, -, -, -, hpart, -⟩ := power_spec h1 fun x hx => hc x (List.mem_append_left _ hx)
  obtain ⟨str, ta, tb, td, noReset, m₁, m₂, f₁, f₂, rl, rfl, e1, e2, e3, e4, e5, e6, e7⟩ := hs.steps
  obtain ⟨ti, tw, rfl, hti, hw, hmono, -⟩ := setSoft_last ha hr hc2
  have hpF : ¬ Mem F.modules p := fun h => hf (hmono p h)
  -- which modules the steps are for
  have hpwm : ∀ q, Mem pw.modules q → Mem m q := fun q hq => (hpart q).1.2 (.inl hq)
  have hstm : ∀ q, Mem str.modules q → Mem m q := fun q hq => hpwm q ((e1.split q).1.2 (.inl hq))
  have hneedst : ∀ q, Mem need q → Mem str.modules q := fun q hq => by
    obtain ⟨s, h3, -⟩ := (hs.need q).1 hq
    exact (status_reports hs.status hs.conforms e1 q).2 ⟨s, h3⟩
  have hnr : ∀ q, Mem noReset q → Mem need q := fun q hq => by
    obtain ⟨s, h3, h4, -⟩ := (e2 q).1 hq
    exact (hs.need q).2 ⟨s, h3, h4⟩
  have hMm : ∀ q, Mem M q → Mem m q := by
    intro q hq
    rcases stepRan_sub e7 hq with h3 | h3
    · exact hstm q (hneedst q h3)
    · have h4 : Mem m₂ q := (e6.split q).1.2 (.inl h3)
      rcases stepRan_sub e4 h4 with h5 | h5
      · exact hstm q (hneedst q h5)
      · rcases stepRan_sub e3 h5 with h6 | h6
        · exact hstm q (hneedst q (hnr q h6))
        · exact hstm q h6
  -- the states in between
  obtain ⟨b₁, -, he⟩ := evolvesAt_append.1 he
  obtain ⟨b₅, hon, he⟩ := evolvesAt_append.1 he
  obtain ⟨b₆, hei, hew⟩ := evolvesAt_append.1 he
  obtain ⟨b₂, hst, hon⟩ := hon
  obtain ⟨b₃, hea, hon⟩ := evolvesAt_append.1 hon
  obtain ⟨b₄, heb, hon⟩ := evolvesAt_append.1 hon
  obtain ⟨c, hlp, hed⟩ := hon
  obtain rfl : b₂ = b₁ := hst.quiet _ (requestOf_host hs.status) (.inl trivial)
  -- no step failed
  obtain ⟨d1, d2, d3⟩ := stepRan_at (fun _ => rfl) e7 hed hpF
  have hf2 : ¬ Mem f₂.modules p := fun h => d1 (mem_merge.2 (.inl h))
  have hfl : ¬ Mem rl.failures.modules p := fun h => d1 (mem_merge.2 (.inr h))
  obtain ⟨c1, c2, c3⟩ := stepRan_at (fun _ => rfl) e4 heb hf2
  obtain ⟨a1, -, a3⟩ := stepRan_at (fun _ => rfl) e3 hea c1
  have hpw : Mem pw.modules p := ((hpart p).1.1 hp).resolve_right fun h => a1 (mem_merge.2 (.inl h))
  have hpst : Mem str.modules p := ((e1.split p).1.1 hpw).resolve_right fun h => a1 (mem_merge.2 (.inr h))
  obtain ⟨v, hv⟩ := (status_reports hs.status hs.conforms e1 p).1 hpst
  have hlow : ∀ (hm2 : Mem m₂ p), c = { b₄ with lowPin := low } := by
    intro hm2
    have hok := (reports_ok e6).1 (reports_success e6 hm2 hfl)
    have := steps_ok e5 hlp hok
    cases low <;> exact this
  have hpins : Mem M p ∧ b₅.enabled = true ∧ b₅.reset = false ∧ b₅.lowPin = low := by
    rcases hu xs (by simp) _ hpwm (requestOf_host hs.status) with hn | hn
    · have hno : ∀ q, ¬ Mem need q := by
        intro q hq
        obtain ⟨s, h3, h4⟩ := (hs.need q).1 hq
        exact hn q s h3 h4
      rcases e3 with ⟨⟨q, h3⟩, -⟩ | ⟨-, rfl, rfl, rfl⟩
      · exact absurd (hnr q h3) (hno q)
      rcases e4 with ⟨⟨q, h3⟩, -⟩ | ⟨-, rfl, rfl, rfl⟩
      · exact absurd h3 (hno q)
      rcases e7 with ⟨⟨q, h3⟩, -⟩ | ⟨-, rfl, rfl, rfl⟩
      · exact absurd h3 (hno q)
      have hM := reports_success e6 hpst hfl
      obtain ⟨s1, s5, s2, -⟩ := hst.shows _ _ (requestOf_host hs.status) hv v rfl
      have hnp := hn p v hv
      rw [needsPower_state s1 s5 s2] at hnp
      rw [d3 (hno p), hlow hpst, c3 (hno p), a3 fun h => hno p (hnr p h)]
      refine ⟨hM, ?_⟩
      generalize b₂ = s at *
      cases h3 : s.enabled <;> cases h4 : s.reset <;> simp_all
    · have hneed : Mem need p := (hs.need p).2 ⟨v, hv, hn p v hv⟩
      obtain ⟨⟨k1, k2, k3, k4⟩, hM⟩ := d2 hneed
      obtain ⟨⟨l1, l2, l3, l4⟩, hm2⟩ := c2 hneed
      have := hlow hm2
      rw [this] at k1 k2 k3 k4
      exact ⟨hM, k1.trans l1, k2, k3⟩
  -- the control byte
  obtain rfl : b₆ = b₅ := (evolvesAt_queries hei (readsOf_queries hti)).1
  obtain ⟨ti', tw', heq, hti', -, -, hone⟩ := setSoft_spec ha hr hc2
  rcases hone (hk ti' M (fun x hx => by
      have : x ∈ ti ++ tw := by rw [heq]; exact List.mem_append_left _ hx
      exact List.mem_append_right _ (List.mem_append_right _ this)) hMm hti') res rfl with
    ⟨-, -, I, fi, h3, h4, rfl⟩ | ⟨code, x₁, x₂, rfl, I, g₁, g₂, r₁, r₂, fi, h4, hI, h5, h6, h7, h8, rfl⟩
  · exact absurd (mem_merge.2 (.inr (((h4.split p).1.1 hpins.1).resolve_left (h3 p)))) hf
  · have hf' : ¬ Mem ((FailedModules.merge (FailedModules.merge (FailedModules.merge F fi) r₁.failures)
        r₂.failures).modules) p := hf
    have hf1 : ¬ Mem r₁.failures.modules p := fun h => hf' (mem_merge.2 (.inl (mem_merge.2 (.inr h))))
    have hf3 : ¬ Mem r₂.failures.modules p := fun h => hf' (mem_merge.2 (.inr h))
    have hfi : ¬ Mem fi.modules p := fun h => hf' (mem_merge.2 (.inl (mem_merge.2 (.inl (mem_merge.2 (.inr h))))))
    have hIp : Mem I p := ((h4.split p).1.1 hpins.1).resolve_right hfi
    have hid := (hI p).1 hIp
    have hew' : EvolvesAt p b₆ (ti' ++ [x₁, x₂]) b' := by
      rw [← heq]; exact evolvesAt_append.2 ⟨b₆, hei, hew⟩
    obtain ⟨b₇, hei', hew''⟩ := evolvesAt_append.1 hew'
    obtain rfl : b₇ = b₆ := (evolvesAt_queries hei' (readsOf_queries hti')).1
    have hcode := identified_board hti' hei' hid
    obtain ⟨b₈, hs1, hs2⟩ := hew''
    replace hs2 := evolvesAt_one.1 hs2
    obtain ⟨⟨w₁, v₁, h9, h10⟩, h11⟩ := h7
    obtain ⟨⟨w₂, v₂, h12, h13⟩, h14⟩ := h8
    obtain ⟨mode, hmode⟩ := (mem_iff_datum ha p).1 hpins.1
    by_cases hov : mode.softwareOverride = some true
    · have hg1 : Mem g₁ p := (h5 p).2 ⟨hIp, mode, hmode, hov⟩
      have hg2 : ¬ Mem g₂ p := by
        intro h15
        obtain ⟨-, mode', h16, h17⟩ := (h6 p).1 h15
        rw [hmode] at h16
        cases h16
        exact h17 hov
      have e1 : b₈ = b₇.store w₁ [v₁] := steps_ok h10 hs1 ((reports_ok h11).1 (reports_success h11 hg1 hf1))
      have e2 : b' = b₈ := steps_not h13 rfl hs2 hg2
      rw [e2, e1]
      exact soft_override h9 hcode hpins.2.1 hpins.2.2.1
    · have hg2 : Mem g₂ p := (h6 p).2 ⟨hIp, mode, hmode, hov⟩
      have hg1 : ¬ Mem g₁ p := by
        intro h15
        obtain ⟨-, mode', h16, h17⟩ := (h5 p).1 h15
        rw [hmode] at h16
        cases h16
        exact hov h17
      have e1 : b₈ = b₇ := steps_not h10 rfl hs1 hg1
      have e2 : b' = b₈.store w₂ [v₂] := steps_ok h13 hs2 ((reports_ok h14).1 (reports_success h14 hg2 hf3))
      rw [e2, e1]
      exact soft_power h12 hcode hpins.2.1 hpins.2.2.1 hpins.2.2.2

theorem not_lined {f : FailedModules TransceiverError} (hf : Aligned f.modules f.errors) {p : Nat}
    (h : ¬ Lined (failureLines f) p) : ¬ Mem f.modules p := by
  intro hp
  have hlt : p < 256 := by
    have := BitVec.lt_of_getLsbD hp
    omega
  have h8 : (BitVec.ofNat 8 p).toNat = p := by
    rw [BitVec.toNat_ofNat]
    exact Nat.mod_eq_of_lt hlt
  obtain ⟨e, he⟩ := ((C70_lines f hf).2.2 (BitVec.ofNat 8 p)).1 (by rw [h8]; exact hp)
  exact h ⟨_, e, he, h8⟩

/-- Setting low or high power, by the method. -/
theorem set_even {m : ModuleId} {st : PowerState} {t : List Exchange} {res : Res Unit}
    (h : Runs (setPower m st) t (.ok res)) (hc : Conforming t) {p : Nat} {s s' : PortState} (he : EvolvesAt p s t s')
    (hst : st = .off ∨ (∀ p q, Mem m p → Mem m q → p = q) ∨ (SameKinds t ∧ EvenPower t)) (hp : Mem m p)
    (hf : ¬ Lined (failureLines res.failures) p) : s'.power = st := by
  have key : ∀ low, Runs (setPowerOn m low) t (.ok res) →
      ((∀ p q, Mem m p → Mem m q → p = q) ∨ (SameKinds t ∧ EvenPower t)) → s'.power = if low then .low else .high := by
    intro low h hst
    refine on_even h hc he (fun x hx g hg hq => ?_) (fun ti M hsub hM hr q q' a a' ha ha' => ?_) hp
      (not_lined (on_aligned h hc) hf)
    · rcases hst with hone | ⟨-, hev⟩
      · by_cases hn : ∃ q v, okIn x q = some [v] ∧ NeedsPower v
        · obtain ⟨q, v, h1, h2⟩ := hn
          refine .inr fun q' v' h3 => ?_
          have e := hone q q' (hg q (okIn_asked (hc x hx) hq rfl h1)) (hg q' (okIn_asked (hc x hx) hq rfl h3))
          subst e
          rw [h1] at h3
          cases h3
          exact h2
        · exact .inl fun q v h1 h2 => hn ⟨q, v, h1, h2⟩
      · exact hev x hx g hq
    · rcases hst with hone | ⟨hk, -⟩
      · have hci : Conforming ti := fun x hx => hc x (hsub x hx)
        have e := hone q q' (hM q (identified_asked hr hci ha)) (hM q' (identified_asked hr hci ha'))
        subst e
        unfold Identified at ha ha'
        rw [ha] at ha'
        cases ha'
        rfl
      · exact sameKinds_identified hk hsub hr ha ha'
  cases st with
  | off =>
    obtain ⟨x₁, x₂, x₃, s₁, s₂, res', rfl, h1, h2, h3, -, -, h4, h5⟩ := C43_power_off m t _ h hc
    cases h4
    have hpm := ((h5.split p).1.1 hp).resolve_right (not_lined h5.wf.2.1 hf)
    exact C104_set_at m .off _ _ h hc p s s' he hpm fun h6 => (h5.split p).2 ⟨hpm, h6⟩
  | low => exact key true h (hst.resolve_left (by simp))
  | high => exact key false h (hst.resolve_left (by simp))

theorem evolvesAt_addressed {m : ModuleId} {t : List Exchange}
    (ht : ∀ x ∈ t, Addresses m x ∧ ∃ q, requestOf x = some q) {p : Nat} (hp : ¬ Mem m p) {s s' : PortState}
    (he : EvolvesAt p s t s') : s' = s := by
  induction t generalizing s with
  | nil => exact he
  | cons x t ih =>
    obtain ⟨c, h1, h2⟩ := he
    obtain ⟨h3, q, h4⟩ := ht x (List.mem_cons_self ..)
    have : c = s := h1.quiet q h4 (.inr fun ⟨g, h5, h6⟩ => hp (h3 q g h4 h5 p h6))
    subst this
    exact ih (fun y hy => ht y (List.mem_cons_of_mem _ hy)) h2

theorem settled_one {cmd : Cmd} {q : HostRequest} (hch : Changes cmd q none) {m : ModuleId} {t : List Exchange}
    {out : Lines} {fails : List (U8 × TransceiverError)}
    (h : Runs (acting false (noPayloadRequest q)) t (.ok (.done out fails))) (hc : Conforming t) (hq : IsCommand q)
    (hm : requestModules q = some m) {p : Nat} {s s' : PortState} (he : EvolvesAt p s t s') (hp : Mem m p)
    (hf : ¬ Lined fails p) : ∃ q d, Changes cmd q d ∧ Effect q (d.getD []) s s' := by
  obtain ⟨r, h1, h2⟩ := acting_ok h
  cases h2
  obtain ⟨rep, res, rfl, h4, h5⟩ := noPayloadRequest_spec hq hm h1 hc
  cases h4
  have hpm := ((h5.split p).1.1 hp).resolve_right (not_lined h5.wf.2.1 hf)
  exact ⟨q, none, hch, steps_ok rfl (evolvesAt_one.1 he) ((reports_ok h5).1 hpm)⟩

theorem settled_write {cmd : Cmd} {page : Except MgmtError Page} {input : Input} {offset : U8} {m : ModuleId}
    (hch : ∀ p d w g, page = .ok p → input.load = .ok d → buildWrite p offset d = .ok w → Changes cmd (.write g w) (some d))
    {t : List Exchange} {out : Lines} {fails : List (U8 × TransceiverError)}
    (h : Runs (writeCmd false m page input offset) t (.ok (.done out fails))) (hc : Conforming t) {p : Nat}
    {s s' : PortState} (he : EvolvesAt p s t s') (hp : Mem m p) (hf : ¬ Lined fails p) :
    ∃ q d, Changes cmd q d ∧ Effect q (d.getD []) s s' := by
  unfold writeCmd at h
  split at h
  · cases (runs_ret.1 h).2
  · cases (runs_panic.1 h).2
  · rename_i d hd
    split at h
    · cases (runs_ret.1 h).2
    · split at h
      · cases (runs_ret.1 h).2
      rename_i pg
      split at h
      · cases (runs_ret.1 h).2
      · rename_i w hw
        obtain ⟨r, h1, h2⟩ := acting_ok h
        cases h2
        have hrun := h1
        obtain ⟨t₁, t₂, rfl, h3, ⟨_, _, _, h4, _⟩ | ⟨_, _, _, h4⟩ | ⟨-, hl, s₁, r₁, res', h4, rfl, h5, h6⟩⟩ :=
          C36_write m w d t _ h1 hc
        · cases h4
        · cases h4
        cases h5
        have hpm := ((h6.split p).1.1 hp).resolve_right (not_lined h6.wf.2.1 hf)
        exact ⟨.write ⟨0⟩ w, some d, hch pg d w _ rfl hd hw, (C105_write_at m w d _ _ hrun hc p s s' he).2 hpm⟩

end Xcvr
