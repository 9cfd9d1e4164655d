import Verif.Lemmas.BoardBench
import Verif.Props.Scope

/-! # C104, C105: what is set is what is then read -/

namespace Xcvr

open Spec Prog Controller

/-! ## C104: power -/

/-- **C104**, what is read, for one port. -/
theorem C104_report_at (m : ModuleId) (t : List Exchange) (res : Res PowerMode) (h : Runs (power m) t (.ok res))
    (hc : Conforming t) (p : Nat) (s s' : PortState) (he : EvolvesAt p s t s') (hp : Mem res.modules p) :
    s' = s ∧ ∃ mode, okAt res p = some mode ∧ mode.state = s.power := by
  have hq := power_queries h
  obtain ⟨h1, h2⟩ := evolvesAt_queries he hq
  obtain ⟨x, t', rfl, h3, -, h4⟩ := C48_module m t res h hc
  obtain ⟨v, mode, h5, h6, h7⟩ := h4 p _ (faithful_port he hq) hp
  obtain ⟨s1, s5, s2, s3⟩ := h2 x (List.mem_cons_self ..) _ _ (requestOf_host h3) h5 v rfl
  exact ⟨h1, mode, h6, mode_state s1 s5 s2 s3 h7⟩

/-- **C104**, what is read: the power report of a module has the power state of its port, and asking changes nothing. -/
theorem C104_report (m : ModuleId) (t : List Exchange) (res : Res PowerMode) (h : Runs (power m) t (.ok res))
    (hc : Conforming t) (b b' : BoardState) (he : Evolves b t b') :
    b' = b ∧ ∀ p, Mem res.modules p → ∃ mode, okAt res p = some mode ∧ mode.state = (b p).power := by
  exact ⟨(evolves_queries he (power_queries h)).1, fun p hp =>
    (C104_report_at m t res h hc p _ _ (evolves_at.1 he p) hp).2⟩

theorem on_state {m : ModuleId} {low : Bool} {t : List Exchange} {res : Res Unit}
    (h : Runs (setPowerOn m low) t (.ok res)) (hc : Conforming t) {p : Nat} {b b' : PortState} (he : EvolvesAt p b t b')
    (hp : Mem res.modules p) (hf : ¬ Mem res.failures.modules p) :
    b'.power = (if low then .low else .high) ∧ b'.enabled = true ∧ b'.reset = false ∧ b'.lowPin = low ∧
      b'.led = b.led := by
  rcases setPowerOn_spec h hc with ⟨e, -, h1⟩ | ⟨tp, pw, t', rfl, h1, ⟨-, -, -, h2⟩ | ⟨-, h2⟩⟩
  · cases h1
  · cases h2
  obtain ⟨t₁, t₂, M, modes, F, xs, xl, need, rfl, hs, ha, -, hr, hc2⟩ := h2
  obtain ⟨str, ta, tb, td, noReset, m₁, m₂, f₁, f₂, rl, rfl, e1, e2, e3, e4, e5, e6, e7⟩ := hs.steps
  obtain ⟨ti, tw, rfl, hti, hw, hmono, hlast⟩ := setSoft_last ha hr hc2
  obtain ⟨hpM, t₀, x, code, g, r, rfl, hx, hg, hok, hid⟩ := hlast p hp
  have hpF : ¬ Mem F.modules p := fun h => hf (hmono p h)
  -- the states in between
  obtain ⟨b₁, hpw, he⟩ := evolvesAt_append.1 he
  have hb : b₁ = b := (evolvesAt_queries hpw (power_queries h1)).1
  obtain ⟨b₅, hon, he⟩ := evolvesAt_append.1 he
  obtain ⟨b₆, hei, he⟩ := evolvesAt_append.1 he
  obtain ⟨b₇, hew, hel⟩ := evolvesAt_append.1 he
  obtain ⟨b₂, hst, hon⟩ := hon
  obtain ⟨b₃, hea, hon⟩ := evolvesAt_append.1 hon
  obtain ⟨b₄, heb, hon⟩ := evolvesAt_append.1 hon
  obtain ⟨c, hlp, hed⟩ := hon
  obtain rfl : b₂ = b₁ := hst.quiet _ (requestOf_host hs.status) (.inl trivial)
  -- powering on
  obtain ⟨d1, d2, d3⟩ := stepRan_at (fun _ => rfl) e7 hed hpF
  have hf2 : ¬ Mem f₂.modules p := fun h => d1 (mem_merge.2 (.inl h))
  have hfl : ¬ Mem rl.failures.modules p := fun h => d1 (mem_merge.2 (.inr h))
  obtain ⟨c1, c2, c3⟩ := stepRan_at (fun _ => rfl) e4 heb hf2
  obtain ⟨-, a2, a3⟩ := stepRan_at (fun _ => rfl) e3 hea c1
  have ha4 : b₃.led = b₂.led := by
    by_cases hn : Mem noReset p
    · exact (a2 hn).1.2.2.2
    · rw [a3 hn]
  have hlow : ∀ (hm2 : Mem m₂ p), c = { b₄ with lowPin := low } := by
    intro hm2
    have hok := (reports_ok e6).1 (reports_success e6 hm2 hfl)
    have := steps_ok e5 hlp hok
    cases low <;> exact this
  have hpins : b₅.enabled = true ∧ b₅.reset = false ∧ b₅.lowPin = low ∧ b₅.led = b₂.led := by
    by_cases hn : Mem need p
    · obtain ⟨⟨k1, k2, k3, k4⟩, -⟩ := d2 hn
      obtain ⟨⟨l1, l2, l3, l4⟩, hm2⟩ := c2 hn
      have := hlow hm2
      rw [this] at k1 k2 k3 k4
      exact ⟨k1.trans l1, k2, k3, k4.trans (l4.trans ha4)⟩
    · have hM : Mem rl.modules p := by
        rcases e7 with ⟨-, y, ry, -, -, h3, rfl, -⟩ | ⟨-, -, rfl, -⟩
        · exact absurd (((h3.split p).1).2 (.inl hpM)) hn
        · exact hpM
      have hm2 : Mem m₂ p := ((e6.split p).1).2 (.inl hM)
      have hm1 : Mem m₁ p := by
        rcases e4 with ⟨-, y, ry, -, -, h3, rfl, -⟩ | ⟨-, -, rfl, -⟩
        · exact absurd (((h3.split p).1).2 (.inl hm2)) hn
        · exact hm2
      have hnr : ¬ Mem noReset p := by
        intro h3
        obtain ⟨s, h4, h5, -⟩ := (e2 p).1 h3
        exact hn ((hs.need p).2 ⟨s, h4, h5⟩)
      have hmst : Mem str.modules p := by
        rcases e3 with ⟨-, y, ry, -, -, h3, rfl, -⟩ | ⟨-, -, rfl, -⟩
        · exact absurd (((h3.split p).1).2 (.inl hm1)) hnr
        · exact hm1
      obtain ⟨v, hv⟩ := (status_reports hs.status hs.conforms e1 p).1 hmst
      obtain ⟨s1, s5, s2, -⟩ := hst.shows _ _ (requestOf_host hs.status) hv v rfl
      have hnp : ¬ NeedsPower v := fun h3 => hn ((hs.need p).2 ⟨v, hv, h3⟩)
      rw [needsPower_state s1 s5 s2] at hnp
      rw [d3 hn, hlow hm2, c3 hn, a3 hnr]
      generalize b₂ = s at *
      cases h3 : s.enabled <;> cases h4 : s.reset <;> simp_all
  -- the control byte
  obtain rfl : b₆ = b₅ := (evolvesAt_queries hei (readsOf_queries hti)).1
  have hcode := identified_board hti hei hid
  obtain ⟨⟨k1, k2, k3, k4⟩, k5⟩ := soft_kept (fun y hy => hw y (List.mem_append_left _ hy)) hew hf
  obtain ⟨⟨w, v, h3, h4⟩, h5⟩ := hx
  have hlast : b' = b₇.store w [v] := steps_ok h4 (evolvesAt_one.1 hel) hok
  rw [hlast]
  refine ⟨soft_power h3 (k5.trans hcode) (k1.trans hpins.1) (k2.trans hpins.2.1) (k3.trans hpins.2.2.1), ?_⟩
  rw [← hb]
  unfold PortState.store
  split <;> exact ⟨k1.trans hpins.1, k2.trans hpins.2.1, k3.trans hpins.2.2.1, k4.trans hpins.2.2.2⟩

/-- **C104**, what is set, for one port. -/
theorem C104_set_at (m : ModuleId) (st : PowerState) (t : List Exchange) (res : Res Unit)
    (h : Runs (setPower m st) t (.ok res)) (hc : Conforming t) (p : Nat) (s s' : PortState) (he : EvolvesAt p s t s')
    (hp : Mem res.modules p) (hf : ¬ Mem res.failures.modules p) : s'.power = st := by
  cases st with
  | off =>
    obtain ⟨x₁, x₂, x₃, s₁, s₂, res', rfl, h1, h2, h3, -, -, h4, h5⟩ := C43_power_off m t _ h hc
    cases h4
    obtain ⟨c₁, -, c₂, -, he⟩ := he
    have hok : (okIn x₃ p).isSome := by
      obtain ⟨u, hu⟩ := (mem_iff_datum h5.wf.1 p).1 hp
      have := h5.ok p
      unfold okAt at this
      rw [hu, okAmong_singleton] at this
      cases hx : okIn x₃ p with
      | none => rw [hx] at this; cases this
      | some _ => rfl
    have := (steps_ok h3 (evolvesAt_one.1 he) hok).1
    unfold PortState.power
    rw [if_pos (.inl this)]
  | low => exact (on_state (low := true) h hc he hp hf).1
  | high => exact (on_state (low := false) h hc he hp hf).1

theorem ok_asked {x : Exchange} {q : HostRequest} {m : ModuleId} {p : Nat} (hx : requestOf x = some q)
    (hq : requestModules q = some m) (hc : Conforms x) (hok : (okIn x p).isSome) : Mem m p := by
  apply Classical.byContradiction
  intro hps
  obtain ⟨q', R, d, g1, g2, g3⟩ := hc
  rw [hx, Option.some.injEq] at g1
  subst g1
  have hsplit := g3.split m
  unfold okIn record at hok
  rw [g2] at hok
  cases d with
  | none => simp at hok
  | some d =>
    dsimp only at hok
    cases hR : responseModules R with
    | none => rw [hR] at hok; simp at hok
    | some sf =>
      obtain ⟨s', f'⟩ := sf
      rw [hR] at hok
      dsimp only at hok
      split at hok
      · rename_i hm
        exact hps ((hsplit s' f' hq hR p).1.2 (.inl hm))
      · simp at hok

/-- **C104**, the pins: a module that setting the power reports as a success, and not also as a failure, has power and is
not in reset if it was set to low or high power, with the pin for low power accordingly; otherwise it has no power and is in
reset. Its LED is as before. -/
theorem C104_pins (m : ModuleId) (st : PowerState) (t : List Exchange) (res : Res Unit)
    (h : Runs (setPower m st) t (.ok res)) (hc : Conforming t) (p : Nat) (s s' : PortState) (he : EvolvesAt p s t s')
    (hp : Mem res.modules p) (hf : ¬ Mem res.failures.modules p) :
    s'.enabled = (st != .off) ∧ s'.reset = (st == .off) ∧ s'.lowPin = (st == .low) ∧ s'.led = s.led := by
  cases st with
  | off =>
    obtain ⟨x₁, x₂, x₃, s₁, s₂, res', rfl, h1, h2, h3, g1, g2, h4, h5⟩ := C43_power_off m t _ h hc
    cases h4
    obtain ⟨c₁, e1, c₂, e2, he⟩ := he
    have hok : (okIn x₃ p).isSome := by
      obtain ⟨u, hu⟩ := (mem_iff_datum h5.wf.1 p).1 hp
      have := h5.ok p
      unfold okAt at this
      rw [hu, okAmong_singleton] at this
      cases hx : okIn x₃ p with
      | none => rw [hx] at this; cases this
      | some _ => rfl
    have hok2 : (okIn x₂ p).isSome := (g2 p).1 (ok_asked (requestOf_host h3) rfl (hc x₃ (by simp)) hok)
    have hok1 : (okIn x₁ p).isSome := (g1 p).1 (ok_asked (requestOf_host h2) rfl (hc x₂ (by simp)) hok2)
    have f1 : c₁ = { s with lowPin := false } := steps_ok h1 e1 hok1
    obtain ⟨-, k2, k3, k4⟩ : SamePins { c₁ with reset := true } c₂ := steps_ok h2 e2 hok2
    obtain ⟨l1, l2, l3, l4⟩ : SamePins { c₂ with enabled := false } s' := steps_ok h3 (evolvesAt_one.1 he) hok
    refine ⟨l1, l2.trans k2, l3.trans (k3.trans ?_), l4.trans (k4.trans ?_)⟩ <;> rw [f1] <;> rfl
  | low => exact (on_state (low := true) h hc he hp hf).2
  | high => exact (on_state (low := false) h hc he hp hf).2

/-- **C104**, what is set: a module that setting the power reports as a success, and not also as a failure, is in the power
state asked for. -/
theorem C104_set (m : ModuleId) (st : PowerState) (t : List Exchange) (res : Res Unit)
    (h : Runs (setPower m st) t (.ok res)) (hc : Conforming t) (b b' : BoardState) (he : Evolves b t b') (p : Nat)
    (hp : Mem res.modules p) (hf : ¬ Mem res.failures.modules p) : (b' p).power = st :=
  C104_set_at m st t res h hc p _ _ (evolves_at.1 he p) hp hf

/-- **C104.** A module that setting the power reports as a success, and not also as a failure, has that power state in the
next power report that succeeds for it. -/
theorem C104_set_then_read (m m' : ModuleId) (st : PowerState) (t t' : List Exchange) (res : Res Unit)
    (res' : Res PowerMode) (h : Runs (setPower m st) t (.ok res)) (h' : Runs (power m') t' (.ok res'))
    (hc : Conforming (t ++ t')) (b b' : BoardState) (he : Evolves b (t ++ t') b') (p : Nat)
    (hp : Mem res.modules p) (hf : ¬ Mem res.failures.modules p) (hp' : Mem res'.modules p) :
    ∃ mode, okAt res' p = some mode ∧ mode.state = st := by
  obtain ⟨c, h1, h2⟩ := evolves_append.1 he
  obtain ⟨-, h3⟩ := C104_report m' t' res' h' (fun x hx => hc x (List.mem_append_right _ hx)) c b' h2
  obtain ⟨mode, h4, h5⟩ := h3 p hp'
  exact ⟨mode, h4, h5.trans (C104_set m st t res h (fun x hx => hc x (List.mem_append_left _ hx)) b c h1 p hp hf)⟩

/-- A board of SFF-8636 modules (ports below 4) and CMIS modules, all without power. -/
def offBoard : BoardState := fun p =>
  ⟨false, false, false, .off, fun a => if a = 0 then (if p < 4 then 0x11 else 0x1e) else 0, fun _ _ => 0⟩

theorem setPower_board (b : BoardState) (F : List Exchange → HostRequest → ModuleId) (m : ModuleId) (st : PowerState) :
    let t := ((setPower m st).exec (boardBench b F).sp []).1
    Runs (setPower m st) t ((setPower m st).exec (boardBench b F).sp []).2 ∧ Conforming t ∧ Evolves b t (after b t) := by
  refine ⟨Bench.exec_runs _ _, setPower_conforming _ _ _, ?_⟩
  refine board_evolves b F (h := []) ?_
  have hh : ∀ q : HostRequest, (∀ m w, q ≠ .write m w) → Bench.IsHost (Call.host q) := fun q _ => ⟨q, none, rfl⟩
  have hw : ∀ m (w : MemoryWrite) (d : Bytes), d.length = w.len.toNat → Bench.IsHost (Call.host (.write m w) (some d)) :=
    fun m w d _ => ⟨_, _, rfl⟩
  cases st with
  | off => exact allCalls_setPowerOff m hh
  | low => exact allCalls_setPowerOn m true hh hw
  | high => exact allCalls_setPowerOn m false hh hw

/-- Modules 1 and 3 can be set to low power, and are then in low power. -/
example : (((setPower ⟨0b1010⟩ .low).exec (boardBench offBoard).sp []).2 = .ok ⟨⟨0b1010⟩, [(), ()], ⟨⟨0⟩, []⟩⟩) ∧
    (after offBoard ((setPower ⟨0b1010⟩ .low).exec (boardBench offBoard).sp []).1 3).power = .low := by
  decide +kernel

/-- Low power mode fails. -/
def lpFails : List Exchange → HostRequest → ModuleId := fun _ q =>
  match q with
  | .assertLpMode _ => ⟨0b1⟩
  | _ => ⟨0⟩

/-- Why the module must not also be a failure: with low power asked for but the low power pin failing, the module is
powered all the same, runs at high power, and is reported both as a success and as a failure. -/
theorem C104_both_counterexample :
    ((setPower ⟨0b1⟩ .low).exec (boardBench offBoard lpFails).sp []).2 =
      .ok ⟨⟨0b1⟩, [()], ⟨⟨0b1⟩, [.hardware 0 .disabledBySp none]⟩⟩ ∧
    (after offBoard ((setPower ⟨0b1⟩ .low).exec (boardBench offBoard lpFails).sp []).1 0).power = .high := by
  decide +kernel

theorem C104_both : ¬ ∀ (m : ModuleId) (st : PowerState) (t : List Exchange) (res : Res Unit),
    Runs (setPower m st) t (.ok res) → Conforming t → ∀ (b b' : BoardState), Evolves b t b' →
      ∀ p, Mem res.modules p → (b' p).power = st := by
  intro h
  obtain ⟨h1, h2, h3⟩ := setPower_board offBoard lpFails ⟨0b1⟩ .low
  rw [C104_both_counterexample.1] at h1
  have := h _ _ _ _ h1 h2 _ _ h3 0 (by decide)
  rw [C104_both_counterexample.2] at this
  cases this

/-! ## C105: pins, LEDs and memory -/

/-- **C105**, commands, for one port. -/
theorem C105_command_at (m : ModuleId) (led : LedState) (c : Prog (Res Unit) × HostRequest) (hm : c ∈ commands m led)
    (t : List Exchange) (res : Res Unit) (h : Runs c.1 t (.ok res)) (hc : Conforming t) (p : Nat) (s s' : PortState)
    (he : EvolvesAt p s t s') : (Mem res.modules p → Effect c.2 [] s s') ∧ (¬ Mem m p → s' = s) := by
  obtain ⟨h1, h2, h3⟩ := commands_eq m led c hm
  rw [h1] at h
  obtain ⟨r, res', rfl, h4, h5⟩ := noPayloadRequest_spec h2 h3 h hc
  cases h4
  have := evolvesAt_one.1 he
  exact ⟨fun hp => steps_ok rfl this ((reports_ok h5).1 hp), fun hp => steps_not rfl h3 this hp⟩

/-- What a command with no answer but an acknowledgement does to the modules it succeeds for. -/
theorem C105_command (m : ModuleId) (led : LedState) (c : Prog (Res Unit) × HostRequest) (hm : c ∈ commands m led)
    (t : List Exchange) (res : Res Unit) (h : Runs c.1 t (.ok res)) (hc : Conforming t) (b b' : BoardState)
    (he : Evolves b t b') : ∀ p, (Mem res.modules p → Effect c.2 [] (b p) (b' p)) ∧ (¬ Mem m p → b' p = b p) :=
  fun p => C105_command_at m led c hm t res h hc p _ _ (evolves_at.1 he p)

/-- The status of a module shows its pins. -/
theorem C105_status (m : ModuleId) (t : List Exchange) (res : Res Controller.Status)
    (h : Runs (Controller.status m) t (.ok res)) (hc : Conforming t) (b b' : BoardState) (he : Evolves b t b') :
    b' = b ∧ ∀ p, Mem res.modules p → ∃ v, okAt res p = some v ∧ bit v 1 = (b p).enabled ∧ bit v 5 = (b p).enabled ∧
      bit v 2 = (b p).reset ∧ bit v 3 = (b p).lowPin := by
  obtain ⟨r, res', rfl, h1, h2⟩ := status_spec h hc
  cases h1
  obtain ⟨h3, h4⟩ := evolves_queries he (by
    intro x hx
    cases List.mem_singleton.1 hx
    exact ⟨_, rfl, trivial⟩)
  refine ⟨h3, fun p hp => ?_⟩
  have hcx := hc _ (List.mem_singleton.2 rfl)
  obtain ⟨v, hv⟩ := (status_reports rfl hcx h2 p).1 hp
  exact ⟨v, (status_data rfl hcx h2 p v).2 hv, h4 _ (List.mem_singleton.2 rfl) p _ _ rfl hv v rfl⟩

/-- So does the extended status. -/
theorem C105_extended (m : ModuleId) (t : List Exchange) (res : Res U32)
    (h : Runs (Controller.extendedStatus m) t (.ok res)) (hc : Conforming t) (b b' : BoardState) (he : Evolves b t b') :
    b' = b ∧ ∀ p, Mem res.modules p → ∃ v, okAt res p = some v ∧ v.getLsbD 1 = (b p).enabled ∧
      v.getLsbD 5 = (b p).enabled ∧ v.getLsbD 2 = (b p).reset ∧ v.getLsbD 3 = (b p).lowPin := by
  obtain ⟨r, res', rfl, h1, h2⟩ := extendedStatus_spec h hc
  cases h1
  obtain ⟨h3, h4⟩ := evolves_queries he (by
    intro x hx
    cases List.mem_singleton.1 hx
    exact ⟨_, rfl, trivial⟩)
  refine ⟨h3, fun p hp => ?_⟩
  obtain ⟨v, hv⟩ := Option.isSome_iff_exists.1 ((reports_ok h2).1 hp)
  have h5 := h2.ok p
  unfold okAmong at h5
  rw [List.findSome?_cons, List.findSome?_nil, hv] at h5
  exact ⟨word v, h5, h4 _ (List.mem_singleton.2 rfl) p _ _ rfl hv⟩

/-- **C105**, LEDs: an LED that was set has that state in the next report that succeeds for it. -/
theorem C105_leds (m m' : ModuleId) (led : LedState) (t t' : List Exchange) (res : Res Unit) (res' : Res LedState)
    (h : Runs (setLeds m led) t (.ok res)) (h' : Runs (leds m') t' (.ok res')) (hc : Conforming (t ++ t'))
    (b b' : BoardState) (he : Evolves b (t ++ t') b') (p : Nat) (hp : Mem res.modules p) (hp' : Mem res'.modules p) :
    okAt res' p = some led := by
  obtain ⟨c, h1, h2⟩ := evolves_append.1 he
  have h3 := (C105_command m led (setLeds m led, .setLedState m led) (by simp [commands]) t res h
    (fun x hx => hc x (List.mem_append_left _ hx)) b c h1 p).1 hp
  obtain ⟨r, res'', rfl, h4, h5⟩ := leds_spec h' fun x hx => hc x (List.mem_append_right _ hx)
  cases h4
  obtain ⟨v, hv⟩ := Option.isSome_iff_exists.1 ((reports_ok h5).1 hp')
  have := (evolves_one.1 h2 p).shows _ _ rfl hv
  replace this : ledOfCode v = some (c p).led := this
  have h6 := h5.ok p
  rw [okAmong_singleton, hv] at h6
  rw [h6]
  replace h3 : c p = { b p with led := led } := h3
  rw [h3] at this
  simp [this]

/-- **C105**, writes, for one port. -/
theorem C105_write_at (m : ModuleId) (w : MemoryWrite) (data : Bytes) (t : List Exchange) (res : Res Unit)
    (h : Runs (Controller.write m w data) t (.ok res)) (hc : Conforming t) (p : Nat) (b b' : PortState)
    (he : EvolvesAt p b t b') : data.length = w.len.toNat ∧ (Mem res.modules p → b' = b.store w data) := by
  obtain ⟨t₁, t₂, rfl, h1, ⟨_, _, _, h2, _⟩ | ⟨_, _, _, h2⟩ | ⟨-, hl, s, r, res', h2, rfl, h3, h4⟩⟩ := C36_write m w data t _ h hc
  · cases h2
  · cases h2
  cases h3
  obtain ⟨c, h5, h6⟩ := evolvesAt_append.1 he
  obtain rfl : c = b := (evolvesAt_queries h5 (readsOf_queries h1)).1
  refine ⟨hl, fun hp => ?_⟩
  obtain ⟨u, hu⟩ := (mem_iff_datum h4.wf.1 p).1 hp
  have := h4.ok p
  unfold okAt at this
  rw [hu, okAmong_singleton] at this
  have hok : (okIn (Call.host (.write s w) (some data), r) p).isSome := by
    cases hx : okIn (Call.host (.write s w) (some data), r) p with
    | none => rw [hx] at this; cases this
    | some _ => rfl
  exact steps_ok rfl (evolvesAt_one.1 h6) hok

/-- What a write does to the modules it succeeds for. -/
theorem C105_write (m : ModuleId) (w : MemoryWrite) (data : Bytes) (t : List Exchange) (res : Res Unit)
    (h : Runs (Controller.write m w data) t (.ok res)) (hc : Conforming t) (b b' : BoardState) (he : Evolves b t b') :
    data.length = w.len.toNat ∧ ∀ p, Mem res.modules p → b' p = (b p).store w data :=
  ⟨(C105_write_at m w data t res h hc 0 _ _ (evolves_at.1 he 0)).1, fun p =>
    (C105_write_at m w data t res h hc p _ _ (evolves_at.1 he p)).2⟩

/-- A read shows the modules' memory, and changes nothing. -/
theorem C105_read (m : ModuleId) (rd : MemoryRead) (hlen : rd.len ≠ 0) (t : List Exchange) (res : Res Bytes)
    (h : Runs (Controller.read m rd) t (.ok res)) (hc : Conforming t) (b b' : BoardState) (he : Evolves b t b') :
    b' = b ∧ ∀ p, Mem res.modules p → okAt res p = some (answer (b p).memory rd) := by
  rcases C34_read m rd hlen t _ h hc with ⟨_, _, h1, _⟩ | ⟨t₁, t₂, s, res', rfl, h1, -, h3, h4, h5⟩
  · cases h1
  cases h4
  have hq : ∀ x ∈ t₁ ++ t₂, ∃ q, requestOf x = some q ∧ IsQuery q := by
    intro x hx
    rcases List.mem_append.1 hx with hx | hx
    · exact readsOf_queries h1 x hx
    · exact readsOf_queries h3 x hx
  obtain ⟨h6, h7⟩ := evolves_queries he hq
  refine ⟨h6, fun p hp => ?_⟩
  obtain ⟨u, hu⟩ := (mem_iff_datum h5.wf.1 p).1 hp
  have := h5.ok p
  unfold okAt at this ⊢
  rw [hu] at this ⊢
  obtain ⟨v, hv, h8⟩ := Option.map_eq_some_iff.1 this.symm
  unfold okAmong at hv
  obtain ⟨x, hx, hv⟩ := List.exists_of_findSome?_eq_some hv
  obtain ⟨g, hg⟩ := requestOf_readsOf h3 hx
  have h9 : v = answer (b p).memory rd := h7 x (List.mem_append_right _ hx) p _ _ hg hv
  rw [← h8, h9]
  rfl

theorem answer_store (s : PortState) (w : MemoryWrite) (data : Bytes) (rd : MemoryRead) (hp : rd.page = w.page)
    (ho : rd.offset = w.offset) (hl : rd.len.toNat = data.length) : answer (s.store w data).memory rd = data := by
  unfold answer
  apply List.ext_getElem
  · rw [List.length_map, List.length_range, hl]
  · intro i h1 h2
    rw [List.getElem_map, List.getElem_range, hp, ho]
    unfold PortState.memory PortState.store
    by_cases hw : isLower w.page <;> simp [hw, overwrite, List.getElem?_eq_getElem h2]

/-- **C105**, memory: data written to a module is what the next read of the same bytes that succeeds for it returns. -/
theorem C105_memory (m m' : ModuleId) (w : MemoryWrite) (data : Bytes) (rd : MemoryRead) (hpage : rd.page = w.page)
    (hoff : rd.offset = w.offset) (hlen : rd.len = w.len) (hne : rd.len ≠ 0) (t t' : List Exchange) (res : Res Unit)
    (res' : Res Bytes) (h : Runs (Controller.write m w data) t (.ok res)) (h' : Runs (Controller.read m' rd) t' (.ok res'))
    (hc : Conforming (t ++ t')) (b b' : BoardState) (he : Evolves b (t ++ t') b') (p : Nat) (hp : Mem res.modules p)
    (hp' : Mem res'.modules p) : okAt res' p = some data := by
  obtain ⟨c, h1, h2⟩ := evolves_append.1 he
  obtain ⟨hl, h3⟩ := C105_write m w data t res h (fun x hx => hc x (List.mem_append_left _ hx)) b c h1
  obtain ⟨-, h4⟩ := C105_read m' rd hne t' res' h' (fun x hx => hc x (List.mem_append_right _ hx)) c b' h2
  rw [h4 p hp', h3 p hp, answer_store _ w data rd hpage hoff (by rw [hlen, hl])]

/-- A reset that succeeded for a module is two calls, both acknowledged for it. -/
theorem reset_calls (m : ModuleId) (t : List Exchange) (res : Res Unit) (h : Runs (Controller.reset m) t (.ok res))
    (hc : Conforming t) (p : Nat) (hp : Mem res.modules p) :
    ∃ x₁ x₂ g, t = [x₁, x₂] ∧ x₁.1 = Call.host (.assertReset m) ∧ (okIn x₁ p).isSome ∧
      x₂.1 = Call.host (.deassertReset g) ∧ (okIn x₂ p).isSome := by
  obtain ⟨x₁, x₂, s, res', rfl, h1, h2, h3, h4, h5⟩ := C38_reset m t _ h hc
  cases h4
  obtain ⟨u, hu⟩ := (mem_iff_datum h5.wf.1 p).1 hp
  have := h5.ok p
  unfold okAt at this
  rw [hu, okAmong_singleton] at this
  have hok : (okIn x₂ p).isSome := by
    cases hx : okIn x₂ p with
    | none => rw [hx] at this; cases this
    | some _ => rfl
  have hps : Mem s p := ok_asked (requestOf_host h2) rfl (hc x₂ (by simp)) hok
  exact ⟨x₁, x₂, s, rfl, h1, (h3 p).1 hps, h2, hok⟩

/-- **C105**, reset, for one port. -/
theorem C105_reset_at (m : ModuleId) (t : List Exchange) (res : Res Unit) (h : Runs (Controller.reset m) t (.ok res))
    (hc : Conforming t) (p : Nat) (b b' : PortState) (he : EvolvesAt p b t b') (hp : Mem res.modules p) :
    SamePins { b with reset := false } b' := by
  obtain ⟨x₁, x₂, g, rfl, h1, h3, h2, h4⟩ := reset_calls m t res h hc p hp
  obtain ⟨c, h6, h7⟩ := he
  replace h7 := evolvesAt_one.1 h7
  obtain ⟨k1, k2, k3, k4⟩ : SamePins { b with reset := true } c := steps_ok h1 h6 h3
  obtain ⟨l1, l2, l3, l4⟩ : SamePins { c with reset := false } b' := steps_ok h2 h7 h4
  exact ⟨l1.trans k1, l2, l3.trans k3, l4.trans k4⟩

/-- **C105**, reset: a module that was reset is out of reset, with power and low power pins as before. -/
theorem C105_reset (m : ModuleId) (t : List Exchange) (res : Res Unit) (h : Runs (Controller.reset m) t (.ok res))
    (hc : Conforming t) (b b' : BoardState) (he : Evolves b t b') (p : Nat) (hp : Mem res.modules p) :
    SamePins { b p with reset := false } (b' p) :=
  C105_reset_at m t res h hc p _ _ (evolves_at.1 he p) hp

/-- LEDs set and read back; a byte of a CMIS module written and read back; a module in reset taken out of it. -/
example : ((Controller.leds ⟨0b10⟩).exec (boardBench offBoard).sp
    ((setLeds ⟨0b110⟩ .blink).exec (boardBench offBoard).sp []).1).2 = .ok ⟨⟨0b10⟩, [.blink], ⟨⟨0⟩, []⟩⟩ ∧
    ((Controller.read ⟨0b110000⟩ ⟨.cmis .lower, 31, 2⟩).exec (boardBench offBoard).sp
      ((Controller.write ⟨0b110000⟩ ⟨.cmis .lower, 31, 2⟩ [7, 9]).exec (boardBench offBoard).sp []).1).2 =
      .ok ⟨⟨0b110000⟩, [[7, 9], [7, 9]], ⟨⟨0⟩, []⟩⟩ ∧
    (after offBoard ((Controller.reset ⟨0b1⟩).exec (boardBench offBoard).sp
      ((Controller.assertReset ⟨0b1⟩).exec (boardBench offBoard).sp []).1).1 0).reset = false := by
  decide +kernel

/-! ## C106: nothing else changes -/

/-- **C106**, inspection: the methods that only inspect modules leave every port as it is, whatever the SP answers. -/
theorem C106_inspect (op : Op) (hop : Inspects op) (t : List Exchange) (o : Exec CtlError Unit) (h : Runs op.prog t o)
    (b b' : BoardState) (he : Evolves b t b') : b' = b :=
  (evolves_queries he fun x hx => by
    obtain ⟨q, h1, h2, -⟩ := C85_queries op hop t o h x hx
    exact ⟨q, h1, h2⟩).1

/-- **C106**, others: every method leaves the ports it was not given as they are, however it ends, as long as the SP's
responses name only modules they were asked about. -/
theorem C106_others (op : Op) (m : ModuleId) (hm : opModules op = some m) (t : List Exchange) (o : Exec CtlError Unit)
    (h : Runs op.prog t o) (ht : ∀ x ∈ t, OnTopic x) (b b' : BoardState) (he : Evolves b t b') (p : Nat)
    (hp : ¬ Mem m p) : b' p = b p := by
  have ha := C84_addresses op m hm t o h ht
  have hq : ∀ x ∈ t, ∃ q, requestOf x = some q := by
    intro x hx
    obtain ⟨q, h1, -⟩ := C37_partial op t o h x hx
    exact ⟨q, by unfold requestOf; rw [h1]⟩
  clear h ht
  induction t generalizing b with
  | nil => cases he; rfl
  | cons x t ih =>
    obtain ⟨c, h1, h2⟩ := he
    obtain ⟨q, h3⟩ := hq x (List.mem_cons_self ..)
    rw [ih c h2 (fun y hy => ha y (List.mem_cons_of_mem _ hy)) fun y hy => hq y (List.mem_cons_of_mem _ hy)]
    refine (h1 p).quiet q h3 (.inr ?_)
    rintro ⟨g, h4, h5⟩
    exact hp (ha x (List.mem_cons_self ..) q g h3 h4 p h5)

end Xcvr
