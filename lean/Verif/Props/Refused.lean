import Verif.Props.Running

/-! # C158: setting high power is for modules that run -/

namespace Xcvr

open Controller Prog Spec Cli

theorem off_iff {s : PortState} : s.power = .off ↔ s.enabled = false ∨ s.reset = true := by
  unfold PortState.power
  constructor
  · intro h
    split at h
    · assumption
    · repeat' split at h
      all_goals cases h
  · exact fun h => if_pos h

/-- A module of which the report of power says something other than off runs. -/
theorem reported_runs {m : ModuleId} {t : List Exchange} {pw : Res PowerMode} (h : Runs (power m) t (.ok pw))
    (hc : Conforming t) (hno : ∀ mode ∈ pw.data, mode.state ≠ .off) {p : Nat} {s s' : PortState}
    (he : EvolvesAt p s t s') (hp : Mem pw.modules p) : s.power ≠ .off := by
  obtain ⟨-, mode, h1, h2⟩ := C104_report_at m t pw h hc p s s' he hp
  unfold okAt datum at h1
  rw [if_pos hp] at h1
  exact h2 ▸ hno mode (List.mem_of_getElem? h1)

/-- C158: setting high power asks the SP neither to reset a module nor to switch its supply, whatever state the modules are
in and however it ends. -/
theorem C158_requests (m : ModuleId) (t : List Exchange) (o : Exec CtlError (Res Unit)) (h : Runs (setPower m .high) t o)
    (hc : Conforming t) (p : Nat) (s s' : PortState) (he : EvolvesAt p s t s') (x : Exchange) (hx : x ∈ t)
    (q : HostRequest) (hq : requestOf x = some q) (hr : Restarts q) : ¬ Names q p := by
  by_cases hoff : s.power = .off
  · have hquery : ∀ {t : List Exchange}, (∀ x ∈ t, ∃ q, requestOf x = some q ∧ IsQuery q) → x ∈ t → False := by
      intro t ht hx
      obtain ⟨q', h1, h2⟩ := ht x hx
      rw [hq, Option.some.injEq] at h1
      subst h1
      cases q <;> first | exact hr | exact h2
    rcases setPowerOn_spec (low := false) h hc with ⟨e, h1, -⟩ | ⟨tp, pw, t', rfl, h1, ⟨-, -, rfl, -⟩ | ⟨hno, h2⟩⟩
    · exact (hquery (power_queries h1) hx).elim
    · rw [List.append_nil] at hx
      exact (hquery (power_queries h1) hx).elim
    obtain ⟨t₁, t₂, M, modes, F, xs, xl, need, rfl, hs, ha, -, hsoft, hc2⟩ := h2
    obtain ⟨str, ta, tb, td, noReset, m₁, m₂, f₁, f₂, rl, rfl, e1, e2, e3, e4, e5, e6, e7⟩ := hs.steps
    obtain ⟨b₁, hpw, -⟩ := evolvesAt_append.1 he
    have hn : ¬ Mem need p := by
      intro h3
      obtain ⟨v, h4, -⟩ := (hs.need p).1 h3
      have h5 := (status_reports hs.status hs.conforms e1 p).2 ⟨v, h4⟩
      exact reported_runs h1 (fun x hx => hc x (List.mem_append_left _ hx)) (hno rfl) hpw
        ((e1.split p).1.2 (.inl h5)) hoff
    have hnr : ¬ Mem noReset p := by
      intro h3
      obtain ⟨v, h4, h5, -⟩ := (e2 p).1 h3
      exact hn ((hs.need p).2 ⟨v, h4, h5⟩)
    rcases List.mem_append.1 hx with hx | hx
    · exact (hquery (power_queries h1) hx).elim
    rcases List.mem_append.1 hx with hx | hx
    · rcases List.mem_cons.1 hx with rfl | hx
      · rw [requestOf_host hs.status, Option.some.injEq] at hq
        subst hq
        exact absurd hr id
      rcases List.mem_append.1 hx with hx | hx
      · exact stepRan_names (fun _ => rfl) e3 hnr hx hq
      rcases List.mem_append.1 hx with hx | hx
      · exact stepRan_names (fun _ => rfl) e4 hn hx hq
      rcases List.mem_cons.1 hx with rfl | hx
      · rw [requestOf_host e5, Option.some.injEq] at hq
        subst hq
        exact absurd hr id
      · exact stepRan_names (fun _ => rfl) e7 hn hx hq
    · obtain ⟨ti, tw, rfl, hti, hw, -⟩ := setSoft_spec ha hsoft hc2
      rcases List.mem_append.1 hx with hx | hx
      · exact (hquery (readsOf_queries hti) hx).elim
      · obtain ⟨code, g, ov, r, ⟨⟨w, v, -, h5⟩, -⟩, -⟩ := hw x hx
        rw [requestOf_host h5, Option.some.injEq] at hq
        subst hq
        exact absurd hr id
  · have h1 := mt off_iff.2 hoff
    refine C157_requests m .high (by simp) t o h hc p s s' he ?_ ?_ x hx q hq hr
    · cases h3 : s.enabled
      · exact absurd (.inl h3) h1
      · rfl
    · cases h3 : s.reset
      · rfl
      · exact absurd (.inr h3) h1

/-- C158: if it succeeds, each of its modules that is not reported as a failure ran before. -/
theorem C158_ran (m : ModuleId) (t : List Exchange) (res : Res Unit) (h : Runs (setPower m .high) t (.ok res))
    (hc : Conforming t) (p : Nat) (s s' : PortState) (he : EvolvesAt p s t s') (hp : Mem m p)
    (hf : ¬ Mem res.failures.modules p) : s.power ≠ .off := by
  rcases setPowerOn_spec (low := false) h hc with ⟨e, -, h1⟩ | ⟨tp, pw, t', rfl, h1, ⟨-, -, -, h2⟩ | ⟨hno, h2⟩⟩
  · cases h1
  · cases h2
  obtain ⟨t₁, t₂, M, modes, F, xs, xl, need, rfl, hs, ha, -, hr, hc2⟩ := h2
  have hcp : Conforming tp := fun x hx => hc x (List.mem_append_left _ hx)
  obtain ⟨x, t₃, t₄, r, -, -, -, -, -, -, hpart, -⟩ := power_spec h1 hcp
  obtain ⟨str, ta, tb, td, noReset, m₁, m₂, f₁, f₂, rl, rfl, e1, e2, e3, e4, e5, e6, e7⟩ := hs.steps
  obtain ⟨ti, tw, rfl, hti, hw, hmono, -⟩ := setSoft_last ha hr hc2
  have hpF : ¬ Mem F.modules p := fun h => hf (hmono p h)
  obtain ⟨b₁, hpw, he⟩ := evolvesAt_append.1 he
  obtain ⟨b₅, hon, he⟩ := evolvesAt_append.1 he
  obtain ⟨b₂, hst, hon⟩ := hon
  obtain ⟨b₃, hea, hon⟩ := evolvesAt_append.1 hon
  obtain ⟨b₄, heb, hon⟩ := evolvesAt_append.1 hon
  obtain ⟨c, hlp, hed⟩ := hon
  obtain ⟨d1, -, -⟩ := stepRan_at (fun _ => rfl) e7 hed hpF
  have hf2 : ¬ Mem f₂.modules p := fun h => d1 (mem_merge.2 (.inl h))
  obtain ⟨c1, -, -⟩ := stepRan_at (fun _ => rfl) e4 heb hf2
  obtain ⟨a1, -, -⟩ := stepRan_at (fun _ => rfl) e3 hea c1
  exact reported_runs h1 hcp (hno rfl) hpw (((hpart p).1.1 hp).resolve_right fun h => a1 (mem_merge.2 (.inl h)))

/-- C158: if it is refused as an invalid transition, some module of the set is off, and no port has changed, whether or not
its own module is. -/
theorem C158_refused (m : ModuleId) (st : PowerState) (t : List Exchange)
    (h : Runs (setPower m st) t (.err .invalidPowerStateTransition)) (hc : Conforming t) :
    st = .high ∧ (∀ p s s', EvolvesAt p s t s' → s' = s) ∧
      ∃ p, Mem m p ∧ ∀ s s', EvolvesAt p s t s' → s.power = .off := by
  have key : ∀ low, Runs (setPowerOn m low) t (.err .invalidPowerStateTransition) →
      low = false ∧ (∀ p s s', EvolvesAt p s t s' → s' = s) ∧
        ∃ p, Mem m p ∧ ∀ s s', EvolvesAt p s t s' → s.power = .off := by
    intro low h
    rcases setPowerOn_spec h hc with ⟨e, h1, h2⟩ | ⟨tp, pw, t', rfl, h1, ⟨hl, ⟨mode, h2, h3⟩, rfl, -⟩ | ⟨-, h2⟩⟩
    · obtain ⟨x, t₁, t₂, r, -, -, -, -, -, q, b, -, -, -, rfl⟩ := power_spec h1 hc
      cases h2
    · rw [List.append_nil] at *
      refine ⟨hl, fun p s s' he => (evolvesAt_queries he (power_queries h1)).1, ?_⟩
      obtain ⟨x, t₁, t₂, r, -, -, -, -, -, hwf, hpart, -⟩ := power_spec h1 hc
      obtain ⟨p, h4⟩ : ∃ p, okAt pw p = some mode := by
        obtain ⟨n, hn, h5⟩ := List.mem_iff_getElem.1 h2
        have hl : n < pw.modules.toIndices.length := by
          rw [length_toIndices, count_eq_card]
          exact hwf.1 ▸ hn
        have hz : (pw.modules.toIndices[n], mode) ∈ pw.modules.toIndices.zip pw.data := by
          refine List.mem_iff_getElem.2 ⟨n, by rw [List.length_zip]; omega, ?_⟩
          rw [List.getElem_zip, h5]
        exact ⟨_, mem_zip_iff_datum.1 hz⟩
      have hp : Mem pw.modules p := (mem_iff_datum hwf.1 p).2 ⟨_, h4⟩
      refine ⟨p, (hpart p).1.2 (.inl hp), fun s s' he => ?_⟩
      obtain ⟨-, mode', h5, h6⟩ := C104_report_at m tp pw h1 hc p s s' he hp
      rw [h4, Option.some.injEq] at h5
      rw [← h6, ← h5, h3]
    · obtain ⟨t₁, t₂, M, modes, F, xs, xl, need, rfl, hs, ha, -, hsoft, hc2⟩ := h2
      obtain ⟨ti, tw, -, -, -, ⟨res, h3, -⟩ | ⟨p, code, -, -, h3⟩, -⟩ := setSoft_spec ha hsoft hc2
      · cases h3
      · cases h3
  cases st with
  | off =>
    obtain ⟨_, _, _, _, _, _, -, -, -, -, -, -, h1, -⟩ := C43_power_off m t _ h hc
    cases h1
  | low => cases (key true h).1
  | high => exact ⟨rfl, (key false h).2⟩

/-- C158 by what the tool does: `set-power high` succeeds only with modules that ran before, apart from those that its failure
lines name. -/
theorem C158_tool (fmt : Fmt) (sel : Option Transceivers) (t : List Exchange) (out : Lines)
    (fails : List (U8 × TransceiverError)) (h : Runs (main fmt sel false (.setPower .high)) t (.ok (.done out fails)))
    (hc : Conforming t) :
    ∃ t₁ t₂ m, t = t₁ ++ t₂ ∧ Runs (addressTransceivers (sel.getD .all)) t₁ (.ok m) ∧
      ∀ p, Mem m p → ¬ Lined fails p → ∀ s s', EvolvesAt p s t s' → s.power ≠ .off := by
  obtain ⟨t₁, t₂, rfl, hq, (⟨-, _, h1⟩ | ⟨-, h1⟩) | ⟨m, h1, h2, h3⟩⟩ := C89_selected fmt sel false _ t _ h fun x hx =>
    onTopic_conforms (hc x hx)
  · cases h1
  · cases h1
  refine ⟨t₁, t₂, m, rfl, h1, fun p hp hf s s' he => ?_⟩
  obtain ⟨c, he1, he2⟩ := evolvesAt_append.1 he
  have hcs : c = s := (evolvesAt_queries he1 fun x hx => by
    obtain ⟨q, h4, h5, -⟩ := hq x hx
    exact ⟨q, h4, h5⟩).1
  rw [hcs] at he2
  have hc2 : Conforming t₂ := fun x hx => hc x (List.mem_append_right _ hx)
  rw [dispatch.eq_def] at h2
  obtain ⟨r, h4, h5⟩ := acting_ok h2
  cases h5
  exact C158_ran m t₂ r h4 hc2 p s s' he2 hp (not_lined (on_aligned (low := false) h4 hc2) hf)

/-- C158 over the network: the same at the end of an execution of the whole system, for modules given by number. -/
theorem C158_net (lim : Option Nat) (progs : List (Prog Exit)) (evs : List SysEvent) (sys : Sys Exit)
    (h : (Sys.init lim progs).run evs = some sys) (hsp : SpDoes Proper evs) (hn : numbered evs ≤ 2 ^ 64) (i : Nat)
    (fmt : Fmt) (m : ModuleId) (hi : progs[i]? = some (main fmt (some (.index m)) false (.setPower .high))) (p : Nat)
    (hp : Mem m p) (hother : ∀ j q, j ≠ i → progs[j]? = some q → Spares q p) (tk : Xcvr.Task Exit)
    (ht : sys.tasks[i]? = some tk) (out : Lines) (fails : List (U8 × TransceiverError))
    (ha : tk.prog = .ret (.done out fails)) (hf : ¬ Lined fails p) (s s' : PortState)
    (he : LogEvolvesAt p s sys.spLog s') (hord : InOrderAt p sys.spLog) (hal : AlikeAt p sys.spLog) :
    s.power ≠ .off ∧ Uninterrupted s s' := by
  obtain ⟨h1, h2, h3⟩ := order_at lim progs evs sys h hsp hn i _ hi (main_hosts fmt _ false (.setPower .high)
    fun _ _ _ _ _ _ _ h => by cases h) p hother tk ht _ ha s s' he hord hal
  have key : s.power ≠ .off := by
    obtain ⟨t₁, t₂, m', -, h5, h6⟩ := C158_tool fmt _ _ out fails h1 h2
    obtain ⟨-, h7⟩ := runs_ret.1 (show Runs (Prog.ret m) t₁ (.ok m') from h5)
    cases h7
    exact h6 p hp hf s s' h3
  have h4 := mt off_iff.2 key
  refine ⟨key, C157_tool fmt _ .high (by simp) _ out fails h1 h2 p hf s s' h3 ?_ ?_⟩
  · cases h5 : s.enabled
    · exact absurd (.inl h5) h4
    · rfl
  · cases h5 : s.reset
    · rfl
    · exact absurd (.inr h5) h4

/-- Module 0 is off and module 1 runs: setting both to high power is refused, and setting module 1 to high power is not. -/
example : (∃ t, Runs (setPower ⟨0b11⟩ .high) t (.err .invalidPowerStateTransition) ∧ Conforming t ∧
      EvolvesAt 0 (unevenBoard 0) t (after unevenBoard t 0) ∧ (unevenBoard 0).power = .off) ∧
    ∃ t res, Runs (setPower ⟨0b10⟩ .high) t (.ok res) ∧ Conforming t ∧
      EvolvesAt 1 (unevenBoard 1) t (after unevenBoard t 1) ∧ ¬ Mem res.failures.modules 1 := by
  have h3 : ∀ m, _ := fun m => board_evolves unevenBoard (fun _ _ => ⟨0⟩) (P := setPower m .high)
    (calls_setPowerOn m false (fun _ _ => ⟨_, _, rfl⟩) (fun _ => ⟨_, _, rfl⟩) (fun _ => ⟨_, _, rfl⟩)
      (fun _ => ⟨_, _, rfl⟩) (fun _ => ⟨_, _, rfl⟩) (fun _ => ⟨_, _, rfl⟩) fun _ _ _ _ _ _ => ⟨_, _, rfl⟩) []
  constructor
  · have h1 := Bench.exec_runs (boardBench unevenBoard) (setPower ⟨0b11⟩ .high)
    have e : ((setPower ⟨0b11⟩ .high).exec (boardBench unevenBoard).sp []).2 = .err .invalidPowerStateTransition := by
      decide +kernel
    rw [e] at h1
    exact ⟨_, h1, setPower_conforming _ _ _, evolves_at.1 (h3 _) 0, rfl⟩
  · have h1 := Bench.exec_runs (boardBench unevenBoard) (setPower ⟨0b10⟩ .high)
    have e : (match ((setPower ⟨0b10⟩ .high).exec (boardBench unevenBoard).sp []).2 with
        | .ok r => r.failures.modules == ⟨0⟩
        | _ => false) = true := by decide +kernel
    cases hr : ((setPower ⟨0b10⟩ .high).exec (boardBench unevenBoard).sp []).2 with
    | ok res =>
      rw [hr] at h1 e
      have e' : res.failures.modules = ⟨0⟩ := beq_iff_eq.1 e
      exact ⟨_, res, h1, setPower_conforming _ _ _, evolves_at.1 (h3 _) 1, by rw [e']; decide⟩
    | err _ => rw [hr] at e; cases e
    | panic => rw [hr] at e; cases e

end Xcvr
