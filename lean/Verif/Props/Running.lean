import Verif.Props.Apart
import Verif.Props.Again

/-! # C157: setting low or high power does not restart a module that runs -/

namespace Xcvr

open Controller Prog Spec Cli

/-- Power and reset, the LED and the memory are the same, apart from the bytes with which power is controlled. -/
structure Spec.Uninterrupted (s s' : PortState) : Prop where
  enabled : s'.enabled = s.enabled
  reset : s'.reset = s.reset
  led : s'.led = s.led
  upper : s'.upper = s.upper
  lower : ∀ a, a ≠ 26 → a ≠ 93 → s'.lower a = s.lower a

theorem uninterrupted_refl (s : PortState) : Uninterrupted s s := ⟨rfl, rfl, rfl, rfl, fun _ _ _ => rfl⟩

theorem uninterrupted_trans {s c s' : PortState} (h : Uninterrupted s c) (h' : Uninterrupted c s') : Uninterrupted s s' :=
  ⟨h'.enabled.trans h.enabled, h'.reset.trans h.reset, h'.led.trans h.led, h'.upper.trans h.upper,
    fun a h1 h2 => (h'.lower a h1 h2).trans (h.lower a h1 h2)⟩

theorem uninterrupted_store {code : U8} {w : MemoryWrite} {v : U8} {ov low : Bool} (h : Selects code w v ov low)
    (s : PortState) : Uninterrupted s (s.store w [v]) := by
  rcases h with ⟨-, rfl, -⟩ | ⟨-, rfl, -⟩
  · refine ⟨rfl, rfl, rfl, rfl, fun a _ h2 => overwrite_apart ?_⟩
    simp only [List.length_cons, List.length_nil]
    have : (93 : U8).toNat = 93 := rfl
    omega
  · refine ⟨rfl, rfl, rfl, rfl, fun a h1 _ => overwrite_apart ?_⟩
    simp only [List.length_cons, List.length_nil]
    have : (26 : U8).toNat = 26 := rfl
    omega

theorem soft_uninterrupted {low : Bool} {t : List Exchange} {R : ModuleId} (hw : ∀ x ∈ t, ∃ code g ov r,
    SoftWritten code ov low g x r ∧ ∀ p, Mem r.failures.modules p → Mem R p) {p : Nat} {b c : PortState}
    (he : EvolvesAt p b t c) (hp : ¬ Mem R p) : Uninterrupted b c := by
  induction t generalizing b with
  | nil => cases he; exact uninterrupted_refl _
  | cons x t ih =>
    obtain ⟨d, h1, h2⟩ := he
    have h3 := ih (fun y hy => hw y (List.mem_cons_of_mem _ hy)) h2
    obtain ⟨code, g, ov, r, ⟨⟨w, v, h4, h5⟩, h6⟩, h7⟩ := hw x (List.mem_cons_self ..)
    by_cases hg : Mem g p
    · have hr := reports_success h6 hg fun h => hp (h7 p h)
      have he : d = b.store w [v] := steps_ok h5 h1 ((reports_ok h6).1 hr)
      rw [he] at h3
      exact uninterrupted_trans (uninterrupted_store h4 b) h3
    · rw [← steps_not h5 rfl h1 hg]
      exact h3

/-- A module that runs is not among those that need power. -/
theorem running_not_needed {low : Bool} {pw : Res PowerMode} {t : List Exchange} {M : ModuleId}
    {F : FailedModules TransceiverError} {xs xl : Exchange} {need : ModuleId} (hs : OnSteps low pw t M F xs xl need)
    {p : Nat} {s s' : PortState} (hst : StepsAt xs p s s') (hon : s.enabled = true) (hr : s.reset = false) :
    ¬ Mem need p := by
  intro hn
  obtain ⟨v, hv, hneed⟩ := (hs.need p).1 hn
  obtain ⟨s1, s5, s2, -⟩ := hst.shows _ _ (requestOf_host hs.status) hv v rfl
  rw [needsPower_state s1 s5 s2, hon, hr] at hneed
  rcases hneed with h | h <;> cases h

theorem on_running {m : ModuleId} {low : Bool} {t : List Exchange} {res : Res Unit}
    (h : Runs (setPowerOn m low) t (.ok res)) (hc : Conforming t) {p : Nat} {b b' : PortState} (he : EvolvesAt p b t b')
    (hen : b.enabled = true) (hre : b.reset = false) (hf : ¬ Mem res.failures.modules p) : Uninterrupted b b' := by
  rcases setPowerOn_spec h hc with ⟨e, -, h1⟩ | ⟨tp, pw, t', rfl, h1, ⟨-, -, -, h2⟩ | ⟨-, h2⟩⟩
  · cases h1
  · cases h2
  obtain ⟨t₁, t₂, M, modes, F, xs, xl, need, rfl, hs, ha, -, hr, hc2⟩ := h2
  obtain ⟨str, ta, tb, td, noReset, m₁, m₂, f₁, f₂, rl, rfl, e1, e2, e3, e4, e5, e6, e7⟩ := hs.steps
  obtain ⟨ti, tw, rfl, hti, hw, hmono, -⟩ := setSoft_last ha hr hc2
  have hpF : ¬ Mem F.modules p := fun h => hf (hmono p h)
  obtain ⟨b₁, hpw, he⟩ := evolvesAt_append.1 he
  have hb : b₁ = b := (evolvesAt_queries hpw (power_queries h1)).1
  obtain ⟨b₅, hon, he⟩ := evolvesAt_append.1 he
  obtain ⟨b₆, hei, hew⟩ := evolvesAt_append.1 he
  obtain ⟨b₂, hst, hon⟩ := hon
  obtain ⟨b₃, hea, hon⟩ := evolvesAt_append.1 hon
  obtain ⟨b₄, heb, hon⟩ := evolvesAt_append.1 hon
  obtain ⟨c, hlp, hed⟩ := hon
  have hb2 : b₂ = b₁ := hst.quiet _ (requestOf_host hs.status) (.inl trivial)
  have hn : ¬ Mem need p := running_not_needed hs hst (hb ▸ hen) (hb ▸ hre)
  have hnr : ¬ Mem noReset p := by
    intro h3
    obtain ⟨s, h4, h5, -⟩ := (e2 p).1 h3
    exact hn ((hs.need p).2 ⟨s, h4, h5⟩)
  obtain ⟨d1, -, d3⟩ := stepRan_at (fun _ => rfl) e7 hed hpF
  have hf2 : ¬ Mem f₂.modules p := fun h => d1 (mem_merge.2 (.inl h))
  have hfl : ¬ Mem rl.failures.modules p := fun h => d1 (mem_merge.2 (.inr h))
  obtain ⟨c1, -, c3⟩ := stepRan_at (fun _ => rfl) e4 heb hf2
  obtain ⟨-, -, a3⟩ := stepRan_at (fun _ => rfl) e3 hea c1
  have hlow : Uninterrupted b₄ c := by
    by_cases hm2 : Mem m₂ p
    · have hok := (reports_ok e6).1 (reports_success e6 hm2 hfl)
      have : c = { b₄ with lowPin := low } := by
        have := steps_ok e5 hlp hok
        cases low <;> exact this
      rw [this]
      exact ⟨rfl, rfl, rfl, rfl, fun _ _ _ => rfl⟩
    · have : c = b₄ := by
        cases low
        · exact steps_not e5 rfl hlp hm2
        · exact steps_not e5 rfl hlp hm2
      rw [this]
      exact uninterrupted_refl _
  have hb6 : b₆ = b₅ := (evolvesAt_queries hei (readsOf_queries hti)).1
  have hsoft := soft_uninterrupted hw hew hf
  rw [hb6, d3 hn] at hsoft
  rw [c3 hn, a3 hnr, hb2, hb] at hlow
  exact uninterrupted_trans hlow hsoft

/-- C157: setting low or high power leaves the power, the reset and the LED of a module that has power and is not in reset
as they are, and its memory up to the two bytes with which power is controlled, unless the module is reported as a failure. -/
theorem C157_running (m : ModuleId) (st : PowerState) (hst : st ≠ .off) (t : List Exchange) (res : Res Unit)
    (h : Runs (setPower m st) t (.ok res)) (hc : Conforming t) (p : Nat) (s s' : PortState) (he : EvolvesAt p s t s')
    (hen : s.enabled = true) (hre : s.reset = false) (hf : ¬ Mem res.failures.modules p) : Uninterrupted s s' := by
  cases st with
  | off => exact absurd rfl hst
  | low => exact on_running (low := true) h hc he hen hre hf
  | high => exact on_running (low := false) h hc he hen hre hf

theorem on_up {m : ModuleId} {low : Bool} {t : List Exchange} {res : Res Unit}
    (h : Runs (setPowerOn m low) t (.ok res)) (hc : Conforming t) {p : Nat} {b b' : PortState} (he : EvolvesAt p b t b')
    (hp : Mem m p) (hf : ¬ Mem res.failures.modules p) : b'.enabled = true ∧ b'.reset = false := by
  have hrun := h
  have hev := he
  rcases setPowerOn_spec h hc with ⟨e, -, h1⟩ | ⟨tp, pw, t', rfl, h1, ⟨-, -, -, h2⟩ | ⟨-, h2⟩⟩
  · cases h1
  · cases h2
  obtain ⟨t₁, t₂, M, modes, F, xs, xl, need, rfl, hs, ha, -, hr, hc2⟩ := h2
  obtain ⟨x, t₃, t₄, r, htp, -, -, -, -, -, hpart, -⟩ := power_spec h1 fun x hx => hc x (List.mem_append_left _ hx)
  obtain ⟨str, ta, tb, td, noReset, m₁, m₂, f₁, f₂, rl, rfl, e1, e2, e3, e4, e5, e6, e7⟩ := hs.steps
  obtain ⟨ti, tw, rfl, hti, hw, hmono, -⟩ := setSoft_last ha hr hc2
  have hpF : ¬ Mem F.modules p := fun h => hf (hmono p h)
  obtain ⟨b₁, hpw, he⟩ := evolvesAt_append.1 he
  have hb : b₁ = b := (evolvesAt_queries hpw (power_queries h1)).1
  obtain ⟨b₅, hon, he⟩ := evolvesAt_append.1 he
  obtain ⟨b₆, hei, hew⟩ := evolvesAt_append.1 he
  obtain ⟨b₂, hst, hon⟩ := hon
  obtain ⟨b₃, hea, hon⟩ := evolvesAt_append.1 hon
  obtain ⟨b₄, heb, hon⟩ := evolvesAt_append.1 hon
  obtain ⟨c, hlp, hed⟩ := hon
  obtain ⟨d1, d2, -⟩ := stepRan_at (fun _ => rfl) e7 hed hpF
  have hf2 : ¬ Mem f₂.modules p := fun h => d1 (mem_merge.2 (.inl h))
  have hfl : ¬ Mem rl.failures.modules p := fun h => d1 (mem_merge.2 (.inr h))
  obtain ⟨c1, c2, -⟩ := stepRan_at (fun _ => rfl) e4 heb hf2
  obtain ⟨a1, -, -⟩ := stepRan_at (fun _ => rfl) e3 hea c1
  by_cases hn : Mem need p
  · obtain ⟨⟨k1, k2, -⟩, -⟩ := d2 hn
    obtain ⟨⟨l1, -⟩, hm2⟩ := c2 hn
    have hok := (reports_ok e6).1 (reports_success e6 hm2 hfl)
    have hcl : c = { b₄ with lowPin := low } := by
      have := steps_ok e5 hlp hok
      cases low <;> exact this
    have hb6 : b₆ = b₅ := (evolvesAt_queries hei (readsOf_queries hti)).1
    have hsoft := soft_uninterrupted hw hew hf
    rw [hsoft.enabled, hsoft.reset, hb6]
    rw [hcl] at k1
    exact ⟨k1.trans l1, k2⟩
  · have hpw : Mem pw.modules p := ((hpart p).1.1 hp).resolve_right fun h => a1 (mem_merge.2 (.inl h))
    have hpst : Mem str.modules p := ((e1.split p).1.1 hpw).resolve_right fun h => a1 (mem_merge.2 (.inr h))
    obtain ⟨v, hv⟩ := (status_reports hs.status hs.conforms e1 p).1 hpst
    obtain ⟨s1, s5, s2, -⟩ := hst.shows _ _ (requestOf_host hs.status) hv v rfl
    have hnp : ¬ NeedsPower v := fun h3 => hn ((hs.need p).2 ⟨v, hv, h3⟩)
    rw [needsPower_state s1 s5 s2, hb] at hnp
    have hen : b.enabled = true := by
      cases h3 : b.enabled
      · exact absurd (.inl h3) hnp
      · rfl
    have hre : b.reset = false := by
      cases h3 : b.reset
      · rfl
      · exact absurd (.inr h3) hnp
    have hu := on_running hrun hc hev hen hre hf
    exact ⟨hu.enabled.trans hen, hu.reset.trans hre⟩

/-- C157: and whatever mixture of modules it is for, setting low or high power leaves each of them that is not reported as a
failure with power and out of reset, even one that it passes over. -/
theorem C157_up (m : ModuleId) (st : PowerState) (hst : st ≠ .off) (t : List Exchange) (res : Res Unit)
    (h : Runs (setPower m st) t (.ok res)) (hc : Conforming t) (p : Nat) (s s' : PortState) (he : EvolvesAt p s t s')
    (hp : Mem m p) (hf : ¬ Mem res.failures.modules p) : s'.enabled = true ∧ s'.reset = false ∧ s'.power ≠ .off := by
  have key : s'.enabled = true ∧ s'.reset = false := by
    cases st with
    | off => exact absurd rfl hst
    | low => exact on_up (low := true) h hc he hp hf
    | high => exact on_up (low := false) h hc he hp hf
  refine ⟨key.1, key.2, ?_⟩
  unfold PortState.power
  rw [key.1, key.2, if_neg (by simp)]
  repeat' split
  all_goals simp

theorem stepRan_names {q : ModuleId → HostRequest} (hq : ∀ g, requestModules (q g) = some g) {target a a' : ModuleId}
    {f f' : FailedModules TransceiverError} {t : List Exchange} (h : StepRan q target a f t a' f') {p : Nat}
    (hp : ¬ Mem target p) {x : Exchange} (hx : x ∈ t) {r : HostRequest} (hr : requestOf x = some r) : ¬ Names r p := by
  rcases h with ⟨-, y, -, rfl, h1, -⟩ | ⟨-, rfl, -⟩
  · rw [List.mem_singleton] at hx
    subst hx
    rw [requestOf_host h1, Option.some.injEq] at hr
    rintro ⟨g, h2, h3⟩
    rw [← hr, hq, Option.some.injEq] at h2
    exact hp (h2 ▸ h3)
  · cases hx

theorem on_restarts {m : ModuleId} {low : Bool} {t : List Exchange} {o : Exec CtlError (Res Unit)}
    (h : Runs (setPowerOn m low) t o) (hc : Conforming t) {p : Nat} {b b' : PortState} (he : EvolvesAt p b t b')
    (hen : b.enabled = true) (hre : b.reset = false) {x : Exchange} (hx : x ∈ t) {q : HostRequest}
    (hq : requestOf x = some q) (hrq : Restarts q) : ¬ Names q p := by
  have hquery : ∀ {t : List Exchange}, (∀ x ∈ t, ∃ q, requestOf x = some q ∧ IsQuery q) → x ∈ t → False := by
    intro t ht hx
    obtain ⟨q', h1, h2⟩ := ht x hx
    rw [hq, Option.some.injEq] at h1
    subst h1
    cases q <;> first | exact hrq | exact h2
  rcases setPowerOn_spec h hc with ⟨e, h1, -⟩ | ⟨tp, pw, t', rfl, h1, ⟨-, -, rfl, -⟩ | ⟨-, h2⟩⟩
  · exact (hquery (power_queries h1) hx).elim
  · rw [List.append_nil] at hx
    exact (hquery (power_queries h1) hx).elim
  obtain ⟨t₁, t₂, M, modes, F, xs, xl, need, rfl, hs, ha, -, hr, hc2⟩ := h2
  obtain ⟨str, ta, tb, td, noReset, m₁, m₂, f₁, f₂, rl, rfl, e1, e2, e3, e4, e5, e6, e7⟩ := hs.steps
  obtain ⟨b₁, hpw, he⟩ := evolvesAt_append.1 he
  have hb : b₁ = b := (evolvesAt_queries hpw (power_queries h1)).1
  obtain ⟨b₅, ⟨b₂, hst, -⟩, -⟩ := evolvesAt_append.1 he
  have hn : ¬ Mem need p := running_not_needed hs hst (hb ▸ hen) (hb ▸ hre)
  have hnr : ¬ Mem noReset p := by
    intro h3
    obtain ⟨s, h4, h5, -⟩ := (e2 p).1 h3
    exact hn ((hs.need p).2 ⟨s, h4, h5⟩)
  rcases List.mem_append.1 hx with hx | hx
  · exact (hquery (power_queries h1) hx).elim
  rcases List.mem_append.1 hx with hx | hx
  · rcases List.mem_cons.1 hx with rfl | hx
    · rw [requestOf_host hs.status, Option.some.injEq] at hq
      subst hq
      exact absurd hrq id
    rcases List.mem_append.1 hx with hx | hx
    · exact stepRan_names (fun _ => rfl) e3 hnr hx hq
    rcases List.mem_append.1 hx with hx | hx
    · exact stepRan_names (fun _ => rfl) e4 hn hx hq
    rcases List.mem_cons.1 hx with rfl | hx
    · rw [requestOf_host e5, Option.some.injEq] at hq
      subst hq
      cases low <;> exact absurd hrq id
    · exact stepRan_names (fun _ => rfl) e7 hn hx hq
  · obtain ⟨ti, tw, rfl, hti, hw, -⟩ := setSoft_spec ha hr hc2
    rcases List.mem_append.1 hx with hx | hx
    · exact (hquery (readsOf_queries hti) hx).elim
    · obtain ⟨code, g, ov, r, ⟨⟨w, v, -, h5⟩, -⟩, -⟩ := hw x hx
      rw [requestOf_host h5, Option.some.injEq] at hq
      subst hq
      exact absurd hrq id

/-- C157, on the wire: setting low or high power asks the SP neither to reset such a module nor to switch its supply, however
it ends. -/
theorem C157_requests (m : ModuleId) (st : PowerState) (hst : st ≠ .off) (t : List Exchange) (o : Exec CtlError (Res Unit))
    (h : Runs (setPower m st) t o) (hc : Conforming t) (p : Nat) (s s' : PortState) (he : EvolvesAt p s t s')
    (hen : s.enabled = true) (hre : s.reset = false) (x : Exchange) (hx : x ∈ t) (q : HostRequest)
    (hq : requestOf x = some q) (hr : Restarts q) : ¬ Names q p := by
  cases st with
  | off => exact absurd rfl hst
  | low => exact on_restarts (low := true) h hc he hen hre hx hq hr
  | high => exact on_restarts (low := false) h hc he hen hre hx hq hr

/-- C157 by what the tool prints: `set-power` does not interrupt a module that runs and that its failure lines do not name. -/
theorem C157_tool (fmt : Fmt) (sel : Option Transceivers) (st : PowerState) (hst : st ≠ .off) (t : List Exchange)
    (out : Lines) (fails : List (U8 × TransceiverError))
    (h : Runs (main fmt sel false (.setPower st)) t (.ok (.done out fails))) (hc : Conforming t) (p : Nat)
    (hf : ¬ Lined fails p) (s s' : PortState) (he : EvolvesAt p s t s') (hen : s.enabled = true) (hre : s.reset = false) :
    Uninterrupted s s' := by
  obtain ⟨t₁, t₂, rfl, hq, (⟨-, _, h1⟩ | ⟨-, h1⟩) | ⟨m, h1, h2, h3⟩⟩ := C89_selected fmt sel false _ t _ h fun x hx =>
    onTopic_conforms (hc x hx)
  · cases h1
  · cases h1
  obtain ⟨c, he1, he2⟩ := evolvesAt_append.1 he
  have hcs : c = s := (evolvesAt_queries he1 fun x hx => by
    obtain ⟨q, h4, h5, -⟩ := hq x hx
    exact ⟨q, h4, h5⟩).1
  rw [hcs] at he2
  have hc2 : Conforming t₂ := fun x hx => hc x (List.mem_append_right _ hx)
  rw [dispatch.eq_def] at h2
  obtain ⟨r, h4, h5⟩ := acting_ok h2
  cases h5
  refine C157_running m st hst t₂ r h4 hc2 p s s' he2 hen hre ?_
  cases st with
  | off => exact absurd rfl hst
  | low => exact not_lined (on_aligned (low := true) h4 hc2) hf
  | high => exact not_lined (on_aligned (low := false) h4 hc2) hf

/-- C157 over the network: the same at the end of an execution of the whole system. -/
theorem C157_net (lim : Option Nat) (progs : List (Prog Exit)) (evs : List SysEvent) (sys : Sys Exit)
    (h : (Sys.init lim progs).run evs = some sys) (hsp : SpDoes Proper evs) (hn : numbered evs ≤ 2 ^ 64) (i : Nat)
    (fmt : Fmt) (sel : Option Transceivers) (st : PowerState) (hst : st ≠ .off)
    (hi : progs[i]? = some (main fmt sel false (.setPower st))) (p : Nat)
    (hother : ∀ j q, j ≠ i → progs[j]? = some q → Spares q p) (tk : Xcvr.Task Exit) (ht : sys.tasks[i]? = some tk)
    (out : Lines) (fails : List (U8 × TransceiverError)) (ha : tk.prog = .ret (.done out fails)) (hf : ¬ Lined fails p)
    (s s' : PortState) (he : LogEvolvesAt p s sys.spLog s') (hord : InOrderAt p sys.spLog) (hal : AlikeAt p sys.spLog)
    (hen : s.enabled = true) (hre : s.reset = false) : Uninterrupted s s' := by
  obtain ⟨h1, h2, h3⟩ := order_at lim progs evs sys h hsp hn i _ hi (main_hosts fmt sel false (.setPower st)
    fun _ _ _ _ _ _ _ h => by cases h) p hother tk ht _ ha s s' he hord hal
  exact C157_tool fmt sel st hst _ out fails h1 h2 p hf s s' h3 hen hre

/-- Modules 0 and 1 are set to low power. Module 0 has no power before, and is started; module 1 runs. -/
example : ∃ t res, Runs (setPower ⟨0b11⟩ .low) t (.ok res) ∧ Conforming t ∧
    EvolvesAt 1 (unevenBoard 1) t (after unevenBoard t 1) ∧ (unevenBoard 1).enabled = true ∧
    (unevenBoard 1).reset = false ∧ ¬ Mem res.failures.modules 1 ∧
    ∃ x ∈ t, requestOf x = some (.enablePower ⟨0b1⟩) := by
  have h1 := Bench.exec_runs (boardBench unevenBoard) (setPower ⟨0b11⟩ .low)
  have h3 := board_evolves unevenBoard (fun _ _ => ⟨0⟩) (P := setPower ⟨0b11⟩ .low)
    (calls_setPowerOn ⟨0b11⟩ true (fun _ _ => ⟨_, _, rfl⟩) (fun _ => ⟨_, _, rfl⟩) (fun _ => ⟨_, _, rfl⟩)
      (fun _ => ⟨_, _, rfl⟩) (fun _ => ⟨_, _, rfl⟩) (fun _ => ⟨_, _, rfl⟩) fun _ _ _ _ _ _ => ⟨_, _, rfl⟩) []
  have e : (match ((setPower ⟨0b11⟩ .low).exec (boardBench unevenBoard).sp []).2 with
      | .ok r => r.failures.modules == ⟨0⟩
      | _ => false) = true := by decide +kernel
  have hreq : (((setPower ⟨0b11⟩ .low).exec (boardBench unevenBoard).sp []).1.any fun x =>
      requestOf x == some (.enablePower ⟨0b1⟩)) = true := by decide +kernel
  cases hr : ((setPower ⟨0b11⟩ .low).exec (boardBench unevenBoard).sp []).2 with
  | ok res =>
    rw [hr] at h1 e
    have e' : res.failures.modules = ⟨0⟩ := beq_iff_eq.1 e
    refine ⟨_, res, h1, setPower_conforming _ _ _, evolves_at.1 h3 1, rfl, rfl, by rw [e']; decide, ?_⟩
    obtain ⟨x, h4, h5⟩ := List.any_eq_true.1 hreq
    exact ⟨x, h4, beq_iff_eq.1 h5⟩
  | err _ => rw [hr] at e; cases e
  | panic => rw [hr] at e; cases e

end Xcvr
