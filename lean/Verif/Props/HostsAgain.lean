import Verif.Props.HostsLinear

/-!
# C147: operations of several hosts, when requests are sent again

The loop sends a request again when no answer came in time. The SP has served it by then, perhaps, and serves it once more.
In between it may have served another host, whose operation is then undone, although it was begun later and ended before.
-/

namespace Xcvr

open Spec Sys

/-- **C147**, what holds: if the SP received nothing that is to change the port more than once from the same host, C146
applies, whatever the order in which it received it. -/
theorem C147_once_partial (hosts : List (Sigma Host)) (log : List (Nat × Bytes × List Bytes)) (ht : Together hosts log)
    (port : Nat) (hc : ∀ h ∈ hosts, ChangesOnce h.2.state.spLog) : AllInOrderAt port log ∧ AllAlikeAt port log := by
  have hkey : ∀ k a q d, Received a q d → ¬ IsQuery q → (log.map fun y => (y.1, y.2.1)).count (k, a) ≤ 1 := by
    intro k a q d h1 h2
    by_cases hk : k < hosts.length
    · obtain ⟨h, hh⟩ : ∃ h, hosts[k]? = some h := ⟨_, List.getElem?_eq_getElem hk⟩
      have h3 := hc h (List.mem_of_getElem? hh) a q d h1 h2
      rw [← ht.own k h hh] at h3
      refine Nat.le_trans (Nat.le_of_eq ?_) h3
      rw [List.count_eq_countP, List.count_eq_countP, List.countP_map, List.countP_map, List.countP_map, List.countP_filter]
      refine List.countP_congr fun x _ => ?_
      simp [Prod.ext_iff, and_comm]
    · rw [List.count_eq_zero.2]
      · omega
      · intro hx
        obtain ⟨y, hy, he⟩ := List.mem_map.1 hx
        have := ht.known y hy
        rw [Prod.mk.injEq] at he
        omega
  constructor
  · intro k a x q d h1 h2 _ hne hs
    have h3 := hs.count_le (k, a)
    have h4 := hkey k a q d h1 h2
    rw [List.count_cons_self, List.count_cons_of_ne hne, List.count_cons_self] at h3
    omega
  · intro x hx y hy hk ha q d h1 h2 _ hok
    have h4 := hkey x.1 x.2.1 q d h1 h2
    have : x = y := by
      refine Classical.byContradiction fun hne => ?_
      obtain ⟨i, hi, rfl⟩ := List.getElem_of_mem hx
      obtain ⟨j, hj, rfl⟩ := List.getElem_of_mem hy
      have hij : i ≠ j := fun e => hne (by subst e; rfl)
      rw [List.count_eq_length_filter] at h4
      have h5 : ∀ i j (hi : i < log.length) (hj : j < log.length), i < j → log[i].1 = log[j].1 → log[i].2.1 = log[j].2.1 →
          2 ≤ (log.map fun y => (y.1, y.2.1)).count (log[i].1, log[i].2.1) := by
        intro i j hi hj hlt he1 he2
        have h6 : [log[i], log[j]].Sublist log := by
          have h7 : log = log.take i ++ log[i] :: log.drop (i + 1) := by
            rw [List.getElem_cons_drop, List.take_append_drop]
          have h8 : log[j] ∈ log.drop (i + 1) := List.mem_drop_iff_getElem.2 ⟨j - (i + 1), by omega, by congr 1; omega⟩
          conv => rhs; rw [h7]
          exact ((List.singleton_sublist.2 h8).cons_cons _).trans (List.sublist_append_right ..)
        refine Nat.le_trans (Nat.le_of_eq ?_) ((h6.map fun y => (y.1, y.2.1)).count_le (log[i].1, log[i].2.1))
        simp [he1, he2]
      rw [← List.count_eq_length_filter] at h4
      rcases Nat.lt_or_gt_of_ne hij with hlt | hlt
      · have := h5 i j hi hj hlt hk ha
        omega
      · have := h5 j i hj hi hlt hk.symm ha.symm
        rw [← hk, ← ha] at this
        omega
    exact this ▸ hok

/-- **C147**, what holds: with a single try on each host, and networks that make no copies, C146 applies. -/
theorem C147_single_try_partial (hosts : List (Sigma Host)) (log : List (Nat × Bytes × List Bytes))
    (ht : Together hosts log) (port : Nat) (hl : ∀ h ∈ hosts, limitOf h.2.lim ≤ 1 ∧ NoCopies h.2.state) :
    AllInOrderAt port log ∧ AllAlikeAt port log :=
  C147_once_partial hosts log ht port fun h hh =>
    C132_single_try_partial h.2.lim h.2.progs h.2.evs h.2.state h.2.ran (fun r out hr => (h.2.proper r out hr).1) h.2.few
      (hl h hh).1 (hl h hh).2

/-! ## What does not hold -/

/-- A host that turns the LED on. -/
def onProgs : List (Prog Report) := [do return .done (← Controller.setLeds ⟨0b1⟩ .on)]

/-- It gets its answer at once. -/
def onDemo : List SysEvent := exchDemo 0 0 (.setLedState ⟨0b1⟩ .on) none (.ack ⟨0b1⟩ ⟨0⟩) []

/-- The first answer is lost. -/
def againDemo : List SysEvent :=
  let p := callBytes 0 (Call.host (.setLedState ⟨0b1⟩ .on))
  let r := responsePkt 0 (.ack ⟨0b1⟩ ⟨0⟩) []
  [.number 0, .submit 0, .loop (.accept true), .sp p [r], .loop (.tick true), .sp p [r], .deliver 9 r true, .receive 0]

/-- A host that asks for the LED, and then turns it off. -/
def offProgs : List (Prog Report) :=
  [do return .leds (← Controller.leds ⟨0b1⟩), do return .done (← Controller.setLeds ⟨0b1⟩ .off)]

def offDemo : List SysEvent :=
  exchDemo 0 0 (.ledState ⟨0b1⟩) none (.ledState ⟨0b1⟩ ⟨0⟩) [1] ++
  exchDemo 1 1 (.setLedState ⟨0b1⟩ .off) none (.ack ⟨0b1⟩ ⟨0⟩) []

def onPair : Bytes × List Bytes := pairDemo 0 (.setLedState ⟨0b1⟩ .on) none (.ack ⟨0b1⟩ ⟨0⟩) []
def askPair : Bytes × List Bytes := pairDemo 0 (.ledState ⟨0b1⟩) none (.ledState ⟨0b1⟩ ⟨0⟩) [1]
def offPair : Bytes × List Bytes := pairDemo 1 (.setLedState ⟨0b1⟩ .off) none (.ack ⟨0b1⟩ ⟨0⟩) []

theorem onPair_proper : Proper onPair.1 onPair.2 :=
  pairDemo_proper (g := ⟨0b1⟩) (by decide +kernel) (by decide) rfl rfl trivial trivial

theorem offPair_proper : Proper offPair.1 offPair.2 :=
  pairDemo_proper (g := ⟨0b1⟩) (by decide +kernel) (by decide) rfl rfl trivial trivial

theorem askPair_proper : Proper askPair.1 askPair.2 :=
  pairDemo_proper (g := ⟨0b1⟩) (by decide +kernel) (by decide) rfl rfl trivial fun p v h => by
    have hlt := record_lt h
    have : ∀ p : Fin 64, ∀ v, record (.ledState ⟨0b1⟩ ⟨0⟩) [1] p.val = some v → v = [1] := by
      intro p v h
      have h0 : p.val = 0 := (by decide : ∀ p : Fin 64, (record (.ledState ⟨0b1⟩ ⟨0⟩) [1] p.val).isSome → p.val = 0) p
        (by rw [h]; rfl)
      rw [h0] at h
      cases h
      rfl
    rw [this ⟨p, hlt⟩ v h]
    rfl

theorem on_step (l : LedState) : LogStepAt 0 onPair (mixState false l) (mixState false .on) :=
  pairDemo_step (g := ⟨0b1⟩) (by decide +kernel) (by decide) rfl rfl (by decide)
    (fun v _ => ⟨trivial, rfl⟩) fun h => absurd h (by simp [IsQuery]; decide)

theorem off_step (l : LedState) : LogStepAt 0 offPair (mixState false l) (mixState false .off) :=
  pairDemo_step (g := ⟨0b1⟩) (by decide +kernel) (by decide) rfl rfl (by decide)
    (fun v _ => ⟨trivial, rfl⟩) fun h => absurd h (by simp [IsQuery]; decide)

theorem ask_step : LogStepAt 0 askPair (mixState false .on) (mixState false .on) :=
  pairDemo_step (g := ⟨0b1⟩) (by decide +kernel) (by decide) rfl rfl (by decide)
    (fun v h => ⟨by cases h; rfl, rfl⟩) fun _ => rfl

/-- The host that turns the LED off, and what it was like when it had asked. -/
theorem offHost : ∃ h : Host Report, h.progs = offProgs ∧ h.state.spLog = [askPair, offPair] ∧ Fifo h.state ∧
    ActedAs h.progs h.state 0 0 (fun s s' => s' = s ∧ s.led = .on) ∧ ActedAs h.progs h.state 0 1 (Change.led .off).Does ∧
    ∃ e₁ e₂ s, h.evs = e₁ ++ e₂ ∧ (Sys.init h.lim h.progs).run e₁ = some s ∧ s.spLog.length = 1 ∧ Over s 0 ∧
      Unbegun s 1 := by
  have hstate : ((Sys.init (some 3) offProgs).run offDemo).map (fun s => (s.tasks.map Task.outcome, s.spLog)) =
      some ([some (.leds ⟨⟨0b1⟩, [.on], ⟨⟨0⟩, []⟩⟩), some (.done ⟨⟨0b1⟩, [()], ⟨⟨0⟩, []⟩⟩)], [askPair, offPair]) := by
    decide +kernel
  have hw : ((Sys.init (some 3) offProgs).run offDemo).map Sys.wire = some [askPair.1, offPair.1] := by decide +kernel
  obtain ⟨s, h1, h2, h3⟩ := demo_state hstate
  obtain ⟨tk0, h4, h5⟩ := outcome_task h2 (i := 0) rfl
  obtain ⟨tk1, h6, h7⟩ := outcome_task h2 (i := 1) rfl
  have hled : Operation (Controller.setLeds ⟨0b1⟩ .off) (.led .off) :=
    .command ⟨0b1⟩ .off (Controller.setLeds ⟨0b1⟩ .off, .setLedState ⟨0b1⟩ .off) (by simp [commands])
  have hproper : SpDoes Proper offDemo := by
    intro r out h
    simp only [offDemo, exchDemo, List.cons_append, List.nil_append, List.mem_cons, SysEvent.sp.injEq, reduceCtorEq, false_or,
      List.not_mem_nil, or_false] at h
    rcases h with ⟨rfl, rfl⟩ | ⟨rfl, rfl⟩
    · exact askPair_proper
    · exact offPair_proper
  have hrun : ((Sys.init (some 3) offProgs).run (offDemo.take 6)).map (fun s => (s.tasks.map fun tk =>
      (tk.outcome, tk.past.length, match tk.phase with | .waiting _ _ => true | _ => false), s.spLog.length)) =
      some ([(some (.leds ⟨⟨0b1⟩, [.on], ⟨⟨0⟩, []⟩⟩), 1, false), (none, 0, false)], 1) := by decide +kernel
  obtain ⟨s₁, k1, k2⟩ := Option.map_eq_some_iff.1 hrun
  rw [Prod.mk.injEq] at k2
  rw [h1] at hw
  refine ⟨⟨some 3, offProgs, offDemo, s, h1, hproper, by decide⟩, rfl, h3, ?_, ⟨_, tk0, _, rfl, h4, h5, .leds _ _ _ (by decide)⟩,
    ⟨_, tk1, _, rfl, h6, h7, .change hled (by simp) _ (by decide)⟩, offDemo.take 6, offDemo.drop 6, s₁, rfl, k1, k2.2, ?_, ?_⟩
  · show Fifo s
    unfold Fifo
    rw [h3, Option.some.inj hw]
    exact List.Sublist.refl _
  · obtain ⟨tk, h3, h4⟩ := outcome_task (o := [some (.leds ⟨⟨0b1⟩, [.on], ⟨⟨0⟩, []⟩⟩), none]) (i := 0) (s := s₁)
      (by have := congrArg (List.map Prod.fst) k2.1
          rw [List.map_map] at this
          exact this) rfl
    exact ⟨tk, _, h3, h4⟩
  · have h3 := congrArg (fun l => l[1]?) k2.1
    rw [List.getElem?_map] at h3
    obtain ⟨tk, h4, h5⟩ := Option.map_eq_some_iff.1 h3
    simp only [Prod.mk.injEq, List.length_eq_zero_iff] at h5
    refine ⟨tk, h4, h5.2.1, fun chan req hw => ?_⟩
    have := h5.2.2
    rw [hw] at this
    cases this

/-- The host that turns the LED on, with one answer or with the first lost. -/
theorem onHost (again : Bool) : ∃ h : Host Report, h.progs = onProgs ∧
    h.state.spLog = (if again then [onPair, onPair] else [onPair]) ∧ Fifo h.state ∧
    ActedAs h.progs h.state 0 0 (Change.led .on).Does := by
  have hled : Operation (Controller.setLeds ⟨0b1⟩ .on) (.led .on) :=
    .command ⟨0b1⟩ .on (Controller.setLeds ⟨0b1⟩ .on, .setLedState ⟨0b1⟩ .on) (by simp [commands])
  have hstate : ∀ again : Bool, ((Sys.init (some 3) onProgs).run (if again then againDemo else onDemo)).map
      (fun s => (s.tasks.map Task.outcome, s.spLog)) =
      some ([some (.done ⟨⟨0b1⟩, [()], ⟨⟨0⟩, []⟩⟩)], if again then [onPair, onPair] else [onPair]) := by
    intro again
    cases again <;> decide +kernel
  have hw : ∀ again : Bool, ((Sys.init (some 3) onProgs).run (if again then againDemo else onDemo)).map Sys.wire =
      some (if again then [onPair.1, onPair.1] else [onPair.1]) := by
    intro again
    cases again <;> decide +kernel
  have hproper : SpDoes Proper (if again then againDemo else onDemo) := by
    intro r out h
    cases again <;> simp only [onDemo, againDemo, exchDemo, List.mem_cons, SysEvent.sp.injEq, reduceCtorEq, false_or,
      List.not_mem_nil, or_false, if_true, Bool.false_eq_true, if_false, or_self] at h <;> obtain ⟨rfl, rfl⟩ := h <;>
      exact onPair_proper
  obtain ⟨s, h1, h2, h3⟩ := demo_state (hstate again)
  obtain ⟨tk0, h4, h5⟩ := outcome_task h2 (i := 0) rfl
  have hw := hw again
  rw [h1] at hw
  refine ⟨⟨some 3, onProgs, _, s, h1, hproper, by cases again <;> decide⟩, rfl, h3, ?_,
    ⟨_, tk0, _, rfl, h4, h5, .change hled (by simp) _ (by decide)⟩⟩
  show Fifo s
  unfold Fifo
  rw [h3, Option.some.inj hw]
  cases again <;> exact List.Sublist.refl _

/-- What the tasks of the two hosts do or see. -/
def twoActs (i : Nat × Nat) : Option (PortState → PortState → Prop) :=
  if i = (0, 0) then some (Change.led .on).Does
  else if i = (1, 0) then some fun s s' => s' = s ∧ s.led = .on
  else if i = (1, 1) then some (Change.led .off).Does
  else none

theorem twoActs_some {i : Nat × Nat} (h : (twoActs i).isSome) : i = (0, 0) ∨ i = (1, 0) ∨ i = (1, 1) := by
  unfold twoActs at h
  split at h
  · exact .inl ‹_›
  · split at h
    · exact .inr (.inl ‹_›)
    · split at h
      · exact .inr (.inr ‹_›)
      · cases h

/-- The two hosts, the second of which is served after the first datagram of the first. -/
theorem two_hosts (again : Bool) : ∃ (h₀ h₁ : Host Report) (log : List (Nat × Bytes × List Bytes)),
    log = [(0, onPair), (1, askPair), (1, offPair)] ++ (if again then [(0, onPair)] else []) ∧
    Together [⟨_, h₀⟩, ⟨_, h₁⟩] log ∧ Fifo h₀.state ∧ Fifo h₁.state ∧
    (∀ h ∈ [(⟨_, h₀⟩ : Sigma Host), ⟨_, h₁⟩], ∀ p ∈ h.2.progs, Requests p) ∧
    (∀ k i E, twoActs (k, i) = some E → ∃ h : Host Report, [(⟨_, h₀⟩ : Sigma Host), ⟨_, h₁⟩][k]? = some ⟨_, h⟩ ∧
      ActedAs h.progs h.state 0 i E) ∧
    (∀ (k : Nat) (h : Sigma Host), [(⟨_, h₀⟩ : Sigma Host), ⟨_, h₁⟩][k]? = some h → ∀ (i : Nat) p, h.2.progs[i]? = some p →
      Spares p 0 ∨ (twoActs (k, i)).isSome) ∧
    AllAlikeAt 0 log ∧
    LogEvolvesAt 0 (mixState false .off) (log.map Prod.snd) (mixState false (if again then .on else .off)) ∧
    ∃ s : Sys Report, WasIn log 2 1 h₁ s ∧ Over s 0 ∧ Unbegun s 1 := by
  obtain ⟨h₀, a1, a2, a3, a4⟩ := onHost again
  obtain ⟨h₁, b1, b2, b3, b4, b5, e₁, e₂, s, b6, b7, b8, b9, b10⟩ := offHost
  refine ⟨h₀, h₁, _, rfl, ⟨?_, ?_⟩, a3, b3, ?_, ?_, ?_, ?_, ?_, s, ⟨e₁, e₂, b6, b7, ?_⟩, b9, b10⟩
  · cases again <;> simp
  · intro k h hk
    match k, hk with
    | 0, hk =>
      cases hk
      show _ = h₀.state.spLog
      rw [a2]
      cases again <;> rfl
    | 1, hk =>
      cases hk
      show _ = h₁.state.spLog
      rw [b2]
      cases again <;> rfl
    | k + 2, hk => simp at hk
  · intro h hh p hp
    simp only [List.mem_cons, List.not_mem_nil, or_false] at hh
    have hreq : ∀ {progs : List (Prog Report)} {s : Sys Report} {i : Nat} {E p}, ActedAs progs s 0 i E → progs[i]? = some p →
        Requests p := by
      intro progs s i E p ha hp
      obtain ⟨p', tk, r, hp', -, -, ha⟩ := ha
      rw [hp] at hp'
      cases hp'
      exact requests_calls (atom_host ha)
    rcases hh with rfl | rfl
    · obtain ⟨i, hi⟩ := List.getElem?_of_mem hp
      refine hreq (i := 0) a4 ?_
      show h₀.progs[0]? = some p
      replace hi : h₀.progs[i]? = some p := hi
      rw [a1] at hi ⊢
      match i, hi with
      | 0, hi => exact hi
      | i + 1, hi => simp [onProgs] at hi
    · obtain ⟨i, hi⟩ := List.getElem?_of_mem hp
      replace hi : h₁.progs[i]? = some p := hi
      match i, hi with
      | 0, hi => exact hreq b4 hi
      | 1, hi => exact hreq b5 hi
      | i + 2, hi => rw [b1] at hi; simp [offProgs] at hi
  · intro k i E hE
    have := twoActs_some (i := (k, i)) (by rw [hE]; rfl)
    simp only [Prod.mk.injEq] at this
    rcases this with ⟨rfl, rfl⟩ | ⟨rfl, rfl⟩ | ⟨rfl, rfl⟩
    · cases hE
      exact ⟨h₀, rfl, a4⟩
    · cases hE
      exact ⟨h₁, rfl, b4⟩
    · cases hE
      exact ⟨h₁, rfl, b5⟩
  · intro k h hk i p hp
    right
    match k, hk with
    | 0, hk =>
      cases hk
      replace hp : h₀.progs[i]? = some p := hp
      rw [a1] at hp
      match i, hp with
      | 0, _ => rfl
      | i + 1, hp => simp [onProgs] at hp
    | 1, hk =>
      cases hk
      replace hp : h₁.progs[i]? = some p := hp
      rw [b1] at hp
      match i, hp with
      | 0, _ => rfl
      | 1, _ => rfl
      | i + 2, hp => simp [offProgs] at hp
    | k + 2, hk => simp at hk
  · have hsame : ∀ x ∈ [(0, onPair), (1, askPair), (1, offPair)] ++ (if again then [(0, onPair)] else []),
        ∀ y ∈ [(0, onPair), (1, askPair), (1, offPair)] ++ (if again then [(0, onPair)] else []),
        x.1 = y.1 → x.2.1 = y.2.1 → x = y := by
      cases again <;> decide +kernel
    intro x hx y hy h1 h2 q d _ _ _ hok
    exact hsame x hx y hy h1 h2 ▸ hok
  · cases again
    · exact ⟨_, on_step _, _, ask_step, _, off_step _, rfl⟩
    · exact ⟨_, on_step _, _, ask_step, _, off_step _, _, on_step _, rfl⟩
  · rw [b8]
    cases again <;> rfl

/-- What `C146_linearizable` and `C146_linear` ask for holds if the first answer is not lost. -/
example : ∃ (h₀ h₁ : Host Report) (log : List (Nat × Bytes × List Bytes)),
    Together [⟨_, h₀⟩, ⟨_, h₁⟩] log ∧
    (∀ h ∈ [(⟨_, h₀⟩ : Sigma Host), ⟨_, h₁⟩], ∀ p ∈ h.2.progs, Requests p) ∧
    (∀ k i E, twoActs (k, i) = some E → ∃ h : Host Report, [(⟨_, h₀⟩ : Sigma Host), ⟨_, h₁⟩][k]? = some ⟨_, h⟩ ∧
      ActedAs h.progs h.state 0 i E) ∧
    (∀ (k : Nat) (h : Sigma Host), [(⟨_, h₀⟩ : Sigma Host), ⟨_, h₁⟩][k]? = some h → ∀ (i : Nat) p, h.2.progs[i]? = some p →
      Spares p 0 ∨ (twoActs (k, i)).isSome) ∧
    (∀ h ∈ [(⟨_, h₀⟩ : Sigma Host), ⟨_, h₁⟩], ChangesOnce h.2.state.spLog) ∧ AllInOrderAt 0 log ∧ AllAlikeAt 0 log ∧
    LogEvolvesAt 0 (mixState false .off) (log.map Prod.snd) (mixState false .off) := by
  obtain ⟨h₀, h₁, log, rfl, h1, h2, h3, h4, h5, h6, h7, h8, -⟩ := two_hosts false
  have honce : ∀ h ∈ [(⟨_, h₀⟩ : Sigma Host), ⟨_, h₁⟩], ChangesOnce h.2.state.spLog := by
    intro h hh pkt q d _ _
    obtain ⟨k, hk⟩ := List.getElem?_of_mem hh
    rw [← h1.own k h hk]
    match k, hk with
    | 0, _ => exact List.nodup_iff_count.1 (by decide +kernel) pkt
    | 1, _ => exact List.nodup_iff_count.1 (by decide +kernel) pkt
    | k + 2, hk => simp at hk
  exact ⟨h₀, h₁, _, h1, h4, h5, h6, honce, (C147_once_partial _ _ h1 0 honce).1, h7, h8⟩

theorem oneByOne_append {ι : Type} {R : ι → PortState → PortState → Prop} :
    ∀ {l l' : List ι} {s s' : PortState}, OneByOne R s (l ++ l') s' → ∃ c, OneByOne R s l c ∧ OneByOne R c l' s'
  | [], _, s, _, h => ⟨s, rfl, h⟩
  | _ :: _, _, _, _, ⟨c, h1, h2⟩ => by
    obtain ⟨c', h3, h4⟩ := oneByOne_append h2
    exact ⟨c', ⟨c, h1, h3⟩, h4⟩

/-- **C147** does not hold: the networks of both hosts keep the order and make no copies, and copies are acknowledged alike;
but the first host sends its request again, for the answer was lost. The second host saw the LED on, and turned it off
afterwards. In the end it is on. -/
theorem C147_false : ¬ ∀ (hosts : List (Sigma Host)) (log : List (Nat × Bytes × List Bytes)), Together hosts log →
    ∀ port, (∀ h ∈ hosts, ∀ p ∈ h.2.progs, Requests p) → ∀ act : Nat × Nat → Option (PortState → PortState → Prop),
    (∀ k i E, act (k, i) = some E → ∃ h : Host Report, hosts[k]? = some ⟨_, h⟩ ∧ ActedAs h.progs h.state port i E) →
    (∀ k h, hosts[k]? = some h → ∀ i p, h.2.progs[i]? = some p → Spares p port ∨ (act (k, i)).isSome) →
    (∀ h ∈ hosts, Fifo h.2.state) → AllAlikeAt port log →
    ∀ b b', LogEvolvesAt port b (log.map Prod.snd) b' →
    ∃ seq : List (Nat × Nat), seq.Nodup ∧ (∀ i, i ∈ seq ↔ (act i).isSome) ∧
      OneByOne (fun i a a' => ∃ E, act i = some E ∧ E a a') b seq b' ∧
      ∀ (n k k' i i' : Nat) (h h' : Sigma Host) (s : Sys h.1) (s' : Sys h'.1), hosts[k]? = some h → hosts[k']? = some h' →
        WasIn log n k h.2 s → WasIn log n k' h'.2 s' → (k, i) ∈ seq → (k', i') ∈ seq → Over s i → Unbegun s' i' →
        ∃ q₁ q₂, seq = q₁ ++ q₂ ∧ (k, i) ∈ q₁ ∧ (k', i') ∈ q₂ := by
  intro hall
  obtain ⟨h₀, h₁, log, hlog, h1, h2, h3, h4, h5, h6, h7, h8, s, h9, h10, h11⟩ := two_hosts true
  obtain ⟨seq, k1, k2, k3, k4⟩ := hall _ log h1 0 h4 twoActs h5 h6 (fun h hh => by
    simp only [List.mem_cons, List.not_mem_nil, or_false] at hh
    rcases hh with rfl | rfl
    · exact h2
    · exact h3) h7 _ _ h8
  obtain ⟨q₁, q₂, rfl, k5, k6⟩ := k4 2 1 1 0 1 ⟨_, h₁⟩ ⟨_, h₁⟩ s s rfl rfl h9 h9 ((k2 _).2 rfl) ((k2 _).2 rfl) h10 h11
  rw [if_pos rfl] at k3
  have hsee : ∀ {l : List (Nat × Nat)} {a a' : PortState}, (∀ i ∈ l, (twoActs i).isSome) →
      OneByOne (fun i a a' => ∃ E, twoActs i = some E ∧ E a a') a l a' → a.led ≠ .on → (0, 0) ∉ l → (1, 0) ∉ l := by
    intro l
    induction l with
    | nil => intro a a' _ _ _ _; simp
    | cons i l ih =>
      intro a a' hi h ha hno
      obtain ⟨c, ⟨E, hE, hac⟩, h⟩ := h
      have ih' := ih (a := c) (fun j hj => hi j (List.mem_cons_of_mem _ hj)) h
      rcases twoActs_some (hi i List.mem_cons_self) with rfl | rfl | rfl
      · simp at hno
      · cases hE
        exact absurd hac.2 ha
      · cases hE
        have hc : c.led ≠ .on := by rw [hac]; simp
        simpa using ih' hc (by simpa using hno)
  have hoff : ∀ {l : List (Nat × Nat)} {a a' : PortState}, (∀ i ∈ l, (twoActs i).isSome) →
      OneByOne (fun i a a' => ∃ E, twoActs i = some E ∧ E a a') a l a' → (0, 0) ∉ l → a.led = .off ∨ (1, 1) ∈ l →
      a'.led = .off := by
    intro l
    induction l with
    | nil =>
      intro a a' _ h _ ha
      cases h
      exact ha.resolve_right (by simp)
    | cons i l ih =>
      intro a a' hi h hno ha
      obtain ⟨c, ⟨E, hE, hac⟩, h⟩ := h
      refine ih (fun j hj => hi j (List.mem_cons_of_mem _ hj)) h (fun hx => hno (List.mem_cons_of_mem _ hx)) ?_
      rcases twoActs_some (hi i List.mem_cons_self) with rfl | rfl | rfl
      · simp at hno
      · cases hE
        rw [hac.1]
        simpa using ha
      · cases hE
        exact .inl (by rw [hac])
  obtain ⟨c, h12, h13⟩ := oneByOne_append k3
  have hmem : ∀ i ∈ q₁ ++ q₂, (twoActs i).isSome := fun i hi => (k2 i).1 hi
  have hin : (0, 0) ∈ q₁ := Classical.byContradiction fun hno =>
    hsee (fun i hi => hmem i (List.mem_append_left _ hi)) h12 (by simp [mixState]) hno k5
  have hout : (0, 0) ∉ q₂ := fun hx => (List.nodup_append.1 k1).2.2 _ hin _ hx rfl
  have := hoff (fun i hi => hmem i (List.mem_append_right _ hi)) h13 hout (.inr k6)
  simp [mixState] at this

end Xcvr
