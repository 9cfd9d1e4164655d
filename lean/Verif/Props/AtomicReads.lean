import Verif.Props.Atomic

/-!
# Properties: what tasks see while others change a module

- C145: commands, writes, and the queries for status, LED and memory that tasks of one controller make at the same time are
  linearizable: there is one order of all of them, which agrees with time, and in which each query tells what the operations
  before it left.
-/

namespace Xcvr

open Spec Sys

namespace Spec

/-- What an operation returns. -/
inductive Report where
  | done (r : Res Unit)
  | status (r : Res Controller.Status)
  | extended (r : Res U32)
  | leds (r : Res LedState)
  | bytes (r : Res Bytes)
  deriving DecidableEq

/-- An operation that returned the given answer, with success for the port, and what it did or saw there. -/
inductive Atom (port : Nat) : Prog Report → Report → (PortState → PortState → Prop) → Prop
  | change {p : Prog (Res Unit)} {c : Change} (hp : Operation p c) (hc : c ≠ .reset) (r : Res Unit)
      (h : Mem r.modules port) : Atom port (do return .done (← p)) (.done r) c.Does
  | status (m : ModuleId) (r : Res Controller.Status) (v : U8) (h : okAt r port = some v) :
    Atom port (do return .status (← Controller.status m)) (.status r) fun s s' => s' = s ∧
      bit v 1 = s.enabled ∧ bit v 5 = s.enabled ∧ bit v 2 = s.reset ∧ bit v 3 = s.lowPin
  | extended (m : ModuleId) (r : Res U32) (v : U32) (h : okAt r port = some v) :
    Atom port (do return .extended (← Controller.extendedStatus m)) (.extended r) fun s s' => s' = s ∧
      v.getLsbD 1 = s.enabled ∧ v.getLsbD 5 = s.enabled ∧ v.getLsbD 2 = s.reset ∧ v.getLsbD 3 = s.lowPin
  | leds (m : ModuleId) (r : Res LedState) (l : LedState) (h : okAt r port = some l) :
    Atom port (do return .leds (← Controller.leds m)) (.leds r) fun s s' => s' = s ∧ s.led = l
  | read (m : ModuleId) (rd : MemoryRead) (hlen : rd.len ≠ 0) (r : Res Bytes) (v : Bytes) (h : okAt r port = some v) :
    Atom port (do return .bytes (← Controller.read m rd)) (.bytes r) fun s s' => s' = s ∧ v = answer s.memory rd

/-- Task `i` did or saw this. -/
def ActedAs (progs : List (Prog Report)) (s : Sys Report) (port i : Nat) (E : PortState → PortState → Prop) : Prop :=
  ∃ p tk r, progs[i]? = some p ∧ s.tasks[i]? = some tk ∧ tk.prog = .ret r ∧ Atom port p r E

end Spec

/-! ## Each operation has one call that counts -/

theorem runs_return {α β : Type} {p : Prog α} {f : α → β} (hf : ∀ a b, f a = f b → a = b) {t : List Exchange} {a : α}
    (h : Prog.Runs (do return f (← p)) t (.ok (f a))) : Prog.Runs p t (.ok a) := by
  rcases Prog.runs_bind.1 h with ⟨t₁, t₂, a', rfl, h₁, h₂⟩ | ⟨e, h₁, h₂⟩ | ⟨h₁, h₂⟩
  · obtain ⟨rfl, h3⟩ := Prog.runs_ret.1 h₂
    cases hf _ _ (Exec.ok.inj h3)
    rwa [List.append_nil]
  · cases h₂
  · cases h₂

/-- A call that looks at the port and got its answer. -/
theorem remains_look {port : Nat} {t : List Exchange} {x : Exchange} (hx : x ∈ t)
    (hq : ∀ x ∈ t, ∃ q, requestOf x = some q ∧ IsQuery q) {E : PortState → PortState → Prop}
    (h : ∀ s, StepsAt x port s s → E s s) : Remains port t (.once E) := by
  obtain ⟨t₁, t₂, rfl⟩ := List.append_of_mem hx
  have hr : ∀ y ∈ t₁ ++ x :: t₂, Rests port y := fun y hy => by
    obtain ⟨q, h1, h2⟩ := hq y hy
    exact ⟨q, h1, .inl h2⟩
  refine ⟨t₁, x, t₂, rfl, fun y hy => hr y (by simp [hy]), fun y hy => hr y (by simp [hy]), fun s s' hs => ?_⟩
  obtain ⟨q, h1, h2⟩ := hq x hx
  obtain rfl := hs.quiet q h1 (.inl h2)
  exact h _ hs

theorem okAt_mem {P : Type} {r : Res P} {f : Bytes → P} {m : ModuleId} {t : List Exchange} (h : Reports f m t r) {port : Nat}
    {v : P} (hv : okAt r port = some v) : ∃ x ∈ t, ∃ b, okIn x port = some b ∧ f b = v := by
  have := h.ok port
  rw [hv] at this
  obtain ⟨b, hb, h8⟩ := Option.map_eq_some_iff.1 this.symm
  unfold okAmong at hb
  obtain ⟨x, hx, hb⟩ := List.exists_of_findSome?_eq_some hb
  exact ⟨x, hx, b, hb, h8⟩

theorem atom_remains {port : Nat} {p : Prog Report} {r : Report} {E : PortState → PortState → Prop} (h : Atom port p r E)
    {t : List Exchange} (hr : Prog.Runs p t (.ok r)) (hc : Conforming t) : Remains port t (.once E) := by
  cases h with
  | @change p c hp hc' r hm =>
    have := operation_remains hp (runs_return (fun a b h => by cases h; rfl) hr) hc hm
    have hd : dueOf c = .once c.Does := by
      cases c with
      | reset => exact absurd rfl hc'
      | _ => rfl
    rwa [hd] at this
  | status m r v h =>
    obtain ⟨r', res', rfl, h1, h2⟩ := status_spec (runs_return (fun a b h => by cases h; rfl) hr) hc
    cases h1
    obtain ⟨x, hx, b, hb, hv⟩ := okAt_mem h2 h
    refine remains_look hx (fun y hy => ?_) fun s hs => ⟨rfl, ?_⟩
    · cases List.mem_singleton.1 hy
      exact ⟨_, rfl, trivial⟩
    · cases List.mem_singleton.1 hx
      have hs1 := hs.shows _ _ rfl hb
      obtain ⟨w, rfl⟩ := status_record rfl (hc _ (List.mem_singleton.2 rfl)) hb
      cases hv
      exact hs1 w rfl
  | extended m r v h =>
    obtain ⟨r', res', rfl, h1, h2⟩ := extendedStatus_spec (runs_return (fun a b h => by cases h; rfl) hr) hc
    cases h1
    obtain ⟨x, hx, b, hb, rfl⟩ := okAt_mem h2 h
    refine remains_look hx (fun y hy => ?_) fun s hs => ⟨rfl, ?_⟩
    · cases List.mem_singleton.1 hy
      exact ⟨_, rfl, trivial⟩
    · cases List.mem_singleton.1 hx
      exact hs.shows _ _ rfl hb
  | leds m r l h =>
    obtain ⟨r', res', rfl, h1, h2⟩ := leds_spec (runs_return (fun a b h => by cases h; rfl) hr) hc
    cases h1
    obtain ⟨x, hx, b, hb, hv⟩ := okAt_mem h2 h
    refine remains_look hx (fun y hy => ?_) fun s hs => ⟨rfl, ?_⟩
    · cases List.mem_singleton.1 hy
      exact ⟨_, rfl, trivial⟩
    · cases List.mem_singleton.1 hx
      have h3 : ledOfCode b = some s.led := hs.shows _ _ rfl hb
      rw [h3] at hv
      exact hv
  | read m rd hlen r v h =>
    rcases C34_read m rd hlen t _ (runs_return (fun a b h => by cases h; rfl) hr) hc with
      ⟨_, _, h1, _⟩ | ⟨t₁, t₂, g, res', rfl, h1, -, h3, h4, h5⟩
    · cases h1
    cases h4
    have := h5.ok port
    rw [h] at this
    obtain ⟨b, hb, h8⟩ := Option.map_eq_some_iff.1 this.symm
    unfold okAmong at hb
    obtain ⟨x, hx, hb⟩ := List.exists_of_findSome?_eq_some hb
    refine remains_look (List.mem_append_right _ hx) (fun y hy => ?_) fun s hs => ⟨rfl, ?_⟩
    · rcases List.mem_append.1 hy with hy | hy
      · exact readsOf_queries h1 y hy
      · exact readsOf_queries h3 y hy
    · obtain ⟨g', hg⟩ := requestOf_readsOf h3 hx
      have h9 : b = answer s.memory rd := hs.shows _ _ hg hb
      rw [← h8, h9]
      rfl

theorem atom_host {port : Nat} {p : Prog Report} {r : Report} {E : PortState → PortState → Prop} (h : Atom port p r E) :
    Prog.AllCalls Bench.IsHost p := by
  cases h with
  | change hp => exact Prog.allCalls_bind (operation_host hp) fun _ => trivial
  | status m => exact Prog.allCalls_bind (allCalls_status ⟨_, _, rfl⟩) fun _ => trivial
  | extended m => exact Prog.allCalls_bind (allCalls_extendedStatus ⟨_, _, rfl⟩) fun _ => trivial
  | leds m => exact Prog.allCalls_bind (allCalls_leds ⟨_, _, rfl⟩) fun _ => trivial
  | read m rd => exact Prog.allCalls_bind (allCalls_read m rd fun _ _ => ⟨_, _, rfl⟩) fun _ => trivial

/-! ## C145 -/

/-- **C145**: if every task of a controller spares the module, or returned success for it from a command, a memory write or a
query, then there is one order of these operations in which each command and write acts on the module as the one before left
it, each query tells the state in which it finds the module, and an operation that was over before another had sent anything
comes before it. As in C140, no copy of a datagram that is to change the module is received after a later datagram, and copies
are acknowledged alike. -/
theorem C145_linearizable (lim : Option Nat) (progs : List (Prog Report)) (evs : List SysEvent) (s : Sys Report)
    (h : (Sys.init lim progs).run evs = some s) (hsp : SpDoes Proper evs) (hn : numbered evs ≤ 2 ^ 64) (port : Nat)
    (hreq : ∀ p ∈ progs, Requests p)
    (act : Nat → Option (PortState → PortState → Prop)) (hact : ∀ i E, act i = some E → ActedAs progs s port i E)
    (htasks : ∀ i p, progs[i]? = some p → Spares p port ∨ (act i).isSome)
    (hord : InOrderAt port s.spLog) (hal : AlikeAt port s.spLog) (b b' : PortState)
    (he : LogEvolvesAt port b s.spLog b') :
    ∃ seq : List Nat, seq.Nodup ∧ (∀ i, i ∈ seq ↔ (act i).isSome) ∧
      OneByOne (fun i a a' => ∃ E, act i = some E ∧ E a a') b seq b' ∧
      ∀ e₁ e₂ s₁, evs = e₁ ++ e₂ → (Sys.init lim progs).run e₁ = some s₁ → ∀ i j, i ∈ seq → j ∈ seq → Over s₁ i →
        Unbegun s₁ j → ∃ q₁ q₂, seq = q₁ ++ q₂ ∧ i ∈ q₁ ∧ j ∈ q₂ := by
  obtain ⟨seq, k1, k2, k3, k4⟩ := atomic_tasks h hsp hn hreq (D := fun i d => ∃ E, act i = some E ∧ d = .once E)
    (fun i d ⟨E, hi, hd⟩ => by
      obtain ⟨p, tk, r, h1, h2, h3, h4⟩ := hact i E hi
      exact ⟨p, tk, r, h1, atom_host h4, h2, h3, by rw [hd]; simp, by rw [hd]; simp,
        fun t hr hc => by rw [hd]; exact atom_remains h4 hr hc⟩)
    (.inl fun i d ⟨E, _, hd⟩ => by rw [hd]; simp)
    (fun i p hp => (htasks i p hp).imp_right fun hs => by
      obtain ⟨E, hE⟩ := Option.isSome_iff_exists.1 hs
      exact ⟨_, E, hE, rfl⟩) hord hal he
  refine ⟨seq, k1, fun i => (k2 i).trans ⟨fun ⟨d, E, hE, _⟩ => by rw [hE]; rfl, fun hs => ?_⟩,
    oneByOne_mono k3 fun i _ a a' ⟨d, ⟨E, hE, hd⟩, hr⟩ => ⟨E, hE, ?_⟩, k4⟩
  · obtain ⟨E, hE⟩ := Option.isSome_iff_exists.1 hs
    exact ⟨_, E, hE, rfl⟩
  · rw [hd] at hr
    exact hr

/-- What was set, and is kept by all later steps, is seen. -/
theorem oneByOne_kept {V ι : Type} (f : PortState → V) {R : ι → PortState → PortState → Prop} {j : ι} {v : V} :
    ∀ {l : List ι} {s s' : PortState}, OneByOne R s l s' → j ∈ l → f s = v →
      (∀ k ∈ l, ∀ a a', R k a a' → f a' = f a) → ∃ a a', R j a a' ∧ f a = v
  | k :: l, s, s', ⟨c, h1, h2⟩, hj, hf, hk => by
    by_cases hjk : j = k
    · subst hjk
      exact ⟨s, c, h1, hf⟩
    · exact oneByOne_kept f h2 ((List.mem_cons.1 hj).resolve_left hjk) ((hk k (by simp) _ _ h1).trans hf) fun k hk' =>
        hk k (by simp [hk'])

theorem oneByOne_fresh {V ι : Type} (f : PortState → V) {R : ι → PortState → PortState → Prop} {i j : ι} {v : V}
    {q₁ q₂ : List ι} {s s' : PortState} (h : OneByOne R s (q₁ ++ q₂) s') (hn : (q₁ ++ q₂).Nodup) (hi : i ∈ q₁)
    (hj : j ∈ q₂) (hv : ∀ a a', R i a a' → f a' = v) (hk : ∀ k ∈ q₁ ++ q₂, k ≠ i → ∀ a a', R k a a' → f a' = f a) :
    ∃ a a', R j a a' ∧ f a = v := by
  induction q₁ generalizing s with
  | nil => cases hi
  | cons k q₁ ih =>
    obtain ⟨c, h1, h2⟩ := h
    rw [List.cons_append, List.nodup_cons] at hn
    by_cases hik : i = k
    · subst hik
      exact oneByOne_kept f h2 (List.mem_append_right _ hj) (hv _ _ h1) fun k' hk' =>
        hk k' (List.mem_cons_of_mem _ hk') fun e => hn.1 (e ▸ hk')
    · exact ih h2 hn.2 ((List.mem_cons.1 hi).resolve_left hik) fun k' hk' => hk k' (List.mem_cons_of_mem _ hk')

/-- **C145**: so a query that begins when an operation is over tells what it set. Here `f` is a part of the module's state,
which task `i` sets to `v` and the other tasks do not set. -/
theorem C145_fresh (lim : Option Nat) (progs : List (Prog Report)) (evs : List SysEvent) (s : Sys Report)
    (h : (Sys.init lim progs).run evs = some s) (hsp : SpDoes Proper evs) (hn : numbered evs ≤ 2 ^ 64) (port : Nat)
    (hreq : ∀ p ∈ progs, Requests p)
    (act : Nat → Option (PortState → PortState → Prop)) (hact : ∀ i E, act i = some E → ActedAs progs s port i E)
    (htasks : ∀ i p, progs[i]? = some p → Spares p port ∨ (act i).isSome)
    (hord : InOrderAt port s.spLog) (hal : AlikeAt port s.spLog) (b b' : PortState)
    (he : LogEvolvesAt port b s.spLog b') {V : Type} (f : PortState → V) (v : V) (i j : Nat)
    (E E' : PortState → PortState → Prop) (hi : act i = some E) (hj : act j = some E') (hv : ∀ a a', E a a' → f a' = v)
    (hk : ∀ k E, k ≠ i → act k = some E → ∀ a a', E a a' → f a' = f a) (e₁ e₂ : List SysEvent) (s₁ : Sys Report)
    (hcut : evs = e₁ ++ e₂) (hrun : (Sys.init lim progs).run e₁ = some s₁) (hover : Over s₁ i) (hun : Unbegun s₁ j) :
    ∃ a a', E' a a' ∧ f a = v := by
  obtain ⟨seq, k1, k2, k3, k4⟩ := C145_linearizable lim progs evs s h hsp hn port hreq act hact htasks hord hal b b' he
  obtain ⟨q₁, q₂, rfl, h1, h2⟩ := k4 e₁ e₂ s₁ hcut hrun i j ((k2 i).2 (by rw [hi]; rfl)) ((k2 j).2 (by rw [hj]; rfl)) hover hun
  obtain ⟨a, a', ⟨E₁, h3, h4⟩, h5⟩ := oneByOne_fresh f k3 k1 h1 h2
    (fun a a' ⟨E₁, h3, h4⟩ => by
      rw [hi] at h3
      cases h3
      exact hv a a' h4)
    (fun k _ hki a a' ⟨E₁, h3, h4⟩ => hk k E₁ hki h3 a a' h4)
  rw [hj] at h3
  cases h3
  exact ⟨a, a', h4, h5⟩

/-! ### Example -/

/-- One task sets the LED, another asks for it afterwards, while a third turns the power on. -/
def seeProgs : List (Prog Report) :=
  [do return .done (← Controller.setLeds ⟨0b1⟩ .on), do return .leds (← Controller.leds ⟨0b1⟩),
    do return .done (← Controller.enablePower ⟨0b1⟩)]

/-- The three calls one after the other: the first task's, the third's, the second's. -/
def seeDemo : List SysEvent :=
  exchDemo 0 0 (.setLedState ⟨0b1⟩ .on) none (.ack ⟨0b1⟩ ⟨0⟩) [] ++
  (exchDemo 2 1 (.enablePower ⟨0b1⟩) none (.ack ⟨0b1⟩ ⟨0⟩) [] ++
  exchDemo 1 2 (.ledState ⟨0b1⟩) none (.ledState ⟨0b1⟩ ⟨0⟩) [1])

/-- What the SP does in it. -/
def seeLog : List (Bytes × List Bytes) :=
  [pairDemo 0 (.setLedState ⟨0b1⟩ .on) none (.ack ⟨0b1⟩ ⟨0⟩) [], pairDemo 1 (.enablePower ⟨0b1⟩) none (.ack ⟨0b1⟩ ⟨0⟩) [],
    pairDemo 2 (.ledState ⟨0b1⟩) none (.ledState ⟨0b1⟩ ⟨0⟩) [1]]

theorem seeDemo_proper : SpDoes Proper seeDemo := by
  intro r out h
  simp only [seeDemo, exchDemo, List.cons_append, List.nil_append, List.mem_cons, SysEvent.sp.injEq, reduceCtorEq, false_or,
    List.not_mem_nil, or_false] at h
  rcases h with ⟨rfl, rfl⟩ | ⟨rfl, rfl⟩ | ⟨rfl, rfl⟩
  · exact pairDemo_proper (g := ⟨0b1⟩) (by decide +kernel) (by decide) rfl rfl trivial trivial
  · exact pairDemo_proper (g := ⟨0b1⟩) (by decide +kernel) (by decide) rfl rfl trivial trivial
  · exact pairDemo_proper (g := ⟨0b1⟩) (by decide +kernel) (by decide) rfl rfl trivial fun p v h => by
      have hlt := record_lt h
      have : ∀ p : Fin 64, ∀ v, record (.ledState ⟨0b1⟩ ⟨0⟩) [1] p.val = some v → v = [1] := by
        intro p v h
        have h0 : p.val = 0 := (by decide : ∀ p : Fin 64, (record (.ledState ⟨0b1⟩ ⟨0⟩) [1] p.val).isSome → p.val = 0) p
          (by rw [h]; rfl)
        rw [h0] at h
        cases h
        rfl
      rw [this ⟨p, hlt⟩ v h]
      rfl

theorem seeLog_evolves : LogEvolvesAt 0 (mixState false .off) seeLog (mixState false .on) := by
  refine ⟨mixState false .on, ?_, mixState false .on, ?_, mixState false .on, ?_, rfl⟩
  · exact pairDemo_step (g := ⟨0b1⟩) (by decide +kernel) (by decide) rfl rfl (by decide)
      (fun v _ => ⟨trivial, rfl⟩) fun h => absurd h (by simp [IsQuery]; decide)
  · exact pairDemo_step (g := ⟨0b1⟩) (by decide +kernel) (by decide) rfl rfl (by decide)
      (fun v _ => ⟨trivial, rfl, rfl, rfl, rfl⟩) fun _ => rfl
  · exact pairDemo_step (g := ⟨0b1⟩) (by decide +kernel) (by decide) rfl rfl (by decide)
      (fun v h => ⟨by cases h; rfl, rfl⟩) fun _ => rfl

theorem seeDemo_state : ((Sys.init (some 3) seeProgs).run seeDemo).map (fun s => (s.tasks.map Task.outcome, s.spLog)) =
    some ([some (.done ⟨⟨0b1⟩, [()], ⟨⟨0⟩, []⟩⟩), some (.leds ⟨⟨0b1⟩, [.on], ⟨⟨0⟩, []⟩⟩),
      some (.done ⟨⟨0b1⟩, [()], ⟨⟨0⟩, []⟩⟩)], seeLog) := by
  decide +kernel

/-- What the tasks do or see. -/
def seeActs : List (PortState → PortState → Prop) :=
  [(Change.led .on).Does, fun s s' => s' = s ∧ s.led = .on, (Change.supply true).Does]

/-- It meets what `C145_linearizable` asks for. -/
example : ∃ s, (Sys.init (some 3) seeProgs).run seeDemo = some s ∧ SpDoes Proper seeDemo ∧ numbered seeDemo ≤ 2 ^ 64 ∧
    (∀ p ∈ seeProgs, Requests p) ∧ (∀ (i : Nat) E, seeActs[i]? = some E → ActedAs seeProgs s 0 i E) ∧
    (∀ (i : Nat) p, seeProgs[i]? = some p → Spares p 0 ∨ seeActs[i]?.isSome) ∧
    InOrderAt 0 s.spLog ∧ AlikeAt 0 s.spLog ∧ LogEvolvesAt 0 (mixState false .off) s.spLog (mixState false .on) := by
  obtain ⟨s, h1, h2, h3⟩ := demo_state seeDemo_state
  obtain ⟨tk0, h4, h5⟩ := outcome_task h2 (i := 0) rfl
  obtain ⟨tk1, h6, h7⟩ := outcome_task h2 (i := 1) rfl
  obtain ⟨tk2, h8, h9⟩ := outcome_task h2 (i := 2) rfl
  have honce : ChangesOnce s.spLog := by
    intro pkt _ _ _ _
    rw [h3]
    exact List.nodup_iff_count.1 (by decide +kernel) pkt
  have hled : Operation (Controller.setLeds ⟨0b1⟩ .on) (.led .on) :=
    .command ⟨0b1⟩ .on (Controller.setLeds ⟨0b1⟩ .on, .setLedState ⟨0b1⟩ .on) (by simp [commands])
  have hpow : Operation (Controller.enablePower ⟨0b1⟩) (.supply true) :=
    .command ⟨0b1⟩ .on (Controller.enablePower ⟨0b1⟩, .enablePower ⟨0b1⟩) (by simp [commands])
  have ha0 : ActedAs seeProgs s 0 0 (Change.led .on).Does :=
    ⟨_, tk0, _, rfl, h4, h5, .change hled (by simp) _ (by decide)⟩
  have ha1 : ActedAs seeProgs s 0 1 fun s s' => s' = s ∧ s.led = .on :=
    ⟨_, tk1, _, rfl, h6, h7, .leds _ _ _ (by decide)⟩
  have ha2 : ActedAs seeProgs s 0 2 (Change.supply true).Does :=
    ⟨_, tk2, _, rfl, h8, h9, .change hpow (by simp) _ (by decide)⟩
  refine ⟨s, h1, seeDemo_proper, by decide, fun p hp => ?_, fun i c hi => ?_, fun i p hp => .inr ?_,
    inOrder_at (C132_once_partial _ honce).1 0, alike_at (C132_once_partial _ honce).2 0, by rw [h3]; exact seeLog_evolves⟩
  · simp only [seeProgs, List.mem_cons, List.not_mem_nil, or_false] at hp
    rcases hp with rfl | rfl | rfl
    · obtain ⟨p, tk, r, hp, -, -, ha⟩ := ha0
      cases hp
      exact requests_calls (atom_host ha)
    · obtain ⟨p, tk, r, hp, -, -, ha⟩ := ha1
      cases hp
      exact requests_calls (atom_host ha)
    · obtain ⟨p, tk, r, hp, -, -, ha⟩ := ha2
      cases hp
      exact requests_calls (atom_host ha)
  · match i, hi with
    | 0, hi => cases hi; exact ha0
    | 1, hi => cases hi; exact ha1
    | 2, hi => cases hi; exact ha2
  · match i, hp with
    | 0, _ => rfl
    | 1, _ => rfl
    | 2, _ => rfl

/-- And what `C145_fresh` asks for: the LED was set by the first task, which was over when the second began. -/
example : ∃ e₁ e₂ s₁, seeDemo = e₁ ++ e₂ ∧ (Sys.init (some 3) seeProgs).run e₁ = some s₁ ∧ Over s₁ 0 ∧ Unbegun s₁ 1 ∧
    (∀ a a', (Change.led .on).Does a a' → a'.led = .on) ∧
    ∀ (k : Nat) E, k ≠ 0 → seeActs[k]? = some E → ∀ a a', E a a' → a'.led = a.led := by
  refine ⟨seeDemo.take 6, seeDemo.drop 6, ?_⟩
  have hrun : ((Sys.init (some 3) seeProgs).run (seeDemo.take 6)).map (fun s => s.tasks.map fun tk =>
      (tk.outcome, tk.past.length, match tk.phase with | .waiting _ _ => true | _ => false)) =
      some [(some (.done ⟨⟨0b1⟩, [()], ⟨⟨0⟩, []⟩⟩), 1, false), (none, 0, false), (none, 0, false)] := by decide +kernel
  obtain ⟨s₁, h1, h2⟩ := Option.map_eq_some_iff.1 hrun
  refine ⟨s₁, rfl, h1, ?_, ?_, fun a a' h => by cases h; rfl, fun k E hk hE a a' h => ?_⟩
  · obtain ⟨tk, h3, h4⟩ := outcome_task (o := [some (.done ⟨⟨0b1⟩, [()], ⟨⟨0⟩, []⟩⟩), none, none]) (i := 0) (s := s₁)
      (by have := congrArg (List.map Prod.fst) h2
          rw [List.map_map] at this
          exact this) rfl
    exact ⟨tk, _, h3, h4⟩
  · have h3 := congrArg (fun l => l[1]?) h2
    rw [List.getElem?_map] at h3
    obtain ⟨tk, h4, h5⟩ := Option.map_eq_some_iff.1 h3
    simp only [Prod.mk.injEq, List.length_eq_zero_iff] at h5
    refine ⟨tk, h4, h5.2.1, fun chan req hw => ?_⟩
    have := h5.2.2
    rw [hw] at this
    cases this
  · match k, hE with
    | 0, _ => exact absurd rfl hk
    | 1, hE => cases hE; rw [h.1]
    | 2, hE => cases hE; exact h.2.2.2

end Xcvr
