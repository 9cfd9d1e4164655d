import Verif.Lemmas.Atomic

/-!
# Properties: operations on a module are atomic

- C144: commands, memory writes and resets that tasks of one controller make at the same time leave a module as if each had
  been made alone, one after the other, in an order in which an operation that was over before another began comes first.
-/

namespace Xcvr

open Spec Sys

namespace Spec

/-- What a request without data does. -/
def changeBy : HostRequest → Change
  | .assertReset _ => .resetPin true
  | .deassertReset _ => .resetPin false
  | .enablePower _ => .supply true
  | .disablePower _ => .supply false
  | .assertLpMode _ => .lowPin true
  | .deassertLpMode _ => .lowPin false
  | .setLedState _ l => .led l
  | _ => .nothing

/-- The operations of the controller that change a module by one request, or reset it. -/
inductive Operation : Prog (Res Unit) → Change → Prop
  | command (m : ModuleId) (led : LedState) (c : Prog (Res Unit) × HostRequest) (h : c ∈ commands m led) :
    Operation c.1 (changeBy c.2)
  | write (m : ModuleId) (w : MemoryWrite) (d : Bytes) : Operation (Controller.write m w d) (.store w d)
  | reset (m : ModuleId) : Operation (Controller.reset m) .reset

/-- Task `i` made the change: it returned success for the module. -/
def DidChange (progs : List (Prog (Res Unit))) (s : Sys (Res Unit)) (port i : Nat) (c : Change) : Prop :=
  ∃ p tk res, progs[i]? = some p ∧ Operation p c ∧ s.tasks[i]? = some tk ∧ tk.prog = .ret res ∧ Mem res.modules port

end Spec

/-! ## What the tasks' calls do -/

/-- What is due of a change. -/
def dueOf : Change → Due
  | .reset => .cycle
  | c => .once c.Does

theorem dueOf_rel (c : Change) (s s' : PortState) : (dueOf c).Rel s s' ↔ c.Does s s' := by cases c <;> exact Iff.rfl

theorem operation_host {p : Prog (Res Unit)} {c : Change} (h : Operation p c) : Prog.AllCalls Bench.IsHost p := by
  cases h with
  | command m led c hc =>
    rw [(commands_eq m led c hc).1]
    exact allCalls_noPayloadRequest ⟨_, _, rfl⟩
  | write m w d => exact allCalls_write m w d
  | reset m => exact allCalls_reset m (fun _ => ⟨_, _, rfl⟩) fun _ => ⟨_, _, rfl⟩

theorem operation_remains {p : Prog (Res Unit)} {c : Change} (h : Operation p c) {t : List Exchange} {res : Res Unit}
    (hr : Prog.Runs p t (.ok res)) (hc : Conforming t) {port : Nat} (hp : Mem res.modules port) :
    Remains port t (dueOf c) := by
  cases h with
  | command m led c hm =>
    obtain ⟨h1, h2, h3⟩ := commands_eq m led c hm
    rw [h1] at hr
    obtain ⟨r, res', rfl, h4, h5⟩ := noPayloadRequest_spec h2 h3 hr hc
    cases h4
    have hE : ∀ s s', StepsAt (Call.host c.2, r) port s s' → (changeBy c.2).Does s s' := fun s s' hs => by
      have := steps_ok rfl hs ((reports_ok h5).1 hp)
      obtain ⟨p, q⟩ := c
      cases q <;> first | exact this | exact h2.elim
    have hd : dueOf (changeBy c.2) = .once (changeBy c.2).Does := by
      obtain ⟨p, q⟩ := c
      cases q <;> rfl
    rw [hd]
    exact ⟨[], _, [], rfl, by simp, by simp, hE⟩
  | write m w d =>
    obtain ⟨t₁, t₂, rfl, h1, ⟨_, _, _, h2, _⟩ | ⟨_, _, _, h2⟩ | ⟨-, hl, g, r, res', h2, rfl, h3, h4⟩⟩ :=
      C36_write m w d t _ hr hc
    · cases h2
    · cases h2
    cases h3
    obtain ⟨u, hu⟩ := (mem_iff_datum h4.wf.1 port).1 hp
    have := h4.ok port
    unfold okAt at this
    rw [hu, okAmong_singleton] at this
    have hok : (okIn (Call.host (.write g w) (some d), r) port).isSome := by
      cases hx : okIn (Call.host (.write g w) (some d), r) port with
      | none => rw [hx] at this; cases this
      | some _ => rfl
    refine ⟨t₁, _, [], rfl, fun x hx => ?_, by simp, fun s s' hs => ?_⟩
    · obtain ⟨q, hq, hi⟩ := readsOf_queries h1 x hx
      exact ⟨q, hq, .inl hi⟩
    · exact (steps_ok rfl hs hok : Effect (.write g w) d s s')
  | reset m =>
    obtain ⟨x₁, x₂, g, rfl, h1, h2, h3, h4⟩ := reset_calls m t res hr hc port hp
    exact ⟨x₁, x₂, rfl, fun s s' hs => steps_ok h1 hs h2, fun s s' hs => steps_ok h3 hs h4⟩

/-! ## C144 -/

/-- **C144**: if every task of a controller spares the module or changed it by a command, a memory write or a reset, then the
module ends where these operations, made one after the other and each once, take it; and an operation that was over before
another had sent anything comes before it. As in C140, no copy of a datagram that is to change the module is received after a
later datagram, and copies are acknowledged alike. -/
theorem C144_atomic (lim : Option Nat) (progs : List (Prog (Res Unit))) (evs : List SysEvent) (s : Sys (Res Unit))
    (h : (Sys.init lim progs).run evs = some s) (hsp : SpDoes Proper evs) (hn : numbered evs ≤ 2 ^ 64) (port : Nat)
    (hreq : ∀ p ∈ progs, Requests p)
    (did : Nat → Option Change) (hdid : ∀ i c, did i = some c → DidChange progs s port i c)
    (htasks : ∀ i p, progs[i]? = some p → Spares p port ∨ (did i).isSome)
    (hord : InOrderAt port s.spLog) (hal : AlikeAt port s.spLog) (b b' : PortState)
    (he : LogEvolvesAt port b s.spLog b') :
    ∃ seq : List Nat, seq.Nodup ∧ (∀ i, i ∈ seq ↔ (did i).isSome) ∧
      OneByOne (fun i a a' => ∃ c, did i = some c ∧ c.Does a a') b seq b' ∧
      ∀ e₁ e₂ s₁, evs = e₁ ++ e₂ → (Sys.init lim progs).run e₁ = some s₁ → ∀ i j, i ∈ seq → j ∈ seq → Over s₁ i →
        Unbegun s₁ j → ∃ q₁ q₂, seq = q₁ ++ q₂ ∧ i ∈ q₁ ∧ j ∈ q₂ := by
  obtain ⟨seq, k1, k2, k3, k4⟩ := atomic_tasks h hsp hn hreq (D := fun i d => ∃ c, did i = some c ∧ d = dueOf c)
    (fun i d ⟨c, hi, hd⟩ => by
      obtain ⟨p, tk, res, h1, h2, h3, h4, h5⟩ := hdid i c hi
      exact ⟨p, tk, res, h1, operation_host h2, h3, h4, by rw [hd]; cases c <;> simp [dueOf],
        by rw [hd]; cases c <;> simp [dueOf], fun t hr hc => by rw [hd]; exact operation_remains h2 hr hc h5⟩)
    (.inr fun i E ⟨c, _, hE⟩ => by
      cases c <;> cases hE <;> exact does_agrees _)
    (fun i p hp => (htasks i p hp).imp_right fun hs => by
      obtain ⟨c, hc⟩ := Option.isSome_iff_exists.1 hs
      exact ⟨_, c, hc, rfl⟩) hord hal he
  refine ⟨seq, k1, fun i => (k2 i).trans ⟨fun ⟨d, c, hc, _⟩ => by rw [hc]; rfl, fun hs => ?_⟩,
    oneByOne_mono k3 fun i _ a a' ⟨d, ⟨c, hc, hd⟩, hr⟩ => ⟨c, hc, ?_⟩, k4⟩
  · obtain ⟨c, hc⟩ := Option.isSome_iff_exists.1 hs
    exact ⟨_, c, hc, rfl⟩
  · rw [hd] at hr
    exact (dueOf_rel c a a').1 hr

/-! ### What that means for a byte, the LED and the reset pin -/

/-- Of steps that each keep a value or set it, the last that sets it tells what it is. -/
theorem oneByOne_last {V ι : Type} (f : PortState → V) {R : ι → PortState → PortState → Prop} {S : ι → V → Prop} :
    ∀ {l : List ι} {s s' : PortState}, OneByOne R s l s' →
      (∀ i ∈ l, ∀ a a', R i a a' → (f a' = f a ∧ ∀ v, ¬ S i v) ∨ S i (f a')) →
      (f s' = f s ∧ ∀ i ∈ l, ∀ v, ¬ S i v) ∨ ∃ i ∈ l, S i (f s')
  | [], _, _, h, _ => .inl ⟨by rw [show _ = _ from h], by simp⟩
  | i :: l, s, s', ⟨c, h1, h2⟩, hs => by
    rcases oneByOne_last f h2 fun j hj => hs j (by simp [hj]) with ⟨h3, h4⟩ | ⟨j, hj, h3⟩
    · rcases hs i (by simp) _ _ h1 with ⟨h5, h6⟩ | h5
      · refine .inl ⟨h3.trans h5, fun j hj v => ?_⟩
        rcases List.mem_cons.1 hj with rfl | hj
        · exact h6 v
        · exact h4 j hj v
      · exact .inr ⟨i, by simp, by rw [h3]; exact h5⟩
    · exact .inr ⟨j, by simp [hj], h3⟩

namespace Spec

/-- A write gives the byte at an address of a page the value `v`. The lower page is the same in both standards. -/
def WritesByte (w : MemoryWrite) (d : Bytes) (page : Page) (a : Nat) (v : U8) : Prop :=
  (isLower w.page = true ∧ isLower page = true ∨ isLower page = false ∧ w.page = page) ∧ w.offset.toNat ≤ a ∧
    d[a - w.offset.toNat]? = some v

/-- The change leaves memory as it is, or is a write. -/
def Change.LeavesMemory : Change → Prop
  | .resetPin _ => False
  | .supply _ => False
  | .reset => False
  | _ => True

/-- The change gives the byte the value. -/
def Change.SetsByte (page : Page) (a : Nat) (v : U8) : Change → Prop
  | .store w d => WritesByte w d page a v
  | _ => False

/-- The change is to set the LED. -/
def Change.SetsLed (l : LedState) : Change → Prop
  | .led l' => l' = l
  | _ => False

/-- The change sets the reset pin. -/
def Change.SetsReset (v : Bool) : Change → Prop
  | .resetPin v' => v' = v
  | .reset => false = v
  | _ => False

/-- The change sets the module's supply. -/
def Change.SetsSupply (v : Bool) : Change → Prop
  | .supply v' => v' = v
  | _ => False

/-- The change sets the low power pin. -/
def Change.SetsLowPin (v : Bool) : Change → Prop
  | .lowPin v' => v' = v
  | _ => False

end Spec

theorem store_byte (s : PortState) (w : MemoryWrite) (d : Bytes) (page : Page) (a : Nat) :
    ((s.store w d).memory page a = s.memory page a ∧ ∀ v, ¬ WritesByte w d page a v) ∨
      WritesByte w d page a ((s.store w d).memory page a) := by
  by_cases hin : (isLower w.page = true ∧ isLower page = true ∨ isLower page = false ∧ w.page = page) ∧ w.offset.toNat ≤ a ∧
      a - w.offset.toNat < d.length
  · obtain ⟨h1, h2, h3⟩ := hin
    refine .inr ⟨h1, h2, ?_⟩
    have hget : d[a - w.offset.toNat]? = some d[a - w.offset.toNat] := List.getElem?_eq_getElem h3
    rcases h1 with ⟨h4, h5⟩ | ⟨h4, rfl⟩
    · simp [PortState.memory, PortState.store, h4, h5, overwrite, h2, hget]
    · simp [PortState.memory, PortState.store, h4, overwrite, h2, hget]
  · refine .inl ⟨?_, fun v hv => hin ⟨hv.1, hv.2.1, (List.getElem?_eq_some_iff.1 hv.2.2).1⟩⟩
    by_cases hp : isLower w.page = true ∧ isLower page = true ∨ isLower page = false ∧ w.page = page
    · have hov : ∀ old : Nat → U8, overwrite old w.offset.toNat d a = old a := by
        intro old
        unfold overwrite
        split
        · rename_i hle
          have : d.length ≤ a - w.offset.toNat := Nat.le_of_not_lt fun hlt => hin ⟨hp, hle, hlt⟩
          simp [List.getD, List.getElem?_eq_none this]
        · rfl
      rcases hp with ⟨h4, h5⟩ | ⟨h4, rfl⟩
      · simp [PortState.memory, PortState.store, h4, h5, hov]
      · simp [PortState.memory, PortState.store, h4, hov]
    · unfold PortState.memory PortState.store
      by_cases h1 : isLower w.page = true <;> by_cases h2 : isLower page = true <;> simp_all
      rw [if_neg fun h => hp h.symm]

theorem does_byte {c : Change} (hc : c.LeavesMemory) {a a' : PortState} (h : c.Does a a') (page : Page) (x : Nat) :
    (a'.memory page x = a.memory page x ∧ ∀ v, ¬ c.SetsByte page x v) ∨ c.SetsByte page x (a'.memory page x) := by
  cases c with
  | reset => exact hc.elim
  | resetPin v => exact hc.elim
  | supply v => exact hc.elim
  | store w d =>
    have h : a' = a.store w d := h
    subst h
    exact store_byte a w d page x
  | lowPin v => cases h; exact .inl ⟨rfl, fun _ h => h⟩
  | led l => cases h; exact .inl ⟨rfl, fun _ h => h⟩
  | nothing => cases h; exact .inl ⟨rfl, fun _ h => h⟩

theorem store_pins (s : PortState) (w : MemoryWrite) (d : Bytes) : SamePins s (s.store w d) := by
  unfold PortState.store SamePins
  split <;> exact ⟨rfl, rfl, rfl, rfl⟩

/-- What a change does to what is not memory. -/
theorem does_pins {c : Change} {a a' : PortState} (h : c.Does a a') :
    ((a'.led = a.led ∧ ∀ v, ¬ c.SetsLed v) ∨ c.SetsLed a'.led) ∧
    ((a'.reset = a.reset ∧ ∀ v, ¬ c.SetsReset v) ∨ c.SetsReset a'.reset) ∧
    ((a'.enabled = a.enabled ∧ ∀ v, ¬ c.SetsSupply v) ∨ c.SetsSupply a'.enabled) ∧
    ((a'.lowPin = a.lowPin ∧ ∀ v, ¬ c.SetsLowPin v) ∨ c.SetsLowPin a'.lowPin) := by
  cases c with
  | reset =>
    obtain ⟨h1, h2, h3, h4⟩ := h
    exact ⟨.inl ⟨h4, fun _ h => h⟩, .inr h2.symm, .inl ⟨h1, fun _ h => h⟩, .inl ⟨h3, fun _ h => h⟩⟩
  | resetPin v =>
    obtain ⟨h1, h2, h3, h4⟩ := h
    exact ⟨.inl ⟨h4, fun _ h => h⟩, .inr h2.symm, .inl ⟨h1, fun _ h => h⟩, .inl ⟨h3, fun _ h => h⟩⟩
  | supply v =>
    obtain ⟨h1, h2, h3, h4⟩ := h
    exact ⟨.inl ⟨h4, fun _ h => h⟩, .inl ⟨h2, fun _ h => h⟩, .inr h1.symm, .inl ⟨h3, fun _ h => h⟩⟩
  | store w d =>
    have h : a' = a.store w d := h
    obtain ⟨h1, h2, h3, h4⟩ := store_pins a w d
    rw [← h] at h1 h2 h3 h4
    exact ⟨.inl ⟨h4, fun _ h => h⟩, .inl ⟨h2, fun _ h => h⟩, .inl ⟨h1, fun _ h => h⟩, .inl ⟨h3, fun _ h => h⟩⟩
  | lowPin v =>
    cases h
    exact ⟨.inl ⟨rfl, fun _ h => h⟩, .inl ⟨rfl, fun _ h => h⟩, .inl ⟨rfl, fun _ h => h⟩, .inr rfl⟩
  | led l =>
    cases h
    exact ⟨.inr rfl, .inl ⟨rfl, fun _ h => h⟩, .inl ⟨rfl, fun _ h => h⟩, .inl ⟨rfl, fun _ h => h⟩⟩
  | nothing =>
    cases h
    exact ⟨.inl ⟨rfl, fun _ h => h⟩, .inl ⟨rfl, fun _ h => h⟩, .inl ⟨rfl, fun _ h => h⟩, .inl ⟨rfl, fun _ h => h⟩⟩

/-- **C144**: so the LED, each pin and each byte of memory are as they were, if no task set them, and otherwise as one of the
tasks that set them set them. Of memory this holds if no task changed the supply or the reset pin. So of writes to bytes
apart, all are there. -/
theorem C144_last (lim : Option Nat) (progs : List (Prog (Res Unit))) (evs : List SysEvent) (s : Sys (Res Unit))
    (h : (Sys.init lim progs).run evs = some s) (hsp : SpDoes Proper evs) (hn : numbered evs ≤ 2 ^ 64) (port : Nat)
    (hreq : ∀ p ∈ progs, Requests p)
    (did : Nat → Option Change) (hdid : ∀ i c, did i = some c → DidChange progs s port i c)
    (htasks : ∀ i p, progs[i]? = some p → Spares p port ∨ (did i).isSome)
    (hord : InOrderAt port s.spLog) (hal : AlikeAt port s.spLog) (b b' : PortState)
    (he : LogEvolvesAt port b s.spLog b') :
    let Set (P : Change → Prop) := ∃ i c, did i = some c ∧ P c
    ((b'.led = b.led ∧ ∀ l, ¬ Set (·.SetsLed l)) ∨ Set (·.SetsLed b'.led)) ∧
    ((b'.reset = b.reset ∧ ∀ v, ¬ Set (·.SetsReset v)) ∨ Set (·.SetsReset b'.reset)) ∧
    ((b'.enabled = b.enabled ∧ ∀ v, ¬ Set (·.SetsSupply v)) ∨ Set (·.SetsSupply b'.enabled)) ∧
    ((b'.lowPin = b.lowPin ∧ ∀ v, ¬ Set (·.SetsLowPin v)) ∨ Set (·.SetsLowPin b'.lowPin)) ∧
    ((∀ i c, did i = some c → c.LeavesMemory) → ∀ page a,
      (b'.memory page a = b.memory page a ∧ ∀ v, ¬ Set (·.SetsByte page a v)) ∨
        Set (·.SetsByte page a (b'.memory page a))) := by
  obtain ⟨seq, -, hseq, hone, -⟩ := C144_atomic lim progs evs s h hsp hn port hreq did hdid htasks hord hal b b' he
  have main : ∀ {V : Type} (f : PortState → V) (S : V → Change → Prop),
      (∀ i c a a', did i = some c → c.Does a a' → (f a' = f a ∧ ∀ v, ¬ S v c) ∨ S (f a') c) →
      (f b' = f b ∧ ∀ v, ¬ ∃ i c, did i = some c ∧ S v c) ∨ ∃ i c, did i = some c ∧ S (f b') c := by
    intro V f S hS
    rcases oneByOne_last f (S := fun i v => ∃ c, did i = some c ∧ S v c) hone fun i hi a a' ⟨c, h1, h2⟩ => by
        rcases hS i c a a' h1 h2 with ⟨h3, h4⟩ | h3
        · refine .inl ⟨h3, fun v ⟨c', h5, h6⟩ => h4 v ?_⟩
          rw [h1] at h5
          cases h5
          exact h6
        · exact .inr ⟨c, h1, h3⟩
      with ⟨h1, h2⟩ | ⟨i, -, h1⟩
    · exact .inl ⟨h1, fun v ⟨i, c, h3, h4⟩ => h2 i ((hseq i).2 (by rw [h3]; rfl)) v ⟨c, h3, h4⟩⟩
    · exact .inr ⟨i, h1⟩
  exact ⟨main PortState.led (fun v c => c.SetsLed v) fun i c a a' _ h => (does_pins h).1,
    main PortState.reset (fun v c => c.SetsReset v) fun i c a a' _ h => (does_pins h).2.1,
    main PortState.enabled (fun v c => c.SetsSupply v) fun i c a a' _ h => (does_pins h).2.2.1,
    main PortState.lowPin (fun v c => c.SetsLowPin v) fun i c a a' _ h => (does_pins h).2.2.2,
    fun hm page x => main (fun s => s.memory page x) (fun v c => c.SetsByte page x v) fun i c a a' h1 h2 =>
      does_byte (hm i c h1) h2 page x⟩

/-! ### Example -/

/-- Two tasks at one module: a reset, and setting the LED. -/
def mixProgs : List (Prog (Res Unit)) := [Controller.reset ⟨0b1⟩, Controller.setLeds ⟨0b1⟩ .on]

/-- The LED is set between the two steps of the reset. -/
def mixDemo : List SysEvent :=
  exchDemo 0 0 (.assertReset ⟨0b1⟩) none (.ack ⟨0b1⟩ ⟨0⟩) [] ++
  (exchDemo 1 1 (.setLedState ⟨0b1⟩ .on) none (.ack ⟨0b1⟩ ⟨0⟩) [] ++
  exchDemo 0 2 (.deassertReset ⟨0b1⟩) none (.ack ⟨0b1⟩ ⟨0⟩) [])

/-- What the SP does in it. -/
def mixLog : List (Bytes × List Bytes) :=
  [pairDemo 0 (.assertReset ⟨0b1⟩) none (.ack ⟨0b1⟩ ⟨0⟩) [], pairDemo 1 (.setLedState ⟨0b1⟩ .on) none (.ack ⟨0b1⟩ ⟨0⟩) [],
    pairDemo 2 (.deassertReset ⟨0b1⟩) none (.ack ⟨0b1⟩ ⟨0⟩) []]

/-- The module with reset and LED as given. -/
def mixState (reset : Bool) (led : LedState) : PortState :=
  ⟨true, reset, false, led, fun a => if a = 0 then 0x11 else 0, fun _ _ => 0⟩

theorem mixDemo_proper : SpDoes Proper mixDemo := by
  intro r out h
  simp only [mixDemo, exchDemo, List.cons_append, List.nil_append, List.mem_cons, SysEvent.sp.injEq, reduceCtorEq, false_or,
    List.not_mem_nil, or_false] at h
  rcases h with ⟨rfl, rfl⟩ | ⟨rfl, rfl⟩ | ⟨rfl, rfl⟩
  · exact pairDemo_proper (g := ⟨0b1⟩) (by decide +kernel) (by decide) rfl rfl trivial trivial
  · exact pairDemo_proper (g := ⟨0b1⟩) (by decide +kernel) (by decide) rfl rfl trivial trivial
  · exact pairDemo_proper (g := ⟨0b1⟩) (by decide +kernel) (by decide) rfl rfl trivial trivial

theorem mixDemo_state : ((Sys.init (some 3) mixProgs).run mixDemo).map (fun s => (s.tasks.map Task.outcome, s.spLog)) =
    some ([some ⟨⟨0b1⟩, [()], ⟨⟨0⟩, []⟩⟩, some ⟨⟨0b1⟩, [()], ⟨⟨0⟩, []⟩⟩], mixLog) := by
  decide +kernel

theorem mixLog_evolves : LogEvolvesAt 0 (mixState false .off) mixLog (mixState false .on) := by
  refine ⟨mixState true .off, ?_, mixState true .on, ?_, mixState false .on, ?_, rfl⟩
  · exact pairDemo_step (g := ⟨0b1⟩) (by decide +kernel) (by decide) rfl rfl (by decide)
      (fun v _ => ⟨trivial, rfl, rfl, rfl, rfl⟩) fun h => absurd h (by simp [IsQuery]; decide)
  · exact pairDemo_step (g := ⟨0b1⟩) (by decide +kernel) (by decide) rfl rfl (by decide)
      (fun v _ => ⟨trivial, rfl⟩) fun h => absurd h (by simp [IsQuery]; decide)
  · exact pairDemo_step (g := ⟨0b1⟩) (by decide +kernel) (by decide) rfl rfl (by decide)
      (fun v _ => ⟨trivial, rfl, rfl, rfl, rfl⟩) fun h => absurd h (by simp [IsQuery]; decide)

/-- It meets what `C144_atomic` and `C144_last` ask for, and the module is out of reset with its LED on. -/
example : ∃ s, (Sys.init (some 3) mixProgs).run mixDemo = some s ∧ SpDoes Proper mixDemo ∧ numbered mixDemo ≤ 2 ^ 64 ∧
    (∀ p ∈ mixProgs, Requests p) ∧ (∀ (i : Nat) c, [Change.reset, .led .on][i]? = some c → DidChange mixProgs s 0 i c) ∧
    (∀ (i : Nat) p, mixProgs[i]? = some p → Spares p 0 ∨ [Change.reset, .led .on][i]?.isSome) ∧
    InOrderAt 0 s.spLog ∧ AlikeAt 0 s.spLog ∧ LogEvolvesAt 0 (mixState false .off) s.spLog (mixState false .on) := by
  obtain ⟨s, h1, h2, h3⟩ := demo_state mixDemo_state
  obtain ⟨tk0, h4, h5⟩ := outcome_task h2 (i := 0) rfl
  obtain ⟨tk1, h6, h7⟩ := outcome_task h2 (i := 1) rfl
  have honce : ChangesOnce s.spLog := by
    intro pkt _ _ _ _
    rw [h3]
    exact List.nodup_iff_count.1 (by decide +kernel) pkt
  have hled : Operation (Controller.setLeds ⟨0b1⟩ .on) (.led .on) :=
    .command ⟨0b1⟩ .on (Controller.setLeds ⟨0b1⟩ .on, .setLedState ⟨0b1⟩ .on) (by simp [commands])
  have hd0 : DidChange mixProgs s 0 0 .reset := ⟨_, tk0, _, rfl, .reset _, h4, h5, by decide⟩
  have hd1 : DidChange mixProgs s 0 1 (.led .on) := ⟨_, tk1, _, rfl, hled, h6, h7, by decide⟩
  refine ⟨s, h1, mixDemo_proper, by decide, fun p hp => ?_, fun i c hi => ?_, fun i p hp => .inr ?_,
    inOrder_at (C132_once_partial _ honce).1 0, alike_at (C132_once_partial _ honce).2 0, by rw [h3]; exact mixLog_evolves⟩
  · simp only [mixProgs, List.mem_cons, List.not_mem_nil, or_false] at hp
    rcases hp with rfl | rfl
    · exact requests_calls (operation_host (.reset _))
    · exact requests_calls (operation_host hled)
  · match i, hi with
    | 0, hi => cases hi; exact hd0
    | 1, hi => cases hi; exact hd1
  · match i, hp with
    | 0, _ => rfl
    | 1, _ => rfl

end Xcvr
