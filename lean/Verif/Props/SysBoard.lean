import Verif.Lemmas.SysBoard
import Verif.Props.Board
import Verif.Props.CliMain
import Verif.Props.CliAbort

/-! # C131-C133: what becomes of the modules, over an unreliable network -/

namespace Xcvr

open Spec Sys

variable {α : Type}

/-! ## C131: looking -/

/-- **C131**: whatever the network does, while all tasks only look, nothing changes; and what they see, in all their
answers, is what is there. -/
theorem C131_looking (lim : Option Nat) (progs : List (Prog α)) (evs : List SysEvent) (s : Sys α)
    (h : (Sys.init lim progs).run evs = some s) (hsp : SpDoes Echoes evs) (hn : numbered evs ≤ 2 ^ 64)
    (hq : ∀ p ∈ progs, Looks p) (b b' : BoardState) (he : LogEvolves b s.spLog b') :
    b' = b ∧ ∀ (i : Nat) (tk : Task α), s.tasks[i]? = some tk → Evolves b tk.past b := by
  obtain ⟨⟨ioEvs, inv⟩, -⟩ := sysInv_run evs (fun _ _ => id) (sysInv_init lim progs) (by simp [Sys.init]) hsp (by omega) h
  have hask : ∀ {j : Nat} {tk : Task α} {c : Call}, s.tasks[j]? = some tk → Asked tk c →
      ∃ q, c.message.body = .hostRequest q ∧ IsQuery q := fun hj ha =>
    requests_of inv hj ha fun p hp => hq p (List.mem_of_getElem? hp)
  obtain ⟨h1, h2⟩ := logEvolves_queries he (by
    intro x hx
    obtain ⟨j, tk, c, id, h3, h4, h5, -⟩ := C65_only lim progs evs s h hsp hn x hx
    obtain ⟨q, h6, h7⟩ := hask h3 h4
    exact ⟨q, _, h5 ▸ received_call.2 ⟨h6, rfl⟩, h7⟩)
  refine ⟨h1, fun i tk hi => evolves_still fun x hx p => ?_⟩
  obtain ⟨c, r⟩ := x
  by_cases hr : ∃ resp, r = .answer (.ok resp)
  · obtain ⟨resp, rfl⟩ := hr
    obtain ⟨id, out, pkt, h3, h4, h5, -⟩ := C65_served lim progs evs s h hsp hn i tk hi c resp hx
    obtain ⟨q, h6, -⟩ := hask hi (.inl (List.mem_map_of_mem hx))
    exact logStep_call (logStep_at (h2 _ h3) p) h6 h4 h5
  · exact steps_unanswered (fun resp h => hr ⟨resp, h⟩) p _

/-- A call answered by a proper SP was answered properly. -/
theorem conforms_answered {lim : Option Nat} {progs : List (Prog α)} {evs : List SysEvent} {s : Sys α}
    (h : (Sys.init lim progs).run evs = some s) (hsp : SpDoes Proper evs) (hn : numbered evs ≤ 2 ^ 64) {i : Nat}
    {tk : Task α} (hi : s.tasks[i]? = some tk) {c : Call} {q : HostRequest} (hq : c.message.body = .hostRequest q)
    {resp : SpRpcResponse} (hx : (c, Reply.answer (.ok resp)) ∈ tk.past) : Conforms (c, Reply.answer (.ok resp)) := by
  obtain ⟨⟨_, inv⟩, hl⟩ := sysInv_run evs (P := Proper) (fun _ _ h => h.1) (sysInv_init lim progs) (by simp [Sys.init]) hsp
    (by omega) h
  exact conforms_past inv hl hi hq hx

/-- **C131** for methods: if a method that only looks returned a value, while all others only look, then what it saw is a
run of that method, with proper answers, on a board that does not change. So what C33-C48, C53-C64 and C104 say of the
memory and the pins of modules holds of what it returned. -/
theorem C131_method (lim : Option Nat) (progs : List (Prog α)) (evs : List SysEvent) (s : Sys α)
    (h : (Sys.init lim progs).run evs = some s) (hsp : SpDoes Proper evs) (hn : numbered evs ≤ 2 ^ 64)
    (hq : ∀ p ∈ progs, Looks p) (b b' : BoardState) (he : LogEvolves b s.spLog b') (i : Nat) (p : Prog α)
    (hp : progs[i]? = some p) (hc : Prog.AllCalls Bench.IsHost p) (tk : Task α) (hi : s.tasks[i]? = some tk) (a : α)
    (ha : tk.prog = .ret a) :
    Prog.Runs p tk.past (.ok a) ∧ Conforming tk.past ∧ Evolves b tk.past b ∧ Faithful (fun p => (b p).memory) tk.past := by
  obtain ⟨h1, h2⟩ := C65_method lim progs evs s h hsp hn i p hp hc tk hi a ha
  have h3 := (C131_looking lim progs evs s h (fun r out h => (hsp r out h).1) hn hq b b' he).2 i tk hi
  exact ⟨h1, h2, h3, faithful_board h3 (hq p (List.mem_of_getElem? hp) _ _ h1)⟩

/-- **C131**, the power modes: what `power` returned over the network are the power states of the modules. -/
theorem C131_power (lim : Option Nat) (progs : List (Prog (Res PowerMode))) (evs : List SysEvent)
    (s : Sys (Res PowerMode)) (h : (Sys.init lim progs).run evs = some s) (hsp : SpDoes Proper evs)
    (hn : numbered evs ≤ 2 ^ 64) (hq : ∀ p ∈ progs, Looks p) (b b' : BoardState) (he : LogEvolves b s.spLog b') (i : Nat)
    (m : ModuleId) (hp : progs[i]? = some (Controller.power m)) (tk : Task (Res PowerMode)) (hi : s.tasks[i]? = some tk)
    (res : Res PowerMode) (ha : tk.prog = .ret res) :
    ∀ p, Mem res.modules p → ∃ mode, okAt res p = some mode ∧ mode.state = (b p).power := by
  obtain ⟨h1, h2, h3, -⟩ := C131_method lim progs evs s h hsp hn hq b b' he i _ hp
    (allCalls_power m (fun g rd => ⟨_, _, rfl⟩) ⟨_, _, rfl⟩) tk hi res ha
  exact (C104_report m tk.past res h1 h2 b b h3).2

/-- **C131** for the tool: a run of a command that only looks, over the network and beside other such runs, leaves every
module as it is. Its output is that of a run in which every answer is proper and shows what is there. -/
theorem C131_tool (lim : Option Nat) (progs : List (Prog Cli.Exit)) (evs : List SysEvent) (s : Sys Cli.Exit)
    (h : (Sys.init lim progs).run evs = some s) (hsp : SpDoes Proper evs) (hn : numbered evs ≤ 2 ^ 64)
    (hq : ∀ p ∈ progs, ∃ fmt sel ign cmd, p = Cli.main fmt sel ign cmd ∧ Inspecting cmd) (b b' : BoardState)
    (he : LogEvolves b s.spLog b') :
    b' = b ∧ ∀ (i : Nat) (p : Prog Cli.Exit) (tk : Task Cli.Exit), progs[i]? = some p → s.tasks[i]? = some tk →
      Evolves b tk.past b ∧ (∀ e, tk.prog = .ret e → Prog.Runs p tk.past (.ok e)) ∧
      ∀ x ∈ tk.past, (∃ resp, x.2 = .answer (.ok resp)) → Conforms x := by
  have hlook : ∀ p ∈ progs, Looks p := by
    intro p hp t o ht x hx
    obtain ⟨fmt, sel, ign, cmd, rfl, hcmd⟩ := hq p hp
    obtain ⟨q, h1, h2, -⟩ := C88_inspecting fmt sel ign cmd hcmd t o ht x hx
    exact ⟨q, h1, h2⟩
  have hecho : SpDoes Echoes evs := fun r out h => (hsp r out h).1
  obtain ⟨h1, h2⟩ := C131_looking lim progs evs s h hecho hn hlook b b' he
  refine ⟨h1, fun i p tk hp hi => ⟨h2 i tk hi, fun e hx => ?_, fun x hx hr => ?_⟩⟩
  · obtain ⟨tk', hi', -, hr, -⟩ := C65_runs lim progs evs s h hecho hn i p hp
    rw [hi] at hi'
    cases hi'
    exact hr e hx
  · obtain ⟨c, r⟩ := x
    obtain ⟨resp, rfl⟩ := hr
    obtain ⟨⟨ioEvs, inv⟩, -⟩ := sysInv_run evs (fun _ _ => id) (sysInv_init lim progs) (by simp [Sys.init]) hecho
      (by omega) h
    obtain ⟨q, h6, -⟩ := requests_of (C := IsQuery) inv hi (.inl (List.mem_map_of_mem hx)) fun p hp =>
      hlook p (List.mem_of_getElem? hp)
    exact conforms_answered h hsp hn hi h6 hx

/-! ## C132: setting -/

/-- One port: if no copy of a datagram that is to change it comes after a later datagram, if copies are acknowledged alike
for it, and no other task is to change it, then what the method saw of it is what happened to it. -/
theorem order_at (lim : Option Nat) (progs : List (Prog α)) (evs : List SysEvent) (s : Sys α)
    (h : (Sys.init lim progs).run evs = some s) (hsp : SpDoes Proper evs) (hn : numbered evs ≤ 2 ^ 64) (i : Nat)
    (p : Prog α) (hp : progs[i]? = some p) (hc : Prog.AllCalls Bench.IsHost p) (port : Nat)
    (hother : ∀ j p, j ≠ i → progs[j]? = some p → Spares p port) (tk : Task α) (hi : s.tasks[i]? = some tk) (a : α)
    (ha : tk.prog = .ret a) (b b' : PortState) (he : LogEvolvesAt port b s.spLog b') (hord : InOrderAt port s.spLog)
    (hal : AlikeAt port s.spLog) :
    Prog.Runs p tk.past (.ok a) ∧ Conforming tk.past ∧ EvolvesAt port b tk.past b' := by
  obtain ⟨h1, h2⟩ := C65_method lim progs evs s h hsp hn i p hp hc tk hi a ha
  refine ⟨h1, h2, ?_⟩
  have hreq : ∀ p' ∈ progs, Requests p' := by
    intro p' hp' t o ht x hx
    obtain ⟨j, hj, rfl⟩ := List.getElem_of_mem hp'
    by_cases hji : j = i
    · subst hji
      rw [List.getElem?_eq_getElem hj, Option.some.injEq] at hp
      obtain ⟨q, D, hq⟩ := Prog.allCalls_runs hc (hp ▸ ht) x hx
      exact ⟨q, requestOf_host hq⟩
    · exact (hother j _ hji (List.getElem?_eq_getElem hj)).requests t o ht x hx
  obtain ⟨_, ho⟩ := oneInv_run evs (sysInv_init lim progs) (by simp [Sys.init]) hsp (by omega)
    hreq hother h (oneInv_init lim progs b i)
  obtain ⟨-, hst⟩ := ho tk hi ⟨Prog.allCalls_ok hc h1, fun _ c k hk => by rw [ha] at hk; cases hk⟩ hord hal b' he
  rcases hst.evolves with h3 | ⟨_, _, _, _, c, k, hk⟩
  · exact h3
  · rw [ha] at hk
    cases hk

/-- C132, the part that holds: if no copy of a datagram that is to change something comes after a later datagram, if
copies are acknowledged alike, and all other tasks only look, then what the method saw is what happened to the board.
So all that holds of the method with the board to itself (C104-C106) holds over the network. -/
theorem C132_order_partial (lim : Option Nat) (progs : List (Prog α)) (evs : List SysEvent) (s : Sys α)
    (h : (Sys.init lim progs).run evs = some s) (hsp : SpDoes Proper evs) (hn : numbered evs ≤ 2 ^ 64) (i : Nat)
    (p : Prog α) (hp : progs[i]? = some p) (hc : Prog.AllCalls Bench.IsHost p)
    (hother : ∀ j p, j ≠ i → progs[j]? = some p → Looks p) (tk : Task α) (hi : s.tasks[i]? = some tk) (a : α)
    (ha : tk.prog = .ret a) (b b' : BoardState) (he : LogEvolves b s.spLog b') (hord : InOrder s.spLog)
    (hal : Alike s.spLog) :
    Prog.Runs p tk.past (.ok a) ∧ Conforming tk.past ∧ Evolves b tk.past b' := by
  have hother' : ∀ port, ∀ j p, j ≠ i → progs[j]? = some p → Spares p port := fun port j p hj hp =>
    spares_looks (hother j p hj hp) port
  have hat : ∀ port, _ := fun port => order_at lim progs evs s h hsp hn i p hp hc port (hother' port) tk hi a ha _ _
    (logEvolves_at he port) (inOrder_at hord port) (alike_at hal port)
  exact ⟨(hat 0).1, (hat 0).2.1, evolves_at.2 fun port => (hat port).2.2⟩

/-- The loop sends no copy of a request after a later one. So a network that keeps the order, whatever it loses, is
enough. -/
theorem C132_fifo_partial (lim : Option Nat) (progs : List (Prog α)) (evs : List SysEvent) (s : Sys α)
    (h : (Sys.init lim progs).run evs = some s) (hsp : SpDoes Echoes evs) (hn : numbered evs ≤ 2 ^ 64)
    (hf : Fifo s) : InOrder s.spLog := by
  obtain ⟨⟨_, inv⟩, -⟩ := sysInv_run evs (fun _ _ => id) (sysInv_init lim progs) (by simp [Sys.init]) hsp (by omega) h
  exact fun a x _ _ _ _ hne hsub => hne (wire_in_order inv (hsub.trans hf))

/-- If nothing that is to change something is received more than once, that is enough, too. -/
theorem C132_once_partial (log : List (Bytes × List Bytes)) (h : ChangesOnce log) : InOrder log ∧ Alike log := by
  constructor
  · intro a x q d h1 h2 hne hs
    have h3 := hs.count_le a
    have h4 := h a q d h1 h2
    simp [List.count_cons] at h3
    omega
  · intro x hx y hy hxy q d h1 h2 p hok
    have : x = y := by
      have h3 := h x.1 q d h1 h2
      exact eq_of_count_le_one hx hy hxy h3
    exact this ▸ hok

/-- With a single try, and a network that makes no copies, nothing is received more than once. -/
theorem C132_single_try_partial (lim : Option Nat) (progs : List (Prog α)) (evs : List SysEvent) (s : Sys α)
    (h : (Sys.init lim progs).run evs = some s) (hsp : SpDoes Echoes evs) (hn : numbered evs ≤ 2 ^ 64)
    (hl : limitOf lim ≤ 1) (hc : NoCopies s) : ChangesOnce s.spLog := by
  intro pkt _ _ _ _
  have := (C66_bounded_partial lim progs evs s h hsp hn pkt).2 hc
  omega

theorem allCalls_setPower (m : ModuleId) (st : PowerState) : Prog.AllCalls Bench.IsHost (Controller.setPower m st) := by
  have hh : ∀ q : HostRequest, (∀ m w, q ≠ .write m w) → Bench.IsHost (Call.host q) := fun q _ => ⟨q, none, rfl⟩
  have hw : ∀ m (w : MemoryWrite) (d : Bytes), d.length = w.len.toNat → Bench.IsHost (Call.host (.write m w) (some d)) :=
    fun m w d _ => ⟨_, _, rfl⟩
  cases st with
  | off => exact allCalls_setPowerOff m hh
  | low => exact allCalls_setPowerOn m true hh hw
  | high => exact allCalls_setPowerOn m false hh hw

/-- C132, the power state: a module for which `set_power` succeeded without a failure is in the power state asked for. -/
theorem C132_power_partial (lim : Option Nat) (progs : List (Prog (Res Unit))) (evs : List SysEvent) (s : Sys (Res Unit))
    (h : (Sys.init lim progs).run evs = some s) (hsp : SpDoes Proper evs) (hn : numbered evs ≤ 2 ^ 64) (i : Nat)
    (m : ModuleId) (st : PowerState) (hp : progs[i]? = some (Controller.setPower m st))
    (hother : ∀ j p, j ≠ i → progs[j]? = some p → Looks p) (tk : Task (Res Unit)) (hi : s.tasks[i]? = some tk)
    (res : Res Unit) (ha : tk.prog = .ret res) (b b' : BoardState) (he : LogEvolves b s.spLog b')
    (hord : InOrder s.spLog) (hal : Alike s.spLog) (p : Nat) (hm : Mem res.modules p) (hf : ¬ Mem res.failures.modules p) :
    (b' p).power = st := by
  obtain ⟨h1, h2, h3⟩ := C132_order_partial lim progs evs s h hsp hn i _ hp (allCalls_setPower m st) hother tk hi res ha
    b b' he hord hal
  exact C104_set m st tk.past res h1 h2 b b' h3 p hm hf

theorem allCalls_reset {C : Call → Prop} (m : ModuleId) (h1 : ∀ g, C (.host (.assertReset g)))
    (h2 : ∀ g, C (.host (.deassertReset g))) : Prog.AllCalls C (Controller.reset m) :=
  Prog.allCalls_bind (allCalls_noPayloadRequest (h1 _)) fun _ =>
    Prog.allCalls_bind (allCalls_noPayloadRequest (h2 _)) fun _ => trivial

/-- C132, reset: a module for which `reset` succeeded is out of reset, with its other pins as before. -/
theorem C132_reset_partial (lim : Option Nat) (progs : List (Prog (Res Unit))) (evs : List SysEvent) (s : Sys (Res Unit))
    (h : (Sys.init lim progs).run evs = some s) (hsp : SpDoes Proper evs) (hn : numbered evs ≤ 2 ^ 64) (i : Nat)
    (m : ModuleId) (hp : progs[i]? = some (Controller.reset m))
    (hother : ∀ j p, j ≠ i → progs[j]? = some p → Looks p) (tk : Task (Res Unit)) (hi : s.tasks[i]? = some tk)
    (res : Res Unit) (ha : tk.prog = .ret res) (b b' : BoardState) (he : LogEvolves b s.spLog b')
    (hord : InOrder s.spLog) (hal : Alike s.spLog) (p : Nat) (hm : Mem res.modules p) :
    SamePins { b p with reset := false } (b' p) := by
  obtain ⟨h1, h2, h3⟩ := C132_order_partial lim progs evs s h hsp hn i _ hp
    (allCalls_reset m (fun _ => ⟨_, _, rfl⟩) fun _ => ⟨_, _, rfl⟩) hother tk hi res ha b b' he hord hal
  exact C105_reset m tk.past res h1 h2 b b' h3 p hm

/-- C132 for commands of a single step: they have their effect also if the SP received them any number of times, as long
as it acknowledged them for the module each time. -/
theorem C132_command_partial (lim : Option Nat) (progs : List (Prog (Res Unit))) (evs : List SysEvent)
    (s : Sys (Res Unit)) (h : (Sys.init lim progs).run evs = some s) (hsp : SpDoes Proper evs)
    (hn : numbered evs ≤ 2 ^ 64) (i : Nat) (m : ModuleId) (led : LedState) (c : Prog (Res Unit) × HostRequest)
    (hm : c ∈ commands m led) (hp : progs[i]? = some c.1) (hother : ∀ j p, j ≠ i → progs[j]? = some p → Looks p)
    (tk : Task (Res Unit)) (hi : s.tasks[i]? = some tk) (res : Res Unit) (ha : tk.prog = .ret res) (b b' : BoardState)
    (he : LogEvolves b s.spLog b') (p : Nat) (hpm : Mem res.modules p)
    (hok : ∀ x ∈ s.spLog, Received x.1 c.2 [] → SaysOk x.2 p) : Effect c.2 [] (b p) (b' p) := by
  obtain ⟨hc1, hc2, hc3⟩ := commands_eq m led c hm
  have hall : Prog.AllCalls (fun x => x = Call.host c.2) c.1 := hc1 ▸ allCalls_noPayloadRequest rfl
  obtain ⟨h1, h2⟩ := C65_method lim progs evs s h hsp hn i _ hp (Prog.allCalls_mono (fun x hx => ⟨_, _, hx⟩) hall) tk hi
    res ha
  have hecho : SpDoes Echoes evs := fun r out h => (hsp r out h).1
  obtain ⟨⟨ioEvs, inv⟩, -⟩ := sysInv_run evs (fun _ _ => id) (sysInv_init lim progs) (by simp [Sys.init]) hecho (by omega) h
  refine (logEvolves_effect (E := Effect c.2 []) effect_twice p he fun x hx => ?_).2 ?_
  · obtain ⟨j, tj, call, id, h3, h4, h5, -⟩ := C65_only lim progs evs s h hecho hn x hx
    by_cases hji : j = i
    · subst hji
      rw [hi] at h3
      cases h3
      obtain ⟨t, o, h6, -, y, h7, rfl⟩ := asked_run (inv.leads j _ tk hp hi) h4
      have h8 := Prog.allCalls_runs hall h6 y h7
      have h9 : Received x.1 c.2 [] := by
        rw [h5, h8]
        exact received_call.2 ⟨rfl, rfl⟩
      exact ⟨c.2, [], h9, .inr ⟨hok x hx h9, fun _ _ h => h⟩⟩
    · obtain ⟨q, h6, h7⟩ := requests_of (C := IsQuery) inv h3 h4 fun p hp => hother j p hji hp
      exact ⟨q, _, h5 ▸ received_call.2 ⟨h6, rfl⟩, .inl (.inl h7)⟩
  · rw [hc1] at h1
    obtain ⟨r, res', h3, h4, h5⟩ := noPayloadRequest_spec hc2 hc3 h1 h2
    cases h4
    obtain ⟨resp, rfl⟩ : ∃ resp, r = .answer (.ok resp) :=
      Prog.allCalls_ok (hc1 ▸ hall) h1 (Call.host c.2, r) (by rw [h3]; exact List.mem_singleton.2 rfl)
    obtain ⟨id, out, pkt, h6, -⟩ := C65_served lim progs evs s h hecho hn i tk hi (Call.host c.2) resp
      (by rw [h3]; exact List.mem_singleton.2 rfl)
    refine ⟨_, h6, c.2, [], received_call.2 ⟨rfl, rfl⟩, ?_⟩
    rintro (hq | hq)
    · generalize c.2 = q at hc2 hq
      cases q <;> first | exact hc2 | exact hq
    · exact hq ⟨m, hc3, ((h5.split p).1).2 (.inl hpm)⟩

/-- C132 for writes: the bytes are in place also if the SP received the write any number of times, as long as it
acknowledged it for the module each time. -/
theorem C132_write_partial (lim : Option Nat) (progs : List (Prog (Res Unit))) (evs : List SysEvent)
    (s : Sys (Res Unit)) (h : (Sys.init lim progs).run evs = some s) (hsp : SpDoes Proper evs)
    (hn : numbered evs ≤ 2 ^ 64) (i : Nat) (m : ModuleId) (w : MemoryWrite) (data : Bytes)
    (hp : progs[i]? = some (Controller.write m w data)) (hother : ∀ j p, j ≠ i → progs[j]? = some p → Looks p)
    (tk : Task (Res Unit)) (hi : s.tasks[i]? = some tk) (res : Res Unit) (ha : tk.prog = .ret res) (b b' : BoardState)
    (he : LogEvolves b s.spLog b') (p : Nat) (hpm : Mem res.modules p)
    (hok : ∀ x ∈ s.spLog, ∀ g, Received x.1 (.write g w) data → Mem g p → SaysOk x.2 p) : b' p = (b p).store w data := by
  have hall : Prog.AllCalls (fun x => (∃ g rd, x = Call.host (.read g rd)) ∨ ∃ g, x = Call.host (.write g w) (some data))
      (Controller.write m w data) :=
    Prog.allCalls_bind (allCalls_identifier fun g _ => .inl ⟨g, _, rfl⟩) fun _ =>
      Prog.allCalls_bind (Prog.allCalls_ofExec _) fun _ =>
        Prog.allCalls_bind (allCalls_writeImpl fun _ => .inr ⟨_, rfl⟩) fun _ => trivial
  obtain ⟨h1, h2⟩ := C65_method lim progs evs s h hsp hn i _ hp (Prog.allCalls_mono (fun x hx => by
    rcases hx with ⟨g, rd, hx⟩ | ⟨g, hx⟩
    · exact ⟨_, _, hx⟩
    · exact ⟨_, _, hx⟩) hall) tk hi res ha
  have hecho : SpDoes Echoes evs := fun r out h => (hsp r out h).1
  obtain ⟨⟨ioEvs, inv⟩, -⟩ := sysInv_run evs (fun _ _ => id) (sysInv_init lim progs) (by simp [Sys.init]) hecho (by omega) h
  refine (logEvolves_effect (E := fun s s' => s' = s.store w data) (fun h h' => by rw [h', h, store_twice]) p he
    fun x hx => ?_).2 ?_
  · obtain ⟨j, tj, call, id, h3, h4, h5, -⟩ := C65_only lim progs evs s h hecho hn x hx
    by_cases hji : j = i
    · subst hji
      rw [hi] at h3
      cases h3
      obtain ⟨t, o, h6, -, y, h7, rfl⟩ := asked_run (inv.leads j _ tk hp hi) h4
      rcases Prog.allCalls_runs hall h6 y h7 with ⟨g, rd, h8⟩ | ⟨g, h8⟩
      · refine ⟨.read g rd, [], ?_, .inl (.inl trivial)⟩
        rw [h5, h8]
        exact received_call.2 ⟨rfl, rfl⟩
      · have h9 : Received x.1 (.write g w) data := by
          rw [h5, h8]
          exact received_call.2 ⟨rfl, rfl⟩
        refine ⟨.write g w, data, h9, ?_⟩
        by_cases hg : Mem g p
        · exact .inr ⟨hok x hx g h9 hg, fun _ _ h => h⟩
        · refine .inl (.inr ?_)
          rintro ⟨g', h10, h11⟩
          cases h10
          exact hg h11
    · obtain ⟨q, h6, h7⟩ := requests_of (C := IsQuery) inv h3 h4 fun p hp => hother j p hji hp
      exact ⟨q, _, h5 ▸ received_call.2 ⟨h6, rfl⟩, .inl (.inl h7)⟩
  · obtain ⟨t₁, t₂, h3, -, ⟨_, _, _, h4, _⟩ | ⟨_, _, _, h4⟩ | ⟨-, -, g, r, res', h4, h5, h6, h7⟩⟩ := C36_write m w data _ _ h1 h2
    · cases h4
    · cases h4
    cases h6
    have hin : (Call.host (.write g w) (some data), r) ∈ tk.past := by
      rw [h3, h5]
      exact List.mem_append_right _ (List.mem_singleton.2 rfl)
    obtain ⟨resp, rfl⟩ : ∃ resp, r = .answer (.ok resp) := Prog.allCalls_ok hall h1 _ hin
    obtain ⟨id, out, pkt, h8, -⟩ := C65_served lim progs evs s h hecho hn i tk hi _ resp hin
    refine ⟨_, h8, .write g w, data, received_call.2 ⟨rfl, rfl⟩, ?_⟩
    rintro (hq | hq)
    · exact hq
    · refine hq ⟨g, rfl, ?_⟩
      obtain ⟨u, hu⟩ := (mem_iff_datum h7.wf.1 p).1 hpm
      have := h7.ok p
      unfold okAt at this
      rw [hu] at this
      rw [h5, okAmong_singleton] at this
      have hsome : (okIn (Call.host (.write g w) (some data), Reply.answer (.ok resp)) p).isSome := by
        cases hx : okIn (Call.host (.write g w) (some data), Reply.answer (.ok resp)) p with
        | none => rw [hx] at this; cases this
        | some v => rfl
      have hcx := h2 _ hin
      obtain ⟨q, R, d, g1, g2, g3⟩ := hcx
      cases g1
      obtain ⟨v, hv⟩ := Option.isSome_iff_exists.1 hsome
      unfold okIn at hv
      rw [g2] at hv
      cases d with
      | none => cases hv
      | some d =>
        replace hv : record R d p = some v := hv
        unfold record at hv
        split at hv
        · rename_i s' f hR
          split at hv
          · rename_i hms
            exact ((g3.split g s' f rfl hR p).1).2 (.inl hms)
          · cases hv
        · cases hv

/-! ## C133: other modules -/

/-- A port that is not the same as it was: some task's program asked for a change of it, and all answers the task had were
about what it asked. -/
theorem touched_by {lim : Option Nat} {progs : List (Prog α)} {evs : List SysEvent} {s : Sys α}
    (h : (Sys.init lim progs).run evs = some s) (hsp : SpDoes Proper evs) (hn : numbered evs ≤ 2 ^ 64)
    (hreq : ∀ prog ∈ progs, Requests prog)
    {b b' : BoardState} (he : LogEvolves b s.spLog b') {p : Nat} (hp : b' p ≠ b p) :
    AsksToChange progs s p := by
  refine Classical.byContradiction fun hno => hp ?_
  obtain ⟨⟨ioEvs, inv⟩, hl⟩ := sysInv_run evs (P := Proper) (fun _ _ h => h.1) (sysInv_init lim progs) (by simp [Sys.init])
    hsp (by omega) h
  refine logEvolves_quiet he p fun x hx => ?_
  obtain ⟨j, tk, c, id, h3, h4, h5, -⟩ := C65_only lim _ evs s h (fun r out h => (hsp r out h).1) hn x hx
  rcases asks_or_quiet inv hl hreq p h3 h4 with h6 | ⟨q, h6, h7⟩
  · exact absurd h6 hno
  · exact ⟨q, _, h5 ▸ received_call.2 ⟨h6, rfl⟩, h7⟩

/-- **C133**: whatever the network does and however the tasks end, a module that no method was given is not touched. -/
theorem C133_others (lim : Option Nat) (ops : List Op) (evs : List SysEvent) (s : Sys Unit)
    (h : (Sys.init lim (ops.map Op.prog)).run evs = some s) (hsp : SpDoes Proper evs) (hn : numbered evs ≤ 2 ^ 64)
    (b b' : BoardState) (he : LogEvolves b s.spLog b') (p : Nat)
    (hp : ∀ op ∈ ops, ∀ m, opModules op = some m → ¬ Mem m p) : b' p = b p := by
  refine Classical.byContradiction fun hne => ?_
  obtain ⟨i, tk, prog, t, o, -, h2, h3, -, h5, y, h6, q, h7, h8, g, h9, h10⟩ := touched_by h hsp hn (by
    intro prog hprog t o hr x hx
    obtain ⟨op, -, rfl⟩ := List.mem_map.1 hprog
    obtain ⟨q, h9, -⟩ := C37_partial _ _ o hr x hx
    exact ⟨q, by unfold requestOf; rw [h9]⟩) he hne
  obtain ⟨op, hin, rfl⟩ := List.mem_map.1 (List.mem_of_getElem? h2)
  cases hm : opModules op with
  | some m => exact hp _ hin m hm (C84_addresses _ m hm _ o h3 h5 y h6 q g h7 h9 p h10)
  | none =>
    have hins : Inspects op := by
      cases hop' : op with
      | macAddrs => trivial
      | _ => rw [hop'] at hm; cases hm
    obtain ⟨q', g3, g4, -⟩ := C85_queries _ hins _ o h3 y h6
    rw [h7] at g3
    cases g3
    exact h8 g4

/-- Likewise for the tool: a port is only touched if the tool had selected it, from the answers it got. -/
theorem C133_tool (lim : Option Nat) (fmt : Cli.Fmt) (sel : Option Cli.Transceivers) (ign : Bool) (cmd : Cli.Cmd)
    (evs : List SysEvent) (s : Sys Cli.Exit) (h : (Sys.init lim [Cli.main fmt sel ign cmd]).run evs = some s)
    (hsp : SpDoes Proper evs) (hn : numbered evs ≤ 2 ^ 64) (b b' : BoardState) (he : LogEvolves b s.spLog b') (p : Nat)
    (hp : b' p ≠ b p) :
    ∃ (tk : Task Cli.Exit) (t₁ t₂ : List Exchange) (m : ModuleId), s.tasks[0]? = some tk ∧ tk.past = t₁ ++ t₂ ∧
      Prog.Runs (Cli.addressTransceivers (sel.getD .all)) t₁ (.ok m) ∧ Mem m p ∧
      ∃ q d, Changes cmd q d ∧ Names q p := by
  obtain ⟨i, tk, prog, t, o, h1, h2, h3, h4, h5, y, h6, q, h7, h8, g, h9, h10⟩ := touched_by h hsp hn (by
    intro prog hprog t o hr x hx
    cases List.mem_singleton.1 hprog
    obtain ⟨q, h9, -⟩ := C88_changes fmt sel ign cmd t o hr x hx
    exact ⟨q, h9⟩) he hp
  cases i with
  | succ i => cases h2
  | zero =>
    cases h2
    obtain ⟨q', g1, g2⟩ := C88_changes fmt sel ign cmd _ o h3 y h6
    rw [h7] at g1
    cases g1
    obtain ⟨t₁, t₂, e1, e2, e3⟩ := C89_selected fmt sel ign cmd _ o h3 h5
    have hy : y ∈ t₂ := by
      rw [e1] at h6
      refine (List.mem_append.1 h6).resolve_left fun hy => ?_
      obtain ⟨q', k1, k2, -⟩ := e2 y hy
      rw [h7] at k1
      cases k1
      exact h8 k2
    rcases e3 with (⟨rfl, -⟩ | ⟨rfl, -⟩) | ⟨m, k1, -, k3⟩
    · cases hy
    · cases hy
    · have hall := Prog.allCalls_ok (all_select _) k1
      have hpre : ∃ u, tk.past = t₁ ++ u := by
        rcases List.append_eq_append_iff.1 e1 with ⟨u, l1, l2⟩ | ⟨u, l1, -⟩
        · cases u with
          | nil => exact ⟨[], by rw [l1]; simp⟩
          | cons x u =>
            obtain ⟨resp, l3⟩ := hall x (by rw [l1]; simp)
            rw [h4 x (by rw [l2]; simp)] at l3
            cases l3
        · exact ⟨u, l1⟩
      obtain ⟨u, hu⟩ := hpre
      exact ⟨tk, t₁, u, m, h1, hu, k1, k3 y hy q g h7 h9 p h10, q, _,
        g2.resolve_left (fun l => h8 l.1), g, h9, h10⟩

/-- With ports listed on the command line, any other port is as it was. -/
theorem C133_listed (lim : Option Nat) (fmt : Cli.Fmt) (m : ModuleId) (ign : Bool) (cmd : Cli.Cmd)
    (evs : List SysEvent) (s : Sys Cli.Exit)
    (h : (Sys.init lim [Cli.main fmt (some (.index m)) ign cmd]).run evs = some s)
    (hsp : SpDoes Proper evs) (hn : numbered evs ≤ 2 ^ 64) (b b' : BoardState) (he : LogEvolves b s.spLog b') (p : Nat)
    (hp : ¬ Mem m p) : b' p = b p := by
  refine Classical.byContradiction fun hne => ?_
  obtain ⟨-, t₁, -, m', -, -, h1, h2, -⟩ := C133_tool lim fmt _ ign cmd evs s h hsp hn b b' he p hne
  have : Prog.Runs (.ret m) t₁ (.ok m') := h1
  rw [Prog.runs_ret] at this
  cases this.2
  exact hp h2

/-! ### Examples -/

/-- A board with power; `reset` of port 0 as given. -/
def resetBoard (reset : Bool) : BoardState := fun p =>
  ⟨true, if p = 0 then reset else false, false, .off, fun a => if a = 0 then 0x11 else 0, fun _ _ => 0⟩

theorem names_zero {q : HostRequest} (hq : requestModules q = some ⟨0b1⟩) {p : Nat} : Names q p ↔ p = 0 := by
  constructor
  · rintro ⟨m, h1, h2⟩
    rw [hq] at h1
    cases h1
    have hlt : p < 64 := BitVec.lt_of_getLsbD h2
    have : ∀ p : Fin 64, Mem ⟨0b1⟩ p.val → p.val = 0 := by decide
    exact this ⟨p, hlt⟩ h2
  · rintro rfl
    exact ⟨_, hq, by decide⟩

/-- The steps of a reset, and of a request for it that comes late. -/
theorem reset_step (id : U64) (a : Bool) (hlen : (responsePkt id (.ack ⟨0b1⟩ ⟨0⟩) []).length ≤ 1060) :
    LogStep (callBytes id (Call.host (.assertReset ⟨0b1⟩)), [responsePkt id (.ack ⟨0b1⟩ ⟨0⟩) []]) (resetBoard a)
      (resetBoard true) ∧
    LogStep (callBytes id (Call.host (.deassertReset ⟨0b1⟩)), [responsePkt id (.ack ⟨0b1⟩ ⟨0⟩) []]) (resetBoard a)
      (resetBoard false) := by
  have hrec : ∀ p v, record (.ack ⟨0b1⟩ ⟨0⟩) [] p = some v → p = 0 := by
    intro p v h
    have hlt := record_lt h
    have : ∀ p : Fin 64, (record (.ack ⟨0b1⟩ ⟨0⟩) [] p.val).isSome → p.val = 0 := by decide
    exact this ⟨p, hlt⟩ (by rw [h]; rfl)
  constructor
  · refine logStep_response hlen (by decide) (fun p v h => ?_) fun p h => ?_
    · cases hrec p v h
      exact ⟨trivial, rfl, rfl, rfl, rfl⟩
    · rcases h with h | h
      · exact absurd h fun h => h
      · rw [names_zero rfl] at h
        unfold resetBoard
        rw [if_neg h, if_neg h]
  · refine logStep_response hlen (by decide) (fun p v h => ?_) fun p h => ?_
    · cases hrec p v h
      exact ⟨trivial, rfl, rfl, rfl, rfl⟩
    · rcases h with h | h
      · exact absurd h fun h => h
      · rw [names_zero rfl] at h
        unfold resetBoard
        rw [if_neg h, if_neg h]

theorem ack_answers (q : HostRequest) (hq : SameKind q (.ack ⟨0b1⟩ ⟨0⟩)) (hm : requestModules q = some ⟨0b1⟩) :
    Answers q (.ack ⟨0b1⟩ ⟨0⟩) (some []) := by
  refine ⟨hq, ?_, by decide, fun _ _ => trivial⟩
  intro m s f h1 h2
  rw [hm] at h1
  cases h1
  cases h2
  exact Bench.partition_of ⟨0b1⟩ ⟨0⟩

theorem resetDemo_proper : SpDoes Proper resetDemo := by
  intro r out h
  simp only [resetDemo, List.mem_cons, SysEvent.sp.injEq, reduceCtorEq, false_or, List.not_mem_nil, or_false] at h
  rcases h with ⟨rfl, rfl⟩ | ⟨rfl, rfl⟩ | ⟨rfl, rfl⟩
  · exact proper_response (ack_answers (.assertReset ⟨0b1⟩) trivial rfl) (by decide +kernel)
  · exact proper_response (ack_answers (.deassertReset ⟨0b1⟩) trivial rfl) (by decide +kernel)
  · exact proper_response (ack_answers (.assertReset ⟨0b1⟩) trivial rfl) (by decide +kernel)

/-- What a history came to. -/
theorem demo_state {progs : List (Prog α)} {lim : Option Nat} {evs : List SysEvent} {o : List (Option α)}
    {l : List (Bytes × List Bytes)}
    (h : ((Sys.init lim progs).run evs).map (fun s => (s.tasks.map Task.outcome, s.spLog)) = some (o, l)) :
    ∃ s, (Sys.init lim progs).run evs = some s ∧ s.tasks.map Task.outcome = o ∧ s.spLog = l := by
  obtain ⟨s, h1, h2⟩ := Option.map_eq_some_iff.1 h
  cases h2
  exact ⟨s, h1, rfl, rfl⟩

theorem outcome_task {s : Sys α} {o : List (Option α)} (h : s.tasks.map Task.outcome = o) {i : Nat} {a : α}
    (hi : o[i]? = some (some a)) : ∃ tk, s.tasks[i]? = some tk ∧ tk.prog = .ret a := by
  rw [← h, List.getElem?_map] at hi
  obtain ⟨tk, h1, h2⟩ := Option.map_eq_some_iff.1 hi
  refine ⟨tk, h1, ?_⟩
  unfold Task.outcome at h2
  split at h2
  · rename_i hp
    rw [hp, Option.some.inj h2]
  · cases h2

/-- What the SP did in `resetDemo`. -/
theorem resetDemo_state : ((Sys.init (some 3) [Controller.reset ⟨0b1⟩]).run resetDemo).map (fun s =>
      (s.tasks.map Task.outcome, s.spLog)) =
    let p0 := callBytes 0 (Call.host (.assertReset ⟨0b1⟩))
    let p1 := callBytes 1 (Call.host (.deassertReset ⟨0b1⟩))
    let r0 := responsePkt 0 (.ack ⟨0b1⟩ ⟨0⟩) []
    let r1 := responsePkt 1 (.ack ⟨0b1⟩ ⟨0⟩) []
    some ([some ⟨⟨0b1⟩, [()], ⟨⟨0⟩, []⟩⟩], [(p0, [r0]), (p1, [r1]), (p0, [r0])]) := by
  decide +kernel

/-- C132 is false: a module whose reset succeeded is in reset, because a copy of the first request came late. -/
theorem C132_false : ¬ ∀ (lim : Option Nat) (m : ModuleId) (evs : List SysEvent) (s : Sys (Res Unit))
    (tk : Task (Res Unit)) (res : Res Unit) (b b' : BoardState) (p : Nat),
    (Sys.init lim [Controller.reset m]).run evs = some s → SpDoes Proper evs → numbered evs ≤ 2 ^ 64 →
    s.tasks[0]? = some tk → tk.prog = .ret res → LogEvolves b s.spLog b' → NoCopies s → Mem res.modules p →
    SamePins { b p with reset := false } (b' p) := by
  intro hall
  obtain ⟨s, h1, h2, h3⟩ := demo_state resetDemo_state
  obtain ⟨tk, h4, h5⟩ := outcome_task h2 (i := 0) rfl
  have hcopies : NoCopies s := by
    have h6 := C66_counterexample
    rw [h1] at h6
    simp only [Option.map_some, Option.some.injEq, Prod.mk.injEq] at h6
    intro pkt
    rw [h6.2.1, h6.2.2]
    simp only [List.count_cons, List.count_nil]
    omega
  have := hall (some 3) ⟨0b1⟩ resetDemo s tk _ (resetBoard false) (resetBoard true) 0 h1 resetDemo_proper (by decide) h4 h5
    (by
      rw [h3]
      exact ⟨_, (reset_step 0 false (by decide +kernel)).1, _, (reset_step 1 true (by decide +kernel)).2, _,
        (reset_step 0 false (by decide +kernel)).1, rfl⟩) hcopies (by decide)
  exact absurd this.2.1 (by decide)

/-- The same history without the late copy meets all that `C132_reset_partial` asks for. -/
example : ∃ s tk, (Sys.init (some 3) [Controller.reset ⟨0b1⟩]).run (resetDemo.take 13) = some s ∧ s.tasks[0]? = some tk ∧
    tk.prog = .ret ⟨⟨0b1⟩, [()], ⟨⟨0⟩, []⟩⟩ ∧ SpDoes Proper (resetDemo.take 13) ∧
    LogEvolves (resetBoard false) s.spLog (resetBoard false) ∧ ChangesOnce s.spLog := by
  have h : ((Sys.init (some 3) [Controller.reset ⟨0b1⟩]).run (resetDemo.take 13)).map (fun s =>
      (s.tasks.map Task.outcome, s.spLog)) =
    some ([some ⟨⟨0b1⟩, [()], ⟨⟨0⟩, []⟩⟩],
      [(callBytes 0 (Call.host (.assertReset ⟨0b1⟩)), [responsePkt 0 (.ack ⟨0b1⟩ ⟨0⟩) []]),
        (callBytes 1 (Call.host (.deassertReset ⟨0b1⟩)), [responsePkt 1 (.ack ⟨0b1⟩ ⟨0⟩) []])]) := by decide +kernel
  obtain ⟨s, h1, h2, h3⟩ := demo_state h
  obtain ⟨tk, h4, h5⟩ := outcome_task h2 (i := 0) rfl
  refine ⟨s, tk, h1, h4, h5, fun r out hr => resetDemo_proper r out (List.mem_of_mem_take hr), ?_, ?_⟩
  · rw [h3]
    exact ⟨_, (reset_step 0 false (by decide +kernel)).1, _, (reset_step 1 true (by decide +kernel)).2, rfl⟩
  · intro pkt _ _ _ _
    rw [h3]
    exact List.nodup_iff_count.1 (by decide +kernel) pkt

/-- A reset in which both requests are sent and received twice, the copy of the first one after its answer. -/
def tardyDemo : List SysEvent :=
  let p0 := callBytes 0 (Call.host (.assertReset ⟨0b1⟩))
  let p1 := callBytes 1 (Call.host (.deassertReset ⟨0b1⟩))
  let r0 := responsePkt 0 (.ack ⟨0b1⟩ ⟨0⟩) []
  let r1 := responsePkt 1 (.ack ⟨0b1⟩ ⟨0⟩) []
  [.number 0, .submit 0, .loop (.accept true), .loop (.tick true), .sp p0 [r0], .deliver 9 r0 true, .receive 0,
    .number 0, .submit 0, .loop (.accept true), .loop (.tick true), .sp p0 [r0], .sp p1 [r1], .deliver 9 r1 true,
    .receive 0, .sp p1 [r1]]

theorem saysOk_ack (id : U64) (h : (responsePkt id (.ack ⟨0b1⟩ ⟨0⟩) []).length ≤ 1060) {p : Nat} :
    SaysOk [responsePkt id (.ack ⟨0b1⟩ ⟨0⟩) []] p ↔ p = 0 := by
  have hok : ∀ (c : Call) (resp : SpRpcResponse), resp.message.body = .spResponse (.ack ⟨0b1⟩ ⟨0⟩) →
      resp.data = some [] → okIn (c, .answer (.ok resp)) p = record (.ack ⟨0b1⟩ ⟨0⟩) [] p := by
    intro c resp h1 h2
    unfold okIn responseOf
    simp only [h1, h2]
  constructor
  · rintro ⟨pkt, h1, resp, c, ⟨rest, trailing, body, h3, h4, h5, h6, h7⟩, h8⟩
    cases List.mem_singleton.1 h1
    rw [headerOf_responsePkt _ _ _ h] at h3
    simp only [Option.some.injEq, Prod.mk.injEq] at h3
    rw [← h3.2, messageOf_responsePkt] at h4
    simp only [Option.some.injEq, Prod.mk.injEq] at h4
    obtain ⟨h4, rfl⟩ := h4
    have h9 := h6
    rw [← h4] at h9
    cases h9
    rw [hok c resp (by rw [h6]) h7.2] at h8
    have hall : ∀ p : Fin 64, (record (.ack ⟨0b1⟩ ⟨0⟩) [] p.val).isSome → p.val = 0 := by decide
    obtain ⟨v, hv⟩ := Option.isSome_iff_exists.1 h8
    exact hall ⟨p, record_lt hv⟩ h8
  · rintro rfl
    refine ⟨_, List.mem_singleton.2 rfl, ⟨Header.new id .spResponse, Message.new (.spResponse (.ack ⟨0b1⟩ ⟨0⟩)), some []⟩,
      Call.host (.assertReset ⟨0b1⟩), ⟨_, _, _, headerOf_responsePkt _ _ _ h, messageOf_responsePkt _ _, rfl, rfl, ?_⟩,
      by rw [hok _ _ rfl rfl]; decide⟩
    exact ⟨Nat.le_refl _, rfl⟩

/-- It meets all that `C132_order_partial`, `C132_fifo_partial` and `C132_reset_partial` ask for. -/
theorem tardyDemo_meets : ∃ s tk, (Sys.init (some 3) [Controller.reset ⟨0b1⟩]).run tardyDemo = some s ∧ s.tasks[0]? = some tk ∧
    tk.prog = .ret ⟨⟨0b1⟩, [()], ⟨⟨0⟩, []⟩⟩ ∧ SpDoes Proper tardyDemo ∧ Fifo s ∧ Alike s.spLog ∧
    ¬ ChangesOnce s.spLog ∧ LogEvolves (resetBoard false) s.spLog (resetBoard false) ∧ s.spLog =
      let x := (callBytes 0 (Call.host (.assertReset ⟨0b1⟩)), [responsePkt 0 (.ack ⟨0b1⟩ ⟨0⟩) []])
      let y := (callBytes 1 (Call.host (.deassertReset ⟨0b1⟩)), [responsePkt 1 (.ack ⟨0b1⟩ ⟨0⟩) []])
      [x, x, y, y] := by
  have h : ((Sys.init (some 3) [Controller.reset ⟨0b1⟩]).run tardyDemo).map (fun s =>
      (s.tasks.map Task.outcome, s.spLog)) =
    let x := (callBytes 0 (Call.host (.assertReset ⟨0b1⟩)), [responsePkt 0 (.ack ⟨0b1⟩ ⟨0⟩) []])
    let y := (callBytes 1 (Call.host (.deassertReset ⟨0b1⟩)), [responsePkt 1 (.ack ⟨0b1⟩ ⟨0⟩) []])
    some ([some ⟨⟨0b1⟩, [()], ⟨⟨0⟩, []⟩⟩], [x, x, y, y]) := by decide +kernel
  have hw : ((Sys.init (some 3) [Controller.reset ⟨0b1⟩]).run tardyDemo).map Sys.wire =
    let x := callBytes 0 (Call.host (.assertReset ⟨0b1⟩))
    let y := callBytes 1 (Call.host (.deassertReset ⟨0b1⟩))
    some [x, x, y, y] := by decide +kernel
  obtain ⟨s, h1, h2, h3⟩ := demo_state h
  obtain ⟨tk, h4, h5⟩ := outcome_task h2 (i := 0) rfl
  rw [h1] at hw
  simp only [Option.map_some, Option.some.injEq] at hw
  refine ⟨s, tk, h1, h4, h5, fun r out hr => ?_, ?_, ?_, ?_, ?_, h3⟩
  · simp only [tardyDemo, List.mem_cons, SysEvent.sp.injEq, reduceCtorEq, false_or, List.not_mem_nil, or_false] at hr
    rcases hr with ⟨rfl, rfl⟩ | ⟨rfl, rfl⟩ | ⟨rfl, rfl⟩ | ⟨rfl, rfl⟩
    · exact proper_response (ack_answers (.assertReset ⟨0b1⟩) trivial rfl) (by decide +kernel)
    · exact proper_response (ack_answers (.assertReset ⟨0b1⟩) trivial rfl) (by decide +kernel)
    · exact proper_response (ack_answers (.deassertReset ⟨0b1⟩) trivial rfl) (by decide +kernel)
    · exact proper_response (ack_answers (.deassertReset ⟨0b1⟩) trivial rfl) (by decide +kernel)
  · unfold Fifo
    rw [h3, hw]
    exact List.Sublist.refl _
  · have hall : ∀ x ∈ s.spLog, ∀ p, SaysOk x.2 p ↔ p = 0 := by
      intro x hx p
      rw [h3] at hx
      simp only [List.mem_cons, List.not_mem_nil, or_false] at hx
      rcases hx with rfl | rfl | rfl | rfl
      · exact saysOk_ack 0 (by decide +kernel)
      · exact saysOk_ack 0 (by decide +kernel)
      · exact saysOk_ack 1 (by decide +kernel)
      · exact saysOk_ack 1 (by decide +kernel)
    intro x hx y hy _ _ _ _ _ p hp
    rw [hall y hy]
    exact (hall x hx p).1 hp
  · intro ho
    have := ho (callBytes 0 (Call.host (.assertReset ⟨0b1⟩))) _ _ (received_call.2 ⟨rfl, rfl⟩) (fun h => h)
    rw [h3] at this
    exact absurd this (by decide +kernel)
  · rw [h3]
    exact ⟨_, (reset_step 0 false (by decide +kernel)).1, _, (reset_step 0 true (by decide +kernel)).1, _,
      (reset_step 1 true (by decide +kernel)).2, _, (reset_step 1 false (by decide +kernel)).2, rfl⟩

/-- A command that is received three times. -/
def repeatDemo : List SysEvent :=
  let p0 := callBytes 0 (Call.host (.assertReset ⟨0b1⟩))
  let r0 := responsePkt 0 (.ack ⟨0b1⟩ ⟨0⟩) []
  [.number 0, .submit 0, .loop (.accept true), .loop (.tick true), .sp p0 [r0], .sp p0 [r0], .deliver 9 r0 true, .receive 0,
    .sp p0 [r0]]

/-- It meets all that `C132_command_partial` asks for. -/
example : ∃ s tk, (Sys.init (some 3) [Controller.assertReset ⟨0b1⟩]).run repeatDemo = some s ∧ s.tasks[0]? = some tk ∧
    tk.prog = .ret ⟨⟨0b1⟩, [()], ⟨⟨0⟩, []⟩⟩ ∧ SpDoes Proper repeatDemo ∧ s.spLog.length = 3 ∧
    LogEvolves (resetBoard false) s.spLog (resetBoard true) ∧ ∀ x ∈ s.spLog, SaysOk x.2 0 := by
  have h : ((Sys.init (some 3) [Controller.assertReset ⟨0b1⟩]).run repeatDemo).map (fun s =>
      (s.tasks.map Task.outcome, s.spLog)) =
    let x := (callBytes 0 (Call.host (.assertReset ⟨0b1⟩)), [responsePkt 0 (.ack ⟨0b1⟩ ⟨0⟩) []])
    some ([some ⟨⟨0b1⟩, [()], ⟨⟨0⟩, []⟩⟩], [x, x, x]) := by decide +kernel
  obtain ⟨s, h1, h2, h3⟩ := demo_state h
  obtain ⟨tk, h4, h5⟩ := outcome_task h2 (i := 0) rfl
  refine ⟨s, tk, h1, h4, h5, fun r out hr => ?_, by rw [h3]; rfl, ?_, ?_⟩
  · simp only [repeatDemo, List.mem_cons, SysEvent.sp.injEq, reduceCtorEq, false_or, List.not_mem_nil, or_false] at hr
    have : r = callBytes 0 (Call.host (.assertReset ⟨0b1⟩)) ∧ out = [responsePkt 0 (.ack ⟨0b1⟩ ⟨0⟩) []] := by
      rcases hr with hr | hr | hr <;> exact hr
    obtain ⟨rfl, rfl⟩ := this
    exact proper_response (ack_answers (.assertReset ⟨0b1⟩) trivial rfl) (by decide +kernel)
  · rw [h3]
    exact ⟨_, (reset_step 0 false (by decide +kernel)).1, _, (reset_step 0 true (by decide +kernel)).1, _,
      (reset_step 0 true (by decide +kernel)).1, rfl⟩
  · intro x hx
    rw [h3] at hx
    have : x.2 = [responsePkt 0 (.ack ⟨0b1⟩ ⟨0⟩) []] := by
      simp only [List.mem_cons, List.not_mem_nil, or_false] at hx
      rcases hx with rfl | rfl | rfl <;> rfl
    rw [this]
    refine ⟨_, List.mem_singleton.2 rfl, ⟨Header.new 0 .spResponse, Message.new (.spResponse (.ack ⟨0b1⟩ ⟨0⟩)), some []⟩,
      Call.host (.assertReset ⟨0b1⟩), ⟨_, _, _, headerOf_responsePkt _ _ _ (by decide +kernel),
        messageOf_responsePkt _ _, rfl, rfl, ?_⟩, by decide⟩
    exact ⟨Nat.le_refl _, rfl⟩

/-- Two tasks look at the same time; the first request is received twice, once with a failure. -/
def lookDemo : List SysEvent :=
  let p0 := callBytes 0 (Call.host (.status ⟨0b11⟩))
  let p1 := callBytes 1 (Call.host (.status ⟨0b1⟩))
  let r0 := responsePkt 0 (.status ⟨0b01⟩ ⟨0b10⟩) [0x23, 6]
  let r1 := responsePkt 1 (.status ⟨0b1⟩ ⟨0⟩) [0x23]
  let r1' := responsePkt 1 (.status ⟨0⟩ ⟨0b1⟩) [6]
  [.number 0, .number 1, .submit 1, .loop (.accept true), .submit 0, .loop (.tick true), .sp p1 [r1], .sp p1 [r1'],
    .noise 7 [0xff] true, .deliver 9 r1 true, .loop (.accept true), .deliver 9 r1' true, .receive 1, .sp p0 [r0], .sp p0 [r0],
    .deliver 9 r0 true, .receive 0]

theorem status_step {id : U64} {m s f : ModuleId} {d : Bytes} (hl : (responsePkt id (.status s f) d).length ≤ 1060)
    (hsize : expectedTrailing (.status s f) = some d.length)
    (hs : ∀ p : Fin 64, (record (.status s f) d p.val).all (fun v => v == [0x23])) :
    LogStep (callBytes id (Call.host (.status m)), [responsePkt id (.status s f) d]) (resetBoard false)
      (resetBoard false) := by
  refine logStep_response hl hsize (fun p v h => ⟨fun x hx => ?_, rfl⟩) fun _ _ => rfl
  have h1 := hs ⟨p, record_lt h⟩
  rw [h] at h1
  simp only [Option.all_some, beq_iff_eq] at h1
  rw [h1] at hx
  cases hx
  unfold resetBoard
  refine ⟨rfl, rfl, ?_, rfl⟩
  split <;> rfl

example : ∃ s, (Sys.init (some 3) [Controller.status ⟨0b11⟩, Controller.status ⟨0b1⟩]).run lookDemo = some s ∧
    s.tasks.map Task.outcome = [some ⟨⟨0b01⟩, [0x23], ⟨⟨0b10⟩, [.hardware 1 .notPresent none]⟩⟩,
      some ⟨⟨0b1⟩, [0x23], ⟨⟨0⟩, []⟩⟩] ∧ LogEvolves (resetBoard false) s.spLog (resetBoard false) := by
  have h : ((Sys.init (some 3) [Controller.status ⟨0b11⟩, Controller.status ⟨0b1⟩]).run lookDemo).map (fun s =>
      (s.tasks.map Task.outcome, s.spLog)) =
    let x := (callBytes 0 (Call.host (.status ⟨0b11⟩)), [responsePkt 0 (.status ⟨0b01⟩ ⟨0b10⟩) [0x23, 6]])
    let y := (callBytes 1 (Call.host (.status ⟨0b1⟩)), [responsePkt 1 (.status ⟨0b1⟩ ⟨0⟩) [0x23]])
    let z := (callBytes 1 (Call.host (.status ⟨0b1⟩)), [responsePkt 1 (.status ⟨0⟩ ⟨0b1⟩) [6]])
    some ([some ⟨⟨0b01⟩, [0x23], ⟨⟨0b10⟩, [.hardware 1 .notPresent none]⟩⟩, some ⟨⟨0b1⟩, [0x23], ⟨⟨0⟩, []⟩⟩],
      [y, z, x, x]) := by decide +kernel
  obtain ⟨s, h1, h2, h3⟩ := demo_state h
  refine ⟨s, h1, h2, ?_⟩
  rw [h3]
  exact ⟨_, status_step (by decide +kernel) (by decide) (by decide +kernel), _,
    status_step (by decide +kernel) (by decide) (by decide +kernel), _,
    status_step (by decide +kernel) (by decide) (by decide +kernel), _,
    status_step (by decide +kernel) (by decide) (by decide +kernel), rfl⟩

example : Looks (Controller.status ⟨0b11⟩) := fun t o h x hx => by
  obtain ⟨q, h1, h2⟩ := Prog.allCalls_runs (C := fun c => ∃ q, c = Call.host q ∧ IsQuery q)
    (allCalls_status ⟨_, rfl, trivial⟩) h x hx
  exact ⟨q, requestOf_host h1, h2⟩

/-- A write of byte 93 that is received twice. -/
def writeDemo : List SysEvent :=
  let w : MemoryWrite := ⟨.sff8636 .lower, 93, 1⟩
  let p0 := callBytes 0 (Call.host (.read ⟨0b1⟩ identifierByte))
  let p1 := callBytes 1 (Call.host (.write ⟨0b1⟩ w) (some [5]))
  let r0 := responsePkt 0 (.read ⟨0b1⟩ ⟨0⟩ identifierByte) [0x11]
  let r1 := responsePkt 1 (.write ⟨0b1⟩ ⟨0⟩ w) []
  [.number 0, .submit 0, .loop (.accept true), .sp p0 [r0], .deliver 9 r0 true, .receive 0,
    .number 0, .submit 0, .loop (.accept true), .sp p1 [r1], .sp p1 [r1], .deliver 9 r1 true, .receive 0]

/-- The board after the write. -/
def writtenBoard : BoardState := fun p =>
  if p = 0 then (resetBoard false p).store ⟨.sff8636 .lower, 93, 1⟩ [5] else resetBoard false p

theorem write_step (b : BoardState) (hb : b = resetBoard false ∨ b = writtenBoard) :
    LogStep (callBytes 1 (Call.host (.write ⟨0b1⟩ ⟨.sff8636 .lower, 93, 1⟩) (some [5])),
      [responsePkt 1 (.write ⟨0b1⟩ ⟨0⟩ ⟨.sff8636 .lower, 93, 1⟩) []]) b writtenBoard := by
  refine logStep_response (by decide +kernel) (by decide) (fun p v h => ?_) fun p h => ?_
  · have hlt := record_lt h
    have : ∀ p : Fin 64, (record (.write ⟨0b1⟩ ⟨0⟩ ⟨.sff8636 .lower, 93, 1⟩) [] p.val).isSome → p.val = 0 := by decide
    obtain rfl : p = 0 := this ⟨p, hlt⟩ (by rw [h]; rfl)
    refine ⟨trivial, ?_⟩
    show writtenBoard 0 = (b 0).store _ _
    rcases hb with rfl | rfl
    · rfl
    · exact (store_twice (resetBoard false 0) ⟨.sff8636 .lower, 93, 1⟩ [5]).symm
  · rcases h with h | h
    · exact absurd h fun h => h
    · rw [names_zero rfl] at h
      rcases hb with rfl | rfl
      · unfold writtenBoard
        rw [if_neg h]
      · rfl

/-- It meets what `C132_write_partial` asks for. -/
example : ∃ s, (Sys.init (some 3) [Controller.write ⟨0b1⟩ ⟨.sff8636 .lower, 93, 1⟩ [5]]).run writeDemo = some s ∧
    s.tasks.map Task.outcome = [some ⟨⟨0b1⟩, [()], ⟨⟨0⟩, []⟩⟩] ∧ s.spLog.length = 3 ∧
    LogEvolves (resetBoard false) s.spLog writtenBoard := by
  have h : ((Sys.init (some 3) [Controller.write ⟨0b1⟩ ⟨.sff8636 .lower, 93, 1⟩ [5]]).run writeDemo).map (fun s =>
      (s.tasks.map Task.outcome, s.spLog)) =
    let x := (callBytes 0 (Call.host (.read ⟨0b1⟩ identifierByte)),
      [responsePkt 0 (.read ⟨0b1⟩ ⟨0⟩ identifierByte) [0x11]])
    let y := (callBytes 1 (Call.host (.write ⟨0b1⟩ ⟨.sff8636 .lower, 93, 1⟩) (some [5])),
      [responsePkt 1 (.write ⟨0b1⟩ ⟨0⟩ ⟨.sff8636 .lower, 93, 1⟩) []])
    some ([some ⟨⟨0b1⟩, [()], ⟨⟨0⟩, []⟩⟩], [x, y, y]) := by decide +kernel
  obtain ⟨s, h1, h2, h3⟩ := demo_state h
  refine ⟨s, h1, h2, by rw [h3]; rfl, ?_⟩
  rw [h3]
  refine ⟨_, logStep_response (c := resetBoard false) (by decide +kernel) (by decide) (fun p v h => ⟨?_, rfl⟩)
    fun _ _ => rfl, _, write_step _ (.inl rfl), _, write_step _ (.inr rfl), rfl⟩
  have hlt := record_lt h
  have hall : ∀ p : Fin 64, (record (.read ⟨0b1⟩ ⟨0⟩ identifierByte) [0x11] p.val).all (fun v => v == [0x11]) := by
    decide +kernel
  have h4 := hall ⟨p, hlt⟩
  rw [h] at h4
  simp only [Option.all_some, beq_iff_eq] at h4
  rw [h4]
  rfl

/-- `C133_others` for port 1 while port 0 is reset, also with the late copy. -/
example : ((Sys.init (some 3) ([Op.reset ⟨0b1⟩].map Op.prog)).run resetDemo).isSome ∧
    (∀ op ∈ [Op.reset ⟨0b1⟩], ∀ m, opModules op = some m → ¬ Mem m 1) := by
  refine ⟨by decide +kernel, fun op hop m hm => ?_⟩
  cases List.mem_singleton.1 hop
  cases hm
  decide

/-- `C133_tool` for the reset of port 0 with the late copy, which leaves the port in reset. -/
example : ∃ s, (Sys.init (some 3) [Cli.main plainFmt (some (.index ⟨0b1⟩)) false .reset]).run resetDemo = some s ∧
    SpDoes Proper resetDemo ∧ numbered resetDemo ≤ 2 ^ 64 ∧ LogEvolves (resetBoard false) s.spLog (resetBoard true) ∧
    resetBoard true 0 ≠ resetBoard false 0 ∧ resetBoard true 1 = resetBoard false 1 := by
  have h : ((Sys.init (some 3) [Cli.main plainFmt (some (.index ⟨0b1⟩)) false .reset]).run resetDemo).map (fun s =>
        s.spLog) =
      let p0 := callBytes 0 (Call.host (.assertReset ⟨0b1⟩))
      let p1 := callBytes 1 (Call.host (.deassertReset ⟨0b1⟩))
      let r0 := responsePkt 0 (.ack ⟨0b1⟩ ⟨0⟩) []
      let r1 := responsePkt 1 (.ack ⟨0b1⟩ ⟨0⟩) []
      some [(p0, [r0]), (p1, [r1]), (p0, [r0])] := by
    decide +kernel
  obtain ⟨s, h1, h2⟩ := Option.map_eq_some_iff.1 h
  refine ⟨s, h1, resetDemo_proper, by decide, ?_, fun h => ?_, rfl⟩
  · rw [h2]
    exact ⟨_, (reset_step 0 false (by decide +kernel)).1, _, (reset_step 1 true (by decide +kernel)).2, _,
      (reset_step 0 false (by decide +kernel)).1, rfl⟩
  · exact absurd (congrArg PortState.reset h) (by decide)

end Xcvr
