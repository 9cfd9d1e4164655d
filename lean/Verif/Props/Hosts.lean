import Verif.Lemmas.Hosts
import Verif.Props.SysBoard

/-! # C139: operations on different modules do not interfere -/

namespace Xcvr

open Spec Sys

variable {α : Type}

/-- **C139**: what becomes of a port that only tasks of one host are to change is decided by what the SP received from that
host. What it received from others, before, after or in between, can be left out. -/
theorem C139_isolated (hosts : List (Sigma Host)) (log : List (Nat × Bytes × List Bytes)) (ht : Together hosts log)
    (b b' : BoardState) (he : AllEvolve b log b') (k : Nat) (h : Host α) (hk : hosts[k]? = some ⟨α, h⟩) (port : Nat)
    (ho : ∀ k' h', k' ≠ k → hosts[k']? = some h' → ∀ p ∈ h'.2.progs, Spares p port) :
    LogEvolvesAt port (b port) h.state.spLog (b' port) := by
  have h1 := logEvolvesAt_filter (fun x => x.1 == k) (logEvolves_at he port) fun x hx hne => by
    obtain ⟨h', h2, h3⟩ := together_host ht hx
    exact host_quiet h'.2 (ho x.1 h' (by simpa using hne) h2) h3
  rw [ht.own k _ hk] at h1
  exact h1

/-- **C139** for methods: if the network keeps the order of what is to change the port (as C132 needs, with a single host),
what a method saw of a port that no other task is to change, on any host, is what happened to the port. So all that holds of
the method with the board to itself holds of that port. -/
theorem C139_order (hosts : List (Sigma Host)) (log : List (Nat × Bytes × List Bytes)) (ht : Together hosts log)
    (b b' : BoardState) (he : AllEvolve b log b') (k : Nat) (h : Host α) (hk : hosts[k]? = some ⟨α, h⟩) (j : Nat)
    (p : Prog α) (hp : h.progs[j]? = some p) (hc : Prog.AllCalls Bench.IsHost p) (port : Nat)
    (ho : OthersSpare hosts k j port) (tk : Task α) (hi : h.state.tasks[j]? = some tk) (a : α) (ha : tk.prog = .ret a)
    (hord : InOrderAt port h.state.spLog) (hal : AlikeAt port h.state.spLog) :
    Prog.Runs p tk.past (.ok a) ∧ Conforming tk.past ∧ EvolvesAt port (b port) tk.past (b' port) := by
  have h1 := C139_isolated hosts log ht b b' he k h hk port fun k' h' hne hk' p hp => by
    obtain ⟨j', hj, rfl⟩ := List.getElem_of_mem hp
    exact ho k' h' hk' j' _ (List.getElem?_eq_getElem hj) fun heq => hne (congrArg Prod.fst heq)
  exact order_at h.lim h.progs h.evs h.state h.ran h.proper h.few j p hp hc port
    (fun j' p' hne hp' => ho k ⟨α, h⟩ hk j' p' hp' fun heq => hne (congrArg Prod.snd heq)) tk hi a ha _ _ h1 hord hal

/-- A network that keeps the order of what one host sends is enough for `C139_order`, whatever it does between hosts. -/
theorem C139_fifo (h : Host α) (hf : Fifo h.state) (port : Nat) : InOrderAt port h.state.spLog :=
  inOrder_at (C132_fifo_partial h.lim h.progs h.evs h.state h.ran (fun r out hr => (h.proper r out hr).1) h.few hf) port

/-- **C139**, the power state. -/
theorem C139_power (hosts : List (Sigma Host)) (log : List (Nat × Bytes × List Bytes)) (ht : Together hosts log)
    (b b' : BoardState) (he : AllEvolve b log b') (k : Nat) (h : Host (Res Unit)) (hk : hosts[k]? = some ⟨Res Unit, h⟩)
    (j : Nat) (m : ModuleId) (st : PowerState) (hp : h.progs[j]? = some (Controller.setPower m st)) (port : Nat)
    (ho : OthersSpare hosts k j port) (tk : Task (Res Unit)) (hi : h.state.tasks[j]? = some tk) (res : Res Unit)
    (ha : tk.prog = .ret res) (hord : InOrderAt port h.state.spLog) (hal : AlikeAt port h.state.spLog)
    (hm : Mem res.modules port) (hf : ¬ Mem res.failures.modules port) : (b' port).power = st := by
  obtain ⟨h1, h2, h3⟩ := C139_order hosts log ht b b' he k h hk j _ hp (allCalls_setPower m st) port ho tk hi res ha hord hal
  exact C104_set_at m st tk.past res h1 h2 port _ _ h3 hm hf

/-- **C139**, reset. -/
theorem C139_reset (hosts : List (Sigma Host)) (log : List (Nat × Bytes × List Bytes)) (ht : Together hosts log)
    (b b' : BoardState) (he : AllEvolve b log b') (k : Nat) (h : Host (Res Unit)) (hk : hosts[k]? = some ⟨Res Unit, h⟩)
    (j : Nat) (m : ModuleId) (hp : h.progs[j]? = some (Controller.reset m)) (port : Nat)
    (ho : OthersSpare hosts k j port) (tk : Task (Res Unit)) (hi : h.state.tasks[j]? = some tk) (res : Res Unit)
    (ha : tk.prog = .ret res) (hord : InOrderAt port h.state.spLog) (hal : AlikeAt port h.state.spLog)
    (hm : Mem res.modules port) : SamePins { b port with reset := false } (b' port) := by
  obtain ⟨h1, h2, h3⟩ := C139_order hosts log ht b b' he k h hk j _ hp
    (allCalls_reset m (fun _ => ⟨_, _, rfl⟩) fun _ => ⟨_, _, rfl⟩) port ho tk hi res ha hord hal
  exact C105_reset_at m tk.past res h1 h2 port _ _ h3 hm

/-- **C139**, the commands of a single step. -/
theorem C139_command (hosts : List (Sigma Host)) (log : List (Nat × Bytes × List Bytes)) (ht : Together hosts log)
    (b b' : BoardState) (he : AllEvolve b log b') (k : Nat) (h : Host (Res Unit)) (hk : hosts[k]? = some ⟨Res Unit, h⟩)
    (j : Nat) (m : ModuleId) (led : LedState) (c : Prog (Res Unit) × HostRequest) (hm : c ∈ commands m led)
    (hp : h.progs[j]? = some c.1) (port : Nat) (ho : OthersSpare hosts k j port) (tk : Task (Res Unit))
    (hi : h.state.tasks[j]? = some tk) (res : Res Unit) (ha : tk.prog = .ret res) (hord : InOrderAt port h.state.spLog)
    (hal : AlikeAt port h.state.spLog) (hpm : Mem res.modules port) : Effect c.2 [] (b port) (b' port) := by
  obtain ⟨hc1, -, -⟩ := commands_eq m led c hm
  have hall : Prog.AllCalls (fun x => x = Call.host c.2) c.1 := hc1 ▸ allCalls_noPayloadRequest rfl
  obtain ⟨h1, h2, h3⟩ := C139_order hosts log ht b b' he k h hk j _ hp (Prog.allCalls_mono (fun x hx => ⟨_, _, hx⟩) hall)
    port ho tk hi res ha hord hal
  exact (C105_command_at m led c hm tk.past res h1 h2 port _ _ h3).1 hpm

theorem allCalls_write (m : ModuleId) (w : MemoryWrite) (data : Bytes) :
    Prog.AllCalls Bench.IsHost (Controller.write m w data) :=
  Prog.allCalls_bind (allCalls_identifier fun _ _ => ⟨_, _, rfl⟩) fun _ =>
    Prog.allCalls_bind (Prog.allCalls_ofExec _) fun _ =>
      Prog.allCalls_bind (allCalls_writeImpl fun _ => ⟨_, _, rfl⟩) fun _ => trivial

/-- **C139**, writes. -/
theorem C139_write (hosts : List (Sigma Host)) (log : List (Nat × Bytes × List Bytes)) (ht : Together hosts log)
    (b b' : BoardState) (he : AllEvolve b log b') (k : Nat) (h : Host (Res Unit)) (hk : hosts[k]? = some ⟨Res Unit, h⟩)
    (j : Nat) (m : ModuleId) (w : MemoryWrite) (data : Bytes) (hp : h.progs[j]? = some (Controller.write m w data))
    (port : Nat) (ho : OthersSpare hosts k j port) (tk : Task (Res Unit)) (hi : h.state.tasks[j]? = some tk)
    (res : Res Unit) (ha : tk.prog = .ret res) (hord : InOrderAt port h.state.spLog)
    (hal : AlikeAt port h.state.spLog) (hm : Mem res.modules port) : b' port = (b port).store w data := by
  obtain ⟨h1, h2, h3⟩ := C139_order hosts log ht b b' he k h hk j _ hp (allCalls_write m w data) port ho tk hi res ha hord hal
  exact (C105_write_at m w data tk.past res h1 h2 port _ _ h3).2 hm

/-- **C139** for those who look: whatever the network does, a port that no task is to change, on any host, stays as it is;
and what the tasks see of it is what is there. -/
theorem C139_looking (hosts : List (Sigma Host)) (log : List (Nat × Bytes × List Bytes)) (ht : Together hosts log)
    (b b' : BoardState) (he : AllEvolve b log b') (port : Nat) (ho : AllSpare hosts port) :
    b' port = b port ∧ ∀ (k : Nat) (h : Sigma Host) (j : Nat) (tk : Task h.1), hosts[k]? = some h →
      h.2.state.tasks[j]? = some tk → EvolvesAt port (b port) tk.past (b port) := by
  obtain ⟨h1, h2⟩ := logEvolvesAt_quiet (logEvolves_at he port) fun x hx => by
    obtain ⟨y, hy, rfl⟩ := List.mem_map.1 hx
    obtain ⟨h', h2, h3⟩ := together_host ht hy
    exact host_quiet h'.2 (ho h' (List.mem_of_getElem? h2)) h3
  refine ⟨h1, fun k h j tk hk hj => evolvesAt_still fun x hx => ?_⟩
  have hecho : SpDoes Echoes h.2.evs := fun r out hr => (h.2.proper r out hr).1
  obtain ⟨c, r⟩ := x
  by_cases hr : ∃ resp, r = .answer (.ok resp)
  · obtain ⟨resp, rfl⟩ := hr
    obtain ⟨id, out, pkt, h3, h4, h5, -⟩ := C65_served h.2.lim h.2.progs h.2.evs h.2.state h.2.ran hecho h.2.few j tk hj c
      resp hx
    obtain ⟨⟨_, inv⟩, hl⟩ := sysInv_run h.2.evs (P := Proper) (fun _ _ h => h.1) (sysInv_init h.2.lim h.2.progs)
      (by simp [Sys.init]) h.2.proper (by have := h.2.few; omega) h.2.ran
    obtain ⟨q, h6, -⟩ := spares_of inv hl hj (.inl (List.mem_map_of_mem hx)) fun p hp =>
      ho h (List.mem_of_getElem? hk) p (List.mem_of_getElem? hp)
    rw [← ht.own k h hk] at h3
    obtain ⟨y, h7, h8⟩ := List.mem_map.1 h3
    have h9 := h2 y.2 (List.mem_map_of_mem (List.mem_filter.1 h7).1)
    rw [h8] at h9
    exact logStep_call h9 h6 h4 h5
  · exact steps_unanswered (fun resp h => hr ⟨resp, h⟩) port _

/-- **C139**, the power mode. -/
theorem C139_report (hosts : List (Sigma Host)) (log : List (Nat × Bytes × List Bytes)) (ht : Together hosts log)
    (b b' : BoardState) (he : AllEvolve b log b') (port : Nat) (ho : AllSpare hosts port) (k : Nat)
    (h : Host (Res PowerMode)) (hk : hosts[k]? = some ⟨_, h⟩) (j : Nat) (m : ModuleId)
    (hp : h.progs[j]? = some (Controller.power m)) (tk : Task (Res PowerMode)) (hi : h.state.tasks[j]? = some tk)
    (res : Res PowerMode) (ha : tk.prog = .ret res) (hm : Mem res.modules port) :
    ∃ mode, okAt res port = some mode ∧ mode.state = (b port).power := by
  obtain ⟨h1, h2⟩ := C65_method h.lim h.progs h.evs h.state h.ran h.proper h.few j _ hp
    (allCalls_power m (fun g rd => ⟨_, _, rfl⟩) ⟨_, _, rfl⟩) tk hi res ha
  exact (C104_report_at m tk.past res h1 h2 port _ _
    ((C139_looking hosts log ht b b' he port ho).2 k ⟨_, h⟩ j tk hk hi) hm).2

/-- **C139**: a port that is not the same as it was: some task, on some host, asked for a change of it. -/
theorem C139_touched (hosts : List (Sigma Host)) (log : List (Nat × Bytes × List Bytes)) (ht : Together hosts log)
    (b b' : BoardState) (he : AllEvolve b log b') (port : Nat)
    (hreq : ∀ h ∈ hosts, ∀ p ∈ h.2.progs, Requests p) (hne : b' port ≠ b port) :
    ∃ (k : Nat) (h : Sigma Host), hosts[k]? = some h ∧ AsksToChange h.2.progs h.2.state port := by
  refine Classical.byContradiction fun hno => hne (logEvolves_quiet he port fun x hx => ?_)
  obtain ⟨y, hy, rfl⟩ := List.mem_map.1 hx
  obtain ⟨h, h2, h3⟩ := together_host ht hy
  obtain ⟨⟨_, inv⟩, hl⟩ := sysInv_run h.2.evs (P := Proper) (fun _ _ h => h.1) (sysInv_init h.2.lim h.2.progs)
    (by simp [Sys.init]) h.2.proper (by have := h.2.few; omega) h.2.ran
  obtain ⟨j, tk, c, id, h4, h5, h6, -⟩ := C65_only h.2.lim _ h.2.evs h.2.state h.2.ran
    (fun r out hr => (h.2.proper r out hr).1) h.2.few y.2 h3
  rcases asks_or_quiet inv hl (hreq h (List.mem_of_getElem? h2)) port h4 h5 with h7 | ⟨q, h7, h8⟩
  · exact absurd ⟨_, h, h2, h7⟩ hno
  · exact ⟨q, _, h6 ▸ received_call.2 ⟨h7, rfl⟩, h8⟩

/-! ### Who spares a port -/

/-- **C139**: a method spares the modules it is not given. -/
theorem C139_op (op : Op) (port : Nat) (h : ∀ m, opModules op = some m → ¬ Mem m port) : Spares op.prog port where
  requests := fun t o hr x hx => by
    obtain ⟨q, h9, -⟩ := C37_partial _ _ o hr x hx
    exact ⟨q, by unfold requestOf; rw [h9]⟩
  spares := fun t o hr ht x hx q hq => by
    cases hm : opModules op with
    | some m => exact .inr fun ⟨g, h9, h10⟩ => h m hm (C84_addresses _ m hm _ o hr ht x hx q g hq h9 port h10)
    | none =>
      have hins : Inspects op := by
        cases hop' : op with
        | macAddrs => trivial
        | _ => rw [hop'] at hm; cases hm
      obtain ⟨q', g3, g4, -⟩ := C85_queries _ hins _ o hr x hx
      rw [hq] at g3
      cases g3
      exact .inl g4

/-- A method that only looks spares all. -/
theorem C139_inspects (op : Op) (h : Inspects op) (port : Nat) : Spares op.prog port :=
  spares_looks (fun t o hr x hx => by
    obtain ⟨q, h1, h2, -⟩ := C85_queries _ h t o hr x hx
    exact ⟨q, h1, h2⟩) port

/-- What a program does before it goes on spares what the whole spares. -/
theorem C139_part {β : Type} (p : Prog α) (f : α → Prog β) (port : Nat)
    (h : Spares (p >>= f) port) : Spares p port := by
  have hrun : ∀ t o, Prog.Runs p t o → ∃ t' o', Prog.Runs (p >>= f) (t ++ t') o' ∧ ∀ x ∈ t', x.2 = .gone := by
    intro t o hr
    cases o with
    | ok a =>
      obtain ⟨t', o', h1, h2⟩ := runs_gone (f a)
      exact ⟨t', o', Prog.runs_bind.2 (.inl ⟨t, t', a, rfl, hr, h1⟩), h2⟩
    | err e => exact ⟨[], .err e, Prog.runs_bind.2 (.inr (.inl ⟨e, by simpa using hr, rfl⟩)), by simp⟩
    | panic => exact ⟨[], .panic, Prog.runs_bind.2 (.inr (.inr ⟨by simpa using hr, rfl⟩)), by simp⟩
  constructor
  · intro t o hr x hx
    obtain ⟨t', o', h1, -⟩ := hrun t o hr
    exact h.requests _ o' h1 x (List.mem_append_left _ hx)
  · intro t o hr ht x hx
    obtain ⟨t', o', h1, h2⟩ := hrun t o hr
    refine h.spares _ o' h1 (fun y hy => ?_) x (List.mem_append_left _ hx)
    rcases List.mem_append.1 hy with hy | hy
    · exact ht y hy
    · exact onTopic_unanswered fun resp hres => by
        rw [h2 y hy] at hres
        cases hres

/-- The tool spares the ports that are not listed on its command line. -/
theorem C139_tool (fmt : Cli.Fmt) (m : ModuleId) (ign : Bool) (cmd : Cli.Cmd) (port : Nat) (h : ¬ Mem m port) :
    Spares (Cli.main fmt (some (.index m)) ign cmd) port where
  requests := fun t o hr x hx => by
    obtain ⟨q, h9, -⟩ := C88_changes fmt _ ign cmd t o hr x hx
    exact ⟨q, h9⟩
  spares := fun t o hr ht x hx q hq =>
    .inr fun ⟨g, h9, h10⟩ => h (C89_listed fmt m ign cmd t o hr ht x hx q g hq h9 port h10)

/-- The tool's commands that only look spare all, whatever they select. -/
theorem C139_inspecting (fmt : Cli.Fmt) (sel : Option Cli.Transceivers) (ign : Bool) (cmd : Cli.Cmd)
    (h : Inspecting cmd) (port : Nat) : Spares (Cli.main fmt sel ign cmd) port :=
  spares_looks (fun t o hr x hx => by
    obtain ⟨q, h1, h2, -⟩ := C88_inspecting fmt sel ign cmd h t o hr x hx
    exact ⟨q, h1, h2⟩) port

/-! ### Example -/

/-- A board with power; `reset` of ports 0 and 1 as given. -/
def pairBoard (r₀ r₁ : Bool) : BoardState := fun p =>
  ⟨true, if p = 0 then r₀ else if p = 1 then r₁ else false, false, .off, fun a => if a = 0 then 0x11 else 0, fun _ _ => 0⟩

/-- The second host resets port 1, with the same message ids as the first, which resets port 0. -/
def otherDemo : List SysEvent :=
  let p0 := callBytes 0 (Call.host (.assertReset ⟨0b10⟩))
  let p1 := callBytes 1 (Call.host (.deassertReset ⟨0b10⟩))
  let r0 := responsePkt 0 (.ack ⟨0b10⟩ ⟨0⟩) []
  let r1 := responsePkt 1 (.ack ⟨0b10⟩ ⟨0⟩) []
  [.number 0, .submit 0, .loop (.accept true), .sp p0 [r0], .deliver 9 r0 true, .receive 0,
    .number 0, .submit 0, .loop (.accept true), .sp p1 [r1], .deliver 9 r1 true, .receive 0]

theorem ack_port {a : Nat} (ha : a < 2) {p : Nat} :
    (∀ v, record (.ack ⟨1 <<< a⟩ ⟨0⟩) [] p = some v → p = a) ∧ (Mem ⟨1 <<< a⟩ p ↔ p = a) := by
  have h1 : ∀ a : Fin 2, ∀ p : Fin 64, (record (.ack ⟨1 <<< a.val⟩ ⟨0⟩) [] p.val).isSome → p.val = a.val := by decide
  have h2 : ∀ a : Fin 2, ∀ p : Fin 64, (Mem ⟨1 <<< a.val⟩ p.val ↔ p.val = a.val) := by decide
  refine ⟨fun v h => h1 ⟨a, ha⟩ ⟨p, record_lt h⟩ (by rw [h]; rfl), fun h => ?_, fun h => ?_⟩
  · exact (h2 ⟨a, ha⟩ ⟨p, BitVec.lt_of_getLsbD h⟩).1 h
  · exact (h2 ⟨a, ha⟩ ⟨p, by omega⟩).2 h

theorem pair_step (id : U64) {a : Nat} (ha : a < 2) (r : Bool) (b c : BoardState)
    (hb : ∀ p, p ≠ a → c p = b p) (hc : c a = { b a with reset := r })
    (hlen : (responsePkt id (.ack ⟨1 <<< a⟩ ⟨0⟩) []).length ≤ 1060) :
    LogStep (callBytes id (Call.host (if r then .assertReset ⟨1 <<< a⟩ else .deassertReset ⟨1 <<< a⟩)),
      [responsePkt id (.ack ⟨1 <<< a⟩ ⟨0⟩) []]) b c := by
  have hsize : expectedTrailing (.ack ⟨1 <<< a⟩ ⟨0⟩) = some ([] : Bytes).length := by
    have : ∀ a : Fin 2, expectedTrailing (.ack ⟨1 <<< a.val⟩ ⟨0⟩) = some ([] : Bytes).length := by decide
    exact this ⟨a, ha⟩
  have hquiet : ∀ q : HostRequest, requestModules q = some ⟨1 <<< a⟩ → ¬ IsQuery q → ∀ p, IsQuery q ∨ ¬ Names q p → c p = b p := by
    intro q hq hnq p h
    rcases h with h | h
    · exact absurd h hnq
    · exact hb p fun hp => h ⟨_, hq, (ack_port ha).2.2 hp⟩
  cases r
  · refine logStep_response hlen hsize (fun p v h => ?_) (hquiet _ rfl fun h => h)
    obtain rfl := (ack_port ha).1 v h
    rw [hc]
    exact ⟨trivial, rfl, rfl, rfl, rfl⟩
  · refine logStep_response hlen hsize (fun p v h => ?_) (hquiet _ rfl fun h => h)
    obtain rfl := (ack_port ha).1 v h
    rw [hc]
    exact ⟨trivial, rfl, rfl, rfl, rfl⟩

/-- The two hosts meet all that `C139_isolated`, `C139_order` and `C139_reset` ask for, for port 0, and `C139_looking`, for
port 2. -/
example : ∃ (h₀ h₁ : Host (Res Unit)) (log : List (Nat × Bytes × List Bytes)) (tk : Task (Res Unit)),
    Together [⟨_, h₀⟩, ⟨_, h₁⟩] log ∧ AllEvolve (pairBoard true true) log (pairBoard false false) ∧ log.length = 6 ∧
    h₀.progs[0]? = some (Controller.reset ⟨0b1⟩) ∧ h₀.state.tasks[0]? = some tk ∧
    tk.prog = .ret ⟨⟨0b1⟩, [()], ⟨⟨0⟩, []⟩⟩ ∧ OthersSpare [⟨_, h₀⟩, ⟨_, h₁⟩] 0 0 0 ∧ InOrderAt 0 h₀.state.spLog ∧
    AlikeAt 0 h₀.state.spLog ∧ AllSpare [⟨_, h₀⟩, ⟨_, h₁⟩] 2 := by
  obtain ⟨s, tk, h1, h2, h3, h4, h5, h6, -, -, h7⟩ := tardyDemo_meets
  have g : ((Sys.init (some 3) [Controller.reset ⟨0b10⟩]).run otherDemo).map (fun s =>
      (s.tasks.map Task.outcome, s.spLog)) =
    some ([some ⟨⟨0b10⟩, [()], ⟨⟨0⟩, []⟩⟩],
      [(callBytes 0 (Call.host (.assertReset ⟨0b10⟩)), [responsePkt 0 (.ack ⟨0b10⟩ ⟨0⟩) []]),
        (callBytes 1 (Call.host (.deassertReset ⟨0b10⟩)), [responsePkt 1 (.ack ⟨0b10⟩ ⟨0⟩) []])]) := by decide +kernel
  obtain ⟨s', g1, -, g3⟩ := demo_state g
  have g4 : SpDoes Proper otherDemo := by
    have hans : ∀ q : HostRequest, SameKind q (.ack ⟨0b10⟩ ⟨0⟩) → requestModules q = some ⟨0b10⟩ →
        Answers q (.ack ⟨0b10⟩ ⟨0⟩) (some []) := by
      intro q hq hm
      refine ⟨hq, ?_, by decide, fun _ _ => trivial⟩
      intro m s f h1 h2
      rw [hm] at h1
      cases h1
      cases h2
      exact Bench.partition_of ⟨0b10⟩ ⟨0⟩
    intro r out h
    simp only [otherDemo, List.mem_cons, SysEvent.sp.injEq, reduceCtorEq, false_or, List.not_mem_nil, or_false] at h
    rcases h with ⟨rfl, rfl⟩ | ⟨rfl, rfl⟩
    · exact proper_response (hans (.assertReset ⟨0b10⟩) trivial rfl) (by decide +kernel)
    · exact proper_response (hans (.deassertReset ⟨0b10⟩) trivial rfl) (by decide +kernel)
  let h₀ : Host (Res Unit) := ⟨some 3, [Controller.reset ⟨0b1⟩], tardyDemo, s, h1, h4, by decide⟩
  let h₁ : Host (Res Unit) := ⟨some 3, [Controller.reset ⟨0b10⟩], otherDemo, s', g1, g4, by decide⟩
  let x := (callBytes 0 (Call.host (.assertReset ⟨0b1⟩)), [responsePkt 0 (.ack ⟨0b1⟩ ⟨0⟩) []])
  let y := (callBytes 1 (Call.host (.deassertReset ⟨0b1⟩)), [responsePkt 1 (.ack ⟨0b1⟩ ⟨0⟩) []])
  let u := (callBytes 0 (Call.host (.assertReset ⟨0b10⟩)), [responsePkt 0 (.ack ⟨0b10⟩ ⟨0⟩) []])
  let v := (callBytes 1 (Call.host (.deassertReset ⟨0b10⟩)), [responsePkt 1 (.ack ⟨0b10⟩ ⟨0⟩) []])
  refine ⟨h₀, h₁, [(0, x), (1, u), (0, x), (0, y), (1, v), (0, y)], tk, ⟨by simp, ?_⟩, ?_, rfl, rfl, h2, h3, ?_,
    C139_fifo h₀ h5 0, alike_at h6 0, ?_⟩
  · intro k h hk
    match k, hk with
    | 0, hk =>
      cases hk
      exact h7.symm
    | 1, hk =>
      cases hk
      exact g3.symm
  · have hne : ∀ (p : Nat) (a b c : Bool), p ≠ 0 → pairBoard b c p = pairBoard a c p := by
      intro p a b c hp
      unfold pairBoard
      rw [if_neg hp, if_neg hp]
    have hne' : ∀ (p : Nat) (a b c : Bool), p ≠ 1 → pairBoard c b p = pairBoard c a p := by
      intro p a b c hp
      unfold pairBoard
      rw [if_neg hp, if_neg hp]
    exact ⟨_, pair_step 0 (a := 0) (by decide) true _ (pairBoard true true) (fun p hp => hne p _ _ _ hp) rfl (by decide +kernel),
      _, pair_step 0 (a := 1) (by decide) true _ (pairBoard true true) (fun p hp => hne' p _ _ _ hp) rfl (by decide +kernel),
      _, pair_step 0 (a := 0) (by decide) true _ (pairBoard true true) (fun p hp => hne p _ _ _ hp) rfl (by decide +kernel),
      _, pair_step 1 (a := 0) (by decide) false _ (pairBoard false true) (fun p hp => hne p _ _ _ hp) rfl (by decide +kernel),
      _, pair_step 1 (a := 1) (by decide) false _ (pairBoard false false) (fun p hp => hne' p _ _ _ hp) rfl (by decide +kernel),
      _, pair_step 1 (a := 0) (by decide) false _ (pairBoard false false) (fun p hp => hne p _ _ _ hp) rfl (by decide +kernel),
      rfl⟩
  · intro k' h hk' j' p hp hne
    match k', j', hk', hp with
    | 0, 0, _, _ => exact absurd rfl hne
    | 0, j' + 1, hk', hp =>
      cases hk'
      cases hp
    | 1, 0, hk', hp =>
      cases hk'
      cases hp
      exact C139_part _ _ 0 (C139_op (.reset ⟨0b10⟩) 0 fun m hm => by cases hm; decide)
    | 1, j' + 1, hk', hp =>
      cases hk'
      cases hp
  · intro h hh p hp
    simp only [List.mem_cons, List.not_mem_nil, or_false] at hh
    rcases hh with rfl | rfl
    · cases List.mem_singleton.1 hp
      exact C139_part _ _ 2 (C139_op (.reset ⟨0b1⟩) 2 fun m hm => by cases hm; decide)
    · cases List.mem_singleton.1 hp
      exact C139_part _ _ 2 (C139_op (.reset ⟨0b10⟩) 2 fun m hm => by cases hm; decide)

end Xcvr
