import Verif.Lemmas.System
import Verif.Lemmas.Ops
import Verif.Props.Controller

/-! # C65: the whole system -/

namespace Xcvr

open Spec Sys

variable {α : Type}

/-- **C65**, programs: what a task did so far is part of a run of its program; and if it has come to an end, it is a
complete run with that end. So everything proved about all runs of a program holds of its executions in the system. -/
theorem C65_runs (lim : Option Nat) (progs : List (Prog α)) (evs : List SysEvent) (s : Sys α)
    (h : (Sys.init lim progs).run evs = some s) (hsp : SpDoes Echoes evs) (hn : numbered evs ≤ 2 ^ 64)
    (i : Nat) (p : Prog α) (hp : progs[i]? = some p) :
    ∃ tk, s.tasks[i]? = some tk ∧ (∀ t o, Prog.Runs tk.prog t o → Prog.Runs p (tk.past ++ t) o) ∧
      (∀ a, tk.prog = .ret a → Prog.Runs p tk.past (.ok a)) ∧
      (∀ e, tk.prog = .fail e → Prog.Runs p tk.past (.err e)) ∧ (tk.prog = .panic → Prog.Runs p tk.past .panic) := by
  obtain ⟨⟨_, inv⟩, -⟩ := sysInv_run evs (fun _ _ => id) (sysInv_init lim progs) (by simp [Sys.init]) hsp (by omega) h
  have hi : i < s.tasks.length := by
    rw [inv.length]
    exact (List.getElem?_eq_some_iff.mp hp).1
  have hl := inv.leads i p _ hp (List.getElem?_eq_getElem hi)
  refine ⟨_, List.getElem?_eq_getElem hi, hl, ?_, ?_, ?_⟩
  · intro a ha
    rw [ha] at hl
    simpa using hl [] (.ok a) rfl
  · intro e he
    rw [he] at hl
    simpa using hl [] (.err e) rfl
  · intro he
    rw [he] at hl
    simpa using hl [] .panic rfl

/-- **C65**: whatever the network does, if a call of any task returned a response, then the SP received the exact bytes of
that call, and sent that response in return. -/
theorem C65_served (lim : Option Nat) (progs : List (Prog α)) (evs : List SysEvent) (s : Sys α)
    (h : (Sys.init lim progs).run evs = some s) (hsp : SpDoes Echoes evs) (hn : numbered evs ≤ 2 ^ 64)
    (i : Nat) (tk : Task α) (hi : s.tasks[i]? = some tk) (c : Call) (resp : SpRpcResponse)
    (hx : (c, Reply.answer (.ok resp)) ∈ tk.past) : Served s.spLog c resp := by
  obtain ⟨⟨_, inv⟩, -⟩ := sysInv_run evs (fun _ _ => id) (sysInv_init lim progs) (by simp [Sys.init]) hsp (by omega) h
  obtain ⟨req, h1, h2⟩ := inv.past i tk c resp hi hx
  exact h2.served h1

/-- The SP decodes the bytes of a call to its message and its data. -/
theorem callBytes_dec (id : U64) (c : Call) : ∃ rest, dec (callBytes id c) = some (Header.new id c.kind, rest) ∧
    dec rest = some (c.message, c.data.getD []) :=
  C13_packet (Header.new id c.kind) c.message (c.data.getD [])

/-- **C65**: if the SP answers every request it receives properly, then a call answered with a response was answered
properly. -/
theorem C65_conforms (lim : Option Nat) (progs : List (Prog α)) (evs : List SysEvent) (s : Sys α)
    (h : (Sys.init lim progs).run evs = some s) (hsp : SpDoes Proper evs) (hn : numbered evs ≤ 2 ^ 64)
    (i : Nat) (tk : Task α) (hi : s.tasks[i]? = some tk) (q : HostRequest) (D : Option Bytes) (resp : SpRpcResponse)
    (hx : (Call.host q D, Reply.answer (.ok resp)) ∈ tk.past) :
    Conforms (Call.host q D, Reply.answer (.ok resp)) := by
  obtain ⟨⟨_, inv⟩, hl⟩ := sysInv_run evs (P := Proper) (fun _ _ h => h.1) (sysInv_init lim progs) (by simp [Sys.init]) hsp
    (by omega) h
  obtain ⟨req, h1, h2⟩ := inv.past i tk _ resp hi hx
  obtain ⟨id, out, pkt, h3, h4, h5, h6⟩ := h2.served h1
  obtain ⟨rest, trailing, body, h7, h8, h9, h10, h11⟩ := h5
  obtain ⟨r, h12, h13⟩ := callBytes_dec id (Call.host q D)
  have h5' : Says pkt resp := ⟨rest, trailing, body, h7, h8, h9, h10, h11⟩
  have ha := (hl _ h3).2 pkt h4 resp _ _ _ _ q body h5' h10 h12 h13 rfl
  refine ⟨q, body, resp.data, rfl, ?_, ha⟩
  simp only [responseOf, h10]

/-- **C65**: if the SP answers every request it receives properly, and a method that makes calls of the usual kind
returned a value, then what it saw is a run of the method in which every call was answered properly. So everything proved
about such runs (C33-C49) holds of what a user observes. -/
theorem C65_method (lim : Option Nat) (progs : List (Prog α)) (evs : List SysEvent) (s : Sys α)
    (h : (Sys.init lim progs).run evs = some s) (hsp : SpDoes Proper evs) (hn : numbered evs ≤ 2 ^ 64)
    (i : Nat) (p : Prog α) (hp : progs[i]? = some p) (hc : Prog.AllCalls Bench.IsHost p) (tk : Task α)
    (hi : s.tasks[i]? = some tk) (a : α) (ha : tk.prog = .ret a) :
    Prog.Runs p tk.past (.ok a) ∧ Conforming tk.past := by
  obtain ⟨tk', hi', -, hr, -⟩ := C65_runs lim progs evs s h (fun r out h => (hsp r out h).1) hn i p hp
  rw [hi] at hi'
  cases hi'
  refine ⟨hr a ha, fun x hx => ?_⟩
  obtain ⟨c, r⟩ := x
  obtain ⟨resp, rfl⟩ := Prog.allCalls_ok hc (hr a ha) _ hx
  obtain ⟨q, D, rfl⟩ := Prog.allCalls_runs hc (hr a ha) _ hx
  exact C65_conforms lim progs evs s h hsp hn i tk hi q D resp hx

/-- **C65** for every method of the controller. -/
theorem C65_op (lim : Option Nat) (ops : List Op) (evs : List SysEvent) (s : Sys Unit)
    (h : (Sys.init lim (ops.map Op.prog)).run evs = some s) (hsp : SpDoes Proper evs) (hn : numbered evs ≤ 2 ^ 64)
    (i : Nat) (op : Op) (hp : ops[i]? = some op) (tk : Task Unit) (hi : s.tasks[i]? = some tk) (ha : tk.prog = .ret ()) :
    Prog.Runs op.prog tk.past (.ok ()) ∧ Conforming tk.past :=
  C65_method lim _ evs s h hsp hn i op.prog (by rw [List.getElem?_map, hp]; rfl)
    (Prog.allCalls_mono (fun _ => isHost_of_shape) (allCalls_op op)) tk hi () ha

/-- **C65**: the SP receives nothing but the exact bytes of calls that tasks made, with message ids given out before. -/
theorem C65_only (lim : Option Nat) (progs : List (Prog α)) (evs : List SysEvent) (s : Sys α)
    (h : (Sys.init lim progs).run evs = some s) (hsp : SpDoes Echoes evs) (hn : numbered evs ≤ 2 ^ 64)
    (x : Bytes × List Bytes) (hx : x ∈ s.spLog) :
    ∃ (i : Nat) (tk : Task α) (c : Call) (id : U64), s.tasks[i]? = some tk ∧ Asked tk c ∧ x.1 = callBytes id c ∧
      id.toNat < numbered evs := by
  obtain ⟨⟨ioEvs, inv⟩, -⟩ := sysInv_run evs (fun _ _ => id) (sysInv_init lim progs) (by simp [Sys.init]) hsp (by omega) h
  have hw := inv.log x hx
  rw [inv.wire] at hw
  obtain ⟨chan, req, h1, h2⟩ := sent_request inv.nodup hw
  obtain ⟨i, tk, c, h3, h4, h5⟩ := inv.origin chan req h1
  have h6 := inv.small chan req h1
  obtain ⟨id, rfl⟩ := h4
  have h0 : id.toNat < 0 + numbered evs := h6
  rw [Nat.zero_add] at h0
  exact ⟨i, tk, c, id, h3, h5, h2, h0⟩

/-! ### A proper SP, and a history -/

theorem headerOf_responsePkt (id : U64) (R : SpResponse) (d : Bytes) (hl : (responsePkt id R d).length ≤ 1060) :
    headerOf (responsePkt id R d) = some (Header.new id .spResponse, enc (Message.new (.spResponse R)) ++ d) := by
  unfold headerOf
  rw [List.take_of_length_le hl, responsePkt, List.append_assoc, dec_enc]

theorem messageOf_responsePkt (R : SpResponse) (d : Bytes) :
    messageOf (enc (Message.new (.spResponse R)) ++ d) = some (Message.new (.spResponse R), d) := dec_enc _ _

/-- The obvious datagram with a proper answer is proper. -/
theorem proper_response {id : U64} {q : HostRequest} {D : Option Bytes} {R : SpResponse} {d : Option Bytes}
    (ha : Answers q R d) (hl : (responsePkt id R (d.getD [])).length ≤ 1060) :
    Proper (callBytes id (Call.host q D)) [responsePkt id R (d.getD [])] := by
  obtain ⟨r, h1, h2⟩ := callBytes_dec id (Call.host q D)
  constructor
  · intro pkt hp h rest hh _
    rw [List.mem_singleton] at hp
    subst hp
    rw [headerOf_responsePkt _ _ _ hl] at hh
    cases hh
    exact ⟨_, _, h1, rfl⟩
  · intro pkt hp resp h rest m D' q' body hs hb g1 g2 g3
    rw [List.mem_singleton] at hp
    subst hp
    rw [h1] at g1
    cases g1
    rw [h2] at g2
    cases g2
    cases g3
    obtain ⟨rest', trailing, body', h3, h4, h5, h6, h7⟩ := hs
    rw [headerOf_responsePkt _ _ _ hl] at h3
    simp only [Option.some.injEq, Prod.mk.injEq] at h3
    rw [← h3.2, messageOf_responsePkt] at h4
    simp only [Option.some.injEq, Prod.mk.injEq] at h4
    obtain ⟨h4, rfl⟩ := h4
    rw [hb] at h6
    cases h6
    rw [← h4] at hb
    cases hb
    have hsize := ha.size
    cases d with
    | none =>
      rw [← hsize] at h7
      replace h7 : resp.data = none := h7
      rw [h7]
      exact ha
    | some d =>
      rw [← hsize] at h7
      replace h7 : d.length ≤ d.length ∧ resp.data = some (d.take d.length) := h7
      rw [h7.2, List.take_length]
      exact ha

/-- Two tasks. Task 1 is first on the channel although task 0 took its id first. The request of task 1 is sent twice and
received twice, with different answers; the second comes late, while task 0 waits. -/
def sysDemo : List SysEvent :=
  let p0 := callBytes 0 (Call.host (.status ⟨0b11⟩))
  let p1 := callBytes 1 (Call.host (.status ⟨0b1⟩))
  let r0 := responsePkt 0 (.status ⟨0b01⟩ ⟨0b10⟩) [0x21, 6]
  let r1 := responsePkt 1 (.status ⟨0b1⟩ ⟨0⟩) [0x11]
  let r1' := responsePkt 1 (.status ⟨0⟩ ⟨0b1⟩) [6]
  [.number 0, .number 1, .submit 1, .loop (.accept true), .submit 0, .loop (.tick true), .sp p1 [r1], .sp p1 [r1'],
    .noise 7 [0xff] true, .deliver 9 r1 true, .loop (.accept true), .deliver 9 r1' true, .receive 1, .sp p0 [r0], .sp p0 [r0],
    .deliver 9 r0 true, .receive 0]

/-- Everything a task has come to. -/
def Task.outcome (tk : Task α) : Option α := match tk.prog with | .ret a => some a | _ => none

example : (((Sys.init (some 3) [Controller.status ⟨0b11⟩, Controller.status ⟨0b1⟩]).run sysDemo).map fun s =>
      (s.tasks.map Task.outcome, s.spLog.length)) =
    some ([some ⟨⟨0b01⟩, [0x21], ⟨⟨0b10⟩, [.hardware 1 .notPresent none]⟩⟩, some ⟨⟨0b1⟩, [0x11], ⟨⟨0⟩, []⟩⟩], 4) := by
  decide +kernel

example : SpDoes Proper sysDemo := by
  have ha : ∀ (m bad : ModuleId) (d : Bytes), d.length = card (m.remove bad) + card (m.and bad) →
      Answers (.status m) (.status (m.remove bad) (m.and bad)) (some d) := by
    intro m bad d hd
    refine ⟨trivial, ?_, ?_, fun _ _ => trivial⟩
    · intro m' s f h1 h2
      cases h1
      cases h2
      exact Bench.partition_of m bad
    · simp [expectedTrailing, hd]
  have h0 := ha ⟨0b11⟩ ⟨0b10⟩ [0x21, 6] (by decide)
  have h1 := ha ⟨0b1⟩ ⟨0⟩ [0x11] (by decide)
  have h2 := ha ⟨0b1⟩ ⟨0b1⟩ [6] (by decide)
  intro r out h
  simp only [sysDemo, List.mem_cons, SysEvent.sp.injEq, reduceCtorEq, false_or, List.not_mem_nil, or_false] at h
  rcases h with ⟨rfl, rfl⟩ | ⟨rfl, rfl⟩ | ⟨rfl, rfl⟩ | ⟨rfl, rfl⟩
  · exact proper_response h1 (by decide +kernel)
  · exact proper_response h2 (by decide +kernel)
  · exact proper_response h0 (by decide +kernel)
  · exact proper_response h0 (by decide +kernel)

example : numbered sysDemo = 2 := by decide

/-! ## C66 -/

/-- A reset whose first request is delayed: it is sent twice, and the second copy reaches the SP after the method
returned. -/
def resetDemo : List SysEvent :=
  let p0 := callBytes 0 (Call.host (.assertReset ⟨0b1⟩))
  let p1 := callBytes 1 (Call.host (.deassertReset ⟨0b1⟩))
  let r0 := responsePkt 0 (.ack ⟨0b1⟩ ⟨0⟩) []
  let r1 := responsePkt 1 (.ack ⟨0b1⟩ ⟨0⟩) []
  [.number 0, .submit 0, .loop (.accept true), .loop (.tick true), .sp p0 [r0], .deliver 9 r0 true, .receive 0,
    .number 0, .submit 0, .loop (.accept true), .sp p1 [r1], .deliver 9 r1 true, .receive 0, .sp p0 [r0]]

/-- C66 is false: after a reset that succeeded, the last thing the SP was asked is to assert reset. No datagram was
duplicated by the network. -/
theorem C66_counterexample :
    ((Sys.init (some 3) [Controller.reset ⟨0b1⟩]).run resetDemo).map (fun s =>
      (s.tasks.map Task.outcome, s.spLog.map Prod.fst, s.wire)) =
    let p0 := callBytes 0 (Call.host (.assertReset ⟨0b1⟩))
    let p1 := callBytes 1 (Call.host (.deassertReset ⟨0b1⟩))
    some ([some ⟨⟨0b1⟩, [()], ⟨⟨0⟩, []⟩⟩], [p0, p1, p0], [p0, p0, p1]) := by
  decide +kernel

/-- No datagram arrives at the SP more often than it was sent. -/
def Spec.NoCopies (s : Sys α) : Prop := ∀ pkt, (s.spLog.map Prod.fst).count pkt ≤ s.wire.count pkt

/-- C66, the part that holds: a request is sent at most as often as the configured number of tries, so if the network
makes no copies, the SP receives it at most that often. Missing: that it receives it no more once the call returned;
this follows only for a single try. -/
theorem C66_bounded_partial (lim : Option Nat) (progs : List (Prog α)) (evs : List SysEvent) (s : Sys α)
    (h : (Sys.init lim progs).run evs = some s) (hsp : SpDoes Echoes evs) (hn : numbered evs ≤ 2 ^ 64) (pkt : Bytes) :
    s.wire.count pkt ≤ max 1 (limitOf lim) ∧
      (NoCopies s → (s.spLog.map Prod.fst).count pkt ≤ max 1 (limitOf lim)) := by
  obtain ⟨⟨_, inv⟩, -⟩ := sysInv_run evs (fun _ _ => id) (sysInv_init lim progs) (by simp [Sys.init]) hsp (by omega) h
  have := inv.transmissions pkt
  exact ⟨this, fun hc => Nat.le_trans (hc pkt) this⟩

theorem spLog_grows {s s' : Sys α} {e : SysEvent} (h : s.step e = some s') : s.spLog <+: s'.spLog := by
  cases e with
  | sp r out =>
    simp only [Sys.step] at h
    split at h
    · cases h
      exact List.prefix_append _ _
    · cases h
  | number i | submit i | receive i | cancel i | deliver _ _ _ | noise _ _ _ | loop e =>
    simp only [Sys.step] at h
    repeat' split at h
    all_goals first | (cases h; exact List.prefix_refl _) | cases h

theorem spLog_run {s s' : Sys α} (evs : List SysEvent) (h : s.run evs = some s') : s.spLog <+: s'.spLog := by
  induction evs generalizing s with
  | nil => cases h; exact List.prefix_refl _
  | cons e evs ih =>
    rw [Sys.run] at h
    split at h
    · rename_i hs
      exact (spLog_grows hs).trans (ih h)
    · cases h

theorem run_append_sys {s s' : Sys α} (evs later : List SysEvent) (h : s.run evs = some s') :
    s.run (evs ++ later) = s'.run later := by
  induction evs generalizing s with
  | nil => cases h; rfl
  | cons e evs ih =>
    rw [Sys.run] at h
    rw [List.cons_append, Sys.run]
    split at h
    · rename_i hs
      exact ih h
    · cases h

/-- C66 for a single try: if the network makes no copies, a request that the SP received, for instance because its call
was answered, is not received again. -/
theorem C66_single_try_partial (lim : Option Nat) (progs : List (Prog α)) (evs later : List SysEvent) (s s' : Sys α)
    (h : (Sys.init lim progs).run evs = some s) (h' : s.run later = some s') (hsp : SpDoes Echoes (evs ++ later))
    (hn : numbered (evs ++ later) ≤ 2 ^ 64) (hl : limitOf lim ≤ 1) (hc : NoCopies s') :
    ∃ new, s'.spLog = s.spLog ++ new ∧ ∀ x ∈ s.spLog, ∀ y ∈ new, x.1 ≠ y.1 := by
  obtain ⟨new, hnew⟩ := spLog_run later h'
  refine ⟨new, hnew.symm, fun x hx y hy he => ?_⟩
  have := (C66_bounded_partial lim progs (evs ++ later) s' (by rw [run_append_sys _ _ h]; exact h') hsp hn x.1).2 hc
  rw [← hnew, List.map_append, List.count_append] at this
  have h1 : 0 < (s.spLog.map Prod.fst).count x.1 := List.count_pos_iff.mpr (List.mem_map_of_mem hx)
  have h2 : 0 < (new.map Prod.fst).count x.1 := List.count_pos_iff.mpr (by rw [he]; exact List.mem_map_of_mem hy)
  omega

/-- C66 as a whole is false, even if the network makes no copies and the SP answers properly. -/
theorem C66_false : ¬ ∀ (lim : Option Nat) (progs : List (Prog (Res Unit))) (evs later : List SysEvent)
    (s s' : Sys (Res Unit)), (Sys.init lim progs).run evs = some s → s.run later = some s' → SpDoes Proper (evs ++ later) →
    numbered (evs ++ later) ≤ 2 ^ 64 → NoCopies s' →
    ∃ new, s'.spLog = s.spLog ++ new ∧ ∀ x ∈ s.spLog, ∀ y ∈ new, x.1 ≠ y.1 := by
  intro hall
  have hs : ((Sys.init (some 3) [Controller.reset ⟨0b1⟩]).run (resetDemo.take 13)).isSome := by decide +kernel
  obtain ⟨s, hs⟩ := Option.isSome_iff_exists.mp hs
  have hce := C66_counterexample
  obtain ⟨s', hs', he⟩ := Option.map_eq_some_iff.mp hce
  have hsplit : resetDemo = resetDemo.take 13 ++ resetDemo.drop 13 := (List.take_append_drop _ _).symm
  have hs2 : s.run (resetDemo.drop 13) = some s' := by
    rw [← run_append_sys _ _ hs, ← hsplit]
    exact hs'
  have hlen : s.spLog.length = 2 := by
    have : (((Sys.init (some 3) [Controller.reset ⟨0b1⟩]).run (resetDemo.take 13)).map fun s => s.spLog.length) =
        some 2 := by decide +kernel
    rw [hs] at this
    simpa using this
  have ha : ∀ q : HostRequest, SameKind q (.ack ⟨0b1⟩ ⟨0⟩) → requestModules q = some ⟨0b1⟩ →
      Answers q (.ack ⟨0b1⟩ ⟨0⟩) (some []) := by
    intro q hq hm
    refine ⟨hq, ?_, by decide, fun _ _ => trivial⟩
    intro m s f h1 h2
    rw [hm] at h1
    cases h1
    cases h2
    exact Bench.partition_of ⟨0b1⟩ ⟨0⟩
  simp only [Prod.mk.injEq] at he
  obtain ⟨-, he1, he2⟩ := he
  obtain ⟨new, h1, h2⟩ := hall _ _ _ _ _ _ hs hs2 (by
    rw [← hsplit]
    intro r out h
    simp only [resetDemo, List.mem_cons, SysEvent.sp.injEq, reduceCtorEq, false_or, List.not_mem_nil, or_false] at h
    rcases h with ⟨rfl, rfl⟩ | ⟨rfl, rfl⟩ | ⟨rfl, rfl⟩
    · exact proper_response (ha (.assertReset ⟨0b1⟩) trivial rfl) (by decide +kernel)
    · exact proper_response (ha (.deassertReset ⟨0b1⟩) trivial rfl) (by decide +kernel)
    · exact proper_response (ha (.assertReset ⟨0b1⟩) trivial rfl) (by decide +kernel)) (by decide +kernel) (by
    intro pkt
    rw [he1, he2]
    exact Nat.le_of_eq (List.Perm.count_eq (List.Perm.cons _ (List.Perm.swap _ _ _)) _))
  rw [h1, List.map_append] at he1
  have hx := List.append_inj (s₁ := s.spLog.map Prod.fst) (s₂ := [_, _]) (t₁ := new.map Prod.fst) (t₂ := [_]) he1
    (by rw [List.length_map, hlen]; rfl)
  have hm1 : callBytes 0 (Call.host (.assertReset ⟨0b1⟩)) ∈ s.spLog.map Prod.fst := by
    rw [hx.1]
    exact List.mem_cons_self
  have hm2 : callBytes 0 (Call.host (.assertReset ⟨0b1⟩)) ∈ new.map Prod.fst := by
    rw [hx.2]
    exact List.mem_cons_self
  obtain ⟨x, hx1, hx2⟩ := List.mem_map.mp hm1
  obtain ⟨y, hy1, hy2⟩ := List.mem_map.mp hm2
  exact h2 x hx1 y hy1 (hx2.trans hy2.symm)

end Xcvr
