import Verif.Lemmas.Linear
import Verif.Lemmas.PowerRace
import Verif.Props.Hosts

/-!
# Properties: calls of tasks that share a controller take effect one at a time

- C140: what the SP did to the board is what the answered calls do, made one after the other in one order; each task's
  calls keep their order in it, and a call that was answered before another was made comes before it.
- C141: tasks that set the power of one module at the same time leave it in a state that one of them set.
-/

namespace Xcvr

open Spec Sys

variable {α : Type}

/-! ## C140 -/

/-- What the receptions of one host were marked with. -/
structure HostMarks {α : Type} (lim : Option Nat) (progs : List (Prog α)) (evs : List SysEvent) (s : Sys α) (L : Marks) :
    Prop where
  log : L.map Prod.fst = s.spLog
  ordered : Ordered s.tasks L.order
  cut : ∀ e₁ e₂ s₁, evs = e₁ ++ e₂ → (Sys.init lim progs).run e₁ = some s₁ → CutInv s₁ s L
  kind : ∀ port, ∀ z ∈ L, QuietPacket port z.1.1 ∨ ChangePacket port z.1.1
  served : ∀ y i x, (y, some (i, x)) ∈ L → ∃ id call resp pkt q, x = (call, Reply.answer (.ok resp)) ∧
    y.1 = callBytes id call ∧ pkt ∈ y.2 ∧ Says pkt resp ∧ call.message.body = .hostRequest q
  once : L.Pairwise fun z z' => z.2.isSome → z'.2.isSome → z.1.1 ≠ z'.1.1
  cover : ∀ port, (∀ (i : Nat) (p : Prog α) (tk : Task α), progs[i]? = some p → s.tasks[i]? = some tk →
    Spares p port ∨ Finished tk) → ∀ z ∈ L, ChangePacket port z.1.1 → ∃ y m, (y, some m) ∈ L ∧ y.1 = z.1.1

theorem marks_run {lim : Option Nat} {progs : List (Prog α)} {evs : List SysEvent} {s : Sys α}
    (h : (Sys.init lim progs).run evs = some s) (hsp : SpDoes Proper evs) (hn : numbered evs ≤ 2 ^ 64)
    (hreq : ∀ p ∈ progs, Requests p) : ∃ L, HostMarks lim progs evs s L := by
  have hecho : SpDoes Echoes evs := fun r out hr => (hsp r out hr).1
  obtain ⟨L, io, hm, inv, hf, -, hcut⟩ := marked_run evs (sysInv_init lim progs) (by simp [Sys.init]) hecho (by omega) h
    (marked_init lim progs) (fun chan req h => by cases h) (P := fun _ => False) (fun _ h => h.elim)
  have hprop : ∀ x ∈ s.spLog, Proper x.1 x.2 :=
    (sysInv_run evs (fun _ _ h => h.1) (sysInv_init lim progs) (by simp [Sys.init]) hsp (by omega) h).2
  have hbody : ∀ (i : Nat) (tk : Task α) (c : Call), s.tasks[i]? = some tk → Asked tk c →
      ∃ q, c.message.body = .hostRequest q := by
    intro i tk c hi ha
    obtain ⟨q, h1, -⟩ := requests_of inv hi ha (C := fun _ => True) fun p hp t o ht x hx => by
      obtain ⟨q, hq⟩ := hreq p (List.mem_of_getElem? hp) t o ht x hx
      exact ⟨q, hq, trivial⟩
    exact ⟨q, h1⟩
  have hprog : ∀ (i : Nat) (tk : Task α), s.tasks[i]? = some tk → ∃ p, progs[i]? = some p := by
    intro i tk hi
    have := (List.getElem?_eq_some_iff.mp hi).1
    rw [inv.length] at this
    exact ⟨_, List.getElem?_eq_getElem this⟩
  refine ⟨L, hm.log, ⟨hm.past, fun x hx => ?_⟩, hcut, fun port z hz => ?_, fun y i x hz => ?_, ?_, fun port hport z hz hch => ?_⟩
  · obtain ⟨⟨y, o⟩, hz, hzx⟩ := List.mem_filterMap.1 hx
    obtain ⟨k, hk, he⟩ := List.getElem_of_mem hz
    replace hzx : o = some x := hzx
    subst hzx
    exact (hm.served k y x.1 x.2 (by rw [List.getElem?_eq_getElem hk, he])).1
  · have hz' : z.1 ∈ s.spLog := by
      rw [← hm.log]
      exact List.mem_map_of_mem hz
    obtain ⟨i, tk, c, id, h1, h2, h3, -⟩ := C65_only lim progs evs s h hecho hn z.1 hz'
    obtain ⟨q, h4⟩ := hbody i tk c h1 h2
    have hr : Received z.1.1 q (c.data.getD []) := by
      rw [h3]
      exact received_call.2 ⟨h4, rfl⟩
    by_cases hq : IsQuery q ∨ ¬ Names q port
    · exact .inl ⟨q, _, hr, hq⟩
    · exact .inr ⟨q, _, hr, fun h => hq (.inl h), Classical.byContradiction fun h => hq (.inr h)⟩
  · obtain ⟨k, hk, he⟩ := List.getElem_of_mem hz
    obtain ⟨hlt, id, c, resp, pkt, h1, h2, h3, h4⟩ := hm.served k y i x (by rw [List.getElem?_eq_getElem hk, he])
    have hin : x ∈ callsOf i L.order := by
      unfold callsOf
      refine List.mem_map.2 ⟨(i, x), List.mem_filter.2 ⟨List.mem_filterMap.2 ⟨_, hz, rfl⟩, by simp⟩, rfl⟩
    rw [hm.past i _ (List.getElem?_eq_getElem hlt)] at hin
    have hpast := (List.mem_filter.1 hin).1
    obtain ⟨q, hq⟩ := hbody i _ c (List.getElem?_eq_getElem hlt) (.inl (by
      rw [h1] at hpast
      exact List.mem_map_of_mem (f := Prod.fst) hpast))
    exact ⟨id, c, resp, pkt, q, h1, h2, h3, h4, hq⟩
  · rw [List.pairwise_iff_getElem]
    intro k k' hk hk' hlt h1 h2 he
    obtain ⟨m, hm1⟩ := Option.isSome_iff_exists.1 h1
    obtain ⟨m', hm2⟩ := Option.isSome_iff_exists.1 h2
    have := hm.once k k' L[k].1 L[k'].1 m m' (by rw [List.getElem?_eq_getElem hk, ← hm1])
      (by rw [List.getElem?_eq_getElem hk', ← hm2]) he
    omega
  · have hz' : z.1 ∈ s.spLog := by
      rw [← hm.log]
      exact List.mem_map_of_mem hz
    have hw := inv.log z.1 hz'
    rw [inv.wire] at hw
    obtain ⟨chan, req, h1, h2⟩ := sent_request inv.nodup hw
    obtain ⟨i, tk, c, hi, hmade, hask, hfate⟩ := hf chan req h1
    obtain ⟨p, hp⟩ := hprog i tk hi
    rcases hport i p tk hp hi with hs | hfin
    · obtain ⟨q, h3, h4⟩ := spares_of inv hprop hi hask (port := port) fun p' hp' => by
        rw [hp] at hp'
        cases hp'
        exact hs
      refine absurd hch (quiet_not_change ⟨q, c.data.getD [], ?_, h4⟩)
      rw [h2]
      exact received_made hmade h3
    · rcases hfate with ⟨y, m, h3, h4⟩ | hwait | hdead
      · exact ⟨y, m, h3, h4.trans h2.symm⟩
      · obtain ⟨-, c', k', h5, -⟩ := inv.waiting i tk chan req hi hwait
        exact absurd h5 (hfin.2 c' k')
      · refine absurd ⟨fun x hx => ?_, fun _ => hfin.2⟩ hdead
        have := hfin.1 x hx
        unfold answeredOk at this
        split at this
        · rename_i resp hx2
          exact ⟨resp, hx2⟩
        · cases this

/-- **C140**: for every history there is one order of the calls of all tasks that were answered, such that each task's calls
are in the order it made them; the order can be cut at every point of the history, with what was answered by then before the
cut and what was called for later after it; and every port ends where these calls, one at a time and each once, take it, if
the tasks that are to change it came to their end with answers to all calls, no copy of a datagram that is to change it was
received after a later datagram, and copies were acknowledged alike. -/
theorem C140_linear (lim : Option Nat) (progs : List (Prog α)) (evs : List SysEvent) (s : Sys α)
    (h : (Sys.init lim progs).run evs = some s) (hsp : SpDoes Proper evs) (hn : numbered evs ≤ 2 ^ 64)
    (hreq : ∀ p ∈ progs, Requests p) :
    ∃ order, Ordered s.tasks order ∧
      (∀ e₁ e₂ s₁, evs = e₁ ++ e₂ → (Sys.init lim progs).run e₁ = some s₁ → CutAt s₁ order) ∧
      ∀ port, (∀ (i : Nat) (p : Prog α) (tk : Task α), progs[i]? = some p → s.tasks[i]? = some tk →
          Spares p port ∨ Finished tk) →
        InOrderAt port s.spLog → AlikeAt port s.spLog →
        ∀ b b', LogEvolvesAt port b s.spLog b' → EvolvesAt port b (order.map Prod.snd) b' := by
  obtain ⟨L, hm⟩ := marks_run h hsp hn hreq
  refine ⟨L.order, hm.ordered, fun e₁ e₂ s₁ he hr => (hm.cut e₁ e₂ s₁ he hr).cutAt, fun port hport hord hal b b' hev => ?_⟩
  let K : Keyed Bytes Nat := L.map fun z => (z.1.1, z)
  have hK : ∀ z ∈ K, z.2 ∈ L ∧ z.1 = z.2.1.1 := fun z hz => by
    obtain ⟨w, hw, rfl⟩ := List.mem_map.1 hz
    exact ⟨hw, rfl⟩
  have hin : ∀ w ∈ L, (w.1.1, w) ∈ K := fun w hw => List.mem_map.2 ⟨w, hw, rfl⟩
  have hlog : K.map (·.2.1) = s.spLog := by
    rw [← hm.log]
    simp [K]
  have horder : K.order = L.order := by
    simp [K, Keyed.order, Marks.order, List.filterMap_map, Function.comp_def]
  have hkeys : K.map (·.1) = s.spLog.map Prod.fst := by
    rw [← hm.log]
    simp [K]
  have hlin : ∀ z ∈ K, z.2.1 ∈ s.spLog := fun z hz => hlog ▸ List.mem_map_of_mem hz
  rw [← horder]
  refine collapse K.length K (Nat.le_refl _) (by rw [hlog]; exact hev) (fun z hz w hw he => ?_) (fun z hz hc x hx => ?_)
    (fun z hz w hw he hc hs => ?_) (fun z hz => hm.kind port _ (hK z hz).1)
    (fun k y i x hz => hm.served y i x (hK _ hz).1) ?_ fun z hz hc => ?_
  · rw [← (hK z hz).2, ← (hK w hw).2, he]
  · obtain ⟨q, d, h1, h2, h3⟩ := hc
    rw [← (hK z hz).2] at h1
    rw [hkeys]
    exact hord z.1 x q d h1 h2 h3 hx
  · obtain ⟨q, d, h1, h2, h3⟩ := hc
    exact hal _ (hlin z hz) _ (hlin w hw) (by rw [← (hK z hz).2, ← (hK w hw).2, he]) q d h1 h2 h3 hs
  · exact List.pairwise_map.2 hm.once
  · obtain ⟨y, m, h1, h2⟩ := hm.cover port hport z.2 (hK z hz).1 hc
    refine ⟨y, m, ?_⟩
    rw [(hK z hz).2, ← h2]
    exact hin _ h1

/-- All programs of the tasks make calls to the SP and nothing else. -/
theorem requests_calls {p : Prog α} (h : Prog.AllCalls Bench.IsHost p) : Requests p := by
  intro t o ht x hx
  obtain ⟨q, D, hq⟩ := Prog.allCalls_runs h ht x hx
  exact ⟨q, requestOf_host hq⟩

/-- A task that returned was answered to every call. -/
theorem finished_calls {lim : Option Nat} {progs : List (Prog α)} {evs : List SysEvent} {s : Sys α}
    (h : (Sys.init lim progs).run evs = some s) (hsp : SpDoes Proper evs) (hn : numbered evs ≤ 2 ^ 64)
    {i : Nat} {p : Prog α} (hp : progs[i]? = some p) (hc : Prog.AllCalls Bench.IsHost p) {tk : Task α}
    (hi : s.tasks[i]? = some tk) {a : α} (ha : tk.prog = .ret a) : Finished tk ∧ tk.past.filter answeredOk = tk.past := by
  obtain ⟨h1, -⟩ := C65_method lim progs evs s h hsp hn i p hp hc tk hi a ha
  have h2 : ∀ x ∈ tk.past, answeredOk x = true := by
    intro x hx
    obtain ⟨resp, hr⟩ := Prog.allCalls_ok hc h1 x hx
    unfold answeredOk
    rw [hr]
  exact ⟨⟨h2, fun c k hk => by rw [ha] at hk; cases hk⟩, List.filter_eq_self.2 h2⟩

/-- **C140**: if all tasks returned, then the calls of all tasks are in one order that takes the board where the SP took it,
and each task did what its program does when it gets these answers. -/
theorem C140_board (lim : Option Nat) (progs : List (Prog α)) (evs : List SysEvent) (s : Sys α)
    (h : (Sys.init lim progs).run evs = some s) (hsp : SpDoes Proper evs) (hn : numbered evs ≤ 2 ^ 64)
    (hc : ∀ p ∈ progs, Prog.AllCalls Bench.IsHost p) (hret : ∀ tk ∈ s.tasks, ∃ a, tk.prog = .ret a)
    (hord : InOrder s.spLog) (hal : Alike s.spLog) :
    ∃ order, (∀ x ∈ order, x.1 < progs.length) ∧
      (∀ (i : Nat) (p : Prog α) (tk : Task α) (a : α), progs[i]? = some p → s.tasks[i]? = some tk → tk.prog = .ret a →
        Prog.Runs p (callsOf i order) (.ok a) ∧ Conforming (callsOf i order)) ∧
      (∀ e₁ e₂ s₁, evs = e₁ ++ e₂ → (Sys.init lim progs).run e₁ = some s₁ → CutAt s₁ order) ∧
      ∀ b b', LogEvolves b s.spLog b' → Evolves b (order.map Prod.snd) b' := by
  obtain ⟨order, ho, hcut, hev⟩ := C140_linear lim progs evs s h hsp hn fun p hp => requests_calls (hc p hp)
  have hlen : s.tasks.length = progs.length := by
    obtain ⟨⟨_, inv⟩, -⟩ := sysInv_run evs (P := Proper) (fun _ _ h => h.1) (sysInv_init lim progs) (by simp [Sys.init]) hsp
      (by omega) h
    exact inv.length
  refine ⟨order, fun x hx => hlen ▸ ho.only x hx, fun i p tk a hp hi ha => ?_, hcut, fun b b' he => ?_⟩
  · have hcp := hc p (List.mem_of_getElem? hp)
    rw [ho.calls i tk hi, (finished_calls h hsp hn hp hcp hi ha).2]
    exact C65_method lim progs evs s h hsp hn i p hp hcp tk hi a ha
  · refine evolves_at.2 fun port => hev port (fun i p tk hp hi => .inr ?_) (inOrder_at hord port) (alike_at hal port) _ _
      (logEvolves_at he port)
    obtain ⟨a, ha⟩ := hret tk (List.mem_of_getElem? hi)
    exact (finished_calls h hsp hn hp (hc p (List.mem_of_getElem? hp)) hi ha).1

/-! ## C141 -/

/-- The task set the module's power to `st`: it was given the module, and returned success for it without a failure. -/
def SetTo (progs : List (Prog (Res Unit))) (s : Sys (Res Unit)) (port i : Nat) (st : PowerState) : Prop :=
  ∃ m tk res, progs[i]? = some (Controller.setPower m st) ∧ s.tasks[i]? = some tk ∧ tk.prog = .ret res ∧
    Mem res.modules port ∧ ¬ Mem res.failures.modules port

/-- **C141**: if every task of a controller spares the module or set its power, and one did, then the module ends in the
state that one of them set, however their calls were mixed: it is in no state between, as long as no copy of a datagram that
is to change the module is received after a later datagram, and copies are acknowledged alike. -/
theorem C141_race (lim : Option Nat) (progs : List (Prog (Res Unit))) (evs : List SysEvent) (s : Sys (Res Unit))
    (h : (Sys.init lim progs).run evs = some s) (hsp : SpDoes Proper evs) (hn : numbered evs ≤ 2 ^ 64) (port : Nat)
    (hreq : ∀ p ∈ progs, Requests p)
    (htasks : ∀ i p, progs[i]? = some p → Spares p port ∨ ∃ st, SetTo progs s port i st)
    (hone : ∃ i st, SetTo progs s port i st) (hord : InOrderAt port s.spLog) (hal : AlikeAt port s.spLog)
    (b b' : PortState) (he : LogEvolvesAt port b s.spLog b') :
    ∃ i, SetTo progs s port i b'.power := by
  obtain ⟨order, ho, -, hev⟩ := C140_linear lim progs evs s h hsp hn hreq
  obtain ⟨⟨_, inv⟩, hl⟩ := sysInv_run evs (P := Proper) (fun _ _ h => h.1) (sysInv_init lim progs) (by simp [Sys.init]) hsp
    (by omega) h
  have hev' : EvolvesAt port b (order.map Prod.snd) b' := by
    refine hev port (fun i p tk hp hi => ?_) hord hal b b' he
    rcases htasks i p hp with h1 | ⟨st, m, tk', res, h1, h2, h3, -⟩
    · exact .inl h1
    · rw [hi] at h2
      cases h2
      exact .inr (finished_calls h hsp hn h1 (allCalls_setPower m st) hi h3).1
  -- What each task did.
  have hset : ∀ i st, SetTo progs s port i st → Played port (callsOf i order) (some st) := by
    rintro i st ⟨m, tk, res, h1, h2, h3, h4, h5⟩
    obtain ⟨h6, h7⟩ := C65_method lim progs evs s h hsp hn i _ h1 (allCalls_setPower m st) tk h2 res h3
    rw [← (finished_calls h hsp hn h1 (allCalls_setPower m st) h2 h3).2, ← ho.calls i tk h2] at h6 h7
    cases st with
    | off => exact offs_of h6 h7 h4
    | low => exact ons_of (low := true) h6 h7 h4 h5
    | high => exact ons_of (low := false) h6 h7 h4 h5
  have hrest : ∀ i, (¬ ∃ st, SetTo progs s port i st) → Played port (callsOf i order) none := by
    intro i hno x hx
    have hlt := ho.only _ (callsOf_mem.1 hx)
    have hi := List.getElem?_eq_getElem hlt
    have hp : progs[i]? = some (progs[i]'(by rw [← inv.length]; exact hlt)) := List.getElem?_eq_getElem _
    rw [ho.calls i _ hi] at hx
    have hs := (htasks i _ hp).resolve_right hno
    obtain ⟨q, h1, h2⟩ := spares_of inv hl hi (c := x.1)
      (.inl (List.mem_map_of_mem (f := Prod.fst) (List.mem_filter.1 hx).1)) (port := port) fun p' hp' => by
        rw [hp] at hp'
        cases hp'
        exact hs
    refine ⟨q, ?_, h2⟩
    unfold requestOf
    rw [h1]
  let role : Nat → Option PowerState := fun i => open Classical in
    if h : ∃ st, SetTo progs s port i st then some h.choose else none
  have hrole : ∀ i st, role i = some st → SetTo progs s port i st := by
    intro i st hi
    simp only [role] at hi
    split at hi
    · rename_i hx
      rw [← Option.some.inj hi]
      exact hx.choose_spec
    · cases hi
  have hrace : Race port order role b b' := by
    refine ⟨hev', fun i => ?_, ?_⟩
    · cases hi : role i with
      | some st => exact hset i st (hrole i st hi)
      | none =>
        refine hrest i fun hx => ?_
        simp only [role, dif_pos hx] at hi
        cases hi
    · obtain ⟨i, st, hi⟩ := hone
      exact ⟨i, (⟨st, hi⟩ : ∃ st, SetTo progs s port i st).choose, by simp only [role, dif_pos (⟨st, hi⟩ : ∃ st, SetTo progs s port i st)]⟩
  obtain ⟨i, hi⟩ := hrace.winner
  exact ⟨i, hrole i _ hi⟩

/-! ### Example -/

/-- A call and its answer, one after the other. -/
def exchDemo (i : Nat) (id : U64) (q : HostRequest) (D : Option Bytes) (R : SpResponse) (d : Bytes) : List SysEvent :=
  [.number i, .submit i, .loop (.accept true), .sp (callBytes id (Call.host q D)) [responsePkt id R d],
    .deliver 9 (responsePkt id R d) true, .receive i]

/-- Two tasks set the power of the same module at the same time. -/
def raceProgs : List (Prog (Res Unit)) := [Controller.setPower ⟨0b1⟩ .off, Controller.setPower ⟨0b1⟩ .low]

/-- The first task's calls come between those of the second: 4, 6 and 10 are the first's. -/
def raceDemo : List SysEvent :=
  let m : ModuleId := ⟨0b1⟩
  let ctl : MemoryRead := ⟨.sff8636 .lower, 93, 1⟩
  let w : MemoryWrite := ⟨.sff8636 .lower, 93, 1⟩
  let ok : SpResponse := .ack ⟨0b1⟩ ⟨0⟩
  exchDemo 1 0 (.status m) none (.status m ⟨0⟩) [0x23] ++
  (exchDemo 1 1 (.read m identifierByte) none (.read m ⟨0⟩ identifierByte) [0x11] ++
  (exchDemo 1 2 (.read m ctl) none (.read m ⟨0⟩ ctl) [0] ++
  (exchDemo 1 3 (.status m) none (.status m ⟨0⟩) [0x23] ++
  (exchDemo 0 4 (.deassertLpMode m) none ok [] ++
  (exchDemo 1 5 (.assertLpMode m) none ok [] ++
  (exchDemo 0 6 (.assertReset m) none ok [] ++
  (exchDemo 1 7 (.read m identifierByte) none (.read m ⟨0⟩ identifierByte) [0x11] ++
  (exchDemo 1 8 (.write ⟨0⟩ w) (some [3]) (.write ⟨0⟩ ⟨0⟩ w) [] ++
  (exchDemo 1 9 (.write m w) (some [2]) (.write m ⟨0⟩ w) [] ++
  exchDemo 0 10 (.disablePower m) none ok [])))))))))

/-- The datagrams of an exchange. -/
def pairDemo (id : U64) (q : HostRequest) (D : Option Bytes) (R : SpResponse) (d : Bytes) : Bytes × List Bytes :=
  (callBytes id (Call.host q D), [responsePkt id R d])

/-- What the SP does in it. -/
def raceLog : List (Bytes × List Bytes) :=
  let m : ModuleId := ⟨0b1⟩
  let ctl : MemoryRead := ⟨.sff8636 .lower, 93, 1⟩
  let w : MemoryWrite := ⟨.sff8636 .lower, 93, 1⟩
  let ok : SpResponse := .ack ⟨0b1⟩ ⟨0⟩
  [pairDemo 0 (.status m) none (.status m ⟨0⟩) [0x23],
    pairDemo 1 (.read m identifierByte) none (.read m ⟨0⟩ identifierByte) [0x11],
    pairDemo 2 (.read m ctl) none (.read m ⟨0⟩ ctl) [0],
    pairDemo 3 (.status m) none (.status m ⟨0⟩) [0x23],
    pairDemo 4 (.deassertLpMode m) none ok [],
    pairDemo 5 (.assertLpMode m) none ok [],
    pairDemo 6 (.assertReset m) none ok [],
    pairDemo 7 (.read m identifierByte) none (.read m ⟨0⟩ identifierByte) [0x11],
    pairDemo 8 (.write ⟨0⟩ w) (some [3]) (.write ⟨0⟩ ⟨0⟩ w) [],
    pairDemo 9 (.write m w) (some [2]) (.write m ⟨0⟩ w) [],
    pairDemo 10 (.disablePower m) none ok []]

theorem names_of {q : HostRequest} {g : ModuleId} (hq : requestModules q = some g) {p : Nat} : Names q p ↔ Mem g p := by
  constructor
  · rintro ⟨m, h1, h2⟩
    rw [hq] at h1
    cases h1
    exact h2
  · exact fun h => ⟨g, hq, h⟩

/-- A step of the SP that concerns port 0. -/
theorem pairDemo_step {id : U64} {q : HostRequest} {D : Option Bytes} {R : SpResponse} {d : Bytes} {g : ModuleId}
    {s s' : PortState} (hl : (responsePkt id R d).length ≤ 1060) (hsize : expectedTrailing R = some d.length)
    (hq : requestModules q = some g) (hR : responseModules R = some (g, ⟨0⟩)) (hg : ∀ p : Fin 64, Mem g p.val → p.val = 0)
    (hs : ∀ v, record R d 0 = some v → Shows q v s ∧ Effect q (D.getD []) s s')
    (h0 : IsQuery q ∨ ¬ Mem g 0 → s' = s) : LogStepAt 0 (pairDemo id q D R d) s s' := by
  have := logStep_at (logStep_response (id := id) (q := q) (D := D) (R := R) (d := d)
    (b := fun p => if p = 0 then s else ⟨true, false, false, .off, fun _ => 0, fun _ _ => 0⟩)
    (c := fun p => if p = 0 then s' else ⟨true, false, false, .off, fun _ => 0, fun _ _ => 0⟩) hl hsize
    (fun p v h => ?_) fun p h => ?_) 0
  · exact this
  · have hp : p = 0 := by
      refine hg ⟨p, record_lt h⟩ ?_
      unfold record at h
      rw [hR] at h
      dsimp only at h
      split at h
      · assumption
      · cases h
    subst hp
    exact hs v h
  · by_cases hp : p = 0
    · subst hp
      rw [names_of hq] at h
      exact h0 h
    · simp only [if_neg hp]

theorem pairDemo_proper {id : U64} {q : HostRequest} {D : Option Bytes} {R : SpResponse} {d : Bytes} {g : ModuleId}
    (hl : (responsePkt id R d).length ≤ 1060) (hsize : expectedTrailing R = some d.length)
    (hq : requestModules q = some g) (hR : responseModules R = some (g, ⟨0⟩)) (hk : SameKind q R) (hv : KnownValues R d) :
    Proper (pairDemo id q D R d).1 (pairDemo id q D R d).2 := by
  refine proper_response (d := some d) ⟨hk, fun m s f h1 h2 => ?_, hsize.symm, fun d' h => ?_⟩ hl
  · rw [hq] at h1
    cases h1
    rw [hR] at h2
    cases h2
    intro p
    have : ¬ Mem ⟨0⟩ p := by simp [Mem]
    exact ⟨(or_iff_left this).symm, fun h => this h.2⟩
  · cases h
    exact hv

/-- The module before the race. -/
def raceStart : PortState := ⟨true, false, false, .off, fun a => if a = 0 then 0x11 else 0, fun _ _ => 0⟩

/-- The module after the race. -/
def raceEnd : PortState :=
  { ({ raceStart with lowPin := true, reset := true } : PortState).store ⟨.sff8636 .lower, 93, 1⟩ [2] with enabled := false }

theorem raceLog_evolves : LogEvolvesAt 0 raceStart raceLog raceEnd := by
  have hm : ∀ p : Fin 64, Mem (⟨0b1⟩ : ModuleId) p.val → p.val = 0 := by decide
  have hm0 : ∀ p : Fin 64, Mem (⟨0⟩ : ModuleId) p.val → p.val = 0 := by decide
  have hno : ¬ Mem (⟨0b1⟩ : ModuleId) 0 → False := by decide
  have hrec : ∀ (R : SpResponse) (d v : Bytes), record R d 0 = some d → record R d 0 = some v → v = d := by
    intro R d v h1 h2
    rw [h1] at h2
    exact (Option.some.inj h2).symm
  refine ⟨raceStart, pairDemo_step (g := ⟨0b1⟩) (by decide +kernel) (by decide) rfl rfl hm (fun v hv => ?_) fun _ => rfl,
    raceStart, pairDemo_step (g := ⟨0b1⟩) (by decide +kernel) (by decide) rfl rfl hm (fun v hv => ?_) fun _ => rfl,
    raceStart, pairDemo_step (g := ⟨0b1⟩) (by decide +kernel) (by decide) rfl rfl hm (fun v hv => ?_) fun _ => rfl,
    raceStart, pairDemo_step (g := ⟨0b1⟩) (by decide +kernel) (by decide) rfl rfl hm (fun v hv => ?_) fun _ => rfl,
    raceStart, pairDemo_step (g := ⟨0b1⟩) (by decide +kernel) (by decide) rfl rfl hm (fun v hv => ?_) fun _ => rfl,
    { raceStart with lowPin := true }, pairDemo_step (g := ⟨0b1⟩) (by decide +kernel) (by decide) rfl rfl hm
      (fun v hv => ?_) fun h => (h.elim (fun h => h.elim) hno).elim,
    { raceStart with lowPin := true, reset := true }, pairDemo_step (g := ⟨0b1⟩) (by decide +kernel) (by decide) rfl rfl hm
      (fun v hv => ?_) fun h => (h.elim (fun h => h.elim) hno).elim,
    { raceStart with lowPin := true, reset := true }, pairDemo_step (g := ⟨0b1⟩) (by decide +kernel) (by decide) rfl rfl hm
      (fun v hv => ?_) fun _ => rfl,
    { raceStart with lowPin := true, reset := true }, pairDemo_step (g := ⟨0⟩) (by decide +kernel) (by decide) rfl rfl hm0
      (fun v hv => by cases hv) fun _ => rfl,
    ({ raceStart with lowPin := true, reset := true } : PortState).store ⟨.sff8636 .lower, 93, 1⟩ [2],
    pairDemo_step (g := ⟨0b1⟩) (by decide +kernel) (by decide) rfl rfl hm
      (fun v hv => ?_) fun h => (h.elim (fun h => h.elim) hno).elim,
    raceEnd, pairDemo_step (g := ⟨0b1⟩) (by decide +kernel) (by decide) rfl rfl hm
      (fun v hv => ?_) fun h => (h.elim (fun h => h.elim) hno).elim, rfl⟩
  · cases hrec _ _ v (by decide +kernel) hv
    exact ⟨fun x hx => by cases hx; decide, rfl⟩
  · cases hrec _ _ v (by decide +kernel) hv
    exact ⟨rfl, rfl⟩
  · cases hrec _ _ v (by decide +kernel) hv
    exact ⟨rfl, rfl⟩
  · cases hrec _ _ v (by decide +kernel) hv
    exact ⟨fun x hx => by cases hx; decide, rfl⟩
  · exact ⟨trivial, rfl⟩
  · exact ⟨trivial, rfl⟩
  · exact ⟨trivial, rfl, rfl, rfl, rfl⟩
  · cases hrec _ _ v (by decide +kernel) hv
    exact ⟨rfl, rfl⟩
  · exact ⟨trivial, rfl⟩
  · exact ⟨trivial, rfl, rfl, rfl, rfl⟩

theorem raceDemo_proper : SpDoes Proper raceDemo := by
  intro r out h
  simp only [raceDemo, exchDemo, List.cons_append, List.nil_append, List.mem_cons, SysEvent.sp.injEq, reduceCtorEq, false_or,
    List.not_mem_nil, or_false] at h
  rcases h with ⟨rfl, rfl⟩ | ⟨rfl, rfl⟩ | ⟨rfl, rfl⟩ | ⟨rfl, rfl⟩ | ⟨rfl, rfl⟩ | ⟨rfl, rfl⟩ | ⟨rfl, rfl⟩ | ⟨rfl, rfl⟩ |
    ⟨rfl, rfl⟩ | ⟨rfl, rfl⟩ | ⟨rfl, rfl⟩
  · exact pairDemo_proper (g := ⟨0b1⟩) (by decide +kernel) (by decide) rfl rfl trivial trivial
  · exact pairDemo_proper (g := ⟨0b1⟩) (by decide +kernel) (by decide) rfl rfl rfl trivial
  · exact pairDemo_proper (g := ⟨0b1⟩) (by decide +kernel) (by decide) rfl rfl rfl trivial
  · exact pairDemo_proper (g := ⟨0b1⟩) (by decide +kernel) (by decide) rfl rfl trivial trivial
  · exact pairDemo_proper (g := ⟨0b1⟩) (by decide +kernel) (by decide) rfl rfl trivial trivial
  · exact pairDemo_proper (g := ⟨0b1⟩) (by decide +kernel) (by decide) rfl rfl trivial trivial
  · exact pairDemo_proper (g := ⟨0b1⟩) (by decide +kernel) (by decide) rfl rfl trivial trivial
  · exact pairDemo_proper (g := ⟨0b1⟩) (by decide +kernel) (by decide) rfl rfl rfl trivial
  · exact pairDemo_proper (g := ⟨0⟩) (by decide +kernel) (by decide) rfl rfl rfl trivial
  · exact pairDemo_proper (g := ⟨0b1⟩) (by decide +kernel) (by decide) rfl rfl rfl trivial
  · exact pairDemo_proper (g := ⟨0b1⟩) (by decide +kernel) (by decide) rfl rfl trivial trivial

theorem raceDemo_state : ((Sys.init (some 3) raceProgs).run raceDemo).map (fun s => (s.tasks.map Task.outcome, s.spLog)) =
    some ([some ⟨⟨0b1⟩, [()], ⟨⟨0⟩, []⟩⟩, some ⟨⟨0b1⟩, [()], ⟨⟨0⟩, []⟩⟩], raceLog) := by
  decide +kernel

/-- The race meets what `C140_board` and `C141_race` ask for: both tasks returned success for the module, and it is off. -/
example : ∃ s, (Sys.init (some 3) raceProgs).run raceDemo = some s ∧ SpDoes Proper raceDemo ∧ numbered raceDemo ≤ 2 ^ 64 ∧
    (∀ p ∈ raceProgs, Prog.AllCalls Bench.IsHost p) ∧ (∀ tk ∈ s.tasks, ∃ a, tk.prog = .ret a) ∧
    InOrder s.spLog ∧ Alike s.spLog ∧ SetTo raceProgs s 0 0 .off ∧ SetTo raceProgs s 0 1 .low ∧
    LogEvolvesAt 0 raceStart s.spLog raceEnd ∧ raceStart.power = .high ∧ raceEnd.power = .off := by
  obtain ⟨s, h1, h2, h3⟩ := demo_state raceDemo_state
  obtain ⟨tk0, h4, h5⟩ := outcome_task h2 (i := 0) rfl
  obtain ⟨tk1, h6, h7⟩ := outcome_task h2 (i := 1) rfl
  have honce : ChangesOnce s.spLog := by
    intro pkt _ _ _ _
    rw [h3]
    exact List.nodup_iff_count.1 (by decide +kernel) pkt
  refine ⟨s, h1, raceDemo_proper, by decide, fun p hp => ?_, fun tk htk => ?_, (C132_once_partial _ honce).1,
    (C132_once_partial _ honce).2, ⟨_, tk0, _, rfl, h4, h5, by decide, by decide⟩,
    ⟨_, tk1, _, rfl, h6, h7, by decide, by decide⟩, by rw [h3]; exact raceLog_evolves, by decide, by decide⟩
  · simp only [raceProgs, List.mem_cons, List.not_mem_nil, or_false] at hp
    rcases hp with rfl | rfl
    · exact allCalls_setPower _ _
    · exact allCalls_setPower _ _
  · obtain ⟨i, hi, rfl⟩ := List.getElem_of_mem htk
    have hlen : s.tasks.length = 2 := by
      have := congrArg List.length h2
      simpa using this
    match i, hi with
    | 0, hi =>
      rw [List.getElem?_eq_getElem hi] at h4
      exact ⟨_, Option.some.inj h4 ▸ h5⟩
    | 1, hi =>
      rw [List.getElem?_eq_getElem hi] at h6
      exact ⟨_, Option.some.inj h6 ▸ h7⟩
    | i + 2, hi => omega

end Xcvr
