import Verif.Spec.SysBoard
import Verif.Lemmas.Board
import Verif.Props.System

/-! # The board behind the whole system -/

namespace Xcvr

open Spec Sys

variable {α : Type}

/-- Every program has a run in which no call is answered. -/
theorem runs_gone (p : Prog α) : ∃ t o, Prog.Runs p t o ∧ ∀ x ∈ t, x.2 = .gone := by
  induction p with
  | ret a => exact ⟨[], .ok a, rfl, by simp⟩
  | fail e => exact ⟨[], .err e, rfl, by simp⟩
  | panic => exact ⟨[], .panic, rfl, by simp⟩
  | rpc c k ih =>
    obtain ⟨t, o, h1, h2⟩ := ih .gone
    refine ⟨(c, .gone) :: t, o, ⟨rfl, h1⟩, fun x hx => ?_⟩
    rcases List.mem_cons.1 hx with rfl | hx
    · rfl
    · exact h2 x hx

/-- What a task asked is in a run of its program that begins with what it saw, and in which nothing more is answered. -/
theorem asked_run {p : Prog α} {tk : Task α} (hl : Leads p tk.past tk.prog) {c : Call} (ha : Asked tk c) :
    ∃ t o, Prog.Runs p (tk.past ++ t) o ∧ (∀ x ∈ t, x.2 = .gone) ∧ ∃ x ∈ tk.past ++ t, x.1 = c := by
  rcases ha with ha | ⟨k, hk⟩
  · obtain ⟨t, o, h1, h2⟩ := runs_gone tk.prog
    obtain ⟨x, h3, h4⟩ := List.mem_map.1 ha
    exact ⟨t, o, hl t o h1, h2, x, List.mem_append_left _ h3, h4⟩
  · obtain ⟨t, o, h1, h2⟩ := runs_gone (k .gone)
    refine ⟨(c, .gone) :: t, o, hl _ o (by rw [hk]; exact ⟨rfl, h1⟩), fun x hx => ?_, (c, .gone), by simp, rfl⟩
    rcases List.mem_cons.1 hx with rfl | hx
    · rfl
    · exact h2 x hx

theorem requestOf_body {x : Exchange} {q : HostRequest} (h : requestOf x = some q) :
    x.1.message.body = .hostRequest q := by
  unfold requestOf at h
  split at h
  · rename_i hb
    cases h
    exact hb
  · cases h

theorem requestOf_call {c : Call} {r r' : Reply} : requestOf (c, r) = requestOf (c, r') := rfl

/-- The bytes of a call carry its request and its data. -/
theorem received_call {id : U64} {c : Call} {q : HostRequest} {d : Bytes} :
    Received (callBytes id c) q d ↔ c.message.body = .hostRequest q ∧ d = c.data.getD [] := by
  obtain ⟨rest, h1, h2⟩ := callBytes_dec id c
  constructor
  · rintro ⟨h, r, m, h3, h4, h5⟩
    rw [h1] at h3
    cases h3
    rw [h2] at h4
    cases h4
    exact ⟨h5, rfl⟩
  · rintro ⟨h3, rfl⟩
    exact ⟨_, _, _, h1, h2, h3⟩

/-- What an exchange does depends on its request, its data and its reply. -/
theorem steps_congr {x y : Exchange} (h1 : requestOf x = requestOf y) (h2 : x.1.data.getD [] = y.1.data.getD [])
    (h3 : x.2 = y.2) {p : Nat} {s s' : PortState} (h : StepsAt x p s s') : StepsAt y p s s' := by
  have hok : okIn x p = okIn y p := by
    unfold okIn responseOf
    rw [h3]
  constructor
  · intro q b hq hb
    exact h.shows q b (h1.trans hq) (hok.trans hb)
  · intro q hq
    exact h.quiet q (h1.trans hq)
  · intro q b hq hb
    rw [← h2]
    exact h.effect q b (h1.trans hq) (hok.trans hb)

/-- A call that was served took the port from `b` to `c`. -/
theorem logStep_call {id : U64} {call : Call} {out : List Bytes} {p : Nat} {b c : PortState}
    (h : LogStepAt p (callBytes id call, out) b c) {q : HostRequest} (hq : call.message.body = .hostRequest q) {pkt : Bytes}
    (hp : pkt ∈ out) {resp : SpRpcResponse} (hs : Says pkt resp) :
    StepsAt (call, .answer (.ok resp)) p b c := by
  have h1 : StepsAt (Call.host q (some (call.data.getD [])), .answer (.ok resp)) p b c :=
    h.executed q _ (received_call.2 ⟨hq, rfl⟩) pkt hp resp hs
  refine steps_congr (x := (Call.host q (some (call.data.getD [])), .answer (.ok resp))) (y := (call, .answer (.ok resp)))
    ?_ rfl rfl h1
  unfold requestOf
  rw [hq]
  rfl

theorem logEvolves_append {l₁ l₂ : List (Bytes × List Bytes)} {b b' : BoardState} :
    LogEvolves b (l₁ ++ l₂) b' ↔ ∃ c, LogEvolves b l₁ c ∧ LogEvolves c l₂ b' := by
  induction l₁ generalizing b with
  | nil => exact ⟨fun h => ⟨b, rfl, h⟩, fun ⟨c, h, h'⟩ => by cases h; exact h'⟩
  | cons x t ih =>
    constructor
    · rintro ⟨c, h, h'⟩
      obtain ⟨d, h1, h2⟩ := ih.1 h'
      exact ⟨d, ⟨c, h, h1⟩, h2⟩
    · rintro ⟨d, ⟨c, h, h1⟩, h2⟩
      exact ⟨c, h, ih.2 ⟨d, h1, h2⟩⟩

theorem logEvolves_one {x : Bytes × List Bytes} {b b' : BoardState} : LogEvolves b [x] b' ↔ LogStep x b b' :=
  ⟨fun ⟨c, h, h'⟩ => by cases h'; exact h, fun h => ⟨b', h, rfl⟩⟩

theorem logStep_at {x : Bytes × List Bytes} {b c : BoardState} (h : LogStep x b c) (p : Nat) : LogStepAt p x (b p) (c p) :=
  ⟨fun q d hr pkt hp resp hs => h.executed q d hr pkt hp resp hs p, fun q d hr => h.quiet q d hr p⟩

/-- The log takes the board where it takes its ports. -/
theorem logEvolves_at {log : List (Bytes × List Bytes)} {b b' : BoardState} (h : LogEvolves b log b') (p : Nat) :
    LogEvolvesAt p (b p) log (b' p) := by
  induction log generalizing b with
  | nil => exact congrFun h p
  | cons x log ih =>
    obtain ⟨c, h1, h2⟩ := h
    exact ⟨c p, logStep_at h1 p, ih h2⟩

theorem logEvolvesAt_append {p : Nat} {l₁ l₂ : List (Bytes × List Bytes)} {b b' : PortState} :
    LogEvolvesAt p b (l₁ ++ l₂) b' ↔ ∃ c, LogEvolvesAt p b l₁ c ∧ LogEvolvesAt p c l₂ b' := by
  induction l₁ generalizing b with
  | nil => exact ⟨fun h => ⟨b, rfl, h⟩, fun ⟨c, h, h'⟩ => by cases h; exact h'⟩
  | cons x t ih =>
    constructor
    · rintro ⟨c, h, h'⟩
      obtain ⟨d, h1, h2⟩ := ih.1 h'
      exact ⟨d, ⟨c, h, h1⟩, h2⟩
    · rintro ⟨d, ⟨c, h, h1⟩, h2⟩
      exact ⟨c, h, ih.2 ⟨d, h1, h2⟩⟩

theorem logEvolvesAt_one {p : Nat} {x : Bytes × List Bytes} {b b' : PortState} :
    LogEvolvesAt p b [x] b' ↔ LogStepAt p x b b' :=
  ⟨fun ⟨c, h, h'⟩ => by cases h'; exact h, fun h => ⟨b', h, rfl⟩⟩

/-- A port that no datagram is to change stays as it is, and every datagram was received in that state. -/
theorem logEvolves_quiet {log : List (Bytes × List Bytes)} {b b' : BoardState} (h : LogEvolves b log b') (p : Nat)
    (hq : ∀ x ∈ log, ∃ q d, Received x.1 q d ∧ (IsQuery q ∨ ¬ Names q p)) : b' p = b p := by
  induction log generalizing b with
  | nil => cases h; rfl
  | cons x log ih =>
    obtain ⟨c, h1, h2⟩ := h
    obtain ⟨q, d, h3, h4⟩ := hq x (List.mem_cons_self ..)
    rw [ih h2 fun y hy => hq y (List.mem_cons_of_mem _ hy), h1.quiet q d h3 p h4]

theorem logEvolves_queries {log : List (Bytes × List Bytes)} {b b' : BoardState} (h : LogEvolves b log b')
    (hq : ∀ x ∈ log, ∃ q d, Received x.1 q d ∧ IsQuery q) : b' = b ∧ ∀ x ∈ log, LogStep x b b := by
  induction log generalizing b with
  | nil => exact ⟨h, by simp⟩
  | cons x log ih =>
    obtain ⟨c, h1, h2⟩ := h
    have hc : c = b := funext fun p => by
      obtain ⟨q, d, h3, h4⟩ := hq x (List.mem_cons_self ..)
      exact h1.quiet q d h3 p (.inl h4)
    subst hc
    obtain ⟨h5, h6⟩ := ih h2 fun y hy => hq y (List.mem_cons_of_mem _ hy)
    refine ⟨h5, fun y hy => ?_⟩
    rcases List.mem_cons.1 hy with rfl | hy
    · exact h1
    · exact h6 y hy

/-- Exchanges that each leave the board as it is. -/
theorem evolves_still {t : List Exchange} {b : BoardState} (h : ∀ x ∈ t, ∀ p, StepsAt x p (b p) (b p)) :
    Evolves b t b := by
  induction t with
  | nil => rfl
  | cons x t ih => exact ⟨b, h x (List.mem_cons_self ..), ih fun y hy => h y (List.mem_cons_of_mem _ hy)⟩

/-- Nothing is seen of a call without an answer. -/
theorem okIn_unanswered {x : Exchange} (h : ∀ resp, x.2 ≠ .answer (.ok resp)) (p : Nat) : okIn x p = none := by
  have : responseOf x = none := by
    unfold responseOf
    split
    · rename_i resp hr
      exact absurd hr (h resp)
    · rfl
  unfold okIn
  rw [this]

theorem steps_unanswered {x : Exchange} (h : ∀ resp, x.2 ≠ .answer (.ok resp)) (p : Nat) (s : PortState) :
    StepsAt x p s s := by
  constructor
  · intro q b _ hb
    rw [okIn_unanswered h] at hb
    cases hb
  · intro _ _ _
    rfl
  · intro q b _ hb
    rw [okIn_unanswered h] at hb
    cases hb

/-! ### Doing it twice -/

theorem overwrite_twice (old : Nat → U8) (start : Nat) (d : Bytes) :
    overwrite (overwrite old start d) start d = overwrite old start d := by
  funext a
  unfold overwrite
  split
  · by_cases h : a - start < d.length
    · simp [List.getD_eq_getElem?_getD, List.getElem?_eq_getElem h]
    · simp [List.getD_eq_getElem?_getD, List.getElem?_eq_none (Nat.le_of_not_lt h)]
  · rfl

theorem store_twice (s : PortState) (w : MemoryWrite) (d : Bytes) : (s.store w d).store w d = s.store w d := by
  unfold PortState.store
  split
  · simp [overwrite_twice]
  · congr 1
    funext page
    dsimp only
    split
    · exact overwrite_twice _ _ _
    · rfl

/-- Carrying out a request once more changes nothing more than it did. -/
theorem effect_twice {q : HostRequest} {d : Bytes} {s s' s'' : PortState} (h : Effect q d s s') (h' : Effect q d s' s'') :
    Effect q d s s'' := by
  cases q with
  | assertReset m =>
    obtain ⟨h1, h2, h3, h4⟩ := h
    obtain ⟨h5, h6, h7, h8⟩ := h'
    exact ⟨h5.trans h1, h6, h7.trans h3, h8.trans h4⟩
  | deassertReset m =>
    obtain ⟨h1, h2, h3, h4⟩ := h
    obtain ⟨h5, h6, h7, h8⟩ := h'
    exact ⟨h5.trans h1, h6, h7.trans h3, h8.trans h4⟩
  | enablePower m =>
    obtain ⟨h1, h2, h3, h4⟩ := h
    obtain ⟨h5, h6, h7, h8⟩ := h'
    exact ⟨h5, h6.trans h2, h7.trans h3, h8.trans h4⟩
  | disablePower m =>
    obtain ⟨h1, h2, h3, h4⟩ := h
    obtain ⟨h5, h6, h7, h8⟩ := h'
    exact ⟨h5, h6.trans h2, h7.trans h3, h8.trans h4⟩
  | assertLpMode m => cases h; cases h'; rfl
  | deassertLpMode m => cases h; cases h'; rfl
  | setLedState m l => cases h; cases h'; rfl
  | write m w =>
    cases h
    cases h'
    exact store_twice s w d
  | _ => cases h; cases h'; rfl

theorem shows_command {q : HostRequest} (h : ¬ IsQuery q) {v : Bytes} {s : PortState} : Shows q v s := by
  cases q <;> first | trivial | exact absurd trivial h

/-! ### One task that changes something -/

/-- The task had an answer to all its calls, and was not dropped in the middle. -/
def Live (tk : Task α) : Prop :=
  (∀ x ∈ tk.past, ∃ resp, x.2 = .answer (.ok resp)) ∧ (tk.phase = .cancelled → ∀ c k, tk.prog ≠ .rpc c k)

/-- A datagram that is not to change the port. -/
def QuietPacket (port : Nat) (pkt : Bytes) : Prop := ∃ q d, Received pkt q d ∧ (IsQuery q ∨ ¬ Names q port)

/-- A datagram that is to change the port. -/
def ChangePacket (port : Nat) (pkt : Bytes) : Prop := ∃ q d, Received pkt q d ∧ ¬ IsQuery q ∧ Names q port

/-- The call was received with the datagram `a0`, and all copies received so far took the port from `c` to `b'`. All that
is to change something and was received before came before it. -/
structure Carried (port : Nat) (log : List (Bytes × List Bytes)) (c b' : PortState) (call : Call) (a0 : Bytes) : Prop where
  mem : a0 ∈ log.map Prod.fst
  steps : ∀ x ∈ log, x.1 = a0 → ∀ pkt ∈ x.2, ∀ resp, Says pkt resp →
    StepsAt (call, .answer (.ok resp)) port c b'
  quiet : ∀ q, call.message.body = .hostRequest q → IsQuery q ∨ ¬ Names q port → b' = c
  order : ∀ a ∈ log.map Prod.fst, ChangePacket port a → a = a0 ∨ [a, a0].Sublist (log.map Prod.fst)

/-- The datagram the task waits for an answer to was not received yet. -/
def Fresh (log : List (Bytes × List Bytes)) (tk : Task α) : Prop :=
  ∀ chan req, tk.phase = .waiting chan req → IoState.requestPacket req ∉ log.map Prod.fst

/-- How far the port is with a task: nothing was changed yet; or the last call the task has an answer to was the last
to be carried out; or the call it waits for was. -/
inductive Stage (port : Nat) (b : PortState) (log : List (Bytes × List Bytes)) (tk : Task α) (b' : PortState) : Prop where
  | start (still : EvolvesAt port b tk.past b') (none : ∀ a ∈ log.map Prod.fst, ¬ ChangePacket port a) (fresh : Fresh log tk)
  | last (done : List Exchange) (c : PortState) (call : Call) (id : U64) (resp : SpRpcResponse) (out : List Bytes)
      (pkt : Bytes) (past : tk.past = done ++ [(call, .answer (.ok resp))]) (before : EvolvesAt port b done c)
      (carried : Carried port log c b' call (callBytes id call)) (logged : (callBytes id call, out) ∈ log) (sent : pkt ∈ out)
      (says : Says pkt resp) (fresh : Fresh log tk)
  | now (c : PortState) (call : Call) (id : U64) (k : Reply → Prog α) (chan : Chan) (req : HostRpcRequest)
      (prog : tk.prog = .rpc call k) (phase : tk.phase = .waiting chan req)
      (same : IoState.requestPacket req = callBytes id call) (before : EvolvesAt port b tk.past c)
      (carried : Carried port log c b' call (callBytes id call))

variable {port : Nat}

/-- Outside of a wait, the port is where the exchanges of the task took it. -/
theorem Stage.evolves {b : PortState} {log : List (Bytes × List Bytes)} {tk : Task α} {b' : PortState}
    (h : Stage port b log tk b') : EvolvesAt port b tk.past b' ∨ ∃ chan req, tk.phase = .waiting chan req ∧
      IoState.requestPacket req ∈ log.map Prod.fst ∧ ∃ c k, tk.prog = .rpc c k := by
  cases h with
  | start h => exact .inl h
  | last done c call id resp out pkt past before carried logged sent says =>
    refine .inl ?_
    rw [past]
    exact evolvesAt_append.2 ⟨c, before, evolvesAt_one.2 (carried.steps _ logged rfl pkt sent resp says)⟩
  | now c call id k chan req prog phase same before carried =>
    exact .inr ⟨chan, req, phase, same ▸ carried.mem, call, k, prog⟩

theorem received_unique {pkt : Bytes} {q q' : HostRequest} {d d' : Bytes} (h : Received pkt q d)
    (h' : Received pkt q' d') : q = q' ∧ d = d' := by
  obtain ⟨hd, rest, m, h1, h2, h3⟩ := h
  obtain ⟨hd', rest', m', h1', h2', h3'⟩ := h'
  rw [h1] at h1'
  cases h1'
  rw [h2] at h2'
  cases h2'
  rw [h3] at h3'
  cases h3'
  exact ⟨rfl, rfl⟩

theorem quiet_not_change {pkt : Bytes} (h : QuietPacket port pkt) : ¬ ChangePacket port pkt := by
  rintro ⟨q', d', h1, h2, h2'⟩
  obtain ⟨q, d, h3, h4⟩ := h
  rw [(received_unique h1 h3).1] at h2 h2'
  exact h4.elim h2 fun h => h h2'

theorem pair_sublist {a b : Bytes} {l : List Bytes} (h : a ∈ l) : [a, b].Sublist (l ++ [b]) :=
  List.Sublist.append (List.singleton_sublist.2 h) (List.Sublist.refl [b])

theorem okIn_call (c c' : Call) (r : Reply) (p : Nat) : okIn (c, r) p = okIn (c', r) p := rfl

/-- The first copy of a call is received. -/
theorem carried_new {log : List (Bytes × List Bytes)} {b' b'' : PortState} {call : Call} {id : U64} {q : HostRequest}
    {out : List Bytes} (hq : call.message.body = .hostRequest q) (hnot : callBytes id call ∉ log.map Prod.fst)
    (hs : LogStepAt port (callBytes id call, out) b' b'') :
    Carried port (log ++ [(callBytes id call, out)]) b' b'' call (callBytes id call) := by
  constructor
  · simp
  · intro x hx hxe pkt hpkt resp hsay
    rcases List.mem_append.1 hx with hx | hx
    · exact absurd (hxe ▸ List.mem_map_of_mem hx) hnot
    · cases List.mem_singleton.1 hx
      exact logStep_call hs hq hpkt hsay
  · intro q' hq' hp
    exact hs.quiet q' _ (received_call.2 ⟨hq', rfl⟩) hp
  · intro a ha _
    rw [List.map_append] at ha ⊢
    rcases List.mem_append.1 ha with ha | ha
    · exact .inr (pair_sublist ha)
    · exact .inl (List.mem_singleton.1 ha)

/-- A datagram is received that is not to change the port, or is one more copy of the call. -/
theorem carried_more {log : List (Bytes × List Bytes)} {c b' b'' : PortState} {call : Call} {id : U64}
    {q : HostRequest} {y : Bytes × List Bytes} (hq : call.message.body = .hostRequest q)
    (hc : Carried port log c b' call (callBytes id call)) (hs : LogStepAt port y b' b'')
    (hy : QuietPacket port y.1 ∨ y.1 = callBytes id call) (ha : AlikeAt port (log ++ [y])) :
    Carried port (log ++ [y]) c b'' call (callBytes id call) := by
  have hrec : Received (callBytes id call) q (call.data.getD []) := received_call.2 ⟨hq, rfl⟩
  have hreq : ∀ r : Reply, requestOf (call, r) = some q := fun r => by unfold requestOf; rw [hq]
  have hmem : callBytes id call ∈ (log ++ [y]).map Prod.fst := by
    rw [List.map_append]
    exact List.mem_append_left _ hc.mem
  have horder : ∀ a ∈ (log ++ [y]).map Prod.fst, ChangePacket port a → a = callBytes id call ∨
      [a, callBytes id call].Sublist ((log ++ [y]).map Prod.fst) := by
    intro a h1 h2
    rw [List.map_append] at h1 ⊢
    rcases List.mem_append.1 h1 with h1 | h1
    · exact (hc.order a h1 h2).imp (fun h => h) fun h => h.trans (List.sublist_append_left ..)
    · cases List.mem_singleton.1 h1
      rcases hy with hy | hy
      · exact absurd h2 (quiet_not_change hy)
      · exact .inl hy
  by_cases hqp : QuietPacket port y.1
  · have hbb : b'' = b' := by
      obtain ⟨q', d', h1, h2⟩ := hqp
      exact hs.quiet q' d' h1 h2
    subst hbb
    refine ⟨hmem, fun x hx hxe pkt hpkt resp hsay => ?_, hc.quiet, horder⟩
    rcases List.mem_append.1 hx with hx | hx
    · exact hc.steps x hx hxe pkt hpkt resp hsay
    · cases List.mem_singleton.1 hx
      obtain ⟨y1, y2⟩ := y
      replace hxe : y1 = callBytes id call := hxe
      subst hxe
      obtain ⟨q', d', h1, h2⟩ := hqp
      rw [(received_unique h1 hrec).1] at h2
      rw [← hc.quiet q hq h2]
      exact logStep_call hs hq hpkt hsay
  · replace hy := hy.resolve_left hqp
    have hnq : ¬ IsQuery q := fun h => hqp ⟨q, _, hy ▸ hrec, .inl h⟩
    have hnames : Names q port := Classical.byContradiction fun h => hqp ⟨q, _, hy ▸ hrec, .inr h⟩
    obtain ⟨y1, y2⟩ := y
    replace hy : y1 = callBytes id call := hy
    subst hy
    have hmemy : (callBytes id call, y2) ∈ log ++ [(callBytes id call, y2)] := by simp
    have hquiet : IsQuery q ∨ ¬ Names q port → b'' = c := fun hp => by
      rw [hs.quiet q _ hrec hp, hc.quiet q hq hp]
    -- a copy that says yes had its effect, and so had the others
    have hboth : ∀ x ∈ log ++ [(callBytes id call, y2)], x.1 = callBytes id call → SaysOk x.2 port →
        Effect q (call.data.getD []) c b'' := by
      intro x hx hxe hok
      have hold : Effect q (call.data.getD []) c b' := by
        obtain ⟨z, hz, hze⟩ := List.mem_map.1 hc.mem
        obtain ⟨pkt, hpkt, resp, cl, hsay, hsome⟩ := ha x hx z (List.mem_append_left _ hz) (hxe.trans hze.symm) q _
          (hxe ▸ hrec) hnq hnames hok
        obtain ⟨v, hv⟩ := Option.isSome_iff_exists.1 hsome
        exact (hc.steps z hz hze pkt hpkt resp hsay).effect q v (hreq _) hv
      obtain ⟨pkt, hpkt, resp, cl, hsay, hsome⟩ := ha x hx _ hmemy hxe q _ (hxe ▸ hrec) hnq hnames hok
      obtain ⟨v, hv⟩ := Option.isSome_iff_exists.1 hsome
      exact effect_twice hold ((logStep_call hs hq hpkt hsay).effect q v (hreq _) hv)
    refine ⟨hmem, fun x hx hxe pkt hpkt resp hsay => ?_, fun q' hq' hp => ?_, horder⟩
    · constructor
      · intro q' v h1 h2
        rw [hreq] at h1
        cases h1
        rcases List.mem_append.1 hx with hx | hx
        · exact (hc.steps x hx hxe pkt hpkt resp hsay).shows q v (hreq _) h2
        · exact shows_command hnq
      · intro q' h1
        rw [hreq] at h1
        cases h1
        exact hquiet
      · intro q' v h1 h2
        rw [hreq] at h1
        cases h1
        exact hboth x hx hxe ⟨pkt, hpkt, resp, call, hsay, by rw [h2]; rfl⟩
    · rw [hq] at hq'
      cases hq'
      exact hquiet hp

/-- What is known during a history, as long as the network keeps the order and copies are acknowledged alike. -/
def OneInv (port : Nat) (b : PortState) (i : Nat) (s : Sys α) (evs : List Event) : Prop :=
  ∀ tk, s.tasks[i]? = some tk → Live tk → InOrderAt port s.spLog → AlikeAt port s.spLog → ∀ b', LogEvolvesAt port b s.spLog b' →
    (∀ chan req, Event.submit chan req ∈ evs → QuietPacket port (IoState.requestPacket req) ∨
      IoState.requestPacket req ∈ s.spLog.map Prod.fst ∨ tk.phase = .waiting chan req) ∧ Stage port b s.spLog tk b'

theorem oneInv_same {b : PortState} {i : Nat} {s s' : Sys α} {evs evs' : List Event} (ho : OneInv port b i s evs)
    (hl : s'.spLog = s.spLog) (ht : s'.tasks[i]? = s.tasks[i]?)
    (he : ∀ chan req, Event.submit chan req ∈ evs' → Event.submit chan req ∈ evs ∨
      QuietPacket port (IoState.requestPacket req)) : OneInv port b i s' evs' := by
  intro tk htk hlive hc ha b' hb
  rw [ht] at htk
  rw [hl] at hc ha hb ⊢
  obtain ⟨h1, h2⟩ := ho tk htk hlive hc ha b' hb
  refine ⟨fun chan req h => ?_, h2⟩
  rcases he chan req h with h | h
  · exact h1 chan req h
  · exact .inl h

theorem requests_of {lim : Option Nat} {progs : List (Prog α)} {n : Nat} {s : Sys α} {evs : List Event}
    (inv : SysInv lim progs n s evs) {j : Nat} {tk : Task α} (hj : s.tasks[j]? = some tk) {c : Call} (ha : Asked tk c)
    {C : HostRequest → Prop}
    (hp : ∀ p, progs[j]? = some p → ∀ t o, Prog.Runs p t o → ∀ x ∈ t, ∃ q, requestOf x = some q ∧ C q) :
    ∃ q, c.message.body = .hostRequest q ∧ C q := by
  have hlt : j < progs.length := by
    rw [← inv.length]
    exact (List.getElem?_eq_some_iff.mp hj).1
  have hpj := List.getElem?_eq_getElem hlt
  obtain ⟨t, o, h1, -, x, h2, h3⟩ := asked_run (inv.leads j _ tk hpj hj) ha
  obtain ⟨q, h4, h5⟩ := hp _ hpj _ o h1 x h2
  refine ⟨q, ?_, h5⟩
  rw [← h3]
  exact requestOf_body h4

/-- A call answered by a proper SP was answered properly. -/
theorem conforms_past {lim : Option Nat} {progs : List (Prog α)} {n : Nat} {s : Sys α} {evs : List Event}
    (inv : SysInv lim progs n s evs) (hl : ∀ x ∈ s.spLog, Proper x.1 x.2) {i : Nat} {tk : Task α}
    (hi : s.tasks[i]? = some tk) {c : Call} {q : HostRequest} (hq : c.message.body = .hostRequest q)
    {resp : SpRpcResponse} (hx : (c, Reply.answer (.ok resp)) ∈ tk.past) : Conforms (c, Reply.answer (.ok resp)) := by
  obtain ⟨req, h1, h2⟩ := inv.past i tk _ resp hi hx
  obtain ⟨id, out, pkt, h3, h4, h5, h6⟩ := h2.served h1
  obtain ⟨rest, trailing, body, h7, h8, h9, h10, h11⟩ := h5
  obtain ⟨r, h12, h13⟩ := callBytes_dec id c
  have h5' : Says pkt resp := ⟨rest, trailing, body, h7, h8, h9, h10, h11⟩
  have ha := (hl _ h3).2 pkt h4 resp _ _ _ _ q body h5' h10 h12 h13 hq
  refine ⟨q, body, resp.data, ?_, ?_, ha⟩
  · unfold requestOf
    rw [hq]
  · simp only [responseOf, h10]

/-- A reply of a proper SP names only modules that were asked about. -/
theorem onTopic_conforms {x : Exchange} (h : Conforms x) : OnTopic x := by
  obtain ⟨q, R, d, h1, h2, h3⟩ := h
  intro q' R' d' g s f g1 g2 g3 g4
  rw [h1] at g1
  cases g1
  rw [h2] at g2
  cases g2
  have := h3.split g s f g3 g4
  exact ⟨fun p hp => (this p).1.2 (.inl hp), fun p hp => (this p).1.2 (.inr hp)⟩

theorem onTopic_unanswered {x : Exchange} (h : ∀ resp, x.2 ≠ .answer (.ok resp)) : OnTopic x := by
  intro q' R d g s' f g1 g2
  unfold responseOf at g2
  split at g2
  · rename_i resp hres
    exact absurd hres (h resp)
  · cases g2

/-- All a task asked is in a run of its program in which the answers are about what was asked. -/
theorem asked_onTopic {lim : Option Nat} {progs : List (Prog α)} {n : Nat} {s : Sys α} {evs : List Event}
    (inv : SysInv lim progs n s evs) (hl : ∀ x ∈ s.spLog, Proper x.1 x.2) {j : Nat} {tk : Task α}
    (hj : s.tasks[j]? = some tk) {c : Call} (ha : Asked tk c) {p : Prog α} (hp : progs[j]? = some p) (hr : Requests p) :
    ∃ t o, Prog.Runs p (tk.past ++ t) o ∧ (∀ x ∈ t, x.2 = .gone) ∧ (∀ x ∈ tk.past ++ t, OnTopic x) ∧
      ∃ x ∈ tk.past ++ t, x.1 = c := by
  obtain ⟨t, o, h1, h2, h3⟩ := asked_run (inv.leads j _ tk hp hj) ha
  refine ⟨t, o, h1, h2, fun x hx => ?_, h3⟩
  rcases List.mem_append.1 hx with hz | hz
  · obtain ⟨c, r⟩ := x
    by_cases hres : ∃ resp, r = .answer (.ok resp)
    · obtain ⟨resp, rfl⟩ := hres
      obtain ⟨q, g1⟩ := hr _ o h1 _ hx
      exact onTopic_conforms (conforms_past inv hl hj (requestOf_body g1) hz)
    · exact onTopic_unanswered fun resp h => hres ⟨resp, h⟩
  · refine onTopic_unanswered fun resp h => ?_
    rw [h2 x hz] at h
    cases h

/-- What a task asked for is not to change a port, unless its program asked for that. -/
theorem asks_or_quiet {lim : Option Nat} {progs : List (Prog α)} {n : Nat} {s : Sys α} {evs : List Event}
    (inv : SysInv lim progs n s evs) (hl : ∀ x ∈ s.spLog, Proper x.1 x.2) (hreq : ∀ prog ∈ progs, Requests prog) (p : Nat)
    {j : Nat} {tk : Task α} (hj : s.tasks[j]? = some tk) {c : Call} (ha : Asked tk c) :
    AsksToChange progs s p ∨ ∃ q, c.message.body = .hostRequest q ∧ (IsQuery q ∨ ¬ Names q p) := by
  have hlt : j < progs.length := by
    rw [← inv.length]
    exact (List.getElem?_eq_some_iff.mp hj).1
  have hop : progs[j]? = some progs[j] := List.getElem?_eq_getElem hlt
  have hmem : progs[j] ∈ progs := List.getElem_mem hlt
  obtain ⟨t, o, h6, h7, htopic, y, h8, rfl⟩ := asked_onTopic inv hl hj ha hop (hreq _ hmem)
  obtain ⟨q, h9⟩ := hreq _ hmem _ o h6 y h8
  by_cases hquery : IsQuery q
  · exact .inr ⟨q, requestOf_body h9, .inl hquery⟩
  by_cases hnames : Names q p
  · exact .inl ⟨j, tk, progs[j], t, o, hj, hop, h6, h7, htopic, y, h8, q, h9, hquery, hnames⟩
  · exact .inr ⟨q, requestOf_body h9, .inr hnames⟩

theorem spares_of {lim : Option Nat} {progs : List (Prog α)} {n : Nat} {s : Sys α} {evs : List Event}
    (inv : SysInv lim progs n s evs) (hl : ∀ x ∈ s.spLog, Proper x.1 x.2) {j : Nat} {tk : Task α}
    (hj : s.tasks[j]? = some tk) {c : Call} (ha : Asked tk c)
    (hp : ∀ p, progs[j]? = some p → Spares p port) :
    ∃ q, c.message.body = .hostRequest q ∧ (IsQuery q ∨ ¬ Names q port) := by
  have hlt : j < progs.length := by
    rw [← inv.length]
    exact (List.getElem?_eq_some_iff.mp hj).1
  have hpj := List.getElem?_eq_getElem hlt
  obtain ⟨t, o, h1, -, h2, x, h3, rfl⟩ := asked_onTopic inv hl hj ha hpj (hp _ hpj).requests
  obtain ⟨q, h4⟩ := (hp _ hpj).requests _ o h1 x h3
  exact ⟨q, requestOf_body h4, (hp _ hpj).spares _ o h1 h2 x h3 q h4⟩

theorem received_made {c : Call} {req : HostRpcRequest} (hm : Made c req) {q : HostRequest}
    (hq : c.message.body = .hostRequest q) : Received (IoState.requestPacket req) q (c.data.getD []) := by
  obtain ⟨id, rfl⟩ := hm
  exact received_call.2 ⟨hq, rfl⟩

theorem inOrder_left {l₁ l₂ : List (Bytes × List Bytes)} (h : InOrderAt port (l₁ ++ l₂)) : InOrderAt port l₁ := by
  intro a x q d h1 h2 h2' h3 h4
  refine h a x q d h1 h2 h2' h3 (h4.trans ?_)
  rw [List.map_append]
  exact List.sublist_append_left ..

theorem alike_left {l₁ l₂ : List (Bytes × List Bytes)} (h : AlikeAt port (l₁ ++ l₂)) : AlikeAt port l₁ := fun x hx y hy =>
  h x (List.mem_append_left _ hx) y (List.mem_append_left _ hy)

/-- A copy of a datagram that was received before is a copy of what was carried out last. -/
theorem carried_again {log : List (Bytes × List Bytes)} {c b' : PortState} {call : Call} {a0 a : Bytes}
    {out : List Bytes} (hc : Carried port log c b' call a0) (ho : InOrderAt port (log ++ [(a, out)])) (ha : a ∈ log.map Prod.fst) :
    ChangePacket port a → a = a0 := by
  intro hch
  obtain ⟨q, d, h1, h2, h2'⟩ := id hch
  rcases hc.order a ha hch with h | h
  · exact h
  · by_cases hne : a0 = a
    · exact hne.symm
    · refine absurd ?_ (ho a a0 q d h1 h2 h2' hne)
      rw [List.map_append]
      exact List.Sublist.append h (List.Sublist.refl [a])

/-- A datagram is received. -/
theorem stage_sp {b : PortState} {log : List (Bytes × List Bytes)} {tk : Task α} {b' b'' : PortState} {a : Bytes}
    {out : List Bytes} (h : Stage port b log tk b') (hs : LogStepAt port (a, out) b' b'') (ho : InOrderAt port (log ++ [(a, out)]))
    (ha : AlikeAt port (log ++ [(a, out)]))
    (hcall : ∀ c, Asked tk c → ∃ q, c.message.body = .hostRequest q)
    (hwait : ∀ chan req, tk.phase = .waiting chan req → ∃ c k, tk.prog = .rpc c k ∧ Made c req)
    (hor : QuietPacket port a ∨ a ∈ log.map Prod.fst ∨ ∃ chan req, tk.phase = .waiting chan req ∧
      IoState.requestPacket req = a)
    (hch : ¬ QuietPacket port a → ChangePacket port a) : Stage port b (log ++ [(a, out)]) tk b'' := by
  -- the first copy of what the task waits for
  have hnew : EvolvesAt port b tk.past b' → Fresh log tk → (∃ chan req, tk.phase = .waiting chan req ∧
      IoState.requestPacket req = a) → Stage port b (log ++ [(a, out)]) tk b'' := by
    rintro hev hfr ⟨chan, req, h1, h2⟩
    obtain ⟨c, k, h3, id, rfl⟩ := hwait chan req h1
    obtain ⟨q, h4⟩ := hcall c (.inr ⟨k, h3⟩)
    cases h2
    exact .now b' c id k chan _ h3 h1 rfl hev (carried_new h4 (hfr _ _ h1) hs)
  by_cases hw : ∃ chan req, tk.phase = .waiting chan req ∧ IoState.requestPacket req = a
  · cases h with
    | start h1 h2 h3 => exact hnew h1 h3 hw
    | last done c call id resp out' pkt h1 h2 h3 h4 h5 h6 h7 =>
      refine hnew ?_ h7 hw
      rw [h1]
      exact evolvesAt_append.2 ⟨c, h2, evolvesAt_one.2 (h3.steps _ h4 rfl pkt h5 resp h6)⟩
    | now c call id k chan req h1 h2 h3 h4 h5 =>
      obtain ⟨chan', req', h6, rfl⟩ := hw
      rw [h2] at h6
      cases h6
      obtain ⟨q, h7⟩ := hcall call (.inr ⟨k, h1⟩)
      exact .now c call id k chan req h1 h2 h3 h4 (carried_more h7 h5 hs (.inr h3) ha)
  · have hfresh : Fresh log tk → Fresh (log ++ [(a, out)]) tk := by
      intro hf chan req h1 h2
      rw [List.map_append] at h2
      rcases List.mem_append.1 h2 with h2 | h2
      · exact hf chan req h1 h2
      · exact hw ⟨chan, req, h1, List.mem_singleton.1 h2⟩
    have hknown : QuietPacket port a ∨ a ∈ log.map Prod.fst := hor.imp (fun h => h) fun h => h.resolve_right hw
    have hmore : ∀ {c : PortState} {call : Call} {id : U64}, Carried port log c b' call (callBytes id call) →
        QuietPacket port a ∨ a = callBytes id call := by
      intro c call id hcar
      rcases Classical.em (QuietPacket port a) with hqp | hqp
      · exact .inl hqp
      · exact .inr (carried_again hcar ho (hknown.resolve_left hqp) (hch hqp))
    cases h with
    | start h1 h2 h3 =>
      have hqp : QuietPacket port a := by
        rcases Classical.em (QuietPacket port a) with hqp | hqp
        · exact hqp
        · exact absurd (hch hqp) (h2 a (hknown.resolve_left hqp))
      have hbb : b'' = b' := by
        obtain ⟨q, d, g1, g2⟩ := id hqp
        exact hs.quiet q d g1 g2
      subst hbb
      refine .start h1 (fun x hx => ?_) (hfresh h3)
      rw [List.map_append] at hx
      rcases List.mem_append.1 hx with hx | hx
      · exact h2 x hx
      · cases List.mem_singleton.1 hx
        exact quiet_not_change hqp
    | last done c call id resp out' pkt h1 h2 h3 h4 h5 h6 h7 =>
      obtain ⟨q, h8⟩ := hcall call (.inl (by rw [h1]; simp))
      exact .last done c call id resp out' pkt h1 h2 (carried_more h8 h3 hs (hmore h3) ha)
        (List.mem_append_left _ h4) h5 h6 (hfresh h7)
    | now c call id k chan req h1 h2 h3 h4 h5 =>
      obtain ⟨q, h6⟩ := hcall call (.inr ⟨k, h1⟩)
      exact .now c call id k chan req h1 h2 h3 h4 (carried_more h6 h5 hs (hmore h5) ha)

theorem oneInv_sp {lim : Option Nat} {progs : List (Prog α)} {n : Nat} {s s' : Sys α} {evs evs' : List Event}
    {b : PortState} {i : Nat} (inv : SysInv lim progs n s evs) (hreq : ∀ p ∈ progs, Requests p)
    {received : Bytes} {out : List Bytes} (h : s.step (.sp received out) = some s')
    (he : ∀ chan req, Event.submit chan req ∈ evs' → Event.submit chan req ∈ evs) (ho : OneInv port b i s evs) :
    OneInv port b i s' evs' := by
  simp only [Sys.step] at h
  split at h
  · rename_i hw
    cases h
    intro tk htk hlive hc ha b'' hb
    replace htk : s.tasks[i]? = some tk := htk
    replace hc : InOrderAt port (s.spLog ++ [(received, out)]) := hc
    replace ha : AlikeAt port (s.spLog ++ [(received, out)]) := ha
    replace hb : LogEvolvesAt port b (s.spLog ++ [(received, out)]) b'' := hb
    obtain ⟨b', hb1, hb2⟩ := logEvolvesAt_append.1 hb
    replace hb2 := logEvolvesAt_one.1 hb2
    obtain ⟨h1, h2⟩ := ho tk htk hlive (inOrder_left hc) (alike_left ha) b' hb1
    rw [inv.wire] at hw
    obtain ⟨chan, req, h4, rfl⟩ := sent_request inv.nodup hw
    obtain ⟨j, tj, call, h5, h6, h7⟩ := inv.origin chan req h4
    have hcalls : ∀ {j : Nat} {tj : Task α}, s.tasks[j]? = some tj → ∀ c, Asked tj c →
        ∃ q, c.message.body = .hostRequest q := fun hj c hc => by
      obtain ⟨q, h8, -⟩ := requests_of (C := fun _ => True) inv hj hc fun p hp t o hr x hx =>
        (hreq p (List.mem_of_getElem? hp) t o hr x hx).imp fun _ h => ⟨h, trivial⟩
      exact ⟨q, h8⟩
    obtain ⟨q, h8⟩ := hcalls h5 call h7
    have h9 := received_made h6 h8
    constructor
    · intro chan' req' hs
      rcases h1 chan' req' (he _ _ hs) with h | h | h
      · exact .inl h
      · refine .inr (.inl ?_)
        show _ ∈ (s.spLog ++ [_]).map Prod.fst
        rw [List.map_append]
        exact List.mem_append_left _ h
      · exact .inr (.inr h)
    · refine stage_sp h2 hb2 hc ha (hcalls htk) (fun chan req hph => (inv.waiting i tk chan req htk hph).2) ?_
        fun hn => ⟨q, _, h9, fun hq => hn ⟨q, _, h9, .inl hq⟩,
          Classical.byContradiction fun hq => hn ⟨q, _, h9, .inr hq⟩⟩
      rcases h1 chan req h4 with h | h | h
      · exact .inl h
      · exact .inr (.inl h)
      · exact .inr (.inr ⟨chan, req, h, rfl⟩)
  · cases h

theorem not_live_gone {c : Call} {past : List Exchange} {q : Prog α} {ph : Phase}
    (h : Live (⟨q, ph, past ++ [(c, .gone)]⟩ : Task α)) : False := by
  obtain ⟨resp, h⟩ := h.1 (c, .gone) (List.mem_append_right _ (List.mem_singleton.2 rfl))
  cases h

/-- The stage is the same for a task with the same exchanges that does not wait for something received. -/
theorem Stage.move {b : PortState} {log : List (Bytes × List Bytes)} {tk tk' : Task α} {b' : PortState}
    (h : Stage port b log tk b') (hn : ∀ chan req, tk.phase ≠ .waiting chan req) (hp : tk'.past = tk.past)
    (hf : Fresh log tk') : Stage port b log tk' b' := by
  cases h with
  | start h1 h2 h3 => exact .start (hp ▸ h1) h2 hf
  | last done c call id resp out pkt h1 h2 h3 h4 h5 h6 h7 =>
    exact .last done c call id resp out pkt (hp.trans h1) h2 h3 h4 h5 h6 hf
  | now c call id k chan req h1 h2 h3 h4 h5 => exact absurd h2 (hn chan req)

theorem fresh_not_waiting {log : List (Bytes × List Bytes)} {tk : Task α}
    (h : ∀ chan req, tk.phase ≠ .waiting chan req) : Fresh log tk := fun chan req hp => absurd hp (h chan req)

/-- The task gets its answer. -/
theorem Stage.resume {b : PortState} {log : List (Bytes × List Bytes)} {b' : PortState} {c : Call}
    {k : Reply → Prog α} {chan : Chan} {id : U64} {past : List Exchange} {resp : SpRpcResponse} {out : List Bytes}
    {pkt : Bytes}
    (h : Stage port b log ⟨.rpc c k, .waiting chan ⟨Header.new id c.kind, c.message, c.data⟩, past⟩ b')
    (h1 : (callBytes id c, out) ∈ log) (h2 : pkt ∈ out) (h3 : Says pkt resp) :
    Stage port b log (Sys.resume c k past (.answer (.ok resp))) b' := by
  have hnot : ¬ Fresh log (⟨.rpc c k, .waiting chan ⟨Header.new id c.kind, c.message, c.data⟩, past⟩ : Task α) :=
    fun hf => hf chan _ rfl (List.mem_map_of_mem h1)
  cases h with
  | start _ _ h => exact absurd h hnot
  | last _ _ _ _ _ _ _ _ _ _ _ _ _ h => exact absurd h hnot
  | now c' call id' k' chan' req' g1 g2 g3 g4 g5 =>
    cases g1
    cases g2
    replace g3 : callBytes id c = callBytes id' c := g3
    rw [← g3] at g5
    exact .last past c' c id resp out pkt rfl g4 g5 h1 h2 h3 (fresh_not_waiting fun _ _ h => by cases h)

theorem oneInv_step {lim : Option Nat} {progs : List (Prog α)} {n : Nat} {s s' : Sys α} {evs evs' : List Event}
    {b : PortState} {i : Nat} {e : SysEvent} (inv : SysInv lim progs n s evs) (hreq : ∀ p ∈ progs, Requests p)
    (hl : ∀ x ∈ s.spLog, Proper x.1 x.2) (hother : ∀ j p, j ≠ i → progs[j]? = some p → Spares p port)
    (h : s.step e = some s') (hg : Grown s s' e evs evs')
    (ho : OneInv port b i s evs) : OneInv port b i s' evs' := by
  have hsame : (∀ j, e ≠ .submit j) → ∀ chan req, Event.submit chan req ∈ evs' → Event.submit chan req ∈ evs := by
    intro hne chan req hm
    rcases hg chan req hm with hm | ⟨j, _, _, _, he, _⟩
    · exact hm
    · exact absurd he (hne j)
  have hset : ∀ {j tk}, j ≠ i → (s.tasks.set j tk)[i]? = s.tasks[i]? := fun hne => List.getElem?_set_ne hne
  cases e with
  | sp received out => exact oneInv_sp inv hreq h (hsame (by simp)) ho
  | deliver src bytes ok =>
    simp only [Sys.step] at h
    split at h
    · cases h
      exact oneInv_same ho rfl rfl fun chan req hm => .inl (hsame (by simp) chan req hm)
    · cases h
  | noise src bytes ok =>
    simp only [Sys.step] at h
    split at h
    · cases h
    · cases h
      exact oneInv_same ho rfl rfl fun chan req hm => .inl (hsame (by simp) chan req hm)
  | loop ev =>
    simp only [Sys.step] at h
    split at h <;> cases h
    exact oneInv_same ho rfl rfl fun chan req hm => .inl (hsame (by simp) chan req hm)
  | number j =>
    have hs := hsame (by simp)
    simp only [Sys.step] at h
    split at h
    · rename_i c k past hj
      cases h
      by_cases hji : j = i
      · subst hji
        have hlt : j < s.tasks.length := (List.getElem?_eq_some_iff.mp hj).1
        intro tk htk hlive hc hal b' hb
        replace htk : (s.tasks.set j _)[j]? = some tk := htk
        rw [List.getElem?_set_self hlt] at htk
        cases htk
        obtain ⟨h1, h2⟩ := ho _ hj ⟨hlive.1, fun h => by cases h⟩ hc hal b' hb
        refine ⟨fun chan req hm => ?_, h2.move (fun _ _ h => by cases h) rfl (fresh_not_waiting fun _ _ h => by cases h)⟩
        rcases h1 chan req (hs _ _ hm) with h | h | h
        · exact .inl h
        · exact .inr (.inl h)
        · cases h
      · exact oneInv_same ho rfl (hset hji) fun chan req hm => .inl (hs chan req hm)
    · cases h
  | submit j =>
    simp only [Sys.step] at h
    split at h
    · rename_i c k req past hj
      obtain ⟨hn1, hn2, c', k', hn3, hn4⟩ := inv.numbered j _ req hj rfl
      cases hn3
      have hlt : j < s.tasks.length := (List.getElem?_eq_some_iff.mp hj).1
      have hsub : ∀ chan' req', Event.submit chan' req' ∈ evs' → Event.submit chan' req' ∈ evs ∨
          (req' = req ∧ s'.tasks = s.tasks.set j ⟨.rpc c k, .waiting chan' req', past⟩) := by
        intro chan' req' hm
        rcases hg chan' req' hm with hm | ⟨j', c2, k2, past2, h1, h2, h3⟩
        · exact .inl hm
        · cases h1
          rw [hj] at h2
          cases h2
          exact .inr ⟨rfl, h3⟩
      by_cases hji : j = i
      · subst hji
        split at h
        · cases h
          intro tk htk hlive hc hal b' hb
          replace htk : (s.tasks.set j _)[j]? = some tk := htk
          rw [List.getElem?_set_self hlt] at htk
          cases htk
          obtain ⟨h1, h2⟩ := ho _ hj ⟨hlive.1, fun h => by cases h⟩ hc hal b' hb
          have hnot : IoState.requestPacket req ∉ s.spLog.map Prod.fst := by
            intro hm
            obtain ⟨x, hx, hxe⟩ := List.mem_map.1 hm
            have hw := inv.log x hx
            rw [inv.wire] at hw
            obtain ⟨chan', req', h5, h6⟩ := sent_request inv.nodup hw
            exact hn2 chan' req' h5 (requestPacket_id (hxe.symm.trans h6))
          refine ⟨fun chan req' hm => ?_, h2.move (fun _ _ h => by cases h) rfl fun _ _ h => by cases h; exact hnot⟩
          rcases hsub chan req' hm with hm | ⟨rfl, hm⟩
          · rcases h1 chan req' hm with h | h | h
            · exact .inl h
            · exact .inr (.inl h)
            · cases h
          · refine .inr (.inr ?_)
            have := congrArg (fun l => l[j]?) hm
            replace this : (s.tasks.set j _)[j]? = (s.tasks.set j _)[j]? := this
            rw [List.getElem?_set_self hlt, List.getElem?_set_self hlt] at this
            cases this
            rfl
        · cases h
          intro tk htk hlive hc hal b' hb
          replace htk : (s.tasks.set j _)[j]? = some tk := htk
          rw [List.getElem?_set_self hlt] at htk
          cases htk
          exact (not_live_gone hlive).elim
      · have hquery : QuietPacket port (IoState.requestPacket req) := by
          obtain ⟨q, h1, h2⟩ := spares_of inv hl hj (c := c) (.inr ⟨k, rfl⟩) fun p hp => hother j p hji hp
          exact ⟨q, _, received_made hn4 h1, h2⟩
        split at h
        · cases h
          refine oneInv_same ho rfl (hset hji) fun chan req' hm => (hsub chan req' hm).imp id fun hm => ?_
          rw [hm.1]
          exact hquery
        · cases h
          refine oneInv_same ho rfl (hset hji) fun chan req' hm => (hsub chan req' hm).imp id fun hm => ?_
          rw [hm.1]
          exact hquery
    · cases h
  | receive j =>
    have hs := hsame (by simp)
    simp only [Sys.step] at h
    split at h
    · rename_i c k chan req past hj
      have hlt : j < s.tasks.length := (List.getElem?_eq_some_iff.mp hj).1
      by_cases hji : j = i
      · subst hji
        split at h
        · rename_i a ha
          cases h
          intro tk htk hlive hc hal b' hb
          replace htk : (s.tasks.set j _)[j]? = some tk := htk
          rw [List.getElem?_set_self hlt] at htk
          cases htk
          obtain ⟨resp, hresp⟩ := hlive.1 (c, .answer a) (List.mem_append_right _ (List.mem_singleton.2 rfl))
          cases hresp
          obtain ⟨h1, h2⟩ := ho _ hj ⟨fun x hx => hlive.1 x (List.mem_append_left _ hx), fun h => by cases h⟩ hc hal b' hb
          obtain ⟨req', h5, h6⟩ := inv.answers chan resp (mem_of_lookup ha)
          obtain ⟨h7, c2, k2, h8, h9⟩ := inv.waiting j _ chan req hj rfl
          cases h8
          rw [submit_unique inv.nodup h5 h7] at h6
          obtain ⟨out, pkt, h10, h11, h12, -⟩ := h6
          obtain ⟨id, rfl⟩ := h9
          refine ⟨fun chan' req' hm => ?_, h2.resume h10 h11 h12⟩
          rcases h1 chan' req' (hs _ _ hm) with h | h | h
          · exact .inl h
          · exact .inr (.inl h)
          · cases h
            exact .inr (.inl (List.mem_map_of_mem h10))
        · split at h
          · cases h
          · cases h
            intro tk htk hlive hc hal b' hb
            replace htk : (s.tasks.set j _)[j]? = some tk := htk
            rw [List.getElem?_set_self hlt] at htk
            cases htk
            exact (not_live_gone hlive).elim
      · split at h
        · cases h
          exact oneInv_same ho rfl (hset hji) fun chan req hm => .inl (hs chan req hm)
        · split at h
          · cases h
          · cases h
            exact oneInv_same ho rfl (hset hji) fun chan req hm => .inl (hs chan req hm)
    · cases h
  | cancel j =>
    have hs := hsame (by simp)
    simp only [Sys.step] at h
    split at h
    · rename_i p chan req past hj
      cases h
      have hlt : j < s.tasks.length := (List.getElem?_eq_some_iff.mp hj).1
      by_cases hji : j = i
      · subst hji
        intro tk htk hlive hc hal b' hb
        replace htk : (s.tasks.set j _)[j]? = some tk := htk
        rw [List.getElem?_set_self hlt] at htk
        cases htk
        obtain ⟨-, c, k, h1, -⟩ := inv.waiting j _ chan req hj rfl
        exact absurd h1 (hlive.2 rfl c k)
      · exact oneInv_same ho rfl (hset hji) fun chan req hm => .inl (hs chan req hm)
    · rename_i p ph past hph hj
      cases h
      have hlt : j < s.tasks.length := (List.getElem?_eq_some_iff.mp hj).1
      by_cases hji : j = i
      · subst hji
        intro tk htk hlive hc hal b' hb
        replace htk : (s.tasks.set j _)[j]? = some tk := htk
        rw [List.getElem?_set_self hlt] at htk
        cases htk
        obtain ⟨h1, h2⟩ := ho _ hj ⟨hlive.1, fun _ => hlive.2 rfl⟩ hc hal b' hb
        refine ⟨fun chan req hm => ?_, h2.move hph rfl (fresh_not_waiting fun _ _ h => by cases h)⟩
        · rcases h1 chan req (hs _ _ hm) with h | h | h
          · exact .inl h
          · exact .inr (.inl h)
          · exact absurd h (hph chan req)
      · exact oneInv_same ho rfl (hset hji) fun chan req hm => .inl (hs chan req hm)
    · cases h

theorem oneInv_run {lim : Option Nat} {progs : List (Prog α)} (evs : List SysEvent) {n : Nat} {s s' : Sys α}
    {ioEvs : List Event} {b : PortState} {i : Nat} (inv : SysInv lim progs n s ioEvs)
    (hl : ∀ x ∈ s.spLog, Proper x.1 x.2) (hsp : SpDoes Proper evs) (hn : n + numbered evs ≤ 2 ^ 64)
    (hreq : ∀ p ∈ progs, Requests p) (hother : ∀ j p, j ≠ i → progs[j]? = some p → Spares p port) (h : s.run evs = some s')
    (ho : OneInv port b i s ioEvs) : ∃ ioEvs', OneInv port b i s' ioEvs' := by
  induction evs generalizing n s ioEvs with
  | nil =>
    cases h
    exact ⟨ioEvs, ho⟩
  | cons e evs ih =>
    rw [Sys.run] at h
    split at h
    · rename_i s₁ hs
      have hnum : numbered (e :: evs) = ids e + numbered evs := by
        unfold numbered ids
        rw [List.countP_cons]
        cases e <;> simp [Nat.add_comm]
      rw [hnum, ← Nat.add_assoc] at hn
      obtain ⟨io', inv', hg⟩ := sysInv_step inv (fun x hx => (hl x hx).1) (by omega) hs
      exact ih inv' (spLog_step hs hl fun r out he => hsp r out (by rw [he]; exact List.mem_cons_self))
        (fun r out hr => hsp r out (List.mem_cons_of_mem _ hr)) hn h (oneInv_step inv hreq hl hother hs hg ho)
    · cases h

theorem oneInv_init (lim : Option Nat) (progs : List (Prog α)) (b : PortState) (i : Nat) :
    OneInv port b i (Sys.init lim progs) [] := by
  intro tk htk _ _ _ b' hb
  replace htk : (progs.map fun p => ({ prog := p } : Task α))[i]? = some tk := htk
  rw [List.getElem?_map] at htk
  obtain ⟨p, -, rfl⟩ := Option.map_eq_some_iff.mp htk
  exact ⟨by simp, .start hb (fun a ha => by cases ha) (fresh_not_waiting fun _ _ h => by cases h)⟩

theorem spares_looks {p : Prog α} (h : Looks p) (port : Nat) : Spares p port where
  requests := fun t o hr x hx => (h t o hr x hx).imp fun _ h => h.1
  spares := fun t o hr _ x hx q hq => by
    obtain ⟨q', h1, h2⟩ := h t o hr x hx
    rw [hq] at h1
    cases h1
    exact .inl h2

theorem inOrder_at {log : List (Bytes × List Bytes)} (h : InOrder log) (port : Nat) : InOrderAt port log :=
  fun a x q d h1 h2 _ => h a x q d h1 h2

theorem alike_at {log : List (Bytes × List Bytes)} (h : Alike log) (port : Nat) : AlikeAt port log :=
  fun x hx y hy hxy q d h1 h2 _ => h x hx y hy hxy q d h1 h2 port

/-! ### A network that keeps the order -/

theorem eq_of_count_le_one {x y : Bytes × List Bytes} {log : List (Bytes × List Bytes)} (hx : x ∈ log) (hy : y ∈ log)
    (h : x.1 = y.1) (hc : (log.map Prod.fst).count x.1 ≤ 1) : x = y := by
  induction log with
  | nil => cases hx
  | cons z log ih =>
    rw [List.map_cons, List.count_cons] at hc
    have hpos : ∀ w ∈ log, w.1 = x.1 → 0 < (log.map Prod.fst).count x.1 := fun w hw he =>
      List.count_pos_iff.mpr (he ▸ List.mem_map_of_mem hw)
    rcases List.mem_cons.1 hx with rfl | hx' <;> rcases List.mem_cons.1 hy with rfl | hy'
    · rfl
    · have := hpos y hy' h.symm
      rw [if_pos (beq_self_eq_true _)] at hc
      omega
    · have := hpos x hx' rfl
      rw [if_pos (by rw [h]; exact beq_self_eq_true _)] at hc
      omega
    · exact ih hx' hy' (by omega)

theorem sent_split {a : Bytes} {r : List Bytes} {acts : List Action} (h : (a :: r).Sublist (sent acts)) :
    ∃ l₁ c l₂, acts = l₁ ++ .sendRequest c a :: l₂ ∧ r.Sublist (sent l₂) := by
  induction acts with
  | nil => cases h
  | cons x acts ih =>
    have hskip : sent (x :: acts) = sent acts → ∃ l₁ c l₂, x :: acts = l₁ ++ .sendRequest c a :: l₂ ∧
        r.Sublist (sent l₂) := by
      intro hx
      rw [hx] at h
      obtain ⟨l₁, c, l₂, h1, h2⟩ := ih h
      exact ⟨x :: l₁, c, l₂, by rw [h1]; rfl, h2⟩
    cases x with
    | sendRequest c pkt =>
      replace h : (a :: r).Sublist (pkt :: sent acts) := h
      cases h with
      | cons _ h =>
        obtain ⟨l₁, c', l₂, h1, h2⟩ := ih h
        exact ⟨.sendRequest c pkt :: l₁, c', l₂, by rw [h1]; rfl, h2⟩
      | cons_cons _ h => exact ⟨[], c, acts, rfl, h⟩
    | _ => exact hskip rfl

/-- What is sent between two copies of a datagram is another copy. -/
theorem wire_in_order {lim : Option Nat} {progs : List (Prog α)} {n : Nat} {s : Sys α} {evs : List Event}
    (inv : SysInv lim progs n s evs) {a x : Bytes} (h : [a, x, a].Sublist s.wire) : x = a := by
  rw [inv.wire] at h
  obtain ⟨l₁, c₁, m₁, h1, h2⟩ := sent_split h
  obtain ⟨l₂, c₂, m₂, h3, h4⟩ := sent_split h2
  obtain ⟨l₃, c₃, m₃, h5, -⟩ := sent_split h4
  have serial := (order_inv lim evs).serial
  have e1 : effects lim evs = l₁ ++ .sendRequest c₁ a :: m₁ := h1
  have e2 : effects lim evs = (l₁ ++ .sendRequest c₁ a :: l₂) ++ .sendRequest c₂ x :: m₂ := by
    rw [e1, h3]; simp
  have e3 : effects lim evs = (l₁ ++ .sendRequest c₁ a :: l₂ ++ .sendRequest c₂ x :: l₃) ++ .sendRequest c₃ a :: m₃ := by
    rw [e2, h5]; simp
  have s1 := serial _ _ _ e1 c₁ rfl
  have s2 := serial _ _ _ e2 c₂ rfl
  have s3 := serial _ _ _ e3 c₃ rfl
  have hreq : ∀ {c pkt}, Action.sendRequest c pkt ∈ effects lim evs → ∃ req, Event.submit c req ∈ evs ∧
      pkt = IoState.requestPacket req := by
    intro c pkt hm
    have hm' : pkt ∈ sentFor c (effects lim evs) := List.mem_filterMap.mpr ⟨_, hm, by simp⟩
    obtain ⟨req, k, g1, g2, -⟩ := C23_bounded_identical lim evs c inv.nodup (List.ne_nil_of_mem hm')
    rw [g2] at hm'
    exact ⟨req, g1, (List.mem_replicate.mp hm').2⟩
  obtain ⟨r₁, g1, g1'⟩ := hreq (c := c₁) (pkt := a) (by rw [e1]; simp)
  obtain ⟨r₂, g2, g2'⟩ := hreq (c := c₂) (pkt := x) (by rw [e2]; simp)
  obtain ⟨r₃, g3, g3'⟩ := hreq (c := c₃) (pkt := a) (by rw [e3]; simp)
  obtain ⟨rfl, rfl⟩ := inv.unique _ _ _ _ g1 g3 (requestPacket_id (g1'.symm.trans g3'))
  have l12 : (answered l₁).length ≤ (answered (l₁ ++ .sendRequest c₁ a :: l₂)).length := by
    rw [answered_append, List.length_append]
    omega
  have l23 : (answered (l₁ ++ .sendRequest c₁ a :: l₂)).length ≤
      (answered (l₁ ++ .sendRequest c₁ a :: l₂ ++ .sendRequest c₂ x :: l₃)).length := by
    rw [answered_append (l₁ ++ .sendRequest c₁ a :: l₂), List.length_append]
    omega
  obtain ⟨k1, k1'⟩ := List.getElem?_eq_some_iff.mp s1
  obtain ⟨k3, k3'⟩ := List.getElem?_eq_some_iff.mp s3
  have heq := (List.getElem_inj inv.nodup).1 (k1'.trans k3'.symm)
  have heq2 : (answered (l₁ ++ .sendRequest c₁ a :: l₂)).length = (answered l₁).length := by omega
  rw [heq2, s1] at s2
  cases s2
  rw [g1', g2', submit_unique inv.nodup g2 g1]

/-! ### One change, carried out any number of times -/

/-- If every datagram leaves the port alone or has an effect of the kind `E` on it, and one has, then all together have. -/
theorem logEvolves_effect {E : PortState → PortState → Prop} (ht : ∀ {s s' s''}, E s s' → E s' s'' → E s s'') (p : Nat)
    {log : List (Bytes × List Bytes)} {b b' : BoardState} (h : LogEvolves b log b')
    (hx : ∀ x ∈ log, ∃ q d, Received x.1 q d ∧
      ((IsQuery q ∨ ¬ Names q p) ∨ (SaysOk x.2 p ∧ ∀ s s', Effect q d s s' → E s s'))) :
    (b' p = b p ∨ E (b p) (b' p)) ∧
    ((∃ x ∈ log, ∃ q d, Received x.1 q d ∧ ¬ (IsQuery q ∨ ¬ Names q p)) → E (b p) (b' p)) := by
  induction log generalizing b with
  | nil =>
    cases h
    exact ⟨.inl rfl, fun ⟨x, hx, _⟩ => by cases hx⟩
  | cons x log ih =>
    obtain ⟨c, h1, h2⟩ := h
    obtain ⟨h3, h4⟩ := ih h2 fun y hy => hx y (List.mem_cons_of_mem _ hy)
    obtain ⟨q, d, h5, h6⟩ := hx x (List.mem_cons_self ..)
    by_cases hq : IsQuery q ∨ ¬ Names q p
    · rw [← h1.quiet q d h5 p hq]
      refine ⟨h3, fun ⟨y, hy, q', d', h7, h8⟩ => ?_⟩
      rcases List.mem_cons.1 hy with rfl | hy
      · exact absurd ((received_unique h7 h5).1 ▸ hq) h8
      · exact h4 ⟨y, hy, q', d', h7, h8⟩
    · obtain ⟨⟨pkt, h7, resp, cl, h8, h9⟩, h10⟩ := h6.resolve_left hq
      obtain ⟨v, h9⟩ := Option.isSome_iff_exists.1 h9
      have h11 := h10 _ _ ((h1.executed q d h5 pkt h7 resp h8 p).effect q v rfl h9)
      have h12 : E (b p) (b' p) := by
        rcases h3 with h3 | h3
        · rw [h3]
          exact h11
        · exact ht h11 h3
      exact ⟨.inr h12, fun _ => h12⟩

/-! ### Datagrams for examples -/

theorem record_lt {R : SpResponse} {d : Bytes} {p : Nat} {v : Bytes} (h : record R d p = some v) : p < 64 := by
  unfold record at h
  split at h
  · split at h
    · rename_i hm
      exact BitVec.lt_of_getLsbD hm
    · cases h
  · cases h

/-- The obvious response, received with its request, takes the board where its records say. -/
theorem logStep_response {id : U64} {q : HostRequest} {D : Option Bytes} {R : SpResponse} {d : Bytes} {b c : BoardState}
    (hl : (responsePkt id R d).length ≤ 1060) (hsize : expectedTrailing R = some d.length)
    (hs : ∀ p v, record R d p = some v → Shows q v (b p) ∧ Effect q (D.getD []) (b p) (c p))
    (hq : ∀ p, IsQuery q ∨ ¬ Names q p → c p = b p) :
    LogStep (callBytes id (Call.host q D), [responsePkt id R d]) b c := by
  constructor
  · intro q' d' hr pkt hp resp hsay p
    obtain ⟨hb, rfl⟩ := received_call.1 hr
    cases hb
    cases List.mem_singleton.1 hp
    obtain ⟨rest, trailing, body, h3, h4, h5, h6, h7⟩ := hsay
    rw [headerOf_responsePkt _ _ _ hl] at h3
    simp only [Option.some.injEq, Prod.mk.injEq] at h3
    rw [← h3.2, messageOf_responsePkt] at h4
    simp only [Option.some.injEq, Prod.mk.injEq] at h4
    obtain ⟨h4, rfl⟩ := h4
    rw [← h4] at h6
    cases h6
    rw [hsize] at h7
    replace h7 : d.length ≤ d.length ∧ resp.data = some (d.take d.length) := h7
    rw [List.take_length] at h7
    have hok : ∀ cl, okIn (cl, .answer (.ok resp)) p = record R d p := by
      intro cl
      unfold okIn responseOf
      simp only [← h4, h7.2, Message.new]
    constructor
    · intro q'' v hq' hv
      cases hq'
      rw [hok] at hv
      exact (hs p v hv).1
    · intro q'' hq' hquiet
      cases hq'
      exact hq p hquiet
    · intro q'' v hq' hv
      cases hq'
      rw [hok] at hv
      exact (hs p v hv).2
  · intro q' d' hr p hquiet
    obtain ⟨hb, rfl⟩ := received_call.1 hr
    cases hb
    exact hq p hquiet

end Xcvr
