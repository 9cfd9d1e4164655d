import Verif.Spec.System
import Verif.Lemmas.Prog
import Verif.Props.IoLoop

/-! # Invariants of the whole system -/

namespace Xcvr

open Spec Sys IoState

variable {α : Type}

theorem effects_snoc (lim : Option Nat) (evs : List Event) (e : Event) :
    effects lim (evs ++ [e]) = effects lim evs ++ next lim evs e := by
  unfold effects next after
  rw [run_snoc]

theorem after_snoc (lim : Option Nat) (evs : List Event) (e : Event) :
    after lim (evs ++ [e]) = ((after lim evs).step e).1 := by
  unfold after
  rw [run_snoc]

/-- The request of a call. -/
def Made (c : Call) (req : HostRpcRequest) : Prop :=
  ∃ id, req = { header := Header.new id c.kind, message := c.message, data := c.data }

/-- The SP received a request and sent `resp` in return. -/
def ServedReq (log : List (Bytes × List Bytes)) (req : HostRpcRequest) (resp : SpRpcResponse) : Prop :=
  ∃ out pkt, (requestPacket req, out) ∈ log ∧ pkt ∈ out ∧ Says pkt resp ∧ resp.header.messageId = req.header.messageId

theorem ServedReq.served {log : List (Bytes × List Bytes)} {c : Call} {req : HostRpcRequest} {resp : SpRpcResponse}
    (h : ServedReq log req resp) (hm : Made c req) : Served log c resp := by
  obtain ⟨id, rfl⟩ := hm
  obtain ⟨out, pkt, h1, h2, h3, h4⟩ := h
  exact ⟨id, out, pkt, h1, h2, h3, h4⟩

theorem ServedReq.mono {log : List (Bytes × List Bytes)} {req : HostRpcRequest} {resp : SpRpcResponse}
    (h : ServedReq log req resp) (x : Bytes × List Bytes) : ServedReq (log ++ [x]) req resp := by
  obtain ⟨out, pkt, h1, h2, h3, h4⟩ := h
  exact ⟨out, pkt, List.mem_append_left _ h1, h2, h3, h4⟩

theorem submit_unique {evs : List Event} (hd : (submitted evs).Nodup) {c : Chan} {r r' : HostRpcRequest}
    (h : Event.submit c r ∈ evs) (h' : Event.submit c r' ∈ evs) : r = r' := by
  induction evs with
  | nil => cases h
  | cons e evs ih =>
    have hmem : ∀ {c r}, Event.submit c r ∈ evs → c ∈ submitted evs := fun {c r} h =>
      List.mem_filterMap.mpr ⟨_, h, rfl⟩
    rcases List.mem_cons.mp h with rfl | h1 <;> rcases List.mem_cons.mp h' with h2 | h2
    · cases h2; rfl
    · exact absurd (hmem h2) (List.nodup_cons.mp hd).1
    · cases h2
      exact absurd (hmem h1) (List.nodup_cons.mp hd).1
    · refine ih ?_ h1 h2
      unfold submitted at hd ⊢
      rw [List.filterMap_cons] at hd
      split at hd
      · exact hd
      · exact (List.nodup_cons.mp hd).2

theorem says_of_answer {lim : Option Nat} {evs : List Event} {e : Event} {c : Chan} {resp : SpRpcResponse}
    (h : .answer c (.ok resp) ∈ next lim evs e) :
    ∃ src bytes ok req, e = .packet src bytes ok ∧ Event.submit c req ∈ evs ∧ Says bytes resp ∧
      resp.header.messageId = req.header.messageId := by
  obtain ⟨hr, ⟨_, ha⟩ | ⟨o, ho, rfl, hre⟩⟩ := answer_reason h
  · cases ha
  · have inv := order_inv lim evs
    generalize hx : (Except.ok resp : Answer) = x at hre
    cases hre with
    | response src bytes ok hdr rest msg body t h1 h2 h3 h4 h5 =>
      refine ⟨src, bytes, ok, o.request, rfl, inv.out hr o ho, ?_⟩
      rw [collectResponse_eq] at hx
      split at hx
      · rename_i hn
        cases hx
        exact ⟨⟨rest, t, body, h1, h4, h2, h5, by rw [hn]⟩, h3⟩
      · rename_i n hn
        split at hx
        · cases hx
        · rename_i hlt
          cases hx
          exact ⟨⟨rest, t, body, h1, h4, h2, h5, by rw [hn]; exact ⟨by omega, rfl⟩⟩, h3⟩
    | io => cases hx
    | retries => cases hx
    | faults => cases hx
    | proto => cases hx

theorem mem_sent {acts : List Action} {pkt : Bytes} : pkt ∈ sent acts ↔ ∃ c, Action.sendRequest c pkt ∈ acts := by
  unfold sent
  rw [List.mem_filterMap]
  constructor
  · rintro ⟨a, h1, h2⟩
    cases a <;> simp at h2
    subst h2
    exact ⟨_, h1⟩
  · rintro ⟨c, h⟩
    exact ⟨_, h, rfl⟩

theorem mem_posted {acts : List Action} {c : Chan} {a : Answer} : (c, a) ∈ posted acts ↔ Action.answer c a ∈ acts := by
  unfold posted
  rw [List.mem_filterMap]
  constructor
  · rintro ⟨a, h1, h2⟩
    cases a <;> simp at h2
    obtain ⟨rfl, rfl⟩ := h2
    exact h1
  · intro h
    exact ⟨_, h, rfl⟩

/-- A datagram sent as a request is that of a submitted request. -/
theorem sent_request {lim : Option Nat} {evs : List Event} (hd : (submitted evs).Nodup) {pkt : Bytes}
    (h : pkt ∈ sent (effects lim evs)) : ∃ c req, Event.submit c req ∈ evs ∧ pkt = requestPacket req := by
  obtain ⟨c, h⟩ := mem_sent.mp h
  have hm : pkt ∈ sentFor c (effects lim evs) := List.mem_filterMap.mpr ⟨_, h, by simp⟩
  obtain ⟨req, n, h1, h2, -⟩ := C23_bounded_identical lim evs c hd (List.ne_nil_of_mem hm)
  rw [h2] at hm
  exact ⟨c, req, h1, (List.mem_replicate.mp hm).2⟩

/-- Whatever `q` does, `p` does after the exchanges `past`. -/
def Leads (p : Prog α) (past : List Exchange) (q : Prog α) : Prop :=
  ∀ t o, Prog.Runs q t o → Prog.Runs p (past ++ t) o

/-- The task has made, or is making, the call. -/
def Asked (tk : Task α) (c : Call) : Prop := c ∈ tk.past.map Prod.fst ∨ ∃ k, tk.prog = .rpc c k

structure SysInv (lim : Option Nat) (progs : List (Prog α)) (n : Nat) (s : Sys α) (evs : List Event) : Prop where
  io : s.io = after lim evs
  wire : s.wire = sent (effects lim evs)
  mail : s.mail = posted (effects lim evs)
  chans : ∀ c ∈ submitted evs, c < s.nextChan
  nodup : (submitted evs).Nodup
  counter : s.counter = BitVec.ofNat 64 n
  small : ∀ c req, Event.submit c req ∈ evs → req.header.messageId.toNat < n
  unique : ∀ c req c' req', Event.submit c req ∈ evs → Event.submit c' req' ∈ evs →
    req.header.messageId = req'.header.messageId → c = c' ∧ req = req'
  numbered : ∀ (i : Nat) (tk : Task α) req, s.tasks[i]? = some tk → tk.phase = .numbered req →
    req.header.messageId.toNat < n ∧ (∀ c req', Event.submit c req' ∈ evs → req.header.messageId ≠ req'.header.messageId) ∧
    ∃ c k, tk.prog = .rpc c k ∧ Made c req
  different : ∀ (i j : Nat) (ti tj : Task α) ri rj, i ≠ j → s.tasks[i]? = some ti → s.tasks[j]? = some tj → ti.phase = .numbered ri →
    tj.phase = .numbered rj → ri.header.messageId ≠ rj.header.messageId
  waiting : ∀ (i : Nat) (tk : Task α) chan req, s.tasks[i]? = some tk → tk.phase = .waiting chan req →
    Event.submit chan req ∈ evs ∧ ∃ c k, tk.prog = .rpc c k ∧ Made c req
  answers : ∀ chan resp, (chan, .ok resp) ∈ s.mail → ∃ req, Event.submit chan req ∈ evs ∧ ServedReq s.spLog req resp
  log : ∀ x ∈ s.spLog, x.1 ∈ s.wire
  past : ∀ (i : Nat) (tk : Task α) c resp, s.tasks[i]? = some tk → (c, Reply.answer (.ok resp)) ∈ tk.past →
    ∃ req, Made c req ∧ ServedReq s.spLog req resp
  origin : ∀ chan req, Event.submit chan req ∈ evs → ∃ (i : Nat) (tk : Task α) (c : Call), s.tasks[i]? = some tk ∧
    Made c req ∧ Asked tk c
  length : s.tasks.length = progs.length
  leads : ∀ (i : Nat) p (tk : Task α), progs[i]? = some p → s.tasks[i]? = some tk → Leads p tk.past tk.prog

theorem sysInv_init (lim : Option Nat) (progs : List (Prog α)) : SysInv lim progs 0 (Sys.init lim progs) [] := by
  have ht : ∀ {i : Nat} {tk : Task α}, (Sys.init lim progs).tasks[i]? = some tk →
      tk.phase = .ready ∧ tk.past = [] ∧ progs[i]? = some tk.prog := by
    intro i tk h
    simp only [Sys.init, List.getElem?_map, Option.map_eq_some_iff] at h
    obtain ⟨p, h, rfl⟩ := h
    exact ⟨rfl, rfl, h⟩
  constructor
  · rfl
  · rfl
  · rfl
  · simp [submitted]
  · simp [submitted]
  · rfl
  · simp
  · simp
  · intro i tk req h h'
    rw [(ht h).1] at h'
    cases h'
  · intro i j ti tj ri rj _ h _ h'
    rw [(ht h).1] at h'
    cases h'
  · intro i tk chan req h h'
    rw [(ht h).1] at h'
    cases h'
  · simp [Sys.init]
  · simp [Sys.init]
  · intro i tk c resp h h'
    rw [(ht h).2.1] at h'
    cases h'
  · simp
  · simp [Sys.init]
  · intro i p tk hp h t o hr
    obtain ⟨-, h1, h2⟩ := ht h
    rw [hp] at h2
    cases h2
    rw [h1]
    exact hr

/-- A step of the loop that submits nothing. -/
theorem sysInv_loop {lim : Option Nat} {progs : List (Prog α)} {n : Nat} {s : Sys α} {evs : List Event}
    (inv : SysInv lim progs n s evs) (e : Event) (he : ∀ c r, e ≠ .submit c r)
    (hpkt : ∀ src bytes ok, e = .packet src bytes ok → isResponse bytes = true → bytes ∈ s.spLog.flatMap Prod.snd)
    (hecho : ∀ x ∈ s.spLog, Echoes x.1 x.2) : SysInv lim progs n (s.runLoop e) (evs ++ [e]) := by
  have hsub : submitted (evs ++ [e]) = submitted evs := by
    rw [submitted_append]
    cases e <;> simp_all [submitted]
  have hmem : ∀ {c r}, Event.submit c r ∈ evs ++ [e] ↔ Event.submit c r ∈ evs := by
    intro c r
    rw [List.mem_append, List.mem_singleton]
    exact ⟨fun h => h.resolve_right fun h => he c r h.symm, .inl⟩
  have hmail : (s.runLoop e).mail = posted (effects lim (evs ++ [e])) := by
    rw [effects_snoc, posted, List.filterMap_append]
    show s.mail ++ _ = _
    rw [inv.mail, inv.io]
    rfl
  constructor
  · rw [after_snoc, ← inv.io]; rfl
  · rw [effects_snoc, sent, List.filterMap_append]
    show s.wire ++ _ = _
    rw [inv.wire, inv.io]
    rfl
  · exact hmail
  · rw [hsub]; exact inv.chans
  · rw [hsub]; exact inv.nodup
  · exact inv.counter
  · intro c req h; exact inv.small c req (hmem.mp h)
  · intro c req c' req' h h'; exact inv.unique c req c' req' (hmem.mp h) (hmem.mp h')
  · intro i tk req h h'
    obtain ⟨h1, h2, h3⟩ := inv.numbered i tk req h h'
    exact ⟨h1, fun c req' h => h2 c req' (hmem.mp h), h3⟩
  · exact inv.different
  · intro i tk chan req h h'
    obtain ⟨h1, h2⟩ := inv.waiting i tk chan req h h'
    exact ⟨hmem.mpr h1, h2⟩
  · intro chan resp h
    replace h : (chan, .ok resp) ∈ s.mail ++ posted (s.io.step e).2 := h
    rcases List.mem_append.mp h with h | h
    · obtain ⟨req, h1, h2⟩ := inv.answers chan resp h
      exact ⟨req, hmem.mpr h1, h2⟩
    · rw [mem_posted, inv.io] at h
      obtain ⟨src, bytes, ok, req, rfl, h1, h2, h3⟩ := says_of_answer (lim := lim) h
      have hr : isResponse bytes = true := by
        obtain ⟨rest, trailing, body, h4, h5, h6, -⟩ := h2
        unfold headerOf at h4
        unfold isResponse
        rw [show maxPacketSize = 1060 from rfl, h4]
        simp [h6]
      obtain ⟨⟨r, out⟩, h4, h5⟩ := List.mem_flatMap.mp (hpkt _ _ _ rfl hr)
      have hw := inv.log _ h4
      rw [inv.wire] at hw
      obtain ⟨c', req', h6, h7⟩ := sent_request inv.nodup hw
      have hid : req'.header.messageId = req.header.messageId := by
        obtain ⟨rest, trailing, body, h8, h9, h10, -⟩ := h2
        obtain ⟨h', rest', h11, h12⟩ := hecho _ h4 bytes h5 _ _ h8 h10
        obtain ⟨t, h13, h14⟩ := C13_packet req'.header req'.message (req'.data.getD [])
        replace h7 : r = requestPacket req' := h7
        replace h11 : dec r = some (h', rest') := h11
        rw [h7] at h11
        replace h13 : dec (requestPacket req') = some (req'.header, t) := h13
        rw [h13] at h11
        cases h11
        rw [h12, h3]
      have := (inv.unique _ _ _ _ h6 h1 hid).2
      subst this
      replace h7 : r = requestPacket req' := h7
      rw [h7] at h4
      exact ⟨req', hmem.mpr h1, out, bytes, h4, h5, h2, h3⟩
  · intro x hx
    exact List.mem_append_left _ (inv.log x hx)
  · exact inv.past
  · intro chan req h
    exact inv.origin chan req (hmem.mp h)
  · exact inv.length
  · exact inv.leads

theorem set_cases {tasks : List (Task α)} {i j : Nat} {old new tk : Task α} (hi : tasks[i]? = some old)
    (h : (tasks.set i new)[j]? = some tk) : (j = i ∧ tk = new) ∨ (j ≠ i ∧ tasks[j]? = some tk) := by
  rw [List.getElem?_set] at h
  split at h
  · rename_i hij
    split at h
    · cases h
      exact .inl ⟨hij.symm, rfl⟩
    · cases h
  · rename_i hij
    exact .inr ⟨fun h => hij h.symm, h⟩

/-- A step that changes one task. -/
theorem sysInv_set {lim : Option Nat} {progs : List (Prog α)} {n : Nat} {s : Sys α} {evs : List Event}
    (inv : SysInv lim progs n s evs) {i : Nat} {old : Task α} (hi : s.tasks[i]? = some old) (new : Task α)
    (hN : ∀ req, new.phase = .numbered req →
      (req.header.messageId.toNat < n ∧
        (∀ c req', Event.submit c req' ∈ evs → req.header.messageId ≠ req'.header.messageId) ∧
        ∃ c k, new.prog = .rpc c k ∧ Made c req) ∧
      ∀ (j : Nat) (tj : Task α) rj, j ≠ i → s.tasks[j]? = some tj → tj.phase = .numbered rj →
        req.header.messageId ≠ rj.header.messageId)
    (hW : ∀ chan req, new.phase = .waiting chan req →
      Event.submit chan req ∈ evs ∧ ∃ c k, new.prog = .rpc c k ∧ Made c req)
    (hP : ∀ c resp, (c, Reply.answer (.ok resp)) ∈ new.past →
      (c, Reply.answer (.ok resp)) ∈ old.past ∨ ∃ req, Made c req ∧ ServedReq s.spLog req resp)
    (hL : ∀ p, Leads p old.past old.prog → Leads p new.past new.prog) (hA : ∀ c, Asked old c → Asked new c) :
    SysInv lim progs n { s with tasks := s.tasks.set i new } evs := by
  constructor
  · exact inv.io
  · exact inv.wire
  · exact inv.mail
  · exact inv.chans
  · exact inv.nodup
  · exact inv.counter
  · exact inv.small
  · exact inv.unique
  · intro j tk req h h'
    rcases set_cases hi h with ⟨rfl, rfl⟩ | ⟨hj, h⟩
    · exact (hN req h').1
    · exact inv.numbered j tk req h h'
  · intro j j' tj tj' r r' hne h1 h2 h3 h4
    rcases set_cases hi h1 with ⟨rfl, rfl⟩ | ⟨hj, g1⟩ <;> rcases set_cases hi h2 with ⟨rfl, rfl⟩ | ⟨hj', g2⟩
    · exact absurd rfl hne
    · exact (hN r h3).2 j' tj' r' hj' g2 h4
    · exact Ne.symm ((hN r' h4).2 j tj r hj g1 h3)
    · exact inv.different j j' tj tj' r r' hne g1 g2 h3 h4
  · intro j tk chan req h h'
    rcases set_cases hi h with ⟨rfl, rfl⟩ | ⟨hj, h⟩
    · exact hW chan req h'
    · exact inv.waiting j tk chan req h h'
  · exact inv.answers
  · exact inv.log
  · intro j tk c resp h h'
    rcases set_cases hi h with ⟨rfl, rfl⟩ | ⟨hj, h⟩
    · rcases hP c resp h' with h' | h'
      · exact inv.past j old c resp hi h'
      · exact h'
    · exact inv.past j tk c resp h h'
  · intro chan req h
    obtain ⟨j, tk, c, h1, h2, h3⟩ := inv.origin chan req h
    by_cases hj : j = i
    · subst hj
      rw [hi] at h1
      cases h1
      exact ⟨j, new, c, List.getElem?_set_self (List.getElem?_eq_some_iff.mp hi).1, h2, hA c h3⟩
    · refine ⟨j, tk, c, ?_, h2, h3⟩
      show (s.tasks.set i new)[j]? = _
      rw [List.getElem?_set_ne (fun h => hj h.symm)]
      exact h1
  · show (s.tasks.set i new).length = _
    rw [List.length_set]
    exact inv.length
  · intro j p tk hp h
    rcases set_cases hi h with ⟨rfl, rfl⟩ | ⟨hj, h⟩
    · exact hL p (inv.leads j p old hp hi)
    · exact inv.leads j p tk hp h

/-- Taking a message id. -/
theorem sysInv_count {lim : Option Nat} {progs : List (Prog α)} {n : Nat} {s : Sys α} {evs : List Event}
    (inv : SysInv lim progs n s evs) : SysInv lim progs (n + 1) { s with counter := s.counter + 1 } evs := by
  constructor
  · exact inv.io
  · exact inv.wire
  · exact inv.mail
  · exact inv.chans
  · exact inv.nodup
  · show s.counter + 1 = _
    rw [inv.counter, BitVec.ofNat_add]
    rfl
  · intro c req h
    exact Nat.lt_succ_of_lt (inv.small c req h)
  · exact inv.unique
  · intro i tk req h h'
    obtain ⟨h1, h2⟩ := inv.numbered i tk req h h'
    exact ⟨Nat.lt_succ_of_lt h1, h2⟩
  · exact inv.different
  · exact inv.waiting
  · exact inv.answers
  · exact inv.log
  · exact inv.past
  · exact inv.origin
  · exact inv.length
  · exact inv.leads

/-- Putting a request on the channel. -/
theorem sysInv_submit {lim : Option Nat} {progs : List (Prog α)} {n : Nat} {s : Sys α} {evs : List Event}
    (inv : SysInv lim progs n s evs) (req : HostRpcRequest) (hn : req.header.messageId.toNat < n)
    (hs : ∀ c req', Event.submit c req' ∈ evs → req.header.messageId ≠ req'.header.messageId)
    (ht : ∀ (j : Nat) (tj : Task α) rj, s.tasks[j]? = some tj → tj.phase = .numbered rj →
      req.header.messageId ≠ rj.header.messageId)
    (ho : ∃ (i : Nat) (tk : Task α) (c : Call), s.tasks[i]? = some tk ∧ Made c req ∧ Asked tk c) :
    SysInv lim progs n { s.runLoop (.submit s.nextChan req) with nextChan := s.nextChan + 1 }
      (evs ++ [.submit s.nextChan req]) := by
  have hact : (s.io.step (.submit s.nextChan req)).2 = [] := rfl
  have hnext : next lim evs (.submit s.nextChan req) = [] := rfl
  have hsub : submitted (evs ++ [.submit s.nextChan req]) = submitted evs ++ [s.nextChan] := by
    rw [submitted_append]
    rfl
  have hmem : ∀ {c r}, Event.submit c r ∈ evs ++ [.submit s.nextChan req] →
      Event.submit c r ∈ evs ∨ (c = s.nextChan ∧ r = req) := by
    intro c r h
    rcases List.mem_append.mp h with h | h
    · exact .inl h
    · rw [List.mem_singleton] at h
      cases h
      exact .inr ⟨rfl, rfl⟩
  have hw : (s.runLoop (.submit s.nextChan req)).wire = s.wire := by
    show s.wire ++ _ = _
    rw [hact]
    exact List.append_nil _
  have hm : (s.runLoop (.submit s.nextChan req)).mail = s.mail := by
    show s.mail ++ _ = _
    rw [hact]
    exact List.append_nil _
  constructor
  · rw [after_snoc, ← inv.io]; rfl
  · rw [effects_snoc, hnext, List.append_nil, ← inv.wire]; exact hw
  · rw [effects_snoc, hnext, List.append_nil, ← inv.mail]; exact hm
  · intro c hc
    rw [hsub] at hc
    show c < s.nextChan + 1
    rcases List.mem_append.mp hc with hc | hc
    · exact Nat.lt_succ_of_lt (inv.chans c hc)
    · rw [List.mem_singleton] at hc
      exact hc ▸ Nat.lt_succ_self _
  · rw [hsub, List.nodup_append]
    refine ⟨inv.nodup, by simp, ?_⟩
    intro a ha b hb
    rw [List.mem_singleton] at hb
    exact hb ▸ Nat.ne_of_lt (inv.chans a ha)
  · exact inv.counter
  · intro c r h
    rcases hmem h with h | ⟨-, rfl⟩
    · exact inv.small c r h
    · exact hn
  · intro c r c' r' h h' hid
    rcases hmem h with g | ⟨g, rfl⟩ <;> rcases hmem h' with g' | ⟨g', g''⟩
    · exact inv.unique _ _ _ _ g g' hid
    · exact absurd (g'' ▸ hid.symm) (hs _ _ g)
    · exact absurd hid (hs _ _ g')
    · exact ⟨g.trans g'.symm, g''.symm⟩
  · intro i tk r h h'
    obtain ⟨h1, h2, h3⟩ := inv.numbered i tk r h h'
    refine ⟨h1, fun c r' hr => ?_, h3⟩
    rcases hmem hr with hr | ⟨-, rfl⟩
    · exact h2 c r' hr
    · exact Ne.symm (ht i tk r h h')
  · exact inv.different
  · intro i tk chan r h h'
    obtain ⟨h1, h2⟩ := inv.waiting i tk chan r h h'
    exact ⟨List.mem_append_left _ h1, h2⟩
  · intro chan resp h
    replace h : (chan, .ok resp) ∈ (s.runLoop (.submit s.nextChan req)).mail := h
    rw [hm] at h
    obtain ⟨r, h1, h2⟩ := inv.answers chan resp h
    exact ⟨r, List.mem_append_left _ h1, h2⟩
  · intro x hx
    show x.1 ∈ (s.runLoop (.submit s.nextChan req)).wire
    rw [hw]
    exact inv.log x hx
  · exact inv.past
  · intro chan r h
    rcases hmem h with h | ⟨-, rfl⟩
    · exact inv.origin chan r h
    · exact ho
  · exact inv.length
  · exact inv.leads

theorem leads_resume {p : Prog α} {c : Call} {k : Reply → Prog α} {past : List Exchange} (r : Reply)
    (h : Leads p past (.rpc c k)) : Leads p (past ++ [(c, r)]) (k r) := by
  intro t o hr
  rw [List.append_assoc]
  exact h ((c, r) :: t) o ⟨rfl, hr⟩

theorem sysInv_resume {lim : Option Nat} {progs : List (Prog α)} {n : Nat} {s : Sys α} {evs : List Event}
    (inv : SysInv lim progs n s evs) {i : Nat} {c : Call} {k : Reply → Prog α} {ph : Phase} {past : List Exchange}
    (hi : s.tasks[i]? = some ⟨.rpc c k, ph, past⟩) (r : Reply)
    (hr : ∀ resp, r = .answer (.ok resp) → ∃ req, Made c req ∧ ServedReq s.spLog req resp) :
    SysInv lim progs n { s with tasks := s.tasks.set i (resume c k past r) } evs := by
  refine sysInv_set inv hi _ (fun req h => by cases h) (fun chan req h => by cases h) ?_ (fun p => leads_resume r) ?_
  case refine_2 =>
    rintro c' (h | ⟨k', h⟩)
    · left
      rw [resume, List.map_append]
      exact List.mem_append_left _ h
    · cases h
      left
      rw [resume, List.map_append]
      exact List.mem_append_right _ List.mem_cons_self
  intro c' resp h
  rcases List.mem_append.mp h with h | h
  · exact .inl h
  · rw [List.mem_singleton] at h
    cases h
    exact .inr (hr resp rfl)

theorem sysInv_cancel {lim : Option Nat} {progs : List (Prog α)} {n : Nat} {s : Sys α} {evs : List Event}
    (inv : SysInv lim progs n s evs) {i : Nat} {p : Prog α} {ph : Phase} {past : List Exchange}
    (hi : s.tasks[i]? = some ⟨p, ph, past⟩) :
    SysInv lim progs n { s with tasks := s.tasks.set i ⟨p, .cancelled, past⟩ } evs :=
  sysInv_set inv hi _ (fun req h => by cases h) (fun chan req h => by cases h) (fun _ _ => .inl) (fun _ => id) fun _ => id

theorem mem_of_lookup {β : Type} {l : List (Chan × β)} {c : Chan} {b : β} (h : l.lookup c = some b) : (c, b) ∈ l := by
  induction l with
  | nil => cases h
  | cons x l ih =>
    obtain ⟨a, b'⟩ := x
    rw [List.lookup_cons] at h
    split at h
    · rename_i hc
      cases h
      rw [beq_iff_eq.mp hc]
      exact List.mem_cons_self
    · exact List.mem_cons_of_mem _ (ih h)

/-- The number of message ids a step takes. -/
def ids (e : SysEvent) : Nat := match e with | .number _ => 1 | _ => 0

/-- The requests put on the channel after a step: those before, and that of a task whose step it was. -/
def Grown (s s' : Sys α) (e : SysEvent) (evs evs' : List Event) : Prop :=
  ∀ chan req, Event.submit chan req ∈ evs' → Event.submit chan req ∈ evs ∨
    ∃ i c k past, e = .submit i ∧ s.tasks[i]? = some ⟨.rpc c k, .numbered req, past⟩ ∧
      s'.tasks = s.tasks.set i ⟨.rpc c k, .waiting chan req, past⟩

theorem grown_loop {s s' : Sys α} {e : SysEvent} {evs : List Event} {ev : Event} (h : ∀ c req, ev ≠ .submit c req) :
    Grown s s' e evs (evs ++ [ev]) := by
  intro chan req hm
  rcases List.mem_append.mp hm with hm | hm
  · exact .inl hm
  · exact absurd (List.mem_singleton.mp hm).symm (h chan req)

theorem sysInv_step {lim : Option Nat} {progs : List (Prog α)} {n : Nat} {s s' : Sys α} {evs : List Event} {e : SysEvent}
    (inv : SysInv lim progs n s evs) (hecho : ∀ x ∈ s.spLog, Echoes x.1 x.2) (hn : n + ids e ≤ 2 ^ 64)
    (h : s.step e = some s') : ∃ evs', SysInv lim progs (n + ids e) s' evs' ∧ Grown s s' e evs evs' := by
  cases e with
  | number i =>
    simp only [Sys.step] at h
    split at h
    · rename_i c k past hi
      cases h
      refine ⟨evs, ?_, fun _ _ => .inl⟩
      have hlt : n < 2 ^ 64 := by simp only [ids] at hn; omega
      have hid : (s.counter : U64).toNat = n := by
        rw [inv.counter, BitVec.toNat_ofNat, Nat.mod_eq_of_lt hlt]
      refine sysInv_set (sysInv_count inv) (i := i) hi ⟨.rpc c k, .numbered ⟨Header.new s.counter c.kind, c.message, c.data⟩, past⟩
        ?_ (fun chan req h => by cases h) (fun _ _ => .inl) (fun _ => id) fun _ => id
      intro req hreq
      cases hreq
      refine ⟨⟨?_, ?_, c, k, rfl, s.counter, rfl⟩, ?_⟩
      · show s.counter.toNat < _
        omega
      · intro c' req' h' he
        have := inv.small c' req' h'
        rw [← he] at this
        replace this : s.counter.toNat < n := this
        omega
      · intro j tj rj _ h1 h2 he
        have := (inv.numbered j tj rj h1 h2).1
        rw [← he] at this
        replace this : s.counter.toNat < n := this
        omega
    · cases h
  | submit i =>
    simp only [Sys.step] at h
    split at h
    · rename_i c k req past hi
      split at h
      · cases h
        obtain ⟨h1, h2, c', k', h3, h4⟩ := inv.numbered i _ req hi rfl
        cases h3
        have hlen : i < s.tasks.length := (List.getElem?_eq_some_iff.mp hi).1
        have inv1 := sysInv_cancel inv hi
        have inv2 := sysInv_submit inv1 req h1 h2 (by
          intro j tj rj hj hp
          rcases set_cases hi hj with ⟨rfl, rfl⟩ | ⟨hne, hj⟩
          · cases hp
          · exact inv.different i j _ tj req rj (Ne.symm hne) hi hj rfl hp)
          ⟨i, ⟨.rpc c k, .cancelled, past⟩, c, List.getElem?_set_self hlen, h4, .inr ⟨k, rfl⟩⟩
        have hi2 : (s.tasks.set i ⟨.rpc c k, .cancelled, past⟩)[i]? = some ⟨.rpc c k, .cancelled, past⟩ := by
          rw [List.getElem?_set_self hlen]
        have inv3 := sysInv_set inv2 hi2 ⟨.rpc c k, .waiting s.nextChan req, past⟩ (fun req h => by cases h)
          (fun chan req' h => by
            cases h
            exact ⟨List.mem_append_right _ List.mem_cons_self, c, k, rfl, h4⟩) (fun _ _ => .inl) (fun _ => id) fun _ => id
        refine ⟨evs ++ [.submit s.nextChan req], ?_, fun chan req' hm => (List.mem_append.mp hm).imp id fun hm => ?_⟩
        rotate_left
        · cases List.mem_singleton.mp hm
          exact ⟨i, c, k, past, rfl, hi, rfl⟩
        have : (s.tasks.set i ⟨.rpc c k, .cancelled, past⟩).set i ⟨.rpc c k, .waiting s.nextChan req, past⟩ =
            s.tasks.set i ⟨.rpc c k, .waiting s.nextChan req, past⟩ := List.set_set ..
        change SysInv lim progs n { (s.runLoop (.submit s.nextChan req)) with nextChan := s.nextChan + 1, tasks := (s.tasks.set i ⟨.rpc c k, .cancelled, past⟩).set i ⟨.rpc c k, .waiting s.nextChan req, past⟩ } _ at inv3
        rw [this] at inv3
        exact inv3
      · cases h
        exact ⟨evs, sysInv_resume inv hi _ (fun resp h => by cases h), fun _ _ => .inl⟩
    · cases h
  | receive i =>
    simp only [Sys.step] at h
    split at h
    · rename_i c k chan req past hi
      split at h
      · rename_i a ha
        cases h
        refine ⟨evs, sysInv_resume inv hi _ fun resp hr => ?_, fun _ _ => .inl⟩
        cases hr
        obtain ⟨req', h1, h2⟩ := inv.answers chan resp (mem_of_lookup ha)
        obtain ⟨h3, c', k', h4, h5⟩ := inv.waiting i _ chan req hi rfl
        cases h4
        rw [submit_unique inv.nodup h1 h3] at h2
        exact ⟨req, h5, h2⟩
      · split at h
        · cases h
        · cases h
          exact ⟨evs, sysInv_resume inv hi _ (fun resp h => by cases h), fun _ _ => .inl⟩
    · cases h
  | cancel i =>
    simp only [Sys.step] at h
    split at h
    · rename_i p chan req past hi
      cases h
      exact ⟨_, sysInv_cancel (sysInv_loop inv (.dropCaller chan) (by simp) (by simp) hecho) hi, grown_loop (by simp)⟩
    · rename_i p ph past _ hi
      cases h
      exact ⟨_, sysInv_cancel inv hi, fun _ _ => .inl⟩
    · cases h
  | sp received out =>
    simp only [Sys.step] at h
    split at h
    · rename_i hw
      cases h
      refine ⟨evs, ?_, fun _ _ => .inl⟩
      constructor
      · exact inv.io
      · exact inv.wire
      · exact inv.mail
      · exact inv.chans
      · exact inv.nodup
      · exact inv.counter
      · exact inv.small
      · exact inv.unique
      · exact inv.numbered
      · exact inv.different
      · exact inv.waiting
      · intro chan resp h
        obtain ⟨req, h1, h2⟩ := inv.answers chan resp h
        exact ⟨req, h1, h2.mono _⟩
      · intro x hx
        rcases List.mem_append.mp hx with hx | hx
        · exact inv.log x hx
        · rw [List.mem_singleton] at hx
          subst hx
          exact hw
      · intro j tk c resp hj h
        obtain ⟨req, h1, h2⟩ := inv.past j tk c resp hj h
        exact ⟨req, h1, h2.mono _⟩
      · exact inv.origin
      · exact inv.length
      · exact inv.leads
    · cases h
  | deliver src bytes ok =>
    simp only [Sys.step] at h
    split at h
    · rename_i hb
      cases h
      refine ⟨_, sysInv_loop inv (.packet src bytes ok) (by simp) ?_ hecho, grown_loop (by simp)⟩
      intro _ _ _ he _
      cases he
      exact hb
    · cases h
  | noise src bytes ok =>
    simp only [Sys.step] at h
    split at h
    · cases h
    · rename_i hb
      cases h
      refine ⟨_, sysInv_loop inv (.packet src bytes ok) (by simp) ?_ hecho, grown_loop (by simp)⟩
      intro _ _ _ he hr
      cases he
      exact absurd hr hb
  | loop e =>
    simp only [Sys.step] at h
    split at h
    · cases h
    · cases h
    · cases h
    · rename_i h1 h2 h3
      cases h
      exact ⟨_, sysInv_loop inv e h1 (fun src bytes ok he => (h3 _ _ _ he).elim) hecho, grown_loop h1⟩

theorem spLog_step {P : Bytes → List Bytes → Prop} {s s' : Sys α} {e : SysEvent} (h : s.step e = some s')
    (hl : ∀ x ∈ s.spLog, P x.1 x.2) (he : ∀ r out, e = .sp r out → P r out) : ∀ x ∈ s'.spLog, P x.1 x.2 := by
  cases e with
  | sp r out =>
    simp only [Sys.step] at h
    split at h
    · cases h
      intro x hx
      rcases List.mem_append.mp hx with hx | hx
      · exact hl x hx
      · rw [List.mem_singleton] at hx
        subst hx
        exact he _ _ rfl
    · cases h
  | number i | submit i | receive i | cancel i | deliver _ _ _ | noise _ _ _ | loop e =>
    simp only [Sys.step] at h
    repeat' split at h
    all_goals first | cases h; exact hl | cases h

theorem sysInv_run {lim : Option Nat} {progs : List (Prog α)} (evs : List SysEvent) {n : Nat} {s s' : Sys α}
    {ioEvs : List Event} {P : Bytes → List Bytes → Prop} (hP : ∀ r out, P r out → Echoes r out)
    (inv : SysInv lim progs n s ioEvs) (hl : ∀ x ∈ s.spLog, P x.1 x.2) (hsp : SpDoes P evs)
    (hn : n + numbered evs ≤ 2 ^ 64) (h : s.run evs = some s') :
    (∃ ioEvs', SysInv lim progs (n + numbered evs) s' ioEvs') ∧ ∀ x ∈ s'.spLog, P x.1 x.2 := by
  induction evs generalizing n s ioEvs with
  | nil =>
    cases h
    exact ⟨⟨ioEvs, inv⟩, hl⟩
  | cons e evs ih =>
    rw [Sys.run] at h
    split at h
    · rename_i s₁ hs
      have hnum : numbered (e :: evs) = ids e + numbered evs := by
        unfold numbered ids
        rw [List.countP_cons]
        cases e <;> simp [Nat.add_comm]
      rw [hnum, ← Nat.add_assoc] at hn ⊢
      obtain ⟨io', inv', -⟩ := sysInv_step inv (fun x hx => hP _ _ (hl x hx)) (by omega) hs
      exact ih inv' (spLog_step hs hl fun r out he => hsp r out (by rw [he]; exact List.mem_cons_self))
        (fun r out hr => hsp r out (List.mem_cons_of_mem _ hr)) hn h
    · cases h

theorem requestPacket_id {req req' : HostRpcRequest} (h : requestPacket req = requestPacket req') :
    req.header.messageId = req'.header.messageId := by
  obtain ⟨t, h1, -⟩ := C13_packet req.header req.message (req.data.getD [])
  obtain ⟨t', h2, -⟩ := C13_packet req'.header req'.message (req'.data.getD [])
  replace h1 : dec (requestPacket req) = some (req.header, t) := h1
  replace h2 : dec (requestPacket req') = some (req'.header, t') := h2
  rw [h, h2] at h1
  simp only [Option.some.injEq, Prod.mk.injEq] at h1
  rw [h1.1]

theorem count_sent {acts : List Action} {c : Chan} {pkt : Bytes} (h : ∀ c', Action.sendRequest c' pkt ∈ acts → c' = c) :
    (sent acts).count pkt = (sentFor c acts).count pkt := by
  induction acts with
  | nil => rfl
  | cons a acts ih =>
    have ih := ih fun c' h' => h c' (List.mem_cons_of_mem _ h')
    cases a with
    | sendRequest c' pkt' =>
      have e1 : sent (.sendRequest c' pkt' :: acts) = pkt' :: sent acts := rfl
      have e2 : sentFor c (.sendRequest c' pkt' :: acts) =
          if c' = c then pkt' :: sentFor c acts else sentFor c acts := by
        simp only [sentFor, List.filterMap_cons]
        by_cases hc : c' = c <;> simp [hc]
      rw [e1, e2]
      by_cases hp : pkt' = pkt
      · subst hp
        rw [if_pos (h c' List.mem_cons_self), List.count_cons_self, List.count_cons_self, ih]
      · rw [List.count_cons_of_ne (Ne.symm (Ne.symm hp))]
        split
        · rw [List.count_cons_of_ne (Ne.symm (Ne.symm hp)), ih]
        · exact ih
    | _ => exact ih

/-- A request is put on the wire at most `max 1 limit` times. -/
theorem SysInv.transmissions {lim : Option Nat} {progs : List (Prog α)} {n : Nat} {s : Sys α} {evs : List Event}
    (inv : SysInv lim progs n s evs) (pkt : Bytes) : s.wire.count pkt ≤ max 1 (limitOf lim) := by
  rw [inv.wire]
  by_cases hm : pkt ∈ sent (effects lim evs)
  · obtain ⟨c, hc⟩ := mem_sent.mp hm
    have key : ∀ c', Action.sendRequest c' pkt ∈ effects lim evs →
        ∃ req n, Event.submit c' req ∈ evs ∧ pkt = requestPacket req ∧
          sentFor c' (effects lim evs) = List.replicate n pkt ∧ n ≤ max 1 (limitOf lim) := by
      intro c' h'
      have hm : pkt ∈ sentFor c' (effects lim evs) := List.mem_filterMap.mpr ⟨_, h', by simp⟩
      obtain ⟨req, n, h1, h2, h3⟩ := C23_bounded_identical lim evs c' inv.nodup (List.ne_nil_of_mem hm)
      have hm' := hm
      rw [h2] at hm'
      have := (List.mem_replicate.mp hm').2
      exact ⟨req, n, h1, this, by rw [h2, ← this], h3⟩
    obtain ⟨req, n, h1, h2, h3, h4⟩ := key c hc
    rw [count_sent (c := c), h3, List.count_replicate_self]
    · exact h4
    · intro c' h'
      obtain ⟨req', n', g1, g2, -, -⟩ := key c' h'
      exact (inv.unique _ _ _ _ g1 h1 (requestPacket_id (g2.symm.trans h2))).1
  · rw [List.count_eq_zero_of_not_mem hm]
    exact Nat.zero_le _

end Xcvr
