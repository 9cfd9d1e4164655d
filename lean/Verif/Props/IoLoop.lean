import Verif.Lemmas.IoLoop
import Verif.Lemmas.ModuleId
import Verif.Props.Wire

/-! # C21-C31: the I/O loop -/

namespace Xcvr

open Spec IoState

/-! ## A concrete history used in the examples -/

/-- Two status requests, with different message ids. -/
def reqA : HostRpcRequest := ⟨Header.new 7 .hostRequest, Message.new (.hostRequest (.status ⟨0b11⟩)), none⟩
def reqB : HostRpcRequest := ⟨Header.new 8 .hostRequest, Message.new (.hostRequest (.status ⟨0b1⟩)), none⟩

/-- A response datagram: header, message, trailing bytes. -/
def responsePkt (id : U64) (r : SpResponse) (trailing : Bytes) : Bytes :=
  enc (Header.new id .spResponse) ++ enc (Message.new (.spResponse r)) ++ trailing

/-- A status response to `reqA`: module 0 answers with a status byte, module 1 fails with an error byte. -/
def pktA : Bytes := responsePkt 7 (.status ⟨0b01⟩ ⟨0b10⟩) [0x21, 6]

/-- Request A is sent, retried, answered; request B waits, is sent, and its caller gets an answer after two tries. -/
def demo : List Event :=
  [.submit 100 reqA, .submit 200 reqB, .accept true, .packet 9 [0xff] true, .tick true, .accept true, .packet 9 pktA true,
   .packet 9 pktA true, .accept true, .tick true, .tick true]

example : effects (some 2) demo =
    [.sendRequest 100 (requestPacket reqA), .sendRequest 100 (requestPacket reqA),
     .answer 100 (.ok ⟨Header.new 7 .spResponse, Message.new (.spResponse (.status ⟨0b01⟩ ⟨0b10⟩)), some [0x21, 6]⟩),
     .sendRequest 200 (requestPacket reqB), .sendRequest 200 (requestPacket reqB),
     .answer 200 (.error (.maxRetries 2))] ∧
    (after (some 2) demo).status = .running ∧ (submitted demo).Nodup := by decide +kernel

/-! ## C21 -/

/-- C21: callers are answered in submission order, none twice, none that did not submit. -/
theorem C21_order (lim : Option Nat) (evs : List Event) : answered (effects lim evs) <+: submitted evs :=
  (order_inv lim evs).pre

/-- C21: callers being distinct, none is answered twice. -/
theorem C21_once (lim : Option Nat) (evs : List Event) (hd : (submitted evs).Nodup) :
    (answered (effects lim evs)).Nodup := (C21_order lim evs).sublist.nodup hd

/-- C21: whatever is transmitted or answered at any point of a history concerns the oldest submission that had no answer
yet. So at most one request is being worked on, and no request is transmitted after its answer. -/
theorem C21_one_at_a_time (lim : Option Nat) (evs : List Event) (before later : List Action) (a : Action) (c : Chan)
    (h : effects lim evs = before ++ a :: later) (hc : concerns a = some c) :
    (submitted evs)[(answered before).length]? = some c := (order_inv lim evs).serial before a later h c hc

/-- C21: while the loop runs, every submission is answered, is the one in progress, or waits untouched. -/
theorem C21_accounted (lim : Option Nat) (evs : List Event) (hd : (submitted evs).Nodup)
    (hr : (after lim evs).status = .running) :
    ∃ current waiting, submitted evs = answered (effects lim evs) ++ (current ++ waiting) ∧ current.length ≤ 1 ∧
      (∀ c ∈ current, sentFor c (effects lim evs) ≠ []) ∧ (∀ c ∈ waiting, sentFor c (effects lim evs) = []) := by
  refine ⟨_, _, (order_inv lim evs).order hr, ?_, ?_, ?_⟩
  · cases ((init lim).run evs).1.outstanding <;> simp
  · intro c hc
    simp only [List.mem_map, Option.mem_toList] at hc
    obtain ⟨o, ho, rfl⟩ := hc
    have h1 := ((order_inv lim evs).retries hr o ho).1
    have h2 := (sent_inv lim evs hd).out hr o ho
    unfold effects
    rw [h2]
    intro h
    have := congrArg List.length h
    simp at this
    omega
  · intro c hc
    simp only [List.mem_map] at hc
    obtain ⟨p, hp, rfl⟩ := hc
    exact (sent_inv lim evs hd).queued hr p hp

example : answered (effects (some 2) demo) = [100, 200] ∧ submitted demo = [100, 200] := by decide +kernel

/-! ## C22 -/

/-- What made a step answer a caller. -/
theorem answer_reason {lim : Option Nat} {evs : List Event} {e : Event} {c : Chan} {a : Answer}
    (h : .answer c a ∈ next lim evs e) :
    (after lim evs).status = .running ∧
    ((e = .accept false ∧ a = .error .io) ∨
     ∃ o, (after lim evs).outstanding = some o ∧ o.chan = c ∧ Reason (after lim evs).limit o e a) := by
  have sh := step_shape (after lim evs) e
  unfold next at h
  generalize ((after lim evs).step e).1 = s' at *
  generalize ((after lim evs).step e).2 = new at *
  cases sh with
  | submit c r => simp at h
  | env => simp at h
  | dead => simp at h
  | quiet _ _ hr h1 h2 h4 => have := h4 _ h; simp [concerns] at this
  | start => simp at h
  | startFail c r q hr ho hq =>
    simp only [List.mem_singleton, Action.answer.injEq] at h
    exact ⟨hr, .inl ⟨rfl, h.2⟩⟩
  | resend => simp at h
  | reply o _ a' hr ho hre h1 =>
    simp only [List.mem_singleton, Action.answer.injEq] at h
    obtain ⟨rfl, rfl⟩ := h
    exact ⟨hr, .inr ⟨o, ho, rfl, hre⟩⟩

/-- C22: if a caller is answered with a response, the event is a datagram of kind `SpResponse` that carries the caller's
own message id and a well-formed response, the answer is exactly that header and message, and the caller's request had
been transmitted and not yet answered. -/
theorem C22_own_response (lim : Option Nat) (evs : List Event) (e : Event) (c : Chan) (resp : SpRpcResponse)
    (hd : (submitted evs).Nodup) (h : .answer c (.ok resp) ∈ next lim evs e) :
    ∃ src bytes ok hdr rest msg body trailing req,
      e = .packet src bytes ok ∧ headerOf bytes = some (hdr, rest) ∧ messageOf rest = some (msg, trailing) ∧
      hdr.messageKind = .spResponse ∧ msg.body = .spResponse body ∧
      Event.submit c req ∈ evs ∧ hdr.messageId = req.header.messageId ∧
      resp.header = hdr ∧ resp.message = msg ∧
      requestPacket req ∈ sentFor c (effects lim evs) ∧ c ∉ answered (effects lim evs) := by
  obtain ⟨hr, ⟨_, ha⟩ | ⟨o, ho, rfl, hre⟩⟩ := answer_reason h
  · cases ha
  · have inv := order_inv lim evs
    have hout := (sent_inv lim evs hd).out hr o ho
    have hret := (inv.retries hr o ho).1
    have hord := inv.order hr
    generalize hx : (Except.ok resp : Answer) = x at hre
    cases hre with
    | response src bytes ok hdr rest msg body t h1 h2 h3 h4 h5 =>
      have hresp : resp.header = hdr ∧ resp.message = msg := by
        unfold collectResponse at hx
        split at hx
        · cases hx; exact ⟨rfl, rfl⟩
        · dsimp only at hx
          split at hx
          · cases hx
          · cases hx; exact ⟨rfl, rfl⟩
      refine ⟨src, bytes, ok, hdr, rest, msg, body, t, o.request, rfl, h1, h4, h2, h5, inv.out hr o ho, h3, hresp.1,
        hresp.2, ?_, ?_⟩
      · unfold effects; rw [hout]; exact List.mem_replicate.mpr ⟨by omega, rfl⟩
      · intro hc
        have ho' : ((init lim).run evs).1.outstanding = some o := ho
        rw [hord, ho'] at hd
        exact (List.nodup_append.mp hd).2.2 _ hc o.chan (by simp) rfl
    | io => cases hx
    | retries => cases hx
    | faults => cases hx
    | proto => cases hx

/-- C22: a datagram that names another request, or arrives when none is in progress, answers nobody. -/
theorem C22_foreign (lim : Option Nat) (evs : List Event) (src : Addr) (bytes : Bytes) (ok : Bool)
    (hf : ∀ hdr rest o, headerOf bytes = some (hdr, rest) → (after lim evs).outstanding = some o →
      hdr.messageId ≠ o.request.header.messageId) :
    answered (next lim evs (.packet src bytes ok)) = [] := by
  unfold answered
  rw [List.filterMap_eq_nil_iff]
  intro x hx
  cases x with
  | answer c a =>
    obtain ⟨_, ⟨he, _⟩ | ⟨o, ho, _, hre⟩⟩ := answer_reason hx
    · cases he
    · cases hre with
      | proto _ _ _ hdr rest e h1 h2 h3 => exact absurd h2 (hf hdr rest o h1 ho)
      | response _ _ _ hdr rest m r t h1 h2 h3 h4 h5 => exact absurd h3 (hf hdr rest o h1 ho)
  | _ => rfl

example : .answer 100 (.ok ⟨Header.new 7 .spResponse, Message.new (.spResponse (.status ⟨0b01⟩ ⟨0b10⟩)),
      some [0x21, 6]⟩) ∈ next none [.submit 100 reqA, .accept true] (.packet 9 pktA true) := by decide +kernel

example : next none [.submit 200 reqB, .accept true] (.packet 9 pktA true) = [] ∧
    (after none [.submit 200 reqB, .accept true]).outstanding.isSome := by decide +kernel

/-! ## C23 -/

theorem limitOf_eq (lim : Option Nat) : limitOf lim = lim.getD usizeMax := by
  unfold limitOf usizeMax; rfl

/-- C23: all transmissions for a caller carry the same bytes, those of the request it submitted, and there are at most
`max 1 limit` of them. -/
theorem C23_bounded_identical (lim : Option Nat) (evs : List Event) (c : Chan) (hd : (submitted evs).Nodup)
    (hs : sentFor c (effects lim evs) ≠ []) :
    ∃ req n, Event.submit c req ∈ evs ∧ sentFor c (effects lim evs) = List.replicate n (requestPacket req) ∧
      n ≤ max 1 (limitOf lim) := by
  obtain ⟨n, r, h1, h2, h3⟩ := (sent_inv lim evs hd).all c hs
  exact ⟨r, n, h1, h2, by rw [limitOf_eq]; exact h3⟩

/-- C23: a `MaxRetries(n)` failure means exactly `n = max 1 limit` transmissions. -/
theorem C23_max_retries (lim : Option Nat) (evs : List Event) (e : Event) (c : Chan) (n : Nat)
    (hd : (submitted evs).Nodup) (h : .answer c (.error (.maxRetries n)) ∈ next lim evs e) :
    n = max 1 (limitOf lim) ∧ (sentFor c (effects lim evs)).length = n := by
  obtain ⟨hr, ⟨_, ha⟩ | ⟨o, ho, rfl, hre⟩⟩ := answer_reason h
  · cases ha
  · have inv := order_inv lim evs
    have hout := (sent_inv lim evs hd).out hr o ho
    have hret := inv.retries hr o ho
    have hl : (after lim evs).limit = limitOf lim := by rw [limitOf_eq]; exact inv.limit
    generalize hx : (Except.error (.maxRetries n) : Answer) = x at hre
    cases hre with
    | retries ok hle =>
      cases hx
      have hl' : ((init lim).run evs).1.limit = limitOf lim := hl
      rw [hl] at hle
      rw [hl'] at hret
      refine ⟨by omega, ?_⟩
      unfold effects; rw [hout]; simp
    | io => cases hx
    | faults => cases hx
    | proto => cases hx
    | response _ _ _ _ _ m r t =>
      unfold collectResponse at hx
      split at hx
      · cases hx
      · dsimp only at hx
        split at hx <;> cases hx

example : sentFor 200 (effects (some 2) demo) = [requestPacket reqB, requestPacket reqB] ∧ limitOf (some 2) = 2 := by
  decide +kernel

example : .answer 100 (.error (.maxRetries 1)) ∈ next (some 0) [.submit 100 reqA, .accept true] (.tick true) := by
  decide +kernel

/-! ## C24 -/

/-- C24 is false of the code: one ten-byte datagram from the network stops the loop, and then the request is never
answered however many ticks pass. -/
theorem C24_counterexample (n : Nat) :
    100 ∉ answered (effects (some 3) ([.submit 100 reqA, .accept true, .packet 9 (enc (Header.new 0 .spResponse)) true] ++
      List.replicate n (.tick true))) := by
  have key : ∀ (m : Nat) (s : IoState), s.status ≠ .running → (s.run (List.replicate m (.tick true))).2 = [] := by
    intro m
    induction m with
    | zero => intro s _; rfl
    | succ m ih =>
      intro s hs
      have hstep : s.step (.tick true) = (s, []) := by simp [step, hs]
      simp only [List.replicate_succ, run, hstep, List.nil_append]
      exact ih s hs
  unfold effects
  rw [run_append]
  dsimp only
  rw [key n _ (by decide +kernel), List.append_nil]
  decide +kernel

/-- C24, the part that holds: from the moment a request is accepted, `max 1 limit` timer ticks are enough for it to be
answered, whatever else happens in between, unless the loop's task has died. Missing: the loop can be killed by a
received datagram (C27) or by another caller that gave up (C28). -/
theorem C24_partial (lim : Option Nat) (pre post : List Event) (ok : Bool) (c : Chan) (req : HostRpcRequest)
    (hfree : (after lim pre).outstanding = none) (hhead : (after lim pre).queue.head? = some (c, req))
    (hrun : (after lim (pre ++ .accept ok :: post)).status = .running) (ht : max 1 (limitOf lim) ≤ ticks post) :
    c ∈ answered (effects lim (pre ++ .accept ok :: post)) := by
  unfold after at hrun
  unfold effects
  rw [run_append] at hrun ⊢
  dsimp only at hrun ⊢
  rw [answered_append]
  apply List.mem_append_right
  have hl : (after lim pre).limit = limitOf lim := by rw [limitOf_eq]; exact (order_inv lim pre).limit
  have hs : ((init lim).run pre).1 = after lim pre := rfl
  rw [hs] at hrun ⊢
  have hcons : ∀ s : IoState, s.run (.accept ok :: post) =
    (((s.step (.accept ok)).1.run post).1, (s.step (.accept ok)).2 ++ ((s.step (.accept ok)).1.run post).2) :=
    fun _ => rfl
  rw [hcons] at hrun ⊢
  dsimp only at hrun ⊢
  rw [answered_append]
  have hst1 := run_running hrun
  have hrunning := step_running hst1
  have hq : ∃ q, (after lim pre).queue = (c, req) :: q := by
    cases hq : (after lim pre).queue with
    | nil => rw [hq] at hhead; cases hhead
    | cons p q => rw [hq] at hhead; simp at hhead; subst hhead; exact ⟨q, rfl⟩
  obtain ⟨q, hq⟩ := hq
  have hval : (after lim pre).step (.accept ok) =
      { after lim pre with queue := q, outstanding := some ⟨c, req, 0, 0⟩ }.sendOutgoingRequest ok := by
    simp only [step, hrunning, ne_eq, not_true_eq_false, if_false, handleAccept, hfree, hq]
  rw [hval] at hrun hst1 ⊢
  simp only [sendOutgoingRequest] at hrun hst1 ⊢
  split at hst1
  · simp [die] at hst1
  · rename_i hsz
    simp only [if_neg hsz] at hrun ⊢
    cases ok with
    | true =>
      simp only [if_true] at hrun ⊢
      apply List.mem_append_right
      exact ticks_answer post _ ⟨c, req, 1, 0⟩ rfl (Nat.le_refl 1) hrun
        (by dsimp only; rw [hl]; omega) (Nat.le_max_left _ _)
    | false =>
      simp only [Bool.false_eq_true, if_false, answerOutstanding] at hrun hst1 ⊢
      split at hst1
      · simp [die] at hst1
      · rename_i hdr
        rw [if_neg hdr]
        exact List.mem_append_left _ (by simp)

example : (after (some 2) [.submit 100 reqA]).queue.head? = some (100, reqA) ∧
    (after (some 2) ([.submit 100 reqA] ++ .accept true :: [.tick true, .packet 9 [1, 2] true, .tick true])).status =
      .running ∧
    ticks [.tick true, .packet 9 [1, 2] true, .tick true] = max 1 (limitOf (some 2)) := by decide +kernel

/-! ## C25 -/

/-- C25: a `MaxFaultMessages(n)` failure happens only at a timer tick, with `n ≥ 5` the exact number of faulty messages
that arrived since the request was accepted. -/
theorem C25_threshold (lim : Option Nat) (evs : List Event) (e : Event) (c : Chan) (n : Nat)
    (h : .answer c (.error (.maxFaultMessages n)) ∈ next lim evs e) :
    (∃ ok, e = .tick ok) ∧ 5 ≤ n ∧ ∃ pre post req, evs = pre ++ .accept true :: post ∧
      (after lim pre).outstanding = none ∧ (after lim pre).queue.head? = some (c, req) ∧ faults post = n ∧
      answered (effects lim evs) = answered (effects lim pre) := by
  obtain ⟨hr, ⟨_, ha⟩ | ⟨o, ho, rfl, hre⟩⟩ := answer_reason h
  · cases ha
  · obtain ⟨pre, post, he, h1, h2, h3, h4, h5⟩ := since_accept lim evs hr o ho
    generalize hx : (Except.error (.maxFaultMessages n) : Answer) = x at hre
    cases hre with
    | faults ok hlt hle =>
      cases hx
      exact ⟨⟨ok, rfl⟩, hle, pre, post, o.request, he, h2, h3, h4.symm, h5⟩
    | io => cases hx
    | retries => cases hx
    | proto => cases hx
    | response _ _ _ _ _ m r t =>
      unfold collectResponse at hx
      split at hx
      · cases hx
      · dsimp only at hx
        split at hx <;> cases hx

/-- C25: a well-formed response that carries another request's id changes nothing at all. -/
theorem C25_foreign_response (s : IoState) (src : Addr) (bytes rest trailing : Bytes) (ok : Bool) (hdr : Header)
    (msg : Message) (body : SpResponse) (o : Outstanding) (ho : s.outstanding = some o)
    (hh : headerOf bytes = some (hdr, rest)) (hk : hdr.messageKind = .spResponse)
    (hm : messageOf rest = some (msg, trailing)) (hb : msg.body = .spResponse body)
    (hid : hdr.messageId ≠ o.request.header.messageId) : s.step (.packet src bytes ok) = (s, []) := by
  have h1 : (dec (List.take maxPacketSize bytes) : Option (Header × Bytes)) = some (hdr, rest) := hh
  have h2 : (dec rest : Option (Message × Bytes)) = some (msg, trailing) := hm
  simp only [step, handlePacket, h1, hk, handleSpResponse, ho, h2, hb]
  by_cases hr : s.status = .running
  · rw [if_neg (fun h => h hr), if_neg (fun h => hid h.symm)]
  · rw [if_pos hr]

example : .answer 100 (.error (.maxFaultMessages 5)) ∈
    next (some 9) ([.submit 100 reqA, .accept true] ++ List.replicate 5 .recvError) (.tick true) := by decide +kernel

example : headerOf pktA = some (Header.new 7 .spResponse, pktA.drop 10) ∧
    (after none [.submit 200 reqB, .accept true]).outstanding.map (·.request.header.messageId) = some 8 := by
  decide +kernel

/-! ## C26 -/

theorem collectResponse_eq (h : Header) (m : Message) (r : SpResponse) (t : Bytes) :
    collectResponse h m r t = match expectedTrailing r with
      | none => .ok ⟨h, m, none⟩
      | some n => if t.length < n then .error (.protocol (.wrongDataSize (BitVec.ofNat 32 n) (BitVec.ofNat 32 t.length)))
          else .ok ⟨h, m, some (t.take n)⟩ := by
  have e1 : maxSize HwError = 1 := rfl
  have e2 : maxSize LedState = 1 := rfl
  have e3 : maxSize U32 = 4 := rfl
  cases r <;>
    simp [collectResponse, expectedTrailing, SpResponse.expectedDataLen, SpResponse.expectedErrorDataLen, e1, e2, e3,
      count_eq_card]

/-- C26: a response delivered to a caller carries exactly the bytes its module sets call for. -/
theorem C26_delivered (lim : Option Nat) (evs : List Event) (e : Event) (c : Chan) (resp : SpRpcResponse)
    (h : .answer c (.ok resp) ∈ next lim evs e) :
    ∃ body, resp.message.body = .spResponse body ∧ resp.data.map List.length = expectedTrailing body := by
  obtain ⟨_, ⟨_, ha⟩ | ⟨o, _, _, hre⟩⟩ := answer_reason h
  · cases ha
  · generalize hx : (Except.ok resp : Answer) = x at hre
    cases hre with
    | response src bytes ok hdr rest msg body t h1 h2 h3 h4 h5 =>
      refine ⟨body, ?_⟩
      rw [collectResponse_eq] at hx
      split at hx
      · rename_i hn; cases hx; exact ⟨h5, by rw [hn]; rfl⟩
      · rename_i n hn
        split at hx
        · cases hx
        · cases hx
          refine ⟨h5, ?_⟩
          rw [hn]; simp; omega
    | io => cases hx
    | retries => cases hx
    | faults => cases hx
    | proto => cases hx

/-- C26: exactly what a matching response leads to: too few trailing bytes fail the call with both sizes, and extra
trailing bytes are dropped. -/
theorem C26_matching (s : IoState) (src : Addr) (bytes rest trailing : Bytes) (ok : Bool) (hdr : Header)
    (msg : Message) (body : SpResponse) (o : Outstanding) (hr : s.status = .running) (ho : s.outstanding = some o)
    (hlive : o.chan ∉ s.dropped)
    (hh : headerOf bytes = some (hdr, rest)) (hk : hdr.messageKind = .spResponse)
    (hm : messageOf rest = some (msg, trailing)) (hb : msg.body = .spResponse body)
    (hid : hdr.messageId = o.request.header.messageId) :
    (s.step (.packet src bytes ok)).2 = [.answer o.chan (match expectedTrailing body with
      | none => .ok ⟨hdr, msg, none⟩
      | some n =>
        if trailing.length < n then
          .error (.protocol (.wrongDataSize (BitVec.ofNat 32 n) (BitVec.ofNat 32 trailing.length)))
        else .ok ⟨hdr, msg, some (trailing.take n)⟩)] := by
  have h1 : (dec (List.take maxPacketSize bytes) : Option (Header × Bytes)) = some (hdr, rest) := hh
  have h2 : (dec rest : Option (Message × Bytes)) = some (msg, trailing) := hm
  simp only [step, hr, ne_eq, not_true_eq_false, if_false, handlePacket, h1, hk, handleSpResponse, ho, h2, hb]
  rw [if_pos hid.symm, ← collectResponse_eq]
  simp only [answerOutstanding, List.contains_iff_mem]
  rw [if_neg hlive]

/-- C26: the two sizes in the failure are the true ones: neither wraps around. -/
theorem C26_sizes (bytes rest trailing : Bytes) (hdr : Header) (msg : Message) (body : SpResponse) (n : Nat)
    (hh : headerOf bytes = some (hdr, rest)) (hm : messageOf rest = some (msg, trailing))
    (hn : expectedTrailing body = some n) :
    (BitVec.ofNat 32 n).toNat = n ∧ (BitVec.ofNat 32 trailing.length).toNat = trailing.length := by
  have hc : ∀ m : ModuleId, card m ≤ 64 := by
    intro m; rw [← count_eq_card]; exact Nat.le_trans List.countP_le_length (by simp)
  have hb1 : n < 2 ^ 32 := by
    have hmul : ∀ (a b : Nat), a ≤ 64 → b < 256 → a * b ≤ 64 * 256 := fun a b h1 h2 => Nat.mul_le_mul h1 (Nat.le_of_lt h2)
    cases body with
    | read m f r =>
      simp only [expectedTrailing, Option.some.injEq] at hn
      have := hmul (card m) r.len.toNat (hc m) r.len.isLt
      have := hc f; omega
    | write m f r => simp only [expectedTrailing, Option.some.injEq] at hn; have := hc f; omega
    | status m f => simp only [expectedTrailing, Option.some.injEq] at hn; have := hc f; have := hc m; omega
    | ack m f => simp only [expectedTrailing, Option.some.injEq] at hn; have := hc f; omega
    | macAddrs r => cases hn
    | ledState m f => simp only [expectedTrailing, Option.some.injEq] at hn; have := hc f; have := hc m; omega
    | extendedStatus m f => simp only [expectedTrailing, Option.some.injEq] at hn; have := hc f; have := hc m; omega
  have hb2 : trailing.length < 2 ^ 32 := by
    have e1 := enc_dec _ _ _ hh
    have e2 := enc_dec _ _ _ hm
    have l1 := congrArg List.length e1
    have l2 := congrArg List.length e2
    simp only [List.length_append, List.length_take] at l1 l2
    omega
  constructor
  · rw [BitVec.toNat_ofNat]; exact Nat.mod_eq_of_lt hb1
  · rw [BitVec.toNat_ofNat]; exact Nat.mod_eq_of_lt hb2

example : expectedTrailing (.status ⟨0b01⟩ ⟨0b10⟩) = some 2 ∧
    next none [.submit 100 reqA, .accept true] (.packet 9 (responsePkt 7 (.status ⟨1⟩ ⟨2⟩) [0x21]) true) =
      [.answer 100 (.error (.protocol (.wrongDataSize 2 1)))] ∧
    next none [.submit 100 reqA, .accept true] (.packet 9 (responsePkt 7 (.status ⟨1⟩ ⟨2⟩) [0x21, 6, 7, 8]) true) =
      [.answer 100 (.ok ⟨Header.new 7 .spResponse, Message.new (.spResponse (.status ⟨1⟩ ⟨2⟩)), some [0x21, 6]⟩)] := by
  decide +kernel

/-! ## C27 -/

/-- C27 is false of the code: while any request is in progress, a datagram that consists of a bare header of kind
`SpResponse`, with any message id, makes the I/O task panic (`ioloop.rs` 484 indexes an empty slice). -/
theorem C27_counterexample :
    (after none [.submit 100 reqA, .accept true, .packet 9 (enc (Header.new 0 .spResponse)) true]).status = .panicked := by
  decide +kernel

theorem C27_false : ¬ ∀ (s : IoState) (src : Addr) (bytes : Bytes) (ok : Bool), s.status = .running →
    (s.step (.packet src bytes ok)).1.status = .running := by
  intro h
  have := h (after none [.submit 100 reqA, .accept true]) 9 (enc (Header.new 0 .spResponse)) true (by decide +kernel)
  revert this
  decide +kernel

/-- C27, the part that holds: with the handler's channel open and no caller gone, the bare `SpResponse` header is the
only datagram, of all byte strings, that kills the loop, and only while a request is in progress. Missing: that case. -/
theorem C27_exact_partial (s : IoState) (src : Addr) (bytes : Bytes) (ok : Bool) (hr : s.status = .running)
    (hh : s.handlerGone = false) (hd : ∀ o, s.outstanding = some o → o.chan ∉ s.dropped) :
    (s.step (.packet src bytes ok)).1.status ≠ .running ↔
      s.outstanding.isSome ∧ ∃ hdr, headerOf bytes = some (hdr, []) ∧ hdr.messageKind = .spResponse := by
  have hans : ∀ o a, s.outstanding = some o → (s.answerOutstanding o a).1.status = .running := by
    intro o a ho
    simp only [answerOutstanding, List.contains_iff_mem]
    rw [if_neg (hd o ho)]; exact hr
  have hinc : s.incrementFaulty.status = .running := hr
  have hfail : ∀ h e, (s.incrementFaulty.failMatching h e).1.status = .running := by
    intro h e
    rcases failMatching_faulty s h e with ⟨_, he⟩ | ⟨o, _, _, he⟩ | ⟨o, ho, hid, he⟩ <;> rw [he]
    · exact hinc
    · exact hinc
    · exact hans _ _ ho
  have hfail' : ∀ h e, (s.failMatching h e).1.status = .running := by
    intro h e
    unfold failMatching
    cases ho : s.outstanding with
    | none => exact hr
    | some o =>
      dsimp only
      split
      · exact hr
      · exact hans _ _ ho
  have hx : s.step (.packet src bytes ok) = s.handlePacket src bytes ok := by simp [step, hr]
  rw [hx]
  have hm : maxPacketSize = 1060 := rfl
  unfold handlePacket headerOf
  rw [hm]
  cases hd1 : (dec (List.take 1060 bytes) : Option (Header × Bytes)) with
  | none => simp [hinc]
  | some p =>
    obtain ⟨hdr, rest⟩ := p
    dsimp only
    split
    · rename_i hk; simp [sendProtocolError, hinc, hk]
    · rename_i hk; simp [sendProtocolError, hinc, hk]
    · rename_i hk
      have : (s.handleSpError hdr rest).1.status = .running := by
        unfold handleSpError
        split
        · split
          · exact hfail _ _
          · exact hinc
        · exact hfail _ _
      simp [this, hk]
    · rename_i hk
      have : (s.handleSpRequest src hdr rest ok).1.status = .running := by
        unfold handleSpRequest
        split
        · simp [hh, hr]
        · simp [sendProtocolError, hr]
      simp [this, hk]
    · rename_i hk
      unfold handleSpResponse
      cases ho : s.outstanding with
      | none => simp [hr]
      | some o =>
        dsimp only
        cases hd2 : (dec rest : Option (Message × Bytes)) with
        | none =>
          dsimp only
          split
          · simp [die, hk]
          · simp [hfail]
        | some q =>
          obtain ⟨m, t⟩ := q
          have hne : rest ≠ [] := by
            intro h; subst h
            have : (dec ([] : Bytes) : Option (Message × Bytes)) = none := by decide +kernel
            rw [this] at hd2; cases hd2
          dsimp only
          split
          · split
            · simp [hans _ _ ho, hne]
            · simp [hr, hne]
          · simp [hfail', hne]

example : (after none [.submit 100 reqA, .accept true]).status = .running ∧
    (after none [.submit 100 reqA, .accept true]).handlerGone = false ∧
    (after none [.submit 100 reqA, .accept true]).dropped = [] ∧
    (after none [.submit 100 reqA, .accept true]).outstanding.isSome := by decide +kernel

/-! ## C28 -/

/-- C28 is false of the code: caller 100 gives up, the reply to its request arrives, and the I/O task panics, so caller
200, who is still waiting, is never served (`ioloop.rs` 632-637). -/
theorem C28_counterexample :
    (after none [.submit 100 reqA, .submit 200 reqB, .accept true, .dropCaller 100, .packet 9 pktA true]).status =
      .panicked := by decide +kernel

theorem C28_false : ¬ ∀ (lim : Option Nat) (evs : List Event) (c : Chan) (e : Event),
    (after lim (evs ++ [e])).status = .running → (after lim (evs ++ [.dropCaller c, e])).status = .running := by
  intro h
  have := h none [.submit 100 reqA, .submit 200 reqB, .accept true] 100 (.packet 9 pktA true) (by decide +kernel)
  revert this
  decide +kernel

/-- Two loops that differ at most in whether caller `c` is known to be gone. -/
def SameBut (c : Chan) (s s' : IoState) : Prop :=
  ∃ d₁ d₂, s.dropped = d₁ ++ d₂ ∧ s' = { s with dropped := d₁ ++ c :: d₂ }

/-- Caller `c` is not, and will not be, in the loop. -/
def NotInLoop (c : Chan) (s : IoState) : Prop :=
  (∀ o, s.outstanding = some o → o.chan ≠ c) ∧ ∀ p ∈ s.queue, p.1 ≠ c

theorem same_answer {c : Chan} {s s' : IoState} (h : SameBut c s s') (o : Outstanding) (a : Answer) (hc : o.chan ≠ c) :
    SameBut c (s.answerOutstanding o a).1 (s'.answerOutstanding o a).1 ∧
      (s.answerOutstanding o a).2 = (s'.answerOutstanding o a).2 := by
  obtain ⟨d₁, d₂, hd, rfl⟩ := h
  have : (d₁ ++ c :: d₂).contains o.chan = s.dropped.contains o.chan := by
    rw [Bool.eq_iff_iff, List.contains_iff_mem, List.contains_iff_mem, hd]
    simp [hc]
  simp only [answerOutstanding, this]
  split
  · exact ⟨⟨d₁, d₂, hd, rfl⟩, rfl⟩
  · exact ⟨⟨d₁, d₂, hd, rfl⟩, rfl⟩

theorem same_sendRequest {c : Chan} {s s' : IoState} (h : SameBut c s s') (hc : ∀ o, s.outstanding = some o → o.chan ≠ c)
    (ok : Bool) : SameBut c (s.sendOutgoingRequest ok).1 (s'.sendOutgoingRequest ok).1 ∧
      (s.sendOutgoingRequest ok).2 = (s'.sendOutgoingRequest ok).2 := by
  have h' := h
  have hout : s'.outstanding = s.outstanding := by obtain ⟨_, _, _, rfl⟩ := h; rfl
  obtain ⟨d₁, d₂, hd, he⟩ := h
  unfold sendOutgoingRequest
  rw [hout]
  split
  · subst he; exact ⟨⟨d₁, d₂, hd, rfl⟩, rfl⟩
  · rename_i o ho
    dsimp only
    split
    · subst he; exact ⟨⟨d₁, d₂, hd, rfl⟩, rfl⟩
    · split
      · subst he; exact ⟨⟨d₁, d₂, hd, rfl⟩, rfl⟩
      · exact same_answer h' o _ (hc o ho)

theorem same_failMatching {c : Chan} {s s' : IoState} (h : SameBut c s s') (hc : ∀ o, s.outstanding = some o → o.chan ≠ c)
    (hdr : Header) (e : ProtocolError) : SameBut c (s.failMatching hdr e).1 (s'.failMatching hdr e).1 ∧
      (s.failMatching hdr e).2 = (s'.failMatching hdr e).2 := by
  have hout : s'.outstanding = s.outstanding := by obtain ⟨_, _, _, rfl⟩ := h; rfl
  unfold failMatching
  rw [hout]
  split
  · exact ⟨h, rfl⟩
  · rename_i o ho
    split
    · exact ⟨h, rfl⟩
    · exact same_answer h o _ (hc o ho)

theorem same_faulty {c : Chan} {s s' : IoState} (h : SameBut c s s') (hc : ∀ o, s.outstanding = some o → o.chan ≠ c) :
    SameBut c s.incrementFaulty s'.incrementFaulty ∧ ∀ o, s.incrementFaulty.outstanding = some o → o.chan ≠ c := by
  obtain ⟨d₁, d₂, hd, rfl⟩ := h
  refine ⟨⟨d₁, d₂, hd, rfl⟩, ?_⟩
  intro o ho
  simp only [incrementFaulty, Option.map_eq_some_iff] at ho
  obtain ⟨o', ho', rfl⟩ := ho
  exact hc o' ho'

theorem same_step {c : Chan} {s s' : IoState} (h : SameBut c s s') (hn : NotInLoop c s) (e : Event) :
    SameBut c (s.step e).1 (s'.step e).1 ∧ (s.step e).2 = (s'.step e).2 := by
  have h' := h
  have hst : s'.status = s.status := by obtain ⟨_, _, _, rfl⟩ := h; rfl
  have hout : s'.outstanding = s.outstanding := by obtain ⟨_, _, _, rfl⟩ := h; rfl
  have hq : s'.queue = s.queue := by obtain ⟨_, _, _, rfl⟩ := h; rfl
  have hcl : s'.closed = s.closed := by obtain ⟨_, _, _, rfl⟩ := h; rfl
  have hlm : s'.limit = s.limit := by obtain ⟨_, _, _, rfl⟩ := h; rfl
  have hhg : s'.handlerGone = s.handlerGone := by obtain ⟨_, _, _, rfl⟩ := h; rfl
  obtain ⟨d₁, d₂, hd, he⟩ := h
  cases e with
  | submit c r => subst he; exact ⟨⟨d₁, d₂, hd, rfl⟩, rfl⟩
  | dropCaller c' => subst he; exact ⟨⟨c' :: d₁, d₂, by simp [step, hd], rfl⟩, rfl⟩
  | closeRequests => subst he; exact ⟨⟨d₁, d₂, hd, rfl⟩, rfl⟩
  | dropHandler => subst he; exact ⟨⟨d₁, d₂, hd, rfl⟩, rfl⟩
  | accept ok =>
    simp only [step, hst]
    split
    · exact ⟨h', rfl⟩
    · simp only [handleAccept, hout, hq, hcl]
      split
      · exact ⟨h', rfl⟩
      · split
        · split
          · subst he; exact ⟨⟨d₁, d₂, hd, rfl⟩, rfl⟩
          · exact ⟨h', rfl⟩
        · rename_i c' r q hqq
          refine same_sendRequest ?_ ?_ ok
          · subst he; exact ⟨d₁, d₂, hd, rfl⟩
          · intro o ho
            simp only [Option.some.injEq] at ho; subst ho
            exact hn.2 (c', r) (by rw [hqq]; exact List.mem_cons_self)
  | tick ok =>
    simp only [step, hst]
    split
    · exact ⟨h', rfl⟩
    · simp only [handleTick, hout, hlm]
      split
      · exact ⟨h', rfl⟩
      · rename_i o ho
        split
        · exact same_sendRequest h' hn.1 ok
        · split
          · exact same_answer h' o _ (hn.1 o ho)
          · exact same_answer h' o _ (hn.1 o ho)
  | handlerReply r ok =>
    simp only [step, hst]
    split
    · exact ⟨h', rfl⟩
    · unfold handleReply
      split
      · unfold sendOutgoingResponse
        dsimp only
        split
        · subst he; exact ⟨⟨d₁, d₂, hd, rfl⟩, rfl⟩
        · exact ⟨h', rfl⟩
      · exact ⟨h', rfl⟩
      · exact ⟨h', rfl⟩
  | packet src bytes ok =>
    obtain ⟨hf1, hf2⟩ := same_faulty h' hn.1
    simp only [step, hst]
    split
    · exact ⟨h', rfl⟩
    · unfold handlePacket
      split
      · exact ⟨hf1, rfl⟩
      · split
        · exact ⟨hf1, rfl⟩
        · exact ⟨hf1, rfl⟩
        · unfold handleSpError
          split
          · split
            · exact same_failMatching hf1 hf2 _ _
            · exact ⟨hf1, rfl⟩
          · exact same_failMatching hf1 hf2 _ _
        · unfold handleSpRequest
          rw [hhg]
          split
          · split
            · subst he; exact ⟨⟨d₁, d₂, hd, rfl⟩, rfl⟩
            · exact ⟨h', rfl⟩
          · exact ⟨h', rfl⟩
        · unfold handleSpResponse
          rw [hout]
          split
          · exact ⟨h', rfl⟩
          · rename_i o ho
            split
            · split
              · subst he; exact ⟨⟨d₁, d₂, hd, rfl⟩, rfl⟩
              · exact same_failMatching hf1 hf2 _ _
            · split
              · split
                · exact same_answer h' o _ (hn.1 o ho)
                · exact ⟨h', rfl⟩
              · exact same_failMatching h' hn.1 _ _
  | recvError =>
    simp only [step, hst]
    split
    · exact ⟨h', rfl⟩
    · exact ⟨(same_faulty h' hn.1).1, rfl⟩

theorem notInLoop_step {c : Chan} {s : IoState} (hr : s.status = .running → NotInLoop c s) (e : Event)
    (he : ∀ r, e ≠ .submit c r) : (s.step e).1.status = .running → NotInLoop c (s.step e).1 := by
  intro hst
  have hr := hr (step_running hst)
  have sh := step_shape s e
  generalize (s.step e).1 = s' at *
  generalize (s.step e).2 = new at *
  obtain ⟨h1, h2⟩ := hr
  cases sh with
  | submit c' r =>
    refine ⟨h1, ?_⟩
    intro p hp
    simp only [List.mem_append, List.mem_singleton] at hp
    rcases hp with hp | rfl
    · exact h2 p hp
    · rintro rfl; exact he r rfl
  | env _ _ _ _ _ _ _ ho hq => exact ⟨ho ▸ h1, hq ▸ h2⟩
  | dead _ _ _ hd => exact absurd hst hd
  | quiet =>
    refine ⟨?_, h2⟩
    intro o ho
    simp only [Option.map_eq_some_iff] at ho
    obtain ⟨o', ho', rfl⟩ := ho
    exact h1 o' ho'
  | start c' r q _ _ hq =>
    refine ⟨?_, fun p hp => h2 p (by rw [hq]; exact List.mem_cons_of_mem _ hp)⟩
    intro o ho
    simp only [Option.some.injEq] at ho; subst ho
    exact h2 (c', r) (by rw [hq]; exact List.mem_cons_self)
  | startFail c' r q _ _ hq =>
    exact ⟨fun o ho => (by cases ho), fun p hp => h2 p (by rw [hq]; exact List.mem_cons_of_mem _ hp)⟩
  | resend o _ ho =>
    refine ⟨?_, h2⟩
    intro o' ho'
    simp only [Option.some.injEq] at ho'; subst ho'
    exact h1 o ho
  | reply => exact ⟨fun o ho => (by cases ho), h2⟩

theorem same_run {c : Chan} (evs : List Event) : ∀ {s s' : IoState}, SameBut c s s' →
    (s.status = .running → NotInLoop c s) → (∀ r, Event.submit c r ∉ evs) →
    SameBut c (s.run evs).1 (s'.run evs).1 ∧ (s.run evs).2 = (s'.run evs).2 := by
  induction evs with
  | nil => intro s s' h _ _; exact ⟨h, rfl⟩
  | cons e es ih =>
    intro s s' h hn he
    have hstep : SameBut c (s.step e).1 (s'.step e).1 ∧ (s.step e).2 = (s'.step e).2 := by
      by_cases hr : s.status = .running
      · exact same_step h (hn hr) e
      · have hr' : s'.status ≠ .running := by obtain ⟨_, _, _, rfl⟩ := h; exact hr
        have h' := h
        obtain ⟨d₁, d₂, hd, rfl⟩ := h
        cases e with
        | submit c r => exact ⟨⟨d₁, d₂, hd, rfl⟩, rfl⟩
        | dropCaller c' => exact ⟨⟨c' :: d₁, d₂, by simp [step, hd], rfl⟩, rfl⟩
        | closeRequests => exact ⟨⟨d₁, d₂, hd, rfl⟩, rfl⟩
        | dropHandler => exact ⟨⟨d₁, d₂, hd, rfl⟩, rfl⟩
        | _ => simp only [step, ne_eq, hr, hr', not_false_eq_true, if_true]; exact ⟨h', trivial⟩
    obtain ⟨h1, h2⟩ := hstep
    obtain ⟨h3, h4⟩ := ih h1
      (notInLoop_step hn e (fun r hr => he r (hr ▸ List.mem_cons_self)))
      (fun r hr => he r (List.mem_cons_of_mem _ hr))
    simp only [run]
    exact ⟨h3, by rw [h2, h4]⟩

/-- C28, the part that holds: a caller that goes away after it got its answer disturbs nothing; all later effects are the
same as if it had stayed, and so is whether the loop runs. Missing: a caller that goes away before its answer kills the
loop when the answer comes. -/
theorem C28_after_answer_partial (lim : Option Nat) (evs later : List Event) (c : Chan)
    (hd : (submitted (evs ++ later)).Nodup) (hans : c ∈ answered (effects lim evs)) :
    effects lim (evs ++ .dropCaller c :: later) = effects lim (evs ++ later) ∧
      (after lim (evs ++ .dropCaller c :: later)).status = (after lim (evs ++ later)).status := by
  have hsub : c ∈ submitted evs := (C21_order lim evs).subset hans
  have hlater : ∀ r, Event.submit c r ∉ later := by
    intro r hr
    rw [submitted_append] at hd
    exact (List.nodup_append.mp hd).2.2 c hsub c (List.mem_filterMap.mpr ⟨_, hr, rfl⟩) rfl
  have hnot : ((init lim).run evs).1.status = .running → NotInLoop c ((init lim).run evs).1 := by
    intro hr
    have hord := (order_inv lim evs).order hr
    rw [submitted_append] at hd
    have hd := (List.nodup_append.mp hd).1
    rw [hord] at hd
    have hdis := (List.nodup_append.mp hd).2.2
    constructor
    · intro o ho hc
      exact hdis c hans o.chan (by simp [ho]) hc.symm
    · intro p hp hc
      exact hdis c hans p.1 (List.mem_append_right _ (List.mem_map_of_mem hp)) hc.symm
  have key := same_run (c := c) later (s := ((init lim).run evs).1) (s' := (((init lim).run evs).1.step (.dropCaller c)).1)
    ⟨[], _, rfl, rfl⟩ hnot hlater
  unfold effects after
  rw [run_append, run_append]
  have hcons : ∀ s : IoState, s.run (.dropCaller c :: later) =
    (((s.step (.dropCaller c)).1.run later).1, [] ++ ((s.step (.dropCaller c)).1.run later).2) := fun _ => rfl
  rw [hcons]
  dsimp only
  refine ⟨by rw [List.nil_append, key.2], ?_⟩
  obtain ⟨_, _, _, he⟩ := key.1
  rw [he]

example : 100 ∈ answered (effects (some 2) (demo.take 7)) ∧ (submitted (demo.take 7 ++ demo.drop 7)).Nodup ∧
    answered (effects (some 2) (demo.take 7 ++ .dropCaller 100 :: demo.drop 7)) = [100, 200] := by decide +kernel

/-! ## C29 -/

/-- C29: the bytes transmitted for a caller decode to exactly the header and message of the request it submitted, and
leave exactly the request's data; and they fit in a packet. -/
theorem C29_decodable (lim : Option Nat) (evs : List Event) (e : Event) (c : Chan) (pkt : Bytes)
    (h : .sendRequest c pkt ∈ next lim evs e) :
    ∃ req, Event.submit c req ∈ evs ∧
      (∃ rest, dec pkt = some (req.header, rest) ∧ dec rest = some (req.message, req.data.getD [])) := by
  have inv := order_inv lim evs
  have key : ∀ req : HostRpcRequest,
      ∃ rest, dec (requestPacket req) = some (req.header, rest) ∧ dec rest = some (req.message, req.data.getD []) := by
    intro req
    exact C13_packet req.header req.message (req.data.getD [])
  have sh := step_shape (after lim evs) e
  unfold next at h
  generalize ((after lim evs).step e).1 = s' at *
  generalize ((after lim evs).step e).2 = new at *
  cases sh with
  | submit c r => simp at h
  | env => simp at h
  | dead => simp at h
  | quiet _ _ hr h1 h2 h4 => have := h4 _ h; simp [concerns] at this
  | start c' r q hr ho hq =>
    simp only [List.mem_singleton, Action.sendRequest.injEq] at h
    obtain ⟨rfl, rfl⟩ := h
    exact ⟨r, inv.queued hr (c, r) (by
      show (c, r) ∈ (after lim evs).queue
      rw [hq]; exact List.mem_cons_self), key r⟩
  | startFail c r q hr ho hq => simp at h
  | resend o hr ho =>
    simp only [List.mem_singleton, Action.sendRequest.injEq] at h
    obtain ⟨rfl, rfl⟩ := h
    exact ⟨o.request, inv.out hr o ho, key o.request⟩
  | reply o _ a' hr ho hre h1 => simp at h

/-- C29: a request with at most 1024 bytes of data always fits in one packet, and accepting it or resending it never
kills the loop while its caller waits. -/
theorem C29_fits (req : HostRpcRequest) (hdata : (req.data.getD []).length ≤ 1024) :
    (requestPacket req).length ≤ maxPacketSize ∧ maxPacketSize = 1060 :=
  C15_packet req.header req.message (req.data.getD []) hdata

theorem C29_accept_survives (s : IoState) (ok : Bool) (hr : s.status = .running) (hc : s.closed = false)
    (hfit : ∀ p ∈ s.queue, (p.2.data.getD []).length ≤ 1024) (hd : ∀ p ∈ s.queue, p.1 ∉ s.dropped) :
    (s.step (.accept ok)).1.status = .running := by
  simp only [step, hr, ne_eq, not_true_eq_false, if_false, handleAccept]
  split
  · exact hr
  · split
    · simp [hc, hr]
    · rename_i c r q hq
      have h1 := (C29_fits r (hfit (c, r) (by rw [hq]; exact List.mem_cons_self))).1
      have h2 := hd (c, r) (by rw [hq]; exact List.mem_cons_self)
      simp only [sendOutgoingRequest]
      rw [if_neg (by omega)]
      split
      · rfl
      · simp only [answerOutstanding, List.contains_iff_mem]
        rw [if_neg h2]

theorem C29_resend_survives (s : IoState) (ok : Bool) (hr : s.status = .running)
    (h : ∀ o, s.outstanding = some o → (o.request.data.getD []).length ≤ 1024 ∧ o.chan ∉ s.dropped) :
    (s.step (.tick ok)).1.status = .running := by
  simp only [step, hr, ne_eq, not_true_eq_false, if_false, handleTick]
  split
  · exact hr
  · rename_i o ho
    obtain ⟨h1, h2⟩ := h o ho
    have h1 := (C29_fits o.request h1).1
    have hans : ∀ a, (s.answerOutstanding o a).1.status = .running := by
      intro a
      simp only [answerOutstanding, List.contains_iff_mem]
      rw [if_neg h2]; exact hr
    split
    · simp only [sendOutgoingRequest, ho]
      rw [if_neg (by omega)]
      split
      · exact hr
      · exact hans _
    · split <;> exact hans _

example : .sendRequest 100 (requestPacket reqA) ∈ next none [.submit 100 reqA] (.accept true) ∧
    requestPacket reqA = [1, 7, 0, 0, 0, 0, 0, 0, 0, 1, 7, 1, 2, 3, 0, 0, 0, 0, 0, 0, 0] := by decide +kernel

/-! ## C30 -/

/-- C30 is false of the code: a datagram of kind `HostRequest` is answered with an error message under a header of kind
`HostRequest`, the received header sent back unchanged (`ioloop.rs` 859-864). -/
theorem C30_counterexample :
    ((IoState.init none).step (.packet 9 (enc (Header.new 7 .hostRequest)) true)).2 =
      [.sendError 9 (enc (Header.new 7 .hostRequest) ++ enc (Message.new (.error .wrongMessage)))] ∧
    headerOf (enc (Header.new 7 .hostRequest) ++ enc (Message.new (.error .wrongMessage))) =
      some (Header.new 7 .hostRequest, enc (Message.new (.error .wrongMessage))) := by decide +kernel

theorem C30_false : ¬ ∀ (s : IoState) (e : Event) (dst : Addr) (pkt : Bytes), .sendError dst pkt ∈ (s.step e).2 →
    ∃ (hdr : Header) (rest : Bytes), dec pkt = some (hdr, rest) ∧ hdr.messageKind = .error := by
  intro h
  have hc := C30_counterexample.1
  obtain ⟨hdr, rest, h1, h2⟩ := h (IoState.init none) (.packet 9 (enc (Header.new 7 .hostRequest)) true) 9
    (enc (Header.new 7 .hostRequest) ++ enc (Message.new (.error .wrongMessage))) (by rw [hc]; exact List.mem_cons_self)
  rw [dec_enc] at h1
  cases h1
  revert h2
  decide

/-- C30, the part that holds: every protocol-error datagram goes back to the sender of a received datagram, decodes to a
header with the offending message id and to an error message with nothing after it; its kind is `Error` when an SP request
did not decode. Missing: when the received kind was `HostRequest` or `HostResponse`, the reply repeats that kind. -/
theorem C30_partial (s : IoState) (e : Event) (dst : Addr) (pkt : Bytes) (h : .sendError dst pkt ∈ (s.step e).2) :
    ∃ bytes ok hdr rest hdr' rest' err, e = .packet dst bytes ok ∧ headerOf bytes = some (hdr, rest) ∧
      dec pkt = some (hdr', rest') ∧ dec rest' = some (Message.new (.error err), []) ∧
      hdr'.messageId = hdr.messageId ∧
      ((hdr.messageKind = .spRequest ∧ messageOf rest = none ∧ hdr'.messageKind = .error ∧ err = .serialization) ∨
       ((hdr.messageKind = .hostRequest ∨ hdr.messageKind = .hostResponse) ∧ hdr' = hdr ∧ err = .wrongMessage)) := by
  have pktDec : ∀ (hd : Header) (err : ProtocolError), ∃ rest',
      dec (enc hd ++ enc (Message.new (.error err))) = some (hd, rest') ∧
        dec rest' = some (Message.new (.error err), []) := by
    intro hd err
    refine ⟨enc (Message.new (.error err)), dec_enc _ _, ?_⟩
    have := dec_enc (Message.new (.error err)) []
    rwa [List.append_nil] at this
  have noAns : ∀ (s : IoState) (o : Outstanding) (a : Answer), .sendError dst pkt ∉ (s.answerOutstanding o a).2 := by
    intro s o a
    unfold answerOutstanding
    split <;> simp [die]
  have noSend : ∀ (s : IoState) (ok : Bool), .sendError dst pkt ∉ (s.sendOutgoingRequest ok).2 := by
    intro s ok
    unfold sendOutgoingRequest
    split
    · simp [die]
    · dsimp only
      split
      · simp [die]
      · split
        · simp
        · exact noAns _ _ _
  have noFail : ∀ (s : IoState) (hd : Header) (err : ProtocolError), .sendError dst pkt ∉ (s.failMatching hd err).2 := by
    intro s hd err
    unfold failMatching
    split
    · simp
    · split
      · simp
      · exact noAns _ _ _
  cases e with
  | submit c r => simp [step] at h
  | dropCaller c => simp [step] at h
  | closeRequests => simp [step] at h
  | dropHandler => simp [step] at h
  | accept ok =>
    simp only [step] at h
    split at h
    · simp at h
    · unfold handleAccept at h
      split at h
      · simp at h
      · split at h
        · simp at h
        · exact absurd h (noSend _ _)
  | tick ok =>
    simp only [step] at h
    split at h
    · simp at h
    · unfold handleTick at h
      split at h
      · simp at h
      · dsimp only at h
        split at h
        · exact absurd h (noSend _ _)
        · split at h <;> exact absurd h (noAns _ _ _)
  | handlerReply r ok =>
    simp only [step] at h
    split at h
    · simp at h
    · unfold handleReply at h
      split at h
      · unfold sendOutgoingResponse at h
        dsimp only at h
        split at h
        · simp [die] at h
        · cases ok <;> simp at h
      · simp at h
      · simp at h
  | recvError =>
    simp only [step] at h
    split at h <;> simp at h
  | packet src bytes ok =>
    simp only [step] at h
    split at h
    · simp at h
    · unfold handlePacket at h
      split at h
      · simp at h
      · rename_i hdr rest hh
        have hh' : headerOf bytes = some (hdr, rest) := hh
        split at h
        · rename_i hk
          cases ok with
          | false => simp [sendProtocolError] at h
          | true =>
            simp only [sendProtocolError, if_true, List.mem_singleton, Action.sendError.injEq] at h
            obtain ⟨rfl, rfl⟩ := h
            obtain ⟨rest', h1, h2⟩ := pktDec hdr .wrongMessage
            exact ⟨bytes, true, hdr, rest, hdr, rest', .wrongMessage, rfl, hh', h1, h2, rfl, .inr ⟨.inl hk, rfl, rfl⟩⟩
        · rename_i hk
          cases ok with
          | false => simp [sendProtocolError] at h
          | true =>
            simp only [sendProtocolError, if_true, List.mem_singleton, Action.sendError.injEq] at h
            obtain ⟨rfl, rfl⟩ := h
            obtain ⟨rest', h1, h2⟩ := pktDec hdr .wrongMessage
            exact ⟨bytes, true, hdr, rest, hdr, rest', .wrongMessage, rfl, hh', h1, h2, rfl, .inr ⟨.inr hk, rfl, rfl⟩⟩
        · unfold handleSpError at h
          split at h
          · split at h
            · exact absurd h (noFail _ _ _)
            · simp at h
          · exact absurd h (noFail _ _ _)
        · rename_i hk
          unfold handleSpRequest at h
          split at h
          · split at h <;> simp [die] at h
          · rename_i hm
            cases ok with
            | false => simp [sendProtocolError] at h
            | true =>
              simp only [sendProtocolError, if_true, List.mem_singleton, Action.sendError.injEq] at h
              obtain ⟨rfl, rfl⟩ := h
              obtain ⟨rest', h1, h2⟩ := pktDec (Header.new hdr.messageId .error) .serialization
              exact ⟨bytes, true, hdr, rest, _, rest', .serialization, rfl, hh', h1, h2, rfl,
                .inl ⟨hk, hm, rfl, rfl⟩⟩
        · unfold handleSpResponse at h
          split at h
          · simp at h
          · split at h
            · split at h
              · simp [die] at h
              · exact absurd h (noFail _ _ _)
            · split at h
              · split at h
                · exact absurd h (noAns _ _ _)
                · simp at h
              · exact absurd h (noFail _ _ _)

example : ((IoState.init none).step (.packet 9 (enc (Header.new 7 .spRequest) ++ [7, 3, 0]) true)).2 =
    [.sendError 9 (enc (Header.new 7 .error) ++ enc (Message.new (.error .serialization)))] := by decide +kernel

/-! ## C31 -/

/-- C31 is false of the code: the reply's header is never serialized (`ioloop.rs` 95), so what the SP receives does not
even decode to a header. -/
theorem C31_counterexample :
    ((IoState.init none).step (.handlerReply (.ok (some ⟨Header.new 7 .hostResponse, Message.new (.error .notSupported),
      none⟩)) true)).2 = [.sendResponse [7, 0, 1]] ∧ (dec ([7, 0, 1] : Bytes) : Option (Header × Bytes)) = none := by
  decide +kernel

theorem C31_false : ¬ ∀ (s : IoState) (r : HostRpcResponse) (pkt : Bytes),
    .sendResponse pkt ∈ (s.step (.handlerReply (.ok (some r)) true)).2 →
      ∃ rest, dec pkt = some (r.header, rest) ∧ dec rest = some (r.message, r.data.getD []) := by
  intro h
  have hc := C31_counterexample
  obtain ⟨rest, h1, _⟩ := h (IoState.init none) ⟨Header.new 7 .hostResponse, Message.new (.error .notSupported), none⟩
    [7, 0, 1] (by rw [hc.1]; exact List.mem_cons_self)
  rw [hc.2] at h1; cases h1

/-- C31, the part that holds: what is transmitted decodes to exactly the reply's message followed by exactly its data.
Missing: the header, which no transmitted byte depends on. -/
theorem C31_partial (s : IoState) (r : HostRpcResponse) (ok : Bool) (pkt : Bytes)
    (h : .sendResponse pkt ∈ (s.step (.handlerReply (.ok (some r)) ok)).2) :
    dec pkt = some (r.message, r.data.getD []) ∧ pkt.length ≤ maxPacketSize := by
  simp only [step] at h
  split at h
  · simp at h
  · simp only [handleReply, sendOutgoingResponse] at h
    split at h
    · simp [die] at h
    · rename_i hsz
      cases ok with
      | false => simp at h
      | true =>
        simp only [if_true, List.mem_singleton, Action.sendResponse.injEq] at h
        subst h
        exact ⟨dec_enc _ _, by omega⟩

theorem C31_header_ignored_partial (s : IoState) (r : HostRpcResponse) (h : Header) (ok : Bool) :
    s.step (.handlerReply (.ok (some { r with header := h })) ok) = s.step (.handlerReply (.ok (some r)) ok) := rfl

end Xcvr
