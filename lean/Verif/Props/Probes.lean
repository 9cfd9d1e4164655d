import Verif.Lemmas.Probes

/-!
# C135-C138: the DTrace probes of the I/O loop tell what it does
-/

namespace Xcvr

open Spec Probes


/-! ## C135: packets -/

/-- C135: the probes of sent packets show, in order and without loss, exactly the packets that the loop sends, and their
lengths. -/
theorem C135_sent (hosts : Hosts) (evs : List Event) (s : IoState) :
    ((history hosts s evs).filterMap sentPacket).map Prod.snd =
      ((s.run evs).2.filterMap Spec.Action.onWire).map fun p => (p.length, p) := by
  induction evs generalizing s with
  | nil => rfl
  | cons e es ih =>
    simp only [history, IoState.run, List.filterMap_append, List.map_append, ih, fired_wire, List.map_map]
    rfl

/-- C135: the probes of received packets show, in order and without loss, the datagrams that come in while the loop runs,
who sent them, and as much of them as the loop looks at. -/
theorem C135_received (hosts : Hosts) (evs : List Event) (s : IoState) :
    (history hosts s evs).filterMap receivedPacket =
      (takenIn s evs).map fun p => (hosts.ip p.1, (p.2.take maxPacketSize).length, p.2.take maxPacketSize) := by
  induction evs generalizing s with
  | nil => rfl
  | cons e es ih =>
    have key : (fired hosts s e).filterMap receivedPacket = (takenIn s [e]).map
        fun p => (hosts.ip p.1, (p.2.take maxPacketSize).length, p.2.take maxPacketSize) := by
      generalize hf : fired hosts s e = ps
      generalize ha : (s.step e).2 = acts
      have := fired_cases hosts s e
      rw [hf, ha] at this
      cases this with
      | quiet _ he =>
        cases e with
        | packet src bytes ok =>
          have : s.status ≠ .running := fun h => he h src bytes ok rfl
          simp [takenIn, this]
        | _ => rfl
      | packet src bytes ok ps hr hc =>
        have hc' := packet_not_received hc
        simp [takenIn, hr, receivedPacket, hc']
      | _ => rfl
    have split : takenIn s (e :: es) = takenIn s [e] ++ takenIn (s.step e).1 es := by
      cases e <;> simp [takenIn]
    simp only [history, List.filterMap_append, key, ih, split, List.map_append]

/-! ## C136: who packets go to, and the messages in them -/

/-- C136, what holds: the probe of a message that was sent comes with that of a packet, which has the header and the
message in it; a response of the request handler is sent without its header. -/
theorem C136_message_partial (hosts : Hosts) (s : IoState) (e : Event) (p : Nat) (h : Header) (m : Message)
    (hp : .messageSent p h m ∈ fired hosts s e) :
    ∃ pkt data, .packetSent p pkt.length pkt ∈ fired hosts s e ∧ (s.step e).2.filterMap Spec.Action.onWire = [pkt] ∧
      (pkt = enc h ++ enc m ++ data ∨ (∃ r ok, e = .handlerReply (.ok (some r)) ok ∧ h = r.header) ∧ pkt = enc m ++ data) := by
  generalize hf : fired hosts s e = ps at hp ⊢
  generalize ha : (s.step e).2 = acts
  have := fired_cases hosts s e
  rw [hf, ha] at this
  cases this with
  | quiet => cases hp
  | reply r ok pkt hr hpk =>
    simp only [Probes.sent, List.mem_cons, reduceCtorEq, Probe.messageSent.injEq, false_or, List.not_mem_nil, or_false] at hp
    obtain ⟨rfl, rfl, rfl⟩ := hp
    exact ⟨pkt, _, by simp [Probes.sent], rfl, .inr ⟨⟨r, ok, rfl, rfl⟩, hpk⟩⟩
  | accept ok chan req =>
    simp only [Probes.sent, List.mem_cons, reduceCtorEq, Probe.messageSent.injEq, false_or, List.not_mem_nil, or_false] at hp
    obtain ⟨rfl, rfl, rfl⟩ := hp
    exact ⟨_, _, by simp [Probes.sent], rfl, .inl rfl⟩
  | acceptFailed => cases hp
  | resend ok o =>
    simp only [Probes.sent, List.mem_cons, reduceCtorEq, Probe.messageSent.injEq, false_or, List.not_mem_nil, or_false] at hp
    obtain ⟨rfl, rfl, rfl⟩ := hp
    exact ⟨_, _, by simp [Probes.sent], rfl, .inl rfl⟩
  | resendFailed | retries | faults => simp at hp
  | packet src bytes ok ps hr hc =>
    rcases packet_sends hc with ⟨_, h2⟩ | ⟨b, g, m', rfl, h2⟩
    · exact absurd hp (by simp [h2])
    · simp only [Probes.sent, List.mem_cons, reduceCtorEq, Probe.messageSent.injEq, false_or, List.not_mem_nil,
        or_false] at hp
      obtain ⟨rfl, rfl, rfl⟩ := hp
      rw [h2]
      exact ⟨_, [], by simp [Probes.sent], rfl, .inl (by simp)⟩

/-- C136, what holds: requests, and responses of the request handler, go to the SP, as their probes say; and so do
protocol errors if the packet they answer came from the SP. -/
theorem C136_peer_partial (hosts : Hosts) (s : IoState) (e : Event) (p n : Nat) (pkt : Bytes)
    (hp : .packetSent p n pkt ∈ fired hosts s e) :
    (∃ c, .sendRequest c pkt ∈ (s.step e).2 ∧ p = hosts.ip hosts.sp) ∨
    (.sendResponse pkt ∈ (s.step e).2 ∧ p = hosts.ip hosts.sp) ∨
    ∃ to, .sendError to pkt ∈ (s.step e).2 ∧ (hosts.ip to = hosts.ip hosts.sp → p = hosts.ip to) := by
  generalize hf : fired hosts s e = ps at hp
  generalize ha : (s.step e).2 = acts
  have := fired_cases hosts s e
  rw [hf, ha] at this
  cases this with
  | quiet | acceptFailed => cases hp
  | reply r ok =>
    simp only [Probes.sent, List.mem_cons, reduceCtorEq, Probe.packetSent.injEq, or_false, List.not_mem_nil] at hp
    obtain ⟨rfl, rfl, rfl⟩ := hp
    exact .inr (.inl ⟨List.mem_singleton.2 rfl, rfl⟩)
  | accept | resend =>
    simp only [Probes.sent, List.mem_cons, reduceCtorEq, Probe.packetSent.injEq, or_false, List.not_mem_nil, false_or] at hp
    obtain ⟨rfl, rfl, rfl⟩ := hp
    exact .inl ⟨_, List.mem_singleton.2 rfl, rfl⟩
  | resendFailed | retries | faults => simp at hp
  | packet src bytes ok ps hr hc =>
    rcases packet_sends hc with ⟨h2, _⟩ | ⟨b, g, m', rfl, h2⟩
    · exact absurd hp (by simp [h2])
    · simp only [Probes.sent, List.mem_cons, reduceCtorEq, Probe.packetSent.injEq, or_false, List.not_mem_nil,
        false_or] at hp
      obtain ⟨rfl, rfl, rfl⟩ := hp
      rw [h2]
      exact .inr (.inr ⟨src, List.mem_singleton.2 rfl, fun h => h.symm⟩)

/-- A host other than the SP. -/
def strangerHosts : Hosts := ⟨fun a => a, 1⟩

/-- A datagram that only hosts send. -/
def hostPacket : Bytes := enc (Header.new 7 .hostRequest)

/-- C136 is false of the code: the protocol error for a bad datagram of host 2 goes to host 2, but the probes say that it
went to the SP, which is host 1. -/
theorem C136_false : ∃ pkt, ((IoState.init none).step (.packet 2 hostPacket true)).2 = [.sendError 2 pkt] ∧
    (fired strangerHosts (IoState.init none) (.packet 2 hostPacket true)).filterMap sentPacket =
      [(1, pkt.length, pkt)] := by
  refine ⟨_, rfl, rfl⟩

/-! ## C137: no packet without a trace -/

/-- C137, what holds: of every datagram that comes in while the loop runs there are a probe of the packet, and after it
one of a message received or one of a bad message. -/
theorem C137_trace_partial (hosts : Hosts) (s : IoState) (src : Addr) (bytes : Bytes) (ok : Bool)
    (hr : s.status = .running) :
    ∃ ps, fired hosts s (.packet src bytes ok) =
        .packetReceived (hosts.ip src) (bytes.take maxPacketSize).length (bytes.take maxPacketSize) :: ps ∧
      (ps.any isBad = true ∨ ps.any isReceived = true) := by
  generalize hf : fired hosts s (.packet src bytes ok) = qs
  generalize ha : (s.step (.packet src bytes ok)).2 = acts
  have := fired_cases hosts s (.packet src bytes ok)
  rw [hf, ha] at this
  cases this with
  | quiet _ h => exact absurd rfl (h hr src bytes ok)
  | packet _ _ _ ps hr hc =>
    refine ⟨ps, rfl, ?_⟩
    generalize s.handlePacket src bytes ok = x at hc
    cases hc <;> simp [isBad, isReceived]

/-- C137, what holds: a datagram is reported as bad exactly if there is something wrong about it. -/
theorem C137_bad_partial (hosts : Hosts) (s : IoState) (src : Addr) (bytes : Bytes) (ok : Bool)
    (hr : s.status = .running) :
    (fired hosts s (.packet src bytes ok)).any isBad = true ↔ ¬ WellFormed s bytes := by
  generalize hf : fired hosts s (.packet src bytes ok) = qs
  generalize ha : (s.step (.packet src bytes ok)).2 = acts
  have := fired_cases hosts s (.packet src bytes ok)
  rw [hf, ha] at this
  cases this with
  | quiet _ h => exact absurd rfl (h hr src bytes ok)
  | packet _ _ _ ps hr hc => simpa [isBad] using bad_iff hc

/-- C137, what holds: nothing that is reported as bad reaches a caller as a response, or the request handler. -/
theorem C137_dropped_partial (hosts : Hosts) (s : IoState) (e : Event) (hb : (fired hosts s e).any isBad = true) :
    (∀ c r, .answer c (.ok r) ∉ (s.step e).2) ∧ ∀ r, .dispatch r ∉ (s.step e).2 := by
  generalize hf : fired hosts s e = ps at hb
  generalize ha : (s.step e).2 = acts
  have := fired_cases hosts s e
  rw [hf, ha] at this
  cases this with
  | packet src bytes ok ps hr hc =>
    replace hb : ps.any isBad = true := by simpa [isBad] using hb
    exact bad_dropped hc hb
  | _ => simp [isBad, Probes.sent] at hb

/-- A message of the host, under the header of a request of the SP. -/
def oddPacket : Bytes := enc (Header.new 7 .spRequest) ++ enc (Message.new (.hostRequest .macAddrs))

/-- C137 is false of the code: a datagram whose header says that it is a request of the SP, and whose message is one of
the host, is not reported as bad, and reaches the request handler. -/
theorem C137_false : ¬ (fired strangerHosts (IoState.init none) (.packet 1 oddPacket true)).any isBad ∧
    ((IoState.init none).step (.packet 1 oddPacket true)).2 =
      [.dispatch { header := Header.new 7 .spRequest, message := Message.new (.hostRequest .macAddrs), data := none }] := by
  refine ⟨?_, rfl⟩
  decide

/-! ## C138: what becomes of a request -/

/-- C138, what holds: of every response that a caller gets there is the probe of a match, with the request of that
caller and the message of that response. -/
theorem C138_answered_partial (hosts : Hosts) (s : IoState) (e : Event) (c : Chan) (r : SpRpcResponse)
    (ha : .answer c (.ok r) ∈ (s.step e).2) :
    ∃ o, s.outstanding = some o ∧ o.chan = c ∧
      .messageMatched o.request.header o.request.message r.message ∈ fired hosts s e := by
  generalize hf : fired hosts s e = ps
  generalize hact : (s.step e).2 = acts at ha
  have := fired_cases hosts s e
  rw [hf, hact] at this
  cases this with
  | quiet | reply | accept | resend => simp at ha
  | acceptFailed _ _ _ _ _ _ _ h => rcases h with rfl | rfl <;> simp at ha
  | resendFailed _ _ _ _ _ _ h => rcases h with rfl | rfl <;> simp at ha
  | retries ok o =>
    rcases answer_cases s o (.error (.maxRetries o.nRetries)) with ⟨_, _, h⟩ | ⟨_, _, h⟩ <;> simp [h] at ha
  | faults ok o =>
    rcases answer_cases s o (.error (.maxFaultMessages o.nErrorMessages)) with ⟨_, _, h⟩ | ⟨_, _, h⟩ <;> simp [h] at ha
  | packet src bytes ok ps hr hc =>
    obtain ⟨o, h1, h2, h3⟩ := packet_answered hc ha
    exact ⟨o, h1, h2, List.mem_cons_of_mem _ h3⟩

/-- C138, what holds: the probe of a match means that there was a request with that header and message, and that its
caller gets the response, or the error that it is too short, if it still waits. -/
theorem C138_matched_partial (hosts : Hosts) (s : IoState) (e : Event) (h : Header) (q m : Message)
    (hp : .messageMatched h q m ∈ fired hosts s e) :
    ∃ o, s.outstanding = some o ∧ h = o.request.header ∧ q = o.request.message ∧ (s.step e).1.outstanding = none ∧
      (s.dropped.contains o.chan = false →
        (∃ h' d, h'.messageId = h.messageId ∧ (s.step e).2 = [.answer o.chan (.ok { header := h', message := m, data := d })]) ∨
        ∃ x y, (s.step e).2 = [.answer o.chan (.error (.protocol (.wrongDataSize x y)))]) := by
  generalize hf : fired hosts s e = ps at hp
  generalize hact : (s.step e).2 = acts
  have := fired_cases hosts s e
  rw [hf, hact] at this
  cases this with
  | packet src bytes ok ps hr hc =>
    have hs : s.step (.packet src bytes ok) = s.handlePacket src bytes ok := by simp [IoState.step, hr]
    rw [hs]
    replace hp : .messageMatched h q m ∈ ps := by simpa using hp
    exact packet_matched hc hp
  | _ => simp [Probes.sent] at hp

/-- C138, what holds: the probe of a timeout fires exactly if the timer goes off while a request is outstanding. -/
theorem C138_timeout_partial (hosts : Hosts) (s : IoState) (e : Event) (h : Header) (m : Message) :
    .messageTimeout h m ∈ fired hosts s e ↔ s.status = .running ∧ (∃ ok, e = .tick ok) ∧
      ∃ o, s.outstanding = some o ∧ h = o.request.header ∧ m = o.request.message := by
  generalize hf : fired hosts s e = ps
  generalize hact : (s.step e).2 = acts
  have := fired_cases hosts s e
  rw [hf, hact] at this
  cases this with
  | packet src bytes ok ps hr hc =>
    have := packet_no_timeout hc h m
    simp [this]
  | quiet _ _ ht =>
    refine ⟨fun h => (by cases h), ?_⟩
    rintro ⟨hr, ⟨ok, rfl⟩, o, ho, _⟩
    exact absurd ho (ht hr ok o rfl)
  | reply | accept | acceptFailed => simp [Probes.sent]
  | resend ok o hr ho => simp [Probes.sent, hr, ho]
  | resendFailed ok o acts hr ho => simp [hr, ho]
  | retries ok o hr ho => simp [hr, ho]
  | faults ok o hr ho => simp [hr, ho]

/-- C138, what holds: a request is sent for the first time when it is taken from the queue, and again only after the probe
of a timeout. -/
theorem C138_resent_partial (hosts : Hosts) (s : IoState) (e : Event) (c : Chan) (pkt : Bytes)
    (ha : .sendRequest c pkt ∈ (s.step e).2) :
    ((∃ ok, e = .accept ok) ∧ s.outstanding = none) ∨
    ∃ o rest, s.outstanding = some o ∧ o.chan = c ∧
      fired hosts s e = .messageTimeout o.request.header o.request.message :: rest := by
  generalize hf : fired hosts s e = ps
  generalize hact : (s.step e).2 = acts at ha
  have := fired_cases hosts s e
  rw [hf, hact] at this
  cases this with
  | quiet | reply => simp at ha
  | accept ok chan req hr ho => exact .inl ⟨⟨ok, rfl⟩, ho⟩
  | acceptFailed _ _ _ _ _ _ _ h => rcases h with rfl | rfl <;> simp at ha
  | resend ok o hr ho =>
    simp only [List.mem_singleton, Action.sendRequest.injEq] at ha
    exact .inr ⟨o, _, ho, ha.1.symm, rfl⟩
  | resendFailed _ _ _ _ _ _ h => rcases h with rfl | rfl <;> simp at ha
  | retries ok o =>
    rcases answer_cases s o (.error (.maxRetries o.nRetries)) with ⟨_, _, h⟩ | ⟨_, _, h⟩ <;> simp [h] at ha
  | faults ok o =>
    rcases answer_cases s o (.error (.maxFaultMessages o.nErrorMessages)) with ⟨_, _, h⟩ | ⟨_, _, h⟩ <;> simp [h] at ha
  | packet src bytes ok ps hr hc => exact absurd ha (packet_no_request hc c pkt)

/-- C138: the text of the probe tells for which of the two reasons a request was dropped. -/
theorem C138_reason_partial (a b : DropReason) (h : a.text = b.text) : a = b := by
  cases a <;> cases b <;> first | rfl | exact absurd h (by decide)

/-- C138, what holds: the probe of a dropped request, and its reason, go with the error that its caller gets. -/
theorem C138_dropped_partial (hosts : Hosts) (s : IoState) (e : Event) :
    (∀ c n, .answer c (.error (.maxRetries n)) ∈ (s.step e).2 →
      ∃ o, s.outstanding = some o ∧ o.chan = c ∧
        .messageDropped o.request.header o.request.message .retries ∈ fired hosts s e) ∧
    (∀ c n, .answer c (.error (.maxFaultMessages n)) ∈ (s.step e).2 →
      ∃ o, s.outstanding = some o ∧ o.chan = c ∧
        .messageDropped o.request.header o.request.message .faults ∈ fired hosts s e) ∧
    (∀ h m why, .messageDropped h m why ∈ fired hosts s e →
      ∃ o, s.outstanding = some o ∧ h = o.request.header ∧ m = o.request.message ∧
        (s.dropped.contains o.chan = false → ∃ n, (s.step e).2 = [.answer o.chan (.error
          (match why with | .retries => .maxRetries n | .faults => .maxFaultMessages n))])) := by
  generalize hf : fired hosts s e = ps
  generalize hact : (s.step e).2 = acts
  have := fired_cases hosts s e
  rw [hf, hact] at this
  cases this with
  | quiet | reply | accept | resend => simp [Probes.sent]
  | acceptFailed _ _ _ _ _ _ _ h => rcases h with rfl | rfl <;> simp
  | resendFailed _ _ _ _ _ _ h => rcases h with rfl | rfl <;> simp
  | retries ok o hr ho =>
    rcases answer_cases s o (.error (.maxRetries o.nRetries)) with ⟨h1, _, h⟩ | ⟨h1, _, h⟩ <;> rw [h]
    · refine ⟨by simp, by simp, fun h m why hp => ?_⟩
      simp only [List.mem_cons, reduceCtorEq, Probe.messageDropped.injEq, List.not_mem_nil, or_false, false_or] at hp
      obtain ⟨rfl, rfl, rfl⟩ := hp
      exact ⟨o, ho, rfl, rfl, fun hd => (by rw [hd] at h1; cases h1)⟩
    · refine ⟨by simp [ho], by simp, fun h m why hp => ?_⟩
      simp only [List.mem_cons, reduceCtorEq, Probe.messageDropped.injEq, List.not_mem_nil, or_false, false_or] at hp
      obtain ⟨rfl, rfl, rfl⟩ := hp
      exact ⟨o, ho, rfl, rfl, fun _ => ⟨_, rfl⟩⟩
  | faults ok o hr ho =>
    rcases answer_cases s o (.error (.maxFaultMessages o.nErrorMessages)) with ⟨h1, _, h⟩ | ⟨h1, _, h⟩ <;> rw [h]
    · refine ⟨by simp, by simp, fun h m why hp => ?_⟩
      simp only [List.mem_cons, reduceCtorEq, Probe.messageDropped.injEq, List.not_mem_nil, or_false, false_or] at hp
      obtain ⟨rfl, rfl, rfl⟩ := hp
      exact ⟨o, ho, rfl, rfl, fun hd => (by rw [hd] at h1; cases h1)⟩
    · refine ⟨by simp, by simp [ho], fun h m why hp => ?_⟩
      simp only [List.mem_cons, reduceCtorEq, Probe.messageDropped.injEq, List.not_mem_nil, or_false, false_or] at hp
      obtain ⟨rfl, rfl, rfl⟩ := hp
      exact ⟨o, ho, rfl, rfl, fun _ => ⟨_, rfl⟩⟩
  | packet src bytes ok ps hr hc =>
    obtain ⟨h1, h2, h3⟩ := packet_no_drop hc
    refine ⟨fun c n h => absurd h (h1 c n), fun c n h => absurd h (h2 c n), fun h m why hp => ?_⟩
    exact absurd hp (by simp [h3])

/-- A request to read a byte of module 0. -/
def probedRequest : HostRpcRequest :=
  { header := Header.new 7 .hostRequest, message := Message.new (.hostRequest (.status ⟨1⟩)), data := none }

/-- The response to it, without the status of the module. -/
def shortPacket : Bytes := enc (Header.new 7 .spResponse) ++ enc (Message.new (.spResponse (.status ⟨1⟩ ⟨0⟩)))

/-- The same with it. -/
def fullPacket : Bytes := shortPacket ++ [1, 2, 3, 4, 5, 6, 7, 8]

/-- The loop after it sent the request. -/
def waitingLoop : IoState := ((IoState.init (some 2)).run [.submit 3 probedRequest, .accept true]).1

/-- C138 is false of the code: the probe of a match, which is to fire for a valid response, fires for one that is too
short, and whose caller gets an error. -/
theorem C138_false :
    .messageMatched probedRequest.header probedRequest.message (Message.new (.spResponse (.status ⟨1⟩ ⟨0⟩))) ∈
      fired strangerHosts waitingLoop (.packet 1 shortPacket true) ∧
    (waitingLoop.step (.packet 1 shortPacket true)).2 = [.answer 3 (.error (.protocol (.wrongDataSize 1 0)))] := by
  decide

/-- The hypotheses are met: a response with its data, which is matched and answered; a timeout, and a dropped request. -/
example : WellFormed waitingLoop fullPacket ∧
    (∃ r, .answer 3 (.ok r) ∈ (waitingLoop.step (.packet 1 fullPacket true)).2) ∧
    (fired strangerHosts waitingLoop (.tick true)).length = 3 ∧
    .answer 3 (.error (.maxRetries 2)) ∈ ((waitingLoop.step (.tick true)).1.step (.tick true)).2 := by
  refine ⟨⟨Header.new 7 .spResponse, Message.new (.spResponse (.status ⟨1⟩ ⟨0⟩)), _, [1, 2, 3, 4, 5, 6, 7, 8], rfl, rfl,
    .inr (.inr ⟨rfl, _, .status ⟨1⟩ ⟨0⟩, rfl, rfl, rfl, by decide⟩)⟩, ⟨_, List.mem_singleton.2 rfl⟩, by decide, by decide⟩

/-! ## Reasons -/

/-- C137, what holds: the reasons given for bad messages differ between places in the code, whatever the error of
`hubpack` is called. -/
theorem C137_reason_partial (hub : List Char) (a b : BadReason) (h : a.text hub = b.text hub) : a = b := by
  cases a <;> cases b
  all_goals try rfl
  all_goals try (replace h := congrArg (List.take 23) h; revert h; simp [BadReason.text]; done)
  case kind.kind k k' =>
    have := List.append_cancel_left h
    rw [kindName_inj this]
  case mismatchedError.mismatchedError k m k' m' =>
    obtain ⟨rfl, rfl⟩ := kindNames_inj (mid := chars!" message = ") ',' (by decide) (by simpa [BadReason.text] using h)
    rfl
  case mismatchedResponse.mismatchedResponse k m k' m' =>
    obtain ⟨rfl, rfl⟩ := kindNames_inj (mid := chars!"message = ") ' ' (by decide) (by simpa [BadReason.text] using h)
    rfl
  case data.data e e' =>
    rw [protocolText_inj h]
  all_goals
    replace h := congrArg (fun l => (l.headD 'a').isUpper) h
    rw [reason_upper, reason_upper] at h
    cases h

/-- C137 is false of the code also in this: the reason of a header that cannot be read does not say what is wrong with it;
it has the name of a variable in it instead. -/
theorem C137_reason_false (hub hub' : List Char) :
    BadReason.text hub .header = BadReason.text hub' .header ∧
    BadReason.text hub .header = "failed to deserialize header: {e:?}".toList := by
  exact ⟨rfl, rfl⟩

end Xcvr
