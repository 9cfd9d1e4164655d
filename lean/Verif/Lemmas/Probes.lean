import Verif.Spec.Probes
import Verif.Lemmas.IoLoop
import Verif.Lemmas.Debug

/-!
# The ways a datagram can be handled, with its probes
-/

namespace Xcvr

open Spec Probes

/-- One case for each way through `handle_sp_*`: the probes after `packet__received`, and what is done. -/
inductive PacketCase (hosts : Hosts) (s : IoState) (src : Addr) (bytes : Bytes) (ok : Bool) :
    List Probe → IoState × List Action → Prop
  | header (hd : (dec (bytes.take maxPacketSize) : Option (Header × Bytes)) = none) :
      PacketCase hosts s src bytes ok [.badMessage (hosts.ip src) .header] (s.incrementFaulty, [])
  | kind (h : Header) (r1 : Bytes) (hd : dec (bytes.take maxPacketSize) = some (h, r1))
      (hk : h.messageKind = .hostRequest ∨ h.messageKind = .hostResponse) :
      PacketCase hosts s src bytes ok
        (.badMessage (hosts.ip src) (.kind h.messageKind) :: protocolError hosts h .wrongMessage ok)
        (s.incrementFaulty.sendProtocolError src h .wrongMessage ok)
  | error (h : Header) (r1 : Bytes) (m : Message) (r2 : Bytes) (err : ProtocolError)
      (hd : dec (bytes.take maxPacketSize) = some (h, r1)) (hk : h.messageKind = .error) (hm : dec r1 = some (m, r2))
      (hb : m.body = .error err) :
      PacketCase hosts s src bytes ok [.messageReceived (hosts.ip src) h m] (s.incrementFaulty.failMatching h err)
  | errorOther (h : Header) (r1 : Bytes) (m : Message) (r2 : Bytes)
      (hd : dec (bytes.take maxPacketSize) = some (h, r1)) (hk : h.messageKind = .error) (hm : dec r1 = some (m, r2))
      (hb : m.kind ≠ .error) :
      PacketCase hosts s src bytes ok [.badMessage (hosts.ip src) (.mismatchedError h.messageKind m.kind)]
        (s.incrementFaulty, [])
  | errorBad (h : Header) (r1 : Bytes) (hd : dec (bytes.take maxPacketSize) = some (h, r1)) (hk : h.messageKind = .error)
      (hm : (dec r1 : Option (Message × Bytes)) = none) :
      PacketCase hosts s src bytes ok [.badMessage (hosts.ip src) .errorMessage]
        (s.incrementFaulty.failMatching h .serialization)
  | request (h : Header) (r1 : Bytes) (m : Message) (r2 : Bytes)
      (hd : dec (bytes.take maxPacketSize) = some (h, r1)) (hk : h.messageKind = .spRequest) (hm : dec r1 = some (m, r2)) :
      PacketCase hosts s src bytes ok [.messageReceived (hosts.ip src) h m]
        (if s.handlerGone then s.die else (s, [.dispatch { header := h, message := m, data := none }]))
  | requestBad (h : Header) (r1 : Bytes) (hd : dec (bytes.take maxPacketSize) = some (h, r1))
      (hk : h.messageKind = .spRequest) (hm : (dec r1 : Option (Message × Bytes)) = none) :
      PacketCase hosts s src bytes ok
        (.badMessage (hosts.ip src) .spRequest :: protocolError hosts (Header.new h.messageId .error) .serialization ok)
        (s.sendProtocolError src (Header.new h.messageId .error) .serialization ok)
  | noRequest (h : Header) (r1 : Bytes) (hd : dec (bytes.take maxPacketSize) = some (h, r1))
      (hk : h.messageKind = .spResponse) (ho : s.outstanding = none) :
      PacketCase hosts s src bytes ok [.badMessage (hosts.ip src) .noRequest] (s, [])
  | responseEmpty (h : Header) (o : Outstanding) (hd : dec (bytes.take maxPacketSize) = some (h, []))
      (hk : h.messageKind = .spResponse) (ho : s.outstanding = some o) :
      PacketCase hosts s src bytes ok [.badMessage (hosts.ip src) .response] s.die
  | responseBad (h : Header) (r1 : Bytes) (o : Outstanding) (err : ProtocolError)
      (hd : dec (bytes.take maxPacketSize) = some (h, r1)) (hk : h.messageKind = .spResponse)
      (ho : s.outstanding = some o) (hm : (dec r1 : Option (Message × Bytes)) = none) :
      PacketCase hosts s src bytes ok [.badMessage (hosts.ip src) .response] (s.incrementFaulty.failMatching h err)
  | response (h : Header) (r1 : Bytes) (m : Message) (r2 : Bytes) (o : Outstanding) (r : SpResponse)
      (hd : dec (bytes.take maxPacketSize) = some (h, r1)) (hk : h.messageKind = .spResponse)
      (ho : s.outstanding = some o) (hm : dec r1 = some (m, r2)) (hb : m.body = .spResponse r)
      (hid : o.request.header.messageId = h.messageId) :
      PacketCase hosts s src bytes ok
        (.messageReceived (hosts.ip src) h m :: .messageMatched o.request.header o.request.message m ::
          collected hosts src r r2)
        (s.answerOutstanding o (IoState.collectResponse h m r r2))
  | notOutstanding (h : Header) (r1 : Bytes) (m : Message) (r2 : Bytes) (o : Outstanding) (r : SpResponse)
      (hd : dec (bytes.take maxPacketSize) = some (h, r1)) (hk : h.messageKind = .spResponse)
      (ho : s.outstanding = some o) (hm : dec r1 = some (m, r2)) (hb : m.body = .spResponse r)
      (hid : o.request.header.messageId ≠ h.messageId) :
      PacketCase hosts s src bytes ok
        [.messageReceived (hosts.ip src) h m, .badMessage (hosts.ip src) .notOutstanding] (s, [])
  | responseOther (h : Header) (r1 : Bytes) (m : Message) (r2 : Bytes) (o : Outstanding)
      (hd : dec (bytes.take maxPacketSize) = some (h, r1)) (hk : h.messageKind = .spResponse)
      (ho : s.outstanding = some o) (hm : dec r1 = some (m, r2)) (hb : m.kind ≠ .spResponse) :
      PacketCase hosts s src bytes ok
        [.messageReceived (hosts.ip src) h m, .badMessage (hosts.ip src) (.mismatchedResponse h.messageKind m.kind)]
        (s.failMatching h .wrongMessage)

theorem packet_cases (hosts : Hosts) (s : IoState) (src : Addr) (bytes : Bytes) (ok : Bool) :
    ∃ ps, packet hosts s src bytes ok =
        .packetReceived (hosts.ip src) (bytes.take maxPacketSize).length (bytes.take maxPacketSize) :: ps ∧
      PacketCase hosts s src bytes ok ps (s.handlePacket src bytes ok) := by
  unfold packet IoState.handlePacket
  dsimp only
  refine ⟨_, rfl, ?_⟩
  cases hd : (dec (bytes.take maxPacketSize) : Option (Header × Bytes)) with
  | none => exact .header hd
  | some x =>
    obtain ⟨h, r1⟩ := x
    dsimp only
    cases hk : h.messageKind with
    | hostRequest =>
      have := PacketCase.kind (hosts := hosts) (s := s) (src := src) (ok := ok) h r1 hd (.inl hk)
      rw [hk] at this
      exact this
    | hostResponse =>
      have := PacketCase.kind (hosts := hosts) (s := s) (src := src) (ok := ok) h r1 hd (.inr hk)
      rw [hk] at this
      exact this
    | error =>
      dsimp only
      unfold spError IoState.handleSpError
      cases hm : (dec r1 : Option (Message × Bytes)) with
      | none => exact .errorBad h r1 hd hk hm
      | some y =>
        obtain ⟨m, r2⟩ := y
        dsimp only
        cases hb : m.body with
        | error err => exact .error h r1 m r2 err hd hk hm hb
        | _ => exact .errorOther h r1 m r2 hd hk hm (by simp [Message.kind, hb])
    | spRequest =>
      dsimp only
      unfold spRequest IoState.handleSpRequest
      cases hm : (dec r1 : Option (Message × Bytes)) with
      | none => exact .requestBad h r1 hd hk hm
      | some y => exact .request h r1 y.1 y.2 hd hk hm
    | spResponse =>
      dsimp only
      unfold spResponse IoState.handleSpResponse
      cases ho : s.outstanding with
      | none => exact .noRequest h r1 hd hk ho
      | some o =>
        dsimp only
        cases hm : (dec r1 : Option (Message × Bytes)) with
        | none =>
          cases r1 with
          | nil => exact .responseEmpty h o hd hk ho
          | cons v t => exact .responseBad h _ o _ hd hk ho hm
        | some y =>
          obtain ⟨m, r2⟩ := y
          dsimp only
          cases hb : m.body with
          | spResponse r =>
            dsimp only
            split
            · exact .response h r1 m r2 o r hd hk ho hm hb ‹_›
            · exact .notOutstanding h r1 m r2 o r hd hk ho hm hb ‹_›
          | _ => exact .responseOther h r1 m r2 o hd hk ho hm (by simp [Message.kind, hb])

/-- What `collect` makes of a response, with its probe. -/
theorem collect_cases (hosts : Hosts) (src : Addr) (h : Header) (m : Message) (r : SpResponse) (r2 : Bytes) :
    (r.expectedDataLen.getD 0 + r.expectedErrorDataLen.getD 0 ≤ r2.length ∧ collected hosts src r r2 = [] ∧
      ∃ d, IoState.collectResponse h m r r2 = .ok { header := h, message := m, data := d }) ∨
    (r2.length < r.expectedDataLen.getD 0 + r.expectedErrorDataLen.getD 0 ∧
      ∃ x y, collected hosts src r r2 = [.badMessage (hosts.ip src) (.data (.wrongDataSize x y))] ∧
        IoState.collectResponse h m r r2 = .error (.protocol (.wrongDataSize x y))) := by
  unfold collected IoState.collectResponse
  cases r.expectedDataLen <;> cases r.expectedErrorDataLen <;> dsimp only
  · exact .inl ⟨Nat.zero_le _, rfl, none, rfl⟩
  all_goals
    split
    · exact .inr ⟨‹_›, _, _, rfl, rfl⟩
    · exact .inl ⟨Nat.not_lt.1 ‹_›, rfl, _, rfl⟩

theorem answer_cases (s : IoState) (o : Outstanding) (a : Answer) :
    (s.dropped.contains o.chan = true ∧ (s.answerOutstanding o a).1.status = .panicked ∧ (s.answerOutstanding o a).2 = []) ∨
    (s.dropped.contains o.chan = false ∧ (s.answerOutstanding o a).1.status = s.status ∧
      (s.answerOutstanding o a).2 = [.answer o.chan a]) := by
  unfold IoState.answerOutstanding IoState.die
  dsimp only
  cases s.dropped.contains o.chan
  · exact .inr ⟨rfl, rfl, rfl⟩
  · exact .inl ⟨rfl, rfl, rfl⟩

theorem fail_cases (s : IoState) (h : Header) (err : ProtocolError) :
    (s.failMatching h err).2 = [] ∨
    ∃ o, s.outstanding = some o ∧ (s.failMatching h err).2 = [.answer o.chan (.error (.protocol err))] := by
  unfold IoState.failMatching
  cases s.outstanding with
  | none => exact .inl rfl
  | some o =>
    dsimp only
    split
    · exact .inl rfl
    · rcases answer_cases s o (.error (.protocol err)) with ⟨_, _, h⟩ | ⟨_, _, h⟩
      · exact .inl h
      · exact .inr ⟨o, rfl, h⟩

/-- The ways a request is sent. -/
theorem send_cases (hosts : Hosts) (s : IoState) (ok : Bool) (o : Outstanding) (ho : s.outstanding = some o) :
    (request hosts s ok = [] ∧ ((s.sendOutgoingRequest ok).2 = [] ∨
      (s.sendOutgoingRequest ok).2 = [.answer o.chan (.error .io)])) ∨
    (request hosts s ok = Probes.sent hosts o.request.header o.request.message (IoState.requestPacket o.request) ∧
      (s.sendOutgoingRequest ok).2 = [.sendRequest o.chan (IoState.requestPacket o.request)]) := by
  unfold request IoState.sendOutgoingRequest
  rw [ho]
  dsimp only
  split
  · exact .inl ⟨rfl, .inl rfl⟩
  cases ok
  · refine .inl ⟨rfl, ?_⟩
    rcases answer_cases s o (.error .io) with ⟨_, _, h⟩ | ⟨_, _, h⟩
    · exact .inl h
    · exact .inr h
  · exact .inr ⟨rfl, rfl⟩

/-- One case for each branch of the `select!`. -/
inductive FiredCase (hosts : Hosts) (s : IoState) : Event → List Probe → List Action → Prop
  | quiet (e : Event) (he : s.status = .running → ∀ src bytes ok, e ≠ .packet src bytes ok)
      (ht : s.status = .running → ∀ ok o, e = .tick ok → s.outstanding ≠ some o) : FiredCase hosts s e [] []
  | reply (r : HostRpcResponse) (ok : Bool) (pkt : Bytes) (hr : s.status = .running)
      (hp : pkt = enc r.message ++ r.data.getD []) :
      FiredCase hosts s (.handlerReply (.ok (some r)) ok) (Probes.sent hosts r.header r.message pkt) [.sendResponse pkt]
  | accept (ok : Bool) (chan : Chan) (req : HostRpcRequest) (hr : s.status = .running) (ho : s.outstanding = none)
      (hq : s.queue.head? = some (chan, req)) :
      FiredCase hosts s (.accept ok) (Probes.sent hosts req.header req.message (IoState.requestPacket req))
        [.sendRequest chan (IoState.requestPacket req)]
  | acceptFailed (ok : Bool) (chan : Chan) (req : HostRpcRequest) (acts : List Action) (hr : s.status = .running)
      (ho : s.outstanding = none) (hq : s.queue.head? = some (chan, req))
      (ha : acts = [] ∨ acts = [.answer chan (.error .io)]) : FiredCase hosts s (.accept ok) [] acts
  | resend (ok : Bool) (o : Outstanding) (hr : s.status = .running) (ho : s.outstanding = some o)
      (hl : o.nRetries < s.limit ∧ o.nErrorMessages < numAllowedErrorMessages) :
      FiredCase hosts s (.tick ok)
        (.messageTimeout o.request.header o.request.message ::
          Probes.sent hosts o.request.header o.request.message (IoState.requestPacket o.request))
        [.sendRequest o.chan (IoState.requestPacket o.request)]
  | resendFailed (ok : Bool) (o : Outstanding) (acts : List Action) (hr : s.status = .running)
      (ho : s.outstanding = some o) (hl : o.nRetries < s.limit ∧ o.nErrorMessages < numAllowedErrorMessages)
      (ha : acts = [] ∨ acts = [.answer o.chan (.error .io)]) :
      FiredCase hosts s (.tick ok) [.messageTimeout o.request.header o.request.message] acts
  | retries (ok : Bool) (o : Outstanding) (hr : s.status = .running) (ho : s.outstanding = some o)
      (hl : s.limit ≤ o.nRetries) :
      FiredCase hosts s (.tick ok) [.messageTimeout o.request.header o.request.message,
        .messageDropped o.request.header o.request.message .retries]
        (s.answerOutstanding o (.error (.maxRetries o.nRetries))).2
  | faults (ok : Bool) (o : Outstanding) (hr : s.status = .running) (ho : s.outstanding = some o)
      (hl : o.nRetries < s.limit) (hf : numAllowedErrorMessages ≤ o.nErrorMessages) :
      FiredCase hosts s (.tick ok) [.messageTimeout o.request.header o.request.message,
        .messageDropped o.request.header o.request.message .faults]
        (s.answerOutstanding o (.error (.maxFaultMessages o.nErrorMessages))).2
  | packet (src : Addr) (bytes : Bytes) (ok : Bool) (ps : List Probe) (hr : s.status = .running)
      (hc : PacketCase hosts s src bytes ok ps (s.handlePacket src bytes ok)) :
      FiredCase hosts s (.packet src bytes ok)
        (.packetReceived (hosts.ip src) (bytes.take maxPacketSize).length (bytes.take maxPacketSize) :: ps)
        (s.handlePacket src bytes ok).2

theorem fired_cases (hosts : Hosts) (s : IoState) (e : Event) : FiredCase hosts s e (fired hosts s e) (s.step e).2 := by
  unfold fired IoState.step
  by_cases hr : s.status ≠ .running
  · rw [if_pos hr]
    cases e <;> simp only [hr, if_true, ne_eq, not_false_eq_true] <;>
      exact .quiet _ (fun h => absurd h hr) (fun h => absurd h hr)
  rw [if_neg hr]
  have hr' : s.status = .running := Classical.not_not.1 hr
  cases e with
  | submit | dropCaller | closeRequests | dropHandler => exact .quiet _ (by simp) (by simp)
  | recvError =>
    simp only [hr, if_false]
    exact .quiet _ (by simp) (by simp)
  | accept ok =>
    simp only [hr, if_false]
    unfold accept IoState.handleAccept
    cases ho : s.outstanding with
    | some _ => exact .quiet _ (by simp) (by simp)
    | none =>
      cases hq : s.queue with
      | nil => exact .quiet _ (by simp) (by simp)
      | cons x q =>
        obtain ⟨chan, req⟩ := x
        dsimp only
        rcases send_cases hosts
          { s with queue := q, outstanding := some { chan, request := req, nRetries := 0, nErrorMessages := 0 } } ok _ rfl
          with ⟨h1, h2⟩ | ⟨h1, h2⟩
        · rw [h1]
          exact .acceptFailed ok chan req _ hr' ho (by rw [hq]; rfl) h2
        · rw [h1, h2]
          exact .accept ok chan req hr' ho (by rw [hq]; rfl)
  | tick ok =>
    simp only [hr, if_false]
    unfold tick IoState.handleTick
    cases ho : s.outstanding with
    | none => exact .quiet _ (by simp) (by simp [ho])
    | some o =>
      dsimp only
      simp only [ge_iff_le, Nat.not_le]
      split
      · rcases send_cases hosts s ok o ho with ⟨h1, h2⟩ | ⟨h1, h2⟩
        · rw [h1]
          exact .resendFailed ok o _ hr' ho ‹_› h2
        · rw [h1, h2]
          exact .resend ok o hr' ho ‹_›
      · split
        · exact .retries ok o hr' ho ‹_›
        · exact .faults ok o hr' ho (by omega) (by omega)
  | handlerReply r ok =>
    simp only [hr, if_false]
    unfold IoState.handleReply
    match r with
    | .error _ => exact .quiet _ (by simp) (by simp)
    | .ok none => exact .quiet _ (by simp) (by simp)
    | .ok (some r) =>
      dsimp only
      unfold Probes.response IoState.sendOutgoingResponse
      dsimp only
      split
      · exact .quiet _ (by simp) (by simp)
      · cases ok
        · exact .quiet _ (by simp) (by simp)
        · exact .reply r true _ hr' rfl
  | packet src bytes ok =>
    simp only [hr, if_false]
    obtain ⟨ps, h1, h2⟩ := packet_cases hosts s src bytes ok
    rw [h1]
    exact .packet src bytes ok ps hr' h2

theorem answer_wire (s : IoState) (o : Outstanding) (a : Answer) :
    (s.answerOutstanding o a).2.filterMap Spec.Action.onWire = [] := by
  rcases answer_cases s o a with ⟨_, _, h⟩ | ⟨_, _, h⟩ <;> rw [h] <;> rfl

theorem fail_wire (s : IoState) (h : Header) (err : ProtocolError) :
    (s.failMatching h err).2.filterMap Spec.Action.onWire = [] := by
  rcases fail_cases s h err with h | ⟨o, _, h⟩ <;> rw [h] <;> rfl

theorem packet_wire {hosts : Hosts} {s : IoState} {src : Addr} {bytes : Bytes} {ok : Bool} {ps : List Probe}
    {x : IoState × List Action} (h : PacketCase hosts s src bytes ok ps x) :
    ps.filterMap sentPacket = (x.2.filterMap Spec.Action.onWire).map fun p => (hosts.ip hosts.sp, p.length, p) := by
  cases h with
  | header | errorOther | noRequest | responseEmpty | notOutstanding => rfl
  | kind | requestBad => cases ok <;> rfl
  | error | errorBad | responseBad | responseOther => rw [fail_wire]; rfl
  | request => split <;> rfl
  | response h r1 m r2 o r =>
    rw [answer_wire]
    rcases collect_cases hosts src h m r r2 with ⟨_, h, _⟩ | ⟨_, _, _, h, _⟩ <;> rw [h] <;> rfl

theorem fired_wire (hosts : Hosts) (s : IoState) (e : Event) :
    (fired hosts s e).filterMap sentPacket =
      ((s.step e).2.filterMap Spec.Action.onWire).map fun p => (hosts.ip hosts.sp, p.length, p) := by
  generalize hf : fired hosts s e = ps
  generalize ha : (s.step e).2 = acts
  have := fired_cases hosts s e
  rw [hf, ha] at this
  cases this with
  | quiet | reply | accept | resend => rfl
  | acceptFailed _ _ _ _ _ _ _ h => rcases h with rfl | rfl <;> rfl
  | resendFailed _ _ _ _ _ _ h => rcases h with rfl | rfl <;> rfl
  | retries | faults => rw [answer_wire]; rfl
  | packet src bytes ok ps hr hc =>
    rw [List.filterMap_cons_none rfl]
    exact packet_wire hc

theorem packet_not_received {hosts : Hosts} {s : IoState} {src : Addr} {bytes : Bytes} {ok : Bool} {ps : List Probe}
    {x : IoState × List Action} (h : PacketCase hosts s src bytes ok ps x) : ps.filterMap receivedPacket = [] := by
  cases h with
  | kind | requestBad => cases ok <;> rfl
  | response h r1 m r2 o r =>
    rcases collect_cases hosts src h m r r2 with ⟨_, h, _⟩ | ⟨_, _, _, h, _⟩ <;> rw [h] <;> rfl
  | _ => rfl

/-- The probes that a datagram may lead to of something sent: that of a protocol error to its sender. -/
theorem packet_sends {hosts : Hosts} {s : IoState} {src : Addr} {bytes : Bytes} {ok : Bool} {ps : List Probe}
    {x : IoState × List Action} (h : PacketCase hosts s src bytes ok ps x) :
    (∀ q n d, .packetSent q n d ∉ ps) ∧ (∀ q g m, .messageSent q g m ∉ ps) ∨
    ∃ b g m, ps = .badMessage (hosts.ip src) b :: Probes.sent hosts g m (enc g ++ enc m) ∧
      x.2 = [.sendError src (enc g ++ enc m)] := by
  cases h with
  | kind | requestBad =>
    cases ok
    · exact .inl ⟨by simp [protocolError], by simp [protocolError]⟩
    · exact .inr ⟨_, _, _, rfl, rfl⟩
  | response h r1 m r2 o r =>
    rcases collect_cases hosts src h m r r2 with ⟨_, h, _⟩ | ⟨_, _, _, h, _⟩ <;> rw [h] <;> exact .inl ⟨by simp, by simp⟩
  | _ => exact .inl ⟨by simp, by simp⟩

theorem bad_iff {hosts : Hosts} {s : IoState} {src : Addr} {bytes : Bytes} {ok : Bool} {ps : List Probe}
    {x : IoState × List Action} (hc : PacketCase hosts s src bytes ok ps x) :
    ps.any isBad = true ↔ ¬ WellFormed s bytes := by
  unfold WellFormed
  cases hc with
  | error h r1 m r2 err hd hk hm hb =>
    refine ⟨fun h => (by simp [isBad] at h), fun hn => absurd ⟨h, m, r1, r2, hd, hm, .inl ⟨hk, ?_⟩⟩ hn⟩
    simp [Message.kind, hb]
  | request h r1 m r2 hd hk hm =>
    exact ⟨fun h => (by simp [isBad] at h), fun hn => absurd ⟨h, m, r1, r2, hd, hm, .inr (.inl hk)⟩ hn⟩
  | response h r1 m r2 o r hd hk ho hm hb hid =>
    rcases collect_cases hosts src h m r r2 with ⟨hl, hc, _⟩ | ⟨hl, _, _, hc, _⟩ <;> rw [hc]
    · exact ⟨fun h => (by simp [isBad] at h),
        fun hn => absurd ⟨h, m, r1, r2, hd, hm, .inr (.inr ⟨hk, o, r, ho, hid, hb, hl⟩)⟩ hn⟩
    · refine ⟨fun _ => ?_, fun _ => (by simp [isBad])⟩
      rintro ⟨h', m', r1', r2', hd', hm', hw⟩
      grind
  | kind h r1 hd hk =>
    refine ⟨fun _ => ?_, fun _ => (by simp [isBad])⟩
    rintro ⟨h', m', r1', r2', hd', hm', hw⟩
    grind
  | errorOther | errorBad | requestBad | noRequest | responseBad | notOutstanding =>
    refine ⟨fun _ => ?_, fun _ => (by simp [isBad])⟩
    rintro ⟨h', m', r1', r2', hd', hm', hw⟩
    grind
  | header hd =>
    refine ⟨fun _ => ?_, fun _ => (by simp [isBad])⟩
    rintro ⟨h', m', r1', r2', hd', hm', hw⟩
    grind
  | responseEmpty h o hd hk ho =>
    refine ⟨fun _ => ?_, fun _ => (by simp [isBad])⟩
    rintro ⟨h', m', r1', r2', hd', hm', hw⟩
    rw [hd] at hd'
    cases hd'
    cases hm'
  | responseOther h r1 m r2 o hd hk ho hm hb =>
    refine ⟨fun _ => ?_, fun _ => (by simp [isBad])⟩
    rintro ⟨h', m', r1', r2', hd', hm', hw⟩
    have : ∀ r, m.body ≠ .spResponse r := fun r hr => hb (by simp [Message.kind, hr])
    grind

theorem bad_dropped {hosts : Hosts} {s : IoState} {src : Addr} {bytes : Bytes} {ok : Bool} {ps : List Probe}
    {x : IoState × List Action} (hc : PacketCase hosts s src bytes ok ps x) (hb : ps.any isBad = true) :
    (∀ c r, .answer c (.ok r) ∉ x.2) ∧ ∀ r, .dispatch r ∉ x.2 := by
  cases hc with
  | error | request => simp [isBad] at hb
  | errorBad h r1 =>
    rcases fail_cases s.incrementFaulty h .serialization with h | ⟨o, _, h⟩ <;> rw [h] <;> simp
  | responseBad h r1 o err =>
    rcases fail_cases s.incrementFaulty h err with h | ⟨o, _, h⟩ <;> rw [h] <;> simp
  | responseOther h =>
    rcases fail_cases s h .wrongMessage with h | ⟨o, _, h⟩ <;> rw [h] <;> simp
  | kind | requestBad => cases ok <;> simp [IoState.sendProtocolError]
  | response h r1 m r2 o r =>
    rcases collect_cases hosts src h m r r2 with ⟨_, hc, _⟩ | ⟨_, _, _, hc, hd⟩
    · rw [hc] at hb
      simp [isBad] at hb
    · rw [hd]
      rcases answer_cases s o (.error (.protocol (.wrongDataSize _ _))) with ⟨_, _, h⟩ | ⟨_, _, h⟩ <;> rw [h] <;> simp
  | _ => simp [IoState.die]

theorem packet_answered {hosts : Hosts} {s : IoState} {src : Addr} {bytes : Bytes} {ok : Bool} {ps : List Probe}
    {x : IoState × List Action} (hc : PacketCase hosts s src bytes ok ps x) {c : Chan} {r : SpRpcResponse}
    (ha : .answer c (.ok r) ∈ x.2) :
    ∃ o, s.outstanding = some o ∧ o.chan = c ∧ .messageMatched o.request.header o.request.message r.message ∈ ps := by
  cases hc with
  | error h r1 m r2 err =>
    rcases fail_cases s.incrementFaulty h err with h | ⟨o, _, h⟩ <;> simp [h] at ha
  | errorBad h r1 =>
    rcases fail_cases s.incrementFaulty h .serialization with h | ⟨o, _, h⟩ <;> simp [h] at ha
  | responseBad h r1 o err =>
    rcases fail_cases s.incrementFaulty h err with h | ⟨o, _, h⟩ <;> simp [h] at ha
  | responseOther h =>
    rcases fail_cases s h .wrongMessage with h | ⟨o, _, h⟩ <;> simp [h] at ha
  | kind | requestBad => cases ok <;> simp [IoState.sendProtocolError] at ha
  | request => split at ha <;> simp [IoState.die] at ha
  | response h r1 m r2 o r' hd hk ho =>
    rcases answer_cases s o (IoState.collectResponse h m r' r2) with ⟨_, _, h1⟩ | ⟨_, _, h1⟩
    · simp [h1] at ha
    · simp only [h1, List.mem_singleton, Action.answer.injEq] at ha
      refine ⟨o, ho, ha.1.symm, ?_⟩
      rcases collect_cases hosts src h m r' r2 with ⟨_, _, d, hc⟩ | ⟨_, _, _, _, hc⟩
      · rw [hc] at ha
        cases ha.2
        simp
      · rw [hc] at ha
        cases ha.2
  | _ => simp [IoState.die] at ha

theorem packet_matched {hosts : Hosts} {s : IoState} {src : Addr} {bytes : Bytes} {ok : Bool} {ps : List Probe}
    {x : IoState × List Action} (hc : PacketCase hosts s src bytes ok ps x) {h : Header} {q m : Message}
    (hp : .messageMatched h q m ∈ ps) :
    ∃ o, s.outstanding = some o ∧ h = o.request.header ∧ q = o.request.message ∧ x.1.outstanding = none ∧
      (s.dropped.contains o.chan = false →
        (∃ h' d, h'.messageId = h.messageId ∧ x.2 = [.answer o.chan (.ok { header := h', message := m, data := d })]) ∨
        ∃ a b, x.2 = [.answer o.chan (.error (.protocol (.wrongDataSize a b)))]) := by
  cases hc with
  | kind | requestBad => cases ok <;> simp [protocolError, Probes.sent] at hp
  | response h' r1 m' r2 o r hd hk ho hm hb hid =>
    have hp' : h = o.request.header ∧ q = o.request.message ∧ m = m' := by
      rcases collect_cases hosts src h' m' r r2 with ⟨_, h1, _⟩ | ⟨_, _, _, h1, _⟩ <;> simpa [h1] using hp
    obtain ⟨rfl, rfl, rfl⟩ := hp'
    have hn : (s.answerOutstanding o (IoState.collectResponse h' m r r2)).1.outstanding = none := by
      unfold IoState.answerOutstanding IoState.die
      dsimp only
      split <;> rfl
    refine ⟨o, ho, rfl, rfl, hn, fun hd => ?_⟩
    rcases answer_cases s o (IoState.collectResponse h' m r r2) with ⟨h1, _, _⟩ | ⟨_, _, h1⟩
    · rw [hd] at h1
      cases h1
    · rw [h1]
      rcases collect_cases hosts src h' m r r2 with ⟨_, _, d, h2⟩ | ⟨_, a, b, _, h2⟩ <;> rw [h2]
      · exact .inl ⟨h', d, hid.symm, rfl⟩
      · exact .inr ⟨a, b, rfl⟩
  | _ => simp at hp

theorem packet_no_timeout {hosts : Hosts} {s : IoState} {src : Addr} {bytes : Bytes} {ok : Bool} {ps : List Probe}
    {x : IoState × List Action} (hc : PacketCase hosts s src bytes ok ps x) (h : Header) (m : Message) :
    .messageTimeout h m ∉ ps := by
  cases hc with
  | kind | requestBad => cases ok <;> simp [protocolError, Probes.sent]
  | response h' r1 m' r2 o r =>
    rcases collect_cases hosts src h' m' r r2 with ⟨_, h1, _⟩ | ⟨_, _, _, h1, _⟩ <;> simp [h1]
  | _ => simp

theorem packet_no_request {hosts : Hosts} {s : IoState} {src : Addr} {bytes : Bytes} {ok : Bool} {ps : List Probe}
    {x : IoState × List Action} (hc : PacketCase hosts s src bytes ok ps x) (c : Chan) (pkt : Bytes) :
    .sendRequest c pkt ∉ x.2 := by
  cases hc with
  | error h r1 m r2 err =>
    rcases fail_cases s.incrementFaulty h err with h | ⟨o, _, h⟩ <;> simp [h]
  | errorBad h r1 =>
    rcases fail_cases s.incrementFaulty h .serialization with h | ⟨o, _, h⟩ <;> simp [h]
  | responseBad h r1 o err =>
    rcases fail_cases s.incrementFaulty h err with h | ⟨o, _, h⟩ <;> simp [h]
  | responseOther h =>
    rcases fail_cases s h .wrongMessage with h | ⟨o, _, h⟩ <;> simp [h]
  | kind | requestBad => cases ok <;> simp [IoState.sendProtocolError]
  | request => split <;> simp [IoState.die]
  | response h r1 m r2 o r' hd hk ho =>
    rcases answer_cases s o (IoState.collectResponse h m r' r2) with ⟨_, _, h1⟩ | ⟨_, _, h1⟩ <;> simp [h1]
  | _ => simp [IoState.die]

theorem packet_no_drop {hosts : Hosts} {s : IoState} {src : Addr} {bytes : Bytes} {ok : Bool} {ps : List Probe}
    {x : IoState × List Action} (hc : PacketCase hosts s src bytes ok ps x) :
    (∀ c n, .answer c (.error (.maxRetries n)) ∉ x.2) ∧ (∀ c n, .answer c (.error (.maxFaultMessages n)) ∉ x.2) ∧
      ∀ h m why, .messageDropped h m why ∉ ps := by
  cases hc with
  | error h r1 m r2 err =>
    rcases fail_cases s.incrementFaulty h err with h | ⟨o, _, h⟩ <;> simp [h]
  | errorBad h r1 =>
    rcases fail_cases s.incrementFaulty h .serialization with h | ⟨o, _, h⟩ <;> simp [h]
  | responseBad h r1 o err =>
    rcases fail_cases s.incrementFaulty h err with h | ⟨o, _, h⟩ <;> simp [h]
  | responseOther h =>
    rcases fail_cases s h .wrongMessage with h | ⟨o, _, h⟩ <;> simp [h]
  | kind | requestBad => cases ok <;> simp [IoState.sendProtocolError, protocolError, Probes.sent]
  | request => split <;> simp [IoState.die]
  | response h r1 m r2 o r' hd hk ho =>
    rcases collect_cases hosts src h m r' r2 with ⟨_, h2, d, h3⟩ | ⟨_, a, b, h2, h3⟩ <;> rw [h2, h3]
    · rcases answer_cases s o (.ok { header := h, message := m, data := d }) with ⟨_, _, h1⟩ | ⟨_, _, h1⟩ <;> simp [h1]
    · rcases answer_cases s o (.error (.protocol (.wrongDataSize a b))) with ⟨_, _, h1⟩ | ⟨_, _, h1⟩ <;> simp [h1]
  | _ => simp [IoState.die]

theorem kindName_inj {a b : MessageKind} (h : a.debugName = b.debugName) : a = b := by
  cases a <;> cases b <;> first | rfl | (exact absurd h (by decide))

theorem kindName_letters (a : MessageKind) (c : Char) (hc : c = ',' ∨ c = ' ') : c ∉ a.debugName := by
  rcases hc with rfl | rfl <;> cases a <;> decide

/-- Two names with a separator after the first. -/
theorem kindNames_inj {a b a' b' : MessageKind} {mid : List Char} (c : Char) (hc : c = ',' ∨ c = ' ')
    (h : a.debugName ++ c :: (mid ++ b.debugName) = a'.debugName ++ c :: (mid ++ b'.debugName)) : a = a' ∧ b = b' := by
  have hs : ∀ {xs ys xs' ys' : List Char}, c ∉ xs → c ∉ xs' → xs ++ c :: ys = xs' ++ c :: ys' → xs = xs' ∧ ys = ys' := by
    intro xs
    induction xs with
    | nil =>
      intro ys xs' ys' _ h' h
      cases xs' with
      | nil => simpa using h
      | cons x t =>
        simp only [List.nil_append, List.cons_append, List.cons.injEq] at h
        exact absurd (List.mem_cons.2 (.inl h.1)) h'
    | cons x t ih =>
      intro ys xs' ys' h1 h' h
      cases xs' with
      | nil =>
        simp only [List.nil_append, List.cons_append, List.cons.injEq] at h
        exact absurd (List.mem_cons.2 (.inl h.1.symm)) h1
      | cons x' t' =>
        simp only [List.cons_append, List.cons.injEq] at h
        obtain ⟨rfl, rfl⟩ := ih (fun hm => h1 (List.mem_cons_of_mem _ hm)) (fun hm => h' (List.mem_cons_of_mem _ hm)) h.2
        exact ⟨by rw [h.1], rfl⟩
  obtain ⟨h1, h2⟩ := hs (kindName_letters a c hc) (kindName_letters a' c hc) h
  exact ⟨kindName_inj h1, kindName_inj (List.append_cancel_left h2)⟩

theorem protocolText_inj {a b : ProtocolError} (h : a.debug.text = b.debug.text) : a = b := by
  have key : ∀ e : ProtocolError, readDbg (2 * e.debug.text.length) e.debug.text = some (e.debug, []) := by
    intro e
    have := readDbg_text e.debug (2 * e.debug.text.length) [] (fine_protocol e) (Dbg.size_le _ (fine_protocol e))
      ⟨by simp, rfl⟩
    rwa [List.append_nil] at this
  have h1 := key a
  rw [h, key b] at h1
  have h2 : b.debug = a.debug := by
    injection h1 with h1
    injection h1
  have := readProtocol_debug a
  rw [← h2, readProtocol_debug b] at this
  injection this with this
  exact this.symm

theorem protocolText_upper (e : ProtocolError) : (e.debug.text.headD 'a').isUpper = true := by
  cases e <;> rfl

theorem reason_upper (hub : List Char) (r : BadReason) :
    ((r.text hub).headD 'a').isUpper = match r with | .data _ => true | _ => false := by
  cases r with
  | data e => exact protocolText_upper e
  | _ => rfl

end Xcvr
