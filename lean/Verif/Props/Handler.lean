import Verif.Lemmas.Handler
import Verif.Props.IoLoop

/-! # C82, C83: requests of the SP and their handler -/

namespace Xcvr

open Spec Host

/-- A datagram with a request of the SP, and the request. There is no message of kind `SpRequest` with a real body, so
any message will do; the loop looks only at the kind in the header. -/
def spPkt : Bytes := enc (Header.new 3 .spRequest) ++ enc (Message.new (.error .notSupported))
def spReq : SpRpcRequest := ⟨Header.new 3 .spRequest, Message.new (.error .notSupported), none⟩

theorem spPkt_request : spRequestOf spPkt = some spReq := by decide +kernel

/-! ## C82 -/

/-- C82 is false of the code. Whatever the capacity of the handler's channel and however many requests the handler works
on at a time: `capacity + width + 2` requests of the SP that arrive while a call is in progress can leave loop and handler
waiting for each other. The call, made with any retry limit, is not answered, and neither is any later one. -/
theorem C82_counterexample (limit : Option Nat) (capacity width : Nat) (hc : 0 < capacity) (hw : 0 < width)
    (reply : HandlerReply) :
    ∃ evs h acts, keepsHandler evs ∧ hostSubmitted evs = [100] ∧ (arrived evs).length = capacity + width + 2 ∧
      (Host.init limit capacity width).run evs = some (h, acts) ∧ sentFor 100 acts ≠ [] ∧ answered acts = [] ∧
      h.io.status = .running ∧ h.pending.isSome ∧ Stalled h := by
  have h1 : (Host.init limit capacity width).run [.io (.submit 100 reqA), .io (.accept true)] =
      some ({ Host.init limit capacity width with
        io := { IoState.init limit with outstanding := some ⟨100, reqA, 1, 0⟩ } },
        [.sendRequest 100 (IoState.requestPacket reqA)]) := by
    have hlen : ¬ maxPacketSize < (IoState.requestPacket reqA).length := by decide +kernel
    simp [Host.run, Host.step, Host.branch, Host.init, IoState.step, IoState.init, IoState.handleAccept,
      IoState.sendOutgoingRequest, hlen, Host.dispatched, Host.immediate]
  obtain ⟨h, acts, h2, hf, hio, hans⟩ := flood_fills (r := spReq) 9 reply spPkt_request
    { Host.init limit capacity width with io := { IoState.init limit with outstanding := some ⟨100, reqA, 1, 0⟩ } }
    rfl rfl rfl rfl rfl rfl hc hw
  refine ⟨_, h, _, ?_, ?_, ?_, run_snd_append h1 h2, ?_, ?_, hf.running, hf.pending, full_stalled hf⟩
  · have := keeps_flood 9 spPkt reply capacity width
    unfold keepsHandler at this ⊢
    simp only [List.cons_append, List.nil_append, List.mem_cons, not_or]
    exact ⟨by simp, by simp, this⟩
  · have : hostSubmitted (flood 9 spPkt reply capacity width) = [] := by
      have hn : ∀ c r, HostEvent.io (.submit c r) ∉ flood 9 spPkt reply capacity width := by
        intro c r
        unfold flood
        simp
      unfold hostSubmitted
      rw [List.filterMap_eq_nil_iff]
      intro e he
      split
      · exact absurd he (hn _ _)
      · rfl
    unfold hostSubmitted at this ⊢
    rw [List.filterMap_append]
    dsimp only [Host.init] at this ⊢
    rw [this]
    rfl
  · have := arrived_flood 9 reply capacity width spPkt_request
    exact this
  · simp [sentFor]
  · rw [answered_append, hans]; rfl

/-- C82 as stated fails. -/
theorem C82_false : ¬ ∀ (limit : Option Nat) (capacity width : Nat) (evs : List HostEvent) (h : Host) (acts : List Action),
    0 < capacity → 0 < width → keepsHandler evs → (Host.init limit capacity width).run evs = some (h, acts) →
    Recovers h := by
  intro hall
  obtain ⟨evs, h, acts, hk, _, _, hr, _, _, _, hp, hst⟩ := C82_counterexample none 1 1 (by decide) (by decide) (.ok none)
  obtain ⟨evs', h', acts', he, _, hr', hp'⟩ := hall none 1 1 evs h acts (by decide) (by decide) hk hr none
  have hk' : keepsHandler evs' := by
    intro hm
    rcases he _ hm with h | h | h <;> cases h
  rw [← (hst evs' h' acts' hk' hr').1, hp'] at hp
  cases hp

/-- C82, the part that holds: the loop gets back to its work, whatever the handler replies, unless everything is full:
the handler's channel, the handler's hands and the channel back. -/
theorem C82_exact_partial (limit : Option Nat) (capacity width : Nat) (evs : List HostEvent) (h : Host)
    (acts : List Action) (hc : 0 < capacity) (hw : 0 < width) (_hk : keepsHandler evs)
    (hr : (Host.init limit capacity width).run evs = some (h, acts)) :
    Recovers h ∨ (h.pending.isSome ∧ h.incoming.length = capacity ∧ h.holding.length = width ∧ h.responses.length = 1 ∧
      Stalled h) := by
  have hi := inv_run (inv_init limit capacity width) hr
  obtain ⟨h1, h2⟩ := size_run hr
  have h1' : h.capacity = capacity := h1
  have h2' : h.width = width := h2
  by_cases hf : Full h
  · have := hf.incoming
    have := hf.holding
    have := hi.incoming
    have := hi.holding
    have := hi.responses
    have h3 : h.responses.length ≠ 0 := fun h0 => hf.responses (List.eq_nil_of_length_eq_zero h0)
    exact .inr ⟨hf.pending, by omega, by omega, by omega, full_stalled hf⟩
  · exact .inl (not_full_recovers hi (by omega) (by omega) hf)

/-- C82, the part that holds: it takes more than `capacity + width + 1` requests of the SP. -/
theorem C82_few_partial (limit : Option Nat) (capacity width : Nat) (evs : List HostEvent) (h : Host)
    (acts : List Action) (hc : 0 < capacity) (hw : 0 < width) (hk : keepsHandler evs)
    (hr : (Host.init limit capacity width).run evs = some (h, acts)) (hn : (arrived evs).length ≤ capacity + width + 1) :
    Recovers h := by
  rcases C82_exact_partial limit capacity width evs h acts hc hw hk hr with h0 | ⟨h1, h2, h3, h4, _⟩
  · exact h0
  · have := (sizes_run hk hr).1
    obtain ⟨r, hr⟩ := Option.isSome_iff_exists.mp h1
    simp [queued, waiting, Host.init, hr] at this
    omega

/-- C82, the part that holds: a handler that never replies does not stall the loop. -/
theorem C82_silent_partial (limit : Option Nat) (capacity width : Nat) (evs : List HostEvent) (h : Host)
    (acts : List Action) (hc : 0 < capacity) (hw : 0 < width) (hk : keepsHandler evs)
    (hr : (Host.init limit capacity width).run evs = some (h, acts)) (hn : replied evs = []) : Recovers h := by
  rcases C82_exact_partial limit capacity width evs h acts hc hw hk hr with h0 | ⟨h1, h2, h3, h4, _⟩
  · exact h0
  · have := (sizes_run hk hr).2
    rw [hn] at this
    have h0 : (Host.init limit capacity width).waiting.length = 0 := rfl
    rw [h0, waiting, List.length_append] at this
    simp only [List.length_nil] at this
    omega

/-- The tool: a channel of one, one request at a time, replies `Ok(None)` (`xcvradm.rs` 917-938). Four requests of the SP
stall it, while a call with a single try is in progress. -/
example :
    let evs : List HostEvent := [.io (.submit 100 reqA), .io (.accept true)] ++ flood 9 spPkt (.ok none) 1 1
    ∃ h acts, (Host.init (some 1) 1 1).run evs = some (h, acts) ∧ (arrived evs).length = 4 ∧ h.pending = some spReq ∧
      h.io.outstanding.isSome ∧ h.step (.io (.tick true)) = none ∧ h.step .put = none ∧ h.step (.take none) = none ∧
      h.step .reply = none ∧ h.step (.drain true) = none := by
  refine ⟨_, _, rfl, ?_⟩
  decide +kernel

/-- With three requests it recovers. -/
example : ∃ h acts, (Host.init (some 1) 1 1).run
    [.io (.packet 9 spPkt true), .put, .take (some (.ok none)), .reply, .io (.packet 9 spPkt true), .put,
     .take (some (.ok none)), .io (.packet 9 spPkt true), .put, .drain true, .reply, .take none] = some (h, acts) ∧
    h.pending = none ∧ handed acts = [spReq, spReq, spReq] := by
  refine ⟨_, _, rfl, ?_⟩
  decide +kernel

/-! ## C83 -/

/-- C83: every request of the SP that the loop receives reaches the handler once, in the order of arrival; those that have
not reached it yet are on their way, in that order. -/
theorem C83_order (limit : Option Nat) (capacity width : Nat) (evs : List HostEvent) (h : Host) (acts : List Action)
    (hk : keepsHandler evs) (hr : (Host.init limit capacity width).run evs = some (h, acts)) :
    handed acts <+: arrived evs ∧
    (h.io.status = .running → handed acts ++ h.incoming ++ h.pending.toList = arrived evs) := by
  obtain ⟨lost, h1, h2, _⟩ := order_run hk hr
  have h0 : (Host.init limit capacity width).queued = [] := rfl
  rw [h0, List.nil_append] at h1
  constructor
  · rw [← h1, List.append_assoc]; exact List.prefix_append ..
  · intro hs
    rw [h2 hs, List.append_nil] at h1
    rw [← h1]
    simp [queued]

/-- C83: the loop receives the handler's replies once each, in the order they were given, and transmits for each exactly
what it says. -/
theorem C83_replies (limit : Option Nat) (capacity width : Nat) (evs : List HostEvent) (h : Host) (acts : List Action)
    (hk : keepsHandler evs) (hr : (Host.init limit capacity width).run evs = some (h, acts))
    (hs : h.io.status = .running) :
    ∃ received, replied evs = received ++ h.responses ++ h.holding ∧ received.length = (drains evs).length ∧
      responsesSent acts = (List.zip received (drains evs)).filterMap fun p => transmission p.1 p.2 := by
  obtain ⟨d, h1, h2, h3⟩ := reply_run hk (inv_init limit capacity width) hr hs
  have h0 : (Host.init limit capacity width).waiting = [] := rfl
  rw [h0, List.nil_append] at h1
  exact ⟨d, by rw [← h1]; simp [waiting], h2, h3⟩

/-- C83: with the handler in the picture the loop still behaves as one of the histories of C21-C31, with the same callers
in the same order. -/
theorem C83_refines (limit : Option Nat) (capacity width : Nat) (evs : List HostEvent) (h : Host) (acts : List Action)
    (hk : keepsHandler evs) (hr : (Host.init limit capacity width).run evs = some (h, acts)) :
    ∃ ioEvs, submitted ioEvs = hostSubmitted evs ∧ after limit ioEvs = h.io ∧
      (effects limit ioEvs).filter (fun | .dispatch _ => false | _ => true) =
        acts.filter (fun | .dispatch _ => false | _ => true) := refines_run hk hr

/-- C83: so calls are answered in order, none twice, whatever the SP requests and the handler does. -/
theorem C83_calls (limit : Option Nat) (capacity width : Nat) (evs : List HostEvent) (h : Host) (acts : List Action)
    (hk : keepsHandler evs) (hr : (Host.init limit capacity width).run evs = some (h, acts)) :
    answered acts <+: hostSubmitted evs := by
  obtain ⟨ioEvs, h1, _, h3⟩ := refines_run hk hr
  have := C21_order limit ioEvs
  rw [h1] at this
  have e : answered acts = answered (effects limit ioEvs) := by
    rw [← answered_immediate acts, ← h3, answered_immediate]
    rfl
  rw [e]
  exact this

end Xcvr
