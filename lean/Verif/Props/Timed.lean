import Verif.Lemmas.Latency
import Verif.Props.IoLoop

/-! # C127-C128: the loop and the clock -/

namespace Xcvr

open Spec IoState

/-! ## A concrete history used in the examples -/

/-- Two requests, a timer of ten; the loop is one late with each tick, and the first tick after an idle time is not early. -/
def clockDemo : List TimedEvent :=
  [.elapse 25, .io (.submit 100 reqA), .io (.accept true), .elapse 4, .io (.submit 200 reqB), .elapse 7, .io (.tick true),
   .io (.packet 0 [] true), .elapse 11, .io (.tick true), .io (.accept true), .elapse 3]

example : ((Timed.init (some 2) 10 0).run clockDemo).map (·.2) =
    some [(25, .sendRequest 100 (requestPacket reqA)), (36, .sendRequest 100 (requestPacket reqA)),
      (47, .answer 100 (.error (.maxRetries 2))), (47, .sendRequest 200 (requestPacket reqB))] := by decide +kernel

/-- C127: the transmissions of a request are at least one retry interval apart, whatever is received, submitted or missed in
between and however late the loop is scheduled. -/
theorem C127_spaced (lim : Option Nat) (period t₀ : Nat) {evs : List TimedEvent} {s : Timed} {acts : List (Nat × Action)}
    (h : (Timed.init lim period t₀).run evs = some (s, acts)) (hd : (submittedIn evs).Nodup) (c : Chan) :
    (timesSent c acts).Pairwise (fun x y => x + period ≤ y) := (Timed.spaced_inv lim period t₀ h hd).spaced c

/-- C127: a caller is told that the retries are used up only after as many transmissions as the limit says, and a whole interval
after each of them: the `k`-th transmission has been given all the intervals from it on. -/
theorem C127_patience (lim : Option Nat) (period t₀ : Nat) {evs : List TimedEvent} {s : Timed}
    {before later : List (Nat × Action)} {t n : Nat} {c : Chan} (hd : (submittedIn evs).Nodup)
    (h : (Timed.init lim period t₀).run evs = some (s, before ++ (t, .answer c (.error (.maxRetries n))) :: later)) :
    n = max 1 (limitOf lim) ∧ (timesSent c before).length = n ∧
      ∀ k (hk : k < (timesSent c before).length), (timesSent c before)[k] + (n - k) * period ≤ t := by
  have inv := Timed.spaced_inv lim period t₀ h hd
  obtain ⟨xs, e, ys, s₁, rfl, h1, h2, h3⟩ := Timed.answer_splits h rfl
  have hd1 : (submittedIn xs).Nodup := by
    rw [submittedIn, List.filterMap_append] at hd
    exact (List.nodup_append.mp hd).1
  have hu := Timed.run_untimed h1
  obtain ⟨k1, k2⟩ := C23_max_retries lim (Timed.untimed xs) e c n (by rw [Timed.submitted_untimed]; exact hd1)
    (by simp only [next, after]; rw [show (IoState.init lim).run (Timed.untimed xs) = _ from hu]; exact h2)
  have k3 : (timesSent c before).length = n := by
    rw [Timed.timesSent_length, ← k2, effects, show (IoState.init lim).run (Timed.untimed xs) = _ from hu]
  refine ⟨k1, k3, fun k hk => ?_⟩
  have := Timed.apart_sum (Timed.spaced_inv lim period t₀ h1 hd1 |>.spaced c)
    (inv.failed before t c _ later rfl (.inl ⟨n, rfl⟩)) k hk
  rwa [k3] at this

/-- C127: nor is a caller told that there were too many faulty messages before a whole interval has passed since every
transmission: a burst of bad datagrams does not make the caller lose an answer that is under way. -/
theorem C127_faults (lim : Option Nat) (period t₀ : Nat) {evs : List TimedEvent} {s : Timed}
    {before later : List (Nat × Action)} {t n : Nat} {c : Chan} (hd : (submittedIn evs).Nodup)
    (h : (Timed.init lim period t₀).run evs = some (s, before ++ (t, .answer c (.error (.maxFaultMessages n))) :: later)) :
    ∀ x ∈ timesSent c before, x + period ≤ t :=
  (Timed.spaced_inv lim period t₀ h hd).failed before t c _ later rfl (.inr ⟨n, rfl⟩)

/-- The loop of the example is on time within one, its two callers are distinct, and time does not pass too early for a tick. -/
example : Prompt 1 (Timed.init (some 2) 10 0) clockDemo ∧ ¬Prompt 0 (Timed.init (some 2) 10 0) clockDemo ∧
    (submittedIn clockDemo).Nodup ∧
    (Timed.init (some 2) 10 0).run [.io (.submit 100 reqA), .io (.accept true), .elapse 9, .io (.tick true)] = none := by
  decide +kernel

/-- C128: a request is answered within as many rounds as there are unanswered requests before it, and one more; a round is the
number of transmissions allowed times the retry interval, and the loop's own lateness at each. -/
theorem C128_latency (lim : Option Nat) (period t₀ late : Nat) {evs more : List TimedEvent} {s₁ s : Timed}
    {a₁ a₂ : List (Nat × Action)} (c : Chan) (req : HostRpcRequest)
    (h1 : (Timed.init lim period t₀).run evs = some (s₁, a₁))
    (h2 : s₁.run (.io (.submit c req) :: more) = some (s, a₂))
    (hp : Prompt late (Timed.init lim period t₀) (evs ++ .io (.submit c req) :: more))
    (hr : s.io.status = .running) :
    let T := s₁.timer.now + ((submittedIn evs).length - (answeredIn a₁).length + 1) * (max 1 (limitOf lim) * (period + late))
    (∃ t a, (t, .answer c a) ∈ a₂ ∧ t ≤ T) ∨ s.timer.now ≤ T := by
  intro T
  obtain ⟨p1, p2⟩ := Timed.prompt_append hp h1
  have hr₁ := Timed.run_running' h2 hr
  have i0 : Timed.TimerInv late (Timed.init lim period t₀).io (Timed.init lim period t₀).timer := fun _ o ho => by cases ho
  obtain ⟨i1, -⟩ := Timed.prompt_run h1 p1 i0
  obtain ⟨s₂, b₁, b₂, h3, h4, rfl⟩ := Timed.run_cons h2
  obtain ⟨q1, q2⟩ := p2
  obtain ⟨i2, -⟩ := Timed.prompt_step h3 q1 i1
  obtain ⟨i3, i4⟩ := Timed.prompt_run h4 (q2 _ _ h3) i2
  have hu := Timed.run_untimed h1
  have inv := order_inv lim (Timed.untimed evs)
  have hlim : s₁.io.limit = limitOf lim := by
    have := inv.limit
    rw [show (IoState.init lim).run (Timed.untimed evs) = _ from hu, ← limitOf_eq] at this
    exact this
  have hper : s₁.timer.period = period := Timed.run_period h1
  have hlen : (submittedIn evs).length - (answeredIn a₁).length = s₁.io.outstanding.toList.length + s₁.io.queue.length := by
    have := inv.order (by rw [show (IoState.init lim).run (Timed.untimed evs) = _ from hu]; exact hr₁)
    rw [show (IoState.init lim).run (Timed.untimed evs) = _ from hu, Timed.submitted_untimed] at this
    have := congrArg List.length this
    simp only [List.length_append, List.length_map] at this
    unfold answeredIn
    omega
  have w := Timed.waiting_submit hr₁ i1 c req
  have hT : s₁.timer.now + (s₁.io.outstanding.toList.length + s₁.io.queue.length + 1) *
      Timed.round late s₁.io.limit s₁.timer.period = T := by rw [hper, hlim, ← hlen]; rfl
  rw [hT] at w
  cases h3
  rcases i4 hr c _ w with ⟨t, a, hta, ht⟩ | w
  · exact .inl ⟨t, a, List.mem_append_right _ hta, ht⟩
  · exact .inr (Timed.waiting_now hr i3 w)

/-- In the example the first request, behind nobody, is answered in time: at 47, and 25 + 1 * (2 * 11) = 47. The bound is
reached. -/
example : ∃ s₁ a₁ s a₂, (Timed.init (some 2) 10 0).run (clockDemo.take 1) = some (s₁, a₁) ∧
    s₁.run (clockDemo.drop 1) = some (s, a₂) ∧ s.io.status = .running ∧ (47, .answer 100 (.error (.maxRetries 2))) ∈ a₂ ∧
    s₁.timer.now + ((submittedIn (clockDemo.take 1)).length - (answeredIn a₁).length + 1) * (max 1 (limitOf (some 2)) * (10 + 1)) = 47 :=
  ⟨_, _, _, _, rfl, rfl, by decide +kernel⟩

end Xcvr
