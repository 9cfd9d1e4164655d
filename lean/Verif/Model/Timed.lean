import Verif.Model.System

/-!
# The I/O loop in time

`IoLoop.lean` lets the resend timer fire at arbitrary moments. Here the timer is the `tokio::time::Interval` that the loop has
(`ioloop.rs` 42, 84), and time passes between events. A tick is possible only once it is due.

Simplifications: a step of the loop takes no time; what it waits for (room in the socket's buffer, or in the handler's channel)
is time that passes before it. Times and the interval are numbers of nanoseconds.
-/

namespace Xcvr

/-- `tokio::time::Interval`: its period and when the next tick is due; and the time. -/
structure Timer where
  period : Nat
  due : Nat
  now : Nat
  deriving DecidableEq, Repr

namespace Timer

/-- `ioloop.rs` 84 `interval(retry_interval)`: the first tick is due at once. -/
def start (period now : Nat) : Timer := ⟨period, now, now⟩

/-- `Interval::poll_tick` when a tick is due. The behaviour for missed ticks is the default one (`Burst`): the next tick is one
period after this one was due. -/
def ticked (t : Timer) : Timer := { t with due := t.due + t.period }

/-- `Interval::reset`: the next tick is one period from now. -/
def reset (t : Timer) : Timer := { t with due := t.now + t.period }

end Timer

/-- The loop and its timer. -/
structure Timed where
  io : IoState
  timer : Timer
  deriving DecidableEq, Repr

inductive TimedEvent where
  /-- Time passes. -/
  | elapse (d : Nat)
  | io (e : Event)
  deriving DecidableEq, Repr

namespace Timed

/-- `IoLoop::new`, `ioloop.rs` 69-91. -/
def init (nRetries : Option Nat) (period now : Nat) : Timed := ⟨IoState.init nRetries, .start period now⟩

/-- Whether a request was transmitted: `ioloop.rs` 214 resets the timer then, and nowhere else. -/
def sends (acts : List Action) : Bool := acts.any fun | .sendRequest .. => true | _ => false

/-- A step of the loop, with the timer as it is when the step begins. -/
def act (s : Timed) (timer : Timer) (e : Event) : Timed × List (Nat × Action) :=
  let r := s.io.step e
  (⟨r.1, if sends r.2 then timer.reset else timer⟩, r.2.map fun a => (s.timer.now, a))

/-- One step, and what is done with the time at which it is done; `none` if it is not possible. `ioloop.rs` 703: the timer is
polled only while a request is outstanding. -/
def step (s : Timed) : TimedEvent → Option (Timed × List (Nat × Action))
  | .elapse d => some (⟨s.io, { s.timer with now := s.timer.now + d }⟩, [])
  | .io (.tick ok) =>
    if s.io.status = .running ∧ s.io.outstanding.isSome ∧ s.timer.due ≤ s.timer.now then
      some (s.act s.timer.ticked (.tick ok))
    else none
  | .io e => some (s.act s.timer e)

/-- A history, and everything that was done. -/
def run (s : Timed) : List TimedEvent → Option (Timed × List (Nat × Action))
  | [] => some (s, [])
  | e :: es =>
    match s.step e with
    | none => none
    | some (s₁, a₁) =>
      match s₁.run es with
      | none => none
      | some (s₂, a₂) => some (s₂, a₁ ++ a₂)

end Timed

end Xcvr
