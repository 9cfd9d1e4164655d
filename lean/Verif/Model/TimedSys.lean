import Verif.Model.Timed
import Verif.Model.Handler

/-!
# The whole system in time

The tasks, the controller and the loop of `System.lean`, with the clock and the timer of `Timed.lean`, and with the room in the
channel between controller and loop: it holds `NUM_OUTSTANDING_REQUESTS` requests (`lib.rs` 333, `controller.rs` 147), and tasks
that find it full wait in the order in which they came (`tokio::sync::mpsc::Sender::send` is fair).
-/

namespace Xcvr

/-- The system, its timer, and the tasks that wait for room in the channel. -/
structure TimedSys (α : Type) where
  sys : Sys α
  timer : Timer
  line : List Nat

inductive TimedSysEvent where
  /-- Time passes. -/
  | elapse (d : Nat)
  /-- A task begins to send its request to the loop (`controller.rs` 1309). -/
  | lineUp (i : Nat)
  | sys (e : SysEvent)
  deriving DecidableEq, Repr

namespace TimedSys

variable {α : Type}

/-- `Controller::new`, `controller.rs` 101-183, and some tasks. -/
def init (nRetries : Option Nat) (period now : Nat) (progs : List (Prog α)) : TimedSys α :=
  ⟨Sys.init nRetries progs, .start period now, []⟩

/-- A step of the system, with the timer as it is when it begins; the timer is reset if a request is transmitted
(`ioloop.rs` 214). -/
def act (x : TimedSys α) (timer : Timer) (line : List Nat) (e : SysEvent) : Option (TimedSys α) :=
  match x.sys.step e with
  | some s => some ⟨s, if x.sys.wire.length < s.wire.length then timer.reset else timer, line⟩
  | none => none

/-- One step; `none` if it is not possible. The loop polls its timer only while a request is outstanding (`ioloop.rs` 703), and
a tick comes when it is due. The first task in line sends its request when there is room; all can if the loop is gone, and get an
error (`controller.rs` 1309-1312). A task that is cancelled leaves the line. -/
def step (x : TimedSys α) : TimedSysEvent → Option (TimedSys α)
  | .elapse d => some { x with timer := { x.timer with now := x.timer.now + d } }
  | .lineUp i =>
    match x.sys.tasks[i]? with
    | some ⟨_, .numbered _, _⟩ => if i ∈ x.line then none else some { x with line := x.line ++ [i] }
    | _ => none
  | .sys (.loop (.tick ok)) =>
    if x.sys.io.status = .running ∧ x.sys.io.outstanding.isSome ∧ x.timer.due ≤ x.timer.now then
      x.act x.timer.ticked x.line (.loop (.tick ok))
    else none
  | .sys (.submit i) =>
    if x.sys.io.status = .running then
      if x.line.head? = some i ∧ x.sys.io.queue.length < numOutstandingRequests then
        x.act x.timer (x.line.erase i) (.submit i)
      else none
    else if i ∈ x.line then x.act x.timer (x.line.erase i) (.submit i) else none
  | .sys (.cancel i) => x.act x.timer (x.line.erase i) (.cancel i)
  | .sys e => x.act x.timer x.line e

/-- A history. -/
def run (x : TimedSys α) : List TimedSysEvent → Option (TimedSys α)
  | [] => some x
  | e :: es =>
    match x.step e with
    | some x' => x'.run es
    | none => none

end TimedSys

end Xcvr
