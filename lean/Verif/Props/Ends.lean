import Verif.Lemmas.Ends
import Verif.Props.Bounds

/-! # C108: every operation comes to its end -/

namespace Xcvr

open Spec Prog

variable {α : Type}

/-- Whatever the network and the SP do, the steps the tool itself makes are bounded: `4 + max 1 limit` for each request
its tasks can make. -/
theorem C108_bounded (lim : Option Nat) (progs : List (Prog α)) (bs : List Nat) (hb : Pairs AtMost bs progs)
    (evs : List SysEvent) (s : Sys α) (h : (Sys.init lim progs).run evs = some s) :
    work (Sys.init lim progs) evs ≤ bs.sum * (4 + max 1 (limitOf lim)) := by
  rw [← sysCost_init _ lim hb]
  exact work_le evs (budget_init lim hb) ⟨s, h⟩

/-- As long as a task has something to do, the tool can make such a step: nothing waits for ever. This is so also if the
loop's task has died, and after any behaviour of network and SP. -/
theorem C108_progress (lim : Option Nat) (progs : List (Prog α)) (evs : List SysEvent) (s : Sys α)
    (h : (Sys.init lim progs).run evs = some s) (i : Nat) (tk : Task α) (ht : s.tasks[i]? = some tk) (hu : Unfinished tk) :
    ∃ e s', s.step e = some s' ∧ Works s e = true :=
  can_work (tracked_run evs (tracked_init lim progs) h) ht hu

/-- At most `max 1 limit` datagrams are sent for each request the tasks can make. -/
theorem C108_datagrams (lim : Option Nat) (progs : List (Prog α)) (bs : List Nat) (hb : Pairs AtMost bs progs)
    (evs : List SysEvent) (s : Sys α) (h : (Sys.init lim progs).run evs = some s) :
    s.wire.length ≤ bs.sum * max 1 (limitOf lim) := by
  rw [← sysSends_init _ lim hb]
  obtain ⟨rs, -, h1⟩ := sends_run evs (budget_init lim hb) h
  unfold sysSends at h1 ⊢
  omega

/-- C108 for methods of one controller called concurrently. -/
theorem C108_methods (lim : Option Nat) (ops : List Op) (evs : List SysEvent) (s : Sys Unit)
    (h : (Sys.init lim (ops.map Op.prog)).run evs = some s) :
    work (Sys.init lim (ops.map Op.prog)) evs ≤ (ops.map requestsOf).sum * (4 + max 1 (limitOf lim)) ∧
    s.wire.length ≤ (ops.map requestsOf).sum * max 1 (limitOf lim) := by
  have hb : Pairs AtMost (ops.map requestsOf) (ops.map Op.prog) := by
    clear h
    induction ops with
    | nil => exact .nil
    | cons op ops ih => exact .cons (C107_bound op) ih
  exact ⟨C108_bounded lim _ _ hb evs s h, C108_datagrams lim _ _ hb evs s h⟩

/-- C108 for a command of `xcvradm`. -/
theorem C108_command (lim : Option Nat) (fmt : Cli.Fmt) (transceivers : Option Cli.Transceivers) (ignoreErrors : Bool)
    (cmd : Cli.Cmd) (evs : List SysEvent) (s : Sys Cli.Exit)
    (h : (Sys.init lim [Cli.main fmt transceivers ignoreErrors cmd]).run evs = some s) :
    work (Sys.init lim [Cli.main fmt transceivers ignoreErrors cmd]) evs ≤ 47 * (4 + max 1 (limitOf lim)) ∧
    s.wire.length ≤ 47 * max 1 (limitOf lim) := by
  have hb : Pairs AtMost [47] [Cli.main fmt transceivers ignoreErrors cmd] :=
    .cons (Cli.C107_command fmt transceivers ignoreErrors cmd) .nil
  exact ⟨C108_bounded lim _ _ hb evs s h, C108_datagrams lim _ _ hb evs s h⟩

/-- A silent SP, and three tries: the call makes all the steps the bound allows, sends its request three times, and has
then ended. -/
def silent : List SysEvent :=
  [.number 0, .submit 0, .loop (.accept true), .loop (.tick true), .loop (.tick true), .loop (.tick true), .receive 0]

theorem C108_reached :
    work (Sys.init (some 3) [(Op.status ⟨0b11⟩).prog]) silent = 7 ∧
    ((Sys.init (some 3) [(Op.status ⟨0b11⟩).prog]).run silent).map (fun s => (s.wire.length, s.tasks.map fun t =>
      match t.prog with
      | .rpc .. => false
      | _ => true)) = some (3, [true]) := by
  decide +kernel

end Xcvr
