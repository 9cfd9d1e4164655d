import Verif.Lemmas.TimedEnds
import Verif.Props.Ends

/-! # C129-C130: every operation ends within a bounded time -/

namespace Xcvr

open Spec Prog

variable {α : Type}

/-- C129: a task that has had `k` replies and is not done has been at it for at most `k + 1` turns; a turn is a round of the loop
for each task. -/
theorem C129_deadline (lim : Option Nat) (period t₀ late : Nat) (progs : List (Prog α)) (evs : List TimedSysEvent)
    (x : TimedSys α) (h : (TimedSys.init lim period t₀ progs).run evs = some x)
    (hp : SysPrompt late (TimedSys.init lim period t₀ progs) evs) (i : Nat) (tk : Task α) (hi : x.sys.tasks[i]? = some tk)
    (hu : Unfinished tk) :
    x.timer.now ≤ t₀ + (tk.past.length + 1) * (progs.length * (max 1 (limitOf lim) * (period + late))) := by
  have g := TimedSys.good_run (TimedSys.good_init lim period t₀ late progs) h hp
  have pr := g.progress i tk hi
  obtain ⟨h1, c, k, h2⟩ := hu
  unfold TimedSys.Progress at pr
  split at pr
  · rcases pr with pr | pr
    · exact absurd h2 (pr c k)
    · exact Nat.le_trans pr (TimedSys.Params.by_le _ _)
  · exact pr.1
  · exact pr.1
  · exact absurd ‹_› h1

/-- C129: an operation that makes at most `k` requests has ended after `k` turns. -/
theorem C129_operation (lim : Option Nat) (period t₀ late : Nat) (progs : List (Prog α)) (evs : List TimedSysEvent)
    (x : TimedSys α) (h : (TimedSys.init lim period t₀ progs).run evs = some x)
    (hp : SysPrompt late (TimedSys.init lim period t₀ progs) evs) (i : Nat) (p : Prog α) (k : Nat) (tk : Task α)
    (hi : progs[i]? = some p) (hk : AtMost k p) (htk : x.sys.tasks[i]? = some tk)
    (hlate : t₀ + k * (progs.length * (max 1 (limitOf lim) * (period + late))) < x.timer.now) : ¬Unfinished tk := by
  intro hu
  have h1 := C129_deadline lim period t₀ late progs evs x h hp i tk htk hu
  obtain ⟨-, c, f, hf⟩ := hu
  have hl := TimedSys.begun_run (TimedSys.begun_init lim progs) (TimedSys.run_untimedSys h) i p tk hi htk
  obtain ⟨t, o, hr⟩ := prog_ends (f .gone)
  have := hk _ _ (hl ((c, .gone) :: t) o (by rw [hf]; exact ⟨rfl, hr⟩))
  rw [List.length_append, List.length_cons] at this
  have := Nat.mul_le_mul_right (progs.length * (max 1 (limitOf lim) * (period + late)))
    (show tk.past.length + 1 ≤ k by omega)
  omega

/-- C129 for methods of one controller called concurrently. -/
theorem C129_methods (lim : Option Nat) (period t₀ late : Nat) (ops : List Op) (evs : List TimedSysEvent) (x : TimedSys Unit)
    (h : (TimedSys.init lim period t₀ (ops.map Op.prog)).run evs = some x)
    (hp : SysPrompt late (TimedSys.init lim period t₀ (ops.map Op.prog)) evs) (i : Nat) (op : Op) (tk : Task Unit)
    (hi : ops[i]? = some op) (htk : x.sys.tasks[i]? = some tk)
    (hlate : t₀ + requestsOf op * (ops.length * (max 1 (limitOf lim) * (period + late))) < x.timer.now) : ¬Unfinished tk :=
  C129_operation lim period t₀ late _ evs x h hp i op.prog (requestsOf op) tk (by rw [List.getElem?_map, hi]; rfl)
    (C107_bound op) htk (by rw [List.length_map]; exact hlate)

/-- C129 for a command of `xcvradm`. -/
theorem C129_command (lim : Option Nat) (period t₀ late : Nat) (fmt : Cli.Fmt) (transceivers : Option Cli.Transceivers)
    (ignoreErrors : Bool) (cmd : Cli.Cmd) (evs : List TimedSysEvent) (x : TimedSys Cli.Exit) (tk : Task Cli.Exit)
    (h : (TimedSys.init lim period t₀ [Cli.main fmt transceivers ignoreErrors cmd]).run evs = some x)
    (hp : SysPrompt late (TimedSys.init lim period t₀ [Cli.main fmt transceivers ignoreErrors cmd]) evs)
    (htk : x.sys.tasks[0]? = some tk) (hlate : t₀ + 47 * (max 1 (limitOf lim) * (period + late)) < x.timer.now) :
    ¬Unfinished tk :=
  C129_operation lim period t₀ late _ evs x h hp 0 _ 47 tk rfl (Cli.C107_command fmt transceivers ignoreErrors cmd) htk
    (by simpa using hlate)

/-- Two tasks, a silent SP, two tries, an interval of ten. The second task waits for room in the channel, then for the first
task's request, then for its own. -/
def waitDemo : List TimedSysEvent :=
  [.sys (.number 0), .sys (.number 1), .lineUp 0, .lineUp 1, .sys (.submit 0), .sys (.loop (.accept true)), .sys (.submit 1),
   .elapse 10, .sys (.loop (.tick true)), .elapse 10, .sys (.loop (.tick true)), .sys (.receive 0), .sys (.loop (.accept true)),
   .elapse 10, .sys (.loop (.tick true)), .elapse 10]

def waitInit : TimedSys Unit := .init (some 2) 10 0 [(Op.status ⟨0b11⟩).prog, (Op.status ⟨0b100⟩).prog]

/-- The history is possible and prompt. At its end the first task has ended, and the second has waited for two rounds, which is
all that `C129_deadline` allows: 40 = 0 + (0 + 1) * (2 * (2 * 10)). It ends with the tick that is due now, and were time to pass
before, the loop would not be prompt. -/
example : SysPrompt 0 waitInit waitDemo ∧
    (waitInit.run waitDemo).map (fun x => (x.timer.now, x.sys.tasks.map fun tk => decide (Ended tk))) = some (40, [true, false]) ∧
    (waitInit.run (waitDemo ++ [.sys (.loop (.tick true)), .sys (.receive 1)])).map
      (fun x => (x.timer.now, x.sys.tasks.map fun tk => decide (Ended tk))) = some (40, [true, true]) ∧
    ¬SysPrompt 0 waitInit (waitDemo ++ [.elapse 1]) := by
  decide +kernel

/-- The channel holds one request, and who came first is served first. -/
example : waitInit.run (waitDemo.take 5 ++ [.sys (.submit 1)]) = none ∧ waitInit.run (waitDemo.take 4 ++ [.sys (.submit 1)]) = none :=
  ⟨rfl, rfl⟩

/-- C130: time never stands still: a prompt history can always be continued, promptly, until all operations have ended. So what
`C129_operation` assumes can be met from every state that is reached, whatever network, SP and callers have done so far. -/
theorem C130_goes_on (lim : Option Nat) (period t₀ late : Nat) (progs : List (Prog α)) (bs : List Nat)
    (hb : Pairs AtMost bs progs) (evs : List TimedSysEvent) (x : TimedSys α)
    (h : (TimedSys.init lim period t₀ progs).run evs = some x)
    (hp : SysPrompt late (TimedSys.init lim period t₀ progs) evs) :
    ∃ more x', (TimedSys.init lim period t₀ progs).run (evs ++ more) = some x' ∧
      SysPrompt late (TimedSys.init lim period t₀ progs) (evs ++ more) ∧
      ∀ (i : Nat) (tk : Task α), x'.sys.tasks[i]? = some tk → ¬Unfinished tk := by
  have r : TimedSys.Ready _ x := TimedSys.ready_run ⟨TimedSys.good_init lim period t₀ late progs, tracked_init lim progs,
    TimedSys.calling_init lim progs⟩ h hp
  obtain ⟨rs, hrs, -⟩ := sends_run _ (budget_init lim hb) (TimedSys.run_untimedSys h)
  obtain ⟨more, x', h1, h2, h3⟩ := TimedSys.can_end _ (Nat.lt_succ_self _) r hrs
  exact ⟨more, x', TimedSys.run_trans h h1, TimedSys.prompt_trans h hp h2, h3⟩

/-- Two status queries meet the hypothesis on the number of requests. -/
example : Pairs AtMost [1, 1] [(Op.status ⟨0b11⟩).prog, (Op.status ⟨0b100⟩).prog] :=
  .cons (C107_bound (.status ⟨0b11⟩)) (.cons (C107_bound (.status ⟨0b100⟩)) .nil)

end Xcvr
