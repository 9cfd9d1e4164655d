import Verif.Model.Timed
import Verif.Spec.IoLoop

/-! # Words for C127-C129 -/

namespace Xcvr.Spec

open Xcvr IoState

/-- The submissions of a history in time. -/
def submittedIn (evs : List TimedEvent) : List Chan :=
  evs.filterMap fun | .io (.submit c _) => some c | _ => none

/-- When the requests of a caller were transmitted. -/
def timesSent (c : Chan) (acts : List (Nat × Action)) : List Nat :=
  acts.filterMap fun
    | (t, .sendRequest c' _) => if c' = c then some t else none
    | _ => none

/-- Who has been answered. -/
def answeredIn (acts : List (Nat × Action)) : List Chan := answered (acts.map (·.2))

/-- Time does not pass while the loop has something to do: a tick that is due is taken within `late`, and while no request is
in progress one that waits is taken at once. -/
def OnTime (late : Nat) (s : Timed) (e : TimedEvent) : Prop :=
  match e with
  | .elapse d => s.io.status = .running →
    (s.io.outstanding.isSome → s.timer.now + d ≤ s.timer.due + late) ∧ (s.io.outstanding = none → s.io.queue ≠ [] → d = 0)
  | .io _ => True

/-- A history in which the loop is on time. -/
def Prompt (late : Nat) (s : Timed) : List TimedEvent → Prop
  | [] => True
  | e :: es => OnTime late s e ∧ ∀ s' acts, s.step e = some (s', acts) → Prompt late s' es

instance (late : Nat) (s : Timed) (e : TimedEvent) : Decidable (OnTime late s e) := by
  unfold OnTime; split <;> infer_instance

instance decidePrompt (late : Nat) : (es : List TimedEvent) → (s : Timed) → Decidable (Prompt late s es)
  | [], _ => .isTrue trivial
  | e :: es, s =>
    if h : OnTime late s e then
      match hs : s.step e with
      | none => .isTrue ⟨h, fun s' acts k => by rw [hs] at k; cases k⟩
      | some (s₁, a₁) =>
        match decidePrompt late es s₁ with
        | .isTrue k => .isTrue ⟨h, fun s' acts j => by rw [hs] at j; cases j; exact k⟩
        | .isFalse k => .isFalse fun j => k (j.2 s₁ a₁ hs)
    else .isFalse fun k => h k.1

end Xcvr.Spec
