import Verif.Model.TimedSys
import Verif.Spec.Timed
import Verif.Spec.System

/-! # Words for C129-C130 -/

namespace Xcvr.Spec

open Xcvr IoState

variable {α : Type}

/-- A task whose operation has ended, one way or another. -/
def Ended (tk : Task α) : Prop := ∀ c k, tk.prog ≠ .rpc c k

/-- A task has nothing to do now: its operation has ended, it was dropped, it waits for an answer that is not there yet, or it
waits for room in the channel of a loop that runs. -/
def Resting (x : TimedSys α) (i : Nat) (tk : Task α) : Prop :=
  match tk.phase with
  | .ready => Ended tk
  | .numbered _ => x.sys.io.status = .running ∧ i ∈ x.line ∧ numOutstandingRequests ≤ x.sys.io.queue.length
  | .waiting c _ => x.sys.io.status = .running ∧ x.sys.mail.lookup c = none
  | .cancelled => True

/-- Time does not pass while somebody has something to do: not at all while a task has or while the loop could take a request, and
for `late` at most while a tick of the timer is due. -/
def SysOnTime (late : Nat) (x : TimedSys α) (e : TimedSysEvent) : Prop :=
  match e with
  | .elapse d => d = 0 ∨ ((∀ i tk, x.sys.tasks[i]? = some tk → Resting x i tk) ∧
      OnTime late ⟨x.sys.io, x.timer⟩ (.elapse d))
  | _ => True

/-- A history in which tasks and loop are on time. -/
def SysPrompt (late : Nat) (x : TimedSys α) : List TimedSysEvent → Prop
  | [] => True
  | e :: es => SysOnTime late x e ∧ ∀ x', x.step e = some x' → SysPrompt late x' es

instance (tk : Task α) : Decidable (Ended tk) :=
  match h : tk.prog with
  | .rpc c k => .isFalse fun e => e c k h
  | .ret _ => .isTrue fun c k e => by rw [h] at e; cases e
  | .fail _ => .isTrue fun c k e => by rw [h] at e; cases e
  | .panic => .isTrue fun c k e => by rw [h] at e; cases e

instance (x : TimedSys α) (i : Nat) (tk : Task α) : Decidable (Resting x i tk) := by
  unfold Resting; split <;> infer_instance

instance (late : Nat) (x : TimedSys α) (e : TimedSysEvent) : Decidable (SysOnTime late x e) :=
  match e with
  | .elapse d =>
    have : Decidable (∀ i tk, x.sys.tasks[i]? = some tk → Resting x i tk) :=
      decidable_of_iff (∀ i : Fin x.sys.tasks.length, Resting x i x.sys.tasks[i])
        ⟨fun h i tk hi => by
          obtain ⟨hlt, rfl⟩ := List.getElem?_eq_some_iff.mp hi
          exact h ⟨i, hlt⟩, fun h i => h i _ (List.getElem?_eq_getElem i.2)⟩
    inferInstanceAs (Decidable (d = 0 ∨ (_ ∧ OnTime late ⟨x.sys.io, x.timer⟩ (.elapse d))))
  | .lineUp _ => .isTrue trivial
  | .sys _ => .isTrue trivial

instance decideSysPrompt (late : Nat) : (es : List TimedSysEvent) → (x : TimedSys α) → Decidable (SysPrompt late x es)
  | [], _ => .isTrue trivial
  | e :: es, x =>
    if h : SysOnTime late x e then
      match hs : x.step e with
      | none => .isTrue ⟨h, fun x' k => by rw [hs] at k; cases k⟩
      | some x₁ =>
        match decideSysPrompt late es x₁ with
        | .isTrue k => .isTrue ⟨h, fun x' j => by rw [hs] at j; cases j; exact k⟩
        | .isFalse k => .isFalse fun j => k (j.2 x₁ hs)
    else .isFalse fun k => h k.1

end Xcvr.Spec
