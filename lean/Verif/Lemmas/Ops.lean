import Verif.Lemmas.Bench
import Verif.Model.Ops

/-! # The calls of each method -/

namespace Xcvr

open Spec Prog Controller

/-- What any method ever sends: a write with as many bytes as it writes to each module, or another request without
data. -/
def CallShape (c : Call) : Prop :=
  (∃ m w data, c = Call.host (.write m w) (some data) ∧ data.length = w.len.toNat) ∨
    ∃ q, (∀ m w, q ≠ .write m w) ∧ c = Call.host q

theorem callShape_host {q : HostRequest} (h : ∀ m w, q ≠ .write m w) : CallShape (Call.host q) := .inr ⟨q, h, rfl⟩

theorem callShape_read (g : ModuleId) (rd : MemoryRead) : CallShape (Call.host (.read g rd)) :=
  callShape_host fun _ _ h => by cases h

theorem allCalls_power {C : Call → Prop} (m : ModuleId) (h : ∀ g rd, C (.host (.read g rd)))
    (hs : C (.host (.status m))) : AllCalls C (power m) := by
  unfold power
  refine allCalls_bind (allCalls_status hs) fun st => ?_
  dsimp only
  refine allCalls_bind ?_ fun _ => trivial
  unfold readableModes
  split
  · trivial
  · exact allCalls_bind (allCalls_parse _ _ h) fun _ => trivial

theorem allCalls_softKinds (low : Bool) (s : SoftState) (ks : List (Identifier × ModuleId)) {C : Call → Prop}
    (h : ∀ m w d, d.length = w.len.toNat → C (.host (.write m w) (some d))) : AllCalls C (softKinds low s ks) := by
  have hw : ∀ ident (s : SoftState) p, AllCalls C (softWrite ident low s p) := fun ident s p =>
    allCalls_bind (allCalls_ofExec _) fun _ => allCalls_bind (allCalls_writeImpl fun hl => h _ _ _ hl.symm) fun _ => trivial
  induction ks generalizing s with
  | nil => trivial
  | cons k ks ih => exact allCalls_bind (allCalls_bind (hw _ _ _) fun _ => hw _ _ _) fun _ => ih _

theorem allCalls_setSoftwarePowerState (r : Res PowerMode) (low : Bool) {C : Call → Prop}
    (hr : ∀ g rd, C (.host (.read g rd)))
    (h : ∀ m w d, d.length = w.len.toNat → C (.host (.write m w) (some d))) :
    AllCalls C (setSoftwarePowerState r low) :=
  allCalls_bind (allCalls_identifier fun g _ => hr g _) fun _ => allCalls_bind (allCalls_ofExec _) fun _ =>
    allCalls_bind (allCalls_softKinds low _ _ h) fun _ => trivial

theorem allCalls_setPowerOff (m : ModuleId) {C : Call → Prop} (h : ∀ q, (∀ m w, q ≠ .write m w) → C (.host q)) :
    AllCalls C (setPowerOff m) :=
  allCalls_bind (allCalls_noPayloadRequest (h _ fun _ _ h => by cases h)) fun _ =>
    allCalls_bind (allCalls_noPayloadRequest (h _ fun _ _ h => by cases h)) fun _ =>
      allCalls_bind (allCalls_noPayloadRequest (h _ fun _ _ h => by cases h)) fun _ => trivial

theorem allCalls_stepIfAny {step : ModuleId → Prog (Res Unit)} {C : Call → Prop} (h : ∀ m, AllCalls C (step m))
    (a b : ModuleId) (f : FailedModules TransceiverError) : AllCalls C (stepIfAny step a b f) := by
  unfold stepIfAny
  split
  · exact allCalls_bind (h _) fun _ => trivial
  · trivial

theorem allCalls_setPowerOn (m : ModuleId) (low : Bool) {C : Call → Prop} (h : ∀ q, (∀ m w, q ≠ .write m w) → C (.host q))
    (hw : ∀ m w d, d.length = w.len.toNat → C (.host (.write m w) (some d))) : AllCalls C (setPowerOn m low) := by
  have hr : ∀ g rd, C (.host (.read g rd)) := fun g rd => h _ fun _ _ h => by cases h
  unfold setPowerOn
  refine allCalls_bind (allCalls_power m hr (h _ fun _ _ h => by cases h)) fun pw => ?_
  split
  · trivial
  · refine allCalls_bind (allCalls_status (h _ fun _ _ h => by cases h)) fun st => ?_
    dsimp only
    refine allCalls_bind (allCalls_stepIfAny (fun m => allCalls_noPayloadRequest (h _ fun _ _ h => by cases h)) _ _ _)
      fun _ => ?_
    refine allCalls_bind (allCalls_stepIfAny (fun m => allCalls_noPayloadRequest (h _ fun _ _ h => by cases h)) _ _ _)
      fun _ => ?_
    cases low with
    | true =>
      refine allCalls_bind (allCalls_noPayloadRequest (h _ fun _ _ h => by cases h)) fun _ => ?_
      refine allCalls_bind (allCalls_stepIfAny (fun m => allCalls_noPayloadRequest (h _ fun _ _ h => by cases h)) _ _ _)
        fun _ => ?_
      exact allCalls_setSoftwarePowerState _ _ hr hw
    | false =>
      refine allCalls_bind (allCalls_noPayloadRequest (h _ fun _ _ h => by cases h)) fun _ => ?_
      refine allCalls_bind (allCalls_stepIfAny (fun m => allCalls_noPayloadRequest (h _ fun _ _ h => by cases h)) _ _ _)
        fun _ => ?_
      exact allCalls_setSoftwarePowerState _ _ hr hw

theorem allCalls_op (op : Op) : AllCalls CallShape op.prog := by
  have hr := callShape_read
  have hh : ∀ q : HostRequest, (∀ m w, q ≠ .write m w) → CallShape (.host q) := fun q h => callShape_host h
  have hw : ∀ m (w : MemoryWrite) (d : Bytes), d.length = w.len.toNat → CallShape (.host (.write m w) (some d)) :=
    fun m w d hd => .inl ⟨m, w, d, rfl, hd⟩
  have hn : ∀ q : HostRequest, (∀ m w, q ≠ .write m w) → AllCalls CallShape (do let _ ← noPayloadRequest q) :=
    fun q h => allCalls_bind (allCalls_noPayloadRequest (hh q h)) fun _ => trivial
  cases op with
  | identifier m => exact allCalls_bind (allCalls_identifier fun g _ => hr g _) fun _ => trivial
  | vendorInfo m => exact allCalls_bind (allCalls_parse _ m hr) fun _ => trivial
  | memoryModel m => exact allCalls_bind (allCalls_parse _ m hr) fun _ => trivial
  | monitors m => exact allCalls_bind (allCalls_parse _ m hr) fun _ => trivial
  | datapath m => exact allCalls_bind (allCalls_parse _ m hr) fun _ => trivial
  | reset m =>
    exact allCalls_bind (allCalls_bind (allCalls_noPayloadRequest (hh _ fun _ _ h => by cases h)) fun _ =>
      allCalls_bind (allCalls_noPayloadRequest (hh _ fun _ _ h => by cases h)) fun _ => trivial) fun _ => trivial
  | power m => exact allCalls_bind (allCalls_power m hr (hh _ fun _ _ h => by cases h)) fun _ => trivial
  | setPower m s =>
    refine allCalls_bind ?_ fun _ => trivial
    cases s with
    | off => exact allCalls_setPowerOff m hh
    | low => exact allCalls_setPowerOn m true hh hw
    | high => exact allCalls_setPowerOn m false hh hw
  | status m => exact allCalls_bind (allCalls_status (hh _ fun _ _ h => by cases h)) fun _ => trivial
  | extendedStatus m => exact allCalls_bind (allCalls_extendedStatus (hh _ fun _ _ h => by cases h)) fun _ => trivial
  | leds m => exact allCalls_bind (allCalls_leds (hh _ fun _ _ h => by cases h)) fun _ => trivial
  | macAddrs => exact allCalls_bind (allCalls_macAddrs (hh _ fun _ _ h => by cases h)) fun _ => trivial
  | write m w data =>
    exact allCalls_bind (allCalls_bind (allCalls_identifier fun g _ => hr g _) fun _ =>
      allCalls_bind (allCalls_ofExec _) fun _ =>
        allCalls_bind (allCalls_writeImpl fun hl => hw _ _ _ hl.symm) fun _ => trivial) fun _ => trivial
  | read m rd =>
    refine allCalls_bind ?_ fun _ => trivial
    unfold Controller.read
    split
    · exact allCalls_ofExec _
    · exact allCalls_bind (allCalls_identifier fun g _ => hr g _) fun _ => allCalls_bind (allCalls_ofExec _) fun _ =>
        allCalls_bind (allCalls_readImpl fun g _ _ => hr g _) fun _ => trivial
  | _ => exact hn _ fun _ _ h => by cases h

theorem isHost_of_shape {c : Call} (h : CallShape c) : Bench.IsHost c := by
  rcases h with ⟨m, w, d, rfl, -⟩ | ⟨q, -, rfl⟩
  · exact ⟨_, _, rfl⟩
  · exact ⟨_, _, rfl⟩

end Xcvr
