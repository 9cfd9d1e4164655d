import Verif.Lemmas.Board
import Verif.Props.Scope

/-!
# A made-up board

Any program can be run against it, with any modules failing any request. This shows that the hypotheses about boards can
be met.
-/

namespace Xcvr

open Spec Prog Controller

/-- The effect of a request. -/
def effectFn (q : HostRequest) (d : Bytes) (s : PortState) : PortState :=
  match q with
  | .assertReset _ => { s with reset := true }
  | .deassertReset _ => { s with reset := false }
  | .enablePower _ => { s with enabled := true }
  | .disablePower _ => { s with enabled := false }
  | .assertLpMode _ => { s with lowPin := true }
  | .deassertLpMode _ => { s with lowPin := false }
  | .setLedState _ l => { s with led := l }
  | .write _ w => s.store w d
  | _ => s

theorem effect_fn (q : HostRequest) (d : Bytes) (s : PortState) : Effect q d s (effectFn q d s) := by
  cases q <;> first | rfl | exact ⟨rfl, rfl, rfl, rfl⟩

theorem effect_query {q : HostRequest} (hq : IsQuery q) (d : Bytes) (s : PortState) : effectFn q d s = s := by
  cases q <;> first | rfl | exact hq.elim

/-- What an exchange does to a port: nothing unless it is acknowledged. -/
def stepFn (x : Exchange) (p : Nat) (s : PortState) : PortState :=
  match requestOf x, okIn x p with
  | some q, some _ => effectFn q (x.1.data.getD []) s
  | _, _ => s

/-- The board after some exchanges. -/
def after (b : BoardState) (h : List Exchange) (p : Nat) : PortState := h.foldl (fun s x => stepFn x p s) (b p)

/-- The status byte of a port. -/
def statusByte (s : PortState) : U8 :=
  (if s.enabled then 0x22 else 0) ||| (if s.reset then 4 else 0) ||| (if s.lowPin then 8 else 0)

/-- The code of an LED state. -/
def ledCode : LedState → Fin 3
  | .off => 0
  | .on => 1
  | .blink => 2

/-- The board behind an SP. -/
def boardBench (b : BoardState) (failing : List Exchange → HostRequest → ModuleId := fun _ _ => ⟨0⟩) : Bench where
  failing := failing
  memory h i rd k := (after b h i.toNat).memory rd.page (rd.offset.toNat + k)
  status h i := statusByte (after b h i.toNat)
  led h i := ledCode (after b h i.toNat).led

theorem status_shows (s : PortState) : ∀ v, [statusByte s] = [v] → bit v 1 = s.enabled ∧ bit v 5 = s.enabled ∧
    bit v 2 = s.reset ∧ bit v 3 = s.lowPin := by
  intro v hv
  cases hv
  unfold statusByte
  cases s.enabled <;> cases s.reset <;> cases s.lowPin <;> decide

theorem extended_shows (s : PortState) : (word [statusByte s, 0, 0, 0]).getLsbD 1 = s.enabled ∧
    (word [statusByte s, 0, 0, 0]).getLsbD 5 = s.enabled ∧ (word [statusByte s, 0, 0, 0]).getLsbD 2 = s.reset ∧
    (word [statusByte s, 0, 0, 0]).getLsbD 3 = s.lowPin := by
  unfold statusByte
  cases s.enabled <;> cases s.reset <;> cases s.lowPin <;> decide

theorem led_shows (l : LedState) : ledOfCode [BitVec.ofNat 8 (ledCode l).val] = some l := by
  cases l <;> rfl

theorem okIn_respond {q : HostRequest} {D : Option Bytes} {R : SpResponse} {f : U8 → Bytes} {s bad : ModuleId} {p : Nat}
    {v : Bytes} (hf : ∀ i, (f i).length = recordSize R) (hR : responseModules R = some (s, bad))
    (h : okIn (Call.host q D, Bench.respond R (some (Bench.body f s bad))) p = some v) :
    Mem s p ∧ v = f (BitVec.ofNat 8 p) := by
  replace h : record R (Bench.body f s bad) p = some v := h
  unfold record at h
  rw [hR] at h
  dsimp only at h
  split at h
  · rename_i hp
    rw [Bench.body_record hf hp, Option.some.injEq] at h
    exact ⟨hp, h.symm⟩
  · cases h

/-- What the board's SP says of a port that succeeds. -/
theorem board_shows {b : BoardState} {F : List Exchange → HostRequest → ModuleId} {h : List Exchange} {q : HostRequest}
    {D : Option Bytes} {p : Nat} {v : Bytes} (hv : okIn (Call.host q D, (boardBench b F).answer h q) p = some v) :
    Names q p ∧ Shows q v (after b h p) := by
  have lt : ∀ {s : ModuleId}, Mem s p → (BitVec.ofNat 8 p).toNat = p := fun hp => ofNat_toNat_lt (mem_lt hp)
  cases q with
  | read m rd =>
    obtain ⟨h1, h2⟩ := okIn_respond (fun i => by simp [recordSize]) rfl hv
    refine ⟨⟨m, rfl, (mem_remove.1 h1).1⟩, ?_⟩
    rw [h2]
    show _ = answer _ _
    simp [boardBench, lt h1, answer]
  | status m =>
    obtain ⟨h1, h2⟩ := okIn_respond (fun i => rfl) rfl hv
    refine ⟨⟨m, rfl, (mem_remove.1 h1).1⟩, ?_⟩
    rw [h2]
    simp only [boardBench, lt h1]
    exact status_shows _
  | ledState m =>
    obtain ⟨h1, h2⟩ := okIn_respond (fun i => rfl) rfl hv
    refine ⟨⟨m, rfl, (mem_remove.1 h1).1⟩, ?_⟩
    rw [h2]
    simp only [boardBench, lt h1]
    exact led_shows _
  | extendedStatus m =>
    obtain ⟨h1, h2⟩ := okIn_respond (fun i => rfl) rfl hv
    refine ⟨⟨m, rfl, (mem_remove.1 h1).1⟩, ?_⟩
    rw [h2]
    simp only [boardBench, lt h1]
    exact extended_shows _
  | macAddrs => cases hv
  | _ m =>
    obtain ⟨h1, -⟩ := okIn_respond (fun i => rfl) rfl hv
    exact ⟨⟨m, rfl, (mem_remove.1 h1).1⟩, trivial⟩

theorem board_steps (b : BoardState) (F : List Exchange → HostRequest → ModuleId) (h : List Exchange) (q : HostRequest)
    (D : Option Bytes) (p : Nat) : StepsAt (Call.host q D, (boardBench b F).answer h q) p (after b h p)
      (after b (h ++ [(Call.host q D, (boardBench b F).answer h q)]) p) := by
  have ha : after b (h ++ [(Call.host q D, (boardBench b F).answer h q)]) p =
      stepFn (Call.host q D, (boardBench b F).answer h q) p (after b h p) := by
    unfold after
    rw [List.foldl_append]
    rfl
  rw [ha]
  unfold stepFn
  rw [requestOf_host rfl]
  refine ⟨fun q' v h1 h2 => ?_, fun q' h1 h2 => ?_, fun q' v h1 h2 => ?_⟩
  · cases h1
    exact (board_shows h2).2
  · cases h1
    cases hok : okIn (Call.host q D, (boardBench b F).answer h q) p with
    | none => rfl
    | some v =>
      rcases h2 with h2 | h2
      · exact effect_query h2 ..
      · exact absurd (board_shows hok).1 h2
  · cases h1
    rw [h2]
    exact effect_fn ..

/-- Every program has a run against the board. -/
theorem board_evolves {α : Type} (b : BoardState) (F : List Exchange → HostRequest → ModuleId) {P : Prog α}
    (hp : AllCalls Bench.IsHost P) (h : List Exchange) :
    Evolves (after b h) (P.exec (boardBench b F).sp h).1 (after b (h ++ (P.exec (boardBench b F).sp h).1)) := by
  induction P generalizing h with
  | ret a => simp [Prog.exec, Evolves]
  | fail e => simp [Prog.exec, Evolves]
  | panic => simp [Prog.exec, Evolves]
  | rpc c k ih =>
    obtain ⟨⟨⟨q, D, rfl⟩, -, -⟩, hk⟩ := hp
    simp only [Prog.exec]
    refine ⟨after b (h ++ [(Call.host q D, (boardBench b F).answer h q)]), board_steps b F h q D, ?_⟩
    have := ih ((boardBench b F).answer h q) (hk _) (h ++ [(Call.host q D, (boardBench b F).answer h q)])
    rw [List.append_assoc] at this
    exact this

end Xcvr
