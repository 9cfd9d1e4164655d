import Verif.Lemmas.Identifier
import Verif.Model.Power

/-!
# A made-up SP

Examples show that the hypotheses of the theorems can be met by running programs against this SP. Any modules may fail
any request; memory, status and LEDs are arbitrary.
-/

namespace Xcvr

open Spec Prog Controller

/-- Choices of the made-up SP. The first argument of each is what happened before. -/
structure Bench where
  /-- Modules that fail a request. -/
  failing : List Exchange → HostRequest → ModuleId := fun _ _ => ModuleId.empty
  /-- Byte `k` of a read. -/
  memory : List Exchange → U8 → MemoryRead → Nat → U8 := fun _ _ _ _ => 0
  status : List Exchange → U8 → U8 := fun _ _ => 0
  led : List Exchange → U8 → Fin 3 := fun _ _ => 0

namespace Bench

/-- A response with data. -/
def respond (r : SpResponse) (d : Option Bytes) : Reply :=
  .answer (.ok ⟨Header.new 0 .spResponse, Message.new (.spResponse r), d⟩)

/-- Records, then error bytes. -/
def body (f : U8 → Bytes) (s bad : ModuleId) : Bytes := s.toIndices.flatMap f ++ List.replicate bad.count 3

/-- The answer to a request. -/
def answer (b : Bench) (h : List Exchange) (q : HostRequest) : Reply :=
  let s (m : ModuleId) := m.remove (b.failing h q)
  let f (m : ModuleId) := m.and (b.failing h q)
  match q with
  | .read m rd => respond (.read (s m) (f m) rd)
      (some (body (fun i => (List.range rd.len.toNat).map (b.memory h i rd)) (s m) (f m)))
  | .write m w => respond (.write (s m) (f m) w) (some (body (fun _ => []) (s m) (f m)))
  | .status m => respond (.status (s m) (f m)) (some (body (fun i => [b.status h i]) (s m) (f m)))
  | .extendedStatus m =>
    respond (.extendedStatus (s m) (f m)) (some (body (fun i => [b.status h i, 0, 0, 0]) (s m) (f m)))
  | .ledState m =>
    respond (.ledState (s m) (f m)) (some (body (fun i => [BitVec.ofNat 8 (b.led h i).val]) (s m) (f m)))
  | .macAddrs => respond (.macAddrs (.ok ⟨⟨0xa8, 0x40, 0x25, 0, 0, 0⟩, 32, 1⟩)) none
  | .assertReset m | .deassertReset m | .assertLpMode m | .deassertLpMode m | .enablePower m | .disablePower m
  | .clearPowerFault m | .setLedState m _ | .clearDisableLatch m | .managementInterface m _ =>
    respond (.ack (s m) (f m)) (some (body (fun _ => []) (s m) (f m)))

/-- The SP. -/
def sp (b : Bench) (h : List Exchange) (c : Call) : Reply :=
  match c.message.body with
  | .hostRequest q => b.answer h q
  | _ => .gone

theorem length_flatMap {f : U8 → Bytes} {n : Nat} (hf : ∀ i, (f i).length = n) (l : List U8) :
    (l.flatMap f).length = l.length * n := by
  induction l with
  | nil => simp
  | cons a l ih => rw [List.flatMap_cons, List.length_append, ih, hf, List.length_cons, Nat.succ_mul, Nat.add_comm]

theorem length_body {f : U8 → Bytes} {n : Nat} (hf : ∀ i, (f i).length = n) (s bad : ModuleId) :
    (body f s bad).length = card s * n + card bad := by
  unfold body
  rw [List.length_append, length_flatMap hf, List.length_replicate, length_toIndices, count_eq_card, count_eq_card]

theorem flatMap_record {f : U8 → Bytes} {n : Nat} (hf : ∀ i, (f i).length = n) (l : List U8) (r : Bytes) (i : Nat)
    (hi : i < l.length) : ((l.flatMap f ++ r).drop (i * n)).take n = f l[i] := by
  induction l generalizing i with
  | nil => simp at hi
  | cons a l ih =>
    cases i with
    | zero =>
      rw [Nat.zero_mul, List.drop_zero, List.flatMap_cons, List.append_assoc, List.take_append_of_le_length
        (by rw [hf]; exact Nat.le_refl n), List.take_of_length_le (by rw [hf]; exact Nat.le_refl n)]
      rfl
    | succ i =>
      have h1 : (i + 1) * n = n + i * n := by rw [Nat.succ_mul, Nat.add_comm]
      rw [h1, ← List.drop_drop, List.flatMap_cons, List.append_assoc, List.drop_append_of_le_length
        (by rw [hf]; exact Nat.le_refl n), List.drop_of_length_le (show (f a).length ≤ n by rw [hf]; exact Nat.le_refl n), List.nil_append]
      exact ih i (by simpa using hi)

theorem body_record {f : U8 → Bytes} {n : Nat} (hf : ∀ i, (f i).length = n) {s bad : ModuleId} {p : Nat}
    (hp : Mem s p) : ((body f s bad).drop (rank s p * n)).take n = f (BitVec.ofNat 8 p) := by
  have hp' : Mem s (BitVec.ofNat 8 p).toNat := by rw [ofNat_toNat_lt (mem_lt hp)]; exact hp
  have h1 := toIndices_getElem_rank hp'
  rw [ofNat_toNat_lt (mem_lt hp)] at h1
  obtain ⟨h2, h3⟩ := List.getElem?_eq_some_iff.1 h1
  unfold body
  rw [flatMap_record hf _ _ _ h2, h3]

theorem partition_of (m bad : ModuleId) : Partition m (m.remove bad) (m.and bad) := by
  intro p
  rw [mem_remove, mem_and]
  by_cases h : Mem bad p <;> simp [h]

theorem conforms_of {q : HostRequest} {D : Option Bytes} {R : SpResponse} {d : Option Bytes} (h : Answers q R d) :
    Conforms (Call.host q D, respond R d) := ⟨q, R, d, rfl, rfl, h⟩

/-- The made-up SP gives proper answers. -/
theorem answer_conforms (b : Bench) (h : List Exchange) (q : HostRequest) (D : Option Bytes) :
    Conforms (Call.host q D, b.answer h q) := by
  cases q with
  | read m rd =>
    refine conforms_of ⟨rfl, ?_, ?_, fun _ _ => trivial⟩
    · intro m' s f h1 h2
      cases h1; cases h2
      exact partition_of _ _
    · simp [expectedTrailing, length_body (n := rd.len.toNat) (f := fun i => (List.range rd.len.toNat).map (b.memory h i rd))]
  | write m w =>
    refine conforms_of ⟨rfl, ?_, ?_, fun _ _ => trivial⟩
    · intro m' s f h1 h2
      cases h1; cases h2
      exact partition_of _ _
    · simp [expectedTrailing, length_body (n := 0)]
  | status m =>
    refine conforms_of ⟨trivial, ?_, ?_, fun _ _ => trivial⟩
    · intro m' s f h1 h2
      cases h1; cases h2
      exact partition_of _ _
    · simp [expectedTrailing, length_body (n := 1)]
  | extendedStatus m =>
    refine conforms_of ⟨trivial, ?_, ?_, ?_⟩
    · intro m' s f h1 h2
      cases h1; cases h2
      exact partition_of _ _
    · simp [expectedTrailing, length_body (n := 4)]
    · intro d hd p bb hr
      cases hd
      simp only [record, responseModules, recordSize] at hr
      split at hr
      · rename_i hp
        rw [body_record (n := 4) (fun _ => rfl) hp] at hr
        simp only [Option.some.injEq] at hr
        subst hr
        have := (b.status h (BitVec.ofNat 8 p)).isLt
        simp [leVal]; omega
      · simp at hr
  | ledState m =>
    refine conforms_of ⟨trivial, ?_, ?_, ?_⟩
    · intro m' s f h1 h2
      cases h1; cases h2
      exact partition_of _ _
    · simp [expectedTrailing, length_body (n := 1)]
    · intro d hd p bb hr
      cases hd
      simp only [record, responseModules, recordSize] at hr
      split at hr
      · rename_i hp
        rw [body_record (n := 1) (fun _ => rfl) hp] at hr
        simp only [Option.some.injEq] at hr
        subst hr
        have : ∀ x : Fin 3, (ledOfCode [BitVec.ofNat 8 x.val]).isSome := by decide
        exact this _
      · simp at hr
  | macAddrs =>
    refine conforms_of ⟨trivial, ?_, rfl, fun _ hd => by cases hd⟩
    intro m' s f h1 h2
    cases h1
  | _ m =>
    refine conforms_of ⟨trivial, ?_, ?_, fun _ _ => trivial⟩
    · intro m' s f h1 h2
      cases h1; cases h2
      exact partition_of _ _
    · simp [expectedTrailing, length_body (n := 0)]

/-- Every call is a host request. -/
def IsHost (c : Call) : Prop := ∃ q D, c = Call.host q D

theorem exec_conforming {α : Type} (b : Bench) {p : Prog α} (hp : AllCalls IsHost p) (h : List Exchange) :
    Conforming (p.exec b.sp h).1 := by
  induction p generalizing h with
  | ret a => intro x hx; simp [Prog.exec] at hx
  | fail e => intro x hx; simp [Prog.exec] at hx
  | panic => intro x hx; simp [Prog.exec] at hx
  | rpc c k ih =>
    obtain ⟨⟨⟨q, D, rfl⟩, -, -⟩, hk⟩ := hp
    simp only [Prog.exec]
    rw [conforming_cons]
    exact ⟨answer_conforms b h q D, ih _ (hk _) _⟩

/-- The run of a program against the made-up SP. -/
theorem exec_runs {α : Type} (b : Bench) (p : Prog α) : Runs p (p.exec b.sp []).1 (p.exec b.sp []).2 := runs_exec _ _ _

end Bench

end Xcvr
