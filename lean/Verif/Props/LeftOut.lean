import Verif.Lemmas.LeftOut
import Verif.Lemmas.Bench

/-!
# C148: a module that the answers leave out

The SP names in each answer the modules that it has read and those that failed. Nothing makes it name every module that it
was asked about. What a query does if a module is in neither list.
-/

namespace Xcvr

open Spec Prog Controller

/-- C148: the query for power control words, for vendor information, for monitors and for datapaths panics if an answer
leaves a module out, whatever the other answers are. -/
theorem C148_left_out (m : ModuleId) (t : List Exchange) (k : Identifier × ModuleId) (results : List (Res Bytes)) (i : U8)
    (hi : Mem k.2 i.toNat) (h : LeftOut results i) :
    (Answered PowerControl.decoder m t k results → Runs (parseModulesByIdentifier PowerControl.decoder m) t .panic) ∧
    (Answered VendorInfo.decoder m t k results → Runs (parseModulesByIdentifier VendorInfo.decoder m) t .panic) ∧
    (Answered Monitors.decoder m t k results → Runs (parseModulesByIdentifier Monitors.decoder m) t .panic) ∧
    (Answered Datapath.decoder m t k results → Runs (parseModulesByIdentifier Datapath.decoder m) t .panic) :=
  ⟨fun ha => query_panics ha hi h fun _ _ hr ht => parseFrom_panics asksAll_power hr (readAll_length ht) h,
    fun ha => query_panics ha hi h fun _ _ hr ht => parseFrom_panics asksAll_vendor hr (readAll_length ht) h,
    fun ha => query_panics ha hi h fun _ _ hr ht => parseFrom_panics asksAll_monitors hr (readAll_length ht) h,
    fun ha => query_panics ha hi h fun _ _ hr ht => parseFrom_panics asksAll_datapath hr (readAll_length ht) h⟩

/-- C148: the query for memory models panics if an answer leaves a module out, unless the first answer has the module and
says that its memory is flat. -/
theorem C148_memory_model (m : ModuleId) (t : List Exchange) (k : Identifier × ModuleId) (results : List (Res Bytes))
    (i : U8) (hi : Mem k.2 i.toNat) (h : LeftOut results i)
    (hf : ¬ SaysFlat k.1 results i) (ha : Answered MemoryModel.decoder m t k results) :
    Runs (parseModulesByIdentifier MemoryModel.decoder m) t .panic :=
  query_panics ha hi h fun _ _ hr ht =>
    (memoryModel_leftOut hr (readAll_length ht) (readAll_nonempty (memoryModel_two hr).2.1 ht i) h).2 hf

/-- C148: if it says so, the module is decoded as flat: whenever the modules of its kind are decoded, that is the value of
the module, though the second answer leaves it out. -/
theorem C148_flat (k : Identifier × ModuleId) (reads : List MemoryRead) (t : List Exchange) (results : List (Res Bytes))
    (s s' : ParseState MemoryModel) (i : U8) (hi : Mem k.2 i.toNat) (h : LeftOut results i)
    (hf : SaysFlat k.1 results i) (hs : BMap.Sorted u8Lt s.byIndex)
    (hr : MemoryModel.decoder.reads k.1 = .ok reads) (ht : Runs (readAll k.2 reads) t (.ok results))
    (hd : Runs (parseKind MemoryModel.decoder s k) t (.ok s')) : BMap.get? s'.byIndex i = some .flat := by
  unfold parseKind at hd
  rw [hr] at hd
  obtain ⟨t₀, t₁, rds, rfl, h1, hd⟩ := runs_bind_okay hd
  obtain ⟨rfl, h1⟩ := runs_ret.1 h1
  cases h1
  obtain ⟨t₂, t₃, rs, rfl, h2, hd⟩ := runs_bind_okay hd
  obtain ⟨rfl, h3⟩ := runs_ofExec.1 hd
  rw [List.nil_append, List.append_nil] at ht
  cases (runs_deterministic ht h2 rfl).2
  exact fold_keeps h ((memoryModel_leftOut hr (readAll_length ht) (readAll_nonempty (memoryModel_two hr).2.1 ht i) h).1 hf)
    hs h3.symm (.inl (mem_toIndices.2 hi))

/-- An SP with a QSFP28 module 0 that answers the third request without naming it. -/
def forgetful (status : U8) (h : List Exchange) (c : Call) : Reply :=
  match c with
  | .host (.read _ rd) _ =>
    match h with
    | [] => Bench.respond (.read ⟨1⟩ ⟨0⟩ rd) (some [0x11])
    | [_] => Bench.respond (.read ⟨1⟩ ⟨0⟩ rd) (some [status])
    | _ => Bench.respond (.read ⟨0⟩ ⟨0⟩ rd) (some [])
  | _ => .gone

/-- With a flat memory the query for memory models succeeds; with a paged one it panics. -/
example :
    ((parseModulesByIdentifier MemoryModel.decoder ⟨1⟩).exec (forgetful 4) []).2 =
      .ok ⟨⟨1⟩, [.flat], ⟨⟨0⟩, []⟩⟩ ∧
    ((parseModulesByIdentifier MemoryModel.decoder ⟨1⟩).exec (forgetful 0) []).2 = .panic := by
  constructor <;> rfl

/-- The query for monitors reaches its reads, and leaves module 0 out. -/
example : ((parseModulesByIdentifier Monitors.decoder ⟨1⟩).exec (forgetful 0) []).2 = .panic ∧
    ((parseModulesByIdentifier PowerControl.decoder ⟨1⟩).exec (fun h c => forgetful 0 (h ++ h) c) []).2 = .panic := by
  constructor <;> rfl

end Xcvr
