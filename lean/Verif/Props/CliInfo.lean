import Verif.Lemmas.Grid
import Verif.Props.CliLines

/-! # C94: what the datapath command shows is what the module's memory says -/

namespace Xcvr

open Spec Prog Cli Controller

/-! ## SPs that answer with the modules' memories -/

namespace Bench

/-- Modules with these memories. -/
def ofMemory (mem : Nat → ModuleMemory) (bad : ModuleId) (status : U8 → U8 := fun _ => 0)
    (led : U8 → Fin 3 := fun _ => 0) : Bench where
  failing _ _ := bad
  status _ := status
  led _ := led
  memory _ i rd k := mem i.toNat rd.page (rd.offset.toNat + k)

theorem exec_answers {α : Type} (sp : List Exchange → Call → Reply) (p : Prog α) (h : List Exchange) :
    ∀ x ∈ (p.exec sp h).1, ∃ h', x.2 = sp h' x.1 := by
  induction p generalizing h with
  | ret a => intro x hx; simp [Prog.exec] at hx
  | fail e => intro x hx; simp [Prog.exec] at hx
  | panic => intro x hx; simp [Prog.exec] at hx
  | rpc c k ih =>
    simp only [Prog.exec]
    intro x hx
    rcases List.mem_cons.1 hx with rfl | hx
    · exact ⟨h, rfl⟩
    · exact ih _ _ x hx

theorem exec_faithful {α : Type} (mem : Nat → ModuleMemory) (bad : ModuleId) (prog : Prog α)
    (status : U8 → U8 := fun _ => 0) (led : U8 → Fin 3 := fun _ => 0) : Faithful mem (prog.exec (ofMemory mem bad status led).sp []).1 := by
  intro x hx g rd p b hq hb
  obtain ⟨h, hr⟩ := exec_answers _ prog [] x hx
  obtain ⟨c, r⟩ := x
  dsimp only at hr
  have hc : c.message.body = .hostRequest (.read g rd) := by
    unfold requestOf at hq
    dsimp only at hq
    split at hq
    · rename_i q h
      rw [h, Option.some.inj hq]
    · cases hq
  subst hr
  unfold okIn responseOf sp at hb
  rw [hc] at hb
  simp only [answer, respond, Message.new, record, responseModules, recordSize] at hb
  split at hb
  · rename_i hp
    rw [body_record (n := rd.len.toNat) (fun i => by simp) hp] at hb
    rw [← Option.some.inj hb]
    show List.map (fun k => mem (BitVec.ofNat 8 p).toNat _ _) _ = _
    rw [ofNat_toNat_lt (mem_lt hp)]
    rfl
  · cases hb

end Bench

/-! ## Ports shown -/

/-- Every module of `m` is either shown or a failure, not both; both are in order. -/
structure Spec.Shown (m : ModuleId) (ports : List U8) (fails : List (U8 × TransceiverError)) : Prop where
  sorted : ports.Pairwise (· < ·)
  failed : (fails.map Prod.fst).Pairwise (· < ·)
  once : ∀ i : U8, (Mem m i.toNat ↔ i ∈ ports ∨ ∃ e, (i, e) ∈ fails) ∧ ¬ (i ∈ ports ∧ ∃ e, (i, e) ∈ fails)

theorem iter_fst {P : Type} {r : Res P} (h : WF r) : r.iter.map Prod.fst = r.modules.toIndices := by
  unfold ModuleResult.iter
  rw [List.map_fst_zip]
  rw [aligned_iff_toIndices.1 h.1]
  exact Nat.le_refl _

theorem shown_of {P : Type} {m : ModuleId} {r : Res P} (hw : WF r) (hp : Partition m r.modules r.failures.modules) :
    Shown m (r.iter.map Prod.fst) (failureLines r.failures) := by
  obtain ⟨h1, -, h3⟩ := C70_lines r.failures hw.2.1
  rw [iter_fst hw]
  refine ⟨toIndices_sorted _, by rw [h1]; exact toIndices_sorted _, fun i => ?_⟩
  rw [mem_toIndices, ← h3 i]
  exact hp i.toNat

/-- A command that shows decoded information, against an SP that answers with the modules' memories. -/
theorem shown_memory {P : Type} {d : ModuleDecoder P} (hd : NonemptyReads d) {m : ModuleId} {text : Res P → Exec Unit Lines}
    {t : List Exchange} {out : Lines} {fails : List (U8 × TransceiverError)}
    (h : Runs (showing false (parseModulesByIdentifier d m) text) t (.ok (.done out fails))) (hc : Conforming t)
    {mem : Nat → ModuleMemory} (hf : Faithful mem t) :
    ∃ r, text r = .ok out ∧ Shown m (r.iter.map Prod.fst) fails ∧
      ∀ x ∈ r.iter, decodeFrom d (idOf (mem x.1.toNat)) (mem x.1.toNat) = .ok x.2 := by
  obtain ⟨r, ls, h1, h2, h3⟩ := showing_ok h
  cases h3
  obtain ⟨hw, hp⟩ := parse_ok hd h1 hc
  refine ⟨r, h2, shown_of hw hp, fun x hx => ?_⟩
  have hx' : okAt r x.1.toNat = some x.2 := ((C20_iter r).2.1 x.1 x.2).1 hx
  obtain ⟨-, h4⟩ := (C41_memory d hd m t _ h1 hc mem hf).1 r rfl
  obtain ⟨v, h5, h6⟩ := h4 x.1.toNat ((datum_isSome hw.1).1 (by rw [show datum r.modules r.data x.1.toNat = some x.2 from hx']; rfl))
  rw [hx'] at h5
  cases h5
  exact h6

theorem pairs_of_map {α β γ : Type} {R : β → γ → Prop} (f : α → β) (g : α → γ) {l : List α} (h : ∀ x ∈ l, R (f x) (g x)) :
    Pairs R (l.map f) (l.map g) := by
  induction l with
  | nil => exact .nil
  | cons a l ih => exact .cons (h a List.mem_cons_self) (ih fun x hx => h x (List.mem_cons_of_mem _ hx))

/-! ## C94 -/

theorem datapathBlock_spec (fmt : Fmt) {mem : ModuleMemory} {port : U8} {d : Datapath}
    (h : decodeFrom Datapath.decoder (idOf mem) mem = .ok d) : DatapathText fmt mem port (datapathBlock fmt port d) := by
  by_cases hs : SffModule (idOf mem)
  · rw [C59_lanes hs] at h
    cases h
    refine .inl ⟨hs, _, sffGrid_spec mem, ?_⟩
    unfold sffDatapath
    split <;> rfl
  · by_cases hm : CmisModule (idOf mem)
    · obtain ⟨dps, rfl, hg⟩ := C60_grouped hm mem d h
      obtain ⟨apps, h1, h2⟩ := datapathBlock_cmis (fmt := fmt) hg
      exact .inr ⟨hm, apps, h1, by rw [← h2]; rfl⟩
    · have := (C54_refused hs hm []).2.2.2.2.2.2.2.2.1
      unfold decodeFrom at h
      rw [show Datapath.decoder.reads (idOf mem) = _ from this] at h
      cases h

/-- **C94**: after a datapath command that ends normally, every module selected is shown or listed as a failure; what is
shown of a module is what its own memory says, and one empty line stands between modules. -/
theorem C94_datapath (fmt : Fmt) (m : ModuleId) (t : List Exchange) (out : Lines) (fails : List (U8 × TransceiverError))
    (h : Runs (dispatch fmt false m .datapath) t (.ok (.done out fails))) (ht : Conforming t)
    (mem : Nat → ModuleMemory) (hf : Faithful mem t) :
    ∃ ports blocks, Shown m ports fails ∧ Pairs (fun i ls => DatapathText fmt (mem i.toNat) i ls) ports blocks ∧
      out = [([] : List Char)].intercalate blocks := by
  obtain ⟨r, h1, h2, h3⟩ := shown_memory C41_decoders.2.2.2.2 h ht hf
  cases h1
  exact ⟨_, r.iter.map fun p : U8 × Datapath => datapathBlock fmt p.1 p.2, h2, pairs_of_map _ _ fun x hx => datapathBlock_spec fmt (h3 x hx),
    separated_intercalate _⟩

/-- Module 1 is an SFF-8636 module whose lane 2 is disabled; module 2 has two lanes assigned to application 1. -/
def pathMemory (p : Nat) : ModuleMemory := if p = 1 then
    fun page a => if page = .sff8636 .lower ∧ a = 86 then 4 else if page = .sff8636 .lower ∧ a = 0 then 0x11 else 0
  else fun page a => if page = .sff8636 .lower then 0x18 else sampleCmis page a

/-- A run that meets the hypotheses; module 3 fails. -/
example : ∃ t out fails, Runs (dispatch plainFmt false ⟨0b1110⟩ .datapath) t (.ok (.done out fails)) ∧ Conforming t ∧
    Faithful pathMemory t ∧ out.length = 14 ∧ fails.map Prod.fst = [3] := by
  have h := dispatch_bench (Bench.ofMemory pathMemory ⟨0b1000⟩) plainFmt ⟨0b1110⟩ false .datapath
  have hf := Bench.exec_faithful pathMemory ⟨0b1000⟩ (dispatch plainFmt false ⟨0b1110⟩ .datapath)
  have ho : ∃ out fails, ((dispatch plainFmt false ⟨0b1110⟩ .datapath).exec
      (Bench.ofMemory pathMemory ⟨0b1000⟩).sp []).2 = .ok (.done out fails) ∧ out.length = 14 ∧
      fails.map Prod.fst = [3] := by
    refine ⟨_, _, rfl, ?_⟩
    decide +kernel
  obtain ⟨out, fails, h1, h2⟩ := ho
  rw [h1] at h
  exact ⟨_, out, fails, h.1, h.2, hf, h2⟩

end Xcvr
