import Verif.Model.CliCmd
import Verif.Props.Controller
import Verif.Props.Results
import Verif.Props.Memory

/-! # C63: commands of the command line tool -/

namespace Xcvr

open Spec Prog Cli

/-! ## C63 -/

/-- The exchanges of a series of successful reads of the modules `m`, and their results. -/
inductive Spec.Rounds (m : ModuleId) : List MemoryRead → List Exchange → List (Res Bytes) → Prop
  | nil : Rounds m [] [] []
  | cons {rd rds t t' r rs} : Runs (Controller.read m rd) t (.ok r) → Rounds m rds t' rs →
      Rounds m (rd :: rds) (t ++ t') (r :: rs)

/-- What a multi-chunk read should report: a module that failed some chunk has its first error, and every other module has
the data of all chunks one after the other. -/
structure Spec.Combined (m : ModuleId) (rs : List (Res Bytes)) (res : Res Bytes) : Prop where
  wf : WF res
  ok : ∀ p, okAt res p =
    if Mem m p ∧ ∀ r ∈ rs, ¬ Failed r p then some (rs.flatMap fun r => (okAt r p).getD []) else none
  err : ∀ p, errAt res p = rs.findSome? (errAt · p)

/-- No module failed. -/
def Spec.Clean (r : Res Bytes) : Prop := ∀ p, ¬ Failed r p

theorem Spec.Combined.succeeded {m : ModuleId} {rs : List (Res Bytes)} {res : Res Bytes} (h : Combined m rs res) (p : Nat) :
    Succeeded res p ↔ Mem m p ∧ ∀ r ∈ rs, ¬ Failed r p := by
  rw [Succeeded, ← datum_isSome h.wf.1, show datum res.modules res.data p = okAt res p from rfl, h.ok]
  split <;> simp_all

theorem Spec.Combined.failed {m : ModuleId} {rs : List (Res Bytes)} {res : Res Bytes} (h : Combined m rs res)
    (hw : ∀ r ∈ rs, WF r) (p : Nat) : Failed res p ↔ ∃ r ∈ rs, Failed r p := by
  rw [Failed, ← datum_isSome h.wf.2.1, show datum res.failures.modules res.failures.errors p = errAt res p from rfl, h.err,
    List.findSome?_isSome_iff]
  constructor
  · rintro ⟨r, hr, hp⟩
    exact ⟨r, hr, (datum_isSome (hw r hr).2.1).mp hp⟩
  · rintro ⟨r, hr, hp⟩
    exact ⟨r, hr, (datum_isSome (hw r hr).2.1).mpr hp⟩

/-- A successful read reports each module once. -/
theorem read_ok {m : ModuleId} {rd : MemoryRead} (hlen : rd.len ≠ 0) {t : List Exchange} {r : Res Bytes}
    (h : Runs (Controller.read m rd) t (.ok r)) (hc : Conforming t) :
    WF r ∧ Partition m r.modules r.failures.modules := by
  obtain ⟨t₁, t₂, rfl, h1, ⟨s, res, h2, -, h3, h4, h5⟩ | ⟨i, b, -, h2, -⟩⟩ := read_spec hlen h hc
  · cases h4
    exact ⟨h5.wf, h5.split⟩
  · cases h2

theorem read_no_panic {m : ModuleId} {rd : MemoryRead} (hlen : rd.len ≠ 0) {t : List Exchange}
    (h : Runs (Controller.read m rd) t .panic) (hc : Conforming t) : False := by
  obtain ⟨t₁, t₂, rfl, h1, ⟨s, res, h2, -, h3, h4, h5⟩ | ⟨i, b, -, h2, -⟩⟩ := read_spec hlen h hc
  · cases h4
  · cases h2

/-- Appending a chunk works while no module has failed. -/
theorem combined_append {m : ModuleId} {rs : List (Res Bytes)} {acc r : Res Bytes} (h : Combined m rs acc)
    (hw : ∀ r ∈ rs, WF r) (hclean : ∀ r ∈ rs, Clean r) (hr : WF r) (hp : Partition m r.modules r.failures.modules) :
    ∃ acc', acc.append r = some acc' ∧ Combined m (rs ++ [r]) acc' := by
  have hs : ∀ p, Succeeded acc p ↔ Mem m p := by
    intro p
    rw [h.succeeded]
    exact ⟨And.left, fun hm => ⟨hm, fun r hr => hclean r hr p⟩⟩
  have hf : ∀ p, ¬ Failed acc p := by
    intro p hp
    obtain ⟨r, hr, hp⟩ := (h.failed hw p).mp hp
    exact hclean r hr p hp
  cases ha : acc.append r with
  | none =>
    exfalso
    rcases (C19_refused acc r).mp ha with ⟨p, hp, _⟩ | ⟨p, hp', hn⟩
    · exact hf p hp
    · exact hn ((hs p).mpr ((hp p).1.mpr hp'))
  | some acc' =>
    obtain ⟨h1, h2, h3, h4, h5⟩ := C19_append acc r acc' h.wf hr ha
    refine ⟨acc', rfl, h1, fun p => ?_, fun p => ?_⟩
    · by_cases hc : Mem m p ∧ ¬ Failed r p
      · have hsu : Succeeded acc' p := (h3 p).mpr ⟨(hs p).mpr hc.1, hc.2⟩
        rw [h5 p hsu, h.ok, if_pos ⟨hc.1, fun r hr => hclean r hr p⟩, if_pos]
        · simp
        · refine ⟨hc.1, fun r' hr' => ?_⟩
          rcases List.mem_append.mp hr' with hr' | hr'
          · exact hclean r' hr' p
          · rw [List.mem_singleton] at hr'
            subst hr'
            exact hc.2
      · rw [if_neg (fun hh => hc ⟨hh.1, hh.2 r (by simp)⟩)]
        apply datum_none
        intro hm
        have := (h3 p).mp hm
        exact hc ⟨(hs p).mp this.1, this.2⟩
    · rw [h4 p, if_neg (hf p), List.findSome?_append]
      have : rs.findSome? (errAt · p) = none := by
        rw [← h.err]
        exact datum_none (hf p)
      rw [this]
      simp

/-- After a failure, no further chunk can be appended. -/
theorem append_after_failure {m : ModuleId} {rs : List (Res Bytes)} {acc r : Res Bytes} (h : Combined m rs acc)
    (hw : ∀ r ∈ rs, WF r ∧ Partition m r.modules r.failures.modules) (hdirty : ∃ r ∈ rs, ¬ Clean r)
    (hp : Partition m r.modules r.failures.modules) : acc.append r = none := by
  obtain ⟨r', hr', hd⟩ := hdirty
  rw [Clean, Classical.not_forall] at hd
  obtain ⟨p, hd⟩ := hd
  rw [Classical.not_not] at hd
  refine (C19_refused acc r).mpr (.inr ⟨p, (hp p).1.mp (((hw r' hr').2 p).1.mpr (.inr hd)), ?_⟩)
  rw [h.succeeded]
  exact fun hh => hh.2 r' hr' hd

theorem readChunks_spec {m : ModuleId} (rds : List MemoryRead) (hlen : ∀ rd ∈ rds, rd.len ≠ 0) {acc : Res Bytes}
    {prev : List (Res Bytes)} (ha : Combined m prev acc) (hw : ∀ r ∈ prev, WF r ∧ Partition m r.modules r.failures.modules)
    (hclean : ∀ r ∈ prev.dropLast, Clean r) {t : List Exchange} {o : Exec CtlError (Res Bytes)}
    (h : Runs (readChunks m acc rds) t o) (hc : Conforming t) :
    (∃ done rd rest t₁ t₂ rs e, rds = done ++ rd :: rest ∧ t = t₁ ++ t₂ ∧ Rounds m done t₁ rs ∧
      Runs (Controller.read m rd) t₂ (.err e) ∧ o = .err e) ∨
    (∃ rs res, Rounds m rds t rs ∧ o = .ok res ∧ Combined m (prev ++ rs) res ∧ ∀ r ∈ (prev ++ rs).dropLast, Clean r) ∨
    (∃ done rest rs, rds = done ++ rest ∧ Rounds m done t rs ∧ o = .panic ∧ ∃ r ∈ (prev ++ rs).dropLast, ¬ Clean r) := by
  induction rds generalizing acc prev t with
  | nil =>
    simp only [readChunks] at h
    replace h : Runs (ret acc) t o := h
    rw [runs_ret] at h
    obtain ⟨rfl, rfl⟩ := h
    exact .inr (.inl ⟨[], acc, .nil, rfl, by rwa [List.append_nil], by rwa [List.append_nil]⟩)
  | cons rd rds ih =>
    rw [readChunks] at h
    have hl := hlen rd (by simp)
    rw [runs_bind] at h
    obtain ⟨t₁, t₂, r, rfl, h1, h2⟩ | ⟨e, h1, h2⟩ | ⟨h1, h2⟩ := h
    · rw [conforming_append] at hc
      obtain ⟨hr, hp⟩ := read_ok hl h1 hc.1
      by_cases hd : ∀ r ∈ prev, Clean r
      · obtain ⟨acc', h3, h4⟩ := combined_append ha (fun r hr => (hw r hr).1) hd hr hp
        rw [h3] at h2
        have hw' : ∀ r' ∈ prev ++ [r], WF r' ∧ Partition m r'.modules r'.failures.modules := by
          intro r' hr'
          rcases List.mem_append.mp hr' with hr' | hr'
          · exact hw r' hr'
          · rw [List.mem_singleton] at hr'
            subst hr'
            exact ⟨hr, hp⟩
        rcases ih (fun rd' h' => hlen rd' (List.mem_cons_of_mem _ h')) h4 hw' (by rw [List.dropLast_concat]; exact hd) h2 hc.2 with
          ⟨dn, rd', rest, s₁, s₂, rs, e, g1, g2, g3, g4, g5⟩ | ⟨rs, res, g1, g2, g3, g4⟩ | ⟨dn, rest, rs, g1, g2, g3, g4⟩
        · exact .inl ⟨rd :: dn, rd', rest, t₁ ++ s₁, s₂, r :: rs, e, by rw [g1]; rfl, by rw [g2, List.append_assoc],
            .cons h1 g3, g4, g5⟩
        · rw [List.append_assoc] at g3 g4
          exact .inr (.inl ⟨r :: rs, res, .cons h1 g1, g2, g3, g4⟩)
        · rw [List.append_assoc] at g4
          exact .inr (.inr ⟨rd :: dn, rest, r :: rs, by rw [g1]; rfl, .cons h1 g2, g3, g4⟩)
      · have hd' : ∃ r ∈ prev, ¬ Clean r := by
          simpa using hd
        rw [append_after_failure ha hw hd' hp] at h2
        replace h2 : Runs panic t₂ o := h2
        rw [runs_panic] at h2
        obtain ⟨rfl, rfl⟩ := h2
        refine .inr (.inr ⟨[rd], rds, [r], rfl, .cons h1 .nil, rfl, ?_⟩)
        rw [List.dropLast_concat]
        exact hd'
    · exact .inl ⟨[], rd, rds, [], t, [], e, rfl, rfl, .nil, h1, h2⟩
    · exact (read_no_panic hl h1 hc).elim

/-- C63, all that can happen to a multi-chunk read against an SP that answers properly. A chunk may be refused (C35).
Otherwise, if no module fails before the last chunk, every module is reported, with the data of all chunks or with its
error. If a module fails before the last chunk, the tool aborts. Missing: the last case, which C63 excludes. -/
theorem C63_outcome_partial (m : ModuleId) (rds : List MemoryRead) (hlen : ∀ rd ∈ rds, rd.len ≠ 0) {t : List Exchange}
    {o : Exec CtlError (Res Bytes)} (h : Runs (readMany m rds) t o) (hc : Conforming t) :
    (∃ done rd rest t₁ t₂ rs e, rds = done ++ rd :: rest ∧ t = t₁ ++ t₂ ∧ Rounds m done t₁ rs ∧
      Runs (Controller.read m rd) t₂ (.err e) ∧ o = .err e) ∨
    (∃ rs res, Rounds m rds t rs ∧ (∀ r ∈ rs.dropLast, Clean r) ∧ o = .ok res ∧ Combined m rs res) ∨
    (∃ done rest rs, rds = done ++ rest ∧ Rounds m done t rs ∧ (∃ r ∈ rs.dropLast, ¬ Clean r) ∧ o = .panic) := by
  have hs : (ModuleResult.success m (List.replicate m.count []) : Option (Res Bytes)) =
      some ⟨m, List.replicate m.count [], .success⟩ := by
    unfold ModuleResult.success
    simp
  rw [readMany, hs] at h
  replace h : Runs (readChunks m ⟨m, List.replicate m.count [], .success⟩ rds) t o := h
  have ha : Combined m [] (⟨m, List.replicate m.count [], .success⟩ : Res Bytes) := by
    refine ⟨⟨?_, ?_, ?_⟩, ?_, ?_⟩
    · show _ = _
      rw [List.length_replicate, count_eq_card]
    · show (0 : Nat) = card ModuleId.empty
      decide
    · intro p hp
      simp [FailedModules.success, mem_empty] at hp
    · intro p
      rw [okAt, datum_replicate (count_eq_card m)]
      simp
    · intro p
      apply datum_none
      simp [FailedModules.success, mem_empty]
  rcases readChunks_spec rds hlen ha (by simp) (by simp) h hc with h | ⟨rs, res, h1, h2, h3, h4⟩ | ⟨dn, rest, rs, h1, h2, h3, h4⟩
  · exact .inl h
  · exact .inr (.inl ⟨rs, res, h1, h4, h2, h3⟩)
  · exact .inr (.inr ⟨dn, rest, rs, h1, h2, h4, h3⟩)

/-- Modules 1 and 2 identify themselves as CMIS; module 2 fails reads at offset 16. -/
def chunkBench : Bench where
  failing h q := match q with
    | .read _ rd => if rd.offset = 16 then ⟨0b100⟩ else ⟨0⟩
    | _ => ModuleId.empty
  memory _ i rd k := if rd.offset = 0 then 0x1e else BitVec.ofNat 8 (64 * i.toNat + rd.offset.toNat + k)

/-- Chunks of a read of 3 bytes. No module fails. -/
example : ((readMany ⟨0b110⟩ [⟨.cmis .lower, 14, 2⟩, ⟨.cmis .lower, 18, 1⟩]).exec chunkBench.sp []).2 =
    .ok ⟨⟨0b110⟩, [[78, 79, 82], [142, 143, 146]], .success⟩ := by
  decide +kernel

/-- Module 2 fails the last chunk. -/
example : ((readMany ⟨0b110⟩ [⟨.cmis .lower, 8, 2⟩, ⟨.cmis .lower, 16, 1⟩]).exec chunkBench.sp []).2 =
    .ok ⟨⟨0b10⟩, [[72, 73, 80]], ⟨⟨0b100⟩, [.hardware 2 .disabledBySp none]⟩⟩ := by
  decide +kernel

/-- Module 2 fails the first of two chunks, and the tool aborts. -/
theorem C63_counterexample : buildReads (.cmis .lower) 16 9 = .ok [⟨.cmis .lower, 16, 8⟩, ⟨.cmis .lower, 24, 1⟩] ∧
    ((readMany ⟨0b110⟩ [⟨.cmis .lower, 16, 8⟩, ⟨.cmis .lower, 24, 1⟩]).exec chunkBench.sp []).2 = .panic := by
  decide +kernel

theorem allCalls_read {C : Call → Prop} (m : ModuleId) (rd : MemoryRead) (hr : ∀ g rd, C (.host (.read g rd))) :
    AllCalls C (Controller.read m rd) := by
  unfold Controller.read
  split
  · exact allCalls_ofExec _
  · exact allCalls_bind (allCalls_identifier fun g _ => hr g _) fun _ => allCalls_bind (allCalls_ofExec _) fun _ =>
      allCalls_bind (allCalls_readImpl fun g _ _ => hr g _) fun _ => trivial

theorem isHost_readChunks (m : ModuleId) (rds : List MemoryRead) (acc : Res Bytes) :
    AllCalls Bench.IsHost (readChunks m acc rds) := by
  induction rds generalizing acc with
  | nil => trivial
  | cons rd rds ih =>
    rw [readChunks]
    refine allCalls_bind (allCalls_read m rd fun _ _ => ⟨_, _, rfl⟩) fun r => ?_
    cases acc.append r with
    | none => trivial
    | some acc' => exact ih acc'

theorem readMany_conforming (b : Bench) (m : ModuleId) (rds : List MemoryRead) :
    Conforming ((readMany m rds).exec b.sp []).1 :=
  Bench.exec_conforming b (allCalls_bind (allCalls_ofExec _) fun _ => isHost_readChunks m rds _) []

/-- C63 as stated is false. -/
theorem C63_false : ¬ ∀ (m : ModuleId) (page : Page) (offset len : U8) (rds : List MemoryRead) (t : List Exchange)
    (o : Exec CtlError (Res Bytes)), buildReads page offset len = .ok rds → Runs (readMany m rds) t o → Conforming t →
    o ≠ .panic := fun h =>
  h _ _ _ _ _ _ _ C63_counterexample.1 (Bench.exec_runs chunkBench _) (readMany_conforming _ _ _) C63_counterexample.2

/-! ### What is printed is the memory asked for -/

/-- The records of all memory reads show the memory `mem`, given by port, page and address. -/
def Spec.FromMemory (mem : Nat → Page → Nat → U8) (t : List Exchange) : Prop :=
  ∀ x ∈ t, ∀ g rd p b, requestOf x = some (.read g rd) → okIn x p = some b →
    b = (List.range rd.len.toNat).map fun k => mem p rd.page (rd.offset.toNat + k)

theorem read_fromMemory {mem : Nat → Page → Nat → U8} {m : ModuleId} {rd : MemoryRead} (hlen : rd.len ≠ 0)
    {t : List Exchange} {r : Res Bytes} (h : Runs (Controller.read m rd) t (.ok r)) (hc : Conforming t)
    (hm : FromMemory mem t) (p : Nat) (hp : Mem m p) (hf : ¬ Failed r p) :
    okAt r p = some ((List.range rd.len.toNat).map fun k => mem p rd.page (rd.offset.toNat + k)) := by
  obtain ⟨t₁, t₂, rfl, h1, ⟨s, res, h2, -, ⟨gs, -, h3⟩, h4, h5⟩ | ⟨i, b, -, h2, -⟩⟩ := read_spec hlen h hc
  · cases h4
    have hs : (okAt r p).isSome := by
      rw [okAt, datum_isSome h5.wf.1]
      exact ((h5.split p).1.mp hp).resolve_right hf
    rw [h5.ok] at hs ⊢
    rw [Option.map_id] at hs ⊢
    obtain ⟨b, hb⟩ := Option.isSome_iff_exists.mp hs
    show okAmong t₂ p = _
    replace hb : okAmong t₂ p = some b := hb
    rw [hb]
    obtain ⟨x, hx, hxb⟩ := List.exists_of_findSome?_eq_some hb
    have : x.1 ∈ t₂.map Prod.fst := List.mem_map_of_mem hx
    rw [h3] at this
    obtain ⟨g, -, hg⟩ := List.mem_map.mp this
    rw [hm x (List.mem_append_right _ hx) g rd p b (by rw [requestOf, ← hg]; rfl) hxb]
  · cases h2

theorem rounds_fromMemory {mem : Nat → Page → Nat → U8} {m : ModuleId} {rds : List MemoryRead} {t : List Exchange}
    {rs : List (Res Bytes)} (h : Rounds m rds t rs) (hlen : ∀ rd ∈ rds, rd.len ≠ 0) (hc : Conforming t)
    (hm : FromMemory mem t) (p : Nat) (hp : Mem m p) (hf : ∀ r ∈ rs, ¬ Failed r p) :
    (rs.flatMap fun r => (okAt r p).getD []) =
      rds.flatMap fun rd => (List.range rd.len.toNat).map fun k => mem p rd.page (rd.offset.toNat + k) := by
  induction h with
  | nil => rfl
  | cons h1 h2 ih =>
    rw [conforming_append] at hc
    rw [List.flatMap_cons, List.flatMap_cons, ih (fun rd h => hlen rd (List.mem_cons_of_mem _ h)) hc.2
      (fun x hx => hm x (List.mem_append_right _ hx)) fun r h => hf r (List.mem_cons_of_mem _ h),
      read_fromMemory (hlen _ List.mem_cons_self) h1 hc.1 (fun x hx => hm x (List.mem_append_left _ hx)) p hp
        (hf _ List.mem_cons_self)]
    rfl

theorem covers_flatMap {page : Page} (f : Page → Nat → U8) (rds : List MemoryRead) (start stop : Nat)
    (h : Covers rds start stop) (hp : ∀ rd ∈ rds, rd.page = page) :
    start ≤ stop ∧ (rds.flatMap fun rd => (List.range rd.len.toNat).map fun k => f rd.page (rd.offset.toNat + k)) =
      (List.range (stop - start)).map fun k => f page (start + k) := by
  induction rds generalizing start with
  | nil =>
    cases h
    simp
  | cons rd rds ih =>
    obtain ⟨h1, h2, h3⟩ := h
    obtain ⟨h4, h5⟩ := ih _ h3 fun rd h => hp rd (List.mem_cons_of_mem _ h)
    refine ⟨by omega, ?_⟩
    rw [List.flatMap_cons, h5, hp rd List.mem_cons_self, h1,
      show stop - start = rd.len.toNat + (stop - (start + rd.len.toNat)) by omega, List.range_add, List.map_append,
      List.map_map]
    congr 1
    apply List.map_congr_left
    intro k _
    simp [Nat.add_assoc]

theorem buildReads_spec {page : Page} {offset len : U8} {rds : List MemoryRead} (h : buildReads page offset len = .ok rds) :
    Covers rds offset.toNat (offset.toNat + len.toNat) ∧ ∀ rd ∈ rds, rd.page = page := by
  cases page with
  | sff8636 p =>
    have := (C11_sff_read p offset len).2.1 rds h
    exact ⟨this.1, fun rd h => (this.2 rd h).1⟩
  | cmis p =>
    have := (C11_cmis_read p offset len).2.1 rds h
    exact ⟨this.1, fun rd h => (this.2 rd h).1⟩

theorem covers_len {rds : List MemoryRead} {start stop : Nat} (h : Covers rds start stop) : ∀ rd ∈ rds, rd.len ≠ 0 := by
  induction rds generalizing start with
  | nil => simp
  | cons rd rds ih =>
    intro rd' h'
    rcases List.mem_cons.mp h' with rfl | h'
    · intro h0
      have := h.2.1
      rw [h0] at this
      exact absurd this (by decide)
    · exact ih h.2.2 rd' h'

/-- C63, the data: if a read command succeeds, each selected port is listed once, either with an error or with the `len`
bytes of the page from `offset` on, in order. -/
theorem C63_data (mem : Nat → Page → Nat → U8) (m : ModuleId) (page : Page) (offset len : U8) (rds : List MemoryRead)
    (hb : buildReads page offset len = .ok rds) (t : List Exchange) (res : Res Bytes)
    (h : Runs (readMany m rds) t (.ok res)) (hc : Conforming t) (hm : FromMemory mem t) :
    WF res ∧ Partition m res.modules res.failures.modules ∧
    ∀ p, Succeeded res p →
      okAt res p = some ((List.range len.toNat).map fun k => mem p page (offset.toNat + k)) := by
  obtain ⟨h1, h2⟩ := buildReads_spec hb
  have hlen := covers_len h1
  rcases C63_outcome_partial m rds hlen h hc with ⟨_, _, _, _, _, _, _, -, -, -, -, h3⟩ | ⟨rs, res', h3, h4, h5, h6⟩ |
    ⟨_, _, _, -, -, -, h3⟩
  · cases h3
  · cases h5
    have hw : ∀ r ∈ rs, WF r ∧ Partition m r.modules r.failures.modules := by
      clear h4 h6 h h1 h2 hb
      induction h3 with
      | nil => simp
      | cons g1 g2 ih =>
        rw [conforming_append] at hc
        intro r hr
        rcases List.mem_cons.mp hr with rfl | hr
        · exact read_ok (hlen _ List.mem_cons_self) g1 hc.1
        · exact ih hc.2 (fun x hx => hm x (List.mem_append_right _ hx)) (fun rd h => hlen rd (List.mem_cons_of_mem _ h)) r hr
    refine ⟨h6.wf, fun p => ?_, fun p hp => ?_⟩
    · have hs := h6.succeeded p
      have hf := h6.failed (fun r hr => (hw r hr).1) p
      rw [Succeeded] at hs
      rw [Failed] at hf
      rw [hs, hf]
      refine ⟨⟨fun hp => ?_, ?_⟩, ?_⟩
      · by_cases hx : ∃ r ∈ rs, Failed r p
        · exact .inr hx
        · exact .inl ⟨hp, fun r hr hf => hx ⟨r, hr, hf⟩⟩
      · rintro (hp | ⟨r, hr, hf⟩)
        · exact hp.1
        · exact ((hw r hr).2 p).1.mpr (.inr hf)
      · rintro ⟨⟨_, hn⟩, r, hr, hf⟩
        exact hn r hr hf
    · have hs := (h6.succeeded p).mp hp
      rw [h6.ok, if_pos hs, rounds_fromMemory h3 hlen hc hm p hs.1 hs.2, (covers_flatMap (mem p) rds _ _ h1 h2).2,
        Nat.add_sub_cancel_left]
  · cases h3

end Xcvr
