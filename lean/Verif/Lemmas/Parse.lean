import Verif.Lemmas.Identifier
import Verif.Lemmas.BTree
import Verif.Props.Results
import Verif.Spec.Info

/-! # Lemmas about decoding module information -/

namespace Xcvr

open Spec Prog Controller

theorem Spec.Pairs.imp {α β : Type} {R S : α → β → Prop} (h : ∀ a b, R a b → S a b) {l : List α} {l' : List β}
    (hp : Pairs R l l') : Pairs S l l' := by
  induction hp with
  | nil => exact .nil
  | cons h1 _ ih => exact .cons (h _ _ h1) ih

/-! ## Kinds -/

theorem identifierLt_strict : StrictOrder identifierLt where
  irrefl a := by cases a <;> simp [identifierLt]
  trans a b c := by
    cases a <;> cases b <;> cases c <;>
      simp only [identifierLt, decide_eq_true_eq, Bool.or_eq_true, Bool.and_eq_true, beq_iff_eq, BitVec.lt_def] <;>
      first | omega | simp
  total a b := by
    cases a with
    | known i =>
      cases b with
      | known j =>
        simp only [identifierLt, decide_eq_true_eq, Bf.known.injEq, Fin.ext_iff]
        omega
      | other j y => simp [identifierLt]
    | other i x =>
      cases b with
      | known j => simp [identifierLt]
      | other j y =>
        simp only [identifierLt, decide_eq_true_eq, Bool.or_eq_true, Bool.and_eq_true, beq_iff_eq, BitVec.lt_def,
          Bf.other.injEq, Fin.ext_iff, ← BitVec.toNat_inj]
        omega

/-- The groups of a map from kinds to modules list exactly the pairs. -/
def Groups (pairs : List (U8 × Identifier)) (out : List (Identifier × ModuleId)) : Prop :=
  BMap.Sorted identifierLt out ∧
  (∀ id g, (id, g) ∈ out → ∀ p, Mem g p ↔ ∃ i : U8, (i, id) ∈ pairs ∧ i.toNat = p) ∧
  (∀ i id, (i, id) ∈ pairs → ∃ g, (id, g) ∈ out) ∧
  ∀ id g, (id, g) ∈ out → ∃ p, Mem g p

theorem groups_step {pairs : List (U8 × Identifier)} {out : List (Identifier × ModuleId)} (h : Groups pairs out)
    (i : U8) (hi : i.toNat < 64) (id : Identifier) :
    Groups (pairs ++ [(i, id)]) (BMap.upsert identifierLt id (fun s => ((s.getD ModuleId.empty).set i).1) out) := by
  obtain ⟨hs, h1, h2, h3⟩ := h
  have hs' := BMap.upsert_sorted identifierLt_strict hs id (fun s => ((s.getD ModuleId.empty).set i).1)
  have hget := fun k' => BMap.get?_upsert identifierLt_strict hs id (fun s => ((s.getD ModuleId.empty).set i).1) k'
  refine ⟨hs', ?_, ?_, ?_⟩
  · intro id' g hg p
    rw [← BMap.get?_iff_mem identifierLt_strict hs', hget] at hg
    split at hg
    · rename_i hid
      subst hid
      simp only [Option.some.injEq] at hg
      subst hg
      rw [mem_set hi]
      cases hb : BMap.get? out id' with
      | none =>
        have hno : ∀ j : U8, (j, id') ∉ pairs := by
          intro j hj
          obtain ⟨g, hg⟩ := h2 j id' hj
          rw [← BMap.get?_iff_mem identifierLt_strict hs, hb] at hg
          cases hg
        simp only [Option.getD_none, mem_empty, false_or, List.mem_append, List.mem_singleton, Prod.mk.injEq, and_true,
          hno]
        exact ⟨fun h => ⟨i, rfl, h.symm⟩, fun ⟨j, hj, hp⟩ => by rw [← hp, hj]⟩
      | some g =>
        have := h1 id' g ((BMap.get?_iff_mem identifierLt_strict hs).1 hb) p
        simp only [Option.getD_some, this, List.mem_append, List.mem_singleton, Prod.mk.injEq, and_true]
        constructor
        · rintro (⟨j, hj, hp⟩ | h)
          · exact ⟨j, .inl hj, hp⟩
          · exact ⟨i, .inr rfl, h.symm⟩
        · rintro ⟨j, hj | rfl, hp⟩
          · exact .inl ⟨j, hj, hp⟩
          · exact .inr hp.symm
    · rename_i hid
      have := h1 id' g ((BMap.get?_iff_mem identifierLt_strict hs).1 hg) p
      simp only [this, List.mem_append, List.mem_singleton, Prod.mk.injEq, hid, and_false, or_false]
  · intro j id' hj
    have : ∃ g, BMap.get? (BMap.upsert identifierLt id (fun s => ((s.getD ModuleId.empty).set i).1) out) id' = some g := by
      rw [hget]
      split
      · exact ⟨_, rfl⟩
      · rename_i hid
        rw [List.mem_append, List.mem_singleton, Prod.mk.injEq] at hj
        rcases hj with hj | hj
        · obtain ⟨g, hg⟩ := h2 j id' hj
          exact ⟨g, (BMap.get?_iff_mem identifierLt_strict hs).2 hg⟩
        · exact absurd hj.2 hid
    obtain ⟨g, hg⟩ := this
    exact ⟨g, (BMap.get?_iff_mem identifierLt_strict hs').1 hg⟩
  · intro id' g hg
    rw [← BMap.get?_iff_mem identifierLt_strict hs', hget] at hg
    split at hg
    · simp only [Option.some.injEq] at hg
      exact ⟨i.toNat, by rw [← hg, mem_set hi]; exact .inr rfl⟩
    · exact h3 id' g ((BMap.get?_iff_mem identifierLt_strict hs).1 hg)

theorem groups_fold (pairs done : List (U8 × Identifier)) (hp : ∀ x ∈ pairs, x.1.toNat < 64)
    {out : List (Identifier × ModuleId)} (h : Groups done out) :
    Groups (done ++ pairs) (pairs.foldl
      (fun out p => BMap.upsert identifierLt p.2 (fun s => ((s.getD ModuleId.empty).set p.1).1) out) out) := by
  induction pairs generalizing done out with
  | nil => rw [List.append_nil]; exact h
  | cons a pairs ih =>
    have := ih (done ++ [a]) (fun x hx => hp x (List.mem_cons_of_mem _ hx))
      (groups_step h a.1 (hp a List.mem_cons_self) a.2)
    rw [List.append_assoc] at this
    exact this

theorem split_groups {m : ModuleId} {ids : List Identifier} (ha : Aligned m ids) :
    ∃ out, splitModulesByIdentifier m ids = .ok out ∧ Groups (m.toIndices.zip ids) out := by
  unfold splitModulesByIdentifier
  rw [if_neg (by rw [count_eq_card]; exact not_not_intro ha.symm)]
  refine ⟨_, rfl, ?_⟩
  have := groups_fold (m.toIndices.zip ids) [] (fun x hx => ?_) (out := []) ⟨List.Pairwise.nil, by simp, by simp, by simp⟩
  · simpa using this
  · have : (x.1, x.2) ∈ m.toIndices.zip ids := hx
    rw [mem_zip_iff_datum] at this
    exact datum_lt this

/-- The kinds of a set of identified modules: distinct, and each group holds the modules of its kind. -/
structure Kinds (m : ModuleId) (ids : List Identifier) (kinds : List (Identifier × ModuleId)) : Prop where
  sorted : kinds.Pairwise fun a b => identifierLt a.1 b.1 = true
  mem : ∀ id g, (id, g) ∈ kinds → ∀ p, Mem g p ↔ datum m ids p = some id
  cover : ∀ p id, datum m ids p = some id → ∃ g, (id, g) ∈ kinds
  nonempty : ∀ k ∈ kinds, ∃ p, Mem k.2 p

theorem split_kinds {m : ModuleId} {ids : List Identifier} (ha : Aligned m ids) :
    ∃ kinds, splitModulesByIdentifier m ids = .ok kinds ∧ Kinds m ids kinds := by
  obtain ⟨out, h1, hs, h2, h3, h4⟩ := split_groups ha
  refine ⟨out, h1, hs, fun id g hg p => ?_, fun p id hd => ?_, fun k hk => h4 k.1 k.2 hk⟩
  · rw [h2 id g hg]
    constructor
    · rintro ⟨i, hi, rfl⟩
      exact mem_zip_iff_datum.1 hi
    · intro hd
      have hp := ofNat_toNat_lt (datum_lt hd)
      exact ⟨BitVec.ofNat 8 p, mem_zip_iff_datum.2 (by rw [hp]; exact hd), hp⟩
  · have hp := ofNat_toNat_lt (datum_lt hd)
    exact h3 (BitVec.ofNat 8 p) id (mem_zip_iff_datum.2 (by rw [hp]; exact hd))

/-! ## Reading -/

theorem readAll_spec {g : ModuleId} {rds : List MemoryRead} (hl : ∀ rd ∈ rds, rd.len ≠ 0) {t : List Exchange}
    {o : Exec CtlError (List (Res Bytes))} (h : Runs (readAll g rds) t o) (hc : Conforming t) :
    ∃ rs, o = .ok rs ∧
      Pairs (fun rd r => ∃ t', (∀ x ∈ t', x ∈ t) ∧ ReadsOf g rd t' ∧ Reports id g t' r) rds rs := by
  induction rds generalizing t o with
  | nil =>
    simp only [readAll, pure_eq, runs_ret] at h
    exact ⟨[], h.2, .nil⟩
  | cons rd rds ih =>
    obtain ⟨t₁, t₂, r, rfl, h1, hc1, h2, hc2⟩ := runs_bind_ok h hc fun t o h hc => by
      obtain ⟨res, rfl, -⟩ := readImpl_reports (hl rd List.mem_cons_self) h hc
      exact ⟨_, rfl⟩
    obtain ⟨r', h3, h4, h5⟩ := readImpl_reports (hl rd List.mem_cons_self) h1 hc1
    simp only [Exec.ok.injEq] at h3
    subst h3
    have ih := fun {t o} => @ih (fun rd hrd => hl rd (List.mem_cons_of_mem _ hrd)) t o
    obtain ⟨t₃, t₄, rs, rfl, h6, hc3, h7, -⟩ := runs_bind_ok h2 hc2 fun t o h hc => by
      obtain ⟨rs, rfl, -⟩ := ih h hc
      exact ⟨_, rfl⟩
    simp only [pure_eq, runs_ret] at h7
    obtain ⟨rfl, rfl⟩ := h7
    obtain ⟨rs', h8, h9⟩ := ih h6 hc3
    simp only [Exec.ok.injEq] at h8
    subst h8
    rw [List.append_nil]
    refine ⟨_, rfl, .cons ⟨t₁, fun x hx => List.mem_append_left _ hx, h4, h5⟩ ?_⟩
    exact h9.imp fun _ _ ⟨t', a, b⟩ => ⟨t', fun x hx => List.mem_append_right _ (a x hx), b⟩

/-! ## One module -/

variable {P : Type}

/-- What `parseOne` finds for a module. -/
def outcome (d : ModuleDecoder P) (id : Identifier) (results : List (Res Bytes)) (i : U8) :
    Exec CtlError (Except TransceiverError P) :=
  match results.findSome? fun r => r.nthErr i with
  | some e => .ok (.error e)
  | none =>
    match parseFrom d id results i with
    | .ok v => .ok (.ok v)
    | .err e => .ok (.error (.decode e))
    | .panic => .panic

/-- Record what was found. -/
def record' (s : ParseState P) (i : U8) : Except TransceiverError P → ParseState P
  | .ok v => { s with byIndex := BMap.upsert u8Lt i (fun _ => v) s.byIndex }
  | .error e => s.fault i e

theorem parseOne_eq (d : ModuleDecoder P) (id : Identifier) (results : List (Res Bytes)) (s : ParseState P) (i : U8) :
    parseOne d id results s i =
      match outcome d id results i with
      | .ok r => .ok (record' s i r)
      | .err e => .err e
      | .panic => .panic := by
  unfold parseOne outcome
  cases results.findSome? fun r => r.nthErr i with
  | some e => rfl
  | none =>
    dsimp only
    cases parseFrom d id results i <;> rfl

/-- The data of a module that is there, one item per read. -/
def parseData (results : List (Res Bytes)) (module : U8) : Exec CtlError (List Bytes) :=
  results.mapM fun r => Exec.unwrap (r.nth module)

theorem parseFrom_all {d : ModuleDecoder P} {id : Identifier} {results : List (Res Bytes)} {i : U8} {ds : List Bytes}
    (h : parseData results i = .ok ds) : parseFrom d id results i = d.parse id ds := by
  have hi : results.map (fun r => r.nth i) = ds.map some := by
    unfold parseData at h
    induction results generalizing ds with
    | nil => cases h; rfl
    | cons r rs ih =>
      rw [List.mapM_cons] at h
      obtain ⟨b, hb, h⟩ := Exec.bind_eq_ok.1 h
      obtain ⟨bs, hbs, h⟩ := Exec.bind_eq_ok.1 h
      cases h
      rw [List.map_cons, List.map_cons, ih hbs]
      cases hn : r.nth i with
      | none => rw [hn] at hb; cases hb
      | some x => rw [hn] at hb; cases hb; rfl
  have hp : ((ds.map some).takeWhile Option.isSome).filterMap (fun x => x) = ds := by
    clear hi h
    induction ds with
    | nil => rfl
    | cons x xs ih => simpa using ih
  unfold parseFrom
  simp only [hi, hp, List.length_map]
  simp

/-- Results of the reads of a group. -/
abbrev ReadResults (t : List Exchange) (g : ModuleId) : List MemoryRead → List (Res Bytes) → Prop :=
  Pairs (fun rd r => ∃ t', (∀ x ∈ t', x ∈ t) ∧ ReadsOf g rd t' ∧ Reports id g t' r)

theorem requestOf_readsOf {g : ModuleId} {rd : MemoryRead} {t : List Exchange} (h : ReadsOf g rd t) {x : Exchange}
    (hx : x ∈ t) : ∃ g', requestOf x = some (.read g' rd) := by
  obtain ⟨g', hg⟩ := readsOf_mem h hx
  refine ⟨g', ?_⟩
  unfold requestOf
  rw [hg]
  rfl

theorem parseData_spec {t : List Exchange} {g : ModuleId} {rds : List MemoryRead} {rs : List (Res Bytes)}
    (h : ReadResults t g rds rs) {i : U8} (hi : Mem g i.toNat) (he : ∀ r ∈ rs, r.nthErr i = none) :
    ∃ ds, parseData rs i = .ok ds ∧ DataOf t i.toNat rds ds := by
  induction h with
  | nil => exact ⟨[], rfl, .nil⟩
  | @cons rd r rds rs h hs ih =>
    obtain ⟨t', ht, hr, hrep⟩ := h
    obtain ⟨ds, h1, h2⟩ := ih fun r hr => he r (List.mem_cons_of_mem _ hr)
    have h3 : r.nth i = okAmong t' i.toNat := by
      rw [(C20_lookup r i).1, hrep.ok, Option.map_id, id]
    have h4 : (r.nth i).isSome := by
      rw [(C20_present r hrep.wf i).1]
      rcases (hrep.split i.toNat).1.1 hi with h | h
      · exact h
      · have := he r List.mem_cons_self
        have h := (C20_present r hrep.wf i).2.2 h
        rw [this] at h
        simp at h
    obtain ⟨b, hb⟩ := Option.isSome_iff_exists.1 h4
    rw [hb] at h3
    have hb' := h3.symm
    unfold okAmong at hb'
    obtain ⟨x, hx, hxb⟩ := List.exists_of_findSome?_eq_some hb'
    obtain ⟨g', hg'⟩ := requestOf_readsOf hr hx
    refine ⟨b :: ds, ?_, .cons ⟨x, ht x hx, g', hg', hxb⟩ h2⟩
    unfold parseData at h1 ⊢
    rw [List.mapM_cons, h1, hb]
    rfl

theorem mem_forall₂ {α β : Type} {R : α → β → Prop} {l : List α} {l' : List β} (h : Pairs R l l') {b : β}
    (hb : b ∈ l') : ∃ a ∈ l, R a b := by
  induction h with
  | nil => cases hb
  | cons h1 h2 ih =>
    rcases List.mem_cons.1 hb with rfl | hb
    · exact ⟨_, List.mem_cons_self, h1⟩
    · obtain ⟨a, ha, h⟩ := ih hb
      exact ⟨a, List.mem_cons_of_mem _ ha, h⟩

theorem outcome_spec {d : ModuleDecoder P} {k : Identifier} {t : List Exchange} {g : ModuleId} {rds : List MemoryRead}
    {rs : List (Res Bytes)} (hd : d.reads k = .ok rds) (h : ReadResults t g rds rs) {i : U8} (hi : Mem g i.toNat) :
    (∃ r, outcome d k rs i = .ok r ∧ Yields d t k i.toNat r) ∨
    (outcome d k rs i = .panic ∧ ∃ ds, DataOf t i.toNat rds ds ∧ d.parse k ds = .panic) := by
  unfold outcome
  cases hf : rs.findSome? fun r => r.nthErr i with
  | some e =>
    left
    refine ⟨_, rfl, rds, hd, .inl ?_⟩
    obtain ⟨r, hr, he⟩ := List.exists_of_findSome?_eq_some hf
    obtain ⟨rd, hrd, t', ht, hro, hrep⟩ := mem_forall₂ h hr
    rw [(C20_lookup r i).2, hrep.err] at he
    unfold errAmong at he
    obtain ⟨x, hx, hxe⟩ := List.exists_of_findSome?_eq_some he
    obtain ⟨g', hg'⟩ := requestOf_readsOf hro hx
    exact ⟨rd, hrd, x, ht x hx, g', hg', hxe⟩
  | none =>
    rw [List.findSome?_eq_none_iff] at hf
    obtain ⟨ds, h1, h2⟩ := parseData_spec h hi hf
    rw [parseFrom_all h1]
    cases hp : d.parse k ds with
    | ok v => exact .inl ⟨_, rfl, rds, ds, hd, h2, hp⟩
    | err e => exact .inl ⟨_, rfl, rds, hd, .inr ⟨ds, e, h2, hp, rfl⟩⟩
    | panic => exact .inr ⟨rfl, ds, h2, hp⟩

/-! ## All modules of a kind, all kinds -/

/-- What was found for each module, in the order of processing. -/
abbrev Log (P : Type) := List (U8 × Except TransceiverError P)

def Log.apply (s : ParseState P) (log : Log P) : ParseState P := log.foldl (fun s x => record' s x.1 x.2) s

theorem apply_ok (s : ParseState P) (i : U8) (v : P) (log : Log P) :
    Log.apply s ((i, .ok v) :: log) =
      log.apply { s with byIndex := BMap.upsert u8Lt i (fun _ => v) s.byIndex } := rfl

theorem apply_error (s : ParseState P) (i : U8) (e : TransceiverError) (log : Log P) :
    Log.apply s ((i, .error e) :: log) = log.apply (s.fault i e) := rfl

/-- What a run of the loop over modules did: every module has been recorded, or decoding one of them panicked. -/
theorem parse_modules {d : ModuleDecoder P} {k : Identifier} {t : List Exchange} {g : ModuleId} {rds : List MemoryRead}
    {rs : List (Res Bytes)} (hd : d.reads k = .ok rds) (h : ReadResults t g rds rs) (l : List U8)
    (hl : ∀ i ∈ l, Mem g i.toNat) (s : ParseState P) :
    (∃ log : Log P, l.foldlM (parseOne d k rs) s = .ok (log.apply s) ∧ log.map Prod.fst = l ∧
      ∀ x ∈ log, Yields d t k x.1.toNat x.2) ∨
    (l.foldlM (parseOne d k rs) s = .panic ∧ ∃ i ∈ l, ∃ ds, DataOf t i.toNat rds ds ∧ d.parse k ds = .panic) := by
  induction l generalizing s with
  | nil => exact .inl ⟨[], rfl, rfl, by simp⟩
  | cons i l ih =>
    rw [List.foldlM_cons, parseOne_eq]
    rcases outcome_spec hd h (hl i List.mem_cons_self) with ⟨r, hr, hy⟩ | ⟨hr, ds, h1, h2⟩
    · rw [hr]
      dsimp only
      show (_ ∨ _)
      rcases ih (fun i hi => hl i (List.mem_cons_of_mem _ hi)) (record' s i r) with ⟨log, h1, h2, h3⟩ | ⟨h1, j, hj, h2⟩
      · refine .inl ⟨(i, r) :: log, h1, by rw [List.map_cons, h2], fun x hx => ?_⟩
        rcases List.mem_cons.1 hx with rfl | hx
        · exact hy
        · exact h3 x hx
      · exact .inr ⟨h1, j, List.mem_cons_of_mem _ hj, h2⟩
    · rw [hr]
      exact .inr ⟨rfl, i, List.mem_cons_self, ds, h1, h2⟩

theorem Spec.DataOf.mono {t t' : List Exchange} (h : ∀ x ∈ t, x ∈ t') {p : Nat} {rds : List MemoryRead} {ds : List Bytes}
    (hd : DataOf t p rds ds) : DataOf t' p rds ds :=
  Pairs.imp (fun _ _ ⟨x, hx, h'⟩ => ⟨x, h x hx, h'⟩) hd

theorem Spec.Yields.mono {d : ModuleDecoder P} {t t' : List Exchange} (h : ∀ x ∈ t, x ∈ t') {k : Identifier} {p : Nat}
    {r : Except TransceiverError P} (hy : Yields d t k p r) : Yields d t' k p r := by
  cases r with
  | ok v =>
    obtain ⟨rds, ds, h1, h2, h3⟩ := hy
    exact ⟨rds, ds, h1, h2.mono h, h3⟩
  | error e =>
    obtain ⟨rds, h1, ⟨rd, hrd, x, hx, h2⟩ | ⟨ds, e', h2, h3⟩⟩ := hy
    · exact ⟨rds, h1, .inl ⟨rd, hrd, x, h x hx, h2⟩⟩
    · exact ⟨rds, h1, .inr ⟨ds, e', h2.mono h, h3⟩⟩

/-- How the loop over kinds may end. -/
def KindsRun (d : ModuleDecoder P) (t : List Exchange) (kinds : List (Identifier × ModuleId)) (s : ParseState P)
    (o : Exec CtlError (ParseState P)) : Prop :=
  (∃ log : Log P, o = .ok (log.apply s) ∧ log.map Prod.fst = kinds.flatMap (fun k => k.2.toIndices) ∧
    ∀ x ∈ log, ∃ k ∈ kinds, Mem k.2 x.1.toNat ∧ Yields d t k.1 x.1.toNat x.2) ∨
  (∃ k ∈ kinds, ∃ e, o = .err (.transceiver (.decode e)) ∧ d.reads k.1 = .err e) ∨
  (o = .panic ∧ ∃ k ∈ kinds, d.reads k.1 = .panic ∨
    ∃ i : U8, Mem k.2 i.toNat ∧ ∃ rds ds, d.reads k.1 = .ok rds ∧ DataOf t i.toNat rds ds ∧ d.parse k.1 ds = .panic)

theorem parseKind_spec {d : ModuleDecoder P} (hl : ∀ k rds, d.reads k = .ok rds → ∀ rd ∈ rds, rd.len ≠ 0)
    {k : Identifier × ModuleId} {s : ParseState P} {t : List Exchange} {o : Exec CtlError (ParseState P)}
    (h : Runs (parseKind d s k) t o) (hc : Conforming t) : KindsRun d t [k] s o := by
  unfold parseKind at h
  cases hr : d.reads k.1 with
  | err e =>
    rw [hr] at h
    simp only [fail_bind, runs_fail] at h
    exact .inr (.inl ⟨k, List.mem_singleton.2 rfl, e, h.2, hr⟩)
  | panic =>
    rw [hr] at h
    simp only [panic_bind, runs_panic] at h
    exact .inr (.inr ⟨h.2, k, List.mem_singleton.2 rfl, .inl hr⟩)
  | ok rds =>
    rw [hr] at h
    simp only [ret_bind] at h
    obtain ⟨t₁, t₂, rs, rfl, h1, hc1, h2, -⟩ := runs_bind_ok h hc fun t o h hc => by
      obtain ⟨rs, rfl, -⟩ := readAll_spec (hl _ _ hr) h hc
      exact ⟨_, rfl⟩
    obtain ⟨rs', h3, h4⟩ := readAll_spec (hl _ _ hr) h1 hc1
    simp only [Exec.ok.injEq] at h3
    subst h3
    rw [runs_ofExec] at h2
    obtain ⟨rfl, rfl⟩ := h2
    rw [List.append_nil]
    rcases parse_modules hr h4 k.2.toIndices (fun i hi => mem_toIndices.1 hi) s with ⟨log, h5, h6, h7⟩ | ⟨h5, i, hi, ds, h6⟩
    · refine .inl ⟨log, h5, by simpa using h6, fun x hx => ⟨k, List.mem_singleton.2 rfl, ?_, h7 x hx⟩⟩
      rw [← mem_toIndices, ← h6]
      exact List.mem_map_of_mem hx
    · exact .inr (.inr ⟨h5, k, List.mem_singleton.2 rfl, .inr ⟨i, mem_toIndices.1 hi, rds, ds, hr, h6⟩⟩)

theorem parseKinds_spec {d : ModuleDecoder P} (hl : ∀ k rds, d.reads k = .ok rds → ∀ rd ∈ rds, rd.len ≠ 0)
    {kinds : List (Identifier × ModuleId)} {s : ParseState P} {t : List Exchange} {o : Exec CtlError (ParseState P)}
    (h : Runs (parseKinds d s kinds) t o) (hc : Conforming t) : KindsRun d t kinds s o := by
  induction kinds generalizing s t o with
  | nil =>
    simp only [parseKinds, pure_eq, runs_ret] at h
    exact .inl ⟨[], h.2, rfl, by simp⟩
  | cons k kinds ih =>
    unfold parseKinds at h
    rcases runs_bind.1 h with ⟨t₁, t₂, s', rfl, h1, h2⟩ | ⟨e, h1, rfl⟩ | ⟨h1, rfl⟩
    · have hc1 : Conforming t₁ := fun x hx => hc x (List.mem_append_left _ hx)
      have hc2 : Conforming t₂ := fun x hx => hc x (List.mem_append_right _ hx)
      rcases parseKind_spec hl h1 hc1 with ⟨log, h3, h4, h5⟩ | ⟨_, _, e, h3, -⟩ | ⟨h3, -⟩
      · simp only [Exec.ok.injEq] at h3
        subst h3
        rcases ih h2 hc2 with ⟨log', h6, h7, h8⟩ | ⟨k', hk', e, h6, h7⟩ | ⟨h6, k', hk', h7⟩
        · refine .inl ⟨log ++ log', ?_, ?_, fun x hx => ?_⟩
          · rw [h6, Log.apply, Log.apply, Log.apply, List.foldl_append]
          · rw [List.map_append, h4, h7, List.flatMap_cons]; simp
          · rcases List.mem_append.1 hx with hx | hx
            · obtain ⟨k', hk', hm, hy⟩ := h5 x hx
              rw [List.mem_singleton] at hk'
              subst hk'
              exact ⟨k', List.mem_cons_self, hm, hy.mono fun x hx => List.mem_append_left _ hx⟩
            · obtain ⟨k', hk', hm, hy⟩ := h8 x hx
              exact ⟨k', List.mem_cons_of_mem _ hk', hm, hy.mono fun x hx => List.mem_append_right _ hx⟩
        · exact .inr (.inl ⟨k', List.mem_cons_of_mem _ hk', e, h6, h7⟩)
        · refine .inr (.inr ⟨h6, k', List.mem_cons_of_mem _ hk', ?_⟩)
          rcases h7 with h7 | ⟨i, hi, rds, ds, h7, h8, h9⟩
          · exact .inl h7
          · exact .inr ⟨i, hi, rds, ds, h7, h8.mono fun x hx => List.mem_append_right _ hx, h9⟩
      · simp at h3
      · simp at h3
    · rcases parseKind_spec hl h1 hc with ⟨log, h3, -⟩ | ⟨k', hk', e', h3, h4⟩ | ⟨h3, -⟩
      · simp at h3
      · rw [List.mem_singleton] at hk'
        subst hk'
        exact .inr (.inl ⟨k', List.mem_cons_self, e', h3, h4⟩)
      · simp at h3
    · rcases parseKind_spec hl h1 hc with ⟨log, h3, -⟩ | ⟨k', hk', e', h3, h4⟩ | ⟨-, k', hk', h4⟩
      · simp at h3
      · simp at h3
      · rw [List.mem_singleton] at hk'
        subst hk'
        exact .inr (.inr ⟨rfl, k', List.mem_cons_self, h4⟩)

/-! ## The recorded result -/

/-- A recorded error. -/
def errorOf? : U8 × Except TransceiverError P → Option TransceiverError
  | (_, .error e) => some e
  | (_, .ok _) => none

theorem mem_clear {m : ModuleId} {i : U8} (h : i.toNat < 64) (p : Nat) :
    Mem (m.clear i).1 p ↔ Mem m p ∧ p ≠ i.toNat := by
  have : ¬ i ≥ ModuleId.maxIndex := by rw [ge_maxIndex]; omega
  simp only [ModuleId.clear, this, if_false, Mem, BitVec.getLsbD_and, BitVec.getLsbD_not, getLsbD_bit]
  by_cases hp : p < 64
  · by_cases hpi : p = i.toNat <;> simp [hp, hpi]
  · have : m.mask.getLsbD p = false := BitVec.getLsbD_of_ge _ _ (by omega)
    simp [this]

theorem apply_modules {log : Log P} (hk : ∀ x ∈ log, x.1.toNat < 64) (s : ParseState P) (p : Nat) :
    (Mem (log.apply s).modules p ↔ Mem s.modules p ∧ ¬ ∃ i e, (i, .error e) ∈ log ∧ i.toNat = p) ∧
    (Mem (log.apply s).failures.modules p ↔
      Mem s.failures.modules p ∨ ∃ i e, (i, .error e) ∈ log ∧ i.toNat = p) := by
  induction log generalizing s with
  | nil => simp [Log.apply]
  | cons a log ih =>
    have ih := ih (fun x hx => hk x (List.mem_cons_of_mem _ hx))
    have ha := hk a List.mem_cons_self
    obtain ⟨j, r⟩ := a
    cases r with
    | ok v =>
      rw [apply_ok, (ih _).1, (ih _).2]
      simp
    | error e =>
      rw [apply_error, (ih _).1, (ih _).2]
      have hx : (∃ i e', (i, Except.error e') ∈ (j, .error e) :: log ∧ i.toNat = p) ↔
          p = j.toNat ∨ ∃ i e, (i, .error e) ∈ log ∧ i.toNat = p := by
        constructor
        · rintro ⟨i, e', h, hp⟩
          rcases List.mem_cons.1 h with h | h
          · simp only [Prod.mk.injEq] at h
            exact .inl (by rw [← hp, h.1])
          · exact .inr ⟨i, e', h, hp⟩
        · rintro (rfl | ⟨i, e', h, hp⟩)
          · exact ⟨j, e, List.mem_cons_self, rfl⟩
          · exact ⟨i, e', List.mem_cons_of_mem _ h, hp⟩
      rw [hx]
      simp only [ParseState.fault, mem_clear ha, mem_set ha]
      constructor <;> grind

theorem apply_errors (log : Log P) (s : ParseState P) :
    (log.apply s).failures.errors = s.failures.errors ++ log.filterMap errorOf? := by
  induction log generalizing s with
  | nil => simp [Log.apply]
  | cons a log ih =>
    obtain ⟨i, r⟩ := a
    cases r with
    | ok v => rw [apply_ok, ih, List.filterMap_cons]; rfl
    | error e =>
      rw [apply_error, ih, List.filterMap_cons]
      simp [ParseState.fault, errorOf?]

theorem apply_byIndex {log : Log P} (hn : (log.map Prod.fst).Nodup) {s : ParseState P}
    (hs : BMap.Sorted u8Lt s.byIndex) :
    BMap.Sorted u8Lt (log.apply s).byIndex ∧
    ∀ i v, (i, v) ∈ (log.apply s).byIndex ↔ (i, .ok v) ∈ log ∨ ((i, v) ∈ s.byIndex ∧ ∀ v', (i, .ok v') ∉ log) := by
  induction log generalizing s with
  | nil => simpa [Log.apply] using hs
  | cons a log ih =>
    rw [List.map_cons, List.nodup_cons] at hn
    obtain ⟨j, r⟩ := a
    cases r with
    | error e =>
      have ih := @ih hn.2 (s.fault j e) hs
      rw [apply_error]
      refine ⟨ih.1, fun i v => ?_⟩
      rw [ih.2]
      simp [ParseState.fault]
    | ok w =>
      have hs' := BMap.upsert_sorted u8Lt_strict hs j (fun _ => w)
      have ih := @ih hn.2 ⟨s.modules, s.failures, BMap.upsert u8Lt j (fun _ => w) s.byIndex⟩ hs'
      rw [apply_ok]
      refine ⟨ih.1, fun i v => ?_⟩
      rw [ih.2, ← BMap.get?_iff_mem u8Lt_strict hs', BMap.get?_upsert u8Lt_strict hs, ← BMap.get?_iff_mem u8Lt_strict hs]
      have hj : ∀ r, (j, r) ∉ log := fun r hr => hn.1 (List.mem_map.2 ⟨_, hr, rfl⟩)
      by_cases hij : i = j
      · subst hij
        simp [hj, eq_comm]
      · simp [hij]

/-! ## The order of processing -/

theorem kinds_disjoint {m : ModuleId} {ids : List Identifier} {kinds : List (Identifier × ModuleId)}
    (h : Kinds m ids kinds) : (kinds.flatMap fun k => k.2.toIndices).Nodup := by
  rw [List.nodup_iff_pairwise_ne, List.pairwise_flatMap]
  refine ⟨fun k hk => (toIndices_sorted _).imp fun hlt => BitVec.ne_of_lt hlt, ?_⟩
  have hs := h.sorted
  have hm := h.mem
  clear h
  induction kinds with
  | nil => exact .nil
  | cons k kinds ih =>
    rw [List.pairwise_cons] at hs ⊢
    refine ⟨fun k' hk' i hi j hj hij => ?_, ih hs.2 fun id g hg => hm id g (List.mem_cons_of_mem _ hg)⟩
    subst hij
    have h1 := (hm k.1 k.2 List.mem_cons_self _).1 (mem_toIndices.1 hi)
    have h2 := (hm k'.1 k'.2 (List.mem_cons_of_mem _ hk') _).1 (mem_toIndices.1 hj)
    rw [h1, Option.some.injEq] at h2
    have h3 := hs.1 k' hk'
    rw [h2, identifierLt_strict.irrefl] at h3
    cases h3

theorem kinds_mem {m : ModuleId} {ids : List Identifier} {kinds : List (Identifier × ModuleId)}
    (h : Kinds m ids kinds) (ha : Aligned m ids) (i : U8) :
    i ∈ kinds.flatMap (fun k => k.2.toIndices) ↔ Mem m i.toNat := by
  rw [List.mem_flatMap, ← datum_isSome ha, Option.isSome_iff_exists]
  constructor
  · rintro ⟨k, hk, hi⟩
    exact ⟨k.1, (h.mem k.1 k.2 hk _).1 (mem_toIndices.1 hi)⟩
  · rintro ⟨id, hd⟩
    obtain ⟨g, hg⟩ := h.cover _ _ hd
    exact ⟨_, hg, mem_toIndices.2 ((h.mem id g hg _).2 hd)⟩

/-- The order in which kinds are processed. -/
theorem kinds_order {m : ModuleId} {ids : List Identifier} {kinds : List (Identifier × ModuleId)}
    (h : Kinds m ids kinds) : (kinds.flatMap fun k => k.2.toIndices).Pairwise fun i j =>
      ∃ a b, datum m ids i.toNat = some a ∧ datum m ids j.toNat = some b ∧ (identifierLt a b = true ∨ (a = b ∧ i < j)) := by
  rw [List.pairwise_flatMap]
  refine ⟨fun k hk => ?_, ?_⟩
  · refine List.Pairwise.imp_of_mem ?_ (toIndices_sorted k.2)
    intro i j hi hj hlt
    exact ⟨k.1, k.1, (h.mem k.1 k.2 hk _).1 (mem_toIndices.1 hi), (h.mem k.1 k.2 hk _).1 (mem_toIndices.1 hj),
      .inr ⟨rfl, hlt⟩⟩
  · refine List.Pairwise.imp_of_mem ?_ h.sorted
    intro k k' hk hk' hlt i hi j hj
    exact ⟨k.1, k'.1, (h.mem k.1 k.2 hk _).1 (mem_toIndices.1 hi), (h.mem k'.1 k'.2 hk' _).1 (mem_toIndices.1 hj),
      .inl hlt⟩

/-! ## Everything together -/

theorem pairs_of_zip {α β : Type} {R : α → β → Prop} {l : List α} {l' : List β} (hl : l.length = l'.length)
    (h : ∀ x ∈ l.zip l', R x.1 x.2) : Pairs R l l' := by
  induction l generalizing l' with
  | nil =>
    cases l' with
    | nil => exact .nil
    | cons => simp at hl
  | cons a l ih =>
    cases l' with
    | nil => simp at hl
    | cons b l' =>
      rw [List.zip_cons_cons] at h
      exact .cons (h (a, b) List.mem_cons_self) (ih (by simpa using hl) fun x hx => h x (List.mem_cons_of_mem _ hx))

theorem zip_of_pairs {α β : Type} {R : α → β → Prop} {l : List α} {l' : List β} (h : Pairs R l l') :
    l.length = l'.length ∧ ∀ x ∈ l.zip l', R x.1 x.2 := by
  induction h with
  | nil => simp
  | cons h _ ih =>
    refine ⟨by simp [ih.1], fun x hx => ?_⟩
    rw [List.zip_cons_cons] at hx
    rcases List.mem_cons.1 hx with rfl | hx
    · exact h
    · exact ih.2 x hx

theorem pairs_append {α β : Type} {R : α → β → Prop} {l₁ l₂ : List α} {l₁' l₂' : List β} (h₁ : Pairs R l₁ l₁')
    (h₂ : Pairs R l₂ l₂') : Pairs R (l₁ ++ l₂) (l₁' ++ l₂') := by
  induction h₁ with
  | nil => exact h₂
  | cons h _ ih => exact .cons h ih

/-- The modules with recorded errors, in order. -/
def errored (log : Log P) : List U8 := (log.filter fun x => (errorOf? x).isSome).map Prod.fst

theorem errored_pairs (log : Log P) {R : U8 → TransceiverError → Prop} (h : ∀ i e, (i, .error e) ∈ log → R i e) :
    Pairs R (errored log) (log.filterMap errorOf?) := by
  induction log with
  | nil => exact .nil
  | cons a log ih =>
    have ih := ih fun i e he => h i e (List.mem_cons_of_mem _ he)
    obtain ⟨i, r⟩ := a
    cases r with
    | ok v => exact ih
    | error e => exact .cons (h i e List.mem_cons_self) ih

theorem mem_errored {log : Log P} {i : U8} : i ∈ errored log ↔ ∃ e, (i, .error e) ∈ log := by
  simp only [errored, List.mem_map, List.mem_filter]
  constructor
  · rintro ⟨⟨j, r⟩, ⟨h1, h2⟩, rfl⟩
    cases r with
    | ok v => simp [errorOf?] at h2
    | error e => exact ⟨e, h1⟩
  · rintro ⟨e, h⟩
    exact ⟨(i, .error e), ⟨h, rfl⟩, rfl⟩

/-- A number that orders identifiers like their declaration does. -/
def identifierKey : Identifier → Nat
  | .known i => i.val
  | .other j x => 1000 * (j.val + 1) + x.toNat

theorem identifierKey_lt {a b : Identifier} (h : identifierLt a b = true) : identifierKey a < identifierKey b := by
  cases a with
  | known i =>
    have hi : i.val < 31 := i.isLt
    cases b with
    | known j => simpa [identifierLt, identifierKey] using h
    | other j y => simp only [identifierKey]; omega
  | other i x =>
    have hx := x.isLt
    cases b with
    | known j => simp [identifierLt] at h
    | other j y =>
      simp only [identifierLt, decide_eq_true_eq, Bool.or_eq_true, Bool.and_eq_true, beq_iff_eq, BitVec.lt_def] at h
      simp only [identifierKey]
      omega

/-- Kinds are ordered by their codes. -/
theorem identifierLt_byte {a b : U8} (h : identifierLt (Bf.ofByte a) (Bf.ofByte b) = true) : kindRank a < kindRank b := by
  have key : ∀ x : U8, (kindRank x = x.toNat ∧ x.toNat ≤ 0x1e ∧ identifierKey (Bf.ofByte x) = x.toNat) ∨
      (kindRank x = x.toNat ∧ 0x21 ≤ x.toNat ∧ x.toNat < 0x80 ∧ identifierKey (Bf.ofByte x) = 1000 + x.toNat) ∨
      (kindRank x = x.toNat ∧ 0x80 ≤ x.toNat ∧ x.toNat < 256 ∧ identifierKey (Bf.ofByte x) = 2000 + x.toNat) ∨
      (kindRank x = 256 + x.toNat ∧ 0x1f ≤ x.toNat ∧ x.toNat ≤ 0x20 ∧ identifierKey (Bf.ofByte x) = 3000 + x.toNat) := by
    decide +kernel
  have := identifierKey_lt h
  have ha := key a
  have hb := key b
  omega

theorem ofByte_injective {a b : U8} (h : (Bf.ofByte a : Identifier) = Bf.ofByte b) : a = b := by
  have key : ∀ x : U8, (Bf.toByte (Bf.ofByte x : Identifier)) = x := by decide +kernel
  rw [← key a, ← key b, h]

theorem keys_unique {κ V : Type} {log : List (κ × V)} (hn : (log.map Prod.fst).Nodup) {i : κ} {r r' : V}
    (hr : (i, r) ∈ log) (hr' : (i, r') ∈ log) : r = r' := by
  induction log with
  | nil => cases hr
  | cons a log ih =>
    rw [List.map_cons, List.nodup_cons] at hn
    rcases List.mem_cons.1 hr with hr | hr <;> rcases List.mem_cons.1 hr' with hr' | hr'
    · rw [← hr'] at hr; exact (Prod.mk.inj hr).2
    · exact absurd (List.mem_map.2 ⟨_, hr', by rw [← hr]⟩) hn.1
    · exact absurd (List.mem_map.2 ⟨_, hr, by rw [← hr']⟩) hn.1
    · exact ih hn.2 hr hr'

/-- How an operation that decodes module information may end. -/
def ParseEnds (d : ModuleDecoder P) (m : ModuleId) (t₁ t₂ : List Exchange) (o : Exec CtlError (Res P)) : Prop :=
  (∃ res, o = .ok res ∧ Decoded d m t₁ t₂ res ∧
    ∃ order : List U8, order.Nodup ∧ (∀ i, i ∈ order ↔ Failed res i.toNat) ∧
      order.Pairwise (fun i j => Before t₁ i.toNat j.toNat) ∧
      Pairs (fun i e => OwnError d t₁ t₂ i.toNat e) order res.failures.errors) ∨
  (∃ p b e, o = .err (.transceiver (.decode e)) ∧ Identified t₁ p b ∧ d.reads (Bf.ofByte b) = .err e) ∨
  (o = .panic ∧ ∃ p b, Identified t₁ p b ∧ (d.reads (Bf.ofByte b) = .panic ∨
    ∃ rds ds, d.reads (Bf.ofByte b) = .ok rds ∧ DataOf t₂ p rds ds ∧ d.parse (Bf.ofByte b) ds = .panic))

theorem parse_spec {d : ModuleDecoder P} (hl : ∀ k rds, d.reads k = .ok rds → ∀ rd ∈ rds, rd.len ≠ 0) {m : ModuleId}
    {t : List Exchange} {o : Exec CtlError (Res P)} (h : Runs (parseModulesByIdentifier d m) t o) (hc : Conforming t) :
    ∃ t₁ t₂, t = t₁ ++ t₂ ∧ ReadsOf m identifierByte t₁ ∧ ParseEnds d m t₁ t₂ o := by
  unfold parseModulesByIdentifier at h
  obtain ⟨t₁, t₂, a, rfl, h1, hc1, h2, hc2⟩ := runs_bind_ok h hc fun t o h hc => by
    obtain ⟨s, bytes, f, rfl, -⟩ := identifier_bytes h hc
    exact ⟨_, rfl⟩
  obtain ⟨s, bytes, f, h3, h4, h5, h6⟩ := identifier_bytes h1 hc1
  simp only [Exec.ok.injEq] at h3
  subst h3
  refine ⟨t₁, t₂, rfl, h4, ?_⟩
  have ha : Aligned s (bytes.map (Bf.ofByte : U8 → Identifier)) := by
    show _ = _
    rw [List.length_map]; exact h5.wf.1
  obtain ⟨kinds, h7, hk⟩ := split_kinds ha
  dsimp only at h2
  rw [h7, ofExec_ok, ret_bind] at h2
  have hid : ∀ p k, datum s (bytes.map (Bf.ofByte : U8 → Identifier)) p = some k →
      ∃ b, Identified t₁ p b ∧ Bf.ofByte b = k := by
    intro p k hd
    rw [datum_map] at hd
    unfold Identified
    rw [h6]
    cases hb : datum s bytes p with
    | none => rw [hb] at hd; simp at hd
    | some b =>
      rw [hb] at hd
      exact ⟨b, rfl, Option.some.inj hd⟩
  have hmemk : ∀ k ∈ kinds, ∀ p, Mem k.2 p → ∃ b, Identified t₁ p b ∧ Bf.ofByte b = k.1 := fun k hkk p hp =>
    hid p k.1 ((hk.mem k.1 k.2 hkk p).1 hp)
  have hne := hk.nonempty
  rcases runs_bind.1 h2 with ⟨t₃, t₄, s', rfl, h8, h9⟩ | ⟨e, h8, rfl⟩ | ⟨h8, rfl⟩
  · simp only [pure_eq, runs_ret] at h9
    obtain ⟨rfl, rfl⟩ := h9
    rw [List.append_nil] at hc2 ⊢
    rcases parseKinds_spec hl h8 hc2 with ⟨log, h10, h11, h12⟩ | ⟨_, _, e, h10, -⟩ | ⟨h10, -⟩
    · simp only [Exec.ok.injEq] at h10
      subst h10
      left
      have hnod := kinds_disjoint hk
      have hmem := kinds_mem hk ha
      have hord := kinds_order hk
      rw [← h11] at hnod hmem hord
      have hport : ∀ x ∈ log, Mem s x.1.toNat := fun x hx => (hmem x.1).1 (List.mem_map_of_mem hx)
      have happ := apply_modules (log := log) (fun x hx => mem_lt (hport x hx)) (⟨s, f, []⟩ : ParseState P)
      have herr := apply_errors log (⟨s, f, []⟩ : ParseState P)
      have hby := apply_byIndex hnod (s := (⟨s, f, []⟩ : ParseState P)) List.Pairwise.nil
      generalize log.apply (⟨s, f, []⟩ : ParseState P) = r at happ herr hby
      obtain ⟨hsort, hval⟩ := hby
      have huniq := fun i r r' => keys_unique hnod (i := i) (r := r) (r' := r')
      -- who succeeded
      have hval' : ∀ i v, (i, v) ∈ r.byIndex ↔ (i, .ok v) ∈ log := by
        intro i v
        rw [hval]
        simp
      have hsucc : ∀ p, Mem r.modules p ↔ ∃ i v, (i, .ok v) ∈ log ∧ i.toNat = p := by
        intro p
        rw [(happ p).1]
        constructor
        · rintro ⟨hp, hn⟩
          have hpp := ofNat_toNat_lt (mem_lt hp)
          have := (hmem (BitVec.ofNat 8 p)).2 (by rw [hpp]; exact hp)
          obtain ⟨⟨i, o⟩, hx, hxi⟩ := List.mem_map.1 this
          dsimp only at hxi
          subst hxi
          cases o with
          | ok v => exact ⟨_, v, hx, hpp⟩
          | error e => exact absurd ⟨_, e, hx, hpp⟩ hn
        · rintro ⟨i, v, hx, rfl⟩
          refine ⟨hport _ hx, fun ⟨j, e, hj, hji⟩ => ?_⟩
          have := BitVec.toNat_inj.1 hji
          subst this
          have := huniq _ _ _ hx hj
          cases this
      have hfail := fun p => (happ p).2
      -- the order of errors
      have hsplit : Partition m r.modules r.failures.modules := by
        intro p
        have h13 := h5.split p
        rw [hfail p, (happ p).1]
        dsimp only at h13 ⊢
        by_cases hx : ∃ i e, (i, Except.error e) ∈ log ∧ i.toNat = p
        · have : Mem s p := by
            obtain ⟨i, e, hi, rfl⟩ := hx
            exact hport _ hi
          simp only [hx, not_true_eq_false, and_false, or_true, not_false_eq_true, and_true, iff_true]
          exact h13.1.2 (.inl this)
        · simp only [hx, not_false_eq_true, and_true, or_false]
          exact h13
      have horder : (f.modules.toIndices ++ errored log).Nodup := by
        rw [List.nodup_append]
        refine ⟨(toIndices_sorted _).imp fun h => BitVec.ne_of_lt h, ?_, ?_⟩
        · unfold errored
          exact (hnod.sublist (List.filter_sublist.map _))
        · intro i hi j hj hij
          subst hij
          obtain ⟨e, he⟩ := mem_errored.1 hj
          exact (h5.split i.toNat).2 ⟨hport _ he, mem_toIndices.1 hi⟩
      have hmemo : ∀ i : U8, i ∈ f.modules.toIndices ++ errored log ↔ Mem r.failures.modules i.toNat := by
        intro i
        rw [List.mem_append, mem_toIndices, mem_errored, hfail]
        refine or_congr Iff.rfl ⟨fun ⟨e, he⟩ => ⟨i, e, he, rfl⟩, fun ⟨j, e, he, hj⟩ => ⟨e, ?_⟩⟩
        rw [← BitVec.toNat_inj.1 hj]; exact he
      have hyield : ∀ x ∈ log, ∃ b, Identified t₁ x.1.toNat b ∧ Yields d t₃ (Bf.ofByte b) x.1.toNat x.2 := by
        intro x hx
        obtain ⟨k, hk', hm, hy⟩ := h12 x hx
        obtain ⟨b, hb, hbk⟩ := hmemk k hk' _ hm
        exact ⟨b, hb, by rw [hbk]; exact hy⟩
      have hpairs : Pairs (fun i e => OwnError d t₁ t₃ i.toNat e) (f.modules.toIndices ++ errored log)
          r.failures.errors := by
        rw [herr]
        refine pairs_append (pairs_of_zip ?_ ?_) (errored_pairs log fun i e he => .inr (hyield _ he))
        · have := h5.wf.2.1
          rw [aligned_iff_toIndices] at this
          exact this.symm
        · intro x hx
          have hd : datum f.modules f.errors x.1.toNat = some x.2 := mem_zip_iff_datum.1 hx
          exact .inl ((h5.err x.1.toNat).symm.trans hd)
      have halen : Aligned r.failures.modules r.failures.errors := by
        rw [aligned_iff_toIndices, ← (zip_of_pairs hpairs).1]
        have hnodF : r.failures.modules.toIndices.Nodup := (toIndices_sorted _).imp fun h => BitVec.ne_of_lt h
        exact ((List.perm_ext_iff_of_nodup horder hnodF).2 fun i => by rw [hmemo, mem_toIndices]).length_eq
      have hzip := zip_of_sorted (m := r.modules) (l := r.byIndex)
        (by
          rw [List.pairwise_map]
          exact hsort.imp fun h => by simpa [u8Lt] using h)
        (fun i => by
          rw [hsucc, List.mem_map]
          constructor
          · rintro ⟨⟨j, v⟩, hj, rfl⟩
            exact ⟨j, v, (hval' j v).1 hj, rfl⟩
          · rintro ⟨j, v, hj, hji⟩
            have := BitVec.toNat_inj.1 hji
            subst this
            exact ⟨_, (hval' j v).2 hj, rfl⟩)
      refine ⟨_, rfl, ⟨⟨hzip.1, halen, fun p => (hsplit p).2⟩, hsplit, ?_, ?_⟩, _, horder, hmemo, ?_, hpairs⟩
      · intro p v hv
        have hpp := ofNat_toNat_lt (datum_lt hv)
        have : (BitVec.ofNat 8 p, v) ∈ r.modules.toIndices.zip (r.byIndex.map Prod.snd) :=
          mem_zip_iff_datum.2 (by rw [hpp]; exact hv)
        rw [hzip.2, hval'] at this
        have := hyield _ this
        dsimp only at this
        rw [hpp] at this
        exact this
      · intro p hp
        have hpp := ofNat_toNat_lt (mem_lt hp)
        have hi : BitVec.ofNat 8 p ∈ f.modules.toIndices ++ errored log := (hmemo _).2 (by rw [hpp]; exact hp)
        obtain ⟨n, hn, hni⟩ := List.mem_iff_getElem.1 hi
        have hlen := (zip_of_pairs hpairs).1
        have hz := (zip_of_pairs hpairs).2 ((f.modules.toIndices ++ errored log)[n], r.failures.errors[n]'(by omega))
          (by
            rw [List.mem_iff_getElem]
            exact ⟨n, by rw [List.length_zip]; omega, by rw [List.getElem_zip]⟩)
        dsimp only at hz
        rw [hni, hpp] at hz
        exact ⟨_, hz⟩
      · have hnone : ∀ i : U8, Mem f.modules i.toNat → okAmong t₁ i.toNat = none := by
          intro i hi
          rw [h6, datum_none fun hs => (h5.split i.toNat).2 ⟨hs, hi⟩]
          rfl
        rw [List.pairwise_append]
        refine ⟨?_, ?_, ?_⟩
        · refine List.Pairwise.imp_of_mem ?_ (toIndices_sorted f.modules)
          intro i j hi hj hlt
          unfold Before
          rw [hnone i (mem_toIndices.1 hi), hnone j (mem_toIndices.1 hj)]
          exact hlt
        · have : (errored log).Sublist (log.map Prod.fst) := List.filter_sublist.map _
          refine (hord.sublist this).imp ?_
          rintro i j ⟨a, b, ha', hb', hab⟩
          obtain ⟨x, hx, rfl⟩ := hid _ _ ha'
          obtain ⟨y, hy, rfl⟩ := hid _ _ hb'
          unfold Before
          rw [show okAmong t₁ i.toNat = some [x] from hx, show okAmong t₁ j.toNat = some [y] from hy]
          rcases hab with hab | ⟨hab, hlt⟩
          · exact .inl (identifierLt_byte hab)
          · exact .inr ⟨by rw [ofByte_injective hab], hlt⟩
        · intro i hi j hj
          obtain ⟨e, he⟩ := mem_errored.1 hj
          obtain ⟨b, hb, -⟩ := hyield _ he
          unfold Before
          rw [hnone i (mem_toIndices.1 hi), show okAmong t₁ j.toNat = some [b] from hb]
          trivial
    · simp at h10
    · simp at h10
  · right; left
    rcases parseKinds_spec hl h8 hc2 with ⟨log, h10, -⟩ | ⟨k, hkk, e', h10, h11⟩ | ⟨h10, -⟩
    · simp at h10
    · simp only [Exec.err.injEq] at h10
      obtain ⟨p, hp⟩ : ∃ p, Mem k.2 p := hne k hkk
      obtain ⟨b, hb, hbk⟩ := hmemk k hkk p hp
      exact ⟨p, b, e', by rw [h10], hb, by rw [hbk]; exact h11⟩
    · simp at h10
  · right; right
    rcases parseKinds_spec hl h8 hc2 with ⟨log, h10, -⟩ | ⟨k, hkk, e', h10, h11⟩ | ⟨-, k, hkk, h11⟩
    · simp at h10
    · simp at h10
    · rcases h11 with h11 | ⟨i, hi, rds, ds, h11, h12, h13⟩
      · obtain ⟨p, hp⟩ : ∃ p, Mem k.2 p := hne k hkk
        obtain ⟨b, hb, hbk⟩ := hmemk k hkk p hp
        exact ⟨rfl, p, b, hb, .inl (by rw [hbk]; exact h11)⟩
      · obtain ⟨b, hb, hbk⟩ := hmemk k hkk _ hi
        exact ⟨rfl, _, b, hb, .inr ⟨rds, ds, by rw [hbk]; exact h11, h12, by rw [hbk]; exact h13⟩⟩

end Xcvr
