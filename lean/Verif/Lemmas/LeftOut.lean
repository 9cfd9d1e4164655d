import Verif.Lemmas.Parse
import Verif.Spec.LeftOut

/-! # Lemmas about modules that the answers leave out -/

namespace Xcvr

open Spec Prog Controller Decode

variable {P : Type}

theorem readAll_length {g : ModuleId} {rds : List MemoryRead} {t : List Exchange} {rs : List (Res Bytes)}
    (h : Runs (readAll g rds) t (.ok rs)) : rs.length = rds.length := by
  induction rds generalizing t rs with
  | nil =>
    simp only [readAll, pure_eq, runs_ret] at h
    cases h.2; rfl
  | cons rd rds ih =>
    unfold readAll at h
    obtain ⟨t₁, t₂, a, -, -, h⟩ := runs_bind_okay h
    obtain ⟨t₃, t₄, b, -, h3, h4⟩ := runs_bind_okay h
    simp only [pure_eq, runs_ret, Exec.ok.injEq] at h4
    rw [h4.2, List.length_cons, List.length_cons, ih h3]

/-! ## Lengths of data -/

theorem chunksExact_length {n : Nat} {d : Bytes} {cs : List Bytes} (h : chunksExact n d = .ok cs) :
    ∀ c ∈ cs, c.length = n := by
  unfold chunksExact at h
  split at h
  · cases h
  · rename_i hn
    cases h
    intro c hc
    obtain ⟨i, hi, rfl⟩ := List.mem_map.1 hc
    rw [List.mem_range] at hi
    rw [List.length_take, List.length_drop]
    have h1 : (i + 1) * n ≤ d.length / n * n := Nat.mul_le_mul_right _ hi
    have h2 := Nat.div_mul_le_self d.length n
    rw [Nat.add_mul, Nat.one_mul] at h1
    omega

theorem mem_removeData {T : Type} {m m' : ModuleId} {d : List T} {x : T} (h : x ∈ (removeModuleData m d m').2) : x ∈ d := by
  simp only [removeModuleData] at h
  obtain ⟨y, hy, rfl⟩ := List.mem_map.1 h
  exact (List.of_mem_zip (List.mem_filter.1 hy).1).2

theorem mem_merged {a b c : Res Bytes} (h : a.merge b = some c) {x : Bytes} (hx : x ∈ c.data) : x ∈ a.data ∨ x ∈ b.data := by
  unfold ModuleResult.merge at h
  split at h
  · cases h
  · split at h
    · cases h
    · cases h
      dsimp only at hx
      simp only [mergeModuleData, mergeLoop_eq] at hx
      obtain ⟨⟨i, y⟩, hy, rfl⟩ := List.mem_map.1 hx
      rw [mem_mergePairs _ _ (zip_sorted _ _) (zip_sorted _ _)] at hy
      rcases hy with hy | ⟨hy, -⟩
      · exact .inr (mem_removeData (List.of_mem_zip hy).2)
      · exact .inl (mem_removeData (List.of_mem_zip hy).2)

theorem oneMessage_length {g : ModuleId} {rd : MemoryRead} {t : List Exchange} {r : Res Bytes}
    (h : Runs (readImplOneMessage g rd) t (.ok r)) : ∀ c ∈ r.data, c.length = rd.len.toNat := by
  unfold readImplOneMessage at h
  dsimp only at h
  split at h
  · obtain ⟨_, _, _, -, hp, -⟩ := runs_bind_okay h
    cases (runs_panic.1 hp).2
  · obtain ⟨_, _, resp, -, -, h⟩ := runs_bind_okay h
    split at h
    · obtain ⟨_, _, _, -, -, h⟩ := runs_bind_okay h
      obtain ⟨_, _, _, -, -, h⟩ := runs_bind_okay h
      obtain ⟨_, _, x, -, -, h⟩ := runs_bind_okay h
      obtain ⟨_, _, cs, -, hc, h⟩ := runs_bind_okay h
      have hc := (runs_ofExec.1 hc).2
      split at h
      · obtain ⟨_, _, _, -, hp, -⟩ := runs_bind_okay h
        cases (runs_panic.1 hp).2
      · obtain ⟨_, _, _, -, -, h⟩ := runs_bind_okay h
        have h := (runs_ret.1 h).2
        cases h
        exact chunksExact_length hc.symm
    · cases (runs_fail.1 h).2

theorem readLoop_length {rd : MemoryRead} {gs : List ModuleId} {t : List Exchange} {a r : Res Bytes}
    (ha : ∀ c ∈ a.data, c.length = rd.len.toNat) (h : Runs (readLoop rd a gs) t (.ok r)) :
    ∀ c ∈ r.data, c.length = rd.len.toNat := by
  induction gs generalizing t a with
  | nil =>
    unfold readLoop at h
    have h := (runs_ret.1 h).2
    cases h
    exact ha
  | cons g gs ih =>
    unfold readLoop at h
    obtain ⟨_, _, b, -, h1, h⟩ := runs_bind_okay h
    obtain ⟨_, _, c, -, h2, h⟩ := runs_bind_okay h
    have h2 := (runs_ofExec.1 h2).2
    refine ih (fun x hx => ?_) h
    have hm : a.merge b = some c := by
      cases hm : a.merge b with
      | none => rw [hm] at h2; cases h2
      | some y => rw [hm] at h2; cases h2; rfl
    rcases mem_merged hm hx with hx | hx
    · exact ha x hx
    · exact oneMessage_length h1 x hx

theorem readImpl_length {g : ModuleId} {rd : MemoryRead} {t : List Exchange} {r : Res Bytes}
    (h : Runs (readImpl g rd) t (.ok r)) : ∀ c ∈ r.data, c.length = rd.len.toNat := by
  unfold readImpl at h
  split at h
  · have h := (runs_ofExec.1 h).2
    unfold ModuleResult.success at h
    split at h
    · cases h
      intro c hc
      cases hc
    · cases h
  · obtain ⟨_, _, gs, -, -, h⟩ := runs_bind_okay h
    split at h
    · cases (runs_panic.1 h).2
    · obtain ⟨_, _, a, -, h1, h⟩ := runs_bind_okay h
      exact readLoop_length (oneMessage_length h1) h

/-- The data of a read that asks for something is not empty. -/
theorem readAll_nonempty {g : ModuleId} {rds : List MemoryRead} (hl : ∀ rd ∈ rds, rd.len ≠ 0) {t : List Exchange}
    {rs : List (Res Bytes)} (h : Runs (readAll g rds) t (.ok rs)) (i : U8) : ∀ r ∈ rs, r.nth i ≠ some [] := by
  induction rds generalizing t rs with
  | nil =>
    simp only [readAll, pure_eq, runs_ret] at h
    cases h.2
    intro r hr
    cases hr
  | cons rd rds ih =>
    unfold readAll at h
    obtain ⟨_, _, a, -, h1, h⟩ := runs_bind_okay h
    obtain ⟨_, _, b, -, h2, h⟩ := runs_bind_okay h
    simp only [pure_eq, runs_ret, Exec.ok.injEq] at h
    rw [h.2]
    intro r hr hn
    rcases List.mem_cons.1 hr with rfl | hr
    · unfold ModuleResult.nth at hn
      obtain ⟨x, hx, hn⟩ := Option.map_eq_some_iff.1 hn
      have hm := (List.of_mem_zip (List.mem_of_find?_eq_some hx)).2
      have h3 := readImpl_length h1 _ hm
      rw [hn] at h3
      refine hl rd List.mem_cons_self (BitVec.eq_of_toNat_eq ?_)
      rw [← h3]
      rfl
    · exact ih (fun rd h => hl rd (List.mem_cons_of_mem _ h)) h2 r hr hn

/-- The data that is there before the first that is not. -/
theorem present_short {α : Type} {l : List (Option α)} (h : none ∈ l) :
    ((l.takeWhile Option.isSome).filterMap fun x => x).length < l.length := by
  induction l with
  | nil => cases h
  | cons x xs ih =>
    cases x with
    | none => simp
    | some a =>
      have h : none ∈ xs := by simpa using h
      simpa using ih h

/-- The decoder asks for every read it makes. -/
def AsksAll (d : ModuleDecoder P) : Prop :=
  ∀ id rds rs, d.reads id = .ok rds → rs.length < rds.length → d.asks id rs = true

theorem parseFrom_panics {d : ModuleDecoder P} (hd : AsksAll d) {id : Identifier} {rds : List MemoryRead}
    {results : List (Res Bytes)} {i : U8} (hr : d.reads id = .ok rds) (hl : results.length = rds.length)
    (h : LeftOut results i) : parseFrom d id results i = .panic := by
  have hs : none ∈ results.map fun r => r.nth i := by
    obtain ⟨r, h1, h2⟩ := h.missing
    exact List.mem_map.2 ⟨r, h1, h2⟩
  have hp := present_short hs
  unfold parseFrom
  dsimp only
  rw [if_pos]
  rw [Bool.and_eq_true, decide_eq_true_eq]
  refine ⟨hp, hd _ _ _ hr ?_⟩
  rw [List.length_map, hl] at hp
  exact hp

theorem leftOut_noError {results : List (Res Bytes)} {i : U8} (h : LeftOut results i) :
    results.findSome? (fun r => r.nthErr i) = none := by
  rw [List.findSome?_eq_none_iff]
  exact h.noError

theorem fold_panics {d : ModuleDecoder P} {id : Identifier} {results : List (Res Bytes)} {i : U8} (h : LeftOut results i)
    (hp : parseFrom d id results i = .panic) {l : List U8} (hi : i ∈ l) (s : ParseState P) :
    l.foldlM (parseOne d id results) s = .panic := by
  induction l generalizing s with
  | nil => cases hi
  | cons j js ih =>
    rw [List.foldlM_cons]
    by_cases hj : j = i
    · subst hj
      rw [parseOne_eq, outcome, leftOut_noError h]
      simp only [hp]
      rfl
    · have hi : i ∈ js := by
        rcases List.mem_cons.1 hi with h | h
        · exact absurd h.symm hj
        · exact h
      rw [parseOne_eq]
      cases ho : outcome d id results j with
      | ok r => exact ih hi _
      | panic => rfl
      | err e =>
        unfold outcome at ho
        split at ho
        · cases ho
        · split at ho <;> cases ho

theorem parseKinds_append {d : ModuleDecoder P} {ks ks' : List (Identifier × ModuleId)} {s s' : ParseState P}
    {t t' : List Exchange} {o : Exec CtlError (ParseState P)} (h : Runs (parseKinds d s ks) t (.ok s'))
    (h' : Runs (parseKinds d s' ks') t' o) : Runs (parseKinds d s (ks ++ ks')) (t ++ t') o := by
  induction ks generalizing s t with
  | nil =>
    simp only [parseKinds, pure_eq, runs_ret, Exec.ok.injEq] at h
    obtain ⟨rfl, rfl⟩ := h
    exact h'
  | cons k ks ih =>
    unfold parseKinds at h
    obtain ⟨t₁, t₂, a, rfl, h1, h2⟩ := runs_bind_okay h
    rw [List.cons_append]
    unfold parseKinds
    rw [List.append_assoc]
    exact runs_bind.2 (.inl ⟨_, _, _, rfl, h1, ih h2⟩)

theorem parseKind_panics {d : ModuleDecoder P} {k : Identifier × ModuleId} {rds : List MemoryRead} {s : ParseState P}
    {results : List (Res Bytes)} {t : List Exchange} {i : U8} (hr : d.reads k.1 = .ok rds)
    (ht : Runs (readAll k.2 rds) t (.ok results)) (hi : Mem k.2 i.toNat) (h : LeftOut results i)
    (hp : parseFrom d k.1 results i = .panic) : Runs (parseKind d s k) t .panic := by
  unfold parseKind
  rw [hr]
  refine runs_bind.2 (.inl ⟨[], t, rds, rfl, runs_ret.2 ⟨rfl, rfl⟩, ?_⟩)
  refine runs_bind.2 (.inl ⟨t, [], results, (List.append_nil t).symm, ht, ?_⟩)
  rw [fold_panics h hp (mem_toIndices.2 hi) s]
  exact runs_panic.2 ⟨rfl, rfl⟩

theorem query_panics {d : ModuleDecoder P} {m : ModuleId} {t : List Exchange} {k : Identifier × ModuleId}
    {results : List (Res Bytes)} (ha : Answered d m t k results) {i : U8} (hi : Mem k.2 i.toNat) (h : LeftOut results i)
    (hp : ∀ rds t, d.reads k.1 = .ok rds → Runs (readAll k.2 rds) t (.ok results) → parseFrom d k.1 results i = .panic) :
    Runs (parseModulesByIdentifier d m) t .panic := by
  obtain ⟨t₀, t₁, t₂, ident, before, later, s, rds, rfl, h1, h2, h3, h4, h5⟩ := ha.so_far
  unfold parseModulesByIdentifier
  refine runs_bind.2 (.inl ⟨_, _, _, rfl, h1, ?_⟩)
  rw [h2]
  refine runs_bind.2 (.inl ⟨[], _, _, rfl, runs_ret.2 ⟨rfl, rfl⟩, ?_⟩)
  refine runs_bind.2 (.inr (.inr ⟨parseKinds_append h3 ?_, rfl⟩))
  unfold parseKinds
  exact runs_bind.2 (.inr (.inr ⟨parseKind_panics h4 h5 hi h (hp rds _ h4 h5), rfl⟩))

/-! ## The decoders -/

theorem asksAll_of {d : ModuleDecoder P} {a b : Nat} {sff cmis : Exec DecodeError (List MemoryRead)}
    (hr : ∀ id, d.reads id = byKind id sff cmis) (hs : ∀ rds, sff = .ok rds → rds.length = a)
    (hc : ∀ rds, cmis = .ok rds → rds.length = b)
    (ha : ∀ id (rs : List Bytes),
      (id = Identifier.qsfpPlusSff8636 ∨ id = Identifier.qsfp28 → rs.length < a → d.asks id rs = true) ∧
      (id = Identifier.qsfpPlusCmis ∨ id = Identifier.qsfpDD → rs.length < b → d.asks id rs = true)) : AsksAll d := by
  intro id rds rs h hl
  rw [hr] at h
  unfold byKind at h
  split at h
  · rename_i hk
    rw [hs _ h] at hl
    exact (ha id rs).1 hk hl
  · split at h
    · rename_i hk
      rw [hc _ h] at hl
      exact (ha id rs).2 hk hl
    · cases h

theorem asksByKind_sff {id : Identifier} (h : id = Identifier.qsfpPlusSff8636 ∨ id = Identifier.qsfp28) (a b : Bool) :
    asksByKind id a b = a := by
  unfold asksByKind
  rw [if_pos h]

theorem asksByKind_cmis {id : Identifier} (h : id = Identifier.qsfpPlusCmis ∨ id = Identifier.qsfpDD) (a b : Bool) :
    asksByKind id a b = b := by
  unfold asksByKind
  rw [if_neg (by rcases h with rfl | rfl <;> decide), if_pos h]

theorem asksAll_power : AsksAll PowerControl.decoder := by
  refine asksAll_of (a := 1) (b := 1) (fun id => rfl) (fun rds h => by cases h; rfl) (fun rds h => by cases h; rfl) ?_
  intro id rs
  refine ⟨fun h hl => ?_, fun h hl => ?_⟩
  · exact (asksByKind_sff h _ _).trans (decide_eq_true hl)
  · exact (asksByKind_cmis h _ _).trans (decide_eq_true hl)

theorem asksAll_vendor : AsksAll VendorInfo.decoder := by
  refine asksAll_of (a := 1) (b := 8) (fun id => rfl) (fun rds h => by cases h; rfl) (fun rds h => by cases h; rfl) ?_
  intro id rs
  refine ⟨fun h hl => ?_, fun h hl => ?_⟩
  · exact (asksByKind_sff h _ _).trans (decide_eq_true hl)
  · exact asksByKind_cmis h _ _

theorem asksAll_monitors : AsksAll Monitors.decoder := by
  refine asksAll_of (a := 6) (b := 10) (fun id => rfl) (fun rds h => by cases h; rfl) (fun rds h => by cases h; rfl) ?_
  intro id rs
  refine ⟨fun h hl => ?_, fun h hl => ?_⟩
  · exact (asksByKind_sff h _ _).trans (decide_eq_true hl)
  · exact (asksByKind_cmis h _ _).trans (decide_eq_true hl)

theorem asksAll_datapath : AsksAll Datapath.decoder := by
  refine asksAll_of (a := 5) (b := 15) (fun id => rfl) (fun rds h => by cases h; rfl) (fun rds h => by cases h; rfl) ?_
  intro id rs
  refine ⟨fun h hl => ?_, fun h hl => ?_⟩
  · exact (asksByKind_sff h _ _).trans (decide_eq_true hl)
  · exact (asksByKind_cmis h _ _).trans (decide_eq_true hl)

/-! ## The memory model -/

theorem memoryModel_two {id : Identifier} {rds : List MemoryRead} (h : MemoryModel.decoder.reads id = .ok rds) :
    rds.length = 2 ∧ (∀ rd ∈ rds, rd.len ≠ 0) ∧ ((id = Identifier.qsfpPlusSff8636 ∨ id = Identifier.qsfp28) ∨
      (id = Identifier.qsfpPlusCmis ∨ id = Identifier.qsfpDD)) := by
  change byKind id _ _ = _ at h
  unfold byKind at h
  split at h
  · rename_i hk
    cases h
    exact ⟨rfl, by simp, .inl hk⟩
  · split at h
    · rename_i hk
      cases h
      exact ⟨rfl, by simp, .inr hk⟩
    · cases h

theorem flat_sff (b : U8) : (b &&& ((1 : U8) <<< (2 : U8)) = 0) ↔ ¬ b.toNat / 4 % 2 = 1 := by
  revert b; decide +kernel

theorem flat_cmis (b : U8) : (b &&& ((1 : U8) <<< (7 : U8)) = 0) ↔ ¬ b.toNat / 128 % 2 = 1 := by
  revert b; decide +kernel

/-- What `parse` gets of the answers to two reads. -/
theorem parseFrom_two (d : ModuleDecoder P) (id : Identifier) (r r' : Res Bytes) (i : U8) :
    (r.nth i = none → d.asks id [] = true → parseFrom d id [r, r'] i = .panic) ∧
    (∀ b, r.nth i = some b → r'.nth i = none →
      parseFrom d id [r, r'] i = if d.asks id [b] = true then .panic else d.parse id [b]) := by
  refine ⟨fun h ha => ?_, fun b h h' => ?_⟩
  · simp [parseFrom, h, ha]
  · simp [parseFrom, h, h']

theorem memoryModel_leftOut {id : Identifier} {rds : List MemoryRead} {results : List (Res Bytes)} {i : U8}
    (hr : MemoryModel.decoder.reads id = .ok rds) (hl : results.length = rds.length)
    (hb : ∀ r ∈ results, r.nth i ≠ some []) (h : LeftOut results i) :
    (SaysFlat id results i → parseFrom MemoryModel.decoder id results i = .ok .flat) ∧
    (¬ SaysFlat id results i → parseFrom MemoryModel.decoder id results i = .panic) := by
  obtain ⟨h2, -, hk⟩ := memoryModel_two hr
  rw [h2] at hl
  obtain ⟨r, r', rfl⟩ : ∃ r r', results = [r, r'] := by
    match results, hl with
    | [r, r'], _ => exact ⟨r, r', rfl⟩
  obtain ⟨h3, h4⟩ := parseFrom_two MemoryModel.decoder id r r' i
  cases hn : r.nth i with
  | none =>
    refine ⟨?_, fun _ => h3 hn ?_⟩
    · rintro ⟨_, _, _, _, h5, h6, -⟩
      cases h5
      rw [hn] at h6
      cases h6
    · rcases hk with hk | hk
      · exact asksByKind_sff hk _ _
      · exact asksByKind_cmis hk _ _
  | some b =>
    have hn' : r'.nth i = none := by
      obtain ⟨x, h5, h6⟩ := h.missing
      rcases List.mem_cons.1 h5 with rfl | h5
      · rw [hn] at h6; cases h6
      · rw [List.mem_singleton] at h5
        rw [← h5]; exact h6
    rw [h4 b hn hn']
    cases b with
    | nil => exact absurd hn (hb r List.mem_cons_self)
    | cons st more =>
      have hd : SaysFlat id [r, r'] i ↔
          ((id = Identifier.qsfpPlusSff8636 ∨ id = Identifier.qsfp28) ∧ st.toNat / 4 % 2 = 1 ∨
            (id = Identifier.qsfpPlusCmis ∨ id = Identifier.qsfpDD) ∧ st.toNat / 128 % 2 = 1) := by
        constructor
        · rintro ⟨_, _, st', more', h5, h6, h7⟩
          cases h5
          rw [hn] at h6
          cases h6
          exact h7
        · exact fun h7 => ⟨r, _, st, more, rfl, hn, h7⟩
      rw [hd]
      rcases hk with hk | hk
      · have hx : ¬ (id = Identifier.qsfpPlusCmis ∨ id = Identifier.qsfpDD) := by
          rcases hk with rfl | rfl <;> decide
        have ha : MemoryModel.decoder.asks id [st :: more] = decide (st &&& ((1 : U8) <<< (2 : U8)) = 0) :=
          asksByKind_sff hk _ _
        have hp : MemoryModel.decoder.parse id [st :: more] = byKind id _ _ := rfl
        rw [ha, hp, byKind, if_pos hk]
        refine ⟨fun h7 => ?_, fun h7 => if_pos (decide_eq_true ((flat_sff st).2 fun h8 => h7 (.inl ⟨hk, h8⟩)))⟩
        rcases h7 with ⟨-, h7⟩ | ⟨h7, -⟩
        · rw [if_neg (fun h8 => (flat_sff st).1 (of_decide_eq_true h8) h7)]
          show (if st &&& ((1 : U8) <<< (2 : U8)) = 0 then _ else _) = _
          rw [if_neg (fun h8 => (flat_sff st).1 h8 h7)]
          rfl
        · exact absurd h7 hx
      · have hx : ¬ (id = Identifier.qsfpPlusSff8636 ∨ id = Identifier.qsfp28) := by
          rcases hk with rfl | rfl <;> decide
        have ha : MemoryModel.decoder.asks id [st :: more] = decide (st &&& ((1 : U8) <<< (7 : U8)) = 0) :=
          asksByKind_cmis hk _ _
        have hp : MemoryModel.decoder.parse id [st :: more] = byKind id _ _ := rfl
        rw [ha, hp, byKind, if_neg hx, if_pos hk]
        refine ⟨fun h7 => ?_, fun h7 => if_pos (decide_eq_true ((flat_cmis st).2 fun h8 => h7 (.inr ⟨hk, h8⟩)))⟩
        rcases h7 with ⟨h7, -⟩ | ⟨-, h7⟩
        · exact absurd h7 hx
        · rw [if_neg (fun h8 => (flat_cmis st).1 (of_decide_eq_true h8) h7)]
          show (if st &&& ((1 : U8) <<< (7 : U8)) = 0 then _ else _) = _
          rw [if_neg (fun h8 => (flat_cmis st).1 h8 h7)]
          rfl

/-- A module whose value is settled keeps it to the end of its kind. -/
theorem fold_keeps {d : ModuleDecoder P} {id : Identifier} {results : List (Res Bytes)} {i : U8} (h : LeftOut results i)
    {v : P} (hp : parseFrom d id results i = .ok v) {l : List U8} {s s' : ParseState P} (hs : BMap.Sorted u8Lt s.byIndex)
    (hf : l.foldlM (parseOne d id results) s = .ok s') :
    (i ∈ l ∨ BMap.get? s.byIndex i = some v → BMap.get? s'.byIndex i = some v) := by
  induction l generalizing s with
  | nil =>
    cases hf
    rintro (h | h)
    · cases h
    · exact h
  | cons j js ih =>
    rw [List.foldlM_cons] at hf
    obtain ⟨s1, h1, hf⟩ := Exec.bind_eq_ok.1 hf
    rw [parseOne_eq] at h1
    by_cases hj : j = i
    · subst hj
      rw [outcome, leftOut_noError h] at h1
      simp only [hp] at h1
      cases h1
      intro _
      refine ih (BMap.upsert_sorted u8Lt_strict hs _ _) hf (.inr ?_)
      show BMap.get? (BMap.upsert u8Lt j (fun _ => v) s.byIndex) j = _
      rw [BMap.get?_upsert u8Lt_strict hs, if_pos rfl]
    · cases ho : outcome d id results j with
      | panic => rw [ho] at h1; cases h1
      | err e => rw [ho] at h1; cases h1
      | ok x =>
        rw [ho] at h1
        cases h1
        have hb : BMap.Sorted u8Lt (record' s j x).byIndex ∧
            BMap.get? (record' s j x).byIndex i = BMap.get? s.byIndex i := by
          cases x with
          | error e => exact ⟨hs, rfl⟩
          | ok w =>
            refine ⟨BMap.upsert_sorted u8Lt_strict hs _ _, ?_⟩
            show BMap.get? (BMap.upsert u8Lt j (fun _ => w) s.byIndex) i = _
            rw [BMap.get?_upsert u8Lt_strict hs, if_neg (fun e => hj e.symm)]
        rintro (hi | hi)
        · rcases List.mem_cons.1 hi with e | hi
          · exact absurd e.symm hj
          · exact ih hb.1 hf (.inl hi)
        · exact ih hb.1 hf (.inr (hb.2.trans hi))

end Xcvr
