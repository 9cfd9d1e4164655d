import Verif.Lemmas.Exchange
import Verif.Props.Results

/-! # Lemmas about reading module memory: splitting, one message, the loop -/

namespace Xcvr

open Spec Prog Controller

/-! ## Chunks -/

section
variable {T : Type}

theorem chunks_nil (n : Nat) (hn : 0 < n) : chunks n ([] : List T) = [] := by
  unfold chunks
  have : (([] : List T).length + (n - 1)) / n = 0 := by
    rw [List.length_nil, Nat.zero_add, Nat.div_eq_zero_iff]; omega
  rw [this]; rfl

theorem chunks_cons {n : Nat} (hn : 0 < n) {l : List T} (hl : l ≠ []) :
    chunks n l = l.take n :: chunks n (l.drop n) := by
  unfold chunks
  have hpos : 0 < l.length := List.length_pos_iff.2 hl
  have hlen : (l.length + (n - 1)) / n = ((l.drop n).length + (n - 1)) / n + 1 := by
    rw [List.length_drop]
    by_cases h : n ≤ l.length
    · have : l.length + (n - 1) = (l.length - n + (n - 1)) + n := by omega
      rw [this, Nat.add_div_right _ hn]
    · have h0 : l.length - n = 0 := by omega
      rw [h0, Nat.zero_add, Nat.div_eq_of_lt (show n - 1 < n by omega)]
      have : l.length + (n - 1) = (l.length - 1) + n := by omega
      rw [this, Nat.add_div_right _ hn, Nat.div_eq_of_lt (by omega)]
  rw [hlen, List.range_succ_eq_map, List.map_cons, List.map_map]
  congr 1
  · simp
  · apply List.map_congr_left
    intro i _
    simp only [Function.comp, List.drop_drop, Nat.succ_eq_add_one, Nat.add_mul, Nat.one_mul]
    rw [Nat.add_comm]

theorem chunks_induction {n : Nat} (hn : 0 < n) {motive : List T → Prop} (nil : motive [])
    (cons : ∀ l, l ≠ [] → motive (l.drop n) → motive l) : ∀ l, motive l := by
  intro l
  induction hk : l.length using Nat.strongRecOn generalizing l with
  | _ k ih =>
    by_cases h : l = []
    · subst h; exact nil
    · refine cons l h (ih _ ?_ _ rfl)
      have := List.length_pos_iff.2 h
      rw [List.length_drop]; omega

theorem chunks_flatten {n : Nat} (hn : 0 < n) (l : List T) : (chunks n l).flatten = l := by
  induction l using chunks_induction hn with
  | nil => rw [chunks_nil n hn]; rfl
  | cons l hl ih => rw [chunks_cons hn hl, List.flatten_cons, ih, List.take_append_drop]

theorem mem_chunks {n : Nat} (hn : 0 < n) {l c : List T} (h : c ∈ chunks n l) : c ≠ [] ∧ c.length ≤ n := by
  induction l using chunks_induction hn with
  | nil => rw [chunks_nil n hn] at h; simp at h
  | cons l hl ih =>
    rw [chunks_cons hn hl, List.mem_cons] at h
    rcases h with rfl | h
    · constructor
      · intro h0
        rw [List.take_eq_nil_iff] at h0
        rcases h0 with h0 | h0
        · omega
        · exact hl h0
      · rw [List.length_take]; omega
    · exact ih h

end

/-! ## Splitting a read -/

theorem fromIndexIter_sorted {l : List U8} (hs : l.Pairwise (· < ·)) (hl : ∀ i ∈ l, i.toNat < 64) :
    ∃ g, ModuleId.fromIndexIter l = .ok g ∧ g.toIndices = l := by
  obtain ⟨g, hg, hm⟩ := C02_from_indices_ok l hl
  refine ⟨g, hg, (eq_toIndices hs fun x => ?_).symm⟩
  rw [hm]
  exact ⟨fun h => ⟨x, h, rfl⟩, fun ⟨i, hi, he⟩ => BitVec.eq_of_toNat_eq he ▸ hi⟩

theorem splitLargeReads_spec (m : ModuleId) (rd : MemoryRead) (hlen : rd.len ≠ 0) :
    ∃ gs, splitLargeReads m rd = .ok gs ∧ (gs.map ModuleId.toIndices).flatten = m.toIndices ∧
      ∀ g ∈ gs, g.toIndices ≠ [] ∧ card g * rd.len.toNat ≤ maxPayloadSize := by
  have h0 : 0 < rd.len.toNat := by
    rcases Nat.eq_zero_or_pos rd.len.toNat with h | h
    · exact absurd (BitVec.eq_of_toNat_eq h) hlen
    · exact h
  have h1 : rd.len.toNat < 256 := rd.len.isLt
  have hn : 0 < maxPayloadSize / rd.len.toNat := Nat.div_pos (by simp [maxPayloadSize]; omega) h0
  have hfl := chunks_flatten hn m.toIndices
  have hmem : ∀ c ∈ chunks (maxPayloadSize / rd.len.toNat) m.toIndices, c ≠ [] ∧ c.length ≤ maxPayloadSize / rd.len.toNat :=
    fun c hc => mem_chunks hn hc
  have hs : (chunks (maxPayloadSize / rd.len.toNat) m.toIndices).flatten.Pairwise (· < ·) := by
    rw [hfl]; exact toIndices_sorted m
  have hb : ∀ i ∈ (chunks (maxPayloadSize / rd.len.toNat) m.toIndices).flatten, i.toNat < 64 :=
    by
    rw [hfl]; exact fun i hi => mem_lt (mem_toIndices.1 hi)
  rw [← hfl]
  unfold splitLargeReads
  generalize chunks (maxPayloadSize / rd.len.toNat) m.toIndices = cs at hmem hs hb
  clear hfl
  induction cs with
  | nil => exact ⟨[], rfl, rfl, by simp⟩
  | cons c cs ih =>
    rw [List.flatten_cons, List.pairwise_append] at hs
    obtain ⟨gs, g1, g2, g3⟩ := ih (fun c hc => hmem c (List.mem_cons_of_mem _ hc)) hs.2.1
      (fun i hi => hb i (by rw [List.flatten_cons]; exact List.mem_append_right _ hi))
    obtain ⟨g, hg, hg'⟩ := fromIndexIter_sorted hs.1
      (fun i hi => hb i (by rw [List.flatten_cons]; exact List.mem_append_left _ hi))
    refine ⟨g :: gs, by rw [List.mapM_cons, hg, g1]; rfl, by simp [hg', g2], ?_⟩
    intro x hx
    rcases List.mem_cons.1 hx with rfl | hx
    · obtain ⟨hc1, hc2⟩ := hmem c List.mem_cons_self
      refine ⟨hg' ▸ hc1, ?_⟩
      have : card x = c.length := by rw [← count_eq_card, ← length_toIndices, hg']
      rw [this]
      exact Nat.le_trans (Nat.mul_le_mul_right _ hc2) (Nat.div_mul_le_self _ _)
    · exact g3 x hx

/-! ## One message -/

theorem fits_iff {m : ModuleId} {rd : MemoryRead} :
    fitsInOneMessage m rd = true ↔ card m * rd.len.toNat ≤ maxPayloadSize := by
  simp [fitsInOneMessage, count_eq_card]

theorem readImplOneMessage_eq {m : ModuleId} {rd : MemoryRead} (hf : card m * rd.len.toNat ≤ maxPayloadSize) :
    readImplOneMessage m rd = (do
      let response ← Prog.call (.host (.read m rd))
      match response.message.body with
      | .spResponse (.read modules failed rd') =>
        let data ← Prog.ofExec (Exec.unwrap response.data)
        let n ← Prog.ofExec (Exec.unwrap (SpResponse.read modules failed rd').expectedDataLen)
        let (readData, errorData) ← Prog.ofExec (splitAt data n)
        let data ← Prog.ofExec (chunksExact rd.len.toNat readData)
        if data.length ≠ modules.count then Prog.panic
        let failures ← Prog.ofExec (Controller.deserializeHwErrors failed errorData)
        return ⟨modules, data, failures⟩
      | other => .fail (.unexpectedMessage other)) := by
  unfold readImplOneMessage
  rw [fits_iff.2 hf]
  rfl

theorem chunksExact_spec {n k : Nat} (hn : 0 < n) {d : Bytes} (hd : d.length = k * n) :
    ∃ cs, chunksExact n d = .ok cs ∧ cs.length = k ∧ ∀ i (hi : i < cs.length), cs[i] = (d.drop (i * n)).take n := by
  unfold chunksExact
  rw [if_neg (by omega), hd, Nat.mul_div_cancel _ hn]
  exact ⟨_, rfl, by simp, fun i hi => by simp⟩

theorem readImplOneMessage_spec {m : ModuleId} {rd : MemoryRead} (hlen : rd.len ≠ 0)
    (hf : card m * rd.len.toNat ≤ maxPayloadSize) {t : List Exchange} {o : Exec CtlError (Res Bytes)}
    (h : Runs (readImplOneMessage m rd) t o) (hc : Conforming t) :
    ∃ r res, t = [(Call.host (.read m rd), r)] ∧ o = .ok res ∧ Reports id m t res := by
  have h0 : 0 < rd.len.toNat := by
    rcases Nat.eq_zero_or_pos rd.len.toNat with h | h
    · exact absurd (BitVec.eq_of_toNat_eq h) hlen
    · exact h
  rw [readImplOneMessage_eq hf] at h
  obtain ⟨resp, R, t', rfl, hb, ha, h, -⟩ := runs_query h hc
  have hk := ha.kind
  cases R with
  | read s f rd' =>
    simp only [SameKind] at hk
    subst hk
    have hsz := ha.size
    cases hd : resp.data with
    | none => rw [hd] at hsz; simp [expectedTrailing] at hsz
    | some d =>
      rw [hd] at hsz
      simp only [Option.map_some, expectedTrailing, Option.some.injEq] at hsz
      obtain ⟨cs, c1, c2, c3⟩ := chunksExact_spec (d := d.take (card s * rd'.len.toNat)) h0
        (by rw [List.length_take]; exact Nat.min_eq_left (by omega))
      obtain ⟨errs, h1, h2, h3⟩ := deserialize_spec (aligned_drop hsz)
      simp only [hb, hd, Exec.unwrap, ofExec_ok, ret_bind, SpResponse.expectedDataLen, count_eq_card,
        splitAt_ok (show card s * rd'.len.toNat ≤ d.length by omega), c1, h1, c2, ne_eq, not_true, if_false, pure_eq,
        runs_ret] at h
      obtain ⟨rfl, rfl⟩ := h
      refine ⟨_, _, rfl, rfl, reports_of hb hd (ha.split _ _ _ rfl rfl) c2 ?_ h2 ?_⟩
      · intro p
        rw [datum_of_getElem c2 p _ c3]
        simp only [record, responseModules, recordSize, Option.map_id_fun, id]
        split
        · rename_i hp
          have hr := rank_lt_card hp
          have : rank s p * rd'.len.toNat + rd'.len.toNat ≤ card s * rd'.len.toNat := by
            rw [← Nat.succ_mul]; exact Nat.mul_le_mul_right _ hr
          rw [List.drop_take, List.take_take, Nat.min_eq_left (by omega)]
        · rfl
      · intro p
        rw [h3]; simp [errorCode, responseModules, recordSize]
  | _ => simp [SameKind] at hk

/-! ## Merging -/

theorem reports_mem_ok {P : Type} {g : Bytes → P} {m : ModuleId} {t : List Exchange} {res : Res P}
    (h : Reports g m t res) {p : Nat} : (okAmong t p).isSome ↔ Mem res.modules p := by
  have := datum_isSome h.wf.1 (p := p)
  rw [← this]
  have := h.ok p
  unfold okAt at this
  rw [this, Option.isSome_map]

theorem reports_mem_err {P : Type} {g : Bytes → P} {m : ModuleId} {t : List Exchange} {res : Res P}
    (h : Reports g m t res) {p : Nat} : (errAmong t p).isSome ↔ Mem res.failures.modules p := by
  have := datum_isSome h.wf.2.1 (p := p)
  rw [← this]
  have := h.err p
  unfold errAt at this
  rw [this]

theorem reports_ok_none {P : Type} {g : Bytes → P} {m : ModuleId} {t : List Exchange} {res : Res P}
    (h : Reports g m t res) {p : Nat} (hp : ¬ Mem res.modules p) : okAmong t p = none := by
  rw [← Option.not_isSome_iff_eq_none, reports_mem_ok h]; exact hp

theorem reports_err_none {P : Type} {g : Bytes → P} {m : ModuleId} {t : List Exchange} {res : Res P}
    (h : Reports g m t res) {p : Nat} (hp : ¬ Mem res.failures.modules p) : errAmong t p = none := by
  rw [← Option.not_isSome_iff_eq_none, reports_mem_err h]; exact hp

theorem reports_merge {P : Type} {g : Bytes → P} {m₁ m₂ M : ModuleId} {t₁ t₂ : List Exchange} {a b : Res P}
    (ha : Reports g m₁ t₁ a) (hb : Reports g m₂ t₂ b) (hd : ∀ p, ¬ (Mem m₁ p ∧ Mem m₂ p))
    (hM : ∀ p, Mem M p ↔ Mem m₁ p ∨ Mem m₂ p) :
    ∃ r, a.merge b = some r ∧ Reports g M (t₁ ++ t₂) r := by
  have hsome : ∃ r, a.merge b = some r := by
    unfold ModuleResult.merge
    rw [if_neg, if_neg]
    · exact ⟨_, rfl⟩
    · simp only [Bool.not_eq_true', Bool.not_eq_false, isEmpty_iff, mem_and]
      exact fun p hp => hd p ⟨((ha.split p).1).2 (.inr hp.1), ((hb.split p).1).2 (.inr hp.2)⟩
    · simp only [Bool.not_eq_true', Bool.not_eq_false, isEmpty_iff, mem_and]
      exact fun p hp => hd p ⟨((ha.split p).1).2 (.inl hp.1), ((hb.split p).1).2 (.inl hp.2)⟩
  obtain ⟨r, hr⟩ := hsome
  obtain ⟨w, hf, hs, he, ho⟩ := C18_merge a b r ha.wf hb.wf hr
  have key : ∀ p, (Mem r.modules p ↔ Mem a.modules p ∨ Mem b.modules p) := by
    intro p
    have hf' := hf p
    have hs' := hs p
    have h1 := ha.split p
    have h2 := hb.split p
    have := hd p
    grind
  refine ⟨r, hr, w, ?_, ?_, ?_⟩
  · intro p
    have hf' := hf p
    have h1 := ha.split p
    have h2 := hb.split p
    have := hd p
    have := hM p
    have := key p
    grind
  · intro p
    rw [okAmong_append]
    by_cases hp : Mem r.modules p
    · rw [ho p hp]
      split
      · rename_i hpa
        rw [ha.ok p]
        obtain ⟨x, hx⟩ := Option.isSome_iff_exists.1 ((reports_mem_ok ha).2 hpa)
        rw [hx]; rfl
      · rename_i hpa
        rw [hb.ok p, reports_ok_none ha hpa, Option.none_or]
    · have hn : ¬ Mem a.modules p ∧ ¬ Mem b.modules p := by
        have := key p
        grind
      rw [reports_ok_none ha hn.1, reports_ok_none hb hn.2]
      exact datum_none hp
  · intro p
    rw [errAmong_append, he p]
    split
    · rename_i hpa
      rw [ha.err p]
      obtain ⟨x, hx⟩ := Option.isSome_iff_exists.1 ((reports_mem_err ha).2 hpa)
      rw [hx]; rfl
    · rename_i hpa
      rw [hb.err p, reports_err_none ha hpa, Option.none_or]

/-! ## The loop over groups -/

theorem readLoop_spec {rd : MemoryRead} (hlen : rd.len ≠ 0) {gs : List ModuleId}
    (hf : ∀ g ∈ gs, card g * rd.len.toNat ≤ maxPayloadSize) {m₀ M : ModuleId} {t₀ : List Exchange} {res₀ : Res Bytes}
    (h₀ : Reports id m₀ t₀ res₀) (hM : ∀ p, Mem M p ↔ Mem m₀ p ∨ ∃ g ∈ gs, Mem g p)
    (hd₀ : ∀ g ∈ gs, ∀ p, ¬ (Mem m₀ p ∧ Mem g p)) (hd : gs.Pairwise fun g g' => ∀ p, ¬ (Mem g p ∧ Mem g' p))
    {t : List Exchange} {o : Exec CtlError (Res Bytes)} (h : Runs (readLoop rd res₀ gs) t o) (hc : Conforming t) :
    ∃ res, o = .ok res ∧ t.map Prod.fst = gs.map (fun g => Call.host (.read g rd)) ∧ Reports id M (t₀ ++ t) res := by
  induction gs generalizing m₀ t₀ res₀ t with
  | nil =>
    simp only [readLoop, pure_eq, runs_ret] at h
    obtain ⟨rfl, rfl⟩ := h
    have : M = m₀ := moduleId_ext_mem fun p => by rw [hM]; simp
    subst this
    exact ⟨_, rfl, rfl, by simpa using h₀⟩
  | cons g gs ih =>
    rw [List.pairwise_cons] at hd
    simp only [readLoop] at h
    rw [runs_bind] at h
    rcases h with ⟨t₁, t₂, a, rfl, h1, h2⟩ | ⟨e, h1, rfl⟩ | ⟨h1, rfl⟩
    · rw [conforming_append] at hc
      obtain ⟨r, res, rfl, hres, hrep⟩ := readImplOneMessage_spec hlen (hf g List.mem_cons_self) h1 hc.1
      simp only [Exec.ok.injEq] at hres
      subst hres
      obtain ⟨a', ha', hrep'⟩ := reports_merge (M := m₀.merge g) h₀ hrep (hd₀ g List.mem_cons_self) (fun p => mem_merge)
      simp only [ha', Exec.unwrap, ofExec_ok, ret_bind] at h2
      obtain ⟨res, h3, h4, h5⟩ := ih (fun g' hg' => hf g' (List.mem_cons_of_mem _ hg')) hrep'
        (fun p => by rw [hM, mem_merge]; simp [or_assoc])
        (fun g' hg' p hp => by
          rw [mem_merge] at hp
          rcases hp.1 with h | h
          · exact hd₀ g' (List.mem_cons_of_mem _ hg') p ⟨h, hp.2⟩
          · exact hd.1 g' hg' p ⟨h, hp.2⟩)
        hd.2 h2 hc.2
      exact ⟨res, h3, by simp [h4], by simpa using h5⟩
    · obtain ⟨r, res, -, h', -⟩ := readImplOneMessage_spec hlen (hf g List.mem_cons_self) h1 hc
      simp at h'
    · obtain ⟨r, res, -, h', -⟩ := readImplOneMessage_spec hlen (hf g List.mem_cons_self) h1 hc
      simp at h'

/-- The groups of a split read: what `C33` says of them. -/
theorem split_facts {m : ModuleId} {gs : List ModuleId} (h : (gs.map ModuleId.toIndices).flatten = m.toIndices) :
    (∀ p, Mem m p ↔ ∃ g ∈ gs, Mem g p) ∧ gs.Pairwise (fun g g' => ∀ p q, Mem g p → Mem g' q → p < q) := by
  constructor
  · apply forall_port_of_u8
    · intro p hp
      constructor
      · intro h; exact absurd (mem_lt h) (by omega)
      · rintro ⟨g, -, h⟩; exact absurd (mem_lt h) (by omega)
    · intro i
      rw [← mem_toIndices, ← h, List.mem_flatten]
      constructor
      · rintro ⟨l, hl, hi⟩
        obtain ⟨g, hg, rfl⟩ := List.mem_map.1 hl
        exact ⟨g, hg, mem_toIndices.1 hi⟩
      · rintro ⟨g, hg, hi⟩
        exact ⟨_, List.mem_map.2 ⟨g, hg, rfl⟩, mem_toIndices.2 hi⟩
  · have hs := toIndices_sorted m
    rw [← h, List.pairwise_flatten] at hs
    have := hs.2
    rw [List.pairwise_map] at this
    refine this.imp ?_
    intro g g' hgg p q hp hq
    have hp' := mem_lt hp
    have hq' := mem_lt hq
    have := hgg (BitVec.ofNat 8 p) (mem_toIndices.2 (by rw [ofNat_toNat_lt hp']; exact hp)) (BitVec.ofNat 8 q)
      (mem_toIndices.2 (by rw [ofNat_toNat_lt hq']; exact hq))
    rw [BitVec.lt_def, ofNat_toNat_lt hp', ofNat_toNat_lt hq'] at this
    exact this

theorem readImpl_spec {m : ModuleId} {rd : MemoryRead} (hlen : rd.len ≠ 0) {t : List Exchange}
    {o : Exec CtlError (Res Bytes)} (h : Runs (readImpl m rd) t o) (hc : Conforming t) :
    ∃ res gs, o = .ok res ∧ splitLargeReads m rd = .ok gs ∧
      t.map Prod.fst = gs.map (fun g => Call.host (.read g rd)) ∧ Reports id m t res := by
  obtain ⟨gs, g1, g2, g3⟩ := splitLargeReads_spec m rd hlen
  unfold readImpl at h
  by_cases h0 : m.count = 0
  · have hidx : m.toIndices = [] := List.eq_nil_of_length_eq_zero (by rw [length_toIndices, h0])
    have hgs : gs = [] := by
      cases gs with
      | nil => rfl
      | cons g gs =>
        rw [hidx] at g2
        simp only [List.map_cons, List.flatten_cons, List.append_eq_nil_iff] at g2
        exact absurd g2.1 (g3 g List.mem_cons_self).1
    have hsucc : (ModuleResult.success m [] : Option (Res Bytes)) = some ⟨m, [], .success⟩ := by
      unfold ModuleResult.success; rw [h0]; rfl
    rw [if_pos (.inl h0), hsucc] at h
    simp only [Exec.unwrap, ofExec_ok, runs_ret] at h
    obtain ⟨rfl, rfl⟩ := h
    have hno : ∀ p, ¬ Mem m p := by
      intro p hp
      have := rank_lt_card hp
      rw [← count_eq_card, h0] at this
      omega
    refine ⟨_, gs, rfl, g1, by rw [hgs]; rfl, ⟨?_, ?_, ?_⟩, ?_, ?_, ?_⟩
    · show _ = _
      rw [← count_eq_card]; exact h0.symm
    · show (0 : Nat) = card ModuleId.empty
      decide
    · exact fun p hp => hno p hp.1
    · intro p
      simp [FailedModules.success, mem_empty]
    · intro p; exact datum_none (hno p)
    · intro p; exact datum_none mem_empty
  · rw [if_neg (fun h => h.elim h0 hlen), g1] at h
    simp only [ofExec_ok, ret_bind] at h
    have hsf := split_facts g2
    have hdis : gs.Pairwise fun g g' => ∀ p, ¬ (Mem g p ∧ Mem g' p) :=
      hsf.2.imp fun h p hp => Nat.lt_irrefl p (h p p hp.1 hp.2)
    cases gs with
    | nil =>
      exfalso
      apply h0
      rw [← length_toIndices, ← g2]; rfl
    | cons g gs =>
      rw [List.pairwise_cons] at hdis
      simp only [] at h
      rw [runs_bind] at h
      rcases h with ⟨t₁, t₂, a, rfl, h1, h2⟩ | ⟨e, h1, rfl⟩ | ⟨h1, rfl⟩
      · rw [conforming_append] at hc
        obtain ⟨r, res, rfl, hres, hrep⟩ := readImplOneMessage_spec hlen (g3 g List.mem_cons_self).2 h1 hc.1
        simp only [Exec.ok.injEq] at hres
        subst hres
        obtain ⟨res, h3, h4, h5⟩ := readLoop_spec hlen (fun g' hg' => (g3 g' (List.mem_cons_of_mem _ hg')).2) hrep
          (M := m) (fun p => by rw [hsf.1]; simp) hdis.1 hdis.2 h2 hc.2
        exact ⟨res, _, h3, g1, by simp [h4], h5⟩
      · obtain ⟨r, res, -, h', -⟩ := readImplOneMessage_spec hlen (g3 g List.mem_cons_self).2 h1 hc
        simp at h'
      · obtain ⟨r, res, -, h', -⟩ := readImplOneMessage_spec hlen (g3 g List.mem_cons_self).2 h1 hc
        simp at h'

end Xcvr
