import Verif.Spec.Ports

namespace Xcvr

open Spec

/-! Helper lemmas about module sets. -/

theorem mem_lt {m : ModuleId} {p : Nat} (h : Mem m p) : p < 64 := by
  unfold Mem at h
  exact BitVec.lt_of_getLsbD h

theorem decide_mem (m : ModuleId) (p : Nat) : decide (Mem m p) = m.mask.getLsbD p := by
  cases h : m.mask.getLsbD p <;> simp [Mem, h]

theorem moduleId_ext_mem {m n : ModuleId} (h : ∀ p, Mem m p ↔ Mem n p) : m = n := by
  ext1
  apply BitVec.eq_of_getLsbD_eq
  intro i _
  have := h i
  unfold Mem at this
  exact Bool.eq_iff_iff.mpr this

theorem getLsbD_bit (i : U8) (p : Nat) : (ModuleId.bit i).getLsbD p = (decide (p = i.toNat) && decide (p < 64)) := by
  unfold ModuleId.bit
  rw [← BitVec.twoPow_eq, BitVec.getLsbD_twoPow]
  simp only [eq_comm, Bool.and_comm]
  by_cases h : p = i.toNat
  · subst h; simp
  · simp [h]

theorem and_bit_ne_zero (x : U64) (i : U8) (h : i.toNat < 64) :
    (x &&& ModuleId.bit i != 0) = x.getLsbD i.toNat := by
  cases hx : x.getLsbD i.toNat with
  | true =>
    have : x &&& ModuleId.bit i ≠ 0 := by
      intro hz
      have := congrArg (fun b => b.getLsbD i.toNat) hz
      rw [BitVec.getLsbD_and, getLsbD_bit, hx] at this
      simp [h] at this
    simpa using this
  | false =>
    have : x &&& ModuleId.bit i = 0 := by
      apply BitVec.eq_of_getLsbD_eq
      intro p hp
      by_cases hpi : p = i.toNat
      · subst hpi; simp [hx]
      · simp [getLsbD_bit, hpi]
    simp [this]

theorem ge_maxIndex (i : U8) : i ≥ ModuleId.maxIndex ↔ 64 ≤ i.toNat := by
  simp [ModuleId.maxIndex, BitVec.le_def]

theorem isSet_lt {m : ModuleId} {i : U8} (h : i.toNat < 64) : m.isSet i = .ok (decide (Mem m i.toNat)) := by
  have : ¬ i ≥ ModuleId.maxIndex := by rw [ge_maxIndex]; omega
  simp only [ModuleId.isSet, this, if_false, and_bit_ne_zero _ _ h, decide_mem]

theorem isSet_ge {m : ModuleId} {i : U8} (h : 64 ≤ i.toNat) : m.isSet i = .error ⟨i⟩ := by
  have : i ≥ ModuleId.maxIndex := by rw [ge_maxIndex]; omega
  simp only [ModuleId.isSet, this, if_true]

theorem has_eq {m : ModuleId} {i : U8} (h : i.toNat < 64) : m.has i = decide (Mem m i.toNat) := by
  simp only [ModuleId.has, and_bit_ne_zero _ _ h, decide_mem]

theorem mem_indexRange {i : U8} : i ∈ ModuleId.indexRange ↔ i.toNat < 64 := by
  simp only [ModuleId.indexRange, List.mem_map, List.mem_range]
  constructor
  · rintro ⟨a, ha, rfl⟩; simp; omega
  · intro h; exact ⟨i.toNat, h, by simp⟩

theorem isSet_indexRange {m : ModuleId} {i : U8} (h : i ∈ ModuleId.indexRange) :
    m.isSet i = .ok (decide (Mem m i.toNat)) := isSet_lt (mem_indexRange.mp h)

theorem toIndices_eq (m : ModuleId) :
    m.toIndices = ModuleId.indexRange.filter fun i => decide (Mem m i.toNat) := by
  unfold ModuleId.toIndices
  apply List.filter_congr
  intro i hi
  simp [isSet_indexRange hi]

theorem mem_toIndices {m : ModuleId} {i : U8} : i ∈ m.toIndices ↔ Mem m i.toNat := by
  rw [toIndices_eq, List.mem_filter, mem_indexRange]
  simp only [decide_eq_true_eq]
  exact ⟨fun h => h.2, fun h => ⟨mem_lt h, h⟩⟩

theorem indexRange_sorted : ModuleId.indexRange.Pairwise (· < ·) := by
  unfold ModuleId.indexRange
  rw [List.pairwise_map]
  have h := List.pairwise_lt_range (n := 64)
  refine List.Pairwise.imp_of_mem ?_ h
  intro a b ha hb hab
  simp only [List.mem_range] at ha hb
  simp [BitVec.lt_def]; omega

theorem toIndices_sorted (m : ModuleId) : m.toIndices.Pairwise (· < ·) := by
  rw [toIndices_eq]
  exact indexRange_sorted.filter _

theorem length_toIndices (m : ModuleId) : m.toIndices.length = m.count := by
  rw [toIndices_eq, ModuleId.indexRange, List.filter_map, List.length_map, ← List.countP_eq_length_filter]
  unfold ModuleId.count ModuleId.countOnes
  apply List.countP_congr
  intro p hp
  simp only [List.mem_range] at hp
  have : p % 256 = p := by omega
  simp [Mem, this]

theorem count_eq_card (m : ModuleId) : m.count = card m := by
  simp only [ModuleId.count, ModuleId.countOnes, card, rank, decide_mem]

theorem sorted_unique {l₁ l₂ : List U8} (h₁ : l₁.Pairwise (· < ·)) (h₂ : l₂.Pairwise (· < ·))
    (h : ∀ x, x ∈ l₁ ↔ x ∈ l₂) : l₁ = l₂ := by
  induction l₁ generalizing l₂ with
  | nil =>
    cases l₂ with
    | nil => rfl
    | cons b bs => exact absurd ((h b).mpr (by simp)) (by simp)
  | cons a as ih =>
    cases l₂ with
    | nil => exact absurd ((h a).mp (by simp)) (by simp)
    | cons b bs =>
      rw [List.pairwise_cons] at h₁ h₂
      have hab : a = b := by
        have h1 := (h a).mp (by simp)
        have h2 := (h b).mpr (by simp)
        rcases List.mem_cons.mp h1 with h1 | h1
        · exact h1
        · rcases List.mem_cons.mp h2 with h2 | h2
          · exact h2.symm
          · have x := h₂.1 a h1
            have y := h₁.1 b h2
            rw [BitVec.lt_def] at x y; omega
      subst hab
      congr 1
      apply ih h₁.2 h₂.2
      intro x
      have hx := h x
      simp only [List.mem_cons] at hx
      constructor
      · intro hm
        have hne : x ≠ a := by
          intro e; subst e; have := h₁.1 x hm; rw [BitVec.lt_def] at this; omega
        exact (hx.mp (Or.inr hm)).resolve_left hne
      · intro hm
        have hne : x ≠ a := by
          intro e; subst e; have := h₂.1 x hm; rw [BitVec.lt_def] at this; omega
        exact (hx.mpr (Or.inr hm)).resolve_left hne

theorem eq_toIndices {l : List U8} {m : ModuleId} (h : l.Pairwise (· < ·)) (hm : ∀ x, x ∈ l ↔ Mem m x.toNat) :
    l = m.toIndices :=
  sorted_unique h (toIndices_sorted m) fun x => by rw [hm x, mem_toIndices]

/-! Membership in the results of the set operations. -/

theorem mem_merge {m n : ModuleId} {p : Nat} : Mem (m.merge n) p ↔ Mem m p ∨ Mem n p := by
  simp [Mem, ModuleId.merge]

theorem mem_or {m n : ModuleId} {p : Nat} : Mem (m.or n) p ↔ Mem m p ∨ Mem n p := by
  simp [Mem, ModuleId.or]

theorem mem_and {m n : ModuleId} {p : Nat} : Mem (m.and n) p ↔ Mem m p ∧ Mem n p := by
  simp [Mem, ModuleId.and]

theorem mem_remove {m n : ModuleId} {p : Nat} : Mem (m.remove n) p ↔ Mem m p ∧ ¬ Mem n p := by
  simp only [Mem, ModuleId.remove, BitVec.getLsbD_and, BitVec.getLsbD_not, Bool.and_eq_true]
  constructor
  · rintro ⟨h1, h2⟩; cases h : n.mask.getLsbD p <;> simp_all
  · rintro ⟨h1, h2⟩; have := BitVec.lt_of_getLsbD h1; simp_all

theorem mem_not {m : ModuleId} {p : Nat} : Mem m.not p ↔ p < 64 ∧ ¬ Mem m p := by
  simp [Mem, ModuleId.not]

theorem mem_empty {p : Nat} : ¬ Mem ModuleId.empty p := by
  simp [Mem, ModuleId.empty]

theorem mem_all {p : Nat} : Mem ModuleId.all p ↔ p < 64 := by
  unfold Mem ModuleId.all
  rw [BitVec.getLsbD_not]; simp

theorem mem_mk_bit {i : U8} {p : Nat} : Mem ⟨ModuleId.bit i⟩ p ↔ p = i.toNat ∧ p < 64 := by
  simp [Mem, getLsbD_bit]

theorem mem_set {m : ModuleId} {i : U8} {p : Nat} (h : i.toNat < 64) :
    Mem (m.set i).1 p ↔ Mem m p ∨ p = i.toNat := by
  have : ¬ i ≥ ModuleId.maxIndex := by rw [ge_maxIndex]; omega
  simp only [ModuleId.set, this, if_false, Mem, BitVec.getLsbD_or, getLsbD_bit, Bool.or_eq_true, Bool.and_eq_true,
    decide_eq_true_eq]
  constructor
  · rintro (h | h); exact .inl h; exact .inr h.1
  · rintro (h' | h'); exact .inl h'; exact .inr ⟨h', by omega⟩

theorem rank_succ (m : ModuleId) (p : Nat) : rank m (p + 1) = rank m p + (if Mem m p then 1 else 0) := by
  simp [rank, List.range_succ]

theorem rank_mono (m : ModuleId) {p q : Nat} (h : p ≤ q) : rank m p ≤ rank m q := by
  induction h with
  | refl => exact Nat.le_refl _
  | step _ ih => rw [rank_succ]; omega

theorem rank_lt_card {m : ModuleId} {p : Nat} (h : Mem m p) : rank m p < card m := by
  have h1 : rank m (p + 1) ≤ card m := rank_mono m (by have := mem_lt h; omega)
  rw [rank_succ] at h1
  simp [h] at h1
  omega

theorem isEmpty_iff {m : ModuleId} : m.isEmpty = true ↔ ∀ p, ¬ Mem m p := by
  unfold ModuleId.isEmpty
  rw [beq_iff_eq, count_eq_card]
  constructor
  · intro h p hp; have := rank_lt_card hp; omega
  · intro h
    unfold card rank
    rw [List.countP_eq_zero]
    intro p _ hp; exact h p (of_decide_eq_true hp)

theorem isEmpty_iff_eq {m : ModuleId} : m.isEmpty = true ↔ m = ModuleId.empty := by
  rw [isEmpty_iff]
  constructor
  · intro h; exact moduleId_ext_mem fun p => ⟨fun hp => absurd hp (h p), fun hp => absurd hp mem_empty⟩
  · rintro rfl p; exact mem_empty

theorem isSubset_iff {m n : ModuleId} : m.isSubset n = true ↔ ∀ p, Mem n p → Mem m p := by
  unfold ModuleId.isSubset
  rw [beq_iff_eq]
  constructor
  · intro h p hp
    have := congrArg (fun b => b.getLsbD p) h
    simp only [BitVec.getLsbD_or] at this
    unfold Mem at hp ⊢
    rw [this, hp, Bool.or_true]
  · intro h
    have : m = m.or n := moduleId_ext_mem fun p => by
      rw [mem_or]; exact ⟨.inl, fun h' => h'.elim id (h p)⟩
    exact congrArg ModuleId.mask this

/-! Lookup in the zipped list is the specification's `datum`. -/

variable {T : Type}

/-- Position of a port in the listing is its rank. -/
theorem toIndices_getElem_rank {m : ModuleId} {i : U8} (h : Mem m i.toNat) :
    m.toIndices[rank m i.toNat]? = some i := by
  have hlt := mem_lt h
  -- split the range at i
  have key : ∀ n, n ≤ 64 → ((List.range n).map (BitVec.ofNat 8)).filter (fun j => decide (Mem m j.toNat)) <+: m.toIndices := by
    intro n hn
    rw [toIndices_eq, ModuleId.indexRange]
    have : List.range 64 = List.range n ++ (List.range (64 - n)).map (n + ·) := by
      rw [← List.range_add]; congr 1; omega
    rw [this, List.map_append, List.filter_append]
    exact List.prefix_append _ _
  have hk := key (i.toNat + 1) (by omega)
  have hlen : (((List.range i.toNat).map (BitVec.ofNat 8)).filter (fun j => decide (Mem m j.toNat))).length = rank m i.toNat := by
    rw [List.filter_map, List.length_map, ← List.countP_eq_length_filter, rank]
    apply List.countP_congr
    intro q hq
    simp only [List.mem_range] at hq
    have : q % 256 = q := by omega
    simp [this]
  rw [List.range_succ, List.map_append, List.filter_append] at hk
  obtain ⟨t, ht⟩ := hk
  rw [← ht, List.append_assoc, List.getElem?_append_right (by omega), hlen]
  simp [h]

theorem mem_zip_iff_datum {m : ModuleId} {data : List T} {i : U8} {x : T} :
    (i, x) ∈ m.toIndices.zip data ↔ datum m data i.toNat = some x := by
  unfold datum
  rw [List.mem_iff_getElem?]
  constructor
  · rintro ⟨k, hk⟩
    rw [List.getElem?_zip_eq_some] at hk
    have hmem : Mem m i.toNat := mem_toIndices.mp (List.mem_of_getElem? hk.1)
    simp only [hmem, if_true]
    have hr := toIndices_getElem_rank hmem
    -- uniqueness of position
    have hnd : m.toIndices.Nodup := (toIndices_sorted m).imp (fun h e => by subst e; rw [BitVec.lt_def] at h; omega)
    have : k = rank m i.toNat := by
      have h1 := List.getElem?_eq_some_iff.mp hk.1
      have h2 := List.getElem?_eq_some_iff.mp hr
      obtain ⟨l1, e1⟩ := h1
      obtain ⟨l2, e2⟩ := h2
      exact (List.getElem_inj hnd).mp (e1.trans e2.symm)
    rw [← this]; exact hk.2
  · intro h
    split at h
    · rename_i hmem
      exact ⟨rank m i.toNat, List.getElem?_zip_eq_some.mpr ⟨toIndices_getElem_rank hmem, h⟩⟩
    · cases h

theorem datum_isSome {m : ModuleId} {data : List T} (ha : Aligned m data) {p : Nat} :
    (datum m data p).isSome ↔ Mem m p := by
  unfold datum
  split
  · rename_i h
    have := rank_lt_card h
    simp [h]
    unfold Aligned at ha
    omega
  · simp_all

theorem datum_none {m : ModuleId} {data : List T} {p : Nat} (h : ¬ Mem m p) : datum m data p = none := by
  simp [datum, h]

theorem aligned_iff_toIndices {m : ModuleId} {data : List T} : Aligned m data ↔ data.length = m.toIndices.length := by
  rw [length_toIndices, count_eq_card, Aligned]

/-- A strictly sorted association list whose keys are the ports of `m`: its values are aligned with `m`, and it is
the zip of the listing with its values. -/
theorem zip_of_sorted {m : ModuleId} {l : List (U8 × T)} (hs : (l.map Prod.fst).Pairwise (· < ·))
    (hm : ∀ x, x ∈ l.map Prod.fst ↔ Mem m x.toNat) :
    Aligned m (l.map Prod.snd) ∧ m.toIndices.zip (l.map Prod.snd) = l := by
  have h := eq_toIndices hs hm
  constructor
  · rw [aligned_iff_toIndices, ← h]; simp
  · rw [← h]
    clear hs hm h
    induction l with
    | nil => rfl
    | cons a l ih => simp [ih]

theorem zip_keys {m : ModuleId} {data : List T} (ha : Aligned m data) :
    (m.toIndices.zip data).map Prod.fst = m.toIndices := by
  rw [List.map_fst_zip]
  rw [aligned_iff_toIndices] at ha; omega

theorem zip_vals {m : ModuleId} {data : List T} (ha : Aligned m data) :
    (m.toIndices.zip data).map Prod.snd = data := by
  rw [List.map_snd_zip]
  rw [aligned_iff_toIndices] at ha; omega

theorem zip_sorted (m : ModuleId) (data : List T) :
    ((m.toIndices.zip data).map Prod.fst).Pairwise (· < ·) := by
  have h : ∀ (l : List U8) (d : List T), ((l.zip d).map Prod.fst).Sublist l := by
    intro l
    induction l with
    | nil => intro d; simp
    | cons a l ih =>
      intro d
      cases d with
      | nil => simp
      | cons x d => simpa using ih d
  exact (toIndices_sorted m).sublist (h _ _)

/-- Two aligned data lists with the same item at each port are equal. -/
theorem data_ext {m : ModuleId} {d₁ d₂ : List T} (h₁ : Aligned m d₁) (h₂ : Aligned m d₂)
    (h : ∀ p, datum m d₁ p = datum m d₂ p) : d₁ = d₂ := by
  have hz : ∀ (k : Nat) (i : U8) (x : T), (m.toIndices.zip d₁)[k]? = some (i, x) → (m.toIndices.zip d₂)[k]? = some (i, x) := by
    intro k i x hk
    have hmem := List.mem_of_getElem? hk
    rw [mem_zip_iff_datum, h, ← mem_zip_iff_datum] at hmem
    rw [List.getElem?_zip_eq_some] at hk ⊢
    refine ⟨hk.1, ?_⟩
    rw [List.mem_iff_getElem?] at hmem
    obtain ⟨j, hj⟩ := hmem
    rw [List.getElem?_zip_eq_some] at hj
    have hnd : m.toIndices.Nodup := (toIndices_sorted m).imp (fun h e => by subst e; rw [BitVec.lt_def] at h; omega)
    have : j = k := by
      obtain ⟨l1, e1⟩ := List.getElem?_eq_some_iff.mp hj.1
      obtain ⟨l2, e2⟩ := List.getElem?_eq_some_iff.mp hk.1
      exact (List.getElem_inj hnd).mp (e1.trans e2.symm)
    subst this; exact hj.2
  rw [aligned_iff_toIndices] at h₁ h₂
  apply List.ext_getElem?
  intro k
  by_cases hk : k < m.toIndices.length
  · have e := hz k (m.toIndices[k]) (d₁[k]'(by omega)) (by
      rw [List.getElem?_zip_eq_some]; constructor <;> simp <;> omega)
    rw [List.getElem?_zip_eq_some] at e
    rw [e.2]; simp
  · rw [List.getElem?_eq_none (by omega), List.getElem?_eq_none (by omega)]

end Xcvr
