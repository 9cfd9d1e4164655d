import Verif.Lemmas.ModuleId

namespace Xcvr

open Spec

/-! Helper lemmas about `merge_module_data` and friends. -/

variable {T : Type}

/-- The merge loop, keeping the ports. -/
def mergePairs : List (U8 × T) → List (U8 × T) → List (U8 × T)
  | [], ss => ss
  | f :: fs, [] => f :: fs
  | f :: fs, s :: ss =>
    if f.1 < s.1 then f :: mergePairs fs (s :: ss)
    else if s.1 < f.1 then s :: mergePairs (f :: fs) ss
    else s :: mergePairs fs ss
termination_by fs ss => fs.length + ss.length

theorem mergeLoop_eq (fs ss : List (U8 × T)) : mergeLoop fs ss = (mergePairs fs ss).map Prod.snd := by
  fun_induction mergePairs fs ss with
  | case1 ss => simp [mergeLoop]
  | case2 f fs => simp [mergeLoop]
  | case3 f fs s ss h ih => rw [mergeLoop]; simp [h, ih]
  | case4 f fs s ss h h' ih => rw [mergeLoop]; simp [h, h', ih]
  | case5 f fs s ss h h' ih => rw [mergeLoop]; simp [h, h', ih]

theorem mem_keys_mergePairs (fs ss : List (U8 × T)) (k : U8) :
    k ∈ (mergePairs fs ss).map Prod.fst ↔ k ∈ fs.map Prod.fst ∨ k ∈ ss.map Prod.fst := by
  fun_induction mergePairs fs ss with
  | case1 ss => simp
  | case2 f fs => simp
  | case3 f fs s ss h ih =>
    simp only [List.map_cons, List.mem_cons] at ih ⊢
    rw [ih]; grind
  | case4 f fs s ss h h' ih =>
    simp only [List.map_cons, List.mem_cons] at ih ⊢
    rw [ih]; grind
  | case5 f fs s ss h h' ih =>
    have e : f.1 = s.1 := by
      rw [BitVec.lt_def] at h h'
      apply BitVec.eq_of_toNat_eq; omega
    simp only [List.map_cons, List.mem_cons] at ih ⊢
    rw [ih]; grind

theorem u8_lt_trans {a b c : U8} (h : a < b) (h' : b < c) : a < c := by
  rw [BitVec.lt_def] at *; omega

theorem sorted_mergePairs (fs ss : List (U8 × T)) (hf : (fs.map Prod.fst).Pairwise (· < ·))
    (hs : (ss.map Prod.fst).Pairwise (· < ·)) : ((mergePairs fs ss).map Prod.fst).Pairwise (· < ·) := by
  fun_induction mergePairs fs ss with
  | case1 ss => exact hs
  | case2 f fs => exact hf
  | case3 f fs s ss h ih =>
    simp only [List.map_cons, List.pairwise_cons] at hf hs ih ⊢
    refine ⟨?_, ih hf.2 hs⟩
    intro k hk
    rw [mem_keys_mergePairs] at hk
    rcases hk with hk | hk
    · exact hf.1 k hk
    · simp only [List.map_cons, List.mem_cons] at hk
      rcases hk with rfl | hk
      · exact h
      · exact u8_lt_trans h (hs.1 k hk)
  | case4 f fs s ss h h' ih =>
    simp only [List.map_cons, List.pairwise_cons] at hf hs ih ⊢
    refine ⟨?_, ih hf hs.2⟩
    intro k hk
    rw [mem_keys_mergePairs] at hk
    rcases hk with hk | hk
    · simp only [List.map_cons, List.mem_cons] at hk
      rcases hk with rfl | hk
      · exact h'
      · exact u8_lt_trans h' (hf.1 k hk)
    · exact hs.1 k hk
  | case5 f fs s ss h h' ih =>
    have e : f.1 = s.1 := by
      rw [BitVec.lt_def] at h h'
      apply BitVec.eq_of_toNat_eq; omega
    simp only [List.map_cons, List.pairwise_cons] at hf hs ih ⊢
    refine ⟨?_, ih hf.2 hs.2⟩
    intro k hk
    rw [mem_keys_mergePairs] at hk
    rcases hk with hk | hk
    · rw [← e]; exact hf.1 k hk
    · exact hs.1 k hk

theorem mem_fst {l : List (U8 × T)} {i : U8} {x : T} (h : (i, x) ∈ l) : i ∈ l.map Prod.fst :=
  List.mem_map.mpr ⟨_, h, rfl⟩

theorem mem_mergePairs (fs ss : List (U8 × T)) (hf : (fs.map Prod.fst).Pairwise (· < ·))
    (hs : (ss.map Prod.fst).Pairwise (· < ·)) (i : U8) (x : T) :
    (i, x) ∈ mergePairs fs ss ↔ (i, x) ∈ ss ∨ ((i, x) ∈ fs ∧ i ∉ ss.map Prod.fst) := by
  fun_induction mergePairs fs ss with
  | case1 ss => simp
  | case2 f fs => simp
  | case3 f fs s ss h ih =>
    obtain ⟨f1, f2⟩ := f
    simp only [List.map_cons, List.pairwise_cons] at hf hs ih ⊢
    rw [List.mem_cons, ih hf.2 (by simpa using hs)]
    have hnot : f1 ∉ s.1 :: ss.map Prod.fst := by
      intro hm
      rcases List.mem_cons.mp hm with hm | hm
      · subst hm; simp only at h; rw [BitVec.lt_def] at h; omega
      · have := u8_lt_trans h (hs.1 _ hm); simp only at this; rw [BitVec.lt_def] at this; omega
    simp only [List.mem_cons (a := (i, x)) (b := (f1, f2)), Prod.mk.injEq]
    grind
  | case4 f fs s ss h h' ih =>
    obtain ⟨s1, s2⟩ := s
    have hs' := hs
    simp only [List.map_cons, List.pairwise_cons] at hf hs ih ⊢
    rw [List.mem_cons, ih (by simpa using hf) hs.2]
    have hnot : s1 ∉ f.1 :: fs.map Prod.fst := by
      intro hm
      rcases List.mem_cons.mp hm with hm | hm
      · subst hm; simp only at h'; rw [BitVec.lt_def] at h'; omega
      · have := u8_lt_trans h' (hf.1 _ hm); simp only at this; rw [BitVec.lt_def] at this; omega
    have hnf : ∀ x, (s1, x) ∉ f :: fs := fun x hm => hnot (by simpa using mem_fst hm)
    simp only [List.mem_cons (a := (i, x)) (b := (s1, s2)), Prod.mk.injEq, List.mem_cons (a := i)]
    grind
  | case5 f fs s ss h h' ih =>
    obtain ⟨s1, s2⟩ := s
    obtain ⟨f1, f2⟩ := f
    have e : f1 = s1 := by
      rw [BitVec.lt_def] at h h'
      apply BitVec.eq_of_toNat_eq; simp only at h h'; omega
    simp only [List.map_cons, List.pairwise_cons] at hf hs ih ⊢
    rw [List.mem_cons, ih hf.2 hs.2]
    have hnf : ∀ x, (s1, x) ∉ fs := by
      intro x hm
      have := hf.1 _ (mem_fst hm)
      rw [e, BitVec.lt_def] at this; omega
    simp only [List.mem_cons (a := (i, x)) (b := (s1, s2)), List.mem_cons (a := (i, x)) (b := (f1, f2)), Prod.mk.injEq,
      List.mem_cons (a := i)]
    grind

theorem mem_zip_keys {m : ModuleId} {d : List T} (h : Aligned m d) (i : U8) :
    i ∈ (m.toIndices.zip d).map Prod.fst ↔ Mem m i.toNat := by
  rw [zip_keys h, mem_toIndices]

theorem mergeModuleData_pairs {m₁ m₂ : ModuleId} {d₁ d₂ : List T} (h₁ : Aligned m₁ d₁) (h₂ : Aligned m₂ d₂) :
    Aligned (m₁.merge m₂) (mergeModuleData m₁ d₁ m₂ d₂).2 ∧
    (m₁.merge m₂).toIndices.zip (mergeModuleData m₁ d₁ m₂ d₂).2 =
      mergePairs (m₁.toIndices.zip d₁) (m₂.toIndices.zip d₂) := by
  simp only [mergeModuleData, mergeLoop_eq]
  apply zip_of_sorted
  · exact sorted_mergePairs _ _ (zip_sorted _ _) (zip_sorted _ _)
  · intro x
    rw [mem_keys_mergePairs, mem_zip_keys h₁, mem_zip_keys h₂, mem_merge]

/-- An option-valued function on `Nat` ports is determined at ports below 64, which are all `U8`s. -/
theorem datum_eq_of_u8 {m m' : ModuleId} {d d' : List T} (p : Nat)
    (h : ∀ i : U8, i.toNat < 64 → datum m d i.toNat = datum m' d' i.toNat) : datum m d p = datum m' d' p := by
  by_cases hp : p < 64
  · have := h (BitVec.ofNat 8 p)
    have e : (BitVec.ofNat 8 p).toNat = p := by simp; omega
    rw [e] at this
    exact this hp
  · rw [datum_none (fun h => hp (mem_lt h)), datum_none (fun h => hp (mem_lt h))]

theorem forall_port_of_u8 {P : Nat → Prop} (hhi : ∀ p, 64 ≤ p → P p) (h : ∀ i : U8, P i.toNat) : ∀ p, P p := by
  intro p
  by_cases hp : p < 64
  · have := h (BitVec.ofNat 8 p)
    have e : (BitVec.ofNat 8 p).toNat = p := by simp; omega
    rwa [e] at this
  · exact hhi p (by omega)

theorem datum_mergeModuleData {m₁ m₂ : ModuleId} {d₁ d₂ : List T} (h₁ : Aligned m₁ d₁) (h₂ : Aligned m₂ d₂) (p : Nat) :
    datum (m₁.merge m₂) (mergeModuleData m₁ d₁ m₂ d₂).2 p = (datum m₂ d₂ p).or (datum m₁ d₁ p) := by
  revert p
  apply forall_port_of_u8
  · intro p hp
    have : ∀ m : ModuleId, ¬ Mem m p := fun m h => by have := mem_lt h; omega
    rw [datum_none (this _), datum_none (this _), datum_none (this _)]; rfl
  · intro i
    obtain ⟨_, hz⟩ := mergeModuleData_pairs h₁ h₂
    apply Option.ext
    intro x
    rw [← mem_zip_iff_datum, hz, mem_mergePairs _ _ (zip_sorted _ _) (zip_sorted _ _), mem_zip_keys h₂,
      mem_zip_iff_datum, mem_zip_iff_datum, ← datum_isSome h₂, Option.or_eq_some_iff]
    cases datum m₂ d₂ i.toNat <;> simp

theorem removeModuleData_pairs {m r : ModuleId} {d : List T} (h : Aligned m d) :
    Aligned (m.remove r) (removeModuleData m d r).2 ∧
    (m.remove r).toIndices.zip (removeModuleData m d r).2 = (m.toIndices.zip d).filter fun p => !r.has p.1 := by
  simp only [removeModuleData]
  apply zip_of_sorted
  · exact (zip_sorted m d).sublist (List.filter_sublist.map _)
  · intro x
    rw [mem_remove, ← mem_zip_keys h]
    simp only [List.mem_map, List.mem_filter]
    constructor
    · rintro ⟨a, ⟨ha, hb⟩, rfl⟩
      refine ⟨⟨a, ha, rfl⟩, ?_⟩
      have hm : Mem m a.1.toNat := (mem_zip_keys h _).mp (List.mem_map.mpr ⟨a, ha, rfl⟩)
      rw [has_eq (mem_lt hm)] at hb
      simpa using hb
    · rintro ⟨⟨a, ha, rfl⟩, hb⟩
      refine ⟨a, ⟨ha, ?_⟩, rfl⟩
      have hm : Mem m a.1.toNat := (mem_zip_keys h _).mp (List.mem_map.mpr ⟨a, ha, rfl⟩)
      rw [has_eq (mem_lt hm)]
      simpa using hb

theorem datum_removeModuleData {m r : ModuleId} {d : List T} (h : Aligned m d) (p : Nat) :
    datum (m.remove r) (removeModuleData m d r).2 p = if Mem r p then none else datum m d p := by
  revert p
  apply forall_port_of_u8
  · intro p hp
    have : ∀ m : ModuleId, ¬ Mem m p := fun m h => by have := mem_lt h; omega
    rw [datum_none (this _), datum_none (this _)]; simp
  · intro i
    apply Option.ext
    intro x
    rw [← mem_zip_iff_datum, (removeModuleData_pairs h).2, List.mem_filter]
    by_cases hi : i.toNat < 64
    · rw [has_eq hi, mem_zip_iff_datum]
      by_cases hr : Mem r i.toNat <;> simp [hr]
    · have : ∀ m : ModuleId, ¬ Mem m i.toNat := fun m h => hi (mem_lt h)
      rw [mem_zip_iff_datum, datum_none (this _)]; simp

theorem filterModuleData_fold (l : List (U8 × T)) (acc : ModuleId × List T) :
    l.foldl (fun (acc : ModuleId × List T) p => ((acc.1.set p.1).1, acc.2 ++ [p.2])) acc =
      (l.foldl (fun a p => (a.set p.1).1) acc.1, acc.2 ++ l.map Prod.snd) := by
  induction l generalizing acc with
  | nil => simp
  | cons a l ih => simp [ih]

theorem mem_fold_set (l : List (U8 × T)) (m : ModuleId) (hl : ∀ a ∈ l, a.1.toNat < 64) (p : Nat) :
    Mem (l.foldl (fun a p => (a.set p.1).1) m) p ↔ Mem m p ∨ ∃ a ∈ l, a.1.toNat = p := by
  induction l generalizing m with
  | nil => simp
  | cons a l ih =>
    simp only [List.foldl_cons]
    rw [ih _ (fun b hb => hl b (List.mem_cons_of_mem _ hb)), mem_set (hl a (by simp))]
    simp only [List.mem_cons, exists_eq_or_imp]
    grind

theorem filterModuleData_pairs {m : ModuleId} {d : List T} {f : U8 → T → Bool} (h : Aligned m d) :
    Aligned (filterModuleData m d f).1 (filterModuleData m d f).2 ∧
    (filterModuleData m d f).1.toIndices.zip (filterModuleData m d f).2 =
      (m.toIndices.zip d).filter fun p => f p.1 p.2 := by
  unfold filterModuleData
  rw [filterModuleData_fold]
  simp only [List.nil_append]
  apply zip_of_sorted
  · exact (zip_sorted m d).sublist (List.filter_sublist.map _)
  · intro x
    rw [mem_fold_set]
    · simp only [mem_empty, false_or, List.mem_map]
      constructor
      · rintro ⟨a, ha, rfl⟩; exact ⟨a, ha, rfl⟩
      · rintro ⟨a, ha, hx⟩; exact ⟨a, ha, BitVec.eq_of_toNat_eq hx⟩
    · intro a ha
      exact mem_lt ((mem_zip_keys h a.1).mp (List.mem_map.mpr ⟨a, (List.mem_filter.mp ha).1, rfl⟩))

end Xcvr
