import Verif.Lemmas.ModuleData

/-!
# C01-C04: module sets and per-module data

`Spec.Mem m p` reads "port `p` is in the set `m`", `Spec.datum m data p` is the item of port `p`
(see `Verif/Spec/Ports.lean`).
-/

namespace Xcvr

open Spec

/-- C01: every set operation has its set-theoretic meaning, at every port number. -/
theorem C01_set_operations (m n : ModuleId) (p : Nat) :
    (Mem (m.merge n) p ↔ Mem m p ∨ Mem n p) ∧
    (Mem (m.or n) p ↔ Mem m p ∨ Mem n p) ∧
    (Mem (m.and n) p ↔ Mem m p ∧ Mem n p) ∧
    (Mem (m.remove n) p ↔ Mem m p ∧ ¬ Mem n p) ∧
    (Mem m.not p ↔ p < 64 ∧ ¬ Mem m p) ∧
    (Mem ModuleId.all p ↔ p < 64) ∧
    (Mem ModuleId.allSidecar p ↔ p < 32) ∧
    ¬ Mem ModuleId.empty p := by
  refine ⟨mem_merge, mem_or, mem_and, mem_remove, mem_not, mem_all, ?_, mem_empty⟩
  constructor
  · intro h
    by_cases hp : p < 32
    · exact hp
    · exfalso
      have h64 := mem_lt h
      have hall : ∀ q : Fin 64, 32 ≤ q.val → ¬ Mem ModuleId.allSidecar q.val := by decide
      exact hall ⟨p, h64⟩ (by simp; omega) h
  · intro hp
    have hall : ∀ q : Fin 32, Mem ModuleId.allSidecar q.val := by decide
    exact hall ⟨p, hp⟩

/-- C01: two sets with the same ports are the same value; no port is 64 or more. -/
theorem C01_extensional (m n : ModuleId) :
    (m = n ↔ ∀ p, Mem m p ↔ Mem n p) ∧ ∀ p, Mem m p → p < 64 :=
  ⟨⟨fun h _ => h ▸ Iff.rfl, moduleId_ext_mem⟩, fun _ => mem_lt⟩

/-- C01: subset, emptiness and count queries. `m.isSubset n` asks whether `n` is a subset of `m`. -/
theorem C01_queries (m n : ModuleId) :
    (m.isSubset n = true ↔ ∀ p, Mem n p → Mem m p) ∧
    (m.isEmpty = true ↔ ∀ p, ¬ Mem m p) ∧
    m.count = card m :=
  ⟨isSubset_iff, isEmpty_iff, count_eq_card m⟩

/-- C01: single-port operations on ports below 64. -/
theorem C01_single_port (m : ModuleId) (i : U8) (h : i.toNat < 64) :
    m.isSet i = .ok (decide (Mem m i.toNat)) ∧
    m.contains i = .ok (decide (Mem m i.toNat)) ∧
    ((m.set i).2 = .ok () ∧ ∀ p, Mem (m.set i).1 p ↔ Mem m p ∨ p = i.toNat) ∧
    ((m.clear i).2 = .ok () ∧ ∀ p, Mem (m.clear i).1 p ↔ Mem m p ∧ p ≠ i.toNat) ∧
    (∃ s, ModuleId.single i = .ok s ∧ ∀ p, Mem s p ↔ p = i.toNat) := by
  have hn : ¬ i ≥ ModuleId.maxIndex := by rw [ge_maxIndex]; omega
  refine ⟨isSet_lt h, ?_, ⟨?_, fun p => mem_set h⟩, ⟨?_, fun p => ?_⟩, ?_⟩
  · simp only [ModuleId.contains, hn, if_false]
    congr 1
    exact has_eq h
  · simp only [ModuleId.set, hn, if_false]
  · simp only [ModuleId.clear, hn, if_false]
  · simp only [ModuleId.clear, hn, if_false, Mem, BitVec.getLsbD_and, BitVec.getLsbD_not, getLsbD_bit,
      Bool.and_eq_true]
    constructor
    · rintro ⟨h1, h2⟩; refine ⟨h1, ?_⟩; rintro rfl; simp_all
    · rintro ⟨h1, h2⟩; have := BitVec.lt_of_getLsbD h1; simp_all
  · refine ⟨⟨ModuleId.bit i⟩, by simp only [ModuleId.single, hn, if_false], fun p => ?_⟩
    rw [mem_mk_bit]
    exact ⟨fun h => h.1, fun h' => ⟨h', by omega⟩⟩

example : ∃ i : U8, i.toNat < 64 := ⟨63, by decide⟩

/-- C01: ports of 64 or more are refused by name and leave the set unchanged. -/
theorem C01_invalid_port (m : ModuleId) (i : U8) (h : 64 ≤ i.toNat) :
    m.isSet i = .error ⟨i⟩ ∧ m.set i = (m, .error ⟨i⟩) ∧ m.clear i = (m, .error ⟨i⟩) ∧
    ModuleId.single i = .error ⟨i⟩ := by
  have hn : i ≥ ModuleId.maxIndex := by rw [ge_maxIndex]; omega
  exact ⟨isSet_ge h, by simp only [ModuleId.set, hn, if_true], by simp only [ModuleId.clear, hn, if_true],
    by simp only [ModuleId.single, hn, if_true]⟩

example : ∃ i : U8, 64 ≤ i.toNat := ⟨64, by decide⟩

/-- C01, recorded finding: unlike its siblings, `contains` has no range check, and aborts for every port of 64 or
more (its shift overflows). -/
theorem C01_contains_unchecked (m : ModuleId) (i : U8) (h : 64 ≤ i.toNat) : m.contains i = .panic := by
  have hn : i ≥ ModuleId.maxIndex := by rw [ge_maxIndex]; omega
  simp only [ModuleId.contains, hn, if_true]

/-- C02: a listing contains exactly the ports of the set, strictly increasing, and as many as the count. -/
theorem C02_listing (m : ModuleId) :
    (∀ i : U8, i ∈ m.toIndices ↔ Mem m i.toNat) ∧ m.toIndices.Pairwise (· < ·) ∧ m.toIndices.length = m.count :=
  ⟨fun _ => mem_toIndices, toIndices_sorted m, length_toIndices m⟩

theorem fromIndexLoop_ok (out : U64) (l : List U8) (h : ∀ i ∈ l, i.toNat < 64) :
    ∃ m, ModuleId.fromIndexLoop out l = .ok m ∧ ∀ p, Mem m p ↔ Mem ⟨out⟩ p ∨ ∃ i ∈ l, i.toNat = p := by
  induction l generalizing out with
  | nil => exact ⟨⟨out⟩, rfl, by simp⟩
  | cons a l ih =>
    have ha := h a (by simp)
    have hn : ¬ a ≥ ModuleId.maxIndex := by rw [ge_maxIndex]; omega
    obtain ⟨m, hm, hp⟩ := ih (out ||| ModuleId.bit a) (fun i hi => h i (List.mem_cons_of_mem _ hi))
    refine ⟨m, by simp only [ModuleId.fromIndexLoop, hn, if_false, hm], fun p => ?_⟩
    rw [hp]
    have : Mem ⟨out ||| ModuleId.bit a⟩ p ↔ Mem ⟨out⟩ p ∨ (p = a.toNat ∧ p < 64) := by
      rw [← mem_mk_bit]
      exact mem_or (m := ⟨out⟩) (n := ⟨ModuleId.bit a⟩)
    rw [this]
    simp only [List.mem_cons, exists_eq_or_imp]
    grind

theorem fromIndexLoop_err (out : U64) (l₁ l₂ : List U8) (b : U8) (h : ∀ i ∈ l₁, i.toNat < 64) (hb : 64 ≤ b.toNat) :
    ModuleId.fromIndexLoop out (l₁ ++ b :: l₂) = .error ⟨b⟩ := by
  induction l₁ generalizing out with
  | nil =>
    have hn : b ≥ ModuleId.maxIndex := by rw [ge_maxIndex]; omega
    simp only [List.nil_append, ModuleId.fromIndexLoop, hn, if_true]
  | cons a l ih =>
    have ha := h a (by simp)
    have hn : ¬ a ≥ ModuleId.maxIndex := by rw [ge_maxIndex]; omega
    simp only [List.cons_append, ModuleId.fromIndexLoop, hn, if_false]
    exact ih _ (fun i hi => h i (List.mem_cons_of_mem _ hi))

/-- C02: building a set from in-range ports gives exactly those ports. -/
theorem C02_from_indices_ok (l : List U8) (h : ∀ i ∈ l, i.toNat < 64) :
    ∃ m, ModuleId.fromIndices l = .ok m ∧ ∀ p, Mem m p ↔ ∃ i ∈ l, i.toNat = p := by
  obtain ⟨m, hm, hp⟩ := fromIndexLoop_ok 0 l h
  refine ⟨m, hm, fun p => ?_⟩
  rw [hp]
  simp [Mem]

example : ∀ i ∈ ([5, 63, 5] : List U8), i.toNat < 64 := by decide

/-- C02: otherwise the first out-of-range port is reported. -/
theorem C02_from_indices_err (l₁ l₂ : List U8) (b : U8) (h : ∀ i ∈ l₁, i.toNat < 64) (hb : 64 ≤ b.toNat) :
    ModuleId.fromIndices (l₁ ++ b :: l₂) = .error ⟨b⟩ :=
  fromIndexLoop_err 0 l₁ l₂ b h hb

example : (∀ i ∈ ([5, 63] : List U8), i.toNat < 64) ∧ 64 ≤ (64 : U8).toNat := by decide

/-- C02: it succeeds exactly when every port is in range. -/
theorem C02_from_indices_iff (l : List U8) :
    (∃ m, ModuleId.fromIndices l = .ok m) ↔ ∀ i ∈ l, i.toNat < 64 := by
  constructor
  · rintro ⟨m, hm⟩
    suffices h : ∀ (out : U64) m, ModuleId.fromIndexLoop out l = .ok m → ∀ i ∈ l, i.toNat < 64 from h 0 m hm
    clear hm m
    induction l with
    | nil => simp
    | cons a l ih =>
      intro out m hm
      by_cases hn : a ≥ ModuleId.maxIndex
      · simp [ModuleId.fromIndexLoop, hn] at hm
      · simp only [ModuleId.fromIndexLoop, hn, if_false] at hm
        rw [ge_maxIndex] at hn
        intro i hi
        rcases List.mem_cons.mp hi with rfl | hi
        · omega
        · exact ih _ _ hm i hi
  · intro h
    obtain ⟨m, hm, _⟩ := C02_from_indices_ok l h
    exact ⟨m, hm⟩

/-- C02: a set rebuilt from its own listing is the same set. -/
theorem C02_roundtrip (m : ModuleId) : ModuleId.fromIndices m.toIndices = .ok m := by
  obtain ⟨m', hm, hp⟩ := C02_from_indices_ok m.toIndices (fun i hi => mem_lt (mem_toIndices.mp hi))
  rw [hm]
  congr 1
  apply moduleId_ext_mem
  intro p
  rw [hp]
  constructor
  · rintro ⟨i, hi, rfl⟩; exact mem_toIndices.mp hi
  · intro h
    have hlt := mem_lt h
    refine ⟨BitVec.ofNat 8 p, ?_, by simp; omega⟩
    rw [mem_toIndices]
    have e : (BitVec.ofNat 8 p).toNat = p := by simp; omega
    rwa [e]

/-- C03: merging gives the union, one item per module of the union, and at each port the second pair's item if
the second pair covers the port, else the first's. -/
theorem C03_merge {T : Type} (m₁ m₂ : ModuleId) (d₁ d₂ : List T) (h₁ : Aligned m₁ d₁) (h₂ : Aligned m₂ d₂) :
    let r := mergeModuleData m₁ d₁ m₂ d₂
    (∀ p, Mem r.1 p ↔ Mem m₁ p ∨ Mem m₂ p) ∧
    Aligned r.1 r.2 ∧
    ∀ p, datum r.1 r.2 p = if Mem m₂ p then datum m₂ d₂ p else datum m₁ d₁ p := by
  refine ⟨fun p => mem_merge, (mergeModuleData_pairs h₁ h₂).1, fun p => ?_⟩
  refine (datum_mergeModuleData h₁ h₂ p).trans ?_
  split
  · rename_i h
    have := (datum_isSome h₂).mpr h
    rw [Option.isSome_iff_exists] at this
    obtain ⟨x, hx⟩ := this
    simp [hx]
  · rename_i h
    rw [datum_none h, Option.none_or]

example : Aligned ⟨0b10110#64⟩ ['a', 'b', 'c'] ∧ Aligned ⟨0b01010#64⟩ ['x', 'y'] ∧
    mergeModuleData ⟨0b10110#64⟩ ['a', 'b', 'c'] ⟨0b01010#64⟩ ['x', 'y'] =
      (⟨0b11110#64⟩, ['x', 'b', 'y', 'c']) := by
  decide +kernel

/-- C04: removing modules removes exactly their items. -/
theorem C04_remove {T : Type} (m r : ModuleId) (d : List T) (h : Aligned m d) :
    let out := removeModuleData m d r
    (∀ p, Mem out.1 p ↔ Mem m p ∧ ¬ Mem r p) ∧ Aligned out.1 out.2 ∧
    ∀ p, datum out.1 out.2 p = if Mem r p then none else datum m d p :=
  ⟨fun _ => mem_remove, (removeModuleData_pairs h).1, datum_removeModuleData h⟩

/-- C04: keeping modules keeps exactly their items. -/
theorem C04_keep {T : Type} (m k : ModuleId) (d : List T) (h : Aligned m d) :
    let out := keepModuleData m d k
    (∀ p, Mem out.1 p ↔ Mem m p ∧ Mem k p) ∧ Aligned out.1 out.2 ∧
    ∀ p, datum out.1 out.2 p = if Mem k p then datum m d p else none := by
  have e : keepModuleData m d k = removeModuleData m d k.not := rfl
  intro out
  have h' := C04_remove m k.not d h
  refine ⟨fun p => (h'.1 p).trans ?_, h'.2.1, fun p => (h'.2.2 p).trans ?_⟩
  · rw [mem_not]
    constructor
    · rintro ⟨h1, h2⟩; exact ⟨h1, Classical.not_not.mp fun hn => h2 ⟨mem_lt h1, hn⟩⟩
    · rintro ⟨h1, h2⟩; exact ⟨h1, fun hn => hn.2 h2⟩
  · by_cases hk : Mem k p
    · have : ¬ Mem k.not p := fun hn => (mem_not.mp hn).2 hk
      simp [hk, this]
    · by_cases hm : Mem m p
      · have : Mem k.not p := mem_not.mpr ⟨mem_lt hm, hk⟩
        simp [hk, this]
      · simp [hk, datum_none hm]

/-- C04: filtering keeps exactly the modules whose item satisfies the predicate, with their items. -/
theorem C04_filter {T : Type} (m : ModuleId) (d : List T) (f : U8 → T → Bool) (h : Aligned m d) :
    let out := filterModuleData m d f
    Aligned out.1 out.2 ∧
    ∀ i : U8, datum out.1 out.2 i.toNat = (datum m d i.toNat).filter (f i) := by
  refine ⟨(filterModuleData_pairs h).1, fun i => ?_⟩
  apply Option.ext
  intro x
  rw [← mem_zip_iff_datum, (filterModuleData_pairs h).2, List.mem_filter, mem_zip_iff_datum, Option.filter_eq_some_iff]

/-- C04: in particular a port survives filtering exactly when it has an item satisfying the predicate. -/
theorem C04_filter_ports {T : Type} (m : ModuleId) (d : List T) (f : U8 → T → Bool) (h : Aligned m d) (i : U8) :
    Mem (filterModuleData m d f).1 i.toNat ↔ ∃ x, datum m d i.toNat = some x ∧ f i x = true := by
  have h' := C04_filter m d f h
  rw [← datum_isSome h'.1, h'.2 i, Option.isSome_iff_exists]
  simp [Option.filter_eq_some_iff]

example : Aligned ⟨0b1011#64⟩ [10, 11, 12] ∧
    filterModuleData ⟨0b1011#64⟩ [10, 11, 12] (fun i x => i != 0 && x != 11) = (⟨0b1000#64⟩, [12]) ∧
    keepModuleData ⟨0b1011#64⟩ [10, 11, 12] ⟨0b1010#64⟩ = (⟨0b1010#64⟩, [11, 12]) ∧
    removeModuleData ⟨0b1011#64⟩ [10, 11, 12] ⟨0b1010#64⟩ = (⟨0b0001#64⟩, [10]) := by
  decide +kernel

end Xcvr
