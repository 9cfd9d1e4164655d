import Verif.Props.ModuleSets
import Verif.Spec.Results

/-! # C18-C20: merging, appending and looking up results -/

namespace Xcvr

open Spec

variable {E P : Type}

theorem and_isEmpty {m n : ModuleId} : (m.and n).isEmpty = true ↔ ∀ p, ¬ (Mem m p ∧ Mem n p) := by
  rw [isEmpty_iff]
  simp only [mem_and]

theorem failed_merge {a b : FailedModules E} (ha : Aligned a.modules a.errors) (hb : Aligned b.modules b.errors) :
    Aligned (a.merge b).modules (a.merge b).errors ∧
    (∀ p, Mem (a.merge b).modules p ↔ Mem a.modules p ∨ Mem b.modules p) ∧
    ∀ p, datum (a.merge b).modules (a.merge b).errors p =
      if Mem b.modules p then datum b.modules b.errors p else datum a.modules a.errors p := by
  have h := C03_merge a.modules b.modules a.errors b.errors ha hb
  exact ⟨h.2.1, h.1, h.2.2⟩

/-! ## C18 -/

/-- C18: merging is refused exactly when some module succeeded in both or failed in both. -/
theorem C18_refused (a b : ModuleResult E P) :
    a.merge b = none ↔ (∃ p, Succeeded a p ∧ Succeeded b p) ∨ (∃ p, Failed a p ∧ Failed b p) := by
  unfold ModuleResult.merge Succeeded Failed
  by_cases h1 : (a.modules.and b.modules).isEmpty = true
  · by_cases h2 : (a.failures.modules.and b.failures.modules).isEmpty = true
    · simp only [h1, h2, Bool.not_true, Bool.false_eq_true, if_false, reduceCtorEq, false_iff]
      rintro (⟨p, hp⟩ | ⟨p, hp⟩)
      · exact and_isEmpty.mp h1 p hp
      · exact and_isEmpty.mp h2 p hp
    · simp only [h1, h2]
      refine ⟨fun _ => .inr ?_, fun _ => by simp⟩
      rw [and_isEmpty] at h2
      simpa using h2
  · simp only [h1]
    refine ⟨fun _ => .inl ?_, fun _ => by simp⟩
    rw [and_isEmpty] at h1
    simpa using h1

/-- C18: the outcome of every port in a merged result. Failures come from either input, a success survives when the
port failed in neither, and data and errors stay with the port they came with. -/
theorem C18_merge (a b r : ModuleResult E P) (ha : WF a) (hb : WF b) (h : a.merge b = some r) :
    WF r ∧
    (∀ p, Failed r p ↔ Failed a p ∨ Failed b p) ∧
    (∀ p, Succeeded r p ↔ (Succeeded a p ∨ Succeeded b p) ∧ ¬ Failed a p ∧ ¬ Failed b p) ∧
    (∀ p, errAt r p = if Failed a p then errAt a p else errAt b p) ∧
    (∀ p, Succeeded r p → okAt r p = if Succeeded a p then okAt a p else okAt b p) := by
  have hno : a.merge b ≠ none := by rw [h]; simp
  rw [Ne, C18_refused, not_or] at hno
  obtain ⟨hs, hf⟩ := hno
  unfold ModuleResult.merge at h
  split at h
  · cases h
  split at h
  · cases h
  simp only [Option.some.injEq] at h
  obtain ⟨ha1, ha2, ha3⟩ := ha
  obtain ⟨hb1, hb2, hb3⟩ := hb
  have r1 := C04_remove a.modules b.failures.modules a.data ha1
  have r2 := C04_remove b.modules a.failures.modules b.data hb1
  have rm := C03_merge _ _ _ _ r1.2.1 r2.2.1
  have rf := failed_merge ha2 hb2
  simp only at r1 r2 rm
  subst h
  have hsucc : ∀ p, Mem (mergeModuleData (a.withoutFailuresFrom b).1 (a.withoutFailuresFrom b).2
      (b.withoutFailuresFrom a).1 (b.withoutFailuresFrom a).2).1 p ↔
      (Mem a.modules p ∨ Mem b.modules p) ∧ ¬ Mem a.failures.modules p ∧ ¬ Mem b.failures.modules p := by
    intro p
    refine (rm.1 p).trans ?_
    rw [r1.1 p, r2.1 p]
    constructor
    · rintro (⟨h1, h2⟩ | ⟨h1, h2⟩)
      · exact ⟨.inl h1, fun hc => ha3 p ⟨h1, hc⟩, h2⟩
      · exact ⟨.inr h1, h2, fun hc => hb3 p ⟨h1, hc⟩⟩
    · rintro ⟨h1 | h1, h2, h3⟩
      · exact .inl ⟨h1, h3⟩
      · exact .inr ⟨h1, h2⟩
  refine ⟨⟨rm.2.1, rf.1, ?_⟩, rf.2.1, hsucc, ?_, ?_⟩
  · rintro p ⟨h1, h2⟩
    rcases (rf.2.1 p).mp h2 with h3 | h3
    · exact ((hsucc p).mp h1).2.1 h3
    · exact ((hsucc p).mp h1).2.2 h3
  · intro p
    refine (rf.2.2 p).trans ?_
    unfold errAt Failed
    by_cases h1 : Mem b.failures.modules p
    · rw [if_pos h1, if_neg (fun hc => hf ⟨p, hc, h1⟩)]
    · rw [if_neg h1]
      by_cases h2 : Mem a.failures.modules p
      · rw [if_pos h2]
      · rw [if_neg h2, datum_none h1, datum_none h2]
  · intro p hp
    obtain ⟨h1, h2, h3⟩ := (hsucc p).mp hp
    refine (rm.2.2 p).trans ?_
    unfold okAt Succeeded
    rw [r1.2.2 p, r2.2.2 p, if_neg h3, if_neg h2]
    by_cases hm : Mem a.modules p
    · rw [if_pos hm, if_neg]
      rw [r2.1 p]
      exact fun hc => hs ⟨p, hm, hc.1⟩
    · have hmb : Mem b.modules p := h1.resolve_left hm
      rw [if_neg hm, if_pos ((r2.1 p).mpr ⟨hmb, h2⟩)]

example :
    let a : ModuleResult String Nat := ⟨⟨0b00011⟩, [10, 11], ⟨⟨0b00100⟩, ["e2"]⟩⟩
    let b : ModuleResult String Nat := ⟨⟨0b01100⟩, [20, 21], ⟨⟨0b00010⟩, ["f1"]⟩⟩
    a.merge b = some ⟨⟨0b01001⟩, [10, 21], ⟨⟨0b00110⟩, ["f1", "e2"]⟩⟩ ∧ a.merge a = none := by decide +kernel

example : WF (⟨⟨0b00011⟩, [10, 11], ⟨⟨0b00100⟩, ["e2"]⟩⟩ : ModuleResult String Nat) := by
  refine ⟨by decide +kernel, by decide +kernel, fun p hp => ?_⟩
  have hlt := mem_lt hp.1
  revert hp
  simp only [Mem]
  have : ∀ p : Fin 64, ¬ ((BitVec.getLsbD (0b00011#64) p.val = true) ∧ (BitVec.getLsbD (0b00100#64) p.val = true)) := by
    decide +kernel
  exact this ⟨p, hlt⟩

/-! ## C20 -/

theorem find_zip {T : Type} (m : ModuleId) (d : List T) (i : U8) :
    ((m.toIndices.zip d).find? fun p => p.1 == i).map Prod.snd = datum m d i.toNat := by
  apply Option.ext
  intro x
  rw [← mem_zip_iff_datum]
  constructor
  · intro h
    rw [Option.map_eq_some_iff] at h
    obtain ⟨⟨j, y⟩, hf, rfl⟩ := h
    have h1 := List.find?_some hf
    have h2 := List.mem_of_find?_eq_some hf
    simp only [beq_iff_eq] at h1
    subst h1
    exact h2
  · intro h
    have hsome : ((m.toIndices.zip d).find? fun p => p.1 == i).isSome := by
      rw [List.find?_isSome]; exact ⟨(i, x), h, by simp⟩
    obtain ⟨⟨j, y⟩, hf⟩ := Option.isSome_iff_exists.mp hsome
    have h1 := List.find?_some hf
    have h2 := List.mem_of_find?_eq_some hf
    simp only [beq_iff_eq] at h1
    subst h1
    rw [hf]
    rw [mem_zip_iff_datum] at h h2
    rw [h] at h2
    simpa using h2.symm

/-- C20: `nth` is the datum of the port and `nth_err` its error. -/
theorem C20_lookup (r : ModuleResult E P) (i : U8) :
    r.nth i = okAt r i.toNat ∧ r.nthErr i = errAt r i.toNat :=
  ⟨find_zip r.modules r.data i, find_zip r.failures.modules r.failures.errors i⟩

/-- C20: they are present exactly for successful and for failed ports. -/
theorem C20_present (r : ModuleResult E P) (h : WF r) (i : U8) :
    ((r.nth i).isSome ↔ Succeeded r i.toNat) ∧ ((r.nthErr i).isSome ↔ Failed r i.toNat) := by
  rw [(C20_lookup r i).1, (C20_lookup r i).2]
  exact ⟨datum_isSome h.1, datum_isSome h.2.1⟩

/-- C20: iterating lists exactly the (port, datum) pairs, in strictly increasing port order. -/
theorem C20_iter (r : ModuleResult E P) :
    (r.iter.map Prod.fst).Pairwise (· < ·) ∧ (∀ i x, (i, x) ∈ r.iter ↔ okAt r i.toNat = some x) ∧
    (r.errorIter.map Prod.fst).Pairwise (· < ·) ∧ (∀ i x, (i, x) ∈ r.errorIter ↔ errAt r i.toNat = some x) :=
  ⟨zip_sorted _ _, fun _ _ => mem_zip_iff_datum, zip_sorted _ _, fun _ _ => mem_zip_iff_datum⟩

/-- C20: `success` accepts exactly one datum per module, and then nothing failed and each port has its datum. -/
theorem C20_success (m : ModuleId) (d : List P) :
    ((ModuleResult.success m d : Option (ModuleResult E P)) = none ↔ ¬ Aligned m d) ∧
    ∀ r, (ModuleResult.success m d : Option (ModuleResult E P)) = some r →
      WF r ∧ (∀ p, ¬ Failed r p) ∧ r.isSuccess = true ∧ ∀ p, okAt r p = datum m d p := by
  unfold ModuleResult.success Aligned
  rw [count_eq_card]
  by_cases h : card m = d.length
  · have h' : (card m == d.length) = true := by simpa using h
    rw [h']
    simp only [if_true]
    refine ⟨by simp [h], ?_⟩
    rintro r hr
    cases hr
    refine ⟨⟨h.symm, (by decide +kernel : (0 : Nat) = card ModuleId.empty), fun p hp => mem_empty hp.2⟩, fun p => mem_empty,
      isEmpty_iff.mpr fun p => mem_empty, fun _ => rfl⟩
  · have h' : (card m == d.length) = false := by simpa using h
    rw [h']
    simp only [Bool.false_eq_true, if_false]
    exact ⟨by simp [Ne.symm h], fun r hr => by cases hr⟩

/-- C20: a result is a success exactly when no port failed. -/
theorem C20_is_success (r : ModuleResult E P) : r.isSuccess = true ↔ ∀ p, ¬ Failed r p := isEmpty_iff

example :
    let r : ModuleResult String Nat := ⟨⟨0b101⟩, [10, 12], ⟨⟨0b010⟩, ["e"]⟩⟩
    r.nth 2 = some 12 ∧ r.nth 1 = none ∧ r.nthErr 1 = some "e" ∧ r.nth 200 = none ∧
    (ModuleResult.success ⟨0b101⟩ [1] : Option (ModuleResult String Nat)) = none := by decide +kernel

/-- C20: an acknowledgement lists each module that acknowledged and each module that failed. -/
theorem C20_ack (m : ModuleId) (f : FailedModules E) (hf : Aligned f.modules f.errors)
    (hd : ∀ p, ¬ (Mem m p ∧ Mem f.modules p)) :
    WF (AckResult.new m f) ∧ (∀ p, okAt (AckResult.new m f) p = some () ↔ Mem m p) ∧
      ∀ p, errAt (AckResult.new m f) p = datum f.modules f.errors p := by
  have ha : Aligned m (List.replicate m.count ()) := by
    unfold Aligned; rw [List.length_replicate, count_eq_card]
  refine ⟨⟨ha, hf, hd⟩, fun p => ?_, fun _ => rfl⟩
  rw [← datum_isSome ha, Option.isSome_iff_exists]
  exact ⟨fun h => ⟨(), h⟩, fun ⟨x, h⟩ => h⟩

example : okAt (AckResult.new ⟨0b101⟩ ⟨⟨0b010⟩, ["e"]⟩) 2 = some () := by decide +kernel

/-! ## C19 -/

theorem foldl_appendOne (ys : List (U8 × List P)) (out : List (U8 × List P)) :
    ys.foldl ModuleResult.appendOne out =
      out.map fun e => (e.1, e.2 ++ ((ys.filter fun y => e.1 == y.1).map Prod.snd).flatten) := by
  induction ys generalizing out with
  | nil => simp
  | cons y ys ih =>
    rw [List.foldl_cons, ih, ModuleResult.appendOne, List.map_map]
    apply List.map_congr_left
    intro e _
    simp only [Function.comp_apply, List.filter_cons]
    split <;> simp

theorem filter_zip_key {T : Type} (m : ModuleId) (d : List T) (i : U8) :
    (m.toIndices.zip d).filter (fun y => i == y.1) = (datum m d i.toNat).toList.map fun x => (i, x) := by
  have hs := zip_sorted m d
  have hm : ∀ x, (i, x) ∈ m.toIndices.zip d ↔ datum m d i.toNat = some x := fun x => mem_zip_iff_datum
  generalize m.toIndices.zip d = l at hs hm
  generalize datum m d i.toNat = o at hm
  induction l with
  | nil =>
    cases o with
    | none => rfl
    | some x => exact absurd ((hm x).mpr rfl) (by simp)
  | cons y l ih =>
    simp only [List.map_cons, List.pairwise_cons] at hs
    rw [List.filter_cons]
    by_cases hy : i = y.1
    · have ho := (hm y.2).mp (by rw [hy]; simp)
      have hnil : l.filter (fun z => i == z.1) = [] := by
        rw [List.filter_eq_nil_iff]
        intro z hz
        have := hs.1 z.1 (List.mem_map_of_mem hz)
        simp only [beq_iff_eq, hy]
        intro hc
        rw [hc] at this
        exact absurd this (by simp)
      rw [hnil, ho]
      simp [hy]
    · have : (i == y.1) = false := by simpa using hy
      rw [this]
      simp only [Bool.false_eq_true, if_false]
      apply ih hs.2
      intro x
      rw [← hm x]
      simp only [List.mem_cons]
      constructor
      · exact .inr
      · rintro (h | h)
        · exact absurd (congrArg Prod.fst h) hy
        · exact h

/-- C19: appending is refused exactly when failures overlap or the second result mentions a module that is not
successful in the first. -/
theorem C19_refused (a b : ModuleResult E (List P)) :
    a.append b = none ↔ (∃ p, Failed a p ∧ Failed b p) ∨ (∃ p, (Succeeded b p ∨ Failed b p) ∧ ¬ Succeeded a p) := by
  unfold ModuleResult.append Succeeded Failed
  by_cases h1 : (a.failures.modules.and b.failures.modules).isEmpty = true
  · by_cases h2 : a.modules.isSubset (b.modules.or b.failures.modules) = true
    · simp only [h1, h2, Bool.not_true, Bool.false_eq_true, if_false]
      have hk : ∀ l : List (U8 × List P), (∀ x ∈ l.map Prod.fst, x.toNat < 64) →
          ∃ m, ModuleId.fromIndexIter (l.map Prod.fst) = .ok m := fun l hl => (C02_from_indices_iff _).mpr hl
      have hkeys : ∀ x ∈ ((b.modules.toIndices.zip b.data).foldl ModuleResult.appendOne
          ((removeModuleData a.modules a.data b.failures.modules).1.toIndices.zip
            (removeModuleData a.modules a.data b.failures.modules).2)).map Prod.fst, x.toNat < 64 := by
        rw [foldl_appendOne, List.map_map]
        intro x hx
        simp only [List.mem_map, Function.comp_apply] at hx
        obtain ⟨e, he, rfl⟩ := hx
        exact mem_lt (mem_toIndices.mp (List.of_mem_zip (a := e.1) (b := e.2) he).1)
      obtain ⟨m, hm⟩ := hk _ hkeys
      simp only [hm, reduceCtorEq, false_iff]
      rintro (⟨p, hp⟩ | ⟨p, hp, hn⟩)
      · exact and_isEmpty.mp h1 p hp
      · exact hn (isSubset_iff.mp h2 p (mem_or.mpr hp))
    · simp only [h1, h2]
      refine ⟨fun _ => .inr ?_, fun _ => by simp⟩
      rw [isSubset_iff] at h2
      simp only [mem_or, Classical.not_forall] at h2
      obtain ⟨p, hp, hn⟩ := h2
      exact ⟨p, hp, hn⟩
  · simp only [h1]
    refine ⟨fun _ => .inl ?_, fun _ => by simp⟩
    rw [and_isEmpty] at h1
    simpa using h1

/-- C19: the outcome of every port after appending. -/
theorem C19_append (a b r : ModuleResult E (List P)) (ha : WF a) (hb : WF b) (h : a.append b = some r) :
    WF r ∧
    (∀ p, Failed r p ↔ Failed a p ∨ Failed b p) ∧
    (∀ p, Succeeded r p ↔ Succeeded a p ∧ ¬ Failed b p) ∧
    (∀ p, errAt r p = if Failed a p then errAt a p else errAt b p) ∧
    (∀ p, Succeeded r p → okAt r p = (okAt a p).map fun d => d ++ (okAt b p).getD []) := by
  have hno : a.append b ≠ none := by rw [h]; simp
  rw [Ne, C19_refused, not_or] at hno
  obtain ⟨hf, hs⟩ := hno
  unfold ModuleResult.append at h
  split at h
  · cases h
  split at h
  · cases h
  obtain ⟨ha1, ha2, ha3⟩ := ha
  obtain ⟨hb1, hb2, hb3⟩ := hb
  have r1 := C04_remove a.modules b.failures.modules a.data ha1
  have rf := failed_merge ha2 hb2
  simp only at r1
  generalize removeModuleData a.modules a.data b.failures.modules = kept at r1 h
  simp only at h
  rw [foldl_appendOne] at h
  have hkeys : ((kept.1.toIndices.zip kept.2).map fun e =>
      (e.1, e.2 ++ (((b.modules.toIndices.zip b.data).filter fun y => e.1 == y.1).map Prod.snd).flatten)).map Prod.fst =
      kept.1.toIndices := by
    rw [List.map_map]
    exact zip_keys r1.2.1
  rw [hkeys] at h
  have hrt : ModuleId.fromIndexIter kept.1.toIndices = .ok kept.1 := C02_roundtrip kept.1
  rw [hrt] at h
  simp only [Option.some.injEq] at h
  subst h
  have hz := zip_of_sorted (m := kept.1) (l := (kept.1.toIndices.zip kept.2).map fun e =>
      (e.1, e.2 ++ (((b.modules.toIndices.zip b.data).filter fun y => e.1 == y.1).map Prod.snd).flatten))
      (by rw [hkeys]; exact toIndices_sorted _) (by rw [hkeys]; intro x; exact mem_toIndices)
  refine ⟨⟨hz.1, rf.1, ?_⟩, rf.2.1, r1.1, ?_, ?_⟩
  · rintro p ⟨h1, h2⟩
    obtain ⟨h3, h4⟩ := (r1.1 p).mp h1
    rcases (rf.2.1 p).mp h2 with h5 | h5
    · exact ha3 p ⟨h3, h5⟩
    · exact h4 h5
  · intro p
    refine (rf.2.2 p).trans ?_
    unfold errAt Failed
    by_cases h1 : Mem b.failures.modules p
    · rw [if_pos h1, if_neg (fun hc => hf ⟨p, hc, h1⟩)]
    · rw [if_neg h1]
      by_cases h2 : Mem a.failures.modules p
      · rw [if_pos h2]
      · rw [if_neg h2, datum_none h1, datum_none h2]
  · intro p hp
    have hlt := mem_lt hp
    have hnf := ((r1.1 p).mp hp).2
    obtain ⟨i, rfl⟩ : ∃ i : U8, i.toNat = p := ⟨BitVec.ofNat 8 p, by simp; omega⟩
    unfold okAt
    have hd : datum kept.1 kept.2 i.toNat = datum a.modules a.data i.toNat := by rw [r1.2.2, if_neg hnf]
    rw [← hd]
    have hsome := (datum_isSome r1.2.1).mpr hp
    obtain ⟨x, hx⟩ := Option.isSome_iff_exists.mp hsome
    rw [hx]
    simp only [Option.map_some]
    rw [← mem_zip_iff_datum, hz.2, List.mem_map]
    refine ⟨(i, x), mem_zip_iff_datum.mpr hx, ?_⟩
    simp only [filter_zip_key]
    cases datum b.modules b.data i.toNat <;> simp

example :
    let a : ModuleResult String (List Nat) := ⟨⟨0b0111⟩, [[1], [2], [3]], ⟨⟨0b1000⟩, ["e3"]⟩⟩
    let b : ModuleResult String (List Nat) := ⟨⟨0b0100⟩, [[9]], ⟨⟨0b0010⟩, ["f1"]⟩⟩
    a.append b = some ⟨⟨0b0101⟩, [[1], [3, 9]], ⟨⟨0b1010⟩, ["f1", "e3"]⟩⟩ ∧ b.append a = none := by decide +kernel

end Xcvr
