import Verif.Spec.Memory
import Verif.Model.LargeAccess

/-! # C09-C12: memory accesses -/

namespace Xcvr

open Spec

/-- The limits of a page type agree with the specification of the page it denotes. -/
class PageSpec (P : Type) [MemoryPage P] where
  min (p : P) : (MemoryPage.minOffset p).toNat = pageStart (MemoryPage.toPage p)
  max (p : P) : (MemoryPage.maxOffset p).toNat = pageStart (MemoryPage.toPage p) + 127
  read (p : P) : (MemoryPage.maxReadSize P).toNat = maxRead (MemoryPage.toPage p)
  write (p : P) : (MemoryPage.maxWriteSize P).toNat = maxWrite (MemoryPage.toPage p)
  minRead : MemoryPage.minReadSize P = 1
  minWrite : MemoryPage.minWriteSize P = 1
  iface (p : P) : MemoryPage.interface P = (MemoryPage.toPage p).managementInterface

instance : PageSpec SffPage where
  min p := by cases p <;> rfl
  max p := by cases p <;> rfl
  read p := by cases p <;> rfl
  write p := by cases p <;> rfl
  minRead := rfl
  minWrite := rfl
  iface p := by cases p <;> rfl

instance : PageSpec CmisPage where
  min p := by cases p <;> rfl
  max p := by cases p <;> rfl
  read p := by cases p <;> rfl
  write p := by cases p <;> rfl
  minRead := rfl
  minWrite := rfl
  iface p := by cases p <;> rfl

section
variable {P : Type} [MemoryPage P] [PageSpec P]

theorem outOfBounds_iff (p : P) (o l : U8) :
    outOfBounds p o l = true ↔ ¬ InHalf (MemoryPage.toPage p) o.toNat l.toNat := by
  unfold outOfBounds InHalf
  simp only [Bool.or_eq_true, decide_eq_true_eq, BitVec.lt_def, GT.gt, PageSpec.min, PageSpec.max]
  omega

/-- C09, reads: accepted exactly when legal, with the given page, offset and length; otherwise an out-of-bounds
error takes precedence over a size error. `P` is `SffPage` or `CmisPage`. -/
theorem C09_read_generic (p : P) (o l : U8) :
    MemAccess.newRead p o l =
      if ¬ InHalf (MemoryPage.toPage p) o.toNat l.toNat then .error (.invalidMemoryAccess o l)
      else if 1 ≤ l.toNat ∧ l.toNat ≤ maxRead (MemoryPage.toPage p) then .ok ⟨MemoryPage.toPage p, o, l⟩
      else .error (.invalidOperationSize l (MemoryPage.toPage p).managementInterface) := by
  unfold MemAccess.newRead verifyRead
  by_cases h : InHalf (MemoryPage.toPage p) o.toNat l.toNat
  · have h1 : ¬ outOfBounds p o l = true := by rw [outOfBounds_iff]; exact fun hn => hn h
    rw [if_neg h1, if_neg (Classical.not_not.mpr h)]
    have h2 : (decide (l < MemoryPage.minReadSize P) || decide (l > MemoryPage.maxReadSize P)) = true ↔
        ¬ (1 ≤ l.toNat ∧ l.toNat ≤ maxRead (MemoryPage.toPage p)) := by
      simp only [Bool.or_eq_true, decide_eq_true_eq, BitVec.lt_def, GT.gt, PageSpec.minRead, PageSpec.read p]
      have : (1 : U8).toNat = 1 := rfl
      omega
    by_cases h3 : 1 ≤ l.toNat ∧ l.toNat ≤ maxRead (MemoryPage.toPage p)
    · rw [if_neg (fun hh => h2.mp hh h3), if_pos h3]
    · rw [if_pos (h2.mpr h3), if_neg h3, PageSpec.iface p]
  · rw [if_pos ((outOfBounds_iff p o l).mpr h), if_pos h]

theorem C09_write_generic (p : P) (o l : U8) :
    MemAccess.newWrite p o l =
      if ¬ InHalf (MemoryPage.toPage p) o.toNat l.toNat then .error (.invalidMemoryAccess o l)
      else if 1 ≤ l.toNat ∧ l.toNat ≤ maxWrite (MemoryPage.toPage p) then .ok ⟨MemoryPage.toPage p, o, l⟩
      else .error (.invalidOperationSize l (MemoryPage.toPage p).managementInterface) := by
  unfold MemAccess.newWrite verifyWrite
  by_cases h : InHalf (MemoryPage.toPage p) o.toNat l.toNat
  · have h1 : ¬ outOfBounds p o l = true := by rw [outOfBounds_iff]; exact fun hn => hn h
    rw [if_neg h1, if_neg (Classical.not_not.mpr h)]
    have h2 : (decide (l < MemoryPage.minWriteSize P) || decide (l > MemoryPage.maxWriteSize P)) = true ↔
        ¬ (1 ≤ l.toNat ∧ l.toNat ≤ maxWrite (MemoryPage.toPage p)) := by
      simp only [Bool.or_eq_true, decide_eq_true_eq, BitVec.lt_def, GT.gt, PageSpec.minWrite, PageSpec.write p]
      have : (1 : U8).toNat = 1 := rfl
      omega
    by_cases h3 : 1 ≤ l.toNat ∧ l.toNat ≤ maxWrite (MemoryPage.toPage p)
    · rw [if_neg (fun hh => h2.mp hh h3), if_pos h3]
    · rw [if_pos (h2.mpr h3), if_neg h3, PageSpec.iface p]
  · rw [if_pos ((outOfBounds_iff p o l).mpr h), if_pos h]

theorem newRead_ok_iff (p : P) (o l : U8) (a : MemAccess) :
    MemAccess.newRead p o l = .ok a ↔
      LegalRead (MemoryPage.toPage p) o.toNat l.toNat ∧ a = ⟨MemoryPage.toPage p, o, l⟩ := by
  rw [C09_read_generic]
  unfold LegalRead
  constructor
  · intro h
    split at h
    · cases h
    · split at h
      · rename_i h1 h2
        cases h; exact ⟨⟨h2.1, h2.2, Classical.not_not.mp h1⟩, rfl⟩
      · cases h
  · rintro ⟨⟨h1, h2, h3⟩, rfl⟩
    rw [if_neg (Classical.not_not.mpr h3), if_pos ⟨h1, h2⟩]

theorem newWrite_ok_iff (p : P) (o l : U8) (a : MemAccess) :
    MemAccess.newWrite p o l = .ok a ↔
      LegalWrite (MemoryPage.toPage p) o.toNat l.toNat ∧ a = ⟨MemoryPage.toPage p, o, l⟩ := by
  rw [C09_write_generic]
  unfold LegalWrite
  constructor
  · intro h
    split at h
    · cases h
    · split at h
      · rename_i h1 h2
        cases h; exact ⟨⟨h2.1, h2.2, Classical.not_not.mp h1⟩, rfl⟩
      · cases h
  · rintro ⟨⟨h1, h2, h3⟩, rfl⟩
    rw [if_neg (Classical.not_not.mpr h3), if_pos ⟨h1, h2⟩]

end

/-- C09 for SFF-8636 reads. -/
theorem C09_sff_read (p : SffPage) (o l : U8) :
    MemAccess.newRead p o l =
      if ¬ InHalf (.sff8636 p) o.toNat l.toNat then .error (.invalidMemoryAccess o l)
      else if 1 ≤ l.toNat ∧ l.toNat ≤ 128 then .ok ⟨.sff8636 p, o, l⟩
      else .error (.invalidOperationSize l .sff8636) := C09_read_generic p o l

/-- C09 for SFF-8636 writes. -/
theorem C09_sff_write (p : SffPage) (o l : U8) :
    MemAccess.newWrite p o l =
      if ¬ InHalf (.sff8636 p) o.toNat l.toNat then .error (.invalidMemoryAccess o l)
      else if 1 ≤ l.toNat ∧ l.toNat ≤ 4 then .ok ⟨.sff8636 p, o, l⟩
      else .error (.invalidOperationSize l .sff8636) := C09_write_generic p o l

/-- C09 for CMIS reads. -/
theorem C09_cmis_read (p : CmisPage) (o l : U8) :
    MemAccess.newRead p o l =
      if ¬ InHalf (.cmis p) o.toNat l.toNat then .error (.invalidMemoryAccess o l)
      else if 1 ≤ l.toNat ∧ l.toNat ≤ 8 then .ok ⟨.cmis p, o, l⟩
      else .error (.invalidOperationSize l .cmis) := C09_read_generic p o l

/-- C09 for CMIS writes. -/
theorem C09_cmis_write (p : CmisPage) (o l : U8) :
    MemAccess.newWrite p o l =
      if ¬ InHalf (.cmis p) o.toNat l.toNat then .error (.invalidMemoryAccess o l)
      else if 1 ≤ l.toNat ∧ l.toNat ≤ 8 then .ok ⟨.cmis p, o, l⟩
      else .error (.invalidOperationSize l .cmis) := C09_write_generic p o l

/-- C09: the halves of the map, spelled out. -/
theorem C09_halves (u : U8) (c : CmisUpperPage) (o l : Nat) :
    (InHalf (.sff8636 .lower) o l ↔ o ≤ 127 ∧ o + l ≤ 128) ∧
    (InHalf (.cmis .lower) o l ↔ o ≤ 127 ∧ o + l ≤ 128) ∧
    (InHalf (.sff8636 (.upper u)) o l ↔ 128 ≤ o ∧ o ≤ 255 ∧ o + l ≤ 256) ∧
    (InHalf (.cmis (.upper c)) o l ↔ 128 ≤ o ∧ o ≤ 255 ∧ o + l ≤ 256) := by
  simp only [InHalf, pageStart, isLower]
  simp
  omega

example : MemAccess.newRead SffPage.lower 0 128 = .ok ⟨.sff8636 .lower, 0, 128⟩ ∧
    MemAccess.newWrite (SffPage.upper 3) 252 4 = .ok ⟨.sff8636 (.upper 3), 252, 4⟩ ∧
    MemAccess.newRead CmisPage.lower 120 9 = .error (.invalidMemoryAccess 120 9) := by decide

/-! ## C10: pages -/

theorem forall_u8 {P : U8 → Prop} (h : ∀ x : Fin 256, P (BitVec.ofFin x)) : ∀ x, P x := fun x => h x.toFin

/-- C10, SFF-8636: a page is accepted exactly when defined, and otherwise refused by number. -/
theorem C10_sff (n : U8) :
    sffUpperPageNew n = if n.toNat ≤ 0x21 ∨ 0x80 ≤ n.toNat then .ok n else .error (.invalidPage n) := by
  have h : (n == 0x00 || n == 0x01 || n == 0x02 || n == 0x03 || (decide (0x20 ≤ n) && decide (n ≤ 0x21)) ||
      (decide (0x04 ≤ n) && decide (n ≤ 0x1F)) || (decide (0x80 ≤ n) && decide (n ≤ 0xFF))) = true ↔
      (n.toNat ≤ 0x21 ∨ 0x80 ≤ n.toNat) := by
    simp only [Bool.or_eq_true, Bool.and_eq_true, decide_eq_true_eq, beq_iff_eq, BitVec.le_def, ← BitVec.toNat_inj]
    simp
    omega
  unfold sffUpperPageNew
  by_cases hc : n.toNat ≤ 0x21 ∨ 0x80 ≤ n.toNat
  · rw [if_pos (h.mpr hc), if_pos hc]
  · rw [if_neg (fun hh => hc (h.mp hh)), if_neg hc]

theorem cmisPageAcceptsBank_iff (p : U8) : cmisPageAcceptsBank p = true ↔ CmisBanked p.toNat := by
  unfold cmisPageAcceptsBank CmisBanked
  simp only [Bool.or_eq_true, Bool.and_eq_true, decide_eq_true_eq, beq_iff_eq, BitVec.le_def, ← BitVec.toNat_inj]
  simp
  omega

theorem cmisIsValidPage_iff (p : U8) : cmisIsValidPage p = true ↔ CmisDefined p.toNat := by
  unfold cmisIsValidPage CmisDefined CmisBanked
  simp only [Bool.or_eq_true, Bool.and_eq_true, decide_eq_true_eq, beq_iff_eq, BitVec.le_def, ← BitVec.toNat_inj]
  have := p.isLt
  simp
  omega

instance (p : Nat) : Decidable (CmisBanked p) := inferInstanceAs (Decidable (_ ∨ _))
instance (p : Nat) : Decidable (CmisDefined p) := inferInstanceAs (Decidable (_ ∨ _))

/-- C10, CMIS banked pages: the exact acceptance condition and the order of the error reports. -/
theorem C10_cmis_banked (p b : U8) :
    cmisNewBanked p b =
      if ¬ CmisDefined p.toNat then .error (.invalidPage p)
      else if 3 < b.toNat then .error (.invalidBank b)
      else if ¬ CmisBanked p.toNat then .error (.pageIsUnbanked p)
      else .ok ⟨some b, p⟩ := by
  unfold cmisNewBanked
  have hb : b > cmisMaxBank ↔ 3 < b.toNat := by simp [cmisMaxBank, BitVec.lt_def]
  by_cases h1 : CmisDefined p.toNat
  · rw [if_neg (by simp [(cmisIsValidPage_iff p).mpr h1]), if_neg (Classical.not_not.mpr h1)]
    by_cases h2 : 3 < b.toNat
    · rw [if_pos (hb.mpr h2), if_pos h2]
    · rw [if_neg (fun h => h2 (hb.mp h)), if_neg h2]
      by_cases h3 : CmisBanked p.toNat
      · rw [if_neg (by simp [(cmisPageAcceptsBank_iff p).mpr h3]), if_neg (Classical.not_not.mpr h3)]
      · have : cmisPageAcceptsBank p = false := by
          rw [← Bool.not_eq_true, cmisPageAcceptsBank_iff]; exact h3
        rw [if_pos (by simp [this]), if_pos h3]
  · have : cmisIsValidPage p = false := by rw [← Bool.not_eq_true, cmisIsValidPage_iff]; exact h1
    rw [if_pos (by simp [this]), if_pos h1]

/-- C10 is false for unbanked CMIS pages: page 0x05 is reserved, yet accepted, although the documentation of
`new_unbanked` promises an error for an invalid page number. -/
theorem C10_cmis_unbanked_counterexample :
    ∃ p : U8, ¬ CmisDefined p.toNat ∧ cmisNewUnbanked p = .ok ⟨none, p⟩ := ⟨0x05, by decide⟩

theorem C10_cmis_unbanked_false :
    ¬ ∀ p : U8, (∃ u, cmisNewUnbanked p = .ok u) → CmisDefined p.toNat := by
  intro h
  obtain ⟨p, h1, h2⟩ := C10_cmis_unbanked_counterexample
  exact h1 (h p ⟨_, h2⟩)

/-- C10, what does hold for unbanked CMIS pages: refused exactly when the page is banked; no undefined page check.
Missing: refusal of undefined pages (0x05-0x0F, 0x40-0x9E). -/
theorem C10_cmis_unbanked_partial (p : U8) :
    cmisNewUnbanked p = if CmisBanked p.toNat then .error (.pageIsBanked p) else .ok ⟨none, p⟩ := by
  unfold cmisNewUnbanked
  by_cases h : CmisBanked p.toNat
  · rw [if_pos ((cmisPageAcceptsBank_iff p).mpr h), if_pos h]
  · rw [if_neg (fun hh => h ((cmisPageAcceptsBank_iff p).mp hh)), if_neg h]

/-! ## C11, C12: large accesses -/

theorem stepBy_nil (start stop size : Nat) (hs : 0 < size) (h : stop ≤ start) : stepBy start stop size = [] := by
  unfold stepBy
  have : stop - start + (size - 1) = size - 1 := by omega
  rw [this, Nat.div_eq_of_lt (by omega)]
  rfl

theorem stepBy_cons (start stop size : Nat) (hs : 0 < size) (h : start < stop) :
    stepBy start stop size = start :: stepBy (start + size) stop size := by
  unfold stepBy
  by_cases hle : size ≤ stop - start
  · have e : (stop - start + (size - 1)) / size = (stop - (start + size) + (size - 1)) / size + 1 := by
      have : stop - start + (size - 1) = (stop - (start + size) + (size - 1)) + size := by omega
      rw [this, Nat.add_div_right _ hs]
    rw [e, List.range_succ_eq_map, List.map_cons, List.map_map]
    congr 1
    · simp
    · apply List.map_congr_left
      intro k _
      simp [Nat.succ_mul]; omega
  · have e1 : (stop - start + (size - 1)) / size = 1 := by
      apply Nat.div_eq_of_lt_le <;> omega
    have e2 : (stop - (start + size) + (size - 1)) / size = 0 := by
      apply Nat.div_eq_of_lt; omega
    rw [e1, e2]
    simp [List.range_succ]

/-- The whole behaviour of the chunk loop: if `buildOne` accepts exactly the offset/length pairs in `L` and returns
them on page `pg`, then `buildMany`'s loop succeeds exactly when each chunk is in `L`, and the chunks cover the range. -/
theorem collect_chunks (buildOne : U8 → U8 → Except MgmtError MemAccess) (pg : Page) (size : U8) (hsize : 0 < size.toNat)
    (hb : ∀ o l a, buildOne o l = .ok a → a = ⟨pg, o, l⟩) (stop : Nat) (hstop : stop ≤ 256) :
    ∀ (n start : Nat), n = stop - start → start ≤ stop → stop - start < 256 →
      collectExec (buildChunk buildOne size stop) (stepBy start stop size.toNat) ≠ .panic ∧
      ∀ cs, collectExec (buildChunk buildOne size stop) (stepBy start stop size.toNat) = .ok cs →
        Covers cs start stop ∧ ∀ c ∈ cs, c.page = pg ∧ buildOne c.offset c.len = .ok c := by
  intro n
  induction n using Nat.strongRecOn with
  | _ n ih =>
    intro start hn hle hlt
    by_cases heq : start = stop
    · subst heq
      rw [stepBy_nil _ _ _ hsize (Nat.le_refl _)]
      simp [collectExec, Covers]
    · have hlt' : start < stop := by omega
      rw [stepBy_cons _ _ _ hsize hlt']
      simp only [collectExec]
      -- the chunk
      have hr : (u8TryFromUnwrap (stop - start) : Exec LargeAccessError U8) = .ok (BitVec.ofNat 8 (stop - start)) := by
        simp [u8TryFromUnwrap, hlt]
      have ho : (u8TryFromUnwrap start : Exec LargeAccessError U8) = .ok (BitVec.ofNat 8 start) := by
        simp only [u8TryFromUnwrap]; rw [if_pos (by omega)]
      have hc : buildChunk buildOne size stop start =
          match buildOne (BitVec.ofNat 8 start)
            (if size ≤ BitVec.ofNat 8 (stop - start) then size else BitVec.ofNat 8 (stop - start)) with
          | .ok a => .ok a
          | .error e => .err (.mgmt e) := by
        simp only [buildChunk, hr, ho]
        split <;> simp_all
      have eo : (BitVec.ofNat 8 start).toNat = start := by simp; omega
      have er : (BitVec.ofNat 8 (stop - start)).toNat = stop - start := by simp; omega
      rw [hc]
      generalize hl : (if size ≤ BitVec.ofNat 8 (stop - start) then size else BitVec.ofNat 8 (stop - start)) = l
      have el : l.toNat = min size.toNat (stop - start) := by
        rw [← hl]
        by_cases hh : size ≤ BitVec.ofNat 8 (stop - start)
        · rw [if_pos hh]; rw [BitVec.le_def, er] at hh; omega
        · rw [if_neg hh]; rw [BitVec.le_def, er] at hh; omega
      cases hbo : buildOne (BitVec.ofNat 8 start) l with
      | error e => simp
      | ok a =>
        have ha := hb _ _ _ hbo
        simp only
        -- next start
        by_cases hfull : size.toNat ≤ stop - start
        · have ih' := ih (stop - (start + size.toNat)) (by omega) (start + size.toNat) rfl (by omega) (by omega)
          cases hrest : collectExec (buildChunk buildOne size stop) (stepBy (start + size.toNat) stop size.toNat) with
          | panic => exact absurd hrest ih'.1
          | err e => simp
          | ok cs =>
            refine ⟨by simp, ?_⟩
            intro cs' hcs'
            cases hcs'
            obtain ⟨h1, h2⟩ := ih'.2 cs hrest
            subst ha
            refine ⟨⟨eo, by simp only [el]; omega, ?_⟩, ?_⟩
            · simp only [el, Nat.min_eq_left hfull]; exact h1
            · intro c hcm
              rcases List.mem_cons.mp hcm with rfl | hcm
              · exact ⟨rfl, hbo⟩
              · exact h2 c hcm
        · rw [stepBy_nil (start + size.toNat) stop size.toNat hsize (by omega)]
          simp only [collectExec]
          refine ⟨by simp, ?_⟩
          intro cs' hcs'
          cases hcs'
          subst ha
          refine ⟨⟨eo, by simp only [el]; omega, ?_⟩, ?_⟩
          · simp only [el]; show start + _ = stop; omega
          · intro c hcm
            simp only [List.mem_singleton] at hcm
            subst hcm
            exact ⟨rfl, hbo⟩

/-- If every nonempty chunk of size at most `size` inside `[start, stop)` is accepted, the loop succeeds. -/
theorem collect_chunks_ok (buildOne : U8 → U8 → Except MgmtError MemAccess) (pg : Page) (size : U8)
    (hsize : 0 < size.toNat) (stop : Nat) (hstop : stop ≤ 256) (lo : Nat)
    (hb : ∀ o l : U8, lo ≤ o.toNat → 1 ≤ l.toNat → l.toNat ≤ size.toNat → o.toNat + l.toNat ≤ stop →
      buildOne o l = .ok ⟨pg, o, l⟩) :
    ∀ (n start : Nat), n = stop - start → lo ≤ start → start ≤ stop → stop - start < 256 →
      ∃ cs, collectExec (buildChunk buildOne size stop) (stepBy start stop size.toNat) = .ok cs := by
  intro n
  induction n using Nat.strongRecOn with
  | _ n ih =>
    intro start hn hlo hle hlt
    by_cases heq : start = stop
    · subst heq
      rw [stepBy_nil _ _ _ hsize (Nat.le_refl _)]
      exact ⟨[], rfl⟩
    · have hlt' : start < stop := by omega
      rw [stepBy_cons _ _ _ hsize hlt']
      simp only [collectExec]
      have hr : (u8TryFromUnwrap (stop - start) : Exec LargeAccessError U8) = .ok (BitVec.ofNat 8 (stop - start)) := by
        simp [u8TryFromUnwrap, hlt]
      have ho : (u8TryFromUnwrap start : Exec LargeAccessError U8) = .ok (BitVec.ofNat 8 start) := by
        simp only [u8TryFromUnwrap]; rw [if_pos (by omega)]
      have eo : (BitVec.ofNat 8 start).toNat = start := by simp; omega
      have er : (BitVec.ofNat 8 (stop - start)).toNat = stop - start := by simp; omega
      simp only [buildChunk, hr, ho]
      generalize hl : (if size ≤ BitVec.ofNat 8 (stop - start) then size else BitVec.ofNat 8 (stop - start)) = l
      have el : l.toNat = min size.toNat (stop - start) := by
        rw [← hl]
        by_cases hh : size ≤ BitVec.ofNat 8 (stop - start)
        · rw [if_pos hh]; rw [BitVec.le_def, er] at hh; omega
        · rw [if_neg hh]; rw [BitVec.le_def, er] at hh; omega
      rw [hb _ _ (by omega) (by omega) (by omega) (by omega)]
      simp only
      by_cases hfull : size.toNat ≤ stop - start
      · obtain ⟨cs, hcs⟩ := ih (stop - (start + size.toNat)) (by omega) (start + size.toNat) rfl (by omega) (by omega)
          (by omega)
        rw [hcs]; exact ⟨_, rfl⟩
      · rw [stepBy_nil (start + size.toNat) stop size.toNat hsize (by omega)]
        exact ⟨_, rfl⟩

theorem covers_bounds {cs : List MemAccess} {start stop : Nat} (h : Covers cs start stop) :
    start ≤ stop ∧ ∀ c ∈ cs, start ≤ c.offset.toNat ∧ c.offset.toNat + c.len.toNat ≤ stop := by
  induction cs generalizing start with
  | nil => simp only [Covers] at h; subst h; simp
  | cons c cs ih =>
    obtain ⟨h1, h2, h3⟩ := h
    obtain ⟨i1, i2⟩ := ih h3
    refine ⟨by omega, ?_⟩
    intro d hd
    rcases List.mem_cons.mp hd with rfl | hd
    · exact ⟨by omega, by omega⟩
    · have := i2 d hd; omega

theorem covers_sum {cs : List MemAccess} {start stop : Nat} (h : Covers cs start stop) :
    start + (cs.map fun c => c.len.toNat).sum = stop := by
  induction cs generalizing start with
  | nil => simpa [Covers] using h
  | cons c cs ih =>
    obtain ⟨_, _, h3⟩ := h
    have := ih h3
    simp; omega

theorem covers_last {cs : List MemAccess} {start stop : Nat} (h : Covers cs start stop) (hne : start ≠ stop) :
    ∃ c ∈ cs, c.offset.toNat + c.len.toNat = stop := by
  induction cs generalizing start with
  | nil => exact absurd h hne
  | cons c cs ih =>
    obtain ⟨h1, h2, h3⟩ := h
    by_cases he : start + c.len.toNat = stop
    · exact ⟨c, by simp, by omega⟩
    · obtain ⟨d, hd, hds⟩ := ih h3 he
      exact ⟨d, List.mem_cons_of_mem _ hd, hds⟩

/-- Generic form of C11 for one kind of access: `legal` is its legality predicate and `max` its size limit. -/
theorem buildMany_spec (buildOne : U8 → U8 → Except MgmtError MemAccess) (pg : Page) (size : U8)
    (hsize : 0 < size.toNat) (max : Nat)
    (hb : ∀ o l a, buildOne o l = .ok a ↔
      (1 ≤ l.toNat ∧ l.toNat ≤ max ∧ InHalf pg o.toNat l.toNat) ∧ a = ⟨pg, o, l⟩) (o l : U8) :
    buildMany buildOne size o l ≠ .panic ∧
    (∀ cs, buildMany buildOne size o l = .ok cs →
      Covers cs o.toNat (o.toNat + l.toNat) ∧
      (∀ c ∈ cs, c.page = pg ∧ 1 ≤ c.len.toNat ∧ c.len.toNat ≤ max ∧ InHalf pg c.offset.toNat c.len.toNat)) ∧
    (size.toNat ≤ max → ((∃ cs, buildMany buildOne size o l = .ok cs) ↔ l.toNat = 0 ∨ InHalf pg o.toNat l.toNat)) := by
  have ho := o.isLt
  have hl := l.isLt
  unfold buildMany
  simp only
  by_cases hs : o.toNat + l.toNat > 256
  · rw [if_pos hs]
    refine ⟨by simp, by simp, ?_⟩
    intro _
    constructor
    · rintro ⟨cs, hcs⟩; cases hcs
    · intro h
      exfalso
      rcases h with h | ⟨h1, h2, h3⟩
      · omega
      · unfold pageStart at h3; split at h3 <;> omega
  · rw [if_neg hs]
    have hcc := collect_chunks buildOne pg size hsize (fun o l a h => ((hb o l a).mp h).2) (o.toNat + l.toNat)
      (by omega) _ o.toNat rfl (by omega) (by omega)
    refine ⟨hcc.1, ?_, ?_⟩
    · intro cs hcs
      obtain ⟨h1, h2⟩ := hcc.2 cs hcs
      refine ⟨h1, fun c hc => ?_⟩
      obtain ⟨h3, h4⟩ := h2 c hc
      have := ((hb _ _ _).mp h4).1
      exact ⟨h3, this⟩
    · intro hmax
      constructor
      · rintro ⟨cs, hcs⟩
        by_cases hz : l.toNat = 0
        · exact .inl hz
        · right
          obtain ⟨h1, h2⟩ := hcc.2 cs hcs
          obtain ⟨c, hc, hcs'⟩ := covers_last h1 (by omega)
          have hlast := ((hb _ _ _).mp (h2 c hc).2).1.2.2
          cases cs with
          | nil => simp at hc
          | cons d ds =>
            have hfirst := ((hb _ _ _).mp (h2 d (by simp)).2).1.2.2
            have hd := h1.1
            unfold InHalf at hlast hfirst ⊢
            omega
      · intro h
        rcases h with h | h
        · rw [h, Nat.add_zero, stepBy_nil _ _ _ hsize (Nat.le_refl _)]
          exact ⟨[], rfl⟩
        · apply collect_chunks_ok buildOne pg size hsize (o.toNat + l.toNat) (by omega) o.toNat _ _ o.toNat rfl
            (Nat.le_refl _) (by omega) (by omega)
          intro o' l' h1 h2 h3 h4
          rw [hb]
          refine ⟨⟨h2, by omega, ?_⟩, rfl⟩
          unfold InHalf at h ⊢
          omega

/-- C11, SFF-8636 reads. -/
theorem C11_sff_read (p : SffPage) (o l : U8) :
    sffLargeRead p o l ≠ .panic ∧
    (∀ cs, sffLargeRead p o l = .ok cs →
      Covers cs o.toNat (o.toNat + l.toNat) ∧
      ∀ c ∈ cs, c.page = .sff8636 p ∧ LegalRead (.sff8636 p) c.offset.toNat c.len.toNat) ∧
    ((∃ cs, sffLargeRead p o l = .ok cs) ↔ l.toNat = 0 ∨ InHalf (.sff8636 p) o.toNat l.toNat) := by
  have h := buildMany_spec (MemAccess.newRead p) (.sff8636 p) 64 (by decide) 128
    (fun o l a => newRead_ok_iff p o l a) o l
  exact ⟨h.1, h.2.1, h.2.2 (by decide)⟩

/-- C11, CMIS reads. -/
theorem C11_cmis_read (p : CmisPage) (o l : U8) :
    cmisLargeRead p o l ≠ .panic ∧
    (∀ cs, cmisLargeRead p o l = .ok cs →
      Covers cs o.toNat (o.toNat + l.toNat) ∧
      ∀ c ∈ cs, c.page = .cmis p ∧ LegalRead (.cmis p) c.offset.toNat c.len.toNat) ∧
    ((∃ cs, cmisLargeRead p o l = .ok cs) ↔ l.toNat = 0 ∨ InHalf (.cmis p) o.toNat l.toNat) := by
  have h := buildMany_spec (MemAccess.newRead p) (.cmis p) 8 (by decide) 8
    (fun o l a => newRead_ok_iff p o l a) o l
  exact ⟨h.1, h.2.1, h.2.2 (by decide)⟩

/-- C11, CMIS writes. -/
theorem C11_cmis_write (p : CmisPage) (o l : U8) :
    cmisLargeWrite p o l ≠ .panic ∧
    (∀ cs, cmisLargeWrite p o l = .ok cs →
      Covers cs o.toNat (o.toNat + l.toNat) ∧
      ∀ c ∈ cs, c.page = .cmis p ∧ LegalWrite (.cmis p) c.offset.toNat c.len.toNat) ∧
    ((∃ cs, cmisLargeWrite p o l = .ok cs) ↔ l.toNat = 0 ∨ InHalf (.cmis p) o.toNat l.toNat) := by
  have h := buildMany_spec (MemAccess.newWrite p) (.cmis p) 8 (by decide) 8
    (fun o l a => newWrite_ok_iff p o l a) o l
  exact ⟨h.1, h.2.1, h.2.2 (by decide)⟩

/-- C11, SFF-8636 writes: whenever splitting succeeds, the chunks are right (see C12 for when it succeeds). -/
theorem C11_sff_write (p : SffPage) (o l : U8) :
    sffLargeWrite p o l ≠ .panic ∧
    (∀ cs, sffLargeWrite p o l = .ok cs →
      Covers cs o.toNat (o.toNat + l.toNat) ∧
      ∀ c ∈ cs, c.page = .sff8636 p ∧ LegalWrite (.sff8636 p) c.offset.toNat c.len.toNat) := by
  have h := buildMany_spec (MemAccess.newWrite p) (.sff8636 p) 64 (by decide) 4
    (fun o l a => newWrite_ok_iff p o l a) o l
  exact ⟨h.1, h.2.1⟩

example : (match sffLargeRead .lower 3 125 with | .ok cs => cs.length | _ => 0) = 2 ∧
    (match cmisLargeWrite .lower 3 125 with | .ok cs => cs.length | _ => 0) = 16 := by decide

/-- C12 is false: an in-bounds 5-byte SFF-8636 write cannot be split (chunks of up to 64 bytes are attempted although
a single write is limited to 4). -/
theorem C12_counterexample :
    InHalf (.sff8636 .lower) 86 5 ∧
    sffLargeWrite .lower 86 5 = .err (.mgmt (.invalidOperationSize 5 .sff8636)) := by decide

theorem C12_false :
    ¬ ∀ (p : SffPage) (o l : U8), InHalf (.sff8636 p) o.toNat l.toNat → ∃ cs, sffLargeWrite p o l = .ok cs := by
  intro h
  obtain ⟨cs, hcs⟩ := h .lower 86 5 C12_counterexample.1
  rw [C12_counterexample.2] at hcs
  cases hcs

/-- C12, exact: a large SFF-8636 write is split exactly when it is empty or is itself a single legal write of at most
4 bytes. Missing from C12: every in-bounds write of 5 or more bytes is refused. -/
theorem C12_exact_partial (p : SffPage) (o l : U8) :
    (∃ cs, sffLargeWrite p o l = .ok cs) ↔
      l.toNat = 0 ∨ (l.toNat ≤ 4 ∧ InHalf (.sff8636 p) o.toNat l.toNat) := by
  have ho := o.isLt
  have hl := l.isLt
  constructor
  · rintro ⟨cs, hcs⟩
    by_cases hz : l.toNat = 0
    · exact .inl hz
    · right
      have h := (C11_sff_write p o l).2 cs hcs
      obtain ⟨hcov, hleg⟩ := h
      -- the first chunk has min(64, len) bytes
      have hlen : l.toNat ≤ 4 := by
        unfold sffLargeWrite buildMany at hcs
        simp only at hcs
        split at hcs
        · cases hcs
        · rename_i hs
          rw [stepBy_cons _ _ _ (by decide) (by omega)] at hcs
          simp only [collectExec] at hcs
          split at hcs
          · rename_i b hb
            unfold buildChunk at hb
            have hr : (u8TryFromUnwrap (o.toNat + l.toNat - o.toNat) : Exec LargeAccessError U8) = .ok l := by
              simp [u8TryFromUnwrap, hl]
            have ho' : (u8TryFromUnwrap o.toNat : Exec LargeAccessError U8) = .ok o := by
              simp [u8TryFromUnwrap, ho]
            rw [hr] at hb
            simp only [ho'] at hb
            split at hb
            · rename_i a ha
              rw [newWrite_ok_iff] at ha
              have := ha.1.2.1
              simp only [MemoryPage.toPage, maxWrite] at this
              split at this
              · simp at this
              · exact this
            · cases hb
          · cases hcs
          · cases hcs
      refine ⟨hlen, ?_⟩
      obtain ⟨c, hc, hce⟩ := covers_last hcov (by omega)
      cases cs with
      | nil => simp at hc
      | cons d ds =>
        have h1 := (hleg d (by simp)).2.2.2
        have h2 := (hleg c hc).2.2.2
        have h3 := hcov.1
        unfold InHalf at *
        omega
  · intro h
    rcases h with h | ⟨h4, h⟩
    · unfold sffLargeWrite buildMany
      simp only
      rw [if_neg (by omega), h, Nat.add_zero, stepBy_nil _ _ _ (by decide) (Nat.le_refl _)]
      exact ⟨[], rfl⟩
    · by_cases hz : l.toNat = 0
      · unfold sffLargeWrite buildMany
        simp only
        rw [if_neg (by omega), hz, Nat.add_zero, stepBy_nil _ _ _ (by decide) (Nat.le_refl _)]
        exact ⟨[], rfl⟩
      · have hub : o.toNat + l.toNat ≤ 256 := by
          unfold InHalf pageStart at h; split at h <;> omega
        unfold sffLargeWrite buildMany
        simp only
        rw [if_neg (by omega)]
        apply collect_chunks_ok (MemAccess.newWrite p) (.sff8636 p) 64 (by decide) (o.toNat + l.toNat) (by omega)
          o.toNat _ _ o.toNat rfl (Nat.le_refl _) (by omega) (by omega)
        intro o' l' h1 h2 h3 h5
        rw [newWrite_ok_iff]
        refine ⟨⟨h2, ?_, ?_⟩, rfl⟩
        · show l'.toNat ≤ 4; omega
        · unfold InHalf at h ⊢; simp only [MemoryPage.toPage]; omega

end Xcvr
