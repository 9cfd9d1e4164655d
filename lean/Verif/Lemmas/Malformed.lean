import Verif.Lemmas.Monitors
import Verif.Lemmas.Vendor
import Verif.Lemmas.Power
import Verif.Lemmas.Datapath
import Verif.Lemmas.MemoryModel

/-! # The parsers on any list of byte strings -/

namespace Xcvr

open Spec Decode

/-- The first byte of the `i`-th read, if there is one. -/
def headByte (rs : List Bytes) (i : Nat) : Option U8 := rs[i]?.bind List.head?

theorem firstOfFirst_eq (rs : List Bytes) : firstOfFirst rs = match headByte rs 0 with
    | some x => .ok x
    | none => .err .parseFailed := by
  cases rs with
  | nil => rfl
  | cons b rs => cases b <;> rfl

theorem headByte_tail (rs : List Bytes) (i : Nat) : headByte rs.tail i = headByte rs (i + 1) := by
  cases rs with
  | nil => cases i <;> rfl
  | cons b rs => rfl

theorem sffPages_ok (x : U8) : ∃ p, MemoryModel.sffPages x = .ok p := by
  have := MemoryModel.sffPages_eq x
  cases h : MemoryModel.sffPages x with
  | ok p => exact ⟨p, rfl⟩
  | err e => rw [h] at this; cases this
  | panic => rw [h] at this; cases this

theorem bankOf_none (x : U8) : (MemoryModel.bankOf x).isNone = decide (x.toNat % 4 = 3) := by
  revert x
  decide +kernel

theorem cmisPages_cases (x : U8) : (x.toNat % 4 = 3 ∧ MemoryModel.cmisPages x = .panic) ∨
    (x.toNat % 4 ≠ 3 ∧ ∃ p, MemoryModel.cmisPages x = .ok p) := by
  have h1 := MemoryModel.cmisPages_eq x
  have h2 := bankOf_none x
  cases hb : MemoryModel.bankOf x with
  | none =>
    rw [hb] at h1 h2
    refine .inl ⟨by simpa using h2, ?_⟩
    cases h : MemoryModel.cmisPages x with
    | ok p => rw [h] at h1; cases h1
    | err e => rw [h] at h1; cases h1
    | panic => rfl
  | some b =>
    rw [hb] at h1 h2
    refine .inr ⟨by simpa using h2, ?_⟩
    cases h : MemoryModel.cmisPages x with
    | ok p => exact ⟨p, rfl⟩
    | err e => rw [h] at h1; cases h1
    | panic => rw [h] at h1; cases h1

theorem slice_cases (b : Bytes) (start len : Nat) :
    (start + len ≤ b.length ∧ slice b start (start + len) = .ok ((b.drop start).take len)) ∨
    (b.length < start + len ∧ slice b start (start + len) = .panic) := by
  unfold slice
  by_cases h : start + len ≤ b.length
  · rw [if_pos ⟨by omega, h⟩, show start + len - start = len by omega]
    exact .inl ⟨h, rfl⟩
  · rw [if_neg fun h' => h h'.2]
    exact .inr ⟨by omega, rfl⟩

theorem ouiOf_three {b : Bytes} (h : b.length = 3) : ∃ o, VendorInfo.ouiOf b = .ok o := by
  match b, h with
  | [x, y, z], _ => exact ⟨_, rfl⟩

/-- The vendor parser needs all its ranges. -/
theorem build_cases (id : Identifier) (data : Bytes) (i1 i2 i3 i4 i5 n : Nat) (h1 : i1 + 16 ≤ n + 8) (h2 : i2 + 3 ≤ n + 8)
    (h3 : i3 + 16 ≤ n + 8) (h4 : i4 + 2 ≤ n + 8) (h5 : i5 + 16 ≤ n + 8) :
    (data.length < n + 8 ∧ VendorInfo.build id data (i1, i1 + 16) (i2, i2 + 3) (i3, i3 + 16) (i4, i4 + 2) (i5, i5 + 16)
      (n, n + 8) = .panic) ∨
    (n + 8 ≤ data.length ∧ ∃ v, VendorInfo.build id data (i1, i1 + 16) (i2, i2 + 3) (i3, i3 + 16) (i4, i4 + 2)
      (i5, i5 + 16) (n, n + 8) = .ok v) := by
  unfold VendorInfo.build
  dsimp only
  rcases slice_cases data i1 16 with ⟨_, g⟩ | ⟨_, g⟩ <;> rw [g]
  · rcases slice_cases data i2 3 with ⟨g1, g⟩ | ⟨_, g⟩
    · obtain ⟨o, ho⟩ := ouiOf_three (b := (data.drop i2).take 3) (by simp; omega)
      rcases slice_cases data i3 16 with ⟨_, g3⟩ | ⟨_, g3⟩
      · rcases slice_cases data i4 2 with ⟨_, g4⟩ | ⟨_, g4⟩
        · rcases slice_cases data i5 16 with ⟨_, g5⟩ | ⟨_, g5⟩
          · rcases slice_cases data n 8 with ⟨g7, g6⟩ | ⟨g7, g6⟩
            · refine .inr ⟨g7, ?_⟩
              simp only [g, g3, g4, g5, g6, ho, Exec.ok_bind]
              exact ⟨_, rfl⟩
            · refine .inl ⟨g7, ?_⟩
              simp only [g, g3, g4, g5, g6, ho, Exec.ok_bind, Exec.panic_bind]
          · exact .inl ⟨by omega, by simp only [g, g3, g4, g5, ho, Exec.ok_bind, Exec.panic_bind]⟩
        · exact .inl ⟨by omega, by simp only [g, g3, g4, ho, Exec.ok_bind, Exec.panic_bind]⟩
      · exact .inl ⟨by omega, by simp only [g, g3, ho, Exec.ok_bind, Exec.panic_bind]⟩
    · exact .inl ⟨by omega, by simp only [g, Exec.ok_bind, Exec.panic_bind]⟩
  · exact .inl ⟨by omega, by simp only [Exec.panic_bind]⟩

theorem pairAt_cases (b : Bytes) (i : Nat) :
    (b.length < i + 2 ∧ pairAt b i = .panic) ∨ (i + 2 ≤ b.length ∧ ∃ x, pairAt b i = .ok x) := by
  unfold pairAt idx
  by_cases h1 : i < b.length
  · rw [List.getElem?_eq_getElem h1]
    by_cases h2 : i + 1 < b.length
    · rw [List.getElem?_eq_getElem h2]
      exact .inr ⟨by omega, _, rfl⟩
    · rw [List.getElem?_eq_none (by omega)]
      exact .inl ⟨by omega, rfl⟩
  · rw [List.getElem?_eq_none (by omega)]
    exact .inl ⟨by omega, rfl⟩

theorem whenAt_cases {β : Type} (c : Bool) (b : Bytes) (i : Nat) (f : U8 × U8 → β) :
    ((c = true ∧ b.length < i + 2) ∧ Monitors.whenAt c b i f = .panic) ∨
    (¬ (c = true ∧ b.length < i + 2) ∧ ∃ x, Monitors.whenAt c b i f = .ok x) := by
  unfold Monitors.whenAt
  cases c with
  | false => exact .inr ⟨by simp, none, rfl⟩
  | true =>
    rcases pairAt_cases b i with ⟨h1, h2⟩ | ⟨h1, x, h2⟩
    · refine .inl ⟨⟨rfl, h1⟩, ?_⟩
      rw [if_pos rfl, h2]
      rfl
    · refine .inr ⟨by omega, some (f x), ?_⟩
      rw [if_pos rfl, h2]
      rfl

theorem get_cases (b : Bytes) (i : Nat) :
    (b.length ≤ i ∧ Decode.get b i = .err .parseFailed) ∨ (i < b.length ∧ Decode.get b i = .ok (b.getD i 0)) := by
  unfold Decode.get
  by_cases h : i < b.length
  · rw [List.getElem?_eq_getElem h]
    refine .inr ⟨h, ?_⟩
    simp [List.getD_eq_getElem?_getD, List.getElem?_eq_getElem h]
  · rw [List.getElem?_eq_none (by omega)]
    exact .inl ⟨by omega, rfl⟩

theorem biasScale_cases (y : U8) : (y.toNat / 8 % 4 = 3 ∧ Monitors.biasScale y = .panic) ∨
    (y.toNat / 8 % 4 ≠ 3 ∧ ∃ r, Monitors.biasScale y = .ok r) := by
  have h : ∀ y : U8, ((y >>> 3) &&& 0b11 = 0b00 ∨ (y >>> 3) &&& 0b11 = 0b01 ∨ (y >>> 3) &&& 0b11 = 0b10) ↔
      y.toNat / 8 % 4 ≠ 3 := by decide +kernel
  unfold Monitors.biasScale
  have hy := h y
  split
  · exact .inr ⟨hy.1 (.inl ‹_›), _, rfl⟩
  · split
    · exact .inr ⟨hy.1 (.inr (.inl ‹_›)), _, rfl⟩
    · split
      · exact .inr ⟨hy.1 (.inr (.inr ‹_›)), _, rfl⟩
      · refine .inl ⟨?_, rfl⟩
        by_cases hz : y.toNat / 8 % 4 = 3
        · exact hz
        · rcases hy.2 hz with hz | hz | hz <;> contradiction

theorem extractBit_ok (x : U8) {b : U8} (h : b.toNat ≤ 7) : ∃ v, extractBit x b = .ok v := by
  unfold extractBit
  rw [if_neg fun h' => by
    have := BitVec.lt_def.1 h'
    simp at this
    omega]
  exact ⟨_, rfl⟩

theorem sffLane_ok (t c l0 l1 l2 : U8) (more : Bytes) {lane : U8} (h : lane.toNat ≤ 3) :
    ∃ v, Datapath.sffLane t (l0 :: l1 :: l2 :: more) c lane = .ok v := by
  have h1 : lane.toNat ≤ 7 := by omega
  have h2 : (lane + 4).toNat ≤ 7 := by
    rw [BitVec.toNat_add]
    simp
    omega
  have e1 := fun x => extractBit_ok x h1
  have e2 := fun x => extractBit_ok x h2
  have i0 : idx (l0 :: l1 :: l2 :: more) 0 = .ok l0 := rfl
  have i1 : idx (l0 :: l1 :: l2 :: more) 1 = .ok l1 := rfl
  have i2 : idx (l0 :: l1 :: l2 :: more) 2 = .ok l2 := rfl
  unfold Datapath.sffLane
  obtain ⟨a1, g1⟩ := e1 t
  obtain ⟨a2, g2⟩ := e2 l0
  obtain ⟨a3, g3⟩ := e2 l1
  obtain ⟨a4, g4⟩ := e1 l1
  obtain ⟨a5, g5⟩ := e2 l2
  obtain ⟨a6, g6⟩ := e1 l0
  obtain ⟨a7, g7⟩ := e1 l2
  obtain ⟨a8, g8⟩ := e2 c
  obtain ⟨a9, g9⟩ := e1 c
  simp only [i0, i1, i2, g1, g2, g3, g4, g5, g6, g7, g8, g9, Exec.ok_bind]
  exact ⟨_, rfl⟩

theorem assertLen_cases (b : Bytes) (n : Nat) :
    (b.length = n ∧ assertLen b n = .ok ()) ∨ (b.length ≠ n ∧ assertLen b n = .panic) := by
  unfold assertLen
  split
  · exact .inl ⟨‹_›, rfl⟩
  · exact .inr ⟨‹_›, rfl⟩

/-- A slice is the same of more bytes. -/
theorem slice_more {b : Bytes} {i j : Nat} {v : Bytes} (more : Bytes) (h : slice b i j = .ok v) :
    slice (b ++ more) i j = .ok v := by
  unfold slice at h ⊢
  split at h
  · rename_i hc
    rw [if_pos ⟨hc.1, by rw [List.length_append]; omega⟩]
    cases h
    rw [List.drop_append_of_le_length (by omega), List.take_append_of_le_length (by rw [List.length_drop]; omega)]
  · cases h

theorem build_more {id : Identifier} {data : Bytes} {a b c d e f : Nat × Nat} {v : VendorInfo} (more : Bytes)
    (h : VendorInfo.build id data a b c d e f = .ok v) : VendorInfo.build id (data ++ more) a b c d e f = .ok v := by
  unfold VendorInfo.build at h ⊢
  obtain ⟨v1, g1, h⟩ := Exec.bind_eq_ok.1 h
  obtain ⟨v2, g2, h⟩ := Exec.bind_eq_ok.1 h
  obtain ⟨o, g3, h⟩ := Exec.bind_eq_ok.1 h
  obtain ⟨v4, g4, h⟩ := Exec.bind_eq_ok.1 h
  obtain ⟨v5, g5, h⟩ := Exec.bind_eq_ok.1 h
  obtain ⟨v6, g6, h⟩ := Exec.bind_eq_ok.1 h
  obtain ⟨v7, g7, h⟩ := Exec.bind_eq_ok.1 h
  simp only [slice_more more g1, slice_more more g2, g3, slice_more more g4, slice_more more g5, slice_more more g6,
    slice_more more g7, Exec.ok_bind]
  exact h

theorem nextUnwrap_ok {rs : List Bytes} {x : Bytes × List Bytes} (h : nextUnwrap rs = .ok x) :
    rs = x.1 :: x.2 := by
  cases rs with
  | nil => cases h
  | cons a t => cases h; rfl

theorem byKind_more {α : Type} {id : Identifier} {a b a' b' : Exec DecodeError α} {v : α}
    (ha : a = .ok v → a' = .ok v) (hb : b = .ok v → b' = .ok v) (h : byKind id a b = .ok v) : byKind id a' b' = .ok v := by
  unfold byKind at h ⊢
  split at h
  · rw [if_pos ‹_›]
    exact ha h
  · rw [if_neg ‹_›]
    split at h
    · rw [if_pos ‹_›]
      exact hb h
    · cases h

theorem headByte_more {rs : List Bytes} {i : Nat} {x : U8} (more : List Bytes) (h : headByte rs i = some x) :
    headByte (rs ++ more) i = some x := by
  unfold headByte at h ⊢
  obtain ⟨b, hb, h⟩ := Option.bind_eq_some_iff.1 h
  rw [List.getElem?_append_left (List.getElem?_eq_some_iff.1 hb).1, hb]
  exact h

theorem firstOfFirst_more {rs : List Bytes} {x : U8} (more : List Bytes) (h : firstOfFirst rs = .ok x) :
    firstOfFirst (rs ++ more) = .ok x := by
  rw [firstOfFirst_eq] at h ⊢
  cases hb : headByte rs 0 with
  | none =>
    rw [hb] at h
    cases h
  | some y =>
    rw [hb] at h
    cases h
    rw [headByte_more more hb]

theorem firstOfFirst_tail_more {rs : List Bytes} {x : U8} (more : List Bytes) (h : firstOfFirst rs.tail = .ok x) :
    firstOfFirst (rs ++ more).tail = .ok x := by
  cases rs with
  | nil => cases h
  | cons a t => exact firstOfFirst_more more h

theorem monitors_sff_more (rs more : List Bytes) (h : 6 ≤ rs.length) :
    Monitors.parseSff (rs ++ more) = Monitors.parseSff rs := by
  match rs, h with
  | a :: b :: c :: d :: e :: f :: rs, _ =>
    simp only [List.cons_append]
    unfold Monitors.parseSff
    simp only [Decode.next, Exec.ok_bind]

theorem monitors_cmis_more (rs more : List Bytes) (h : 10 ≤ rs.length) :
    Monitors.parseCmis (rs ++ more) = Monitors.parseCmis rs := by
  match rs, h with
  | a :: b :: c :: d :: e :: f :: g :: i :: j :: k :: rs, _ =>
    simp only [List.cons_append]
    unfold Monitors.parseCmis
    simp only [Decode.next, Exec.ok_bind]

theorem datapath_sff_more (rs more : List Bytes) (h : 5 ≤ rs.length) :
    Datapath.parseSff (rs ++ more) = Datapath.parseSff rs := by
  match rs, h with
  | a :: b :: c :: d :: e :: rs, _ =>
    simp only [List.cons_append]
    unfold Datapath.parseSff
    simp only [nextUnwrap, Exec.ok_bind]

theorem datapath_cmis_more (rs more : List Bytes) (h : 15 ≤ rs.length) :
    Datapath.parseCmis (rs ++ more) = Datapath.parseCmis rs := by
  match rs, h with
  | a :: b :: c :: d :: e :: f :: g :: i :: j :: k :: l :: m :: n :: o :: p :: rs, _ =>
    simp only [List.cons_append]
    unfold Datapath.parseCmis
    simp only [nextUnwrap, Exec.ok_bind]

end Xcvr
