import Verif.Spec.Columns
import Verif.Lemmas.Lines

/-! # Lemmas about columns of text -/

namespace Xcvr

open Spec Cli

theorem column_flatten (a b : Lines) (s : List Char) {i w : Nat} (hi : a.flatten.length = i) (hw : s.length = w) :
    column i w (a ++ s :: b).flatten = s := by
  subst hi hw
  unfold column
  rw [List.flatten_append, List.flatten_cons, List.drop_left, List.take_left]

theorem getElem_flatten (a b : Lines) {i : Nat} (hi : a.flatten.length = i) :
    (a ++ [' '] :: b).flatten[i]? = some ' ' := by
  subst hi
  rw [List.flatten_append, List.getElem?_append_right (Nat.le_refl _), Nat.sub_self]
  rfl

theorem length_alignLeft {n : Nat} {s : List Char} (h : s.length ≤ n) : (alignLeft n s).length = n := by
  unfold alignLeft
  rw [List.length_append, List.length_replicate]
  omega

theorem length_alignRight {n : Nat} {s : List Char} (h : s.length ≤ n) : (alignRight n s).length = n := by
  unfold alignRight
  rw [List.length_append, List.length_replicate]
  omega

theorem vendorLine_of {port ident name part revision serial date : List Char} (h0 : port.length ≤ 4)
    (h1 : ident.length ≤ 24) (h2 : name.length ≤ 16) (h3 : part.length ≤ 16) (h4 : revision.length ≤ 4)
    (h5 : serial.length ≤ 16) (h6 : date.length ≤ 20) :
    VendorLine (alignRight 4 port ++ chars!" " ++ vendorColumns ident name part revision serial date)
      port ident name part revision serial date := by
  have e0 := length_alignRight h0
  have e1 := length_alignLeft h1
  have e2 := length_alignLeft h2
  have e3 := length_alignLeft h3
  have e4 := length_alignLeft h4
  have e5 := length_alignLeft h5
  have e6 := length_alignLeft h6
  have key : alignRight 4 port ++ chars!" " ++ vendorColumns ident name part revision serial date =
      ([alignRight 4 port, [' '], alignLeft 24 ident, [' '], alignLeft 16 name, [' '], alignLeft 16 part, [' '],
        alignLeft 4 revision, [' '], alignLeft 16 serial, [' '], alignLeft 20 date] : Lines).flatten := by
    simp [vendorColumns]
  rw [key]
  refine ⟨?_, ⟨h0, ?_⟩, ⟨h1, ?_⟩, ⟨h2, ?_⟩, ⟨h3, ?_⟩, ⟨h4, ?_⟩, ⟨h5, ?_⟩, ⟨h6, ?_⟩, ?_⟩
  · simp [e0, e1, e2, e3, e4, e5, e6]
  · exact column_flatten [] _ _ rfl e0
  · exact column_flatten [_, _] _ _ (by simp [e0]) e1
  · exact column_flatten [_, _, _, _] _ _ (by simp [e0, e1]) e2
  · exact column_flatten [_, _, _, _, _, _] _ _ (by simp [e0, e1, e2]) e3
  · exact column_flatten [_, _, _, _, _, _, _, _] _ _ (by simp [e0, e1, e2, e3]) e4
  · exact column_flatten [_, _, _, _, _, _, _, _, _, _] _ _ (by simp [e0, e1, e2, e3, e4]) e5
  · exact column_flatten [_, _, _, _, _, _, _, _, _, _, _, _] _ _ (by simp [e0, e1, e2, e3, e4, e5]) e6
  · intro i hi
    simp only [List.mem_cons, List.not_mem_nil, or_false] at hi
    rcases hi with rfl | rfl | rfl | rfl | rfl | rfl
    · exact getElem_flatten [_] _ (by simp [e0])
    · exact getElem_flatten [_, _, _] _ (by simp [e0, e1])
    · exact getElem_flatten [_, _, _, _, _] _ (by simp [e0, e1, e2])
    · exact getElem_flatten [_, _, _, _, _, _, _] _ (by simp [e0, e1, e2, e3])
    · exact getElem_flatten [_, _, _, _, _, _, _, _, _] _ (by simp [e0, e1, e2, e3, e4])
    · exact getElem_flatten [_, _, _, _, _, _, _, _, _, _, _] _ (by simp [e0, e1, e2, e3, e4, e5])

theorem utf8_length (cs : List Char) : cs.length ≤ (cs.flatMap utf8Encode).length := by
  induction cs with
  | nil => exact Nat.le_refl _
  | cons c cs ih =>
    have := List.length_pos_iff.2 (utf8Encode_ne_nil c)
    simp only [List.flatMap_cons, List.length_append, List.length_cons]
    omega

/-- Text is no longer than the bytes it is made of. -/
theorem length_asciiToString (b : Bytes) : (asciiToString b).length ≤ b.length := by
  obtain ⟨s, ⟨r, h1, -⟩, w, h2, -⟩ := asciiToString_spec b
  have h3 := congrArg List.length h1
  have h4 := congrArg List.length h2
  have h5 := utf8_length s
  simp only [List.length_append] at h3 h4
  omega

theorem length_dateOf {b : Bytes} {d : List Char} (h : VendorInfo.dateOf b = some d) : d.length ≤ b.length := by
  rcases dateOf_spec b with ⟨s, h1, h2⟩ | ⟨h1, -⟩
  · rw [h] at h1
    cases h1
    have h3 := congrArg List.length h2
    have := utf8_length d
    omega
  · rw [h] at h1
    cases h1

theorem slice_length {b c : Bytes} {i j : Nat} (h : Decode.slice b i j = .ok c) : c.length = j - i := by
  unfold Decode.slice at h
  split at h
  · cases h
    rw [List.length_take, List.length_drop]
    omega
  · cases h

/-- The texts of decoded vendor information fit. -/
structure VendorFits (v : VendorInfo) : Prop where
  ident : (identText v.identifier).length ≤ 24
  name : v.vendor.name.length ≤ 16
  part : v.vendor.part.length ≤ 16
  revision : v.vendor.revision.length ≤ 4
  serial : v.vendor.serial.length ≤ 16
  date : (v.vendor.date.getD chars!"Unknown").length ≤ 20

theorem build_fits {id : Identifier} (hid : (identText id).length ≤ 24) {data : Bytes} {a b c d e f g i j k l n : Nat}
    {v : VendorInfo} (h : VendorInfo.build id data (a, b) (c, d) (e, f) (g, i) (j, k) (l, n) = .ok v) (h1 : b - a ≤ 16)
    (h2 : f - e ≤ 16) (h3 : i - g ≤ 4) (h4 : k - j ≤ 16) (h5 : n - l ≤ 20) : VendorFits v := by
  unfold VendorInfo.build at h
  obtain ⟨name, e1, h⟩ := Exec.bind_eq_ok.1 h
  obtain ⟨oui, e2, h⟩ := Exec.bind_eq_ok.1 h
  obtain ⟨oui, e3, h⟩ := Exec.bind_eq_ok.1 h
  obtain ⟨part, e4, h⟩ := Exec.bind_eq_ok.1 h
  obtain ⟨rev, e5, h⟩ := Exec.bind_eq_ok.1 h
  obtain ⟨serial, e6, h⟩ := Exec.bind_eq_ok.1 h
  obtain ⟨date, e7, h⟩ := Exec.bind_eq_ok.1 h
  cases h
  have l1 := slice_length e1
  have l4 := slice_length e4
  have l5 := slice_length e5
  have l6 := slice_length e6
  have l7 := slice_length e7
  have m1 := length_asciiToString name
  have m4 := length_asciiToString part
  have m5 := length_asciiToString rev
  have m6 := length_asciiToString serial
  dsimp only at l1 l4 l5 l6 l7
  refine ⟨hid, by dsimp only; omega, by dsimp only; omega, by dsimp only; omega, by dsimp only; omega, ?_⟩
  dsimp only
  cases hd : VendorInfo.dateOf date with
  | none => exact (by decide : (7 : Nat) ≤ 20)
  | some x =>
    have := length_dateOf hd
    show x.length ≤ 20
    omega

theorem parse_fits {id : Identifier} {rs : List Bytes} {v : VendorInfo} (h : VendorInfo.parse id rs = .ok v) :
    VendorFits v := by
  unfold VendorInfo.parse at h
  by_cases hs : SffModule id
  · rw [Decode.byKind_sff hs] at h
    obtain ⟨⟨data, rest⟩, -, h⟩ := Exec.bind_eq_ok.1 h
    refine build_fits ?_ h (by decide) (by decide) (by decide) (by decide) (by decide)
    rcases hs with rfl | rfl <;> decide +kernel
  · by_cases hc : CmisModule id
    · rw [Decode.byKind_cmis hc] at h
      refine build_fits ?_ h (by decide) (by decide) (by decide) (by decide) (by decide)
      rcases hc with rfl | rfl <;> decide +kernel
    · rw [Decode.byKind_other hs hc] at h
      cases h

theorem decimal_length (port : U8) : (decimal port).length ≤ 4 := by
  revert port
  decide +kernel

end Xcvr
