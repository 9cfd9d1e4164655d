import Verif.Lemmas.Utf8

/-! # Lemmas about decoding vendor information -/

namespace Xcvr

open Spec

namespace VendorInfo

theorem slice_bytesAt (m : Nat → U8) (a n i len : Nat) (h : i + len ≤ n) :
    Decode.slice (bytesAt m a n) i (i + len) = .ok (bytesAt m (a + i) len) := by
  have hl : (bytesAt m a n).length = n := by simp [bytesAt]
  rw [Decode.slice, if_pos ⟨by omega, by omega⟩]
  congr 1
  apply List.ext_getElem?
  intro k
  simp only [bytesAt, List.getElem?_take, List.getElem?_drop, List.getElem?_map]
  by_cases hk : k < len
  · rw [if_pos (by omega), List.getElem?_range (by omega), List.getElem?_range hk]
    simp [Nat.add_assoc]
  · rw [if_neg (by omega)]
    simp [hk]

theorem ouiOf_bytesAt (m : Nat → U8) (a : Nat) : ouiOf (bytesAt m a 3) = .ok ⟨m a, m (a + 1), m (a + 2)⟩ := rfl

theorem build_eq (id : Identifier) (m : Nat → U8) (a n i1 i2 i3 i4 i5 i6 : Nat) (h1 : i1 + 16 ≤ n) (h2 : i2 + 3 ≤ n)
    (h3 : i3 + 16 ≤ n) (h4 : i4 + 2 ≤ n) (h5 : i5 + 16 ≤ n) (h6 : i6 + 8 ≤ n) :
    build id (bytesAt m a n) (i1, i1 + 16) (i2, i2 + 3) (i3, i3 + 16) (i4, i4 + 2) (i5, i5 + 16) (i6, i6 + 8) =
      .ok ⟨id, { name := asciiToString (bytesAt m (a + i1) 16)
                 oui := ⟨m (a + i2), m (a + i2 + 1), m (a + i2 + 2)⟩
                 part := asciiToString (bytesAt m (a + i3) 16)
                 revision := asciiToString (bytesAt m (a + i4) 2)
                 serial := asciiToString (bytesAt m (a + i5) 16)
                 date := dateOf (bytesAt m (a + i6) 8) }⟩ := by
  simp only [build, slice_bytesAt, h1, h2, h3, h4, h5, h6, Exec.ok_bind, ouiOf_bytesAt, Exec.pure_eq]

/-- The vendor fields at given addresses. -/
def vendorAt (m : Nat → U8) (a1 a2 a3 a4 a5 a6 : Nat) : Vendor :=
  { name := asciiToString (bytesAt m a1 16)
    oui := ⟨m a2, m (a2 + 1), m (a2 + 2)⟩
    part := asciiToString (bytesAt m a3 16)
    revision := asciiToString (bytesAt m a4 2)
    serial := asciiToString (bytesAt m a5 16)
    date := dateOf (bytesAt m a6 8) }

theorem decode_sff {id} (h : SffModule id) (mem : ModuleMemory) :
    ∃ v, decodeFrom decoder id mem = .ok ⟨id, v⟩ ∧ SffVendor mem v := by
  refine ⟨vendorAt (sffUp00 mem) 148 165 168 184 196 212, ?_, asciiToString_spec (bytesAt (sffUp00 mem) 148 16), rfl,
    asciiToString_spec (bytesAt (sffUp00 mem) 168 16), asciiToString_spec (bytesAt (sffUp00 mem) 184 2),
    asciiToString_spec (bytesAt (sffUp00 mem) 196 16), dateOf_spec (bytesAt (sffUp00 mem) 212 8)⟩
  show (reads id).bind _ = _
  rw [reads_sff h]
  show parse id [bytesAt (sffUp00 mem) 148 72] = _
  rw [parse, Decode.byKind_sff h]
  exact build_eq id (sffUp00 mem) 148 72 0 17 20 36 48 64 (by decide) (by decide) (by decide) (by decide) (by decide)
    (by decide)

theorem decode_cmis {id} (h : CmisModule id) (mem : ModuleMemory) :
    ∃ v, decodeFrom decoder id mem = .ok ⟨id, v⟩ ∧ CmisVendor mem v := by
  refine ⟨vendorAt (cmisUp mem 0) 129 145 148 164 166 182, ?_, asciiToString_spec (bytesAt (cmisUp mem 0) 129 16), rfl,
    asciiToString_spec (bytesAt (cmisUp mem 0) 148 16), asciiToString_spec (bytesAt (cmisUp mem 0) 164 2),
    asciiToString_spec (bytesAt (cmisUp mem 0) 166 16), dateOf_spec (bytesAt (cmisUp mem 0) 182 8)⟩
  show (reads id).bind _ = _
  rw [reads_cmis h]
  show parse id _ = _
  rw [parse, Decode.byKind_cmis h]
  have hf : ((cmisOffsets.map fun o => (⟨.cmis (.upper ⟨none, 0⟩), o, 8⟩ : MemoryRead)).map (answer mem)).flatten =
      bytesAt (cmisUp mem 0) 129 64 := rfl
  rw [hf]
  exact build_eq id (cmisUp mem 0) 129 64 0 16 19 35 37 53 (by decide) (by decide) (by decide) (by decide) (by decide)
    (by decide)

end VendorInfo

end Xcvr
