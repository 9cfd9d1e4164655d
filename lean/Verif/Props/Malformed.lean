import Verif.Lemmas.DatapathReads

/-!
# C134: the parsers on bytes that are not those asked for

`parse` of every decoder is public: anybody may give it any list of byte strings. When it panics, when it reports an
error, and when it returns a value.
-/

namespace Xcvr

open Spec Spec.Malformed Decode

/-! ## Power control -/

/-- C134, what holds of the power control word: its parser never panics, and fails exactly if there is no byte. -/
theorem C134_power_partial (id : Identifier) (rs : List Bytes) :
    PowerControl.parse id rs ≠ .panic ∧
    (SffModule id ∨ CmisModule id → (PowerControl.parse id rs = .err .parseFailed ↔ headByte rs 0 = none)) := by
  constructor
  · unfold PowerControl.parse byKind
    rw [firstOfFirst_eq]
    cases headByte rs 0 <;> repeat' split
    all_goals exact fun h => by cases h
  · intro h
    unfold PowerControl.parse
    rcases h with h | h
    · rw [byKind_sff h, firstOfFirst_eq]
      cases headByte rs 0 <;> simp
    · rw [byKind_cmis h, firstOfFirst_eq]
      cases headByte rs 0 <;> simp

/-! ## Memory model -/

/-- C134, what holds of the memory model, SFF-8636: never a panic, and an error exactly if a byte is missing that is
needed. -/
theorem C134_model_sff_partial (id : Identifier) (h : SffModule id) (rs : List Bytes) :
    MemoryModel.parse id rs ≠ .panic ∧
    ((∃ v, MemoryModel.parse id rs = .ok v) ↔
      ∃ s, headByte rs 0 = some s ∧ (bit s 2 = false → headByte rs 1 ≠ none)) := by
  unfold MemoryModel.parse
  rw [byKind_sff h, firstOfFirst_eq, firstOfFirst_eq, headByte_tail]
  have hx : ∀ x : U8, decide (x &&& ((1 : U8) <<< 2) = 0) = !bit x 2 := by decide +kernel
  cases headByte rs 0 with
  | none => exact ⟨fun h => (by cases h), fun ⟨v, h⟩ => (by cases h), fun ⟨s, h, _⟩ => (by cases h)⟩
  | some x =>
    have hxx := hx x
    simp only [Exec.ok_bind]
    split
    · rename_i hz
      simp only [hz, decide_true] at hxx
      cases headByte rs 1 with
      | none =>
        refine ⟨fun h => (by cases h), fun ⟨v, h⟩ => (by cases h), fun ⟨s, h, hb⟩ => ?_⟩
        cases h
        exact absurd rfl (hb (by simpa using hxx.symm))
      | some y =>
        obtain ⟨p, hp⟩ := sffPages_ok y
        simp only [Exec.ok_bind, hp]
        exact ⟨fun h => (by cases h), fun _ => ⟨x, rfl, fun _ h => (by cases h)⟩, fun _ => ⟨_, rfl⟩⟩
    · rename_i hz
      simp only [hz, decide_false] at hxx
      exact ⟨fun h => (by cases h), fun _ => ⟨x, rfl, fun h => by rw [h] at hxx; cases hxx⟩, fun _ => ⟨_, rfl⟩⟩

/-- C134, what holds of the memory model, CMIS: a panic exactly for a paged module with the reserved number of banks, and
a value exactly if no byte is missing that is needed. -/
theorem C134_model_cmis_partial (id : Identifier) (h : CmisModule id) (rs : List Bytes) :
    (MemoryModel.parse id rs = .panic ↔
      ∃ s a, headByte rs 0 = some s ∧ bit s 7 = false ∧ headByte rs 1 = some a ∧ a.toNat % 4 = 3) ∧
    ((∃ v, MemoryModel.parse id rs = .ok v) ↔
      ∃ s, headByte rs 0 = some s ∧ (bit s 7 = false → ∃ a, headByte rs 1 = some a ∧ a.toNat % 4 ≠ 3)) := by
  unfold MemoryModel.parse
  rw [byKind_cmis h, firstOfFirst_eq, firstOfFirst_eq, headByte_tail]
  have hx : ∀ x : U8, decide (x &&& ((1 : U8) <<< 7) = 0) = !bit x 7 := by decide +kernel
  cases headByte rs 0 with
  | none => exact ⟨⟨fun h => (by cases h), fun ⟨s, a, h, _⟩ => (by cases h)⟩, fun ⟨v, h⟩ => (by cases h), fun ⟨s, h, _⟩ => (by cases h)⟩
  | some x =>
    have hxx := hx x
    simp only [Exec.ok_bind]
    split
    · rename_i hz
      simp only [hz, decide_true] at hxx
      have hb : bit x 7 = false := by simpa using hxx.symm
      cases headByte rs 1 with
      | none =>
        refine ⟨⟨fun h => (by cases h), fun ⟨s, a, _, _, h, _⟩ => (by cases h)⟩, fun ⟨v, h⟩ => (by cases h), fun ⟨s, h, hs⟩ => ?_⟩
        cases h
        obtain ⟨a, ha, _⟩ := hs hb
        cases ha
      | some y =>
        simp only [Exec.ok_bind]
        rcases cmisPages_cases y with ⟨h1, h2⟩ | ⟨h1, p, h2⟩
        · rw [h2]
          refine ⟨⟨fun _ => ⟨x, y, rfl, hb, rfl, h1⟩, fun _ => rfl⟩, fun ⟨v, h⟩ => (by cases h), fun ⟨s, h, hs⟩ => ?_⟩
          cases h
          obtain ⟨a, ha, h3⟩ := hs hb
          cases ha
          exact absurd h1 h3
        · rw [h2]
          refine ⟨⟨fun h => (by cases h), fun ⟨s, a, _, _, h, h3⟩ => ?_⟩, fun _ => ⟨x, rfl, fun _ => ⟨y, rfl, h1⟩⟩,
            fun _ => ⟨_, rfl⟩⟩
          cases h
          exact absurd h3 h1
    · rename_i hz
      simp only [hz, decide_false] at hxx
      have hb : bit x 7 = true := by simpa using hxx.symm
      refine ⟨⟨fun h => (by cases h), fun ⟨s, a, h, h1, _⟩ => ?_⟩, fun _ => ⟨x, rfl, fun h => ?_⟩, fun _ => ⟨_, rfl⟩⟩
      · cases h
        rw [hb] at h1
        cases h1
      · rw [hb] at h
        cases h

/-! ## Vendor information -/

/-- C134, what holds of vendor information, SFF-8636: an error without a read, a panic exactly for a short one. -/
theorem C134_vendor_sff_partial (id : Identifier) (h : SffModule id) (rs : List Bytes) :
    (VendorInfo.parse id rs = .panic ↔ ∃ data, rs[0]? = some data ∧ data.length < 72) ∧
    (VendorInfo.parse id rs = .err .parseFailed ↔ rs = []) ∧
    ((∃ v, VendorInfo.parse id rs = .ok v) ↔ ∃ data, rs[0]? = some data ∧ 72 ≤ data.length) := by
  unfold VendorInfo.parse
  rw [byKind_sff h]
  cases rs with
  | nil => exact ⟨⟨fun h => (by cases h), fun ⟨d, h, _⟩ => (by cases h)⟩, ⟨fun _ => rfl, fun _ => rfl⟩, fun ⟨v, h⟩ => (by cases h),
      fun ⟨d, h, _⟩ => (by cases h)⟩
  | cons data rs =>
    show (VendorInfo.build id data (0, 0 + 16) (17, 17 + 3) (20, 20 + 16) (36, 36 + 2) (48, 48 + 16) (64, 64 + 8) = .panic ↔ _) ∧
      (VendorInfo.build id data (0, 0 + 16) (17, 17 + 3) (20, 20 + 16) (36, 36 + 2) (48, 48 + 16) (64, 64 + 8) = _ ↔ _) ∧
      ((∃ v, VendorInfo.build id data (0, 0 + 16) (17, 17 + 3) (20, 20 + 16) (36, 36 + 2) (48, 48 + 16) (64, 64 + 8) = _) ↔ _)
    rcases build_cases id data 0 17 20 36 48 64 (by decide) (by decide) (by decide) (by decide) (by decide) with
      ⟨h1, h2⟩ | ⟨h1, v, h2⟩
    · rw [h2]
      refine ⟨⟨fun _ => ⟨data, rfl, h1⟩, fun _ => rfl⟩, ⟨fun h => (by cases h), fun h => (by cases h)⟩, fun ⟨v, h⟩ => (by cases h),
        fun ⟨d, hd, h⟩ => ?_⟩
      cases hd
      omega
    · rw [h2]
      refine ⟨⟨fun h => (by cases h), fun ⟨d, hd, h⟩ => ?_⟩, ⟨fun h => (by cases h), fun h => (by cases h)⟩,
        fun _ => ⟨data, rfl, h1⟩, fun _ => ⟨v, rfl⟩⟩
      cases hd
      omega

/-- C134, what holds of vendor information, CMIS: a panic exactly if there are fewer than 61 bytes, and a value
otherwise. -/
theorem C134_vendor_cmis_partial (id : Identifier) (h : CmisModule id) (rs : List Bytes) :
    (VendorInfo.parse id rs = .panic ↔ rs.flatten.length < 61) ∧
    ((∃ v, VendorInfo.parse id rs = .ok v) ↔ 61 ≤ rs.flatten.length) := by
  unfold VendorInfo.parse
  rw [byKind_cmis h]
  rcases build_cases id rs.flatten 0 16 19 35 37 53 (by decide) (by decide) (by decide) (by decide) (by decide) with
    ⟨h1, h2⟩ | ⟨h1, v, h2⟩
  · replace h2 : VendorInfo.build id rs.flatten (0, 16) (16, 19) (19, 35) (35, 37) (37, 53) (53, 61) = .panic := h2
    rw [h2]
    exact ⟨⟨fun _ => h1, fun _ => rfl⟩, fun ⟨v, h⟩ => (by cases h), fun h => (by omega)⟩
  · replace h2 : VendorInfo.build id rs.flatten (0, 16) (16, 19) (19, 35) (35, 37) (37, 53) (53, 61) = .ok v := h2
    rw [h2]
    exact ⟨⟨fun h => (by cases h), fun h => (by omega)⟩, fun _ => h1, fun _ => ⟨v, rfl⟩⟩

/-! ## Monitors -/

/-- The bytes of the SFF-8636 module-wide monitors are too few for those that are supported. -/
def SffShort (rs : List Bytes) : Prop :=
  ∃ s u w, headByte rs 0 = some s ∧ headByte rs 1 = some u ∧ rs[2]? = some w ∧
    ((s.toNat < 8 ∧ w.length < 6) ∨
      (8 ≤ s.toNat ∧ ((bit u 5 = true ∧ w.length < 2) ∨ (bit u 4 = true ∧ w.length < 6))))

/-- C134, what holds of monitors, SFF-8636: a panic exactly if the bytes of a supported module-wide monitor are missing;
otherwise a value exactly if all reads are there, and the first two have a byte. -/
theorem C134_monitors_sff_partial (id : Identifier) (h : SffModule id) (rs : List Bytes) :
    (Monitors.parse id rs = .panic ↔ SffShort rs) ∧
    ((∃ v, Monitors.parse id rs = .ok v) ↔
      ¬ SffShort rs ∧ headByte rs 0 ≠ none ∧ headByte rs 1 ≠ none ∧ 6 ≤ rs.length) := by
  unfold Monitors.parse
  rw [byKind_sff h]
  have h5 : ∀ x : U8, (x &&& 0b00100000 != 0) = bit x 5 := by decide +kernel
  have h4 : ∀ x : U8, (x &&& 0b00010000 != 0) = bit x 4 := by decide +kernel
  unfold Monitors.parseSff SffShort
  simp only [h4, h5]
  rcases rs with _ | ⟨_ | ⟨s, b0⟩, _ | ⟨_ | ⟨u, b1⟩, _ | ⟨w, rs⟩⟩⟩
  all_goals try simp [Decode.next, Decode.first, headByte]
  by_cases hlt : s < 8#8
  · have hs : s.toNat < 8 := BitVec.lt_def.1 hlt
    rcases pairAt_cases w 0 with ⟨a1, a2⟩ | ⟨a1, x, a2⟩ <;> rcases pairAt_cases w 4 with ⟨b1, b2⟩ | ⟨b1, y, b2⟩ <;>
      rcases rs with _ | ⟨_, _ | ⟨_, _ | _⟩⟩ <;> simp [hlt, hs, a2, b2] <;> omega
  · have hs : ¬ s.toNat < 8 := fun h => hlt (BitVec.lt_def.2 h)
    have hs' : 8 ≤ s.toNat := by omega
    rcases whenAt_cases (bit u 5) w 0 Monitors.decodeTemperature with ⟨a1, a2⟩ | ⟨a1, x, a2⟩ <;>
      rcases whenAt_cases (bit u 4) w 4 Monitors.decodeSupplyVoltage with ⟨b1, b2⟩ | ⟨b1, y, b2⟩ <;>
      rcases rs with _ | ⟨_, _ | ⟨_, _ | _⟩⟩ <;> simp [hlt, hs, hs', a2, b2] <;> grind

/-- The bytes of the CMIS monitors are too few for those that are supported, or the scale of the bias current is the
reserved one. -/
def CmisShort (rs : List Bytes) : Prop :=
  ∃ (x y : U8) (more : Bytes), rs[0]? = some (x :: y :: more) ∧ (y.toNat / 8 % 4 = 3 ∨
    ∃ (d w : Bytes), rs[1]? = some d ∧ 7 ≤ d.length ∧ rs[2]? = some w ∧
      ((bit x 0 = true ∧ w.length < 2) ∨ (bit x 1 = true ∧ w.length < 4) ∨
        ∃ a : Bytes, rs[3]? = some a ∧ ((bit x 2 = true ∧ a.length < 2) ∨ (bit x 3 = true ∧ a.length < 4) ∨
          (bit x 4 = true ∧ a.length < 6) ∨ (bit x 5 = true ∧ a.length < 8))))

/-- The same, once the first read is known. -/
theorem cmisShort_cons {x y : U8} {m : Bytes} {rs : List Bytes} : CmisShort ((x :: y :: m) :: rs) ↔
    (y.toNat / 8 % 4 = 3 ∨ ∃ (d w : Bytes), rs[0]? = some d ∧ 7 ≤ d.length ∧ rs[1]? = some w ∧
      ((bit x 0 = true ∧ w.length < 2) ∨ (bit x 1 = true ∧ w.length < 4) ∨
        ∃ a : Bytes, rs[2]? = some a ∧ ((bit x 2 = true ∧ a.length < 2) ∨ (bit x 3 = true ∧ a.length < 4) ∨
          (bit x 4 = true ∧ a.length < 6) ∨ (bit x 5 = true ∧ a.length < 8)))) := by
  constructor
  · rintro ⟨x', y', m', h, h'⟩
    cases h
    exact h'
  · exact fun h => ⟨x, y, m, rfl, h⟩

/-- C134, what holds of monitors, CMIS: a panic exactly if the bytes of a supported monitor are missing, or for the
reserved scale; otherwise a value exactly if all reads are there, and the first two are long enough. -/
theorem C134_monitors_cmis_partial (id : Identifier) (h : CmisModule id) (rs : List Bytes) :
    (Monitors.parse id rs = .panic ↔ CmisShort rs) ∧
    ((∃ v, Monitors.parse id rs = .ok v) ↔
      ¬ CmisShort rs ∧ 10 ≤ rs.length ∧ (∀ b, rs[0]? = some b → 2 ≤ b.length) ∧ ∀ b, rs[1]? = some b → 7 ≤ b.length) := by
  unfold Monitors.parse
  rw [byKind_cmis h]
  have h5 : ∀ x : U8, (x &&& 0b00100000 != 0) = bit x 5 := by decide +kernel
  have h4 : ∀ x : U8, (x &&& 0b00010000 != 0) = bit x 4 := by decide +kernel
  have h3 : ∀ x : U8, (x &&& 0b00001000 != 0) = bit x 3 := by decide +kernel
  have h2 : ∀ x : U8, (x &&& 0b00000100 != 0) = bit x 2 := by decide +kernel
  have h1 : ∀ x : U8, (x &&& 0b00000010 != 0) = bit x 1 := by decide +kernel
  have h0 : ∀ x : U8, (x &&& 0b00000001 != 0) = bit x 0 := by decide +kernel
  unfold Monitors.parseCmis
  simp only [h5, h4, h3, h2, h1, h0]
  rcases rs with _ | ⟨_ | ⟨x, _ | ⟨y, m⟩⟩, rs⟩
  · simp [Decode.next, CmisShort]
  · simp [Decode.next, Decode.first, CmisShort]
  · simp [Decode.next, Decode.first, Decode.get, CmisShort]
  have hget : Decode.get (x :: y :: m) 1 = .ok y := rfl
  rw [cmisShort_cons]
  rcases biasScale_cases y with ⟨a1, a2⟩ | ⟨a1, sc, a2⟩
  · simp [Decode.next, Decode.first, Decode.get, a2, a1]
  rcases rs with _ | ⟨_ | ⟨o, d⟩, rs⟩
  · simp [Decode.next, Decode.first, Decode.get, a2, a1]
  · simp [Decode.next, Decode.first, Decode.get, a2, a1]
  rcases get_cases (o :: d) 6 with ⟨b1, b2⟩ | ⟨b1, b2⟩
  · simp only [List.length_cons] at b1
    have b3 : ¬ 6 ≤ d.length := by omega
    simp [Decode.next, Decode.first, b2, a2, a1, b3, hget]
  have b3 : 6 ≤ d.length := by
    simp only [List.length_cons] at b1
    omega
  rcases rs with _ | ⟨w, rs⟩
  · simp [Decode.next, Decode.first, b2, a2, a1, hget]
  rcases whenAt_cases (bit x 0) w 0 Monitors.decodeTemperature with ⟨c1, c2⟩ | ⟨c1, v0, c2⟩
  · simp [Decode.next, Decode.first, b2, a2, a1, b3, hget, c2]
    simp [c1]
    omega
  rcases whenAt_cases (bit x 1) w 2 Monitors.decodeSupplyVoltage with ⟨d1, d2⟩ | ⟨d1, v1, d2⟩
  · simp [Decode.next, Decode.first, b2, a2, a1, b3, hget, c2, d2]
    simp [d1]
    omega
  rcases rs with _ | ⟨a, rs⟩
  · simp [Decode.next, Decode.first, b2, a2, a1, b3, hget, c2, d2]
    grind
  rcases whenAt_cases (bit x 2) a 0 (Monitors.decodeAux1 · (bit o 0)) with ⟨e1, e2⟩ | ⟨e1, v2, e2⟩
  · simp [Decode.next, Decode.first, b2, a2, a1, b3, hget, c2, d2, e2]
    simp [e1]
    omega
  rcases whenAt_cases (bit x 3) a 2 (Monitors.decodeAux2 · (bit o 1)) with ⟨f1, f2⟩ | ⟨f1, v3, f2⟩
  · simp [Decode.next, Decode.first, b2, a2, a1, b3, hget, c2, d2, e2, f2]
    simp [f1]
    omega
  rcases whenAt_cases (bit x 4) a 4 (Monitors.decodeAux3 · (bit o 2)) with ⟨g1, g2⟩ | ⟨g1, v4, g2⟩
  · simp [Decode.next, Decode.first, b2, a2, a1, b3, hget, c2, d2, e2, f2, g2]
    simp [g1]
    omega
  rcases whenAt_cases (bit x 5) a 6 _root_.id with ⟨i1, i2⟩ | ⟨i1, v5, i2⟩
  · simp [Decode.next, Decode.first, b2, a2, a1, b3, hget, c2, d2, e2, f2, g2, i2]
    simp [i1]
    omega
  rcases rs with _ | ⟨_, _ | ⟨_, _ | ⟨_, _ | ⟨_, _ | ⟨_, _ | ⟨_, _⟩⟩⟩⟩⟩⟩ <;>
    simp [Decode.next, Decode.first, b2, a2, a1, b3, hget, c2, d2, e2, f2, g2, i2] <;> grind

/-! ## Datapath -/

/-- C134, what holds of the datapath, SFF-8636: a value if there are five reads of just the right lengths, and a panic
otherwise. -/
theorem C134_datapath_sff_partial (id : Identifier) (h : SffModule id) (rs : List Bytes) :
    (Datapath.parse id rs = .panic ↔ (rs.take 5).map List.length ≠ [1, 3, 1, 2, 1]) ∧
    ((∃ v, Datapath.parse id rs = .ok v) ↔ (rs.take 5).map List.length = [1, 3, 1, 2, 1]) := by
  unfold Datapath.parse
  rw [byKind_sff h]
  unfold Datapath.parseSff
  rcases rs with _ | ⟨b0, rs⟩
  · simp [nextUnwrap]
  rcases assertLen_cases b0 1 with ⟨a1, a2⟩ | ⟨a1, a2⟩
  rotate_left
  · simp [nextUnwrap, a2, a1]
  rcases rs with _ | ⟨b1, rs⟩
  · simp [nextUnwrap, a2]
  rcases assertLen_cases b1 3 with ⟨c1, c2⟩ | ⟨c1, c2⟩
  rotate_left
  · simp [nextUnwrap, a2, c2, c1]
  rcases rs with _ | ⟨b2, rs⟩
  · simp [nextUnwrap, a2, c2]
  rcases assertLen_cases b2 1 with ⟨d1, d2⟩ | ⟨d1, d2⟩
  rotate_left
  · simp [nextUnwrap, a2, c2, d2, d1]
  rcases rs with _ | ⟨b3, rs⟩
  · simp [nextUnwrap, a2, c2, d2]
  rcases assertLen_cases b3 2 with ⟨e1, e2⟩ | ⟨e1, e2⟩
  rotate_left
  · simp [nextUnwrap, a2, c2, d2, e2, e1]
  rcases rs with _ | ⟨b4, rs⟩
  · simp [nextUnwrap, a2, c2, d2, e2]
  rcases assertLen_cases b4 1 with ⟨f1, f2⟩ | ⟨f1, f2⟩
  rotate_left
  · simp [nextUnwrap, a2, c2, d2, e2, f2, f1]
  have hlen : ((b0 :: b1 :: b2 :: b3 :: b4 :: rs).take 5).map List.length = [1, 3, 1, 2, 1] := by
    simp [a1, c1, d1, e1, f1]
  rw [hlen]
  simp only [nextUnwrap, a2, c2, d2, e2, f2, Exec.ok_bind]
  match b0, a1, b1, c1, b2, d1, b3, e1, b4, f1 with
  | [t], _, [l0, l1, l2], _, [c], _, [p, q], _, [e], _ =>
    obtain ⟨r0, k0⟩ := sffLane_ok t c l0 l1 l2 [] (lane := 0) (by decide)
    obtain ⟨r1, k1⟩ := sffLane_ok t c l0 l1 l2 [] (lane := 1) (by decide)
    obtain ⟨r2, k2⟩ := sffLane_ok t c l0 l1 l2 [] (lane := 2) (by decide)
    obtain ⟨r3, k3⟩ := sffLane_ok t c l0 l1 l2 [] (lane := 3) (by decide)
    have i : ∀ x : U8, idx [x] 0 = .ok x := fun _ => rfl
    have i0 : idx [p, q] 0 = .ok p := rfl
    have i1 : idx [p, q] 1 = .ok q := rfl
    simp only [i, i0, i1, Exec.ok_bind, List.mapM_cons, List.mapM_nil, k0, k1, k2, k3, Exec.pure_eq]
    simp

/-- C134, what holds of the datapath, CMIS: a value exactly if the reads are as they have to be whatever the lanes do, and
everything is there for each lane that is assigned to an application. -/
theorem C134_datapath_cmis_partial (id : Identifier) (h : CmisModule id) (rs : List Bytes) :
    (∃ v, Datapath.parse id rs = .ok v) ↔ FrontOk rs ∧ ∀ i s, AssignedTo rs i s → LaneRead rs i := by
  unfold Datapath.parse
  rw [byKind_cmis h]
  exact Datapath.parseCmis_isOk rs

/-- C134, of the datapath, CMIS: an error exactly if some assigned lane has a state without a name, with its bytes there, and
everything is there for the lanes looked at before it; and in all other cases without a value, a panic. -/
theorem C134_datapath_error_partial (id : Identifier) (h : CmisModule id) (rs : List Bytes) :
    ((∃ e, Datapath.parse id rs = .err e) ↔ FrontOk rs ∧ ∃ i s, AssignedTo rs i s ∧ LaneUnknown rs i ∧
      ∀ j t, AssignedTo rs j t → Sooner j t i s → LaneRead rs j) ∧
    (Datapath.parse id rs = .panic ↔ ¬ FrontOk rs ∨ ∃ i s, AssignedTo rs i s ∧ ¬ LaneRead rs i ∧ ¬ LaneUnknown rs i ∧
      ∀ j t, AssignedTo rs j t → Sooner j t i s → LaneRead rs j) := by
  unfold Datapath.parse
  rw [byKind_cmis h]
  exact ⟨Datapath.parseCmis_isErr rs, Datapath.parseCmis_panic rs⟩

/-- Fifteen reads of the lengths asked for, of a module with one application, which has the first lane. The media type is
single-mode fibre and the lane's state is `state`. -/
def datapathReads (state : U8) : List Bytes :=
  [List.replicate 7 0, 0x10 :: List.replicate 7 0, [2], List.replicate 8 1,
   [0x11, 0x1c, 0x44, 0x01, 0xff, 0, 0, 0], [], [], [], List.replicate 4 0, List.replicate 4 0, List.replicate 6 0,
   [state, 0, 0, 0], List.replicate 2 0, List.replicate 4 0, List.replicate 2 0]

example : (Datapath.parseCmis (datapathReads 0x40) matches .ok _) ∧
    Datapath.parseCmis (datapathReads 0x04) = .err .invalidBitField ∧
    Datapath.parseCmis ((datapathReads 0x04).take 14 ++ [[0]]) = .err .invalidBitField ∧
    Datapath.parseCmis ((datapathReads 0x40).take 14 ++ [[0]]) = .panic ∧
    Datapath.parseCmis ((datapathReads 0x40).take 14) = .panic := by decide +kernel

/-! ## More reads than asked for -/

/-- C134, of every decoder: reads after those that were asked for are ignored. -/
theorem C134_more_partial (id : Identifier) (rs more : List Bytes) :
    (∀ v, PowerControl.parse id rs = .ok v → PowerControl.parse id (rs ++ more) = .ok v) ∧
    (∀ v, MemoryModel.parse id rs = .ok v → MemoryModel.parse id (rs ++ more) = .ok v) ∧
    (∀ v, VendorInfo.parse id rs = .ok v → VendorInfo.parse id (rs ++ more) = .ok v) ∧
    (∀ v, Monitors.parse id rs = .ok v → Monitors.parse id (rs ++ more) = .ok v) ∧
    (∀ v, Datapath.parse id rs = .ok v → Datapath.parse id (rs ++ more) = .ok v) := by
  refine ⟨fun v => byKind_more ?_ ?_, fun v => byKind_more ?_ ?_, fun v => byKind_more ?_ ?_, fun v => byKind_more ?_ ?_,
    fun v => byKind_more ?_ ?_⟩
  · intro h
    obtain ⟨x, hx, h⟩ := Exec.bind_eq_ok.1 h
    rw [firstOfFirst_more more hx]
    exact h
  · intro h
    obtain ⟨x, hx, h⟩ := Exec.bind_eq_ok.1 h
    rw [firstOfFirst_more more hx]
    exact h
  · intro h
    obtain ⟨x, hx, h⟩ := Exec.bind_eq_ok.1 h
    rw [firstOfFirst_more more hx, Exec.ok_bind]
    split at h
    · rw [if_pos ‹_›]
      obtain ⟨y, hy, h⟩ := Exec.bind_eq_ok.1 h
      rw [firstOfFirst_tail_more more hy, Exec.ok_bind]
      exact h
    · rw [if_neg ‹_›]
      exact h
  · intro h
    obtain ⟨x, hx, h⟩ := Exec.bind_eq_ok.1 h
    rw [firstOfFirst_more more hx, Exec.ok_bind]
    split at h
    · rw [if_pos ‹_›]
      obtain ⟨y, hy, h⟩ := Exec.bind_eq_ok.1 h
      rw [firstOfFirst_tail_more more hy, Exec.ok_bind]
      exact h
    · rw [if_neg ‹_›]
      exact h
  · intro h
    rcases rs with _ | ⟨b, rs⟩
    · cases h
    · exact h
  · intro h
    rw [List.flatten_append]
    exact build_more _ h
  · intro h
    rw [monitors_sff_more]
    · exact h
    · exact ((C134_monitors_sff_partial Identifier.qsfp28 (.inr rfl) rs).2.1 ⟨v, h⟩).2.2.2
  · intro h
    rw [monitors_cmis_more]
    · exact h
    · exact ((C134_monitors_cmis_partial Identifier.qsfpDD (.inl rfl) rs).2.1 ⟨v, h⟩).2.1
  · intro h
    rw [datapath_sff_more]
    · exact h
    · have := congrArg List.length ((C134_datapath_sff_partial Identifier.qsfp28 (.inr rfl) rs).2.1 ⟨v, h⟩)
      simp at this
      omega
  · intro h
    rw [datapath_cmis_more]
    · exact h
    · exact ((C134_datapath_cmis_partial Identifier.qsfpDD (.inl rfl) rs).1 ⟨v, h⟩).1.all

/-! ## The property as a whole fails -/

/-- C134 is false of the code: for vendor information, monitors and the datapath there are reads on which `parse` panics
instead of reporting an error, for a module of either kind. -/
theorem C134_false :
    VendorInfo.parse Identifier.qsfp28 [[]] = .panic ∧ VendorInfo.parse Identifier.qsfpDD [] = .panic ∧
    Monitors.parse Identifier.qsfp28 [[0], [0], []] = .panic ∧ Monitors.parse Identifier.qsfpDD [[0, 0x18]] = .panic ∧
    Datapath.parse Identifier.qsfp28 [] = .panic ∧ Datapath.parse Identifier.qsfpDD [] = .panic := by
  refine ⟨?_, ?_, ?_, ?_, ?_, ?_⟩ <;> rfl

/-- Reads that are short without a panic: an empty byte string for the power control word, and monitors that announce
nothing and whose reads are missing. -/
example : PowerControl.parse Identifier.qsfp28 [[]] = .err .parseFailed ∧
    Monitors.parse Identifier.qsfpDD [[0, 0], [0]] = .err .parseFailed ∧ ¬ CmisShort [[0, 0], [0]] := by
  refine ⟨rfl, rfl, ?_⟩
  rw [cmisShort_cons]
  simp

/-- Five reads of the right lengths: the datapath has a value, with or without a sixth. -/
example : ∃ v, Datapath.parse Identifier.qsfp28 [[0], [0, 0, 0], [0], [0, 0], [0]] = .ok v ∧
    Datapath.parse Identifier.qsfp28 ([[0], [0, 0, 0], [0], [0, 0], [0]] ++ [[7]]) = .ok v := by
  obtain ⟨v, hv⟩ := (C134_datapath_sff_partial Identifier.qsfp28 (.inr rfl) [[0], [0, 0, 0], [0], [0, 0], [0]]).2.2 rfl
  exact ⟨v, hv, (C134_more_partial _ _ [[7]]).2.2.2.2 v hv⟩

end Xcvr
