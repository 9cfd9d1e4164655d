import Verif.Spec.MemoryMap
import Verif.Lemmas.F32

/-! # Lemmas about decoders: which reads they make, and bits and numbers of bytes -/

namespace Xcvr

open Spec

namespace Decode

variable {α : Type}

theorem byKind_sff {id : Identifier} (h : SffModule id) (a b : Exec DecodeError α) : byKind id a b = a := by
  have : id = Identifier.qsfpPlusSff8636 ∨ id = Identifier.qsfp28 := by
    rcases h with rfl | rfl
    · exact Or.inl (by decide +kernel)
    · exact Or.inr (by decide +kernel)
  rw [byKind, if_pos this]

theorem byKind_cmis {id : Identifier} (h : CmisModule id) (a b : Exec DecodeError α) : byKind id a b = b := by
  have h1 : ¬ (id = Identifier.qsfpPlusSff8636 ∨ id = Identifier.qsfp28) := by
    rcases h with rfl | rfl <;> decide +kernel
  have h2 : id = Identifier.qsfpPlusCmis ∨ id = Identifier.qsfpDD := by
    rcases h with rfl | rfl
    · exact Or.inr (by decide +kernel)
    · exact Or.inl (by decide +kernel)
  rw [byKind, if_neg h1, if_pos h2]

theorem byKind_other {id : Identifier} (h : ¬ SffModule id) (h' : ¬ CmisModule id) (a b : Exec DecodeError α) :
    byKind id a b = .err (.unsupportedIdentifier id) := by
  have e1 : Identifier.qsfpPlusSff8636 = Bf.ofByte 0x0d := by decide +kernel
  have e2 : Identifier.qsfp28 = Bf.ofByte 0x11 := by decide +kernel
  have e3 : Identifier.qsfpPlusCmis = Bf.ofByte 0x1e := by decide +kernel
  have e4 : Identifier.qsfpDD = Bf.ofByte 0x18 := by decide +kernel
  rw [byKind, if_neg (by rw [e1, e2]; exact h), if_neg (by rw [e3, e4, or_comm]; exact h')]

end Decode

/-! ## Bits -/

theorem and_ne_bit0 (x : U8) : (x &&& 0b1 != 0) = bit x 0 := by revert x; decide +kernel
theorem and_ne_bit1 (x : U8) : (x &&& 0b10 != 0) = bit x 1 := by revert x; decide +kernel
theorem and_ne_bit2 (x : U8) : (x &&& 0b100 != 0) = bit x 2 := by revert x; decide +kernel
theorem and_ne_bit3 (x : U8) : (x &&& 0b1000 != 0) = bit x 3 := by revert x; decide +kernel
theorem and_ne_bit4 (x : U8) : (x &&& 0b10000 != 0) = bit x 4 := by revert x; decide +kernel
theorem and_ne_bit5 (x : U8) : (x &&& 0b100000 != 0) = bit x 5 := by revert x; decide +kernel
theorem and_ne_bit6 (x : U8) : (x &&& 0b1000000 != 0) = bit x 6 := by revert x; decide +kernel

theorem extractBit_eq (x : U8) (k : Fin 8) : Decode.extractBit x (BitVec.ofNat 8 k.val) = .ok (bit x k.val) := by
  revert x k; decide +kernel

theorem and_shift_ne (x : U8) (k : Fin 8) : (x &&& ((1 : U8) <<< (BitVec.ofNat 8 k.val)) ≠ 0) ↔ bit x k.val = true := by
  revert x k; decide +kernel

/-! ## Numbers -/

theorem u16Be_toNat (a b : U8) : (Monitors.u16Be (a, b)).toNat = 256 * a.toNat + b.toNat := by
  simp only [Monitors.u16Be, BitVec.toNat_append, Nat.shiftLeft_eq]
  rw [← Nat.shiftLeft_eq, ← Nat.shiftLeft_add_eq_or_of_lt b.isLt, Nat.shiftLeft_eq]
  omega

theorem u16Be_toInt (m : Nat → U8) (a : Nat) : (Monitors.u16Be (m a, m (a + 1))).toInt = signedAt m a := by
  rw [BitVec.toInt_eq_toNat_cond, u16Be_toNat, signedAt, unsignedAt]
  have := (m a).isLt
  have := (m (a + 1)).isLt
  split <;> split <;> omega

/-- Sixteen bits, divided by a power of two, fit in an `f32`. -/
theorem digits24_word (k n : Int) (hk : k.natAbs < 2 ^ 24) : Digits24 ((k : Rat) * (2 : Rat) ^ n) := ⟨k, n, hk, rfl⟩

theorem signedAt_bound (m : Nat → U8) (a : Nat) : (signedAt m a).natAbs < 2 ^ 24 := by
  have := (m a).isLt
  have := (m (a + 1)).isLt
  unfold signedAt unsignedAt
  split <;> omega

theorem unsignedAt_bound (m : Nat → U8) (a : Nat) : unsignedAt m a ≤ 65535 := by
  have := (m a).isLt
  have := (m (a + 1)).isLt
  unfold unsignedAt
  omega

theorem temperature_eq (m : Nat → U8) (a : Nat) : Monitors.decodeTemperature (m a, m (a + 1)) = celsiusAt m a := by
  have hr : Monitors.tempResolution = (2 : Rat) ^ (-8 : Int) := by decide +kernel
  rw [Monitors.decodeTemperature, u16Be_toInt, celsiusAt, hr, single_of_digits (digits24_word _ _ (signedAt_bound m a)),
    Rat.div_def, show (2 : Rat) ^ (-8 : Int) = (256 : Rat)⁻¹ by decide +kernel]

theorem voltage_eq (m : Nat → U8) (a : Nat) : Monitors.decodeSupplyVoltage (m a, m (a + 1)) = voltsAt m a := by
  rw [Monitors.decodeSupplyVoltage, u16Be_toNat, voltsAt, unsignedAt,
    show Monitors.supplyVoltageResolution = single (1 / 10000) by decide +kernel]

theorem power_eq (m : Nat → U8) (a : Nat) : Monitors.decodeOpticalPower (m a, m (a + 1)) = milliwattsAt m a := by
  rw [Monitors.decodeOpticalPower, u16Be_toNat, milliwattsAt, unsignedAt, Monitors.opticalPowerResolution, Monitors.milli]

theorem bias_eq (m : Nat → U8) (a : Nat) : Monitors.decodeBiasCurrent (m a, m (a + 1)) = milliampsAt m a := by
  rw [Monitors.decodeBiasCurrent, u16Be_toNat, milliampsAt, unsignedAt, Monitors.txBiasCurrentResolution, Monitors.milli]

/-! ## Reads -/

theorem PowerControl.reads_sff {id} (h : SffModule id) : reads id = .ok [⟨.sff8636 .lower, 93, 1⟩] := by
  rw [reads, Decode.byKind_sff h]; rfl

theorem PowerControl.reads_cmis {id} (h : CmisModule id) : reads id = .ok [⟨.cmis .lower, 26, 1⟩] := by
  rw [reads, Decode.byKind_cmis h]; rfl

theorem VendorInfo.reads_sff {id} (h : SffModule id) : reads id = .ok [⟨.sff8636 (.upper 0), 148, 72⟩] := by
  rw [reads, Decode.byKind_sff h]; rfl

theorem VendorInfo.reads_cmis {id} (h : CmisModule id) :
    reads id = .ok (cmisOffsets.map fun o => ⟨.cmis (.upper ⟨none, 0⟩), o, 8⟩) := by
  rw [reads, Decode.byKind_cmis h]; rfl

theorem MemoryModel.reads_sff {id} (h : SffModule id) :
    reads id = .ok [⟨.sff8636 .lower, 2, 1⟩, ⟨.sff8636 (.upper 0), 195, 1⟩] := by
  rw [reads, Decode.byKind_sff h]; rfl

theorem MemoryModel.reads_cmis {id} (h : CmisModule id) :
    reads id = .ok [⟨.cmis .lower, 2, 1⟩, ⟨.cmis (.upper ⟨none, 1⟩), 142, 1⟩] := by
  rw [reads, Decode.byKind_cmis h]; rfl

theorem Monitors.reads_sff {id} (h : SffModule id) :
    reads id = .ok [⟨.sff8636 .lower, 1, 1⟩, ⟨.sff8636 (.upper 0), 220, 1⟩, ⟨.sff8636 .lower, 22, 6⟩,
      ⟨.sff8636 .lower, 34, 8⟩, ⟨.sff8636 .lower, 42, 8⟩, ⟨.sff8636 .lower, 50, 8⟩] := by
  rw [reads, Decode.byKind_sff h]; rfl

theorem Monitors.reads_cmis {id} (h : CmisModule id) :
    reads id = .ok [⟨.cmis (.upper ⟨none, 1⟩), 159, 2⟩, ⟨.cmis (.upper ⟨none, 1⟩), 145, 7⟩, ⟨.cmis .lower, 14, 4⟩,
      ⟨.cmis .lower, 18, 8⟩, ⟨.cmis (.upper ⟨some 0, 0x11⟩), 154, 8⟩, ⟨.cmis (.upper ⟨some 0, 0x11⟩), 162, 8⟩,
      ⟨.cmis (.upper ⟨some 0, 0x11⟩), 170, 8⟩, ⟨.cmis (.upper ⟨some 0, 0x11⟩), 178, 8⟩,
      ⟨.cmis (.upper ⟨some 0, 0x11⟩), 186, 8⟩, ⟨.cmis (.upper ⟨some 0, 0x11⟩), 194, 8⟩] := by
  rw [reads, Decode.byKind_cmis h]; rfl

theorem Datapath.reads_sff {id} (h : SffModule id) :
    reads id = .ok [⟨.sff8636 .lower, 86, 1⟩, ⟨.sff8636 .lower, 3, 3⟩, ⟨.sff8636 .lower, 98, 1⟩,
      ⟨.sff8636 (.upper 0), 130, 2⟩, ⟨.sff8636 (.upper 0), 192, 1⟩] := by
  rw [reads, Decode.byKind_sff h]; rfl

theorem Datapath.reads_cmis {id} (h : CmisModule id) :
    reads id = .ok [⟨.cmis (.upper ⟨none, 0⟩), 203, 7⟩, ⟨.cmis (.upper ⟨some 0, 0x11⟩), 206, 8⟩, ⟨.cmis .lower, 85, 1⟩,
      ⟨.cmis (.upper ⟨none, 1⟩), 176, 8⟩, ⟨.cmis .lower, 86, 8⟩, ⟨.cmis .lower, 94, 8⟩, ⟨.cmis .lower, 102, 8⟩,
      ⟨.cmis .lower, 110, 8⟩, ⟨.cmis (.upper ⟨none, 1⟩), 155, 4⟩, ⟨.cmis (.upper ⟨some 0, 0x10⟩), 129, 4⟩,
      ⟨.cmis (.upper ⟨some 0, 0x10⟩), 134, 6⟩, ⟨.cmis (.upper ⟨some 0, 0x11⟩), 128, 4⟩,
      ⟨.cmis (.upper ⟨some 0, 0x11⟩), 132, 2⟩, ⟨.cmis (.upper ⟨some 0, 0x11⟩), 135, 4⟩,
      ⟨.cmis (.upper ⟨some 0, 0x11⟩), 147, 2⟩] := by
  rw [reads, Decode.byKind_cmis h]; rfl

end Xcvr
