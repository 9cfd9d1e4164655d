import Verif.Lemmas.Decode

/-! # Lemmas about decoding monitors -/

namespace Xcvr

open Spec

namespace Monitors

theorem whenAt_eq {β : Type} (c : Bool) (b : Bytes) (i : Nat) (f : U8 × U8 → β) (x y : U8)
    (hx : b[i]? = some x) (hy : b[i + 1]? = some y) : whenAt c b i f = .ok (given c (f (x, y))) := by
  cases c <;> simp [whenAt, Decode.pairAt, Decode.idx, hx, hy, Exec.unwrap, given]

theorem pairs4 {β : Type} (f : U8 × U8 → β) (m : Nat → U8) (a : Nat) :
    (pairs (bytesAt m a 8)).map f = [a, a + 2, a + 4, a + 6].map fun k => f (m k, m (k + 1)) := rfl

theorem pairs8 {β : Type} (f : U8 × U8 → β) (m : Nat → U8) (a : Nat) :
    (pairs (bytesAt m a 8 ++ bytesAt m (a + 8) 8)).map f =
      [a, a + 2, a + 4, a + 6, a + 8, a + 10, a + 12, a + 14].map fun k => f (m k, m (k + 1)) := rfl

theorem rxPower_eq (avg : Bool) (m : Nat → U8) (a : Nat) : rxPower avg (m a, m (a + 1)) = rxPowerAt avg m a := by
  simp only [rxPower, rxPowerAt, power_eq]

theorem reasonableTemp (m : Nat → U8) (a : Nat) :
    decodeTemperatureIfReasonable (m a, m (a + 1)) = given (!implausible m a) (celsiusAt m a) := by
  have : absurdBytes (m a, m (a + 1)) = implausible m a := rfl
  rw [decodeTemperatureIfReasonable, this, temperature_eq, given]
  cases implausible m a <;> rfl

theorem reasonableVolt (m : Nat → U8) (a : Nat) :
    decodeVoltageIfReasonable (m a, m (a + 1)) = given (!implausible m a) (voltsAt m a) := by
  have : absurdBytes (m a, m (a + 1)) = implausible m a := rfl
  rw [decodeVoltageIfReasonable, this, voltage_eq, given]
  cases implausible m a <;> rfl

theorem decode_sff {id} (h : SffModule id) (mem : ModuleMemory) :
    decodeFrom decoder id mem = .ok (sffMonitors mem) := by
  show (reads id).bind _ = _
  rw [reads_sff h]
  show parse id _ = _
  rw [parse, Decode.byKind_sff h]
  simp only [List.map]
  have e1 : answer mem ⟨.sff8636 .lower, 1, 1⟩ = [sffLow mem 1] := rfl
  have e2 : answer mem ⟨.sff8636 (.upper 0), 220, 1⟩ = [sffUp00 mem 220] := rfl
  have e3 : answer mem ⟨.sff8636 .lower, 22, 6⟩ = bytesAt (sffLow mem) 22 6 := rfl
  have e4 : answer mem ⟨.sff8636 .lower, 34, 8⟩ = bytesAt (sffLow mem) 34 8 := rfl
  have e5 : answer mem ⟨.sff8636 .lower, 42, 8⟩ = bytesAt (sffLow mem) 42 8 := rfl
  have e6 : answer mem ⟨.sff8636 .lower, 50, 8⟩ = bytesAt (sffLow mem) 50 8 := rfl
  rw [e1, e2, e3, e4, e5, e6]
  have t0 c f : whenAt (β := Rat) c (bytesAt (sffLow mem) 22 6) 0 f = .ok (given c (f (sffLow mem 22, sffLow mem (22 + 1)))) :=
    whenAt_eq c _ 0 f _ _ rfl rfl
  have t4 c f : whenAt (β := Rat) c (bytesAt (sffLow mem) 22 6) 4 f = .ok (given c (f (sffLow mem 26, sffLow mem (26 + 1)))) :=
    whenAt_eq c _ 4 f _ _ rfl rfl
  have q0 : Decode.pairAt (bytesAt (sffLow mem) 22 6) 0 = .ok (sffLow mem 22, sffLow mem (22 + 1)) := rfl
  have q4 : Decode.pairAt (bytesAt (sffLow mem) 22 6) 4 = .ok (sffLow mem 26, sffLow mem (26 + 1)) := rfl
  have a0 : (decide (sffLow mem 1 < 8)) = decide ((sffLow mem 1).toNat < 8) := rfl
  simp only [parseSff, Decode.next, Decode.first, Exec.ok_bind, t0, t4, pairs4, q0, q4, Exec.pure_eq, and_ne_bit0,
    and_ne_bit1, and_ne_bit2, and_ne_bit3, and_ne_bit4, and_ne_bit5, a0, sffMonitors, temperature_eq, voltage_eq, power_eq,
    bias_eq, rxPower_eq, reasonableTemp, reasonableVolt]
  cases decide ((sffLow mem 1).toNat < 8) <;> rfl

theorem biasScale_eq (mem : ModuleMemory) :
    biasScale (cmisUp mem 1 160) = match cmisBiasScale mem with | some s => .ok s | none => .panic := by
  have (x : U8) : biasScale x = match (match x.toNat / 8 % 4 with
      | 0 => some (1 : Rat) | 1 => some 2 | 2 => some 4 | _ => none) with
      | some (s : Rat) => .ok s | none => .panic := by
    revert x; decide +kernel
  exact this _

/-- The multiplier of bias currents is a power of two, so that multiplication is exact. -/
theorem biasScale_exact {mem : ModuleMemory} {scale : Rat} (hs : cmisBiasScale mem = some scale) (m : Nat → U8) (a : Nat) :
    single (milliampsAt m a * scale) = milliampsAt m a * scale := by
  have h : scale = (2 : Rat) ^ (0 : Int) ∨ scale = (2 : Rat) ^ (1 : Int) ∨ scale = (2 : Rat) ^ (2 : Int) := by
    unfold cmisBiasScale at hs
    split at hs
    · exact Or.inl (by rw [← Option.some.inj hs]; decide +kernel)
    · exact Or.inr (Or.inl (by rw [← Option.some.inj hs]; decide +kernel))
    · exact Or.inr (Or.inr (by rw [← Option.some.inj hs]; decide +kernel))
    · cases hs
  have hd : Digits24 (milliampsAt m a) := single_digits _
  rcases h with rfl | rfl | rfl <;> exact single_of_digits (digits24_scale hd _)

/-- The auxiliary monitors as the code computes them: cooler currents are read as unsigned numbers. -/
def auxOf (mem : ModuleMemory) : AuxMonitors :=
  { aux1 := given (bit (cmisUp mem 1 159) 2) (decodeAux1 (cmisLow mem 18, cmisLow mem 19) (bit (cmisUp mem 1 145) 0))
    aux2 := given (bit (cmisUp mem 1 159) 3) (decodeAux2 (cmisLow mem 20, cmisLow mem 21) (bit (cmisUp mem 1 145) 1))
    aux3 := given (bit (cmisUp mem 1 159) 4) (decodeAux3 (cmisLow mem 22, cmisLow mem 23) (bit (cmisUp mem 1 145) 2))
    custom := given (bit (cmisUp mem 1 159) 5) (cmisLow mem 24, cmisLow mem 25) }

/-- Everything the CMIS decoder reports, given the multiplier of bias currents. -/
def cmisOf (mem : ModuleMemory) (scale : Rat) : Monitors :=
  { temperature := given (bit (cmisUp mem 1 159) 0) (celsiusAt (cmisLow mem) 14)
    supplyVoltage := given (bit (cmisUp mem 1 159) 1) (voltsAt (cmisLow mem) 16)
    receiverPower := given (bit (cmisUp mem 1 160) 2)
      ([186, 188, 190, 192, 194, 196, 198, 200].map (rxPowerAt (bit (cmisUp mem 1 151) 4) (cmisBank0 mem 0x11)))
    transmitterBiasCurrent := given (bit (cmisUp mem 1 160) 0)
      ([170, 172, 174, 176, 178, 180, 182, 184].map fun a => single (milliampsAt (cmisBank0 mem 0x11) a * scale))
    transmitterPower := given (bit (cmisUp mem 1 160) 1)
      ([154, 156, 158, 160, 162, 164, 166, 168].map (milliwattsAt (cmisBank0 mem 0x11)))
    auxMonitors := given (cmisUp mem 1 159 &&& 0b00011111 != 0) (auxOf mem) }

theorem cmisOf_main {mem : ModuleMemory} {scale : Rat} (hs : cmisBiasScale mem = some scale) :
    CmisMonitorsMain mem scale (cmisOf mem scale) := by
  refine ⟨rfl, rfl, rfl, ?_, rfl⟩
  show given _ _ = given _ _
  simp only [biasScale_exact hs]

theorem decode_cmis {id} (h : CmisModule id) (mem : ModuleMemory) :
    decodeFrom decoder id mem = (biasScale (cmisUp mem 1 160)).bind fun s => .ok (cmisOf mem s) := by
  show (reads id).bind _ = _
  rw [reads_cmis h]
  show parse id _ = _
  rw [parse, Decode.byKind_cmis h]
  simp only [List.map]
  have e1 : answer mem ⟨.cmis (.upper ⟨none, 1⟩), 159, 2⟩ = [cmisUp mem 1 159, cmisUp mem 1 160] := rfl
  have e2 : answer mem ⟨.cmis (.upper ⟨none, 1⟩), 145, 7⟩ = cmisUp mem 1 145 :: bytesAt (cmisUp mem 1) 146 6 := rfl
  have e3 : answer mem ⟨.cmis .lower, 14, 4⟩ = bytesAt (cmisLow mem) 14 4 := rfl
  have e4 : answer mem ⟨.cmis .lower, 18, 8⟩ = bytesAt (cmisLow mem) 18 8 := rfl
  have e5 : answer mem ⟨.cmis (.upper ⟨some 0, 0x11⟩), 154, 8⟩ = bytesAt (cmisBank0 mem 0x11) 154 8 := rfl
  have e6 : answer mem ⟨.cmis (.upper ⟨some 0, 0x11⟩), 162, 8⟩ = bytesAt (cmisBank0 mem 0x11) (154 + 8) 8 := rfl
  have e7 : answer mem ⟨.cmis (.upper ⟨some 0, 0x11⟩), 170, 8⟩ = bytesAt (cmisBank0 mem 0x11) 170 8 := rfl
  have e8 : answer mem ⟨.cmis (.upper ⟨some 0, 0x11⟩), 178, 8⟩ = bytesAt (cmisBank0 mem 0x11) (170 + 8) 8 := rfl
  have e9 : answer mem ⟨.cmis (.upper ⟨some 0, 0x11⟩), 186, 8⟩ = bytesAt (cmisBank0 mem 0x11) 186 8 := rfl
  have e10 : answer mem ⟨.cmis (.upper ⟨some 0, 0x11⟩), 194, 8⟩ = bytesAt (cmisBank0 mem 0x11) (186 + 8) 8 := rfl
  rw [e1, e2, e3, e4, e5, e6, e7, e8, e9, e10]
  have t0 c f : whenAt (β := Rat) c (bytesAt (cmisLow mem) 14 4) 0 f = .ok (given c (f (cmisLow mem 14, cmisLow mem (14 + 1)))) :=
    whenAt_eq c _ 0 f _ _ rfl rfl
  have t2 c f : whenAt (β := Rat) c (bytesAt (cmisLow mem) 14 4) 2 f = .ok (given c (f (cmisLow mem 16, cmisLow mem (16 + 1)))) :=
    whenAt_eq c _ 2 f _ _ rfl rfl
  have u0 {β} c f : whenAt (β := β) c (bytesAt (cmisLow mem) 18 8) 0 f = .ok (given c (f (cmisLow mem 18, cmisLow mem 19))) :=
    whenAt_eq c _ 0 f _ _ rfl rfl
  have u2 {β} c f : whenAt (β := β) c (bytesAt (cmisLow mem) 18 8) 2 f = .ok (given c (f (cmisLow mem 20, cmisLow mem 21))) :=
    whenAt_eq c _ 2 f _ _ rfl rfl
  have u4 {β} c f : whenAt (β := β) c (bytesAt (cmisLow mem) 18 8) 4 f = .ok (given c (f (cmisLow mem 22, cmisLow mem 23))) :=
    whenAt_eq c _ 4 f _ _ rfl rfl
  have u6 {β} c f : whenAt (β := β) c (bytesAt (cmisLow mem) 18 8) 6 f = .ok (given c (f (cmisLow mem 24, cmisLow mem 25))) :=
    whenAt_eq c _ 6 f _ _ rfl rfl
  have g1 (x y : U8) : Decode.get [x, y] 1 = .ok y := rfl
  have g6 (x : U8) : Decode.get (x :: bytesAt (cmisUp mem 1) 146 6) 6 = .ok (cmisUp mem 1 151) := rfl
  simp only [parseCmis, Decode.next, Decode.first, Exec.ok_bind, g1, g6, t0, t2, u0, u2, u4, u6, pairs8, Exec.pure_eq, and_ne_bit0,
    and_ne_bit1, and_ne_bit2, and_ne_bit3, and_ne_bit4, and_ne_bit5, temperature_eq, voltage_eq, power_eq,
    bias_eq, rxPower_eq]
  rfl

end Monitors

end Xcvr
