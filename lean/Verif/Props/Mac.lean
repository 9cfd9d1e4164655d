import Verif.Spec.Mac

/-! # C05-C08: MAC address ranges -/

namespace Xcvr

open Spec

/-! Arithmetic helpers. -/

theorem be32_toNat (a b c d : U8) :
    (be32 a b c d).toNat = a.toNat * 2 ^ 24 + b.toNat * 2 ^ 16 + c.toNat * 2 ^ 8 + d.toNat := by
  have ha := a.isLt; have hb := b.isLt; have hc := c.isLt; have hd := d.isLt
  unfold be32
  rw [BitVec.toNat_append, ← Nat.shiftLeft_add_eq_or_of_lt hd, BitVec.toNat_append,
    ← Nat.shiftLeft_add_eq_or_of_lt hc, BitVec.toNat_append, ← Nat.shiftLeft_add_eq_or_of_lt hb]
  simp only [Nat.shiftLeft_eq]
  omega

theorem be32Byte_toNat (x : U32) (i : Nat) : (be32Byte x i).toNat = x.toNat / 2 ^ (8 * (3 - i)) % 256 := by
  simp [be32Byte, BitVec.extractLsb'_toNat, Nat.shiftRight_eq_div_pow]

theorem mulU32_eq {ε : Type} (n : U16) (s : U8) :
    (mulU32 (n.setWidth 32) (s.setWidth 32) : Exec ε U32) = .ok (BitVec.ofNat 32 (n.toNat * s.toNat)) := by
  have hn := n.isLt; have hs := s.isLt
  have hp : n.toNat * s.toNat ≤ 65535 * 255 := Nat.mul_le_mul (by omega) (by omega)
  have e1 : (n.setWidth 32).toNat = n.toNat := by simp; omega
  have e2 : (s.setWidth 32).toNat = s.toNat := by simp; omega
  unfold mulU32
  rw [e1, e2, if_pos (by omega)]
  have : n.setWidth 32 * s.setWidth 32 = BitVec.ofNat 32 (n.toNat * s.toNat) := by
    apply BitVec.eq_of_toNat_eq
    rw [BitVec.toNat_mul, e1, e2, BitVec.toNat_ofNat]
  rw [this]

theorem offset_lt (n : U16) (s : U8) : n.toNat * s.toNat ≤ 65535 * 255 :=
  Nat.mul_le_mul (by have := n.isLt; omega) (by have := s.isLt; omega)

/-- The low 32 bits of the address as a number. -/
def low32 (m : Mac) : Nat := m.b2.toNat * 2 ^ 24 + m.b3.toNat * 2 ^ 16 + m.b4.toNat * 2 ^ 8 + m.b5.toNat

theorem baseN_toNat (m : Mac) : (MacAddrs.baseN m).toNat = low32 m := be32_toNat _ _ _ _

theorem low32_lt (m : Mac) : low32 m < 2 ^ 32 := by
  have := m.b2.isLt; have := m.b3.isLt; have := m.b4.isLt; have := m.b5.isLt; unfold low32; omega

theorem macVal_eq (m : Mac) : macVal m = (m.b0.toNat * 256 + m.b1.toNat) * 2 ^ 32 + low32 m := by
  unfold macVal low32; omega

theorem multicast_iff (m : Mac) : (m.b0 &&& 1 != 0) = true ↔ multicast m := by
  unfold multicast
  rw [bne_iff_ne, ne_eq, ← BitVec.toNat_inj]
  simp [Nat.and_one_is_mod]

/-- Exact behaviour of `new` in terms of numbers. -/
theorem new_eq (base : Mac) (count : U16) (stride : U8) :
    MacAddrs.new base count stride =
      if count = 0 ∨ stride = 0 then .err ⟨.zeroStrideOrCount, base, count, stride⟩
      else if multicast base then .err ⟨.multicastBaseAddr, base, count, stride⟩
      else if (low32 base + count.toNat * stride.toNat) / 2 ^ 24 = base.b2.toNat then .ok ⟨base, count, stride⟩
      else .err ⟨.spansMultipleOuis, base, count, stride⟩ := by
  unfold MacAddrs.new
  by_cases h0 : count = 0 ∨ stride = 0
  · have : (count == 0 || stride == 0) = true := by simpa using h0
    rw [if_pos this, if_pos h0]
  · have : (count == 0 || stride == 0) = false := by simpa using h0
    rw [this, if_neg h0, if_neg (by simp)]
    by_cases h1 : multicast base
    · rw [if_pos ((multicast_iff _).mpr h1), if_pos h1]
    · rw [if_neg (fun h => h1 ((multicast_iff _).mp h)), if_neg h1, mulU32_eq]
      have hoff := offset_lt count stride
      have hlow := low32_lt base
      have hb2 := base.b2.isLt
      have eo : (BitVec.ofNat 32 (count.toNat * stride.toNat)).toNat = count.toNat * stride.toNat := by simp; omega
      simp only [Exec.ok_bind, checkedAddU32, eo, baseN_toNat]
      by_cases hadd : low32 base + count.toNat * stride.toNat < 2 ^ 32
      · simp only [hadd, if_true, beq_iff_eq]
        have hbyte : be32Byte (MacAddrs.baseN base + BitVec.ofNat 32 (count.toNat * stride.toNat)) 0 = base.b2 ↔
            (low32 base + count.toNat * stride.toNat) / 2 ^ 24 = base.b2.toNat := by
          rw [← BitVec.toNat_inj, be32Byte_toNat, BitVec.toNat_add, eo, baseN_toNat]
          omega
        by_cases hq : (low32 base + count.toNat * stride.toNat) / 2 ^ 24 = base.b2.toNat
        · rw [if_pos (hbyte.mpr hq), if_pos hq]
        · rw [if_neg (fun h => hq (hbyte.mp h)), if_neg hq]
      · simp only [hadd, if_false]
        rw [if_neg]
        omega

/-- Exact behaviour of `nth` in terms of numbers. -/
theorem nth_eq (r : MacAddrs) (n : U16) :
    r.nth n =
      if r.count.toNat ≤ n.toNat then .ok none
      else if low32 r.baseMac + n.toNat * r.stride.toNat < 2 ^ 32 then
        let v := low32 r.baseMac + n.toNat * r.stride.toNat
        .ok (some ⟨r.baseMac.b0, r.baseMac.b1, r.baseMac.b2, BitVec.ofNat 8 (v / 2 ^ 16), BitVec.ofNat 8 (v / 2 ^ 8),
          BitVec.ofNat 8 v⟩)
      else .panic := by
  unfold MacAddrs.nth
  by_cases hc : n ≥ r.count
  · rw [if_pos hc, if_pos (by simpa [BitVec.le_def] using hc)]
  · rw [if_neg hc, if_neg (by simpa [BitVec.le_def] using hc), mulU32_eq]
    have hoff := offset_lt n r.stride
    have eo : (BitVec.ofNat 32 (n.toNat * r.stride.toNat)).toNat = n.toNat * r.stride.toNat := by simp; omega
    simp only [Exec.ok_bind, addU32, eo, baseN_toNat]
    by_cases hadd : low32 r.baseMac + n.toNat * r.stride.toNat < 2 ^ 32
    · simp only [hadd, if_true, Exec.ok_bind]
      have hb : ∀ i, i ≤ 3 → be32Byte (MacAddrs.baseN r.baseMac + BitVec.ofNat 32 (n.toNat * r.stride.toNat)) i =
          BitVec.ofNat 8 ((low32 r.baseMac + n.toNat * r.stride.toNat) / 2 ^ (8 * (3 - i))) := by
        intro i _
        apply BitVec.eq_of_toNat_eq
        rw [be32Byte_toNat, BitVec.toNat_add, eo, baseN_toNat, BitVec.toNat_ofNat, Nat.mod_eq_of_lt hadd]
      have h1 := hb 1 (by omega)
      have h2 := hb 2 (by omega)
      have h3 := hb 3 (by omega)
      simp only [Nat.reduceSub, Nat.reduceMul, Nat.pow_zero, Nat.div_one] at h1 h2 h3
      simp only [h1, h2, h3]
    · simp only [hadd, if_false, Exec.panic_bind]

theorem nth_mk (base : Mac) (count : U16) (stride : U8) (n : U16) :
    (⟨base, count, stride⟩ : MacAddrs).nth n =
      if count.toNat ≤ n.toNat then .ok none
      else if low32 base + n.toNat * stride.toNat < 2 ^ 32 then
        .ok (some ⟨base.b0, base.b1, base.b2, BitVec.ofNat 8 ((low32 base + n.toNat * stride.toNat) / 2 ^ 16),
          BitVec.ofNat 8 ((low32 base + n.toNat * stride.toNat) / 2 ^ 8),
          BitVec.ofNat 8 (low32 base + n.toNat * stride.toNat)⟩)
      else .panic := nth_eq ⟨base, count, stride⟩ n

theorem new_ok {base : Mac} {count : U16} {stride : U8} {r : MacAddrs} (h : MacAddrs.new base count stride = .ok r) :
    r = ⟨base, count, stride⟩ ∧ ¬ multicast base ∧
      (low32 base + count.toNat * stride.toNat) / 2 ^ 24 = base.b2.toNat := by
  rw [new_eq] at h
  split at h
  · cases h
  split at h
  · cases h
  split at h
  · cases h
    exact ⟨rfl, by assumption, by assumption⟩
  · cases h

theorem macVal_mk (b0 b1 b2 : U8) (v : Nat) (h1 : v < 2 ^ 32) (h2 : v / 2 ^ 24 = b2.toNat) :
    macVal ⟨b0, b1, b2, BitVec.ofNat 8 (v / 2 ^ 16), BitVec.ofNat 8 (v / 2 ^ 8), BitVec.ofNat 8 v⟩ =
      (b0.toNat * 256 + b1.toNat) * 2 ^ 32 + v := by
  unfold macVal
  simp only [BitVec.toNat_ofNat]
  omega

theorem nth_some (base : Mac) (count : U16) (stride : U8) (n : U16) (hn : n.toNat < count.toNat)
    (hv : (low32 base + n.toNat * stride.toNat) / 2 ^ 24 = base.b2.toNat) :
    ∃ a, (⟨base, count, stride⟩ : MacAddrs).nth n = .ok (some a) ∧ a.b0 = base.b0 ∧
      macVal a = (base.b0.toNat * 256 + base.b1.toNat) * 2 ^ 32 + (low32 base + n.toNat * stride.toNat) := by
  have hb2 := base.b2.isLt
  have hlt : low32 base + n.toNat * stride.toNat < 2 ^ 32 := by omega
  rw [nth_mk, if_neg (by omega), if_pos hlt]
  have := macVal_mk base.b0 base.b1 base.b2 _ hlt hv
  generalize hm : Mac.mk base.b0 base.b1 base.b2 _ _ _ = a at this ⊢
  refine ⟨a, rfl, ?_, this⟩
  rw [← hm]

/-- C05: every address of a validated range exists, is `base + n * stride` as a 48-bit number, keeps the OUI, and is
unicast; computing it never aborts. -/
theorem C05_addresses (base : Mac) (count : U16) (stride : U8) (r : MacAddrs)
    (h : MacAddrs.new base count stride = .ok r) (n : U16) (hn : n.toNat < count.toNat) :
    ∃ a, r.nth n = .ok (some a) ∧ macVal a = macVal base + n.toNat * stride.toNat ∧
      oui (macVal a) = oui (macVal base) ∧ ¬ multicast a := by
  obtain ⟨hr, hmc, hq⟩ := new_ok h
  have hle : n.toNat * stride.toNat ≤ count.toNat * stride.toNat := Nat.mul_le_mul_right _ (by omega)
  have hge : base.b2.toNat * 2 ^ 24 ≤ low32 base := by unfold low32; omega
  obtain ⟨a, h1, h2, h3⟩ := nth_some base count stride n hn (by omega)
  refine ⟨a, by rw [hr]; exact h1, ?_, ?_, ?_⟩
  · rw [h3, macVal_eq]; omega
  · rw [h3, macVal_eq]; unfold oui; omega
  · unfold multicast at hmc ⊢; rw [h2]; exact hmc

/-- C05: different positions of a validated range have different addresses. -/
theorem C05_distinct (base : Mac) (count : U16) (stride : U8) (r : MacAddrs)
    (h : MacAddrs.new base count stride = .ok r) (n k : U16) (hn : n.toNat < count.toNat) (hk : k.toNat < count.toNat)
    (he : r.nth n = r.nth k) : n = k := by
  obtain ⟨a, ha, hav, _⟩ := C05_addresses base count stride r h n hn
  obtain ⟨b, hb, hbv, _⟩ := C05_addresses base count stride r h k hk
  rw [ha, hb] at he
  cases he
  have hs : stride.toNat ≠ 0 := by
    intro hs
    have : stride = 0 := BitVec.eq_of_toNat_eq hs
    rw [new_eq, if_pos (.inr this)] at h
    cases h
  have : n.toNat * stride.toNat = k.toNat * stride.toNat := by omega
  exact BitVec.eq_of_toNat_eq (Nat.eq_of_mul_eq_mul_right (Nat.pos_of_ne_zero hs) this)

/-- C05: validation itself never aborts, and an accepted range has the given parameters. -/
theorem C05_new_total (base : Mac) (count : U16) (stride : U8) :
    MacAddrs.new base count stride ≠ .panic ∧
    ∀ r, MacAddrs.new base count stride = .ok r → r = ⟨base, count, stride⟩ := by
  rw [new_eq]
  constructor
  · repeat' split
    all_goals simp
  · intro r
    repeat' split
    all_goals simp_all

example : MacAddrs.new ⟨0xA8, 0x40, 0x25, 0x00, 0x01, 0xFE⟩ 32 4 = .ok ⟨⟨0xA8, 0x40, 0x25, 0x00, 0x01, 0xFE⟩, 32, 4⟩ ∧
    (31 : U16).toNat < (32 : U16).toNat := by decide +kernel

/-- C06 is false of the code: a range with one usable unicast address, the last of its OUI, is rejected as spanning
several OUIs (line 102 multiplies by `count`, the last address is at `count - 1`). -/
theorem C06_counterexample :
    ∃ base count stride, Usable base count.toNat stride.toNat ∧
      MacAddrs.new base count stride = .err ⟨.spansMultipleOuis, base, count, stride⟩ := by
  refine ⟨⟨0xA8, 0x40, 0x25, 0xFF, 0xFF, 0xFF⟩, 1, 1, ?_, by decide +kernel⟩
  refine ⟨by decide, by decide, by unfold multicast; decide, ?_⟩
  intro n hn
  have : n = 0 := by simp at hn; omega
  subst this; simp

theorem C06_false : ¬ ∀ (base : Mac) (count : U16) (stride : U8),
    (∃ r, MacAddrs.new base count stride = .ok r) ↔ Usable base count.toNat stride.toNat := by
  intro h
  obtain ⟨base, count, stride, hu, hn⟩ := C06_counterexample
  obtain ⟨r, hr⟩ := (h base count stride).mpr hu
  rw [hn] at hr; cases hr

/-- C06, the part that holds: an accepted range is usable, and a rejected range has the defect it is rejected for,
except that "spans several OUIs" is reported exactly when the address one step past the end (not the last one) leaves
the OUI. Missing from C06: ranges whose last address is within `stride` of the end of the OUI are rejected although
usable. -/
theorem C06_exact_partial (base : Mac) (count : U16) (stride : U8) :
    ((∃ r, MacAddrs.new base count stride = .ok r) ↔ Usable base (count.toNat + 1) stride.toNat ∧ count ≠ 0) ∧
    (MacAddrs.new base count stride = .err ⟨.zeroStrideOrCount, base, count, stride⟩ ↔ count = 0 ∨ stride = 0) ∧
    (MacAddrs.new base count stride = .err ⟨.multicastBaseAddr, base, count, stride⟩ ↔
      count ≠ 0 ∧ stride ≠ 0 ∧ multicast base) := by
  rw [new_eq]
  have hz : ∀ {w} (x : BitVec w), x = 0 ↔ x.toNat = 0 := fun x => by rw [← BitVec.toNat_inj]; simp
  by_cases h0 : count = 0 ∨ stride = 0
  · simp only [h0, if_true]
    refine ⟨⟨(by rintro ⟨r, h⟩; cases h), ?_⟩, by simp, ?_⟩
    · rintro ⟨⟨_, h2, _⟩, h1⟩
      rcases h0 with h | h
      · exact absurd h h1
      · exact absurd ((hz stride).mp h) h2
    · constructor
      · intro h; cases h
      · rintro ⟨h1, h2, _⟩; exact (h0.elim h1 h2).elim
  · simp only [h0, if_false]
    rw [not_or] at h0
    by_cases h1 : multicast base
    · simp only [h1, if_true]
      refine ⟨⟨(by rintro ⟨r, h⟩; cases h), fun h => absurd h1 h.1.2.2.1⟩, by simp, by simpa using h0⟩
    · simp only [h1, if_false]
      have hu : (low32 base + count.toNat * stride.toNat) / 2 ^ 24 = base.b2.toNat ↔
          Usable base (count.toNat + 1) stride.toNat := by
        have hlow : base.b2.toNat * 2 ^ 24 ≤ low32 base ∧ low32 base < (base.b2.toNat + 1) * 2 ^ 24 := by
          have := base.b3.isLt; have := base.b4.isLt; have := base.b5.isLt
          unfold low32; omega
        constructor
        · intro hq
          refine ⟨by omega, fun h => h0.2 ((hz stride).mpr h), h1, fun n hn => ?_⟩
          have hle : n * stride.toNat ≤ count.toNat * stride.toNat := Nat.mul_le_mul_right _ (by omega)
          rw [macVal_eq]; unfold oui; omega
        · rintro ⟨_, _, _, h⟩
          have := h count.toNat (by omega)
          rw [macVal_eq] at this; unfold oui at this; omega
      by_cases hq : (low32 base + count.toNat * stride.toNat) / 2 ^ 24 = base.b2.toNat
      · simp only [hq, if_true]
        exact ⟨⟨fun _ => ⟨hu.mp hq, h0.1⟩, fun _ => ⟨_, rfl⟩⟩, by simp [h0], by simp⟩
      · simp only [hq, if_false]
        exact ⟨⟨(by rintro ⟨r, h⟩; cases h), fun h => absurd (hu.mpr h.1) hq⟩, by simp [h0], by simp⟩

/-- C06, soundness half: whatever is accepted is usable. -/
theorem C06_sound (base : Mac) (count : U16) (stride : U8) (r : MacAddrs)
    (h : MacAddrs.new base count stride = .ok r) : Usable base count.toNat stride.toNat := by
  have := ((C06_exact_partial base count stride).1.mp ⟨r, h⟩)
  refine ⟨?_, this.1.2.1, this.1.2.2.1, fun n hn => this.1.2.2.2 n (by omega)⟩
  intro hc
  exact this.2 (BitVec.eq_of_toNat_eq hc)

/-- C07: positions from `count` on give nothing. -/
theorem C07_nth_end (r : MacAddrs) (n : U16) (h : r.count.toNat ≤ n.toNat) : r.nth n = .ok none := by
  rw [nth_eq, if_pos h]

example : (⟨⟨0, 0, 0, 0, 0, 0⟩, 3, 1⟩ : MacAddrs).count.toNat ≤ (3 : U16).toNat := by decide

/-- The list `nth(a), nth(a+1), ..` of `k` results, `none` past the end, of a validated range. -/
theorem take_eq (base : Mac) (count : U16) (stride : U8) (r : MacAddrs)
    (h : MacAddrs.new base count stride = .ok r) (k c : Nat) (hc : c ≤ count.toNat) :
    ∃ xs it, MacAddrIter.take k ⟨r, BitVec.ofNat 16 c⟩ = .ok (xs, it) ∧ xs.length = k ∧ it.macAddrs = r ∧
      ∀ i, i < k → ∃ x, xs[i]? = some x ∧
        if c + i < count.toNat then r.nth (BitVec.ofNat 16 (c + i)) = .ok x ∧ x ≠ none else x = none := by
  have hr := (C05_new_total base count stride).2 r h
  have hcount := count.isLt
  induction k generalizing c with
  | zero => exact ⟨[], _, rfl, rfl, rfl, by omega⟩
  | succ k ih =>
    have ec : (BitVec.ofNat 16 c).toNat = c := by simp; omega
    by_cases hlt : c < count.toNat
    · obtain ⟨a, ha, _⟩ := C05_addresses base count stride r h (BitVec.ofNat 16 c) (by omega)
      have hnext : (⟨r, BitVec.ofNat 16 c⟩ : MacAddrIter).next = .ok (some a, ⟨r, BitVec.ofNat 16 (c + 1)⟩) := by
        simp only [MacAddrIter.next, ha, Exec.ok_bind, ec, show c + 1 < 2 ^ 16 by omega, if_true]
        rw [BitVec.ofNat_add]
        rfl
      obtain ⟨xs, it, h1, h2, h3, h4⟩ := ih (c + 1) (by omega)
      refine ⟨some a :: xs, it, ?_, by simp [h2], h3, ?_⟩
      · simp only [MacAddrIter.take, hnext, Exec.ok_bind, h1]
      · intro i hi
        cases i with
        | zero => exact ⟨some a, rfl, by rw [if_pos (by omega)]; exact ⟨ha, by simp⟩⟩
        | succ i =>
          obtain ⟨x, hx1, hx2⟩ := h4 i (by omega)
          refine ⟨x, by simpa using hx1, ?_⟩
          have : c + 1 + i = c + (i + 1) := by omega
          rwa [this] at hx2
    · have hnth : r.nth (BitVec.ofNat 16 c) = .ok none := C07_nth_end r _ (by rw [ec, hr]; simp; omega)
      have hnext : (⟨r, BitVec.ofNat 16 c⟩ : MacAddrIter).next = .ok (none, ⟨r, BitVec.ofNat 16 c⟩) := by
        simp only [MacAddrIter.next, hnth, Exec.ok_bind]
      obtain ⟨xs, it, h1, h2, h3, h4⟩ := ih c hc
      refine ⟨none :: xs, it, ?_, by simp [h2], h3, ?_⟩
      · simp only [MacAddrIter.take, hnext, Exec.ok_bind, h1]
      · intro i hi
        cases i with
        | zero => exact ⟨none, rfl, by rw [if_neg (by omega)]⟩
        | succ i =>
          obtain ⟨x, hx1, hx2⟩ := h4 i (by omega)
          refine ⟨x, by simpa using hx1, ?_⟩
          rw [if_neg (by omega)] at hx2
          rw [if_neg (by omega)]
          exact hx2

/-- C07: for any number `k` of calls to `next` on a validated range, nothing aborts, the `i`-th call yields the
address `nth(i)` for `i < count`, and every later call yields the end of the iteration. -/
theorem C07_iterate (base : Mac) (count : U16) (stride : U8) (r : MacAddrs)
    (h : MacAddrs.new base count stride = .ok r) (k : Nat) :
    ∃ xs it, MacAddrIter.take k r.iter = .ok (xs, it) ∧ xs.length = k ∧
      ∀ i, i < k → ∃ x, xs[i]? = some x ∧
        if i < count.toNat then r.nth (BitVec.ofNat 16 i) = .ok x ∧ x ≠ none else x = none := by
  obtain ⟨xs, it, h1, h2, _, h4⟩ := take_eq base count stride r h k 0 (by omega)
  refine ⟨xs, it, h1, h2, fun i hi => ?_⟩
  obtain ⟨x, hx⟩ := h4 i hi
  exact ⟨x, by simpa using hx⟩

end Xcvr
