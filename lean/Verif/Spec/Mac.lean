import Verif.Model.Mac

/-! # Specification: MAC addresses as 48-bit numbers -/

namespace Xcvr.Spec

/-- The address as a 48-bit big-endian number. -/
def macVal (m : Mac) : Nat :=
  m.b0.toNat * 2 ^ 40 + m.b1.toNat * 2 ^ 32 + m.b2.toNat * 2 ^ 24 + m.b3.toNat * 2 ^ 16 + m.b4.toNat * 2 ^ 8 + m.b5.toNat

/-- The organisationally unique identifier: the upper 24 bits of a 48-bit address. -/
def oui (v : Nat) : Nat := v / 2 ^ 24

/-- The group bit: the least significant bit of the first octet. -/
def multicast (m : Mac) : Prop := m.b0.toNat % 2 = 1

instance (m : Mac) : Decidable (multicast m) := inferInstanceAs (Decidable (_ = _))

/-- A usable range: nonempty, nonzero stride, unicast base, all `count` addresses within the base's OUI. -/
def Usable (base : Mac) (count stride : Nat) : Prop :=
  count ≠ 0 ∧ stride ≠ 0 ∧ ¬ multicast base ∧ ∀ n, n < count → oui (macVal base + n * stride) = oui (macVal base)

end Xcvr.Spec
