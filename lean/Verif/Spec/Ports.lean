import Verif.Model.ModuleId

/-!
# Specification: sets of ports and data attached to ports

Independent of the bit manipulation in the code: a module set denotes a set of port numbers, and a list with one
item per module denotes a finite map from ports to items, the item of port `p` being at the position equal to the
number of smaller ports in the set.
-/

namespace Xcvr.Spec

/-- Port `p` is in the set denoted by `m`. -/
def Mem (m : ModuleId) (p : Nat) : Prop := m.mask.getLsbD p = true

instance (m : ModuleId) (p : Nat) : Decidable (Mem m p) :=
  inferInstanceAs (Decidable (m.mask.getLsbD p = true))

/-- Number of ports of `m` that are smaller than `p`. -/
def rank (m : ModuleId) (p : Nat) : Nat := (List.range p).countP fun q => decide (Mem m q)

/-- Number of ports of `m` (all ports are below 64). -/
def card (m : ModuleId) : Nat := rank m 64

/-- One item per module. -/
def Aligned {T : Type} (m : ModuleId) (data : List T) : Prop := data.length = card m

instance {T : Type} (m : ModuleId) (data : List T) : Decidable (Aligned m data) :=
  inferInstanceAs (Decidable (_ = _))

/-- The item attached to port `p`, if `p` is in the set. -/
def datum {T : Type} (m : ModuleId) (data : List T) (p : Nat) : Option T :=
  if Mem m p then data[rank m p]? else none

end Xcvr.Spec
