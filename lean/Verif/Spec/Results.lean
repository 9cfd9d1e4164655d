import Verif.Model.Results
import Verif.Spec.Ports

/-! # Specification: a result is a partial map from ports to outcomes -/

namespace Xcvr.Spec

variable {E P : Type}

/-- One datum per successful module, one error per failed module, and no module is both. -/
def WF (r : ModuleResult E P) : Prop :=
  Aligned r.modules r.data ∧ Aligned r.failures.modules r.failures.errors ∧
    ∀ p, ¬ (Mem r.modules p ∧ Mem r.failures.modules p)

/-- The datum of port `p`, if `p` succeeded. -/
def okAt (r : ModuleResult E P) (p : Nat) : Option P := datum r.modules r.data p

/-- The error of port `p`, if `p` failed. -/
def errAt (r : ModuleResult E P) (p : Nat) : Option E := datum r.failures.modules r.failures.errors p

/-- Port `p` succeeded. -/
abbrev Succeeded (r : ModuleResult E P) (p : Nat) : Prop := Mem r.modules p

/-- Port `p` failed. -/
abbrev Failed (r : ModuleResult E P) (p : Nat) : Prop := Mem r.failures.modules p


end Xcvr.Spec
