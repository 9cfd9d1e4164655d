import Verif.Model.ModuleId

/-!
# `controller/src/results.rs`: results of operations on several modules

The error type `E` (`TransceiverError` in the code) is a parameter.
-/

namespace Xcvr

/-- `results.rs` 44-49 `FailedModules`. -/
structure FailedModules (E : Type) where
  modules : ModuleId
  errors : List E
  deriving DecidableEq, Repr

/-- `results.rs` 220-224 `ModuleResult`. -/
structure ModuleResult (E P : Type) where
  modules : ModuleId
  data : List P
  failures : FailedModules E
  deriving DecidableEq, Repr

namespace FailedModules

variable {E : Type}

/-- `results.rs` 57-72 `merge` and `merge_into`. -/
def merge (self other : FailedModules E) : FailedModules E :=
  let r := mergeModuleData self.modules self.errors other.modules other.errors
  ⟨r.1, r.2⟩

/-- `results.rs` 75-80 `success`. -/
def success : FailedModules E := ⟨ModuleId.empty, []⟩

/-- `results.rs` 84-86 `iter`. -/
def iter (self : FailedModules E) : List (U8 × E) := self.modules.toIndices.zip self.errors

/-- `results.rs` 90-94 `nth`. -/
def nth (self : FailedModules E) (index : U8) : Option E :=
  (self.iter.find? fun p => p.1 == index).map Prod.snd

end FailedModules

namespace ModuleResult

variable {E P : Type}

/-- `results.rs` 229-231 `iter`. -/
def iter (self : ModuleResult E P) : List (U8 × P) := self.modules.toIndices.zip self.data

/-- `results.rs` 235-237 `error_iter`. -/
def errorIter (self : ModuleResult E P) : List (U8 × E) := self.failures.iter

/-- `results.rs` 241-245 `nth`. -/
def nth (self : ModuleResult E P) (index : U8) : Option P :=
  (self.iter.find? fun p => p.1 == index).map Prod.snd

/-- `results.rs` 249-251 `nth_err`. -/
def nthErr (self : ModuleResult E P) (index : U8) : Option E := self.failures.nth index

/-- `results.rs` 254-256 `is_success`. -/
def isSuccess (self : ModuleResult E P) : Bool := self.failures.modules.isEmpty

/-- `results.rs` 262-272 `success`. -/
def success (modules : ModuleId) (data : List P) : Option (ModuleResult E P) :=
  if modules.count == data.length then some ⟨modules, data, .success⟩ else none

/-- `results.rs` 219 `#[derive(Default)]`. -/
def default : ModuleResult E P := ⟨ModuleId.empty, [], ⟨ModuleId.empty, []⟩⟩

/-- `results.rs` 330-332 `without_failures_from`. -/
def withoutFailuresFrom (self other : ModuleResult E P) : ModuleId × List P :=
  removeModuleData self.modules self.data other.failures.modules

/-- `results.rs` 294-326 `merge`. -/
def merge (self other : ModuleResult E P) : Option (ModuleResult E P) :=
  if !(self.modules.and other.modules).isEmpty then none
  else if !(self.failures.modules.and other.failures.modules).isEmpty then none
  else
    let remaining := self.withoutFailuresFrom other
    let new := other.withoutFailuresFrom self
    let merged := mergeModuleData remaining.1 remaining.2 new.1 new.2
    some ⟨merged.1, merged.2, self.failures.merge other.failures⟩

/-- One round of `results.rs` 399-404: append to the entry of `ix` if there is one. The `BTreeMap` is an association
list in key order. -/
def appendOne (out : List (U8 × List P)) (x : U8 × List P) : List (U8 × List P) :=
  out.map fun e => if e.1 == x.1 then (e.1, e.2 ++ x.2) else e

/-- `results.rs` 372-412 `append`. -/
def append (self other : ModuleResult E (List P)) : Option (ModuleResult E (List P)) :=
  if !(self.failures.modules.and other.failures.modules).isEmpty then none
  else if !self.modules.isSubset (other.modules.or other.failures.modules) then none
  else
    let kept := removeModuleData self.modules self.data other.failures.modules
    let out := (other.modules.toIndices.zip other.data).foldl appendOne (kept.1.toIndices.zip kept.2)
    match ModuleId.fromIndexIter (out.map Prod.fst) with
    | .error _ => none
    | .ok modules => some ⟨modules, out.map Prod.snd, self.failures.merge other.failures⟩

end ModuleResult

/-- `results.rs` 173 `AckResult`. -/
abbrev AckResult (E : Type) := ModuleResult E Unit

/-- `results.rs` 182-188 `AckResult::new`. -/
def AckResult.new {E : Type} (modules : ModuleId) (failures : FailedModules E) : AckResult E :=
  ⟨modules, List.replicate modules.count (), failures⟩

/-- `results.rs` 177-179 `AckResult::ack`. -/
def AckResult.ack {E : Type} (modules : ModuleId) : AckResult E := AckResult.new modules .success

end Xcvr
