import Verif.Model.Controller
import Verif.Model.Decode.Power
import Verif.Model.Decode.Vendor
import Verif.Model.Decode.MemoryModel
import Verif.Model.Decode.Monitors
import Verif.Model.Decode.Datapath

/-! # C148: modules that the answers leave out -/

namespace Xcvr.Spec

open Prog Controller

/-- A query has asked for the identifiers of the modules, has decoded the kinds before `kind`, and has received `results`
for the reads of the modules of that kind. -/
structure Answered {P : Type} (D : ModuleDecoder P) (m : ModuleId) (t : List (Call × Reply)) (kind : Identifier × ModuleId)
    (results : List (Res Bytes)) : Prop where
  intro ::
  so_far : ∃ t₀ t₁ t₂ ident before later s reads, t = t₀ ++ (t₁ ++ t₂) ∧ Runs (identifier m) t₀ (.ok ident) ∧
    splitModulesByIdentifier ident.modules ident.data = .ok (before ++ kind :: later) ∧
    Runs (parseKinds D ⟨ident.modules, ident.failures, []⟩ before) t₁ (.ok s) ∧
    D.reads kind.1 = .ok reads ∧ Runs (readAll kind.2 reads) t₂ (.ok results)

/-- No answer reports an error of module `i`, and some answer has no data of it. -/
structure LeftOut (results : List (Res Bytes)) (i : U8) : Prop where
  noError : ∀ r ∈ results, r.nthErr i = none
  missing : ∃ r ∈ results, r.nth i = none

/-- The first answer has a byte of module `i` that says that its memory is flat: bit 2 of byte 2 for SFF-8636, bit 7 of
byte 2 for CMIS. -/
def SaysFlat (id : Identifier) (results : List (Res Bytes)) (i : U8) : Prop :=
  ∃ r rest status more, results = r :: rest ∧ r.nth i = some (status :: more) ∧
    ((id = Identifier.qsfpPlusSff8636 ∨ id = Identifier.qsfp28) ∧ status.toNat / 4 % 2 = 1 ∨
     (id = Identifier.qsfpPlusCmis ∨ id = Identifier.qsfpDD) ∧ status.toNat / 128 % 2 = 1)

end Xcvr.Spec
