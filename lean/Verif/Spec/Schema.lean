import Verif.Model.Schema
import Verif.Spec.Json

/-! # What leaves of documents are read, for C126 -/

namespace Xcvr.Spec

open Xcvr

/-- Bytes are integers up to 255, without a point; codes are texts that stand for one; keys are decimal bytes. -/
def readable : Schema.Leaves where
  byte j := ∃ x : U8, j = .int x.toNat
  code T j := ∃ s, ∃ v : Bf T, j = .str s ∧ Bf.fromStr s = some v
  ethernet j := ∃ s e, j = .str s ∧ EthernetComplianceCode.fromStr s = some e
  state j := ∃ s v, j = .str s ∧ CmisDatapathState.fromStr s = some v
  key n := ∃ k, Json.readKey n = some k

end Xcvr.Spec
