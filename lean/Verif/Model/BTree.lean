import Verif.Model.Prim

/-! # `std::collections::BTreeMap` as a list of pairs sorted by key -/

namespace Xcvr

namespace BMap

variable {κ V : Type} [DecidableEq κ]

/-- `BTreeMap::get`. -/
def get? : List (κ × V) → κ → Option V
  | [], _ => none
  | (k', v) :: rest, k => if k = k' then some v else get? rest k

/-- Insert or replace the value at a key, given the current one: covers `insert` and `entry(k).or_insert_with(d)` followed by
an update in place. The list stays sorted by `lt`. -/
def upsert (lt : κ → κ → Bool) (k : κ) (f : Option V → V) : List (κ × V) → List (κ × V)
  | [] => [(k, f none)]
  | (k', v) :: rest =>
    if k = k' then (k, f (some v)) :: rest
    else if lt k k' then (k, f none) :: (k', v) :: rest
    else (k', v) :: upsert lt k f rest

end BMap

/-- The order on `u8` keys. -/
def u8Lt (a b : U8) : Bool := a < b

end Xcvr
