import Verif.Model.Prim

/-!
# `messages/src/module_id.rs`: sets of transceiver ports and per-module data
-/

namespace Xcvr

/-- `module_id.rs` 26-28: `pub struct ModuleId(pub u64)`, bit `i` for port `i`. -/
@[ext] structure ModuleId where
  mask : U64
  deriving DecidableEq, Repr

/-- `module_id.rs` 43-45: `pub struct InvalidPort(pub u8)`. -/
structure InvalidPort where
  port : U8
  deriving DecidableEq, Repr

namespace ModuleId

/-- `module_id.rs` 54: `MAX_INDEX = MaskType::BITS`. -/
def maxIndex : U8 := 64

/-- The expression `1 << index` on `u64` (used at `module_id.rs` 62, 72, 83, 97, 120, 162). All uses except line 162 are
guarded by `index < 64`. -/
def bit (index : U8) : U64 := 1#64 <<< index.toNat

/-- `module_id.rs` 58-64 `is_set`. -/
def isSet (self : ModuleId) (index : U8) : Except InvalidPort Bool :=
  if index ≥ maxIndex then .error ⟨index⟩
  else .ok (self.mask &&& bit index != 0)

/-- `module_id.rs` 68-75 `set`; the `&mut self` is returned, and is the unchanged value on error. -/
def set (self : ModuleId) (index : U8) : ModuleId × Except InvalidPort Unit :=
  if index ≥ maxIndex then (self, .error ⟨index⟩)
  else (⟨self.mask ||| bit index⟩, .ok ())

/-- `module_id.rs` 79-86 `clear`. -/
def clear (self : ModuleId) (index : U8) : ModuleId × Except InvalidPort Unit :=
  if index ≥ maxIndex then (self, .error ⟨index⟩)
  else (⟨self.mask &&& ~~~(bit index)⟩, .ok ())

/-- The loop of `module_id.rs` 93-98, with accumulator `out`. -/
def fromIndexLoop (out : U64) : List U8 → Except InvalidPort ModuleId
  | [] => .ok ⟨out⟩
  | index :: it =>
    if index ≥ maxIndex then .error ⟨index⟩ else fromIndexLoop (out ||| bit index) it

/-- `module_id.rs` 91-100 `from_index_iter`. -/
def fromIndexIter (it : List U8) : Except InvalidPort ModuleId := fromIndexLoop 0 it

/-- `module_id.rs` 105-107 `from_indices`. -/
def fromIndices (indices : List U8) : Except InvalidPort ModuleId := fromIndexIter indices

/-- The range `0..Self::MAX_INDEX` of `module_id.rs` 111. -/
def indexRange : List U8 := (List.range 64).map (BitVec.ofNat 8)

/-- `module_id.rs` 110-112 `to_indices`. The `unwrap` cannot fail since every index of the range is below
`MAX_INDEX` (lemma `isSet_indexRange`). -/
def toIndices (self : ModuleId) : List U8 :=
  indexRange.filter fun i => match self.isSet i with
    | .ok b => b
    | .error _ => false

/-- `module_id.rs` 116-122 `single`. -/
def single (index : U8) : Except InvalidPort ModuleId :=
  if index ≥ maxIndex then .error ⟨index⟩ else .ok ⟨bit index⟩

/-- `u64::count_ones`: the number of one bits. -/
def countOnes (x : U64) : Nat := (List.range 64).countP fun i => x.getLsbD i

/-- `module_id.rs` 125-127 `selected_transceiver_count`. -/
def count (self : ModuleId) : Nat := countOnes self.mask

/-- `module_id.rs` 130-132 `is_empty`. -/
def isEmpty (self : ModuleId) : Bool := self.count == 0

/-- `module_id.rs` 135-137 `all`. -/
def all : ModuleId := ⟨~~~0⟩

/-- `module_id.rs` 140-142 `all_sidecar`. -/
def allSidecar : ModuleId := ⟨0xFFFFFFFF⟩

/-- `module_id.rs` 145-147 `empty`. -/
def empty : ModuleId := ⟨0⟩

/-- `module_id.rs` 150-152 `remove`. -/
def remove (self other : ModuleId) : ModuleId := ⟨self.mask &&& ~~~other.mask⟩

/-- `module_id.rs` 155-157 `merge`. -/
def merge (self other : ModuleId) : ModuleId := ⟨self.mask ||| other.mask⟩

/-- `module_id.rs` 161-163 `contains`: `1 << ix` panics for `ix >= 64` when overflow checks are on (in a release
build the shift amount wraps instead). -/
def contains (self : ModuleId) (ix : U8) : Exec Empty Bool :=
  if ix ≥ maxIndex then .panic else .ok (self.mask &&& bit ix != 0)

/-- `contains` on an index known to be in range, as in `remove_module_data` and other callers which take the
index from `to_indices`. -/
def has (self : ModuleId) (ix : U8) : Bool := self.mask &&& bit ix != 0

/-- `module_id.rs` 166-168 `is_subset`: "Return true if the other set of IDs is a subset of self". -/
def isSubset (self other : ModuleId) : Bool := self.mask == self.mask ||| other.mask

/-- `module_id.rs` 171-197 `BitAnd` (all four impls). -/
def and (self rhs : ModuleId) : ModuleId := ⟨self.mask &&& rhs.mask⟩

/-- `module_id.rs` 199-225 `BitOr` (all four impls). -/
def or (self rhs : ModuleId) : ModuleId := ⟨self.mask ||| rhs.mask⟩

/-- `module_id.rs` 227-233 `Not`. -/
def not (self : ModuleId) : ModuleId := ⟨~~~self.mask⟩

end ModuleId

variable {T : Type}

/-- The loop and the two `extend`s of `module_id.rs` 280-297, on the two zipped iterators. -/
def mergeLoop : List (U8 × T) → List (U8 × T) → List T
  | [], ss => ss.map Prod.snd
  | f :: fs, [] => (f :: fs).map Prod.snd
  | f :: fs, s :: ss =>
    if f.1 < s.1 then f.2 :: mergeLoop fs (s :: ss)
    else if s.1 < f.1 then s.2 :: mergeLoop (f :: fs) ss
    else s.2 :: mergeLoop fs ss
termination_by fs ss => fs.length + ss.length

/-- `module_id.rs` 269-300 `merge_module_data`. -/
def mergeModuleData (first : ModuleId) (firstData : List T) (second : ModuleId) (secondData : List T) :
    ModuleId × List T :=
  (first.merge second,
    mergeLoop (first.toIndices.zip firstData) (second.toIndices.zip secondData))

/-- `module_id.rs` 305-319 `remove_module_data`. -/
def removeModuleData (modules : ModuleId) (data : List T) (toRemove : ModuleId) : ModuleId × List T :=
  (modules.remove toRemove,
    ((modules.toIndices.zip data).filter fun p => !toRemove.has p.1).map Prod.snd)

/-- `module_id.rs` 324-330 `keep_module_data`. -/
def keepModuleData (modules : ModuleId) (data : List T) (toKeep : ModuleId) : ModuleId × List T :=
  removeModuleData modules data ⟨~~~toKeep.mask⟩

/-- `module_id.rs` 341-357 `filter_module_data`; `new_modules.set(ix).expect(..)` cannot fail because `ix` comes
from `to_indices` (lemma `mem_toIndices`). -/
def filterModuleData (modules : ModuleId) (data : List T) (f : U8 → T → Bool) : ModuleId × List T :=
  ((modules.toIndices.zip data).filter fun p => f p.1 p.2).foldl
    (fun acc p => ((acc.1.set p.1).1, acc.2 ++ [p.2])) (ModuleId.empty, [])

end Xcvr
