import Verif.Prim
/-!
# `src/layout/{coverage,class,correction,context}.rs`

Structures keep the Rust field names. Unsigned integers are natural numbers (their width is enforced by
the readers), signed ones integers, `Vec` is `List`.
-/

namespace OpenType

/-! ## Coverage -/
namespace coverage

/-- `src/layout/coverage.rs:40-48`. -/
structure Record where
  start_glyph_id : Nat
  end_glyph_id : Nat
  index : Nat
deriving DecidableEq, Repr

/-- `src/layout/coverage.rs:40-48`. -/
def Record.read : Reader Record := do
  let start_glyph_id ← u16
  let end_glyph_id ← u16
  let index ← u16
  return { start_glyph_id, end_glyph_id, index }

/-- `src/layout/coverage.rs:16-26`. -/
structure Coverage1 where
  format : Nat
  glyph_count : Nat
  glyph_ids : List Nat
deriving DecidableEq, Repr

/-- `src/layout/coverage.rs:16-26`. -/
def Coverage1.read : Reader Coverage1 := do
  let format ← u16
  let glyph_count ← u16
  let glyph_ids ← takeVec u16 glyph_count
  return { format, glyph_count, glyph_ids }

/-- `src/layout/coverage.rs:28-38`. -/
structure Coverage2 where
  format : Nat
  record_count : Nat
  records : List Record
deriving DecidableEq, Repr

/-- `src/layout/coverage.rs:28-38`. -/
def Coverage2.read : Reader Coverage2 := do
  let format ← u16
  let record_count ← u16
  let records ← takeVec Record.read record_count
  return { format, record_count, records }

/-- `src/layout/coverage.rs:7-14`. -/
inductive Coverage where
  | format1 (table : Coverage1)
  | format2 (table : Coverage2)
deriving DecidableEq, Repr

/-- `src/layout/coverage.rs:57-65`. -/
def Coverage.read : Reader Coverage := do
  match ← peek u16 with
  | 1 => return .format1 (← Coverage1.read)
  | 2 => return .format2 (← Coverage2.read)
  | value => raise ⟨"found an unknown format of the glyph coverage", [value]⟩

end coverage

/-! ## Class -/
namespace class_

/-- `src/layout/class.rs:41-49`. -/
structure Record where
  start_glyph_id : Nat
  end_glyph_id : Nat
  index : Nat
deriving DecidableEq, Repr

/-- `src/layout/class.rs:41-49`. -/
def Record.read : Reader Record := do
  let start_glyph_id ← u16
  let end_glyph_id ← u16
  let index ← u16
  return { start_glyph_id, end_glyph_id, index }

/-- `src/layout/class.rs:16-27`. -/
structure Class1 where
  format : Nat
  start_glyph_id : Nat
  glyph_count : Nat
  indices : List Nat
deriving DecidableEq, Repr

/-- `src/layout/class.rs:16-27`. -/
def Class1.read : Reader Class1 := do
  let format ← u16
  let start_glyph_id ← u16
  let glyph_count ← u16
  let indices ← takeVec u16 glyph_count
  return { format, start_glyph_id, glyph_count, indices }

/-- `src/layout/class.rs:29-39`. -/
structure Class2 where
  format : Nat
  record_count : Nat
  records : List Record
deriving DecidableEq, Repr

/-- `src/layout/class.rs:29-39`. -/
def Class2.read : Reader Class2 := do
  let format ← u16
  let record_count ← u16
  let records ← takeVec Record.read record_count
  return { format, record_count, records }

/-- `src/layout/class.rs:7-14`. -/
inductive Class where
  | format1 (table : Class1)
  | format2 (table : Class2)
deriving DecidableEq, Repr

/-- `src/layout/class.rs:58-66`. -/
def Class.read : Reader Class := do
  match ← peek u16 with
  | 1 => return .format1 (← Class1.read)
  | 2 => return .format2 (← Class2.read)
  | value => raise ⟨"found an unknown format of the glyph class", [value]⟩

end class_

/-! ## Correction -/
namespace correction

/-- `src/layout/correction.rs:14-23`. -/
structure Device where
  start_size : Nat
  end_size : Nat
  format : Nat
  deltas : List Nat
deriving DecidableEq, Repr

/-- `src/layout/correction.rs:51-73`. -/
def Device.read : Reader Device := do
  let start_size ← u16
  let end_size ← u16
  raiseIf (start_size > end_size) "found a malformed device correction"
  let format ← u16
  raiseIf (format = 0 ∨ format > 3) ⟨"found an unknown format of the device correction", [format]⟩
  let difference ← subUint end_size start_size
  let count ← addUsize difference 1
  let bit_count ← mulUsize (1 <<< format) count
  let sum ← addUsize bit_count 16
  let padded ← subUint sum (bit_count % 16)
  let short_count := padded >>> 4
  let deltas ← takeVec u16 short_count
  return { start_size, end_size, format, deltas }

/-- `src/layout/correction.rs:25-32`. -/
structure Variation where
  outer_index : Nat
  inner_index : Nat
  format : Nat
deriving DecidableEq, Repr

/-- `src/layout/correction.rs:25-32`. -/
def Variation.read : Reader Variation := do
  let outer_index ← u16
  let inner_index ← u16
  let format ← u16
  return { outer_index, inner_index, format }

/-- `src/layout/correction.rs:5-12`. -/
inductive Correction where
  | device (table : Device)
  | variation (table : Variation)
deriving DecidableEq, Repr

/-- The pair `(u32, u16)` peeked in `src/layout/correction.rs:36`. -/
def peeked : Reader (Nat × Nat) := do
  let a ← u32
  let b ← u16
  return (a, b)

/-- `src/layout/correction.rs:34-42`. -/
def Correction.read : Reader Correction := do
  let format := (← peek peeked).2
  if 1 ≤ format ∧ format ≤ 3 then
    return .device (← Device.read)
  else if format = 0x8000 then
    return .variation (← Variation.read)
  else
    raise ⟨"found an unknown format of the adjustment correction", [format]⟩

end correction

/-! ## Context -/
namespace context
open coverage class_

/-- `src/layout/context.rs:369-376`. -/
structure Action where
  position_index : Nat
  lookup_index : Nat
deriving DecidableEq, Repr

/-- `src/layout/context.rs:369-376`. -/
def Action.read : Reader Action := do
  let position_index ← u16
  let lookup_index ← u16
  return { position_index, lookup_index }

/-- `src/layout/context.rs:203-220`. -/
structure Record where
  glyph_count : Nat
  action_count : Nat
  glyph_ids : List Nat
  actions : List Action
deriving DecidableEq, Repr

/-- `src/layout/context.rs:203-220`. -/
def Record.read : Reader Record := do
  let glyph_count ← u16
  let action_count ← u16
  raiseIf (glyph_count = 0) "found a malformed context record"
  let rest_count ← subUint glyph_count 1
  let glyph_ids ← takeVec u16 rest_count
  let actions ← takeVec Action.read action_count
  return { glyph_count, action_count, glyph_ids, actions }

/-- `src/layout/context.rs:222-236`. -/
structure Records where
  count : Nat
  offsets : List Nat
  records : List Record
deriving DecidableEq, Repr

/-- `src/layout/context.rs:222-236`. -/
def Records.read : Reader Records := do
  let position ← position
  let count ← u16
  let offsets ← takeVec u16 count
  let records ← jumpTakeN position count offsets Record.read
  return { count, offsets, records }

/-- `src/layout/context.rs:238-255`. -/
structure ClassRecord where
  glyph_count : Nat
  action_count : Nat
  indices : List Nat
  actions : List Action
deriving DecidableEq, Repr

/-- `src/layout/context.rs:238-255`. -/
def ClassRecord.read : Reader ClassRecord := do
  let glyph_count ← u16
  let action_count ← u16
  raiseIf (glyph_count = 0) "found a malformed class context record"
  let rest_count ← subUint glyph_count 1
  let indices ← takeVec u16 rest_count
  let actions ← takeVec Action.read action_count
  return { glyph_count, action_count, indices, actions }

/-- `src/layout/context.rs:257-271`. -/
structure ClassRecords where
  count : Nat
  offsets : List Nat
  records : List ClassRecord
deriving DecidableEq, Repr

/-- `src/layout/context.rs:257-271`. -/
def ClassRecords.read : Reader ClassRecords := do
  let position ← position
  let count ← u16
  let offsets ← takeVec u16 count
  let records ← jumpTakeN position count offsets ClassRecord.read
  return { count, offsets, records }

/-- `src/layout/context.rs:273-303`. -/
structure ChainedRecord where
  backward_glyph_count : Nat
  backward_glyph_ids : List Nat
  glyph_count : Nat
  glyph_ids : List Nat
  forward_glyph_count : Nat
  forward_glyph_ids : List Nat
  action_count : Nat
  actions : List Action
deriving DecidableEq, Repr

/-- `src/layout/context.rs:273-303`. -/
def ChainedRecord.read : Reader ChainedRecord := do
  let backward_glyph_count ← u16
  let backward_glyph_ids ← takeVec u16 backward_glyph_count
  let glyph_count ← u16
  raiseIf (glyph_count = 0) "found a malformed chained context record"
  let rest_count ← subUint glyph_count 1
  let glyph_ids ← takeVec u16 rest_count
  let forward_glyph_count ← u16
  let forward_glyph_ids ← takeVec u16 forward_glyph_count
  let action_count ← u16
  let actions ← takeVec Action.read action_count
  return { backward_glyph_count, backward_glyph_ids, glyph_count, glyph_ids,
           forward_glyph_count, forward_glyph_ids, action_count, actions }

/-- `src/layout/context.rs:305-319`. -/
structure ChainedRecords where
  count : Nat
  offsets : List Nat
  records : List ChainedRecord
deriving DecidableEq, Repr

/-- `src/layout/context.rs:305-319`. -/
def ChainedRecords.read : Reader ChainedRecords := do
  let position ← position
  let count ← u16
  let offsets ← takeVec u16 count
  let records ← jumpTakeN position count offsets ChainedRecord.read
  return { count, offsets, records }

/-- `src/layout/context.rs:321-351`. -/
structure ChainedClassRecord where
  backward_glyph_count : Nat
  backward_indices : List Nat
  glyph_count : Nat
  indices : List Nat
  forward_glyph_count : Nat
  forward_indices : List Nat
  action_count : Nat
  actions : List Action
deriving DecidableEq, Repr

/-- `src/layout/context.rs:321-351`. -/
def ChainedClassRecord.read : Reader ChainedClassRecord := do
  let backward_glyph_count ← u16
  let backward_indices ← takeVec u16 backward_glyph_count
  let glyph_count ← u16
  raiseIf (glyph_count = 0) "found a malformed chained class context record"
  let rest_count ← subUint glyph_count 1
  let indices ← takeVec u16 rest_count
  let forward_glyph_count ← u16
  let forward_indices ← takeVec u16 forward_glyph_count
  let action_count ← u16
  let actions ← takeVec Action.read action_count
  return { backward_glyph_count, backward_indices, glyph_count, indices,
           forward_glyph_count, forward_indices, action_count, actions }

/-- `src/layout/context.rs:353-367`. -/
structure ChainedClassRecords where
  count : Nat
  offsets : List Nat
  records : List ChainedClassRecord
deriving DecidableEq, Repr

/-- `src/layout/context.rs:353-367`. -/
def ChainedClassRecords.read : Reader ChainedClassRecords := do
  let position ← position
  let count ← u16
  let offsets ← takeVec u16 count
  let records ← jumpTakeN position count offsets ChainedClassRecord.read
  return { count, offsets, records }

/-- `src/layout/context.rs:19-39`. -/
structure Context1 where
  format : Nat
  coverage_offset : Nat
  record_count : Nat
  record_offsets : List Nat
  coverage : Coverage
  records : List Records
deriving DecidableEq, Repr

/-- `src/layout/context.rs:19-39`. -/
def Context1.read : Reader Context1 := do
  let position ← position
  let format ← u16
  let coverage_offset ← u16
  let record_count ← u16
  let record_offsets ← takeVec u16 record_count
  let coverage ← jumpTake position coverage_offset Coverage.read
  let records ← jumpTakeN position record_count record_offsets Records.read
  return { format, coverage_offset, record_count, record_offsets, coverage, records }

/-- `src/layout/context.rs:41-66`. -/
structure Context2 where
  format : Nat
  coverage_offset : Nat
  class_offset : Nat
  record_count : Nat
  record_offsets : List Nat
  coverage : Coverage
  class_ : Class
  records : List (Option ClassRecords)
deriving DecidableEq, Repr

/-- `src/layout/context.rs:41-66`. -/
def Context2.read : Reader Context2 := do
  let position ← position
  let format ← u16
  let coverage_offset ← u16
  let class_offset ← u16
  let record_count ← u16
  let record_offsets ← takeVec u16 record_count
  let coverage ← jumpTake position coverage_offset Coverage.read
  let class_ ← jumpTake position class_offset Class.read
  let records ← jumpTakeMaybeN position record_count record_offsets ClassRecords.read
  return { format, coverage_offset, class_offset, record_count, record_offsets, coverage, class_,
           records }

/-- `src/layout/context.rs:68-88`. -/
structure Context3 where
  format : Nat
  glyph_count : Nat
  action_count : Nat
  coverage_offsets : List Nat
  actions : List Action
  coverages : List Coverage
deriving DecidableEq, Repr

/-- `src/layout/context.rs:68-88`. -/
def Context3.read : Reader Context3 := do
  let position ← position
  let format ← u16
  let glyph_count ← u16
  let action_count ← u16
  let coverage_offsets ← takeVec u16 glyph_count
  let actions ← takeVec Action.read action_count
  let coverages ← jumpTakeN position glyph_count coverage_offsets Coverage.read
  return { format, glyph_count, action_count, coverage_offsets, actions, coverages }

/-- `src/layout/context.rs:8-17`. -/
inductive Context where
  | format1 (table : Context1)
  | format2 (table : Context2)
  | format3 (table : Context3)
deriving DecidableEq, Repr

/-- `src/layout/context.rs:378-387`. -/
def Context.read : Reader Context := do
  match ← peek u16 with
  | 1 => return .format1 (← Context1.read)
  | 2 => return .format2 (← Context2.read)
  | 3 => return .format3 (← Context3.read)
  | value => raise ⟨"found an unknown format of the context table", [value]⟩

/-- `src/layout/context.rs:101-121`. -/
structure ChainedContext1 where
  format : Nat
  coverage_offset : Nat
  record_count : Nat
  record_offsets : List Nat
  coverage : Coverage
  records : List ChainedRecords
deriving DecidableEq, Repr

/-- `src/layout/context.rs:101-121`. -/
def ChainedContext1.read : Reader ChainedContext1 := do
  let position ← position
  let format ← u16
  let coverage_offset ← u16
  let record_count ← u16
  let record_offsets ← takeVec u16 record_count
  let coverage ← jumpTake position coverage_offset Coverage.read
  let records ← jumpTakeN position record_count record_offsets ChainedRecords.read
  return { format, coverage_offset, record_count, record_offsets, coverage, records }

/-- `src/layout/context.rs:123-158`. -/
structure ChainedContext2 where
  format : Nat
  coverage_offset : Nat
  backward_class_offset : Nat
  class_offset : Nat
  forward_class_offset : Nat
  record_count : Nat
  record_offsets : List Nat
  coverage : Coverage
  backward_class : Class
  class_ : Class
  forward_class : Class
  records : List (Option ChainedClassRecords)
deriving DecidableEq, Repr

/-- `src/layout/context.rs:123-158`. -/
def ChainedContext2.read : Reader ChainedContext2 := do
  let position ← position
  let format ← u16
  let coverage_offset ← u16
  let backward_class_offset ← u16
  let class_offset ← u16
  let forward_class_offset ← u16
  let record_count ← u16
  let record_offsets ← takeVec u16 record_count
  let coverage ← jumpTake position coverage_offset Coverage.read
  let backward_class ← jumpTake position backward_class_offset Class.read
  let class_ ← jumpTake position class_offset Class.read
  let forward_class ← jumpTake position forward_class_offset Class.read
  let records ← jumpTakeMaybeN position record_count record_offsets ChainedClassRecords.read
  return { format, coverage_offset, backward_class_offset, class_offset, forward_class_offset,
           record_count, record_offsets, coverage, backward_class, class_, forward_class, records }

/-- `src/layout/context.rs:160-201`. -/
structure ChainedContext3 where
  format : Nat
  backward_glyph_count : Nat
  backward_coverage_offsets : List Nat
  glyph_count : Nat
  coverage_offsets : List Nat
  forward_glyph_count : Nat
  forward_coverage_offsets : List Nat
  action_count : Nat
  actions : List Action
  backward_coverages : List Coverage
  coverages : List Coverage
  forward_coverages : List Coverage
deriving DecidableEq, Repr

/-- `src/layout/context.rs:160-201`. -/
def ChainedContext3.read : Reader ChainedContext3 := do
  let position ← position
  let format ← u16
  let backward_glyph_count ← u16
  let backward_coverage_offsets ← takeVec u16 backward_glyph_count
  let glyph_count ← u16
  let coverage_offsets ← takeVec u16 glyph_count
  let forward_glyph_count ← u16
  let forward_coverage_offsets ← takeVec u16 forward_glyph_count
  let action_count ← u16
  let actions ← takeVec Action.read action_count
  let backward_coverages ←
    jumpTakeN position backward_glyph_count backward_coverage_offsets Coverage.read
  let coverages ← jumpTakeN position glyph_count coverage_offsets Coverage.read
  let forward_coverages ←
    jumpTakeN position forward_glyph_count forward_coverage_offsets Coverage.read
  return { format, backward_glyph_count, backward_coverage_offsets, glyph_count, coverage_offsets,
           forward_glyph_count, forward_coverage_offsets, action_count, actions,
           backward_coverages, coverages, forward_coverages }

/-- `src/layout/context.rs:90-99`. -/
inductive ChainedContext where
  | format1 (table : ChainedContext1)
  | format2 (table : ChainedContext2)
  | format3 (table : ChainedContext3)
deriving DecidableEq, Repr

/-- `src/layout/context.rs:389-400`. -/
def ChainedContext.read : Reader ChainedContext := do
  match ← peek u16 with
  | 1 => return .format1 (← ChainedContext1.read)
  | 2 => return .format2 (← ChainedContext2.read)
  | 3 => return .format3 (← ChainedContext3.read)
  | value => raise ⟨"found an unknown format of the chained context table", [value]⟩

end context
end OpenType
