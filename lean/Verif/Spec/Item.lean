import Verif.Model.Item
import Verif.Spec.Basic
/-! # Specification: the item variation store -/

namespace OpenType.Spec
open OpenType

/-- The number of delta bytes the code takes per item: `wordDeltaCount + regionIndexCount`, as a 16-bit
number. A build with overflow checks does not accept a sum that does not fit. -/
def deltasPerItem (cfg : Cfg) (t : item.Record) (n : Nat) : Prop :=
  (cfg.overflowChecks = true → t.short_delta_count + t.region_count < 65536) ∧
    n = (t.short_delta_count + t.region_count) % 65536

/-- ItemVariationData. -/
def IsItemRecord (cfg : Cfg) (d : Data) (p : Nat) (t : item.Record) : Prop :=
  U16 d p t.item_count ∧ U16 d (p + 2) t.short_delta_count ∧ U16 d (p + 4) t.region_count ∧
    U16s d (p + 6) t.region_count t.region_indices ∧
    ∃ n, deltasPerItem cfg t n ∧
      ArrayOf (U8 d) 1 (p + 6 + 2 * t.region_count) (t.item_count * n) t.deltas

/-- ItemVariationStore. -/
def IsStore (cfg : Cfg) (d : Data) (p : Nat) (t : item.Store) : Prop :=
  U16 d p t.format ∧ t.format = 1 ∧ U32 d (p + 2) t.region_offset ∧ U16 d (p + 6) t.count ∧
    U32s d (p + 8) t.count t.offsets ∧ AtOffsets (IsItemRecord cfg d) p t.offsets t.records

/-- ItemVariationData with `itemCount * (wordDeltaCount + regionIndexCount)` delta bytes, whatever the sum. -/
def IsItemRecordPlain (d : Data) (p : Nat) (t : item.Record) : Prop :=
  U16 d p t.item_count ∧ U16 d (p + 2) t.short_delta_count ∧ U16 d (p + 4) t.region_count ∧
    U16s d (p + 6) t.region_count t.region_indices ∧
    ArrayOf (U8 d) 1 (p + 6 + 2 * t.region_count)
      (t.item_count * (t.short_delta_count + t.region_count)) t.deltas

/-- ItemVariationStore with such records. -/
def IsStorePlain (d : Data) (p : Nat) (t : item.Store) : Prop :=
  U16 d p t.format ∧ t.format = 1 ∧ U32 d (p + 2) t.region_offset ∧ U16 d (p + 6) t.count ∧
    U32s d (p + 8) t.count t.offsets ∧ AtOffsets (IsItemRecordPlain d) p t.offsets t.records

/-- The number of bytes of a delta set according to the OpenType specification: the highest bit of
`wordDeltaCount` tells whether the first `wordDeltaCount` deltas and the remaining ones have 4 and 2 bytes
rather than 2 and 1. -/
def deltaSetSize (wordDeltaCount regionIndexCount : Nat) : Nat :=
  let words := wordDeltaCount % 0x8000
  if wordDeltaCount < 0x8000 then 2 * words + (regionIndexCount - words)
  else 4 * words + 2 * (regionIndexCount - words)

end OpenType.Spec
