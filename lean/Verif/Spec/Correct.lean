import Verif.Spec.Apply
import Verif.Spec.Item
/-!
# Specification: by how much corrections correct

What the bytes of a device say for a size and what those of an item variation record say for an item and a region, and the
programs with which a user of the crate finds it out from the values that are read (see `Spec/Apply.lean`).
-/

namespace OpenType.Spec
open OpenType

/-! ## In bytes -/

/-- The byte at `p` is the two's-complement number `x`. -/
def I8 (d : Data) (p : Nat) (x : Int) : Prop := -128 ≤ x ∧ x < 128 ∧ U8 d p (x % 256).toNat

/-- The device at `p` has the correction `x` for `size`. Corrections have 2, 4 or 8 bits, in two's complement, and are packed
into words from the highest bits down. -/
def SizeDelta (d : Data) (p size : Nat) (x : Int) : Prop :=
  ∃ first last format word, U16 d p first ∧ U16 d (p + 2) last ∧ U16 d (p + 4) format ∧ first ≤ size ∧ size ≤ last ∧
    let bits := 2 ^ format
    let perWord := 16 / bits
    let k := size - first
    U16 d (p + 6 + 2 * (k / perWord)) word ∧ -2 ^ (bits - 1) ≤ x ∧ x < 2 ^ (bits - 1) ∧
    (x % 2 ^ bits).toNat = word / 2 ^ (16 - bits * (k % perWord + 1)) % 2 ^ bits

/-- The item variation record at `p` has delta `x` for `item` and number `r` of its regions, which is `region`. The first
deltas of an item have two bytes and the others one. -/
def ItemDelta (d : Data) (p item r region : Nat) (x : Int) : Prop :=
  ∃ items words regions, U16 d p items ∧ U16 d (p + 2) words ∧ U16 d (p + 4) regions ∧ item < items ∧ r < regions ∧
    U16 d (p + 6 + 2 * r) region ∧
    let row := p + 6 + 2 * regions + item * (words + regions)
    if r < words then I16 d (row + 2 * r) x else I8 d (row + 2 * words + (r - words)) x

/-- The item variation record at `p` is not larger than what the crate makes of it: the bit that makes deltas twice as
long (LONG_WORDS) is not set, and there are no more words than regions. -/
def Ordinary (d : Data) (p : Nat) : Prop :=
  ∃ words regions, U16 d (p + 2) words ∧ U16 d (p + 4) regions ∧ words ≤ regions ∧ words + regions < 65536 ∧ words < 0x8000

/-- Where the item variation store at `p` has its record number `outer`. -/
def ItemRecordAt (d : Data) (p outer a : Nat) : Prop :=
  ∃ n offset, U16 d (p + 6) n ∧ outer < n ∧ U32 d (p + 8 + 4 * outer) offset ∧ a = p + offset

/-! ## Programs -/

/-- A number of so many bits as two's complement. -/
def signed (bits n : Nat) : Int := if n < 2 ^ (bits - 1) then n else n - 2 ^ bits

/-- The correction of a device for a size. -/
def sizeDelta (t : correction.Device) (size : Nat) : Except Err (Option Int) :=
  if t.start_size ≤ size ∧ size ≤ t.end_size then do
    let bits := 2 ^ t.format
    let k := size - t.start_size
    let word ← element t.deltas (k / (16 / bits))
    return some (signed bits ((word >>> (16 - bits * (k % (16 / bits) + 1))) % 2 ^ bits))
  else .ok none

/-- The region and the delta for an item and number `r` of the regions of a record. -/
def itemDelta (t : item.Record) (item r : Nat) : Except Err (Option (Nat × Int)) :=
  if item < t.item_count ∧ r < t.region_count then do
    let region ← element t.region_indices r
    let row := item * (t.short_delta_count + t.region_count)
    if r < t.short_delta_count then
      let high ← element t.deltas (row + 2 * r)
      let low ← element t.deltas (row + 2 * r + 1)
      return some (region, signed 16 (256 * high + low))
    else
      let byte ← element t.deltas (row + 2 * t.short_delta_count + (r - t.short_delta_count))
      return some (region, signed 8 byte)
  else .ok none

/-- The same in a store. -/
def storeDelta (t : item.Store) (outer inner r : Nat) : Except Err (Option (Nat × Int)) :=
  match t.records[outer]? with
  | some record => itemDelta record inner r
  | none => .ok none

end OpenType.Spec
