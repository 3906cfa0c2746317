import Verif.Spec.Correct
import Verif.Spec.Gpos
/-!
# Specification: distances at a size and in a variation

How far the bytes of value records and anchors move glyphs at a size in pixels and at a place in the space of variations, and the
programs with which a user of the crate finds it out from the values that are read. The place is given by a weight for each region,
in 16384ths. A distance has two parts: one in 16384ths of a unit of the font, and one in pixels.
-/

namespace OpenType.Spec
open OpenType

/-! ## In bytes -/

/-- The deltas for an item of the first `n` regions of the item variation record at `a`, times the weights of the regions, sum up to
`c`. -/
def Weighted (d : Data) (a item : Nat) (weight : Nat → Int) : Nat → Int → Prop
  | 0, c => c = 0
  | n + 1, c => ∃ c' region x, Weighted d a item weight n c' ∧ ItemDelta d a item n region x ∧ c = c' + weight region * x

/-- The item variation store at `s` has `c` for two indices: the sum over all regions of the record, if there is such a record and
it has such an item, and nothing otherwise. -/
def Varied (d : Data) (s outer inner : Nat) (weight : Nat → Int) (c : Int) : Prop :=
  (∃ a items regions, ItemRecordAt d s outer a ∧ U16 d a items ∧ U16 d (a + 4) regions ∧ inner < items ∧
    Weighted d a inner weight regions c) ∨
  ((¬∃ a items, ItemRecordAt d s outer a ∧ U16 d a items ∧ inner < items) ∧ c = 0)

/-- The correction at `a` is by `units` and `pixels`: what a device has for the size, if it has something, or what the store, if there
is one, has for the two indices. -/
def CorrectedBy (d : Data) (s : Option Nat) (a size : Nat) (weight : Nat → Int) (units pixels : Int) : Prop :=
  (∃ format, U16 d (a + 4) format ∧ 1 ≤ format ∧ format ≤ 3 ∧ units = 0 ∧
    (SizeDelta d a size pixels ∨
      ((∀ first last, U16 d a first → U16 d (a + 2) last → ¬(first ≤ size ∧ size ≤ last)) ∧ pixels = 0))) ∨
  (U16 d (a + 4) 0x8000 ∧ pixels = 0 ∧ ∃ outer inner, U16 d a outer ∧ U16 d (a + 2) inner ∧
    match s with
    | none => units = 0
    | some s => Varied d s outer inner weight units)

/-- What is at the offset from `base`, nothing if it is zero. -/
def OffsetCorrects (d : Data) (s : Option Nat) (base offset size : Nat) (weight : Nat → Int) (units pixels : Int) : Prop :=
  (offset = 0 ∧ units = 0 ∧ pixels = 0) ∨ (offset ≠ 0 ∧ CorrectedBy d s (base + offset) size weight units pixels)

/-- What a value record is about. -/
inductive Measure where
  | xPlacement | yPlacement | xAdvance | yAdvance
deriving DecidableEq

/-- The bit of the flags for a measure. That of the correction is four further. -/
def Measure.bit : Measure → Nat
  | .xPlacement => 0
  | .yPlacement => 1
  | .xAdvance => 2
  | .yAdvance => 3

/-- The value record with these flags at `p`, the corrections of which count from `base`. -/
def MeasuresTo (d : Data) (s : Option Nat) (base flags p : Nat) (m : Measure) (size : Nat) (weight : Nat → Int) (units pixels : Int) :
    Prop :=
  ∃ stored more,
    (if flags.testBit m.bit then I16 d (p + 2 * gpos.bitsBelow flags m.bit) stored else stored = 0) ∧
    (if flags.testBit (m.bit + 4) then
      ∃ offset, U16 d (p + 2 * gpos.bitsBelow flags (m.bit + 4)) offset ∧ OffsetCorrects d s base offset size weight more pixels
    else more = 0 ∧ pixels = 0) ∧
    units = 16384 * stored + more

/-- The horizontal or vertical coordinate of the anchor at `p`. -/
def AnchorsAt (d : Data) (s : Option Nat) (p : Nat) (vertical : Bool) (size : Nat) (weight : Nat → Int) (units pixels : Int) : Prop :=
  ∃ format stored more, U16 d p format ∧ I16 d (p + if vertical then 4 else 2) stored ∧
    (if format = 3 then
      ∃ offset, U16 d (p + if vertical then 8 else 6) offset ∧ OffsetCorrects d s p offset size weight more pixels
    else more = 0 ∧ pixels = 0) ∧
    units = 16384 * stored + more

/-! ## Programs -/

/-- The sum of the first deltas of an item. -/
def sumDeltas (t : item.Record) (item : Nat) (weight : Nat → Int) : Nat → Except Err Int
  | 0 => .ok 0
  | n + 1 => do
    let c ← sumDeltas t item weight n
    match ← itemDelta t item n with
    | some (region, x) => return c + weight region * x
    | none => return c

/-- What a store has for two indices. -/
def vary (t : item.Store) (outer inner : Nat) (weight : Nat → Int) : Except Err Int :=
  match t.records[outer]? with
  | none => .ok 0
  | some record => if inner < record.item_count then sumDeltas record inner weight record.region_count else .ok 0

/-- By how much a correction corrects. -/
def correctBy (store : Option item.Store) (size : Nat) (weight : Nat → Int) : Option correction.Correction → Except Err (Int × Int)
  | none => .ok (0, 0)
  | some (.device t) => do return (0, (← sizeDelta t size).getD 0)
  | some (.variation t) =>
    match store with
    | none => .ok (0, 0)
    | some store => do return (← vary store t.outer_index t.inner_index weight, 0)

/-- A number with its correction. -/
def amend (store : Option item.Store) (size : Nat) (weight : Nat → Int) (stored : Int) (x : Option correction.Correction) :
    Except Err (Int × Int) := do
  let (units, pixels) ← correctBy store size weight x
  return (16384 * stored + units, pixels)

/-- A measure of a value record. -/
def measure (store : Option item.Store) (size : Nat) (weight : Nat → Int) (t : gpos.Single) : Measure → Except Err (Int × Int)
  | .xPlacement => amend store size weight (t.x_placement.getD 0) t.x_placement_correction
  | .yPlacement => amend store size weight (t.y_placement.getD 0) t.y_placement_correction
  | .xAdvance => amend store size weight (t.x_advance.getD 0) t.x_advance_correction
  | .yAdvance => amend store size weight (t.y_advance.getD 0) t.y_advance_correction

/-- A coordinate of an anchor. -/
def coordinate (store : Option item.Store) (size : Nat) (weight : Nat → Int) (vertical : Bool) : gpos.Anchor → Except Err (Int × Int)
  | .format1 t => amend store size weight (if vertical then t.y else t.x) none
  | .format2 t => amend store size weight (if vertical then t.y else t.x) none
  | .format3 t => amend store size weight (if vertical then t.y else t.x) (if vertical then t.y_correction else t.x_correction)

end OpenType.Spec
