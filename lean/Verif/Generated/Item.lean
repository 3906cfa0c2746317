import Verif.Model.Item
/-!
# Generated by `tools/translate.py` from the source: do not edit

Each definition is the translation of the code at the lines given, and each theorem says that the definition
of the model written by hand is the same.
-/

set_option linter.unusedVariables false

namespace OpenType.Generated

namespace item
/-- `src/variations/item.rs:21-37`. -/
def Record.read (cfg : Cfg) : Reader item.Record := do
  let item_count ← u16
  let short_delta_count ← u16
  let region_count ← u16
  let region_indices ← takeVec u16 region_count
  let per_item_count ← item.addU16 cfg short_delta_count region_count
  let t2 ← mulUsize item_count per_item_count
  let deltas ← takeVec u8 t2
  return { item_count, short_delta_count, region_count, region_indices, deltas }

/-- The model of `src/variations/item.rs:21-37` is its translation. -/
theorem Record.read_eq : @Record.read = @OpenType.item.Record.read := rfl
end item

namespace item
/-- `src/variations/item.rs:3-19`. -/
def Store.read (cfg : Cfg) : Reader item.Store := do
  let position ← position
  let format ← expectU16 1
  let region_offset ← u32
  let count ← u16
  let offsets ← takeVec u32 count
  let records ← jumpTakeN position count offsets (Record.read cfg)
  return { format, region_offset, count, offsets, records }

/-- The model of `src/variations/item.rs:3-19` is its translation. -/
theorem Store.read_eq : @Store.read = @OpenType.item.Store.read := by
  delta Store.read OpenType.item.Store.read
  simp only [Record.read_eq] <;> rfl
end item

end OpenType.Generated
