import Verif.Model.Gpos
import Verif.Model.Gdef
/-! # The `Default` implementations written out in the code

`Default` of a structure is derived by `table!`: numbers are zero, vectors are empty and options are `None`. That of
`Anchor` is in `Model/Gpos.lean`, those of the lists of a directory are in `Model/Lists.lean`. -/

namespace OpenType

/-- `src/layout/coverage.rs:50-55`. -/
def coverage.Coverage.default : coverage.Coverage := .format1 { format := 0, glyph_count := 0, glyph_ids := [] }

/-- `src/layout/class.rs:51-56`. -/
def class_.Class.default : class_.Class :=
  .format1 { format := 0, start_glyph_id := 0, glyph_count := 0, indices := [] }

/-- `src/layout/correction.rs:44-49`. -/
def correction.Correction.default : correction.Correction :=
  .device { start_size := 0, end_size := 0, format := 0, deltas := [] }

/-- `src/tables/glyph_definition/mod.rs:136-141`. -/
def gdef.Header.default : gdef.Header :=
  .version1 { major_version := 0, minor_version := 0, glyph_class_offset := 0, attachment_offset := 0,
              ligature_offset := 0, mark_class_offset := 0 }

end OpenType
