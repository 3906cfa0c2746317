import Verif.Model.Gdef
import Verif.Generated.Layout
import Verif.Generated.Item
/-!
# Generated by `tools/translate.py` from the source: do not edit

Each definition is the translation of the code at the lines given, and each theorem says that the definition
of the model written by hand is the same.
-/

set_option linter.unusedVariables false

namespace OpenType.Generated

namespace gdef
/-- `src/tables/glyph_definition/element.rs:4-13`. -/
def Attachment.read : Reader gdef.Attachment := do
  let index_count ← u16
  let indices ← takeVec u16 index_count
  return { index_count, indices }

/-- The model of `src/tables/glyph_definition/element.rs:4-13` is its translation. -/
theorem Attachment.read_eq : @Attachment.read = @OpenType.gdef.Attachment.read := rfl
end gdef

namespace gdef
/-- `src/tables/glyph_definition/element.rs:15-34`. -/
def Attachments.read : Reader gdef.Attachments := do
  let position ← position
  let coverage_offset ← u16
  let count ← u16
  let offsets ← takeVec u16 count
  let coverage ← jumpTake position coverage_offset Generated.coverage.Coverage.read
  let records ← jumpTakeN position count offsets Attachment.read
  return { coverage_offset, count, offsets, coverage, records }

/-- The model of `src/tables/glyph_definition/element.rs:15-34` is its translation. -/
theorem Attachments.read_eq : @Attachments.read = @OpenType.gdef.Attachments.read := by
  delta Attachments.read OpenType.gdef.Attachments.read
  simp only [Attachment.read_eq, Generated.coverage.Coverage.read_eq] <;> rfl
end gdef

namespace gdef
/-- `src/tables/glyph_definition/element.rs:47-54`. -/
def Caret1.read : Reader gdef.Caret1 := do
  let format ← u16
  let coordinate ← i16
  return { format, coordinate }

/-- The model of `src/tables/glyph_definition/element.rs:47-54` is its translation. -/
theorem Caret1.read_eq : @Caret1.read = @OpenType.gdef.Caret1.read := rfl
end gdef

namespace gdef
/-- `src/tables/glyph_definition/element.rs:56-63`. -/
def Caret2.read : Reader gdef.Caret2 := do
  let format ← u16
  let index ← u16
  return { format, index }

/-- The model of `src/tables/glyph_definition/element.rs:56-63` is its translation. -/
theorem Caret2.read_eq : @Caret2.read = @OpenType.gdef.Caret2.read := rfl
end gdef

namespace gdef
/-- `src/tables/glyph_definition/element.rs:65-77`. -/
def Caret3.read : Reader gdef.Caret3 := do
  let position ← position
  let format ← u16
  let coordinate ← i16
  let correction_offset ← u16
  let correction ← jumpTake position correction_offset Generated.correction.Correction.read
  return { format, coordinate, correction_offset, correction }

/-- The model of `src/tables/glyph_definition/element.rs:65-77` is its translation. -/
theorem Caret3.read_eq : @Caret3.read = @OpenType.gdef.Caret3.read := by
  delta Caret3.read OpenType.gdef.Caret3.read
  simp only [Generated.correction.Correction.read_eq] <;> rfl
end gdef

namespace gdef
/-- `src/tables/glyph_definition/element.rs:133-142`. -/
def Caret.read : Reader gdef.Caret := do
  let t1 ← peek u32
  match t1 with
  | 1 => do
      let t2 ← Caret1.read
      pure (.format1 t2)
  | 2 => do
      let t3 ← Caret2.read
      pure (.format2 t3)
  | 3 => do
      let t4 ← Caret3.read
      pure (.format3 t4)
  | _ => raise "found an unknown format of the caret-value table"

/-- The model of `src/tables/glyph_definition/element.rs:133-142` is its translation. -/
theorem Caret.read_eq : @Caret.read = @OpenType.gdef.Caret.read := by
  delta Caret.read OpenType.gdef.Caret.read
  simp only [Caret1.read_eq, Caret2.read_eq, Caret3.read_eq] <;> rfl
end gdef

namespace gdef
/-- `src/tables/glyph_definition/element.rs:79-93`. -/
def Ligature.read : Reader gdef.Ligature := do
  let position ← position
  let caret_count ← u16
  let caret_offsets ← takeVec u16 caret_count
  let carets ← jumpTakeN position caret_count caret_offsets Caret.read
  return { caret_count, caret_offsets, carets }

/-- The model of `src/tables/glyph_definition/element.rs:79-93` is its translation. -/
theorem Ligature.read_eq : @Ligature.read = @OpenType.gdef.Ligature.read := by
  delta Ligature.read OpenType.gdef.Ligature.read
  simp only [Caret.read_eq] <;> rfl
end gdef

namespace gdef
/-- `src/tables/glyph_definition/element.rs:95-114`. -/
def Ligatures.read : Reader gdef.Ligatures := do
  let position ← position
  let coverage_offset ← u16
  let count ← u16
  let offsets ← takeVec u16 count
  let coverage ← jumpTake position coverage_offset Generated.coverage.Coverage.read
  let records ← jumpTakeN position count offsets Ligature.read
  return { coverage_offset, count, offsets, coverage, records }

/-- The model of `src/tables/glyph_definition/element.rs:95-114` is its translation. -/
theorem Ligatures.read_eq : @Ligatures.read = @OpenType.gdef.Ligatures.read := by
  delta Ligatures.read OpenType.gdef.Ligatures.read
  simp only [Generated.coverage.Coverage.read_eq, Ligature.read_eq] <;> rfl
end gdef

namespace gdef
/-- `src/tables/glyph_definition/element.rs:116-131`. -/
def Marks.read : Reader gdef.Marks := do
  let position ← position
  let format ← expectU16 1
  let count ← u16
  let coverage_offsets ← takeVec u32 count
  let coverages ← jumpTakeN position count coverage_offsets Generated.coverage.Coverage.read
  return { format, count, coverage_offsets, coverages }

/-- The model of `src/tables/glyph_definition/element.rs:116-131` is its translation. -/
theorem Marks.read_eq : @Marks.read = @OpenType.gdef.Marks.read := by
  delta Marks.read OpenType.gdef.Marks.read
  simp only [Generated.coverage.Coverage.read_eq] <;> rfl
end gdef

namespace gdef
/-- `src/tables/glyph_definition/mod.rs:94-105`. -/
def Header1.read : Reader gdef.Header1 := do
  let major_version ← expectU16 1
  let minor_version ← expectU16 0
  let glyph_class_offset ← u16
  let attachment_offset ← u16
  let ligature_offset ← u16
  let mark_class_offset ← u16
  return { major_version, minor_version, glyph_class_offset, attachment_offset, ligature_offset, mark_class_offset }

/-- The model of `src/tables/glyph_definition/mod.rs:94-105` is its translation. -/
theorem Header1.read_eq : @Header1.read = @OpenType.gdef.Header1.read := rfl
end gdef

namespace gdef
/-- `src/tables/glyph_definition/mod.rs:107-119`. -/
def Header12.read : Reader gdef.Header12 := do
  let major_version ← expectU16 1
  let minor_version ← expectU16 2
  let glyph_class_offset ← u16
  let attachment_offset ← u16
  let ligature_offset ← u16
  let mark_class_offset ← u16
  let mark_offset ← u16
  return { major_version, minor_version, glyph_class_offset, attachment_offset, ligature_offset, mark_class_offset, mark_offset }

/-- The model of `src/tables/glyph_definition/mod.rs:107-119` is its translation. -/
theorem Header12.read_eq : @Header12.read = @OpenType.gdef.Header12.read := rfl
end gdef

namespace gdef
/-- `src/tables/glyph_definition/mod.rs:121-134`. -/
def Header13.read : Reader gdef.Header13 := do
  let major_version ← expectU16 1
  let minor_version ← expectU16 3
  let glyph_class_offset ← u16
  let attachment_offset ← u16
  let ligature_offset ← u16
  let mark_class_offset ← u16
  let mark_offset ← u16
  let variation_offset ← u32
  return { major_version, minor_version, glyph_class_offset, attachment_offset, ligature_offset, mark_class_offset, mark_offset, variation_offset }

/-- The model of `src/tables/glyph_definition/mod.rs:121-134` is its translation. -/
theorem Header13.read_eq : @Header13.read = @OpenType.gdef.Header13.read := rfl
end gdef

namespace gdef
/-- `src/tables/glyph_definition/mod.rs:143-152`. -/
def Header.read : Reader gdef.Header := do
  let t1 ← peek u32
  match t1 with
  | 65536 => do
      let t2 ← Header1.read
      pure (.version1 t2)
  | 65538 => do
      let t3 ← Header12.read
      pure (.version12 t3)
  | 65539 => do
      let t4 ← Header13.read
      pure (.version13 t4)
  | _ => raise "found an unknown format of the glyph definition"

/-- The model of `src/tables/glyph_definition/mod.rs:143-152` is its translation. -/
theorem Header.read_eq : @Header.read = @OpenType.gdef.Header.read := by
  delta Header.read OpenType.gdef.Header.read
  simp only [Header1.read_eq, Header12.read_eq, Header13.read_eq] <;> rfl
end gdef

namespace gdef
/-- `src/tables/glyph_definition/mod.rs:27-81`. -/
def GlyphDefinition.read (cfg : Cfg) : Reader gdef.GlyphDefinition := do
  let position ← position
  let header ← Header.read
  let glyph_class ← jumpTakeMaybe position (match header with
      | .version1 table => table.glyph_class_offset
      | .version12 table => table.glyph_class_offset
      | .version13 table => table.glyph_class_offset) Generated.class_.Class.read
  let attachments ← jumpTakeMaybe position (match header with
      | .version1 table => table.attachment_offset
      | .version12 table => table.attachment_offset
      | .version13 table => table.attachment_offset) Attachments.read
  let ligatures ← jumpTakeMaybe position (match header with
      | .version1 table => table.ligature_offset
      | .version12 table => table.ligature_offset
      | .version13 table => table.ligature_offset) Ligatures.read
  let mark_class ← jumpTakeMaybe position (match header with
      | .version1 table => table.mark_class_offset
      | .version12 table => table.mark_class_offset
      | .version13 table => table.mark_class_offset) Generated.class_.Class.read
  let marks ← jumpTakeMaybe position (match header with
      | .version12 table => table.mark_offset
      | .version13 table => table.mark_offset
      | _ => 0) Marks.read
  let variations ← jumpTakeMaybe position (match header with
      | .version13 table => table.mark_offset
      | _ => 0) (Generated.item.Store.read cfg)
  return { header, glyph_class, attachments, ligatures, mark_class, marks, variations }

/-- The model of `src/tables/glyph_definition/mod.rs:27-81` is its translation. -/
theorem GlyphDefinition.read_eq : @GlyphDefinition.read = @OpenType.gdef.GlyphDefinition.read := by
  delta GlyphDefinition.read OpenType.gdef.GlyphDefinition.read
  simp only [Attachments.read_eq, Generated.class_.Class.read_eq, Generated.item.Store.read_eq, Header.read_eq, Ligatures.read_eq, Marks.read_eq] <;> rfl
end gdef

namespace gdef
/-- `src/tables/glyph_definition/mod.rs:136-141`. -/
def Header.default : gdef.Header := (.version1 { major_version := 0, minor_version := 0, glyph_class_offset := 0, attachment_offset := 0, ligature_offset := 0, mark_class_offset := 0 })

/-- The model of `src/tables/glyph_definition/mod.rs:136-141` is its translation. -/
theorem Header.default_eq : @Header.default = @OpenType.gdef.Header.default := rfl
end gdef

end OpenType.Generated
