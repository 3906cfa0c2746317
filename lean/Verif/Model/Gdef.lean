import Verif.Model.Layout
import Verif.Model.Item
/-! # `src/tables/glyph_definition/{element,mod}.rs` -/

namespace OpenType.gdef
open coverage class_ correction

/-- `src/tables/glyph_definition/element.rs:4-13`. -/
structure Attachment where
  index_count : Nat
  indices : List Nat
deriving DecidableEq, Repr

/-- `src/tables/glyph_definition/element.rs:4-13`. -/
def Attachment.read : Reader Attachment := do
  let index_count ← u16
  let indices ← takeVec u16 index_count
  return { index_count, indices }

/-- `src/tables/glyph_definition/element.rs:15-34`. -/
structure Attachments where
  coverage_offset : Nat
  count : Nat
  offsets : List Nat
  coverage : Coverage
  records : List Attachment
deriving DecidableEq, Repr

/-- `src/tables/glyph_definition/element.rs:15-34`. -/
def Attachments.read : Reader Attachments := do
  let position ← position
  let coverage_offset ← u16
  let count ← u16
  let offsets ← takeVec u16 count
  let coverage ← jumpTake position coverage_offset Coverage.read
  let records ← jumpTakeN position count offsets Attachment.read
  return { coverage_offset, count, offsets, coverage, records }

/-- `src/tables/glyph_definition/element.rs:47-54`. -/
structure Caret1 where
  format : Nat
  coordinate : Int
deriving DecidableEq, Repr

/-- `src/tables/glyph_definition/element.rs:47-54`. -/
def Caret1.read : Reader Caret1 := do
  let format ← u16
  let coordinate ← i16
  return { format, coordinate }

/-- `src/tables/glyph_definition/element.rs:56-63`. -/
structure Caret2 where
  format : Nat
  index : Nat
deriving DecidableEq, Repr

/-- `src/tables/glyph_definition/element.rs:56-63`. -/
def Caret2.read : Reader Caret2 := do
  let format ← u16
  let index ← u16
  return { format, index }

/-- `src/tables/glyph_definition/element.rs:65-77`. -/
structure Caret3 where
  format : Nat
  coordinate : Int
  correction_offset : Nat
  correction : Correction
deriving DecidableEq, Repr

/-- `src/tables/glyph_definition/element.rs:65-77`. -/
def Caret3.read : Reader Caret3 := do
  let position ← position
  let format ← u16
  let coordinate ← i16
  let correction_offset ← u16
  let correction ← jumpTake position correction_offset Correction.read
  return { format, coordinate, correction_offset, correction }

/-- `src/tables/glyph_definition/element.rs:36-45`. -/
inductive Caret where
  | format1 (table : Caret1)
  | format2 (table : Caret2)
  | format3 (table : Caret3)
deriving DecidableEq, Repr

/-- `src/tables/glyph_definition/element.rs:133-142`. The code peeks a `u32`, not a `u16`. -/
def Caret.read : Reader Caret := do
  match ← peek u32 with
  | 1 => return .format1 (← Caret1.read)
  | 2 => return .format2 (← Caret2.read)
  | 3 => return .format3 (← Caret3.read)
  | _ => raise "found an unknown format of the caret-value table"

/-- `src/tables/glyph_definition/element.rs:79-93`. -/
structure Ligature where
  caret_count : Nat
  caret_offsets : List Nat
  carets : List Caret
deriving DecidableEq, Repr

/-- `src/tables/glyph_definition/element.rs:79-93`. -/
def Ligature.read : Reader Ligature := do
  let position ← position
  let caret_count ← u16
  let caret_offsets ← takeVec u16 caret_count
  let carets ← jumpTakeN position caret_count caret_offsets Caret.read
  return { caret_count, caret_offsets, carets }

/-- `src/tables/glyph_definition/element.rs:95-114`. -/
structure Ligatures where
  coverage_offset : Nat
  count : Nat
  offsets : List Nat
  coverage : Coverage
  records : List Ligature
deriving DecidableEq, Repr

/-- `src/tables/glyph_definition/element.rs:95-114`. -/
def Ligatures.read : Reader Ligatures := do
  let position ← position
  let coverage_offset ← u16
  let count ← u16
  let offsets ← takeVec u16 count
  let coverage ← jumpTake position coverage_offset Coverage.read
  let records ← jumpTakeN position count offsets Ligature.read
  return { coverage_offset, count, offsets, coverage, records }

/-- `src/tables/glyph_definition/element.rs:116-131`. -/
structure Marks where
  format : Nat
  count : Nat
  coverage_offsets : List Nat
  coverages : List Coverage
deriving DecidableEq, Repr

/-- `src/tables/glyph_definition/element.rs:116-131`. -/
def Marks.read : Reader Marks := do
  let position ← position
  let format ← expectU16 1
  let count ← u16
  let coverage_offsets ← takeVec u32 count
  let coverages ← jumpTakeN position count coverage_offsets Coverage.read
  return { format, count, coverage_offsets, coverages }

/-- `src/tables/glyph_definition/mod.rs:94-105`. -/
structure Header1 where
  major_version : Nat
  minor_version : Nat
  glyph_class_offset : Nat
  attachment_offset : Nat
  ligature_offset : Nat
  mark_class_offset : Nat
deriving DecidableEq, Repr

/-- `src/tables/glyph_definition/mod.rs:94-105`. -/
def Header1.read : Reader Header1 := do
  let major_version ← expectU16 1
  let minor_version ← expectU16 0
  let glyph_class_offset ← u16
  let attachment_offset ← u16
  let ligature_offset ← u16
  let mark_class_offset ← u16
  return { major_version, minor_version, glyph_class_offset, attachment_offset, ligature_offset,
           mark_class_offset }

/-- `src/tables/glyph_definition/mod.rs:107-119`. -/
structure Header12 where
  major_version : Nat
  minor_version : Nat
  glyph_class_offset : Nat
  attachment_offset : Nat
  ligature_offset : Nat
  mark_class_offset : Nat
  mark_offset : Nat
deriving DecidableEq, Repr

/-- `src/tables/glyph_definition/mod.rs:107-119`. -/
def Header12.read : Reader Header12 := do
  let major_version ← expectU16 1
  let minor_version ← expectU16 2
  let glyph_class_offset ← u16
  let attachment_offset ← u16
  let ligature_offset ← u16
  let mark_class_offset ← u16
  let mark_offset ← u16
  return { major_version, minor_version, glyph_class_offset, attachment_offset, ligature_offset,
           mark_class_offset, mark_offset }

/-- `src/tables/glyph_definition/mod.rs:121-134`. -/
structure Header13 where
  major_version : Nat
  minor_version : Nat
  glyph_class_offset : Nat
  attachment_offset : Nat
  ligature_offset : Nat
  mark_class_offset : Nat
  mark_offset : Nat
  variation_offset : Nat
deriving DecidableEq, Repr

/-- `src/tables/glyph_definition/mod.rs:121-134`. -/
def Header13.read : Reader Header13 := do
  let major_version ← expectU16 1
  let minor_version ← expectU16 3
  let glyph_class_offset ← u16
  let attachment_offset ← u16
  let ligature_offset ← u16
  let mark_class_offset ← u16
  let mark_offset ← u16
  let variation_offset ← u32
  return { major_version, minor_version, glyph_class_offset, attachment_offset, ligature_offset,
           mark_class_offset, mark_offset, variation_offset }

/-- `src/tables/glyph_definition/mod.rs:83-92`. -/
inductive Header where
  | version1 (table : Header1)
  | version12 (table : Header12)
  | version13 (table : Header13)
deriving DecidableEq, Repr

/-- `src/tables/glyph_definition/mod.rs:143-152`. -/
def Header.read : Reader Header := do
  match ← peek u32 with
  | 0x00010000 => return .version1 (← Header1.read)
  | 0x00010002 => return .version12 (← Header12.read)
  | 0x00010003 => return .version13 (← Header13.read)
  | _ => raise "found an unknown format of the glyph definition"

/-- `field!(this.header => glyph_class_offset, ..)`, `src/tables/glyph_definition/mod.rs:13-25,37`. -/
def Header.glyph_class_offset : Header → Nat
  | .version1 t => t.glyph_class_offset
  | .version12 t => t.glyph_class_offset
  | .version13 t => t.glyph_class_offset

/-- `field!(this.header => attachment_offset, ..)`, `src/tables/glyph_definition/mod.rs:13-25,45`. -/
def Header.attachment_offset : Header → Nat
  | .version1 t => t.attachment_offset
  | .version12 t => t.attachment_offset
  | .version13 t => t.attachment_offset

/-- `field!(this.header => ligature_offset, ..)`, `src/tables/glyph_definition/mod.rs:13-25,53`. -/
def Header.ligature_offset : Header → Nat
  | .version1 t => t.ligature_offset
  | .version12 t => t.ligature_offset
  | .version13 t => t.ligature_offset

/-- `field!(this.header => mark_class_offset, ..)`, `src/tables/glyph_definition/mod.rs:13-25,61`. -/
def Header.mark_class_offset : Header → Nat
  | .version1 t => t.mark_class_offset
  | .version12 t => t.mark_class_offset
  | .version13 t => t.mark_class_offset

/-- `field!(this.header => mark_offset(0), Header::{Version12, Version13})`,
`src/tables/glyph_definition/mod.rs:13-25,69`. -/
def Header.mark_offset : Header → Nat
  | .version12 t => t.mark_offset
  | .version13 t => t.mark_offset
  | _ => 0

/-- `field!(this.header => mark_offset(0), Header::{Version13})`, the offset used for the variation store,
`src/tables/glyph_definition/mod.rs:13-25,77`. The code names `mark_offset`, not `variation_offset`. -/
def Header.variations_offset : Header → Nat
  | .version13 t => t.mark_offset
  | _ => 0

/-- `src/tables/glyph_definition/mod.rs:27-81`. -/
structure GlyphDefinition where
  header : Header
  glyph_class : Option Class
  attachments : Option Attachments
  ligatures : Option Ligatures
  mark_class : Option Class
  marks : Option Marks
  variations : Option item.Store
deriving DecidableEq, Repr

/-- `src/tables/glyph_definition/mod.rs:27-81`. -/
def GlyphDefinition.read (cfg : Cfg) : Reader GlyphDefinition := do
  let position ← position
  let header ← Header.read
  let glyph_class ← jumpTakeMaybe position header.glyph_class_offset Class.read
  let attachments ← jumpTakeMaybe position header.attachment_offset Attachments.read
  let ligatures ← jumpTakeMaybe position header.ligature_offset Ligatures.read
  let mark_class ← jumpTakeMaybe position header.mark_class_offset Class.read
  let marks ← jumpTakeMaybe position header.mark_offset Marks.read
  let variations ← jumpTakeMaybe position header.variations_offset (item.Store.read cfg)
  return { header, glyph_class, attachments, ligatures, mark_class, marks, variations }

end OpenType.gdef
