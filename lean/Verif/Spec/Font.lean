import Verif.Model.Font
import Verif.Spec.Basic
/-! # Specification: files and table directories -/

namespace OpenType.Spec
open OpenType offsets

/-- The record of a table, sixteen bytes: tag, checksum, offset and length. -/
def IsOffsetsRecord (d : Data) (p : Nat) (t : offsets.Record) : Prop :=
  U32 d p t.tag ∧ U32 d (p + 4) t.checksum ∧ U32 d (p + 8) t.offset ∧ U32 d (p + 12) t.size

/-- The table directory: twelve bytes, the first four being an accepted format tag, and the records. -/
def IsOffsets (accept : Tag → Bool) (d : Data) (p : Nat) (t : Offsets) : Prop :=
  U32 d p t.header.version ∧ accept t.header.version = true ∧
    U16 d (p + 4) t.header.table_count ∧ U16 d (p + 6) t.header.search_range ∧
    U16 d (p + 8) t.header.entry_selector ∧ U16 d (p + 10) t.header.range_shift ∧
    ArrayOf (IsOffsetsRecord d) 16 (p + 12) t.header.table_count t.records

/-- `record` is the first of `records` with the tag. -/
def FirstWith (tag : Tag) (records : List offsets.Record) (record : offsets.Record) : Prop :=
  ∃ before after, records = before ++ record :: after ∧ record.tag = tag ∧
    ∀ other ∈ before, other.tag ≠ tag

/-- No record has the tag. -/
def NoneWith (tag : Tag) (records : List offsets.Record) : Prop := ∀ record ∈ records, record.tag ≠ tag

/-- The four bytes that name a table in a directory, in ASCII. -/
def tableName : TableType → Data
  | .fontSet => [0x43, 0x46, 0x46, 0x20] -- `CFF `
  | .colorPalettes => [0x43, 0x50, 0x41, 0x4C] -- `CPAL`
  | .glyphDefinition => [0x47, 0x44, 0x45, 0x46] -- `GDEF`
  | .glyphPositioning => [0x47, 0x50, 0x4F, 0x53] -- `GPOS`
  | .glyphSubstitution => [0x47, 0x53, 0x55, 0x42] -- `GSUB`
  | .windowsMetrics => [0x4F, 0x53, 0x2F, 0x32] -- `OS/2`
  | .characterMapping => [0x63, 0x6D, 0x61, 0x70] -- `cmap`
  | .fontVariations => [0x66, 0x76, 0x61, 0x72] -- `fvar`
  | .glyphData => [0x67, 0x6C, 0x79, 0x66] -- `glyf`
  | .fontHeader => [0x68, 0x65, 0x61, 0x64] -- `head`
  | .horizontalHeader => [0x68, 0x68, 0x65, 0x61] -- `hhea`
  | .horizontalMetrics => [0x68, 0x6D, 0x74, 0x78] -- `hmtx`
  | .glyphMapping => [0x6C, 0x6F, 0x63, 0x61] -- `loca`
  | .maximumProfile => [0x6D, 0x61, 0x78, 0x70] -- `maxp`
  | .names => [0x6E, 0x61, 0x6D, 0x65] -- `name`
  | .postScript => [0x70, 0x6F, 0x73, 0x74] -- `post`
  | .custom a b c d => [a, b, c, d]

/-- The type is one of the sixteen that the library provides. -/
def Provided : TableType → Prop
  | .custom _ _ _ _ => False
  | _ => True

end OpenType.Spec
