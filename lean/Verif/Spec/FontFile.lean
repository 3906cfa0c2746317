import Verif.Model.Font
import Verif.Spec.Encode
/-!
# Specification: writing a font file

How OpenType writes a file of tables: the table directory, with one record for each table, and then the tables,
each padded with zeros to a multiple of four bytes. Nothing here mentions readers.
-/

namespace OpenType.Spec
open OpenType

/-- Zeros up to a multiple of four bytes. -/
def pad (body : Data) : Data := body ++ List.replicate ((4 - body.length % 4) % 4) 0

/-- The 32-bit words of the bytes, the highest byte first. -/
def words : Data → List Nat
  | a :: b :: c :: e :: rest =>
    (a.toNat * 16777216 + b.toNat * 65536 + c.toNat * 256 + e.toNat) :: words rest
  | _ => []

/-- The checksum of a table: the sum of its words modulo `2^32`; the third word of `head`, the adjustment of the
checksum of the whole file, counts as zero. -/
def checksumOf (tag : Tag) (body : Data) : Nat :=
  (if tag = 0x68656164 then (words (pad body)).set 2 0 else words (pad body)).sum % 4294967296

/-- The records of the tables, the first of which is at `offset`. -/
def recordsFrom (offset : Nat) : List (Tag × Data) → List offsets.Record
  | [] => []
  | (tag, body) :: tables =>
    ⟨tag, checksumOf tag body, offset, body.length⟩ :: recordsFrom (offset + (pad body).length) tables

/-- Where the first table is. -/
def tablesOffset (tables : List (Tag × Data)) : Nat := 12 + 16 * tables.length

/-- The table directory of the file. -/
def directoryOf (version searchRange entrySelector rangeShift : Nat) (tables : List (Tag × Data)) : Font :=
  ⟨⟨⟨version, tables.length, searchRange, entrySelector, rangeShift⟩, recordsFrom (tablesOffset tables) tables⟩⟩

/-- A record, sixteen bytes. -/
def encRecord (record : offsets.Record) : Data :=
  enc32 record.tag ++ enc32 record.checksum ++ enc32 record.offset ++ enc32 record.size

/-- The file. -/
def fontFile (version searchRange entrySelector rangeShift : Nat) (tables : List (Tag × Data)) : Data :=
  enc32 version ++ enc16 tables.length ++ enc16 searchRange ++ enc16 entrySelector ++ enc16 rangeShift ++
    (recordsFrom (tablesOffset tables) tables).flatMap encRecord ++ tables.flatMap fun table => pad table.2

end OpenType.Spec
