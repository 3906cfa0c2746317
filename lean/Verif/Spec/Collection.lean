import Verif.Spec.FontFile
/-!
# Specification: writing a collection of fonts

How OpenType writes several fonts into one file: a header with the places of their table directories, these
directories, and then the tables. All offsets count from the beginning of the file, so that fonts may share tables.
Nothing here mentions readers.
-/

namespace OpenType.Spec
open OpenType

/-- A font of a collection: its format tag, three numbers nobody needs, and for each of its tables the tag and the
number of the table in the list of all tables of the collection. -/
structure Member where
  version : Nat
  searchRange : Nat
  entrySelector : Nat
  rangeShift : Nat
  tables : List (Tag × Nat)

/-- The size of the directory of a font. -/
def Member.size (member : Member) : Nat := 12 + 16 * member.tables.length

/-- Where the directory of font `i` is: behind the header and the directories before it. -/
def memberOffset (members : List Member) (i : Nat) : Nat :=
  12 + 4 * members.length + ((members.take i).map Member.size).sum

/-- Where table `k` is: behind all directories and the tables before it. -/
def poolOffset (members : List Member) (pool : List Data) (k : Nat) : Nat :=
  memberOffset members members.length + ((pool.take k).flatMap pad).length

/-- The record of a table in the directory of a font. -/
def memberRecord (members : List Member) (pool : List Data) (table : Tag × Nat) : offsets.Record :=
  let body := pool.getD table.2 []
  ⟨table.1, checksumOf table.1 body, poolOffset members pool table.2, body.length⟩

/-- The directory of a font. -/
def memberDirectory (members : List Member) (pool : List Data) (member : Member) : Font :=
  ⟨⟨⟨member.version, member.tables.length, member.searchRange, member.entrySelector, member.rangeShift⟩,
    member.tables.map (memberRecord members pool)⟩⟩

/-- A table directory in bytes. -/
def encDirectory (directory : offsets.Offsets) : Data :=
  enc32 directory.header.version ++ enc16 directory.header.table_count ++ enc16 directory.header.search_range ++
    enc16 directory.header.entry_selector ++ enc16 directory.header.range_shift ++
    directory.records.flatMap encRecord

/-- The file: `ttcf`, version 1.0, the number of the fonts, the places of their directories, the directories, and the
tables, each padded to a multiple of four bytes. -/
def collectionFile (members : List Member) (pool : List Data) : Data :=
  enc32 0x74746366 ++ enc16 1 ++ enc16 0 ++ enc32 members.length ++
    enc32s ((List.range members.length).map (memberOffset members)) ++
    members.flatMap (fun member => encDirectory (memberDirectory members pool member).offsets) ++
    pool.flatMap pad

end OpenType.Spec
