import Verif.Prim
/-!
# `src/{file,font,table,lib}.rs`

Two functions come from outside of `/repo` and are parameters here, so that what is proved holds for every
choice of them: `truetype::accept`, which tells the accepted format tags of a table directory, and the
method `checksum` of `truetype`'s table-directory record, which computes the checksum of a table from the
tape. `truetype::tables::offsets::Offsets`, also external, is modelled from the OpenType specification of
the table directory.
-/

namespace OpenType

/-- A tag literal such as `b"GPOS"`. -/
def tag4 (a b c d : Char) : Tag := ((a.toNat * 256 + b.toNat) * 256 + c.toNat) * 256 + d.toNat

namespace offsets

/-- `truetype::tables::offsets::Header` (external; used in `src/font.rs:1`). -/
structure Header where
  version : Tag
  table_count : Nat
  search_range : Nat
  entry_selector : Nat
  range_shift : Nat
deriving DecidableEq, Repr

/-- `truetype::tables::offsets::Record` (external; used in `src/font.rs:36-42`). -/
structure Record where
  tag : Tag
  checksum : Nat
  offset : Nat
  size : Nat
deriving DecidableEq, Repr

/-- `truetype::tables::offsets::Offsets` (external; used in `src/font.rs:9`). -/
structure Offsets where
  header : Header
  records : List Record
deriving DecidableEq, Repr

/-- External. -/
def Header.read (accept : Tag → Bool) : Reader Header := do
  let version ← takeTag
  raiseIf (accept version = false) "found an unknown font format"
  let table_count ← u16
  let search_range ← u16
  let entry_selector ← u16
  let range_shift ← u16
  return { version, table_count, search_range, entry_selector, range_shift }

/-- External. -/
def Record.read : Reader Record := do
  let tag ← takeTag
  let checksum ← u32
  let offset ← u32
  let size ← u32
  return { tag, checksum, offset, size }

/-- External. -/
def Offsets.read (accept : Tag → Bool) : Reader Offsets := do
  let header ← Header.read accept
  let records ← takeVec Record.read header.table_count
  return { header, records }

end offsets

open offsets

/-- `src/table.rs:29-46`: the types implementing `Table`. The trait is public (`src/table.rs:12-16`), so there may be others,
with a tag of four bytes of their own choice: `custom`. -/
inductive TableType where
  | fontSet
  | colorPalettes
  | glyphDefinition
  | glyphPositioning
  | glyphSubstitution
  | windowsMetrics
  | characterMapping
  | fontVariations
  | glyphData
  | fontHeader
  | horizontalHeader
  | horizontalMetrics
  | glyphMapping
  | maximumProfile
  | names
  | postScript
  | custom (a b c d : UInt8)
deriving DecidableEq, Repr

/-- `src/table.rs:29-46`: `Table::tag`. -/
def TableType.tag : TableType → Tag
  | fontSet => tag4 'C' 'F' 'F' ' '
  | colorPalettes => tag4 'C' 'P' 'A' 'L'
  | glyphDefinition => tag4 'G' 'D' 'E' 'F'
  | glyphPositioning => tag4 'G' 'P' 'O' 'S'
  | glyphSubstitution => tag4 'G' 'S' 'U' 'B'
  | windowsMetrics => tag4 'O' 'S' '/' '2'
  | characterMapping => tag4 'c' 'm' 'a' 'p'
  | fontVariations => tag4 'f' 'v' 'a' 'r'
  | glyphData => tag4 'g' 'l' 'y' 'f'
  | fontHeader => tag4 'h' 'e' 'a' 'd'
  | horizontalHeader => tag4 'h' 'h' 'e' 'a'
  | horizontalMetrics => tag4 'h' 'm' 't' 'x'
  | glyphMapping => tag4 'l' 'o' 'c' 'a'
  | maximumProfile => tag4 'm' 'a' 'x' 'p'
  | names => tag4 'n' 'a' 'm' 'e'
  | postScript => tag4 'p' 'o' 's' 't'
  | custom a b c d => a.toNat * 16777216 + b.toNat * 65536 + c.toNat * 256 + d.toNat

/-- `src/lib.rs:60-64`. -/
def accept (truetypeAccept : Tag → Bool) (tag : Tag) : Bool :=
  tag == tag4 't' 't' 'c' 'f' || truetypeAccept tag

/-- `src/font.rs:6-10`. -/
structure Font where
  offsets : Offsets
deriving DecidableEq, Repr

namespace Font

/-- `src/font.rs:15-20` and `src/font.rs:73-80`. -/
def read (accept : Tag → Bool) : Reader Font := do
  let offsets ← Offsets.read accept
  return { offsets }

/-- `src/font.rs:24-27`. -/
def «exists» (font : Font) (table : TableType) : Bool :=
  font.offsets.records.any (fun record => record.tag == table.tag)

/-- The loop of `src/font.rs:36-46` over the remaining records. -/
def positionIn (cfg : Cfg) (checksum : Record → Reader Nat) (tag : Tag) :
    List Record → Reader (Option Unit)
  | [] => return none
  | record :: records =>
    if record.tag = tag then do
      if cfg.ignoreInvalidChecksums = false then
        let computed ← checksum record
        raiseIf (record.checksum ≠ computed) ⟨"found a malformed font table with", [record.tag]⟩
      jump record.offset
      return some ()
    else
      positionIn cfg checksum tag records

/-- `src/font.rs:30-47`. -/
def position (cfg : Cfg) (checksum : Record → Reader Nat) (font : Font) (table : TableType) :
    Reader (Option Unit) :=
  positionIn cfg checksum table.tag font.offsets.records

/-- `src/font.rs:51-59`. `r` is the reader of the requested type. -/
def take {α : Type} (cfg : Cfg) (checksum : Record → Reader Nat) (font : Font) (table : TableType)
    (r : Reader α) : Reader (Option α) := do
  match ← position cfg checksum font table with
  | some _ =>
    let x ← r
    return some x
  | none => return none

/-- `src/font.rs:62-70`. `r` is the reader of the requested type, which needs a parameter. -/
def take_given {α P : Type} (cfg : Cfg) (checksum : Record → Reader Nat) (font : Font)
    (table : TableType) (r : P → Reader α) (parameter : P) : Reader (Option α) := do
  match ← position cfg checksum font table with
  | some _ =>
    let x ← r parameter
    return some x
  | none => return none

end Font

/-- `src/file.rs:7-10`. -/
structure File where
  fonts : List Font
deriving DecidableEq, Repr

/-- `src/file.rs:14-21`. -/
def File.read (accept : Tag → Bool) : Reader File := do
  let tag ← peek takeTag
  raiseIf (tag = tag4 't' 't' 'c' 'f') "found a TrueType collection, which is not supported yet"
  let font ← Font.read accept
  return { fonts := [font] }

/-- The method `checksum` of `truetype`'s record (external; called in `src/font.rs:39`), from the OpenType
specification: the sum modulo `2^32` of the `⌈size / 4⌉` words from the record's offset on, the third word of
`head` (its `checksumAdjustment`) excepted. The tape comes back to where it was. -/
def sumWords (skip : Nat → Bool) : Nat → Nat → Reader Nat
  | _, 0 => return 0
  | i, n + 1 => do
    let word ← u32
    let rest ← sumWords skip (i + 1) n
    return ((if skip i then 0 else word) + rest) % 4294967296

/-- See `sumWords`. -/
def tableChecksum (record : Record) : Reader Nat :=
  stay do
    jump record.offset
    sumWords (fun i => record.tag == TableType.fontHeader.tag && i == 2) 0 ((record.size + 3) / 4)

end OpenType
