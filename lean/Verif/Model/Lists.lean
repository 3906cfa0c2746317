import Verif.Prim
/-!
# `src/layout/{language,script,feature,lookup,directory}.rs`

The enumerations `Feature`, `Script` and `Language` are in `Model/Tags.lean`.
-/

namespace OpenType

/-! ## Languages -/
namespace language

/-- `src/layout/language.rs:5-11`. -/
structure Header where
  tag : Tag
  offset : Nat
deriving DecidableEq, Repr

/-- `src/layout/language.rs:5-11`. -/
def Header.read : Reader Header := do
  let tag ← takeTag
  let offset ← u16
  return { tag, offset }

/-- `src/layout/language.rs:13-24`. -/
structure Record where
  lookup_order_offset : Nat
  required_feature_index : Nat
  feature_index_count : Nat
  feature_indices : List Nat
deriving DecidableEq, Repr

/-- `src/layout/language.rs:13-24`. -/
def Record.read : Reader Record := do
  let lookup_order_offset ← expectU16 0
  let required_feature_index ← u16
  let feature_index_count ← u16
  let feature_indices ← takeVec u16 feature_index_count
  return { lookup_order_offset, required_feature_index, feature_index_count, feature_indices }

end language

/-- `src/layout/script.rs:53-75`, `src/layout/feature.rs:62-72`: the search shared by the three `get` methods,
`iter().enumerate().find(|(_, header)| header.tag ==
tag).map(|(i, _)| &records[i])`. Indexing past the end of `records` is a panic. -/
def getByTag {H R : Type} (tagOf : H → Tag) (headers : List H) (records : List R) (tag : Tag) :
    Except Err (Option R) :=
  match headers.findIdx? (fun header => tagOf header == tag) with
  | none => .ok none
  | some i =>
    match records[i]? with
    | some record => .ok (some record)
    | none => .error (.panic "index out of bounds")

/-! ## Scripts -/
namespace script

/-- `src/layout/script.rs:23-30`. -/
structure Header where
  tag : Tag
  offset : Nat
deriving DecidableEq, Repr

/-- `src/layout/script.rs:23-30`. -/
def Header.read : Reader Header := do
  let tag ← takeTag
  let offset ← u16
  return { tag, offset }

/-- `src/layout/script.rs:32-51`. -/
structure Record where
  default_language_offset : Nat
  language_count : Nat
  language_headers : List language.Header
  default_language : Option language.Record
  language_records : List language.Record
deriving DecidableEq, Repr

/-- `src/layout/script.rs:32-51`. -/
def Record.read : Reader Record := do
  let position ← position
  let default_language_offset ← u16
  let language_count ← u16
  let language_headers ← takeVec language.Header.read language_count
  let default_language ← jumpTakeMaybe position default_language_offset language.Record.read
  let language_records ←
    jumpTakeN position language_count (language_headers.map (·.offset)) language.Record.read
  return { default_language_offset, language_count, language_headers, default_language,
           language_records }

/-- `src/layout/script.rs:65-75`. -/
def Record.get (record : Record) (tag : Tag) : Except Err (Option language.Record) :=
  getByTag (·.tag) record.language_headers record.language_records tag

/-- `src/layout/script.rs:7-21`. -/
structure Scripts where
  count : Nat
  headers : List Header
  records : List Record
deriving DecidableEq, Repr

/-- `src/layout/script.rs:7-21`: the `Default` derived by `table!`. -/
def Scripts.default : Scripts := { count := 0, headers := [], records := [] }

/-- `src/layout/script.rs:7-21`. -/
def Scripts.read : Reader Scripts := do
  let position ← position
  let count ← u16
  let headers ← takeVec Header.read count
  let records ← jumpTakeN position count (headers.map (·.offset)) Record.read
  return { count, headers, records }

/-- `src/layout/script.rs:53-63`. -/
def Scripts.get (scripts : Scripts) (tag : Tag) : Except Err (Option Record) :=
  getByTag (·.tag) scripts.headers scripts.records tag

end script

/-! ## Features -/
namespace feature

/-- `src/layout/feature.rs:21-28`. -/
structure Header where
  tag : Tag
  offset : Nat
deriving DecidableEq, Repr

/-- `src/layout/feature.rs:21-28`. -/
def Header.read : Reader Header := do
  let tag ← takeTag
  let offset ← u16
  return { tag, offset }

/-- `src/layout/feature.rs:30-50`. -/
structure Record where
  parameter_offset : Nat
  lookup_index_count : Nat
  lookup_indices : List Nat
  parameters : Option (List Nat)
deriving DecidableEq, Repr

/-- `src/layout/feature.rs:41-48`. The code reads zero bytes of parameters. -/
def takeParameters (position parameter_offset : Nat) : Reader (Option (List Nat)) :=
  if parameter_offset > 0 then do
    let q ← addU64 position parameter_offset
    jump q
    let bytes ← takeBytes 0
    return some bytes
  else
    return none

/-- `src/layout/feature.rs:30-50`. -/
def Record.read : Reader Record := do
  let position ← position
  let parameter_offset ← u16
  let lookup_index_count ← u16
  let lookup_indices ← takeVec u16 lookup_index_count
  let parameters ← takeParameters position parameter_offset
  return { parameter_offset, lookup_index_count, lookup_indices, parameters }

/-- `src/layout/feature.rs:52-60`. -/
structure Variations where
  major_version : Nat
  minor_version : Nat
  count : Nat
deriving DecidableEq, Repr

/-- `src/layout/feature.rs:52-60`. -/
def Variations.read : Reader Variations := do
  let major_version ← expectU16 1
  let minor_version ← expectU16 0
  let count ← u32
  return { major_version, minor_version, count }

/-- `src/layout/feature.rs:5-19`. -/
structure Features where
  count : Nat
  headers : List Header
  records : List Record
deriving DecidableEq, Repr

/-- `src/layout/feature.rs:5-19`: the `Default` derived by `table!`. -/
def Features.default : Features := { count := 0, headers := [], records := [] }

/-- `src/layout/feature.rs:5-19`. -/
def Features.read : Reader Features := do
  let position ← position
  let count ← u16
  let headers ← takeVec Header.read count
  let records ← jumpTakeN position count (headers.map (·.offset)) Record.read
  return { count, headers, records }

/-- `src/layout/feature.rs:62-72`. -/
def Features.get (features : Features) (tag : Tag) : Except Err (Option Record) :=
  getByTag (·.tag) features.headers features.records tag

end feature

/-! ## Lookups -/
namespace lookup

/-- `src/layout/lookup.rs:28-38`: the `is_invalid` mask of the lookup flags. -/
def invalidFlags : Nat := 0b0000000011100000

/-- `src/layout/lookup.rs:31`. -/
def is_right_to_left (flags : Nat) : Bool := flag flags 0b0000000000000001

/-- `src/layout/lookup.rs:32`. -/
def should_ignore_base_glyphs (flags : Nat) : Bool := flag flags 0b0000000000000010

/-- `src/layout/lookup.rs:33`. -/
def should_ignore_ligature (flags : Nat) : Bool := flag flags 0b0000000000000100

/-- `src/layout/lookup.rs:34`. -/
def should_ignore_marks (flags : Nat) : Bool := flag flags 0b0000000000001000

/-- `src/layout/lookup.rs:36`. -/
def is_invalid (flags : Nat) : Bool := flag flags invalidFlags

/-- `src/layout/lookup.rs:35`. -/
def has_mark_filtering (flags : Nat) : Bool := flag flags 0b0000000000010000

/-- `src/layout/lookup.rs:15-26`. -/
structure Record (T : Type) where
  type_ : Nat
  flags : Nat
  table_count : Nat
  table_offsets : List Nat
  mark_filtering_set : Option Nat
  tables : List T
deriving DecidableEq, Repr

/-- `src/layout/lookup.rs:68-93`. `readTable` is the reader of the type parameter (`walue::Read` with the
lookup type as its parameter). -/
def Record.read {T : Type} (cfg : Cfg) (readTable : Nat → Reader T) : Reader (Record T) := do
  let position ← position
  let type_ ← u16
  let flags ← flagsU16 cfg invalidFlags
  let table_count ← u16
  let table_offsets ← takeVec u16 table_count
  let mark_filtering_set ← takeIf (has_mark_filtering flags) u16
  let tables ← jumpTakeN position table_count table_offsets (readTable type_)
  return { type_, flags, table_count, table_offsets, mark_filtering_set, tables }

/-- `src/layout/lookup.rs:5-13`. -/
structure Lookups (T : Type) where
  count : Nat
  offsets : List Nat
  records : List (Record T)
deriving DecidableEq, Repr

/-- `src/layout/lookup.rs:40-49`. -/
def Lookups.default {T : Type} : Lookups T := { count := 0, offsets := [], records := [] }

/-- `src/layout/lookup.rs:51-66`. -/
def Lookups.read {T : Type} (cfg : Cfg) (readTable : Nat → Reader T) : Reader (Lookups T) := do
  let position ← position
  let count ← u16
  let offsets ← takeVec u16 count
  let records ← jumpTakeN position count offsets (Record.read cfg readTable)
  return { count, offsets, records }

end lookup

/-! ## Directory -/
namespace directory
open script feature lookup

/-- `src/layout/directory.rs:5-20`. -/
structure Directory (T : Type) where
  major_version : Nat
  minor_version : Nat
  script_offset : Nat
  feature_offset : Nat
  lookup_offset : Nat
  variation_offset : Nat
  scripts : Scripts
  features : Features
  lookups : Lookups T
  variations : Option Variations
deriving DecidableEq, Repr

/-- One component of the tuples in `src/layout/directory.rs:42-53`: without the feature
`ignore-incomplete-directories` the offset is always followed, with it a zero offset gives the default. -/
def part {α : Type} (cfg : Cfg) (base offset : Nat) (r : Reader α) (default : α) : Reader α :=
  if cfg.ignoreIncompleteDirectories then do
    let x ← jumpTakeMaybe base offset r
    return x.getD default
  else
    jumpTake base offset r

/-- `src/layout/directory.rs:37-40`. -/
def variationOffset (major_version minor_version : Nat) : Reader Nat :=
  if (major_version, minor_version) = (1, 1) then u32 else return 0

/-- `src/layout/directory.rs:22-67`. -/
def Directory.read {T : Type} (cfg : Cfg) (readTable : Nat → Reader T) : Reader (Directory T) := do
  let position ← position
  let major_version ← u16
  let minor_version ← u16
  raiseIf (¬((major_version, minor_version) = (1, 0) ∨ (major_version, minor_version) = (1, 1)))
    ⟨"found an unknown version of the directory table", [major_version, minor_version]⟩
  let script_offset ← u16
  let feature_offset ← u16
  let lookup_offset ← u16
  let variation_offset ← variationOffset major_version minor_version
  let scripts ← part cfg position script_offset Scripts.read Scripts.default
  let features ← part cfg position feature_offset Features.read Features.default
  let lookups ← part cfg position lookup_offset (Lookups.read cfg readTable) Lookups.default
  let variations ← jumpTakeMaybe position variation_offset Variations.read
  return { major_version, minor_version, script_offset, feature_offset, lookup_offset,
           variation_offset, scripts, features, lookups, variations }

end directory
end OpenType
