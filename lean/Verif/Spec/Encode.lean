import Verif.Spec.Gsub
import Verif.Spec.Gpos
import Verif.Spec.Gdef
import Verif.Spec.Cpal
import Verif.Spec.Fvar
/-!
# Specification: writing tables

How OpenType writes each table: `bytes t` are the bytes of the table itself, and `parts t` are what its
offsets lead to, each with its distance from the start of the table. `encoding t` is all of it. Where a
table has offsets, its parts are written wherever the offsets say; two parts may share bytes. `valid t`
says that every number fits its field, every count is the length it governs, and an optional part is
absent exactly when its offset is zero. Nothing here mentions readers or the predicates on byte positions.
-/

namespace OpenType.Spec
open OpenType

/-! ## Numbers -/

/-- One byte. -/
def enc8 (n : Nat) : Data := [UInt8.ofNat n]

/-- Two bytes, the high one first. -/
def enc16 (n : Nat) : Data := [UInt8.ofNat (n / 256), UInt8.ofNat (n % 256)]

/-- Four bytes, the highest one first. -/
def enc32 (n : Nat) : Data := enc16 (n / 65536) ++ enc16 (n % 65536)

/-- Two bytes, two's complement. -/
def encI16 (x : Int) : Data := enc16 (x % 65536).toNat

/-- Four bytes, two's complement. -/
def encI32 (x : Int) : Data := enc32 (x % 4294967296).toNat

/-- A sequence of 16-bit numbers. -/
def enc16s (xs : List Nat) : Data := xs.flatMap enc16

/-- A sequence of 32-bit numbers. -/
def enc32s (xs : List Nat) : Data := xs.flatMap enc32

/-- Numbers that fit 16 bits. -/
def All16 (xs : List Nat) : Prop := ∀ x ∈ xs, x < 65536

/-- Numbers that fit 32 bits. -/
def All32 (xs : List Nat) : Prop := ∀ x ∈ xs, x < 4294967296

/-- A number that fits 16 bits in two's complement. -/
def InI16 (x : Int) : Prop := -32768 ≤ x ∧ x < 32768

/-- A number that fits 32 bits in two's complement. -/
def InI32 (x : Int) : Prop := -2147483648 ≤ x ∧ x < 2147483648

/-! ## Bytes at places -/

/-- The bytes `b` are in `d` from `p` on. -/
def Stored (d : Data) (p : Nat) (b : Data) : Prop := ∀ i x, b[i]? = some x → d[p + i]? = some x

/-- Bytes at a distance from the start of a table. -/
abbrev Chunk := Nat × Data

/-- All chunks are in `d`, their distances counting from `p`. -/
def Holds (d : Data) (p : Nat) (cs : List Chunk) : Prop := ∀ c ∈ cs, Stored d (p + c.1) c.2

/-- No two chunks disagree on a byte: where they overlap, they share. -/
def Consistent (cs : List Chunk) : Prop :=
  ∀ c ∈ cs, ∀ c' ∈ cs, ∀ (i j : Nat) (x y : UInt8), c.2[i]? = some x → c'.2[j]? = some y →
    c.1 + i = c'.1 + j → x = y

/-- How many bytes it takes to write the chunks. -/
def extent (cs : List Chunk) : Nat :=
  (cs.map fun c => if c.2 = [] then 0 else c.1 + c.2.length).foldr max 0

/-- The byte at `i` when the chunks are written: that of the first chunk to have one there, zero where
there is none. -/
def byteAt (cs : List Chunk) (i : Nat) : UInt8 :=
  (cs.findSome? fun c => if c.1 ≤ i then c.2[i - c.1]? else none).getD 0

/-- Write the chunks. -/
def render (cs : List Chunk) : Data := (List.range (extent cs)).map (byteAt cs)

/-- Tables that can be written. -/
class Encode (α : Type) where
  /-- The table itself. -/
  bytes : α → Data
  /-- What its offsets lead to. -/
  parts : α → List Chunk := fun _ => []

export Encode (bytes parts)

section
variable {α : Type} [Encode α]

/-- A table and everything its offsets lead to. -/
def encoding (t : α) : List Chunk := (0, bytes t) :: parts t

/-- A table at an offset. -/
def placed (o : Nat) (x : α) : List Chunk := (encoding x).map fun c => (o + c.1, c.2)

/-- Tables at offsets. -/
def placedAll (os : List Nat) (xs : List α) : List Chunk := (os.zip xs).flatMap fun c => placed c.1 c.2

/-- An optional table at an offset. -/
def placedOpt (o : Nat) : Option α → List Chunk
  | none => []
  | some x => placed o x

/-- Optional tables at offsets. -/
def placedOpts (os : List Nat) (xs : List (Option α)) : List Chunk :=
  (os.zip xs).flatMap fun c => placedOpt c.1 c.2

/-- Tables one after another. -/
def bytesAll (xs : List α) : Data := xs.flatMap bytes

/-- What the offsets in tables one after another lead to, all of them counting from the same place. -/
def partsAll (xs : List α) : List Chunk := xs.flatMap parts

end

/-- An optional value is absent exactly when its offset is zero. -/
def Presence {α : Type} (o : Nat) (x : Option α) : Prop := x = none ↔ o = 0

/-- One optional value for each offset. -/
def Presences {α : Type} (os : List Nat) (xs : List (Option α)) : Prop :=
  ∀ (i : Nat) o x, os[i]? = some o → xs[i]? = some x → Presence o x

/-- Tables whose validity needs no parameters. -/
class Valid (α : Type) where
  /-- Numbers fit, counts are lengths, optional parts are present as announced. -/
  valid : α → Prop

export Valid (valid)

/-- Tables that are all valid. -/
instance {α : Type} [Valid α] : Valid (List α) := ⟨fun xs => ∀ x ∈ xs, valid x⟩

/-- A table that is valid if present. -/
instance {α : Type} [Valid α] : Valid (Option α) := ⟨fun o => ∀ x, o = some x → valid x⟩

/-! ## Common layout tables -/

section layout
open coverage class_ correction context

instance : Encode coverage.Record where
  bytes t := enc16 t.start_glyph_id ++ enc16 t.end_glyph_id ++ enc16 t.index
instance : Valid coverage.Record :=
  ⟨fun t => t.start_glyph_id < 65536 ∧ t.end_glyph_id < 65536 ∧ t.index < 65536⟩

instance : Encode Coverage1 where
  bytes t := enc16 t.format ++ enc16 t.glyph_count ++ enc16s t.glyph_ids
instance : Valid Coverage1 :=
  ⟨fun t => t.format < 65536 ∧ t.glyph_count < 65536 ∧ t.glyph_ids.length = t.glyph_count ∧
    All16 t.glyph_ids⟩

instance : Encode Coverage2 where
  bytes t := enc16 t.format ++ enc16 t.record_count ++ bytesAll t.records
instance : Valid Coverage2 :=
  ⟨fun t => t.format < 65536 ∧ t.record_count < 65536 ∧ t.records.length = t.record_count ∧
    valid t.records⟩

instance : Encode Coverage where
  bytes | .format1 t => bytes t | .format2 t => bytes t
  parts | .format1 t => parts t | .format2 t => parts t
instance : Valid Coverage :=
  ⟨fun | .format1 t => t.format = 1 ∧ valid t | .format2 t => t.format = 2 ∧ valid t⟩

instance : Encode class_.Record where
  bytes t := enc16 t.start_glyph_id ++ enc16 t.end_glyph_id ++ enc16 t.index
instance : Valid class_.Record :=
  ⟨fun t => t.start_glyph_id < 65536 ∧ t.end_glyph_id < 65536 ∧ t.index < 65536⟩

instance : Encode Class1 where
  bytes t := enc16 t.format ++ enc16 t.start_glyph_id ++ enc16 t.glyph_count ++ enc16s t.indices
instance : Valid Class1 :=
  ⟨fun t => t.format < 65536 ∧ t.start_glyph_id < 65536 ∧ t.glyph_count < 65536 ∧
    t.indices.length = t.glyph_count ∧ All16 t.indices⟩

instance : Encode Class2 where
  bytes t := enc16 t.format ++ enc16 t.record_count ++ bytesAll t.records
instance : Valid Class2 :=
  ⟨fun t => t.format < 65536 ∧ t.record_count < 65536 ∧ t.records.length = t.record_count ∧
    valid t.records⟩

instance : Encode Class where
  bytes | .format1 t => bytes t | .format2 t => bytes t
  parts | .format1 t => parts t | .format2 t => parts t
instance : Valid Class :=
  ⟨fun | .format1 t => t.format = 1 ∧ valid t | .format2 t => t.format = 2 ∧ valid t⟩

instance : Encode Device where
  bytes t := enc16 t.start_size ++ enc16 t.end_size ++ enc16 t.format ++ enc16s t.deltas
/-- The number of words is the one the code takes: see `C48_device` for how it relates to that of the
OpenType specification. -/
instance : Valid Device :=
  ⟨fun t => t.start_size < 65536 ∧ t.end_size < 65536 ∧ t.start_size ≤ t.end_size ∧ 1 ≤ t.format ∧
    t.format ≤ 3 ∧ t.deltas.length = deviceWordsTaken t.start_size t.end_size t.format ∧
    All16 t.deltas⟩

instance : Encode Variation where
  bytes t := enc16 t.outer_index ++ enc16 t.inner_index ++ enc16 t.format
instance : Valid Variation :=
  ⟨fun t => t.outer_index < 65536 ∧ t.inner_index < 65536 ∧ t.format < 65536⟩

instance : Encode Correction where
  bytes | .device t => bytes t | .variation t => bytes t
  parts | .device t => parts t | .variation t => parts t
instance : Valid Correction :=
  ⟨fun | .device t => valid t | .variation t => t.format = 0x8000 ∧ valid t⟩

instance : Encode Action where
  bytes t := enc16 t.position_index ++ enc16 t.lookup_index
instance : Valid Action := ⟨fun t => t.position_index < 65536 ∧ t.lookup_index < 65536⟩

instance : Encode context.Record where
  bytes t := enc16 t.glyph_count ++ enc16 t.action_count ++ enc16s t.glyph_ids ++ bytesAll t.actions
instance : Valid context.Record :=
  ⟨fun t => t.glyph_count < 65536 ∧ t.action_count < 65536 ∧
    t.glyph_ids.length + 1 = t.glyph_count ∧ All16 t.glyph_ids ∧
    t.actions.length = t.action_count ∧ valid t.actions⟩

instance : Encode Records where
  bytes t := enc16 t.count ++ enc16s t.offsets
  parts t := placedAll t.offsets t.records
instance : Valid Records :=
  ⟨fun t => t.count < 65536 ∧ t.offsets.length = t.count ∧ All16 t.offsets ∧
    t.records.length = t.count ∧ valid t.records⟩

instance : Encode ClassRecord where
  bytes t := enc16 t.glyph_count ++ enc16 t.action_count ++ enc16s t.indices ++ bytesAll t.actions
instance : Valid ClassRecord :=
  ⟨fun t => t.glyph_count < 65536 ∧ t.action_count < 65536 ∧
    t.indices.length + 1 = t.glyph_count ∧ All16 t.indices ∧
    t.actions.length = t.action_count ∧ valid t.actions⟩

instance : Encode ClassRecords where
  bytes t := enc16 t.count ++ enc16s t.offsets
  parts t := placedAll t.offsets t.records
instance : Valid ClassRecords :=
  ⟨fun t => t.count < 65536 ∧ t.offsets.length = t.count ∧ All16 t.offsets ∧
    t.records.length = t.count ∧ valid t.records⟩

instance : Encode ChainedRecord where
  bytes t := enc16 t.backward_glyph_count ++ enc16s t.backward_glyph_ids ++ enc16 t.glyph_count ++
    enc16s t.glyph_ids ++ enc16 t.forward_glyph_count ++ enc16s t.forward_glyph_ids ++
    enc16 t.action_count ++ bytesAll t.actions
instance : Valid ChainedRecord :=
  ⟨fun t => t.backward_glyph_count < 65536 ∧
    t.backward_glyph_ids.length = t.backward_glyph_count ∧ All16 t.backward_glyph_ids ∧
    t.glyph_count < 65536 ∧ t.glyph_ids.length + 1 = t.glyph_count ∧ All16 t.glyph_ids ∧
    t.forward_glyph_count < 65536 ∧ t.forward_glyph_ids.length = t.forward_glyph_count ∧
    All16 t.forward_glyph_ids ∧ t.action_count < 65536 ∧ t.actions.length = t.action_count ∧
    valid t.actions⟩

instance : Encode ChainedRecords where
  bytes t := enc16 t.count ++ enc16s t.offsets
  parts t := placedAll t.offsets t.records
instance : Valid ChainedRecords :=
  ⟨fun t => t.count < 65536 ∧ t.offsets.length = t.count ∧ All16 t.offsets ∧
    t.records.length = t.count ∧ valid t.records⟩

instance : Encode ChainedClassRecord where
  bytes t := enc16 t.backward_glyph_count ++ enc16s t.backward_indices ++ enc16 t.glyph_count ++
    enc16s t.indices ++ enc16 t.forward_glyph_count ++ enc16s t.forward_indices ++
    enc16 t.action_count ++ bytesAll t.actions
instance : Valid ChainedClassRecord :=
  ⟨fun t => t.backward_glyph_count < 65536 ∧
    t.backward_indices.length = t.backward_glyph_count ∧ All16 t.backward_indices ∧
    t.glyph_count < 65536 ∧ t.indices.length + 1 = t.glyph_count ∧ All16 t.indices ∧
    t.forward_glyph_count < 65536 ∧ t.forward_indices.length = t.forward_glyph_count ∧
    All16 t.forward_indices ∧ t.action_count < 65536 ∧ t.actions.length = t.action_count ∧
    valid t.actions⟩

instance : Encode ChainedClassRecords where
  bytes t := enc16 t.count ++ enc16s t.offsets
  parts t := placedAll t.offsets t.records
instance : Valid ChainedClassRecords :=
  ⟨fun t => t.count < 65536 ∧ t.offsets.length = t.count ∧ All16 t.offsets ∧
    t.records.length = t.count ∧ valid t.records⟩

instance : Encode Context1 where
  bytes t := enc16 t.format ++ enc16 t.coverage_offset ++ enc16 t.record_count ++
    enc16s t.record_offsets
  parts t := placed t.coverage_offset t.coverage ++ placedAll t.record_offsets t.records
instance : Valid Context1 :=
  ⟨fun t => t.format < 65536 ∧ t.coverage_offset < 65536 ∧ t.record_count < 65536 ∧
    t.record_offsets.length = t.record_count ∧ All16 t.record_offsets ∧ valid t.coverage ∧
    t.records.length = t.record_count ∧ valid t.records⟩

instance : Encode Context2 where
  bytes t := enc16 t.format ++ enc16 t.coverage_offset ++ enc16 t.class_offset ++
    enc16 t.record_count ++ enc16s t.record_offsets
  parts t := placed t.coverage_offset t.coverage ++ placed t.class_offset t.class_ ++
    placedOpts t.record_offsets t.records
instance : Valid Context2 :=
  ⟨fun t => t.format < 65536 ∧ t.coverage_offset < 65536 ∧ t.class_offset < 65536 ∧
    t.record_count < 65536 ∧ t.record_offsets.length = t.record_count ∧ All16 t.record_offsets ∧
    valid t.coverage ∧ valid t.class_ ∧ t.records.length = t.record_count ∧
    Presences t.record_offsets t.records ∧ valid t.records⟩

instance : Encode Context3 where
  bytes t := enc16 t.format ++ enc16 t.glyph_count ++ enc16 t.action_count ++
    enc16s t.coverage_offsets ++ bytesAll t.actions
  parts t := placedAll t.coverage_offsets t.coverages
instance : Valid Context3 :=
  ⟨fun t => t.format < 65536 ∧ t.glyph_count < 65536 ∧ t.action_count < 65536 ∧
    t.coverage_offsets.length = t.glyph_count ∧ All16 t.coverage_offsets ∧
    t.actions.length = t.action_count ∧ valid t.actions ∧ t.coverages.length = t.glyph_count ∧
    valid t.coverages⟩

instance : Encode Context where
  bytes | .format1 t => bytes t | .format2 t => bytes t | .format3 t => bytes t
  parts | .format1 t => parts t | .format2 t => parts t | .format3 t => parts t
instance : Valid Context :=
  ⟨fun | .format1 t => t.format = 1 ∧ valid t | .format2 t => t.format = 2 ∧ valid t
       | .format3 t => t.format = 3 ∧ valid t⟩

instance : Encode ChainedContext1 where
  bytes t := enc16 t.format ++ enc16 t.coverage_offset ++ enc16 t.record_count ++
    enc16s t.record_offsets
  parts t := placed t.coverage_offset t.coverage ++ placedAll t.record_offsets t.records
instance : Valid ChainedContext1 :=
  ⟨fun t => t.format < 65536 ∧ t.coverage_offset < 65536 ∧ t.record_count < 65536 ∧
    t.record_offsets.length = t.record_count ∧ All16 t.record_offsets ∧ valid t.coverage ∧
    t.records.length = t.record_count ∧ valid t.records⟩

instance : Encode ChainedContext2 where
  bytes t := enc16 t.format ++ enc16 t.coverage_offset ++ enc16 t.backward_class_offset ++
    enc16 t.class_offset ++ enc16 t.forward_class_offset ++ enc16 t.record_count ++
    enc16s t.record_offsets
  parts t := placed t.coverage_offset t.coverage ++
    placed t.backward_class_offset t.backward_class ++ placed t.class_offset t.class_ ++
    placed t.forward_class_offset t.forward_class ++ placedOpts t.record_offsets t.records
instance : Valid ChainedContext2 :=
  ⟨fun t => t.format < 65536 ∧ t.coverage_offset < 65536 ∧ t.backward_class_offset < 65536 ∧
    t.class_offset < 65536 ∧ t.forward_class_offset < 65536 ∧ t.record_count < 65536 ∧
    t.record_offsets.length = t.record_count ∧ All16 t.record_offsets ∧ valid t.coverage ∧
    valid t.backward_class ∧ valid t.class_ ∧ valid t.forward_class ∧
    t.records.length = t.record_count ∧ Presences t.record_offsets t.records ∧ valid t.records⟩

instance : Encode ChainedContext3 where
  bytes t := enc16 t.format ++ enc16 t.backward_glyph_count ++
    enc16s t.backward_coverage_offsets ++ enc16 t.glyph_count ++ enc16s t.coverage_offsets ++
    enc16 t.forward_glyph_count ++ enc16s t.forward_coverage_offsets ++ enc16 t.action_count ++
    bytesAll t.actions
  parts t := placedAll t.backward_coverage_offsets t.backward_coverages ++
    placedAll t.coverage_offsets t.coverages ++
    placedAll t.forward_coverage_offsets t.forward_coverages
instance : Valid ChainedContext3 :=
  ⟨fun t => t.format < 65536 ∧ t.backward_glyph_count < 65536 ∧
    t.backward_coverage_offsets.length = t.backward_glyph_count ∧
    All16 t.backward_coverage_offsets ∧ t.glyph_count < 65536 ∧
    t.coverage_offsets.length = t.glyph_count ∧ All16 t.coverage_offsets ∧
    t.forward_glyph_count < 65536 ∧
    t.forward_coverage_offsets.length = t.forward_glyph_count ∧
    All16 t.forward_coverage_offsets ∧ t.action_count < 65536 ∧
    t.actions.length = t.action_count ∧ valid t.actions ∧
    t.backward_coverages.length = t.backward_glyph_count ∧ valid t.backward_coverages ∧
    t.coverages.length = t.glyph_count ∧ valid t.coverages ∧
    t.forward_coverages.length = t.forward_glyph_count ∧ valid t.forward_coverages⟩

instance : Encode ChainedContext where
  bytes | .format1 t => bytes t | .format2 t => bytes t | .format3 t => bytes t
  parts | .format1 t => parts t | .format2 t => parts t | .format3 t => parts t
instance : Valid ChainedContext :=
  ⟨fun | .format1 t => t.format = 1 ∧ valid t | .format2 t => t.format = 2 ∧ valid t
       | .format3 t => t.format = 3 ∧ valid t⟩

end layout

/-! ## Scripts, languages, features, lookups and directories -/

section lists
open script feature lookup directory

instance : Encode language.Header where
  bytes t := enc32 t.tag ++ enc16 t.offset
instance : Valid language.Header := ⟨fun t => t.tag < 4294967296 ∧ t.offset < 65536⟩

instance : Encode language.Record where
  bytes t := enc16 t.lookup_order_offset ++ enc16 t.required_feature_index ++
    enc16 t.feature_index_count ++ enc16s t.feature_indices
instance : Valid language.Record :=
  ⟨fun t => t.lookup_order_offset = 0 ∧ t.required_feature_index < 65536 ∧
    t.feature_index_count < 65536 ∧ t.feature_indices.length = t.feature_index_count ∧
    All16 t.feature_indices⟩

instance : Encode script.Header where
  bytes t := enc32 t.tag ++ enc16 t.offset
instance : Valid script.Header := ⟨fun t => t.tag < 4294967296 ∧ t.offset < 65536⟩

instance : Encode script.Record where
  bytes t := enc16 t.default_language_offset ++ enc16 t.language_count ++
    bytesAll t.language_headers
  parts t := placedOpt t.default_language_offset t.default_language ++
    placedAll (t.language_headers.map (·.offset)) t.language_records
instance : Valid script.Record :=
  ⟨fun t => t.default_language_offset < 65536 ∧ t.language_count < 65536 ∧
    t.language_headers.length = t.language_count ∧ valid t.language_headers ∧
    Presence t.default_language_offset t.default_language ∧ valid t.default_language ∧
    t.language_records.length = t.language_count ∧ valid t.language_records⟩

instance : Encode Scripts where
  bytes t := enc16 t.count ++ bytesAll t.headers
  parts t := placedAll (t.headers.map (·.offset)) t.records
instance : Valid Scripts :=
  ⟨fun t => t.count < 65536 ∧ t.headers.length = t.count ∧ valid t.headers ∧
    t.records.length = t.count ∧ valid t.records⟩

instance : Encode feature.Header where
  bytes t := enc32 t.tag ++ enc16 t.offset
instance : Valid feature.Header := ⟨fun t => t.tag < 4294967296 ∧ t.offset < 65536⟩

/-- The parameters are not written: the code does not read them. -/
instance : Encode feature.Record where
  bytes t := enc16 t.parameter_offset ++ enc16 t.lookup_index_count ++ enc16s t.lookup_indices
instance : Valid feature.Record :=
  ⟨fun t => t.parameter_offset < 65536 ∧ t.lookup_index_count < 65536 ∧
    t.lookup_indices.length = t.lookup_index_count ∧ All16 t.lookup_indices ∧
    t.parameters = if t.parameter_offset = 0 then none else some []⟩

instance : Encode Variations where
  bytes t := enc16 t.major_version ++ enc16 t.minor_version ++ enc32 t.count
instance : Valid Variations :=
  ⟨fun t => t.major_version = 1 ∧ t.minor_version = 0 ∧ t.count < 4294967296⟩

instance : Encode Features where
  bytes t := enc16 t.count ++ bytesAll t.headers
  parts t := placedAll (t.headers.map (·.offset)) t.records
instance : Valid Features :=
  ⟨fun t => t.count < 65536 ∧ t.headers.length = t.count ∧ valid t.headers ∧
    t.records.length = t.count ∧ valid t.records⟩

instance {T : Type} [Encode T] : Encode (lookup.Record T) where
  bytes t := enc16 t.type_ ++ enc16 t.flags ++ enc16 t.table_count ++ enc16s t.table_offsets ++
    match t.mark_filtering_set with
    | none => []
    | some n => enc16 n
  parts t := placedAll t.table_offsets t.tables

/-- A valid lookup: `validTable type` tells the valid subtables of that type. -/
def validLookup {T : Type} (cfg : Cfg) (validTable : Nat → T → Prop) (t : lookup.Record T) : Prop :=
  t.type_ < 65536 ∧ t.flags < 65536 ∧ FlagsOk cfg 0x00E0 t.flags ∧ t.table_count < 65536 ∧
    t.table_offsets.length = t.table_count ∧ All16 t.table_offsets ∧
    (match t.mark_filtering_set with
      | none => t.flags.testBit 4 = false
      | some n => t.flags.testBit 4 = true ∧ n < 65536) ∧
    t.tables.length = t.table_count ∧ ∀ table ∈ t.tables, validTable t.type_ table

instance {T : Type} [Encode T] : Encode (Lookups T) where
  bytes t := enc16 t.count ++ enc16s t.offsets
  parts t := placedAll t.offsets t.records

/-- A valid lookup list. -/
def validLookups {T : Type} (cfg : Cfg) (validTable : Nat → T → Prop) (t : Lookups T) : Prop :=
  t.count < 65536 ∧ t.offsets.length = t.count ∧ All16 t.offsets ∧ t.records.length = t.count ∧
    ∀ record ∈ t.records, validLookup cfg validTable record

/-- A list of a directory is not written when it is absent. -/
def placedPart {α : Type} [Encode α] (cfg : Cfg) (o : Nat) (x : α) : List Chunk :=
  if cfg.ignoreIncompleteDirectories = true ∧ o = 0 then [] else placed o x

/-- A list of a directory is valid, or absent and empty. -/
def validPart {α : Type} (cfg : Cfg) (ok : α → Prop) (o : Nat) (empty x : α) : Prop :=
  if cfg.ignoreIncompleteDirectories = true ∧ o = 0 then x = empty else ok x

/-- The bytes of the header. -/
def directoryBytes {T : Type} (t : Directory T) : Data :=
  enc16 t.major_version ++ enc16 t.minor_version ++ enc16 t.script_offset ++
    enc16 t.feature_offset ++ enc16 t.lookup_offset ++
    if t.minor_version = 1 then enc32 t.variation_offset else []

/-- A directory and everything its offsets lead to. -/
def directoryEncoding {T : Type} [Encode T] (cfg : Cfg) (t : Directory T) : List Chunk :=
  (0, directoryBytes t) :: (placedPart cfg t.script_offset t.scripts ++
    placedPart cfg t.feature_offset t.features ++ placedPart cfg t.lookup_offset t.lookups ++
    placedOpt t.variation_offset t.variations)

/-- A valid directory. -/
def validDirectory {T : Type} (cfg : Cfg) (validTable : Nat → T → Prop) (t : Directory T) : Prop :=
  t.major_version = 1 ∧ (t.minor_version = 0 ∨ t.minor_version = 1) ∧ t.script_offset < 65536 ∧
    t.feature_offset < 65536 ∧ t.lookup_offset < 65536 ∧ t.variation_offset < 4294967296 ∧
    (t.minor_version = 0 → t.variation_offset = 0) ∧
    validPart cfg valid t.script_offset ⟨0, [], []⟩ t.scripts ∧
    validPart cfg valid t.feature_offset ⟨0, [], []⟩ t.features ∧
    validPart cfg (validLookups cfg validTable) t.lookup_offset ⟨0, [], []⟩ t.lookups ∧
    Presence t.variation_offset t.variations ∧ valid t.variations

end lists

/-! ## Glyph substitution -/

section gsub
open OpenType.gsub

instance : Encode Alternates where
  bytes t := enc16 t.glyph_count ++ enc16s t.glyph_ids
instance : Valid Alternates :=
  ⟨fun t => t.glyph_count < 65536 ∧ t.glyph_ids.length = t.glyph_count ∧ All16 t.glyph_ids⟩

instance : Encode gsub.Ligature where
  bytes t := enc16 t.glyph_id ++ enc16 t.glyph_count ++ enc16s t.glyph_ids
instance : Valid gsub.Ligature :=
  ⟨fun t => t.glyph_id < 65536 ∧ t.glyph_count < 65536 ∧ t.glyph_ids.length + 1 = t.glyph_count ∧
    All16 t.glyph_ids⟩

instance : Encode gsub.Ligatures where
  bytes t := enc16 t.count ++ enc16s t.offsets
  parts t := placedAll t.offsets t.records
instance : Valid gsub.Ligatures :=
  ⟨fun t => t.count < 65536 ∧ t.offsets.length = t.count ∧ All16 t.offsets ∧
    t.records.length = t.count ∧ valid t.records⟩

instance : Encode Sequence where
  bytes t := enc16 t.glyph_count ++ enc16s t.glyph_ids
instance : Valid Sequence :=
  ⟨fun t => t.glyph_count < 65536 ∧ t.glyph_ids.length = t.glyph_count ∧ All16 t.glyph_ids⟩

instance : Encode SingleSubstitution1 where
  bytes t := enc16 t.format ++ enc16 t.coverage_offset ++ encI16 t.delta_glyph_id
  parts t := placed t.coverage_offset t.coverage
instance : Valid SingleSubstitution1 :=
  ⟨fun t => t.format < 65536 ∧ t.coverage_offset < 65536 ∧ InI16 t.delta_glyph_id ∧
    valid t.coverage⟩

instance : Encode SingleSubstitution2 where
  bytes t := enc16 t.format ++ enc16 t.coverage_offset ++ enc16 t.glyph_count ++ enc16s t.glyph_ids
  parts t := placed t.coverage_offset t.coverage
instance : Valid SingleSubstitution2 :=
  ⟨fun t => t.format < 65536 ∧ t.coverage_offset < 65536 ∧ t.glyph_count < 65536 ∧
    t.glyph_ids.length = t.glyph_count ∧ All16 t.glyph_ids ∧ valid t.coverage⟩

instance : Encode SingleSubstitution where
  bytes | .format1 t => bytes t | .format2 t => bytes t
  parts | .format1 t => parts t | .format2 t => parts t
instance : Valid SingleSubstitution :=
  ⟨fun | .format1 t => t.format = 1 ∧ valid t | .format2 t => t.format = 2 ∧ valid t⟩

instance : Encode MultipleSubstitution where
  bytes t := enc16 t.format ++ enc16 t.coverage_offset ++ enc16 t.record_count ++
    enc16s t.record_offsets
  parts t := placed t.coverage_offset t.coverage ++ placedAll t.record_offsets t.records
instance : Valid MultipleSubstitution :=
  ⟨fun t => t.format = 1 ∧ t.coverage_offset < 65536 ∧ t.record_count < 65536 ∧
    t.record_offsets.length = t.record_count ∧ All16 t.record_offsets ∧ valid t.coverage ∧
    t.records.length = t.record_count ∧ valid t.records⟩

instance : Encode AlternateSubstitution where
  bytes t := enc16 t.format ++ enc16 t.coverage_offset ++ enc16 t.record_count ++
    enc16s t.record_offsets
  parts t := placed t.coverage_offset t.coverage ++ placedAll t.record_offsets t.records
instance : Valid AlternateSubstitution :=
  ⟨fun t => t.format = 1 ∧ t.coverage_offset < 65536 ∧ t.record_count < 65536 ∧
    t.record_offsets.length = t.record_count ∧ All16 t.record_offsets ∧ valid t.coverage ∧
    t.records.length = t.record_count ∧ valid t.records⟩

instance : Encode LigatureSubstitution where
  bytes t := enc16 t.format ++ enc16 t.coverage_offset ++ enc16 t.record_count ++
    enc16s t.record_offsets
  parts t := placed t.coverage_offset t.coverage ++ placedAll t.record_offsets t.records
instance : Valid LigatureSubstitution :=
  ⟨fun t => t.format = 1 ∧ t.coverage_offset < 65536 ∧ t.record_count < 65536 ∧
    t.record_offsets.length = t.record_count ∧ All16 t.record_offsets ∧ valid t.coverage ∧
    t.records.length = t.record_count ∧ valid t.records⟩

instance : Encode ExtensionSubstitution where
  bytes t := enc16 t.format ++ enc16 t.type_ ++ enc32 t.offset
instance : Valid ExtensionSubstitution :=
  ⟨fun t => t.format = 1 ∧ t.type_ < 65536 ∧ t.offset < 4294967296⟩

/-- The format is any number: the code does not check it (property C22). -/
instance : Valid ReverseChainedContextualSubstibution :=
  ⟨fun t => t.format < 65536 ∧ t.coverage_offset < 65536 ∧ t.backward_glyph_count < 65536 ∧
    t.backward_coverage_offsets.length = t.backward_glyph_count ∧
    All16 t.backward_coverage_offsets ∧ t.forward_glyph_count < 65536 ∧
    t.forward_coverage_offsets.length = t.forward_glyph_count ∧ All16 t.forward_coverage_offsets ∧
    t.glyph_count < 65536 ∧ t.glyph_ids.length = t.glyph_count ∧ All16 t.glyph_ids ∧
    valid t.coverage ∧ t.backward_coverages.length = t.backward_glyph_count ∧
    valid t.backward_coverages ∧ t.forward_coverages.length = t.forward_glyph_count ∧
    valid t.forward_coverages⟩
instance : Encode ReverseChainedContextualSubstibution where
  bytes t := enc16 t.format ++ enc16 t.coverage_offset ++ enc16 t.backward_glyph_count ++
    enc16s t.backward_coverage_offsets ++ enc16 t.forward_glyph_count ++
    enc16s t.forward_coverage_offsets ++ enc16 t.glyph_count ++ enc16s t.glyph_ids
  parts t := placed t.coverage_offset t.coverage ++
    placedAll t.backward_coverage_offsets t.backward_coverages ++
    placedAll t.forward_coverage_offsets t.forward_coverages

instance : Encode gsub.Type_ where
  bytes
    | .singleSubstitution t => bytes t
    | .multipleSubstitution t => bytes t
    | .alternateSubstitution t => bytes t
    | .ligatureSubstitution t => bytes t
    | .contextualSubstitution t => bytes t
    | .chainedContextualSubstitution t => bytes t
    | .extensionSubstitution t => bytes t
    | .reverseChainedContextualSubstibution t => bytes t
  parts
    | .singleSubstitution t => parts t
    | .multipleSubstitution t => parts t
    | .alternateSubstitution t => parts t
    | .ligatureSubstitution t => parts t
    | .contextualSubstitution t => parts t
    | .chainedContextualSubstitution t => parts t
    | .extensionSubstitution t => parts t
    | .reverseChainedContextualSubstibution t => parts t

/-- A valid substitution subtable of the given type. -/
def gsub.validTable (type_ : Nat) : gsub.Type_ → Prop
  | .singleSubstitution t => type_ = 1 ∧ valid t
  | .multipleSubstitution t => type_ = 2 ∧ valid t
  | .alternateSubstitution t => type_ = 3 ∧ valid t
  | .ligatureSubstitution t => type_ = 4 ∧ valid t
  | .contextualSubstitution t => type_ = 5 ∧ valid t
  | .chainedContextualSubstitution t => type_ = 6 ∧ valid t
  | .extensionSubstitution t => type_ = 7 ∧ valid t
  | .reverseChainedContextualSubstibution t => type_ = 8 ∧ valid t

end gsub

/-! ## Glyph positioning -/

section gpos
open OpenType.gpos

instance : Encode Anchor1 where
  bytes t := enc16 t.format ++ encI16 t.x ++ encI16 t.y
instance : Valid Anchor1 := ⟨fun t => t.format < 65536 ∧ InI16 t.x ∧ InI16 t.y⟩

instance : Encode Anchor2 where
  bytes t := enc16 t.format ++ encI16 t.x ++ encI16 t.y ++ enc16 t.index
instance : Valid Anchor2 :=
  ⟨fun t => t.format < 65536 ∧ InI16 t.x ∧ InI16 t.y ∧ t.index < 65536⟩

instance : Encode Anchor3 where
  bytes t := enc16 t.format ++ encI16 t.x ++ encI16 t.y ++ enc16 t.x_correction_offset ++
    enc16 t.y_correction_offset
  parts t := placedOpt t.x_correction_offset t.x_correction ++
    placedOpt t.y_correction_offset t.y_correction
instance : Valid Anchor3 :=
  ⟨fun t => t.format < 65536 ∧ InI16 t.x ∧ InI16 t.y ∧ t.x_correction_offset < 65536 ∧
    t.y_correction_offset < 65536 ∧ Presence t.x_correction_offset t.x_correction ∧
    valid t.x_correction ∧ Presence t.y_correction_offset t.y_correction ∧ valid t.y_correction⟩

instance : Encode Anchor where
  bytes | .format1 t => bytes t | .format2 t => bytes t | .format3 t => bytes t
  parts | .format1 t => parts t | .format2 t => parts t | .format3 t => parts t
instance : Valid Anchor :=
  ⟨fun | .format1 t => t.format = 1 ∧ valid t | .format2 t => t.format = 2 ∧ valid t
       | .format3 t => t.format = 3 ∧ valid t⟩

/-- An optional signed field. -/
def fieldI16 : Option Int → Data
  | none => []
  | some x => encI16 x

/-- An optional offset field. -/
def field16 : Option Nat → Data
  | none => []
  | some x => enc16 x

/-- The part an optional offset field leads to. -/
def placedField (o : Option Nat) (x : Option correction.Correction) : List Chunk :=
  match o with
  | none => []
  | some o => placedOpt o x

/-- A field is present exactly when its bit of the format is set, and fits. -/
def validField {α : Type} (flags k : Nat) (fits : α → Prop) : Option α → Prop
  | none => flags.testBit k = false
  | some x => flags.testBit k = true ∧ fits x

/-- A correction is present exactly when its offset field is present and not zero, and is valid. -/
def validCorrection (o : Option Nat) (x : Option correction.Correction) : Prop :=
  match o with
  | none => x = none
  | some o => Presence o x ∧ valid x

/-- The offsets of the corrections count from the start of the enclosing table. -/
instance : Encode Single where
  bytes t := fieldI16 t.x_placement ++ fieldI16 t.y_placement ++ fieldI16 t.x_advance ++
    fieldI16 t.y_advance ++ field16 t.x_placement_correction_offset ++
    field16 t.y_placement_correction_offset ++ field16 t.x_advance_correction_offset ++
    field16 t.y_advance_correction_offset
  parts t := placedField t.x_placement_correction_offset t.x_placement_correction ++
    placedField t.y_placement_correction_offset t.y_placement_correction ++
    placedField t.x_advance_correction_offset t.x_advance_correction ++
    placedField t.y_advance_correction_offset t.y_advance_correction

/-- A valid value record of the given format. -/
def validSingle (flags : Nat) (t : Single) : Prop :=
  validField flags 0 InI16 t.x_placement ∧ validField flags 1 InI16 t.y_placement ∧
    validField flags 2 InI16 t.x_advance ∧ validField flags 3 InI16 t.y_advance ∧
    validField flags 4 (· < 65536) t.x_placement_correction_offset ∧
    validField flags 5 (· < 65536) t.y_placement_correction_offset ∧
    validField flags 6 (· < 65536) t.x_advance_correction_offset ∧
    validField flags 7 (· < 65536) t.y_advance_correction_offset ∧
    validCorrection t.x_placement_correction_offset t.x_placement_correction ∧
    validCorrection t.y_placement_correction_offset t.y_placement_correction ∧
    validCorrection t.x_advance_correction_offset t.x_advance_correction ∧
    validCorrection t.y_advance_correction_offset t.y_advance_correction

/-- An optional value record. -/
instance : Encode (Option Single) where
  bytes | none => [] | some t => bytes t
  parts | none => [] | some t => parts t

/-- A value record is absent exactly when its format is zero. -/
def validValue (flags : Nat) : Option Single → Prop
  | none => flags = 0
  | some t => flags ≠ 0 ∧ validSingle flags t

instance : Encode Pair1 where
  bytes t := enc16 t.glyph2_id ++ bytes t.value1 ++ bytes t.value2
  parts t := parts t.value1 ++ parts t.value2

/-- A valid pair. -/
def validPair1 (flags1 flags2 : Nat) (t : Pair1) : Prop :=
  t.glyph2_id < 65536 ∧ validValue flags1 t.value1 ∧ validValue flags2 t.value2

instance : Encode Pair1s where
  bytes t := enc16 t.count ++ bytesAll t.records
  parts t := partsAll t.records

/-- A valid pair set. -/
def validPair1s (flags1 flags2 : Nat) (t : Pair1s) : Prop :=
  t.count < 65536 ∧ t.records.length = t.count ∧ ∀ x ∈ t.records, validPair1 flags1 flags2 x

instance : Encode Pair2 where
  bytes t := bytes t.value1 ++ bytes t.value2
  parts t := parts t.value1 ++ parts t.value2

/-- A valid cell. -/
def validPair2 (flags1 flags2 : Nat) (t : Pair2) : Prop :=
  validValue flags1 t.value1 ∧ validValue flags2 t.value2

instance : Encode Pair2s where
  bytes t := bytesAll t.records
  parts t := partsAll t.records

/-- A valid row. -/
def validPair2s (class2_count flags1 flags2 : Nat) (t : Pair2s) : Prop :=
  t.records.length = class2_count ∧ ∀ x ∈ t.records, validPair2 flags1 flags2 x

instance : Encode Base where
  bytes t := enc16s t.anchor_offsets
  parts t := placedOpts t.anchor_offsets t.anchors

/-- A valid base. -/
def validBase (n : Nat) (t : Base) : Prop :=
  t.anchor_offsets.length = n ∧ All16 t.anchor_offsets ∧ t.anchors.length = n ∧
    Presences t.anchor_offsets t.anchors ∧ valid t.anchors

instance : Encode Bases where
  bytes t := enc16 t.count ++ bytesAll t.records
  parts t := partsAll t.records

/-- Valid bases. -/
def validBases (n : Nat) (t : Bases) : Prop :=
  t.count < 65536 ∧ t.records.length = t.count ∧ ∀ x ∈ t.records, validBase n x

instance : Encode Component where
  bytes t := enc16s t.anchor_offsets
  parts t := placedOpts t.anchor_offsets t.anchors

/-- A valid component. -/
def validComponent (n : Nat) (t : Component) : Prop :=
  t.anchor_offsets.length = n ∧ All16 t.anchor_offsets ∧ t.anchors.length = n ∧
    Presences t.anchor_offsets t.anchors ∧ valid t.anchors

instance : Encode Connection where
  bytes t := enc16 t.start_anchor_offset ++ enc16 t.end_anchor_offset
  parts t := placedOpt t.start_anchor_offset t.start_anchor ++
    placedOpt t.end_anchor_offset t.end_anchor
instance : Valid Connection :=
  ⟨fun t => t.start_anchor_offset < 65536 ∧ t.end_anchor_offset < 65536 ∧
    Presence t.start_anchor_offset t.start_anchor ∧ valid t.start_anchor ∧
    Presence t.end_anchor_offset t.end_anchor ∧ valid t.end_anchor⟩

instance : Encode gpos.Ligature where
  bytes t := enc16 t.count ++ bytesAll t.components
  parts t := partsAll t.components

/-- A valid ligature. -/
def validLigature (n : Nat) (t : gpos.Ligature) : Prop :=
  t.count < 65536 ∧ t.components.length = t.count ∧ ∀ x ∈ t.components, validComponent n x

instance : Encode gpos.Ligatures where
  bytes t := enc16 t.count ++ enc16s t.offsets
  parts t := placedAll t.offsets t.records

/-- Valid ligatures. -/
def validLigatures (n : Nat) (t : gpos.Ligatures) : Prop :=
  t.count < 65536 ∧ t.offsets.length = t.count ∧ All16 t.offsets ∧ t.records.length = t.count ∧
    ∀ x ∈ t.records, validLigature n x

/-- The anchor of a mark is not written when it is absent: its offset is zero and it is the empty anchor
of format 0, which is not a valid one. -/
instance : Encode Mark1 where
  bytes t := enc16 t.class_id ++ enc16 t.anchor_offset
  parts t := if t.anchor_offset = 0 ∧ t.anchor = .format1 ⟨0, 0, 0⟩ then []
    else placed t.anchor_offset t.anchor

/-- A valid mark; its anchor is absent exactly when its offset is zero and the build tolerates it. -/
def validMark1 (cfg : Cfg) (t : Mark1) : Prop :=
  t.class_id < 65536 ∧ t.anchor_offset < 65536 ∧
    if cfg.ignoreIncompleteMarks = true ∧ t.anchor_offset = 0 then t.anchor = .format1 ⟨0, 0, 0⟩
    else valid t.anchor

instance : Encode Mark1s where
  bytes t := enc16 t.count ++ bytesAll t.records
  parts t := partsAll t.records

/-- A valid mark array. -/
def validMark1s (cfg : Cfg) (t : Mark1s) : Prop :=
  t.count < 65536 ∧ t.records.length = t.count ∧ ∀ x ∈ t.records, validMark1 cfg x

instance : Encode Mark2 where
  bytes t := enc16s t.anchor_offsets
  parts t := placedOpts t.anchor_offsets t.anchors

/-- A valid second mark. -/
def validMark2 (n : Nat) (t : Mark2) : Prop :=
  t.anchor_offsets.length = n ∧ All16 t.anchor_offsets ∧ t.anchors.length = n ∧
    Presences t.anchor_offsets t.anchors ∧ valid t.anchors

instance : Encode Mark2s where
  bytes t := enc16 t.count ++ bytesAll t.records
  parts t := partsAll t.records

/-- Valid second marks. -/
def validMark2s (n : Nat) (t : Mark2s) : Prop :=
  t.count < 65536 ∧ t.records.length = t.count ∧ ∀ x ∈ t.records, validMark2 n x

instance : Encode SingleAdjustment1 where
  bytes t := enc16 t.format ++ enc16 t.coverage_offset ++ enc16 t.value_flags ++ bytes t.value
  parts t := parts t.value ++ placed t.coverage_offset t.coverage

/-- A valid format-1 single adjustment. -/
def validSingleAdjustment1 (cfg : Cfg) (t : SingleAdjustment1) : Prop :=
  t.format < 65536 ∧ t.coverage_offset < 65536 ∧ t.value_flags < 65536 ∧
    FlagsOk cfg 0xFF00 t.value_flags ∧ validSingle t.value_flags t.value ∧ valid t.coverage

instance : Encode SingleAdjustment2 where
  bytes t := enc16 t.format ++ enc16 t.coverage_offset ++ enc16 t.value_flags ++
    enc16 t.value_count ++ bytesAll t.values
  parts t := partsAll t.values ++ placed t.coverage_offset t.coverage

/-- A valid format-2 single adjustment. -/
def validSingleAdjustment2 (cfg : Cfg) (t : SingleAdjustment2) : Prop :=
  t.format < 65536 ∧ t.coverage_offset < 65536 ∧ t.value_flags < 65536 ∧
    FlagsOk cfg 0xFF00 t.value_flags ∧ t.value_count < 65536 ∧ t.values.length = t.value_count ∧
    (∀ x ∈ t.values, validSingle t.value_flags x) ∧ valid t.coverage

instance : Encode SingleAdjustment where
  bytes | .format1 t => bytes t | .format2 t => bytes t
  parts | .format1 t => parts t | .format2 t => parts t

/-- A valid single adjustment. -/
def validSingleAdjustment (cfg : Cfg) : SingleAdjustment → Prop
  | .format1 t => t.format = 1 ∧ validSingleAdjustment1 cfg t
  | .format2 t => t.format = 2 ∧ validSingleAdjustment2 cfg t

instance : Encode PairAdjustment1 where
  bytes t := enc16 t.format ++ enc16 t.coverage_offset ++ enc16 t.value1_flags ++
    enc16 t.value2_flags ++ enc16 t.record_count ++ enc16s t.record_offsets
  parts t := placed t.coverage_offset t.coverage ++ placedAll t.record_offsets t.records

/-- A valid format-1 pair adjustment. -/
def validPairAdjustment1 (cfg : Cfg) (t : PairAdjustment1) : Prop :=
  t.format < 65536 ∧ t.coverage_offset < 65536 ∧ t.value1_flags < 65536 ∧
    FlagsOk cfg 0xFF00 t.value1_flags ∧ t.value2_flags < 65536 ∧
    FlagsOk cfg 0xFF00 t.value2_flags ∧ t.record_count < 65536 ∧
    t.record_offsets.length = t.record_count ∧ All16 t.record_offsets ∧ valid t.coverage ∧
    t.records.length = t.record_count ∧
    ∀ x ∈ t.records, validPair1s t.value1_flags t.value2_flags x

instance : Encode PairAdjustment2 where
  bytes t := enc16 t.format ++ enc16 t.coverage_offset ++ enc16 t.value1_flags ++
    enc16 t.value2_flags ++ enc16 t.class1_offset ++ enc16 t.class2_offset ++
    enc16 t.class1_count ++ enc16 t.class2_count ++ bytesAll t.records
  parts t := partsAll t.records ++ placed t.coverage_offset t.coverage ++
    placed t.class1_offset t.class1 ++ placed t.class2_offset t.class2

/-- A valid format-2 pair adjustment. -/
def validPairAdjustment2 (cfg : Cfg) (t : PairAdjustment2) : Prop :=
  t.format < 65536 ∧ t.coverage_offset < 65536 ∧ t.value1_flags < 65536 ∧
    FlagsOk cfg 0xFF00 t.value1_flags ∧ t.value2_flags < 65536 ∧
    FlagsOk cfg 0xFF00 t.value2_flags ∧ t.class1_offset < 65536 ∧ t.class2_offset < 65536 ∧
    t.class1_count < 65536 ∧ t.class2_count < 65536 ∧ t.records.length = t.class1_count ∧
    (∀ x ∈ t.records, validPair2s t.class2_count t.value1_flags t.value2_flags x) ∧
    valid t.coverage ∧ valid t.class1 ∧ valid t.class2

instance : Encode PairAdjustment where
  bytes | .format1 t => bytes t | .format2 t => bytes t
  parts | .format1 t => parts t | .format2 t => parts t

/-- A valid pair adjustment. -/
def validPairAdjustment (cfg : Cfg) : PairAdjustment → Prop
  | .format1 t => t.format = 1 ∧ validPairAdjustment1 cfg t
  | .format2 t => t.format = 2 ∧ validPairAdjustment2 cfg t

instance : Encode CursiveAttachment where
  bytes t := enc16 t.format ++ enc16 t.coverage_offset ++ enc16 t.connection_count ++
    bytesAll t.connections
  parts t := partsAll t.connections ++ placed t.coverage_offset t.coverage
instance : Valid CursiveAttachment :=
  ⟨fun t => t.format = 1 ∧ t.coverage_offset < 65536 ∧ t.connection_count < 65536 ∧
    t.connections.length = t.connection_count ∧ valid t.connections ∧ valid t.coverage⟩

instance : Encode MarkToBaseAttachment where
  bytes t := enc16 t.format ++ enc16 t.mark_coverage_offset ++ enc16 t.base_coverage_offset ++
    enc16 t.mark_class_count ++ enc16 t.marks_offset ++ enc16 t.bases_offset
  parts t := placed t.mark_coverage_offset t.mark_coverage ++
    placed t.base_coverage_offset t.base_coverage ++ placed t.marks_offset t.marks ++
    placed t.bases_offset t.bases

/-- A valid mark-to-base attachment. -/
def validMarkToBase (cfg : Cfg) (t : MarkToBaseAttachment) : Prop :=
  t.format = 1 ∧ t.mark_coverage_offset < 65536 ∧ t.base_coverage_offset < 65536 ∧
    t.mark_class_count < 65536 ∧ t.marks_offset < 65536 ∧ t.bases_offset < 65536 ∧
    valid t.mark_coverage ∧ valid t.base_coverage ∧ validMark1s cfg t.marks ∧
    validBases t.mark_class_count t.bases

instance : Encode MarkToLigatureAttachment where
  bytes t := enc16 t.format ++ enc16 t.mark_coverage_offset ++ enc16 t.ligature_coverage_offset ++
    enc16 t.mark_class_count ++ enc16 t.marks_offset ++ enc16 t.ligatures_offset
  parts t := placed t.mark_coverage_offset t.mark_coverage ++
    placed t.ligature_coverage_offset t.ligature_coverage ++ placed t.marks_offset t.marks ++
    placed t.ligatures_offset t.ligatures

/-- A valid mark-to-ligature attachment. -/
def validMarkToLigature (cfg : Cfg) (t : MarkToLigatureAttachment) : Prop :=
  t.format = 1 ∧ t.mark_coverage_offset < 65536 ∧ t.ligature_coverage_offset < 65536 ∧
    t.mark_class_count < 65536 ∧ t.marks_offset < 65536 ∧ t.ligatures_offset < 65536 ∧
    valid t.mark_coverage ∧ valid t.ligature_coverage ∧ validMark1s cfg t.marks ∧
    validLigatures t.mark_class_count t.ligatures

instance : Encode MarkToMarkAttachment where
  bytes t := enc16 t.format ++ enc16 t.mark1_coverage_offset ++ enc16 t.mark2_coverage_offset ++
    enc16 t.mark_class_count ++ enc16 t.mark1s_offset ++ enc16 t.mark2s_offset
  parts t := placed t.mark1_coverage_offset t.mark1_coverage ++
    placed t.mark2_coverage_offset t.mark2_coverage ++ placed t.mark1s_offset t.mark1s ++
    placed t.mark2s_offset t.mark2s

/-- A valid mark-to-mark attachment. -/
def validMarkToMark (cfg : Cfg) (t : MarkToMarkAttachment) : Prop :=
  t.format = 1 ∧ t.mark1_coverage_offset < 65536 ∧ t.mark2_coverage_offset < 65536 ∧
    t.mark_class_count < 65536 ∧ t.mark1s_offset < 65536 ∧ t.mark2s_offset < 65536 ∧
    valid t.mark1_coverage ∧ valid t.mark2_coverage ∧ validMark1s cfg t.mark1s ∧
    validMark2s t.mark_class_count t.mark2s

instance : Encode ExtensionPositioning where
  bytes t := enc16 t.format ++ enc16 t.type_ ++ enc32 t.offset
instance : Valid ExtensionPositioning :=
  ⟨fun t => t.format = 1 ∧ t.type_ < 65536 ∧ t.offset < 4294967296⟩

instance : Encode gpos.Type_ where
  bytes
    | .singleAdjustment t => bytes t
    | .pairAdjustment t => bytes t
    | .cursiveAttachment t => bytes t
    | .markToBaseAttachment t => bytes t
    | .markToLigatureAttachment t => bytes t
    | .markToMarkAttachment t => bytes t
    | .contextualPositioning t => bytes t
    | .chainedContextualPositioning t => bytes t
    | .extensionPositioning t => bytes t
  parts
    | .singleAdjustment t => parts t
    | .pairAdjustment t => parts t
    | .cursiveAttachment t => parts t
    | .markToBaseAttachment t => parts t
    | .markToLigatureAttachment t => parts t
    | .markToMarkAttachment t => parts t
    | .contextualPositioning t => parts t
    | .chainedContextualPositioning t => parts t
    | .extensionPositioning t => parts t

/-- A valid positioning subtable of the given type. -/
def gpos.validTable (cfg : Cfg) (type_ : Nat) : gpos.Type_ → Prop
  | .singleAdjustment t => type_ = 1 ∧ validSingleAdjustment cfg t
  | .pairAdjustment t => type_ = 2 ∧ validPairAdjustment cfg t
  | .cursiveAttachment t => type_ = 3 ∧ valid t
  | .markToBaseAttachment t => type_ = 4 ∧ validMarkToBase cfg t
  | .markToLigatureAttachment t => type_ = 5 ∧ validMarkToLigature cfg t
  | .markToMarkAttachment t => type_ = 6 ∧ validMarkToMark cfg t
  | .contextualPositioning t => type_ = 7 ∧ valid t
  | .chainedContextualPositioning t => type_ = 8 ∧ valid t
  | .extensionPositioning t => type_ = 9 ∧ valid t

end gpos

/-! ## Color palettes -/

section cpal
open OpenType.cpal

instance : Encode Color where
  bytes t := enc8 t.blue ++ enc8 t.green ++ enc8 t.red ++ enc8 t.alpha
instance : Valid Color := ⟨fun t => t.blue < 256 ∧ t.green < 256 ∧ t.red < 256 ∧ t.alpha < 256⟩

instance : Encode cpal.Header0 where
  bytes t := enc16 t.version ++ enc16 t.entry_count ++ enc16 t.palette_count ++
    enc16 t.color_count ++ enc32 t.color_offset ++ enc16s t.color_indices
instance : Valid cpal.Header0 :=
  ⟨fun t => t.version = 0 ∧ t.entry_count < 65536 ∧ t.palette_count < 65536 ∧
    t.color_count < 65536 ∧ t.color_offset < 4294967296 ∧
    t.color_indices.length = t.palette_count ∧ All16 t.color_indices⟩

/-- Up to the color indices: the three offsets that version 1 adds are not read. -/
instance : Encode cpal.Header1 where
  bytes t := enc16 t.version ++ enc16 t.entry_count ++ enc16 t.palette_count ++
    enc16 t.color_count ++ enc32 t.color_offset ++ enc16s t.color_indices
instance : Valid cpal.Header1 :=
  ⟨fun t => t.version = 1 ∧ t.entry_count < 65536 ∧ t.palette_count < 65536 ∧
    t.color_count < 65536 ∧ t.color_offset < 4294967296 ∧
    t.color_indices.length = t.palette_count ∧ All16 t.color_indices⟩

instance : Encode ColorPalettes where
  bytes t := match t.header with | .version0 h => bytes h | .version1 h => bytes h
  parts t := match t.header with
    | .version0 h => [(h.color_offset, bytesAll t.colors)]
    | .version1 h => [(h.color_offset, bytesAll t.colors)]
instance : Valid ColorPalettes :=
  ⟨fun t => valid t.colors ∧ match t.header with
    | .version0 h => valid h ∧ t.colors.length = h.color_count
    | .version1 h => valid h ∧ t.colors.length = h.color_count⟩

end cpal

/-! ## Font variations -/

section fvar
open OpenType.fvar

/-- Tables a fixed distance apart. -/
def placedEvery {α : Type} [Encode α] (start stride : Nat) (xs : List α) : List Chunk :=
  xs.zipIdx.flatMap fun x => placed (start + stride * x.2) x.1

instance : Encode AxisRecord where
  bytes t := enc32 t.tag ++ encI32 t.min_value ++ encI32 t.default_value ++ encI32 t.max_value ++
    enc16 t.flags ++ enc16 t.name_id

/-- A valid axis. -/
def validAxis (cfg : Cfg) (t : AxisRecord) : Prop :=
  t.tag < 4294967296 ∧ InI32 t.min_value ∧ InI32 t.default_value ∧ InI32 t.max_value ∧
    t.flags < 65536 ∧ FlagsOk cfg 0xFFFE t.flags ∧ t.name_id < 65536

instance : Encode InstanceRecord where
  bytes t := enc16 t.subfamily_name_id ++ enc16 t.flags ++ t.coordinates.flatMap encI32 ++
    enc16 t.postscript_name_id

/-- A valid instance. -/
def validInstance (cfg : Cfg) (axis_count : Nat) (t : InstanceRecord) : Prop :=
  t.subfamily_name_id < 65536 ∧ t.flags < 65536 ∧ FlagsOk cfg 0xFFFF t.flags ∧
    t.coordinates.length = axis_count ∧ (∀ x ∈ t.coordinates, InI32 x) ∧
    t.postscript_name_id < 65536

instance : Encode FontVariations where
  bytes t := enc16 t.header.major_version ++ enc16 t.header.minor_version ++
    enc16 t.header.axis_offset ++ enc16 t.header.reserved ++ enc16 t.header.axis_count ++
    enc16 t.header.axis_size ++ enc16 t.header.instance_count ++ enc16 t.header.instance_size
  parts t := placedEvery t.header.axis_offset t.header.axis_size t.axis_records ++
    placedEvery (t.header.axis_offset + t.header.axis_count * t.header.axis_size)
      t.header.instance_size t.instance_records

/-- A valid table of font variations. -/
def validFontVariations (cfg : Cfg) (t : FontVariations) : Prop :=
  t.header.major_version < 65536 ∧ t.header.minor_version < 65536 ∧
    t.header.axis_offset < 65536 ∧ t.header.reserved = 2 ∧ t.header.axis_count < 65536 ∧
    t.header.axis_size < 65536 ∧ t.header.instance_count < 65536 ∧
    t.header.instance_size < 65536 ∧ t.axis_records.length = t.header.axis_count ∧
    (∀ x ∈ t.axis_records, validAxis cfg x) ∧
    t.instance_records.length = t.header.instance_count ∧
    ∀ x ∈ t.instance_records, validInstance cfg t.header.axis_count x

end fvar

/-! ## Glyph definition -/

section gdef
open OpenType.gdef

instance : Encode Attachment where
  bytes t := enc16 t.index_count ++ enc16s t.indices
instance : Valid Attachment :=
  ⟨fun t => t.index_count < 65536 ∧ t.indices.length = t.index_count ∧ All16 t.indices⟩

instance : Encode Attachments where
  bytes t := enc16 t.coverage_offset ++ enc16 t.count ++ enc16s t.offsets
  parts t := placed t.coverage_offset t.coverage ++ placedAll t.offsets t.records
instance : Valid Attachments :=
  ⟨fun t => t.coverage_offset < 65536 ∧ t.count < 65536 ∧ t.offsets.length = t.count ∧
    All16 t.offsets ∧ valid t.coverage ∧ t.records.length = t.count ∧ valid t.records⟩

instance : Encode Caret1 where
  bytes t := enc16 t.format ++ encI16 t.coordinate
instance : Valid Caret1 := ⟨fun t => t.format < 65536 ∧ InI16 t.coordinate⟩

instance : Encode Caret2 where
  bytes t := enc16 t.format ++ enc16 t.index
instance : Valid Caret2 := ⟨fun t => t.format < 65536 ∧ t.index < 65536⟩

instance : Encode Caret3 where
  bytes t := enc16 t.format ++ encI16 t.coordinate ++ enc16 t.correction_offset
  parts t := placed t.correction_offset t.correction
instance : Valid Caret3 :=
  ⟨fun t => t.format < 65536 ∧ InI16 t.coordinate ∧ t.correction_offset < 65536 ∧
    valid t.correction⟩

instance : Encode Caret where
  bytes | .format1 t => bytes t | .format2 t => bytes t | .format3 t => bytes t
  parts | .format1 t => parts t | .format2 t => parts t | .format3 t => parts t
instance : Valid Caret :=
  ⟨fun | .format1 t => t.format = 1 ∧ valid t | .format2 t => t.format = 2 ∧ valid t
       | .format3 t => t.format = 3 ∧ valid t⟩

instance : Encode gdef.Ligature where
  bytes t := enc16 t.caret_count ++ enc16s t.caret_offsets
  parts t := placedAll t.caret_offsets t.carets
instance : Valid gdef.Ligature :=
  ⟨fun t => t.caret_count < 65536 ∧ t.caret_offsets.length = t.caret_count ∧
    All16 t.caret_offsets ∧ t.carets.length = t.caret_count ∧ valid t.carets⟩

instance : Encode gdef.Ligatures where
  bytes t := enc16 t.coverage_offset ++ enc16 t.count ++ enc16s t.offsets
  parts t := placed t.coverage_offset t.coverage ++ placedAll t.offsets t.records
instance : Valid gdef.Ligatures :=
  ⟨fun t => t.coverage_offset < 65536 ∧ t.count < 65536 ∧ t.offsets.length = t.count ∧
    All16 t.offsets ∧ valid t.coverage ∧ t.records.length = t.count ∧ valid t.records⟩

instance : Encode Marks where
  bytes t := enc16 t.format ++ enc16 t.count ++ enc32s t.coverage_offsets
  parts t := placedAll t.coverage_offsets t.coverages
instance : Valid Marks :=
  ⟨fun t => t.format = 1 ∧ t.count < 65536 ∧ t.coverage_offsets.length = t.count ∧
    All32 t.coverage_offsets ∧ t.coverages.length = t.count ∧ valid t.coverages⟩

instance : Encode item.Record where
  bytes t := enc16 t.item_count ++ enc16 t.short_delta_count ++ enc16 t.region_count ++
    enc16s t.region_indices ++ t.deltas.flatMap enc8
/-- A valid record as the code understands it: see property C38 for how many bytes of deltas OpenType
has. -/
def validItemRecord (cfg : Cfg) (t : item.Record) : Prop :=
  t.item_count < 65536 ∧ t.short_delta_count < 65536 ∧ t.region_count < 65536 ∧
    t.region_indices.length = t.region_count ∧ All16 t.region_indices ∧
    (cfg.overflowChecks = true → t.short_delta_count + t.region_count < 65536) ∧
    t.deltas.length = t.item_count * ((t.short_delta_count + t.region_count) % 65536) ∧
    ∀ x ∈ t.deltas, x < 256

instance : Encode item.Store where
  bytes t := enc16 t.format ++ enc32 t.region_offset ++ enc16 t.count ++ enc32s t.offsets
  parts t := placedAll t.offsets t.records

/-- A valid variation store as the code understands it. -/
def validStore (cfg : Cfg) (t : item.Store) : Prop :=
  t.format = 1 ∧ t.region_offset < 4294967296 ∧ t.count < 65536 ∧ t.offsets.length = t.count ∧
    All32 t.offsets ∧ t.records.length = t.count ∧ ∀ x ∈ t.records, validItemRecord cfg x

instance : Encode gdef.Header where
  bytes
    | .version1 t => enc16 t.major_version ++ enc16 t.minor_version ++
      enc16 t.glyph_class_offset ++ enc16 t.attachment_offset ++ enc16 t.ligature_offset ++
      enc16 t.mark_class_offset
    | .version12 t => enc16 t.major_version ++ enc16 t.minor_version ++
      enc16 t.glyph_class_offset ++ enc16 t.attachment_offset ++ enc16 t.ligature_offset ++
      enc16 t.mark_class_offset ++ enc16 t.mark_offset
    | .version13 t => enc16 t.major_version ++ enc16 t.minor_version ++
      enc16 t.glyph_class_offset ++ enc16 t.attachment_offset ++ enc16 t.ligature_offset ++
      enc16 t.mark_class_offset ++ enc16 t.mark_offset ++ enc32 t.variation_offset
instance : Valid gdef.Header :=
  ⟨fun
    | .version1 t => t.major_version = 1 ∧ t.minor_version = 0 ∧ t.glyph_class_offset < 65536 ∧
      t.attachment_offset < 65536 ∧ t.ligature_offset < 65536 ∧ t.mark_class_offset < 65536
    | .version12 t => t.major_version = 1 ∧ t.minor_version = 2 ∧ t.glyph_class_offset < 65536 ∧
      t.attachment_offset < 65536 ∧ t.ligature_offset < 65536 ∧ t.mark_class_offset < 65536 ∧
      t.mark_offset < 65536
    | .version13 t => t.major_version = 1 ∧ t.minor_version = 3 ∧ t.glyph_class_offset < 65536 ∧
      t.attachment_offset < 65536 ∧ t.ligature_offset < 65536 ∧ t.mark_class_offset < 65536 ∧
      t.mark_offset < 65536 ∧ t.variation_offset < 4294967296⟩

instance : Encode GlyphDefinition where
  bytes t := bytes t.header
  parts t := placedOpt (gdef.offsets t.header).1 t.glyph_class ++
    placedOpt (gdef.offsets t.header).2.1 t.attachments ++
    placedOpt (gdef.offsets t.header).2.2.1 t.ligatures ++
    placedOpt (gdef.offsets t.header).2.2.2.1 t.mark_class ++
    placedOpt (gdef.offsets t.header).2.2.2.2.1 t.marks ++
    placedOpt (gdef.offsets t.header).2.2.2.2.2 t.variations

/-- A valid glyph definition table, according to OpenType but for the size of the variation records. -/
def validGlyphDefinition (cfg : Cfg) (t : GlyphDefinition) : Prop :=
  valid t.header ∧
    Presence (gdef.offsets t.header).1 t.glyph_class ∧ valid t.glyph_class ∧
    Presence (gdef.offsets t.header).2.1 t.attachments ∧ valid t.attachments ∧
    Presence (gdef.offsets t.header).2.2.1 t.ligatures ∧ valid t.ligatures ∧
    Presence (gdef.offsets t.header).2.2.2.1 t.mark_class ∧ valid t.mark_class ∧
    Presence (gdef.offsets t.header).2.2.2.2.1 t.marks ∧ valid t.marks ∧
    Presence (gdef.offsets t.header).2.2.2.2.2 t.variations ∧
    ∀ x, t.variations = some x → validStore cfg x

end gdef
end OpenType.Spec
