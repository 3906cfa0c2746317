import Verif.Model.Lists
import Verif.Proof.Translation
/-!
# Generated by `tools/translate.py` from the source: do not edit

Each definition is the translation of the code at the lines given, and each theorem says that the definition
of the model written by hand is the same.
-/

set_option linter.unusedVariables false

namespace OpenType.Generated

namespace language
/-- `src/layout/language.rs:5-11`. -/
def Header.read : Reader language.Header := do
  let tag ← takeTag
  let offset ← u16
  return { tag, offset }

/-- The model of `src/layout/language.rs:5-11` is its translation. -/
theorem Header.read_eq : @Header.read = @OpenType.language.Header.read := rfl
end language

namespace language
/-- `src/layout/language.rs:13-24`. -/
def Record.read : Reader language.Record := do
  let lookup_order_offset ← expectU16 0
  let required_feature_index ← u16
  let feature_index_count ← u16
  let feature_indices ← takeVec u16 feature_index_count
  return { lookup_order_offset, required_feature_index, feature_index_count, feature_indices }

/-- The model of `src/layout/language.rs:13-24` is its translation. -/
theorem Record.read_eq : @Record.read = @OpenType.language.Record.read := rfl
end language

namespace script
/-- `src/layout/script.rs:23-30`. -/
def Header.read : Reader script.Header := do
  let tag ← takeTag
  let offset ← u16
  return { tag, offset }

/-- The model of `src/layout/script.rs:23-30` is its translation. -/
theorem Header.read_eq : @Header.read = @OpenType.script.Header.read := rfl
end script

namespace script
/-- `src/layout/script.rs:32-51`. -/
def Record.read : Reader script.Record := do
  let position ← position
  let default_language_offset ← u16
  let language_count ← u16
  let language_headers ← takeVec Generated.language.Header.read language_count
  let default_language ← jumpTakeMaybe position default_language_offset Generated.language.Record.read
  let language_records ←
    forFrom (fun i => do
      let t1 ← index language_headers i
      jumpTake position t1.offset Generated.language.Record.read) 0 language_count
  return { default_language_offset, language_count, language_headers, default_language, language_records }

/-- The model of `src/layout/script.rs:32-51` is its translation. -/
theorem Record.read_eq : @Record.read = @OpenType.script.Record.read := by
  delta Record.read OpenType.script.Record.read
  simp only [Generated.language.Header.read_eq, Generated.language.Record.read_eq, forFrom_index] <;> rfl
end script

namespace script
/-- `src/layout/script.rs:7-21`. -/
def Scripts.read : Reader script.Scripts := do
  let position ← position
  let count ← u16
  let headers ← takeVec Header.read count
  let records ←
    forFrom (fun i => do
      let t1 ← index headers i
      jumpTake position t1.offset Record.read) 0 count
  return { count, headers, records }

/-- The model of `src/layout/script.rs:7-21` is its translation. -/
theorem Scripts.read_eq : @Scripts.read = @OpenType.script.Scripts.read := by
  delta Scripts.read OpenType.script.Scripts.read
  simp only [Header.read_eq, Record.read_eq, forFrom_index] <;> rfl
end script

namespace feature
/-- `src/layout/feature.rs:21-28`. -/
def Header.read : Reader feature.Header := do
  let tag ← takeTag
  let offset ← u16
  return { tag, offset }

/-- The model of `src/layout/feature.rs:21-28` is its translation. -/
theorem Header.read_eq : @Header.read = @OpenType.feature.Header.read := rfl
end feature

namespace feature
/-- `src/layout/feature.rs:30-50`. -/
def Record.read : Reader feature.Record := do
  let position ← position
  let parameter_offset ← u16
  let lookup_index_count ← u16
  let lookup_indices ← takeVec u16 lookup_index_count
  let parameters ←
    (if (parameter_offset > 0) then
      do
        let t1 ← addU64 position parameter_offset
        jump t1
        let t3 ← takeBytes 0
        pure (some t3)
    else
      pure none)
  return { parameter_offset, lookup_index_count, lookup_indices, parameters }

/-- The model of `src/layout/feature.rs:30-50` is its translation. -/
theorem Record.read_eq : @Record.read = @OpenType.feature.Record.read := rfl
end feature

namespace feature
/-- `src/layout/feature.rs:5-19`. -/
def Features.read : Reader feature.Features := do
  let position ← position
  let count ← u16
  let headers ← takeVec Header.read count
  let records ←
    forFrom (fun i => do
      let t1 ← index headers i
      jumpTake position t1.offset Record.read) 0 count
  return { count, headers, records }

/-- The model of `src/layout/feature.rs:5-19` is its translation. -/
theorem Features.read_eq : @Features.read = @OpenType.feature.Features.read := by
  delta Features.read OpenType.feature.Features.read
  simp only [Header.read_eq, Record.read_eq, forFrom_index] <;> rfl
end feature

namespace feature
/-- `src/layout/feature.rs:52-60`. -/
def Variations.read : Reader feature.Variations := do
  let major_version ← expectU16 1
  let minor_version ← expectU16 0
  let count ← u32
  return { major_version, minor_version, count }

/-- The model of `src/layout/feature.rs:52-60` is its translation. -/
theorem Variations.read_eq : @Variations.read = @OpenType.feature.Variations.read := rfl
end feature

namespace lookup
/-- `src/layout/lookup.rs:31`. -/
def Flags.is_right_to_left (flags : Nat) : Bool := flag flags 0b0000000000000001

/-- The model of `src/layout/lookup.rs:31` is its translation. -/
theorem Flags.is_right_to_left_eq : @Flags.is_right_to_left = @OpenType.lookup.is_right_to_left := rfl
end lookup

namespace lookup
/-- `src/layout/lookup.rs:32`. -/
def Flags.should_ignore_base_glyphs (flags : Nat) : Bool := flag flags 0b0000000000000010

/-- The model of `src/layout/lookup.rs:32` is its translation. -/
theorem Flags.should_ignore_base_glyphs_eq : @Flags.should_ignore_base_glyphs = @OpenType.lookup.should_ignore_base_glyphs := rfl
end lookup

namespace lookup
/-- `src/layout/lookup.rs:33`. -/
def Flags.should_ignore_ligature (flags : Nat) : Bool := flag flags 0b0000000000000100

/-- The model of `src/layout/lookup.rs:33` is its translation. -/
theorem Flags.should_ignore_ligature_eq : @Flags.should_ignore_ligature = @OpenType.lookup.should_ignore_ligature := rfl
end lookup

namespace lookup
/-- `src/layout/lookup.rs:34`. -/
def Flags.should_ignore_marks (flags : Nat) : Bool := flag flags 0b0000000000001000

/-- The model of `src/layout/lookup.rs:34` is its translation. -/
theorem Flags.should_ignore_marks_eq : @Flags.should_ignore_marks = @OpenType.lookup.should_ignore_marks := rfl
end lookup

namespace lookup
/-- `src/layout/lookup.rs:35`. -/
def Flags.has_mark_filtering (flags : Nat) : Bool := flag flags 0b0000000000010000

/-- The model of `src/layout/lookup.rs:35` is its translation. -/
theorem Flags.has_mark_filtering_eq : @Flags.has_mark_filtering = @OpenType.lookup.has_mark_filtering := rfl
end lookup

namespace lookup
/-- `src/layout/lookup.rs:36`. -/
def Flags.is_invalid (flags : Nat) : Bool := flag flags 0b0000000011100000

/-- The model of `src/layout/lookup.rs:36` is its translation. -/
theorem Flags.is_invalid_eq : @Flags.is_invalid = @OpenType.lookup.is_invalid := rfl
end lookup

namespace lookup
/-- `src/layout/lookup.rs:28-38`. -/
def Flags.read (cfg : Cfg) : Reader Nat := flagsU16 cfg 0b0000000011100000

/-- The model of `src/layout/lookup.rs:28-38` is its translation. -/
theorem Flags.read_eq : @Flags.read = (fun cfg => flagsU16 cfg OpenType.lookup.invalidFlags) := rfl
end lookup

namespace lookup
/-- `src/layout/lookup.rs:68-93`. -/
def Record.read {U : Type} (cfg : Cfg) (readU : Nat → Reader U) : Reader (lookup.Record U) := do
  let position ← position
  let type_ ← u16
  let flags ← Flags.read cfg
  let table_count ← u16
  let table_offsets ← takeVec u16 table_count
  let mark_filtering_set ←
    (if (Flags.has_mark_filtering flags = true) then
      do
        let t6 ← u16
        pure (some t6)
    else
      pure none)
  let tables ← jumpTakeN position table_count table_offsets (readU type_)
  return { type_, flags, table_count, table_offsets, mark_filtering_set, tables }

/-- The model of `src/layout/lookup.rs:68-93` is its translation. -/
theorem Record.read_eq : @Record.read = @OpenType.lookup.Record.read := by
  delta Record.read OpenType.lookup.Record.read
  simp only [Flags.read_eq] <;> rfl
end lookup

namespace lookup
/-- `src/layout/lookup.rs:51-66`. -/
def Lookups.read {U : Type} (cfg : Cfg) (readU : Nat → Reader U) : Reader (lookup.Lookups U) := do
  let position ← position
  let count ← u16
  let offsets ← takeVec u16 count
  let records ← jumpTakeN position count offsets (Record.read cfg readU)
  return { count, offsets, records }

/-- The model of `src/layout/lookup.rs:51-66` is its translation. -/
theorem Lookups.read_eq : @Lookups.read = @OpenType.lookup.Lookups.read := by
  delta Lookups.read OpenType.lookup.Lookups.read
  simp only [Record.read_eq] <;> rfl
end lookup

namespace lookup
/-- `src/layout/lookup.rs:40-49`. -/
def Lookups.default {T : Type} : lookup.Lookups T := { count := 0, offsets := [], records := [] }

/-- The model of `src/layout/lookup.rs:40-49` is its translation. -/
theorem Lookups.default_eq : @Lookups.default = @OpenType.lookup.Lookups.default := rfl
end lookup

namespace directory
/-- `src/layout/directory.rs:22-67`. -/
def Directory.read {U : Type} (cfg : Cfg) (readU : Nat → Reader U) : Reader (directory.Directory U) := do
  let position ← position
  let major_version ← u16
  let minor_version ← u16
  (if (major_version, minor_version) = (1, 0) ∨ (major_version, minor_version) = (1, 1) then
    pure ()
  else
    do
      let value := (major_version, minor_version)
      raise ⟨"found an unknown version of the directory table", [value.1, value.2]⟩)
  let script_offset ← u16
  let feature_offset ← u16
  let lookup_offset ← u16
  let variation_offset ←
    (if (major_version, minor_version) = (1, 1) then
      u32
    else
      pure 0)
  let (scripts, features, lookups) ←
    (if cfg.ignoreIncompleteDirectories = true then
      do
        let t9 ← jumpTakeMaybe position script_offset Generated.script.Scripts.read
        let t10 ← jumpTakeMaybe position feature_offset Generated.feature.Features.read
        let t11 ← jumpTakeMaybe position lookup_offset (Generated.lookup.Lookups.read cfg readU)
        pure ((t9.getD { count := 0, headers := [], records := [] }), (t10.getD { count := 0, headers := [], records := [] }), (t11.getD (Generated.lookup.Lookups.default)))
    else
      do
        let t12 ← jumpTake position script_offset Generated.script.Scripts.read
        let t13 ← jumpTake position feature_offset Generated.feature.Features.read
        let t14 ← jumpTake position lookup_offset (Generated.lookup.Lookups.read cfg readU)
        pure (t12, t13, t14))
  let variations ← jumpTakeMaybe position variation_offset Generated.feature.Variations.read
  return { major_version, minor_version, script_offset, feature_offset, lookup_offset, variation_offset, scripts, features, lookups, variations }

/-- The model of `src/layout/directory.rs:22-67` is its translation. -/
theorem Directory.read_eq : @Directory.read = @OpenType.directory.Directory.read := by
  funext U cfg readU
  have lawful := Reader.lawful
  unfold Directory.read OpenType.directory.Directory.read directory.part directory.variationOffset raiseIf
  simp only [Generated.feature.Features.read_eq, Generated.feature.Variations.read_eq,
    Generated.lookup.Lookups.default_eq, Generated.lookup.Lookups.read_eq, Generated.script.Scripts.read_eq, ite_not]
  cases cfg.ignoreIncompleteDirectories <;> simp only [Bool.false_eq_true, if_true, if_false, bind_assoc, pure_bind] <;>
    rfl
end directory

end OpenType.Generated
