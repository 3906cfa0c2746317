import Verif.Model.Lists
import Verif.Spec.Basic
/-! # Specification: script, language, feature and lookup lists and the directory -/

namespace OpenType.Spec
open OpenType script feature lookup directory

/-- LangSysRecord. -/
def IsLanguageHeader (d : Data) (p : Nat) (t : language.Header) : Prop :=
  U32 d p t.tag ∧ U16 d (p + 4) t.offset

/-- LangSys: `lookupOrderOffset` is reserved and must be null. -/
def IsLanguageRecord (d : Data) (p : Nat) (t : language.Record) : Prop :=
  U16 d p t.lookup_order_offset ∧ t.lookup_order_offset = 0 ∧
    U16 d (p + 2) t.required_feature_index ∧ U16 d (p + 4) t.feature_index_count ∧
    U16s d (p + 6) t.feature_index_count t.feature_indices

/-- ScriptRecord. -/
def IsScriptHeader (d : Data) (p : Nat) (t : script.Header) : Prop :=
  U32 d p t.tag ∧ U16 d (p + 4) t.offset

/-- Script. -/
def IsScriptRecord (d : Data) (p : Nat) (t : script.Record) : Prop :=
  U16 d p t.default_language_offset ∧ U16 d (p + 2) t.language_count ∧
    ArrayOf (IsLanguageHeader d) 6 (p + 4) t.language_count t.language_headers ∧
    Optional (IsLanguageRecord d) p t.default_language_offset t.default_language ∧
    AtOffsets (IsLanguageRecord d) p (t.language_headers.map (·.offset)) t.language_records

/-- ScriptList. -/
def IsScripts (d : Data) (p : Nat) (t : Scripts) : Prop :=
  U16 d p t.count ∧ ArrayOf (IsScriptHeader d) 6 (p + 2) t.count t.headers ∧
    AtOffsets (IsScriptRecord d) p (t.headers.map (·.offset)) t.records

/-- FeatureRecord. -/
def IsFeatureHeader (d : Data) (p : Nat) (t : feature.Header) : Prop :=
  U32 d p t.tag ∧ U16 d (p + 4) t.offset

/-- Feature. Parameters are recorded as present, without their bytes. -/
def IsFeatureRecord (d : Data) (p : Nat) (t : feature.Record) : Prop :=
  U16 d p t.parameter_offset ∧ U16 d (p + 2) t.lookup_index_count ∧
    U16s d (p + 4) t.lookup_index_count t.lookup_indices ∧
    t.parameters = if t.parameter_offset = 0 then none else some []

/-- FeatureVariations (header only). -/
def IsVariations (d : Data) (p : Nat) (t : Variations) : Prop :=
  U16 d p t.major_version ∧ t.major_version = 1 ∧ U16 d (p + 2) t.minor_version ∧
    t.minor_version = 0 ∧ U32 d (p + 4) t.count

/-- FeatureList. -/
def IsFeatures (d : Data) (p : Nat) (t : Features) : Prop :=
  U16 d p t.count ∧ ArrayOf (IsFeatureHeader d) 6 (p + 2) t.count t.headers ∧
    AtOffsets (IsFeatureRecord d) p (t.headers.map (·.offset)) t.records

/-- The optional `markFilteringSet` after the offsets: present exactly when bit 4 of the flags is set. -/
def IsMarkFilteringSet (d : Data) (p flags : Nat) (x : Option Nat) : Prop :=
  match x with
  | none => flags.testBit 4 = false
  | some n => flags.testBit 4 = true ∧ U16 d p n

/-- Lookup: `isTable type` describes the subtables of that lookup type. -/
def IsLookupRecord {T : Type} (cfg : Cfg) (isTable : Nat → Data → Nat → T → Prop) (d : Data) (p : Nat)
    (t : lookup.Record T) : Prop :=
  U16 d p t.type_ ∧ U16 d (p + 2) t.flags ∧ FlagsOk cfg 0x00E0 t.flags ∧ U16 d (p + 4) t.table_count ∧
    U16s d (p + 6) t.table_count t.table_offsets ∧
    IsMarkFilteringSet d (p + 6 + 2 * t.table_count) t.flags t.mark_filtering_set ∧
    AtOffsets (isTable t.type_ d) p t.table_offsets t.tables

/-- LookupList. -/
def IsLookups {T : Type} (cfg : Cfg) (isTable : Nat → Data → Nat → T → Prop) (d : Data) (p : Nat)
    (t : Lookups T) : Prop :=
  U16 d p t.count ∧ U16s d (p + 2) t.count t.offsets ∧
    AtOffsets (IsLookupRecord cfg isTable d) p t.offsets t.records

/-- One of the three lists of the directory: at its offset, or, with `ignore-incomplete-directories` and
a zero offset, empty. -/
def IsPart {α : Type} (cfg : Cfg) (S : Nat → α → Prop) (base offset : Nat) (empty x : α) : Prop :=
  if cfg.ignoreIncompleteDirectories = true ∧ offset = 0 then x = empty else S (base + offset) x

/-- The GSUB/GPOS header with the lists it leads to. -/
def IsDirectory {T : Type} (cfg : Cfg) (isTable : Nat → Data → Nat → T → Prop) (d : Data) (p : Nat)
    (t : Directory T) : Prop :=
  U16 d p t.major_version ∧ U16 d (p + 2) t.minor_version ∧ t.major_version = 1 ∧
    (t.minor_version = 0 ∨ t.minor_version = 1) ∧
    U16 d (p + 4) t.script_offset ∧ U16 d (p + 6) t.feature_offset ∧ U16 d (p + 8) t.lookup_offset ∧
    (if t.minor_version = 1 then U32 d (p + 10) t.variation_offset else t.variation_offset = 0) ∧
    IsPart cfg (IsScripts d) p t.script_offset ⟨0, [], []⟩ t.scripts ∧
    IsPart cfg (IsFeatures d) p t.feature_offset ⟨0, [], []⟩ t.features ∧
    IsPart cfg (IsLookups cfg isTable d) p t.lookup_offset ⟨0, [], []⟩ t.lookups ∧
    Optional (IsVariations d) p t.variation_offset t.variations

end OpenType.Spec
