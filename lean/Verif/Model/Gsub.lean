import Verif.Model.Layout
import Verif.Model.Lists
/-! # `src/tables/glyph_substitution/{element,mod}.rs` -/

namespace OpenType.gsub
open coverage context

/-- `src/tables/glyph_substitution/element.rs:3-12`. -/
structure Alternates where
  glyph_count : Nat
  glyph_ids : List Nat
deriving DecidableEq, Repr

/-- `src/tables/glyph_substitution/element.rs:3-12`. -/
def Alternates.read : Reader Alternates := do
  let glyph_count ← u16
  let glyph_ids ← takeVec u16 glyph_count
  return { glyph_count, glyph_ids }

/-- `src/tables/glyph_substitution/element.rs:14-27`. -/
structure Ligature where
  glyph_id : Nat
  glyph_count : Nat
  glyph_ids : List Nat
deriving DecidableEq, Repr

/-- `src/tables/glyph_substitution/element.rs:14-27`. -/
def Ligature.read : Reader Ligature := do
  let glyph_id ← u16
  let glyph_count ← u16
  raiseIf (glyph_count = 0) "found a malformed ligature substitution"
  let rest_count ← subUint glyph_count 1
  let glyph_ids ← takeVec u16 rest_count
  return { glyph_id, glyph_count, glyph_ids }

/-- `src/tables/glyph_substitution/element.rs:29-43`. -/
structure Ligatures where
  count : Nat
  offsets : List Nat
  records : List Ligature
deriving DecidableEq, Repr

/-- `src/tables/glyph_substitution/element.rs:29-43`. -/
def Ligatures.read : Reader Ligatures := do
  let position ← position
  let count ← u16
  let offsets ← takeVec u16 count
  let records ← jumpTakeN position count offsets Ligature.read
  return { count, offsets, records }

/-- `src/tables/glyph_substitution/element.rs:45-54`. -/
structure Sequence where
  glyph_count : Nat
  glyph_ids : List Nat
deriving DecidableEq, Repr

/-- `src/tables/glyph_substitution/element.rs:45-54`. -/
def Sequence.read : Reader Sequence := do
  let glyph_count ← u16
  let glyph_ids ← takeVec u16 glyph_count
  return { glyph_count, glyph_ids }

/-- `src/tables/glyph_substitution/mod.rs:39-51`. -/
structure SingleSubstitution1 where
  format : Nat
  coverage_offset : Nat
  delta_glyph_id : Int
  coverage : Coverage
deriving DecidableEq, Repr

/-- `src/tables/glyph_substitution/mod.rs:39-51`. -/
def SingleSubstitution1.read : Reader SingleSubstitution1 := do
  let position ← position
  let format ← u16
  let coverage_offset ← u16
  let delta_glyph_id ← i16
  let coverage ← jumpTake position coverage_offset Coverage.read
  return { format, coverage_offset, delta_glyph_id, coverage }

/-- `src/tables/glyph_substitution/mod.rs:53-69`. -/
structure SingleSubstitution2 where
  format : Nat
  coverage_offset : Nat
  glyph_count : Nat
  glyph_ids : List Nat
  coverage : Coverage
deriving DecidableEq, Repr

/-- `src/tables/glyph_substitution/mod.rs:53-69`. -/
def SingleSubstitution2.read : Reader SingleSubstitution2 := do
  let position ← position
  let format ← u16
  let coverage_offset ← u16
  let glyph_count ← u16
  let glyph_ids ← takeVec u16 glyph_count
  let coverage ← jumpTake position coverage_offset Coverage.read
  return { format, coverage_offset, glyph_count, glyph_ids, coverage }

/-- `src/tables/glyph_substitution/mod.rs:30-37`. -/
inductive SingleSubstitution where
  | format1 (table : SingleSubstitution1)
  | format2 (table : SingleSubstitution2)
deriving DecidableEq, Repr

/-- `src/tables/glyph_substitution/mod.rs:202-210`. -/
def SingleSubstitution.read : Reader SingleSubstitution := do
  match ← peek u16 with
  | 1 => return .format1 (← SingleSubstitution1.read)
  | 2 => return .format2 (← SingleSubstitution2.read)
  | value => raise ⟨"found an unknown format of the single substitution", [value]⟩

/-- `src/tables/glyph_substitution/mod.rs:71-91`. -/
structure MultipleSubstitution where
  format : Nat
  coverage_offset : Nat
  record_count : Nat
  record_offsets : List Nat
  coverage : Coverage
  records : List Sequence
deriving DecidableEq, Repr

/-- `src/tables/glyph_substitution/mod.rs:71-91`. -/
def MultipleSubstitution.read : Reader MultipleSubstitution := do
  let position ← position
  let format ← expectU16 1
  let coverage_offset ← u16
  let record_count ← u16
  let record_offsets ← takeVec u16 record_count
  let coverage ← jumpTake position coverage_offset Coverage.read
  let records ← jumpTakeN position record_count record_offsets Sequence.read
  return { format, coverage_offset, record_count, record_offsets, coverage, records }

/-- `src/tables/glyph_substitution/mod.rs:93-113`. -/
structure AlternateSubstitution where
  format : Nat
  coverage_offset : Nat
  record_count : Nat
  record_offsets : List Nat
  coverage : Coverage
  records : List Alternates
deriving DecidableEq, Repr

/-- `src/tables/glyph_substitution/mod.rs:93-113`. -/
def AlternateSubstitution.read : Reader AlternateSubstitution := do
  let position ← position
  let format ← expectU16 1
  let coverage_offset ← u16
  let record_count ← u16
  let record_offsets ← takeVec u16 record_count
  let coverage ← jumpTake position coverage_offset Coverage.read
  let records ← jumpTakeN position record_count record_offsets Alternates.read
  return { format, coverage_offset, record_count, record_offsets, coverage, records }

/-- `src/tables/glyph_substitution/mod.rs:115-135`. -/
structure LigatureSubstitution where
  format : Nat
  coverage_offset : Nat
  record_count : Nat
  record_offsets : List Nat
  coverage : Coverage
  records : List Ligatures
deriving DecidableEq, Repr

/-- `src/tables/glyph_substitution/mod.rs:115-135`. -/
def LigatureSubstitution.read : Reader LigatureSubstitution := do
  let position ← position
  let format ← expectU16 1
  let coverage_offset ← u16
  let record_count ← u16
  let record_offsets ← takeVec u16 record_count
  let coverage ← jumpTake position coverage_offset Coverage.read
  let records ← jumpTakeN position record_count record_offsets Ligatures.read
  return { format, coverage_offset, record_count, record_offsets, coverage, records }

/-- `src/tables/glyph_substitution/mod.rs:137-144`. -/
structure ExtensionSubstitution where
  format : Nat
  type_ : Nat
  offset : Nat
deriving DecidableEq, Repr

/-- `src/tables/glyph_substitution/mod.rs:137-144`. -/
def ExtensionSubstitution.read : Reader ExtensionSubstitution := do
  let format ← expectU16 1
  let type_ ← u16
  let offset ← u32
  return { format, type_, offset }

/-- `src/tables/glyph_substitution/mod.rs:146-182`. -/
structure ReverseChainedContextualSubstibution where
  format : Nat
  coverage_offset : Nat
  backward_glyph_count : Nat
  backward_coverage_offsets : List Nat
  forward_glyph_count : Nat
  forward_coverage_offsets : List Nat
  glyph_count : Nat
  glyph_ids : List Nat
  coverage : Coverage
  backward_coverages : List Coverage
  forward_coverages : List Coverage
deriving DecidableEq, Repr

/-- `src/tables/glyph_substitution/mod.rs:146-182`. -/
def ReverseChainedContextualSubstibution.read : Reader ReverseChainedContextualSubstibution := do
  let position ← position
  let format ← u16
  let coverage_offset ← u16
  let backward_glyph_count ← u16
  let backward_coverage_offsets ← takeVec u16 backward_glyph_count
  let forward_glyph_count ← u16
  let forward_coverage_offsets ← takeVec u16 forward_glyph_count
  let glyph_count ← u16
  let glyph_ids ← takeVec u16 glyph_count
  let coverage ← jumpTake position coverage_offset Coverage.read
  let backward_coverages ←
    jumpTakeN position backward_glyph_count backward_coverage_offsets Coverage.read
  let forward_coverages ←
    jumpTakeN position forward_glyph_count forward_coverage_offsets Coverage.read
  return { format, coverage_offset, backward_glyph_count, backward_coverage_offsets,
           forward_glyph_count, forward_coverage_offsets, glyph_count, glyph_ids, coverage,
           backward_coverages, forward_coverages }

/-- `src/tables/glyph_substitution/mod.rs:17-28`. -/
inductive Type_ where
  | singleSubstitution (table : SingleSubstitution)
  | multipleSubstitution (table : MultipleSubstitution)
  | alternateSubstitution (table : AlternateSubstitution)
  | ligatureSubstitution (table : LigatureSubstitution)
  | contextualSubstitution (table : Context)
  | chainedContextualSubstitution (table : ChainedContext)
  | extensionSubstitution (table : ExtensionSubstitution)
  | reverseChainedContextualSubstibution (table : ReverseChainedContextualSubstibution)
deriving DecidableEq, Repr

/-- `src/tables/glyph_substitution/mod.rs:184-200`. -/
def Type_.read (type_ : Nat) : Reader Type_ :=
  match type_ with
  | 1 => do return .singleSubstitution (← SingleSubstitution.read)
  | 2 => do return .multipleSubstitution (← MultipleSubstitution.read)
  | 3 => do return .alternateSubstitution (← AlternateSubstitution.read)
  | 4 => do return .ligatureSubstitution (← LigatureSubstitution.read)
  | 5 => do return .contextualSubstitution (← Context.read)
  | 6 => do return .chainedContextualSubstitution (← ChainedContext.read)
  | 7 => do return .extensionSubstitution (← ExtensionSubstitution.read)
  | 8 => do
    return .reverseChainedContextualSubstibution (← ReverseChainedContextualSubstibution.read)
  | value => raise ⟨"found an unknown type of glyph substitution", [value]⟩

/-- `src/tables/glyph_substitution/mod.rs:14-15`. -/
abbrev GlyphSubstitution := directory.Directory Type_

/-- `src/tables/glyph_substitution/mod.rs:14-15` with `src/layout/directory.rs:22-67`. -/
def GlyphSubstitution.read (cfg : Cfg) : Reader GlyphSubstitution :=
  directory.Directory.read cfg Type_.read

end OpenType.gsub
