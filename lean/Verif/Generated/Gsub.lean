import Verif.Model.Gsub
import Verif.Generated.Layout
import Verif.Generated.Lists
/-!
# Generated by `tools/translate.py` from the source: do not edit

Each definition is the translation of the code at the lines given, and each theorem says that the definition
of the model written by hand is the same.
-/

set_option linter.unusedVariables false

namespace OpenType.Generated

namespace gsub
/-- `src/tables/glyph_substitution/element.rs:3-12`. -/
def Alternates.read : Reader gsub.Alternates := do
  let glyph_count ← u16
  let glyph_ids ← takeVec u16 glyph_count
  return { glyph_count, glyph_ids }

/-- The model of `src/tables/glyph_substitution/element.rs:3-12` is its translation. -/
theorem Alternates.read_eq : @Alternates.read = @OpenType.gsub.Alternates.read := rfl
end gsub

namespace gsub
/-- `src/tables/glyph_substitution/element.rs:14-27`. -/
def Ligature.read : Reader gsub.Ligature := do
  let glyph_id ← u16
  let glyph_count ← u16
  raiseIf (glyph_count = 0) "found a malformed ligature substitution"
  let t2 ← subUint glyph_count 1
  let glyph_ids ← takeVec u16 t2
  return { glyph_id, glyph_count, glyph_ids }

/-- The model of `src/tables/glyph_substitution/element.rs:14-27` is its translation. -/
theorem Ligature.read_eq : @Ligature.read = @OpenType.gsub.Ligature.read := rfl
end gsub

namespace gsub
/-- `src/tables/glyph_substitution/element.rs:29-43`. -/
def Ligatures.read : Reader gsub.Ligatures := do
  let position ← position
  let count ← u16
  let offsets ← takeVec u16 count
  let records ← jumpTakeN position count offsets Ligature.read
  return { count, offsets, records }

/-- The model of `src/tables/glyph_substitution/element.rs:29-43` is its translation. -/
theorem Ligatures.read_eq : @Ligatures.read = @OpenType.gsub.Ligatures.read := by
  delta Ligatures.read OpenType.gsub.Ligatures.read
  simp only [Ligature.read_eq] <;> rfl
end gsub

namespace gsub
/-- `src/tables/glyph_substitution/element.rs:45-54`. -/
def Sequence.read : Reader gsub.Sequence := do
  let glyph_count ← u16
  let glyph_ids ← takeVec u16 glyph_count
  return { glyph_count, glyph_ids }

/-- The model of `src/tables/glyph_substitution/element.rs:45-54` is its translation. -/
theorem Sequence.read_eq : @Sequence.read = @OpenType.gsub.Sequence.read := rfl
end gsub

namespace gsub
/-- `src/tables/glyph_substitution/mod.rs:93-113`. -/
def AlternateSubstitution.read : Reader gsub.AlternateSubstitution := do
  let position ← position
  let format ← expectU16 1
  let coverage_offset ← u16
  let record_count ← u16
  let record_offsets ← takeVec u16 record_count
  let coverage ← jumpTake position coverage_offset Generated.coverage.Coverage.read
  let records ← jumpTakeN position record_count record_offsets Alternates.read
  return { format, coverage_offset, record_count, record_offsets, coverage, records }

/-- The model of `src/tables/glyph_substitution/mod.rs:93-113` is its translation. -/
theorem AlternateSubstitution.read_eq : @AlternateSubstitution.read = @OpenType.gsub.AlternateSubstitution.read := by
  delta AlternateSubstitution.read OpenType.gsub.AlternateSubstitution.read
  simp only [Alternates.read_eq, Generated.coverage.Coverage.read_eq] <;> rfl
end gsub

namespace gsub
/-- `src/tables/glyph_substitution/mod.rs:137-144`. -/
def ExtensionSubstitution.read : Reader gsub.ExtensionSubstitution := do
  let format ← expectU16 1
  let type_ ← u16
  let offset ← u32
  return { format, type_, offset }

/-- The model of `src/tables/glyph_substitution/mod.rs:137-144` is its translation. -/
theorem ExtensionSubstitution.read_eq : @ExtensionSubstitution.read = @OpenType.gsub.ExtensionSubstitution.read := rfl
end gsub

namespace gsub
/-- `src/tables/glyph_substitution/mod.rs:115-135`. -/
def LigatureSubstitution.read : Reader gsub.LigatureSubstitution := do
  let position ← position
  let format ← expectU16 1
  let coverage_offset ← u16
  let record_count ← u16
  let record_offsets ← takeVec u16 record_count
  let coverage ← jumpTake position coverage_offset Generated.coverage.Coverage.read
  let records ← jumpTakeN position record_count record_offsets Ligatures.read
  return { format, coverage_offset, record_count, record_offsets, coverage, records }

/-- The model of `src/tables/glyph_substitution/mod.rs:115-135` is its translation. -/
theorem LigatureSubstitution.read_eq : @LigatureSubstitution.read = @OpenType.gsub.LigatureSubstitution.read := by
  delta LigatureSubstitution.read OpenType.gsub.LigatureSubstitution.read
  simp only [Generated.coverage.Coverage.read_eq, Ligatures.read_eq] <;> rfl
end gsub

namespace gsub
/-- `src/tables/glyph_substitution/mod.rs:71-91`. -/
def MultipleSubstitution.read : Reader gsub.MultipleSubstitution := do
  let position ← position
  let format ← expectU16 1
  let coverage_offset ← u16
  let record_count ← u16
  let record_offsets ← takeVec u16 record_count
  let coverage ← jumpTake position coverage_offset Generated.coverage.Coverage.read
  let records ← jumpTakeN position record_count record_offsets Sequence.read
  return { format, coverage_offset, record_count, record_offsets, coverage, records }

/-- The model of `src/tables/glyph_substitution/mod.rs:71-91` is its translation. -/
theorem MultipleSubstitution.read_eq : @MultipleSubstitution.read = @OpenType.gsub.MultipleSubstitution.read := by
  delta MultipleSubstitution.read OpenType.gsub.MultipleSubstitution.read
  simp only [Generated.coverage.Coverage.read_eq, Sequence.read_eq] <;> rfl
end gsub

namespace gsub
/-- `src/tables/glyph_substitution/mod.rs:146-182`. -/
def ReverseChainedContextualSubstibution.read : Reader gsub.ReverseChainedContextualSubstibution := do
  let position ← position
  let format ← u16
  let coverage_offset ← u16
  let backward_glyph_count ← u16
  let backward_coverage_offsets ← takeVec u16 backward_glyph_count
  let forward_glyph_count ← u16
  let forward_coverage_offsets ← takeVec u16 forward_glyph_count
  let glyph_count ← u16
  let glyph_ids ← takeVec u16 glyph_count
  let coverage ← jumpTake position coverage_offset Generated.coverage.Coverage.read
  let backward_coverages ← jumpTakeN position backward_glyph_count backward_coverage_offsets Generated.coverage.Coverage.read
  let forward_coverages ← jumpTakeN position forward_glyph_count forward_coverage_offsets Generated.coverage.Coverage.read
  return { format, coverage_offset, backward_glyph_count, backward_coverage_offsets, forward_glyph_count, forward_coverage_offsets, glyph_count, glyph_ids, coverage, backward_coverages, forward_coverages }

/-- The model of `src/tables/glyph_substitution/mod.rs:146-182` is its translation. -/
theorem ReverseChainedContextualSubstibution.read_eq : @ReverseChainedContextualSubstibution.read = @OpenType.gsub.ReverseChainedContextualSubstibution.read := by
  delta ReverseChainedContextualSubstibution.read OpenType.gsub.ReverseChainedContextualSubstibution.read
  simp only [Generated.coverage.Coverage.read_eq] <;> rfl
end gsub

namespace gsub
/-- `src/tables/glyph_substitution/mod.rs:39-51`. -/
def SingleSubstitution1.read : Reader gsub.SingleSubstitution1 := do
  let position ← position
  let format ← u16
  let coverage_offset ← u16
  let delta_glyph_id ← i16
  let coverage ← jumpTake position coverage_offset Generated.coverage.Coverage.read
  return { format, coverage_offset, delta_glyph_id, coverage }

/-- The model of `src/tables/glyph_substitution/mod.rs:39-51` is its translation. -/
theorem SingleSubstitution1.read_eq : @SingleSubstitution1.read = @OpenType.gsub.SingleSubstitution1.read := by
  delta SingleSubstitution1.read OpenType.gsub.SingleSubstitution1.read
  simp only [Generated.coverage.Coverage.read_eq] <;> rfl
end gsub

namespace gsub
/-- `src/tables/glyph_substitution/mod.rs:53-69`. -/
def SingleSubstitution2.read : Reader gsub.SingleSubstitution2 := do
  let position ← position
  let format ← u16
  let coverage_offset ← u16
  let glyph_count ← u16
  let glyph_ids ← takeVec u16 glyph_count
  let coverage ← jumpTake position coverage_offset Generated.coverage.Coverage.read
  return { format, coverage_offset, glyph_count, glyph_ids, coverage }

/-- The model of `src/tables/glyph_substitution/mod.rs:53-69` is its translation. -/
theorem SingleSubstitution2.read_eq : @SingleSubstitution2.read = @OpenType.gsub.SingleSubstitution2.read := by
  delta SingleSubstitution2.read OpenType.gsub.SingleSubstitution2.read
  simp only [Generated.coverage.Coverage.read_eq] <;> rfl
end gsub

namespace gsub
/-- `src/tables/glyph_substitution/mod.rs:202-210`. -/
def SingleSubstitution.read : Reader gsub.SingleSubstitution := do
  let t1 ← peek u16
  match t1 with
  | 1 => do
      let t2 ← SingleSubstitution1.read
      pure (.format1 t2)
  | 2 => do
      let t3 ← SingleSubstitution2.read
      pure (.format2 t3)
  | value => raise ⟨"found an unknown format of the single substitution", [value]⟩

/-- The model of `src/tables/glyph_substitution/mod.rs:202-210` is its translation. -/
theorem SingleSubstitution.read_eq : @SingleSubstitution.read = @OpenType.gsub.SingleSubstitution.read := by
  delta SingleSubstitution.read OpenType.gsub.SingleSubstitution.read
  simp only [SingleSubstitution1.read_eq, SingleSubstitution2.read_eq] <;> rfl
end gsub

namespace gsub
/-- `src/tables/glyph_substitution/mod.rs:184-200`. -/
def Type_.read (type_ : Nat) : Reader gsub.Type_ :=
  match type_ with
  | 1 => do
      let t1 ← SingleSubstitution.read
      pure (.singleSubstitution t1)
  | 2 => do
      let t2 ← MultipleSubstitution.read
      pure (.multipleSubstitution t2)
  | 3 => do
      let t3 ← AlternateSubstitution.read
      pure (.alternateSubstitution t3)
  | 4 => do
      let t4 ← LigatureSubstitution.read
      pure (.ligatureSubstitution t4)
  | 5 => do
      let t5 ← Generated.context.Context.read
      pure (.contextualSubstitution t5)
  | 6 => do
      let t6 ← Generated.context.ChainedContext.read
      pure (.chainedContextualSubstitution t6)
  | 7 => do
      let t7 ← ExtensionSubstitution.read
      pure (.extensionSubstitution t7)
  | 8 => do
      let t8 ← ReverseChainedContextualSubstibution.read
      pure (.reverseChainedContextualSubstibution t8)
  | value => raise ⟨"found an unknown type of glyph substitution", [value]⟩

/-- The model of `src/tables/glyph_substitution/mod.rs:184-200` is its translation. -/
theorem Type_.read_eq : @Type_.read = @OpenType.gsub.Type_.read := by
  delta Type_.read OpenType.gsub.Type_.read
  simp only [AlternateSubstitution.read_eq, ExtensionSubstitution.read_eq, Generated.context.ChainedContext.read_eq, Generated.context.Context.read_eq, LigatureSubstitution.read_eq, MultipleSubstitution.read_eq, ReverseChainedContextualSubstibution.read_eq, SingleSubstitution.read_eq] <;> rfl
end gsub

namespace gsub
/-- `src/tables/glyph_substitution/mod.rs:15`. -/
def GlyphSubstitution.read (cfg : Cfg) : Reader gsub.GlyphSubstitution :=
  Generated.directory.Directory.read cfg Type_.read

/-- The model of `src/tables/glyph_substitution/mod.rs:15` is its translation. -/
theorem GlyphSubstitution.read_eq : @GlyphSubstitution.read = @OpenType.gsub.GlyphSubstitution.read := by
  delta GlyphSubstitution.read OpenType.gsub.GlyphSubstitution.read
  simp only [Generated.directory.Directory.read_eq, Type_.read_eq] <;> rfl
end gsub

end OpenType.Generated
