import Verif.Spec.Gsub
import Verif.Spec.Gpos
import Verif.Spec.Gdef
import Verif.Spec.Cpal
import Verif.Spec.Fvar
/-!
# Specification: counts and lengths

`counted t` says that every count field of `t` equals the length of the vector it governs, and likewise for
every table inside `t`. Where OpenType counts the first glyph of an input sequence or ligature without
storing it, the vector is one shorter than the count. Nothing here mentions bytes or readers.
-/

namespace OpenType.Spec
open OpenType

/-- Tables with count fields. -/
class Counted (α : Type) where
  /-- Every count equals the length it governs. -/
  counted : α → Prop

export Counted (counted)

/-- A vector: every element. -/
instance {α : Type} [Counted α] : Counted (List α) := ⟨fun xs => ∀ x ∈ xs, counted x⟩

/-- An option: the value, if any. -/
instance {α : Type} [Counted α] : Counted (Option α) := ⟨fun o => ∀ x, o = some x → counted x⟩

section layout
open coverage class_ correction context

instance : Counted Coverage1 := ⟨fun t => t.glyph_ids.length = t.glyph_count⟩
instance : Counted Coverage2 := ⟨fun t => t.records.length = t.record_count⟩
instance : Counted Coverage := ⟨fun | .format1 t => counted t | .format2 t => counted t⟩

instance : Counted Class1 := ⟨fun t => t.indices.length = t.glyph_count⟩
instance : Counted Class2 := ⟨fun t => t.records.length = t.record_count⟩
instance : Counted Class := ⟨fun | .format1 t => counted t | .format2 t => counted t⟩

instance : Counted context.Record :=
  ⟨fun t => t.glyph_ids.length + 1 = t.glyph_count ∧ t.actions.length = t.action_count⟩
instance : Counted Records :=
  ⟨fun t => t.offsets.length = t.count ∧ t.records.length = t.count ∧ counted t.records⟩
instance : Counted ClassRecord :=
  ⟨fun t => t.indices.length + 1 = t.glyph_count ∧ t.actions.length = t.action_count⟩
instance : Counted ClassRecords :=
  ⟨fun t => t.offsets.length = t.count ∧ t.records.length = t.count ∧ counted t.records⟩
instance : Counted ChainedRecord :=
  ⟨fun t => t.backward_glyph_ids.length = t.backward_glyph_count ∧
    t.glyph_ids.length + 1 = t.glyph_count ∧ t.forward_glyph_ids.length = t.forward_glyph_count ∧
    t.actions.length = t.action_count⟩
instance : Counted ChainedRecords :=
  ⟨fun t => t.offsets.length = t.count ∧ t.records.length = t.count ∧ counted t.records⟩
instance : Counted ChainedClassRecord :=
  ⟨fun t => t.backward_indices.length = t.backward_glyph_count ∧
    t.indices.length + 1 = t.glyph_count ∧ t.forward_indices.length = t.forward_glyph_count ∧
    t.actions.length = t.action_count⟩
instance : Counted ChainedClassRecords :=
  ⟨fun t => t.offsets.length = t.count ∧ t.records.length = t.count ∧ counted t.records⟩

instance : Counted Context1 :=
  ⟨fun t => t.record_offsets.length = t.record_count ∧ t.records.length = t.record_count ∧
    counted t.coverage ∧ counted t.records⟩
instance : Counted Context2 :=
  ⟨fun t => t.record_offsets.length = t.record_count ∧ t.records.length = t.record_count ∧
    counted t.coverage ∧ counted t.class_ ∧ counted t.records⟩
instance : Counted Context3 :=
  ⟨fun t => t.coverage_offsets.length = t.glyph_count ∧ t.coverages.length = t.glyph_count ∧
    t.actions.length = t.action_count ∧ counted t.coverages⟩
instance : Counted Context :=
  ⟨fun | .format1 t => counted t | .format2 t => counted t | .format3 t => counted t⟩

instance : Counted ChainedContext1 :=
  ⟨fun t => t.record_offsets.length = t.record_count ∧ t.records.length = t.record_count ∧
    counted t.coverage ∧ counted t.records⟩
instance : Counted ChainedContext2 :=
  ⟨fun t => t.record_offsets.length = t.record_count ∧ t.records.length = t.record_count ∧
    counted t.coverage ∧ counted t.backward_class ∧ counted t.class_ ∧ counted t.forward_class ∧
    counted t.records⟩
instance : Counted ChainedContext3 :=
  ⟨fun t => t.backward_coverage_offsets.length = t.backward_glyph_count ∧
    t.backward_coverages.length = t.backward_glyph_count ∧
    t.coverage_offsets.length = t.glyph_count ∧ t.coverages.length = t.glyph_count ∧
    t.forward_coverage_offsets.length = t.forward_glyph_count ∧
    t.forward_coverages.length = t.forward_glyph_count ∧ t.actions.length = t.action_count ∧
    counted t.backward_coverages ∧ counted t.coverages ∧ counted t.forward_coverages⟩
instance : Counted ChainedContext :=
  ⟨fun | .format1 t => counted t | .format2 t => counted t | .format3 t => counted t⟩

end layout

section lists
open script feature lookup directory

instance : Counted language.Record := ⟨fun t => t.feature_indices.length = t.feature_index_count⟩
instance : Counted script.Record :=
  ⟨fun t => t.language_headers.length = t.language_count ∧
    t.language_records.length = t.language_count ∧ counted t.default_language ∧
    counted t.language_records⟩
instance : Counted Scripts :=
  ⟨fun t => t.headers.length = t.count ∧ t.records.length = t.count ∧ counted t.records⟩
instance : Counted feature.Record := ⟨fun t => t.lookup_indices.length = t.lookup_index_count⟩
instance : Counted Features :=
  ⟨fun t => t.headers.length = t.count ∧ t.records.length = t.count ∧ counted t.records⟩
instance {T : Type} [Counted T] : Counted (lookup.Record T) :=
  ⟨fun t => t.table_offsets.length = t.table_count ∧ t.tables.length = t.table_count ∧
    counted t.tables⟩
instance {T : Type} [Counted T] : Counted (Lookups T) :=
  ⟨fun t => t.offsets.length = t.count ∧ t.records.length = t.count ∧ counted t.records⟩
instance {T : Type} [Counted T] : Counted (Directory T) :=
  ⟨fun t => counted t.scripts ∧ counted t.features ∧ counted t.lookups⟩

end lists

section gsub
open OpenType.gsub

instance : Counted Alternates := ⟨fun t => t.glyph_ids.length = t.glyph_count⟩
instance : Counted gsub.Ligature := ⟨fun t => t.glyph_ids.length + 1 = t.glyph_count⟩
instance : Counted gsub.Ligatures :=
  ⟨fun t => t.offsets.length = t.count ∧ t.records.length = t.count ∧ counted t.records⟩
instance : Counted Sequence := ⟨fun t => t.glyph_ids.length = t.glyph_count⟩
instance : Counted SingleSubstitution1 := ⟨fun t => counted t.coverage⟩
instance : Counted SingleSubstitution2 :=
  ⟨fun t => t.glyph_ids.length = t.glyph_count ∧ counted t.coverage⟩
instance : Counted SingleSubstitution := ⟨fun | .format1 t => counted t | .format2 t => counted t⟩
instance : Counted MultipleSubstitution :=
  ⟨fun t => t.record_offsets.length = t.record_count ∧ t.records.length = t.record_count ∧
    counted t.coverage ∧ counted t.records⟩
instance : Counted AlternateSubstitution :=
  ⟨fun t => t.record_offsets.length = t.record_count ∧ t.records.length = t.record_count ∧
    counted t.coverage ∧ counted t.records⟩
instance : Counted LigatureSubstitution :=
  ⟨fun t => t.record_offsets.length = t.record_count ∧ t.records.length = t.record_count ∧
    counted t.coverage ∧ counted t.records⟩
instance : Counted ReverseChainedContextualSubstibution :=
  ⟨fun t => t.backward_coverage_offsets.length = t.backward_glyph_count ∧
    t.backward_coverages.length = t.backward_glyph_count ∧
    t.forward_coverage_offsets.length = t.forward_glyph_count ∧
    t.forward_coverages.length = t.forward_glyph_count ∧ t.glyph_ids.length = t.glyph_count ∧
    counted t.coverage ∧ counted t.backward_coverages ∧ counted t.forward_coverages⟩
/-- An extension has no vectors. -/
instance : Counted gsub.Type_ := ⟨fun
  | .singleSubstitution t => counted t
  | .multipleSubstitution t => counted t
  | .alternateSubstitution t => counted t
  | .ligatureSubstitution t => counted t
  | .contextualSubstitution t => counted t
  | .chainedContextualSubstitution t => counted t
  | .extensionSubstitution _ => True
  | .reverseChainedContextualSubstibution t => counted t⟩

end gsub

section gpos
open OpenType.gpos

instance : Counted Pair1s := ⟨fun t => t.records.length = t.count⟩
instance : Counted Bases := ⟨fun t => t.records.length = t.count⟩
instance : Counted gpos.Ligature := ⟨fun t => t.components.length = t.count⟩
instance : Counted gpos.Ligatures :=
  ⟨fun t => t.offsets.length = t.count ∧ t.records.length = t.count ∧ counted t.records⟩
instance : Counted Mark1s := ⟨fun t => t.records.length = t.count⟩
instance : Counted Mark2s := ⟨fun t => t.records.length = t.count⟩
instance : Counted SingleAdjustment1 := ⟨fun t => counted t.coverage⟩
instance : Counted SingleAdjustment2 :=
  ⟨fun t => t.values.length = t.value_count ∧ counted t.coverage⟩
instance : Counted SingleAdjustment := ⟨fun | .format1 t => counted t | .format2 t => counted t⟩
instance : Counted PairAdjustment1 :=
  ⟨fun t => t.record_offsets.length = t.record_count ∧ t.records.length = t.record_count ∧
    counted t.coverage ∧ counted t.records⟩
/-- The matrix has `class1_count` rows of `class2_count` entries. -/
instance : Counted PairAdjustment2 :=
  ⟨fun t => t.records.length = t.class1_count ∧
    (∀ row ∈ t.records, row.records.length = t.class2_count) ∧
    counted t.coverage ∧ counted t.class1 ∧ counted t.class2⟩
instance : Counted PairAdjustment := ⟨fun | .format1 t => counted t | .format2 t => counted t⟩
instance : Counted CursiveAttachment :=
  ⟨fun t => t.connections.length = t.connection_count ∧ counted t.coverage⟩
/-- Every base has one anchor per mark class. -/
instance : Counted MarkToBaseAttachment :=
  ⟨fun t => counted t.mark_coverage ∧ counted t.base_coverage ∧ counted t.marks ∧ counted t.bases ∧
    ∀ base ∈ t.bases.records, base.anchor_offsets.length = t.mark_class_count ∧
      base.anchors.length = t.mark_class_count⟩
/-- Every component of every ligature has one anchor per mark class. -/
instance : Counted MarkToLigatureAttachment :=
  ⟨fun t => counted t.mark_coverage ∧ counted t.ligature_coverage ∧ counted t.marks ∧
    counted t.ligatures ∧
    ∀ ligature ∈ t.ligatures.records, ∀ component ∈ ligature.components,
      component.anchor_offsets.length = t.mark_class_count ∧
      component.anchors.length = t.mark_class_count⟩
/-- Every second mark has one anchor per mark class. -/
instance : Counted MarkToMarkAttachment :=
  ⟨fun t => counted t.mark1_coverage ∧ counted t.mark2_coverage ∧ counted t.mark1s ∧
    counted t.mark2s ∧
    ∀ mark ∈ t.mark2s.records, mark.anchor_offsets.length = t.mark_class_count ∧
      mark.anchors.length = t.mark_class_count⟩
/-- An extension has no vectors. -/
instance : Counted gpos.Type_ := ⟨fun
  | .singleAdjustment t => counted t
  | .pairAdjustment t => counted t
  | .cursiveAttachment t => counted t
  | .markToBaseAttachment t => counted t
  | .markToLigatureAttachment t => counted t
  | .markToMarkAttachment t => counted t
  | .contextualPositioning t => counted t
  | .chainedContextualPositioning t => counted t
  | .extensionPositioning _ => True⟩

end gpos

section others
open OpenType.gdef cpal fvar

/-- The deltas are governed by a product of counts, which property C38 is about. -/
instance : Counted item.Record := ⟨fun t => t.region_indices.length = t.region_count⟩
instance : Counted item.Store :=
  ⟨fun t => t.offsets.length = t.count ∧ t.records.length = t.count ∧ counted t.records⟩

instance : Counted Attachment := ⟨fun t => t.indices.length = t.index_count⟩
instance : Counted Attachments :=
  ⟨fun t => t.offsets.length = t.count ∧ t.records.length = t.count ∧ counted t.coverage ∧
    counted t.records⟩
instance : Counted gdef.Ligature :=
  ⟨fun t => t.caret_offsets.length = t.caret_count ∧ t.carets.length = t.caret_count⟩
instance : Counted gdef.Ligatures :=
  ⟨fun t => t.offsets.length = t.count ∧ t.records.length = t.count ∧ counted t.coverage ∧
    counted t.records⟩
instance : Counted Marks :=
  ⟨fun t => t.coverage_offsets.length = t.count ∧ t.coverages.length = t.count ∧
    counted t.coverages⟩
instance : Counted GlyphDefinition :=
  ⟨fun t => counted t.glyph_class ∧ counted t.attachments ∧ counted t.ligatures ∧
    counted t.mark_class ∧ counted t.marks ∧ counted t.variations⟩

instance : Counted ColorPalettes := ⟨fun t => match t.header with
  | .version0 h => h.color_indices.length = h.palette_count ∧ t.colors.length = h.color_count
  | .version1 h => h.color_indices.length = h.palette_count ∧ t.colors.length = h.color_count⟩

/-- Every instance has one coordinate per axis. -/
instance : Counted FontVariations :=
  ⟨fun t => t.axis_records.length = t.header.axis_count ∧
    t.instance_records.length = t.header.instance_count ∧
    ∀ r ∈ t.instance_records, r.coordinates.length = t.header.axis_count⟩

end others
end OpenType.Spec
