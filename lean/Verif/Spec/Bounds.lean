import Verif.Spec.Gsub
import Verif.Spec.Gpos
import Verif.Spec.Gdef
import Verif.Spec.Cpal
import Verif.Spec.Fvar
/-!
# Specification: how long the vectors are

`within n t` says that no vector in `t`, at any level, has more than `n` elements. Nothing here mentions bytes
or readers.
-/

namespace OpenType.Spec
open OpenType

/-- Tables with vectors. -/
class Bounded (α : Type) where
  /-- No vector has more than `n` elements. -/
  within (n : Nat) : α → Prop

export Bounded (within)

/-- A vector and its elements. -/
instance {α : Type} [Bounded α] : Bounded (List α) := ⟨fun n xs => xs.length ≤ n ∧ ∀ x ∈ xs, within n x⟩

/-- An option: the value, if any. -/
instance {α : Type} [Bounded α] : Bounded (Option α) := ⟨fun n o => ∀ x, o = some x → within n x⟩

section plain

/-! What has no vectors. -/

instance : Bounded Nat := ⟨fun _ _ => True⟩
instance : Bounded Int := ⟨fun _ _ => True⟩
instance : Bounded coverage.Record := ⟨fun _ _ => True⟩
instance : Bounded class_.Record := ⟨fun _ _ => True⟩
instance : Bounded correction.Variation := ⟨fun _ _ => True⟩
instance : Bounded context.Action := ⟨fun _ _ => True⟩
instance : Bounded script.Header := ⟨fun _ _ => True⟩
instance : Bounded feature.Header := ⟨fun _ _ => True⟩
instance : Bounded cpal.Color := ⟨fun _ _ => True⟩
instance : Bounded fvar.AxisRecord := ⟨fun _ _ => True⟩
instance : Bounded language.Header := ⟨fun _ _ => True⟩
instance : Bounded gpos.Anchor1 := ⟨fun _ _ => True⟩
instance : Bounded gpos.Anchor2 := ⟨fun _ _ => True⟩
instance : Bounded gsub.ExtensionSubstitution := ⟨fun _ _ => True⟩
instance : Bounded gpos.ExtensionPositioning := ⟨fun _ _ => True⟩
instance : Bounded gdef.Caret1 := ⟨fun _ _ => True⟩
instance : Bounded gdef.Caret2 := ⟨fun _ _ => True⟩

end plain

section layout
open coverage class_ correction context

instance : Bounded Coverage1 := ⟨fun n t => within n t.glyph_ids⟩
instance : Bounded Coverage2 := ⟨fun n t => within n t.records⟩
instance : Bounded Coverage :=
  ⟨fun n => fun | .format1 t => within n t | .format2 t => within n t⟩
instance : Bounded Class1 := ⟨fun n t => within n t.indices⟩
instance : Bounded Class2 := ⟨fun n t => within n t.records⟩
instance : Bounded Class :=
  ⟨fun n => fun | .format1 t => within n t | .format2 t => within n t⟩
instance : Bounded Device := ⟨fun n t => within n t.deltas⟩
instance : Bounded Correction :=
  ⟨fun n => fun | .device t => within n t | .variation t => within n t⟩
instance : Bounded context.Record := ⟨fun n t => within n t.glyph_ids ∧ within n t.actions⟩
instance : Bounded Records := ⟨fun n t => within n t.offsets ∧ within n t.records⟩
instance : Bounded ClassRecord := ⟨fun n t => within n t.indices ∧ within n t.actions⟩
instance : Bounded ClassRecords := ⟨fun n t => within n t.offsets ∧ within n t.records⟩
instance : Bounded ChainedRecord :=
  ⟨fun n t => within n t.backward_glyph_ids ∧ within n t.glyph_ids ∧ within n t.forward_glyph_ids ∧
    within n t.actions⟩
instance : Bounded ChainedRecords := ⟨fun n t => within n t.offsets ∧ within n t.records⟩
instance : Bounded ChainedClassRecord :=
  ⟨fun n t => within n t.backward_indices ∧ within n t.indices ∧ within n t.forward_indices ∧
    within n t.actions⟩
instance : Bounded ChainedClassRecords := ⟨fun n t => within n t.offsets ∧ within n t.records⟩
instance : Bounded Context1 :=
  ⟨fun n t => within n t.record_offsets ∧ within n t.coverage ∧ within n t.records⟩
instance : Bounded Context2 :=
  ⟨fun n t => within n t.record_offsets ∧ within n t.coverage ∧ within n t.class_ ∧ within n t.records⟩
instance : Bounded Context3 :=
  ⟨fun n t => within n t.coverage_offsets ∧ within n t.actions ∧ within n t.coverages⟩
instance : Bounded Context :=
  ⟨fun n => fun | .format1 t => within n t | .format2 t => within n t | .format3 t => within n t⟩
instance : Bounded ChainedContext1 :=
  ⟨fun n t => within n t.record_offsets ∧ within n t.coverage ∧ within n t.records⟩
instance : Bounded ChainedContext2 :=
  ⟨fun n t => within n t.record_offsets ∧ within n t.coverage ∧ within n t.backward_class ∧
    within n t.class_ ∧ within n t.forward_class ∧ within n t.records⟩
instance : Bounded ChainedContext3 :=
  ⟨fun n t => within n t.backward_coverage_offsets ∧ within n t.coverage_offsets ∧
    within n t.forward_coverage_offsets ∧ within n t.actions ∧ within n t.backward_coverages ∧
    within n t.coverages ∧ within n t.forward_coverages⟩
instance : Bounded ChainedContext :=
  ⟨fun n => fun | .format1 t => within n t | .format2 t => within n t | .format3 t => within n t⟩

end layout

section lists
open script feature lookup directory

instance : Bounded language.Record := ⟨fun n t => within n t.feature_indices⟩
instance : Bounded script.Record :=
  ⟨fun n t => within n t.language_headers ∧ within n t.default_language ∧ within n t.language_records⟩
instance : Bounded Scripts := ⟨fun n t => within n t.headers ∧ within n t.records⟩
instance : Bounded feature.Record := ⟨fun n t => within n t.lookup_indices ∧ within n t.parameters⟩
instance : Bounded Features := ⟨fun n t => within n t.headers ∧ within n t.records⟩
instance {T : Type} [Bounded T] : Bounded (lookup.Record T) :=
  ⟨fun n t => within n t.table_offsets ∧ within n t.tables⟩
instance {T : Type} [Bounded T] : Bounded (Lookups T) :=
  ⟨fun n t => within n t.offsets ∧ within n t.records⟩
instance {T : Type} [Bounded T] : Bounded (Directory T) :=
  ⟨fun n t => within n t.scripts ∧ within n t.features ∧ within n t.lookups⟩

end lists

section gsub
open OpenType.gsub

instance : Bounded Alternates := ⟨fun n t => within n t.glyph_ids⟩
instance : Bounded gsub.Ligature := ⟨fun n t => within n t.glyph_ids⟩
instance : Bounded gsub.Ligatures := ⟨fun n t => within n t.offsets ∧ within n t.records⟩
instance : Bounded Sequence := ⟨fun n t => within n t.glyph_ids⟩
instance : Bounded SingleSubstitution1 := ⟨fun n t => within n t.coverage⟩
instance : Bounded SingleSubstitution2 := ⟨fun n t => within n t.glyph_ids ∧ within n t.coverage⟩
instance : Bounded SingleSubstitution :=
  ⟨fun n => fun | .format1 t => within n t | .format2 t => within n t⟩
instance : Bounded MultipleSubstitution :=
  ⟨fun n t => within n t.record_offsets ∧ within n t.coverage ∧ within n t.records⟩
instance : Bounded AlternateSubstitution :=
  ⟨fun n t => within n t.record_offsets ∧ within n t.coverage ∧ within n t.records⟩
instance : Bounded LigatureSubstitution :=
  ⟨fun n t => within n t.record_offsets ∧ within n t.coverage ∧ within n t.records⟩
instance : Bounded ReverseChainedContextualSubstibution :=
  ⟨fun n t => within n t.backward_coverage_offsets ∧ within n t.forward_coverage_offsets ∧
    within n t.glyph_ids ∧ within n t.coverage ∧ within n t.backward_coverages ∧
    within n t.forward_coverages⟩
instance : Bounded gsub.Type_ := ⟨fun n => fun
  | .singleSubstitution t => within n t
  | .multipleSubstitution t => within n t
  | .alternateSubstitution t => within n t
  | .ligatureSubstitution t => within n t
  | .contextualSubstitution t => within n t
  | .chainedContextualSubstitution t => within n t
  | .extensionSubstitution t => within n t
  | .reverseChainedContextualSubstibution t => within n t⟩

end gsub

section gpos
open OpenType.gpos

instance : Bounded Anchor3 := ⟨fun n t => within n t.x_correction ∧ within n t.y_correction⟩
instance : Bounded Anchor :=
  ⟨fun n => fun | .format1 t => within n t | .format2 t => within n t | .format3 t => within n t⟩
instance : Bounded Single :=
  ⟨fun n t => within n t.x_placement_correction ∧ within n t.y_placement_correction ∧
    within n t.x_advance_correction ∧ within n t.y_advance_correction⟩
instance : Bounded Pair1 := ⟨fun n t => within n t.value1 ∧ within n t.value2⟩
instance : Bounded Pair1s := ⟨fun n t => within n t.records⟩
instance : Bounded Pair2 := ⟨fun n t => within n t.value1 ∧ within n t.value2⟩
instance : Bounded Pair2s := ⟨fun n t => within n t.records⟩
instance : Bounded Base := ⟨fun n t => within n t.anchor_offsets ∧ within n t.anchors⟩
instance : Bounded Bases := ⟨fun n t => within n t.records⟩
instance : Bounded Component := ⟨fun n t => within n t.anchor_offsets ∧ within n t.anchors⟩
instance : Bounded Connection := ⟨fun n t => within n t.start_anchor ∧ within n t.end_anchor⟩
instance : Bounded gpos.Ligature := ⟨fun n t => within n t.components⟩
instance : Bounded gpos.Ligatures := ⟨fun n t => within n t.offsets ∧ within n t.records⟩
instance : Bounded Mark1 := ⟨fun n t => within n t.anchor⟩
instance : Bounded Mark1s := ⟨fun n t => within n t.records⟩
instance : Bounded Mark2 := ⟨fun n t => within n t.anchor_offsets ∧ within n t.anchors⟩
instance : Bounded Mark2s := ⟨fun n t => within n t.records⟩
instance : Bounded SingleAdjustment1 := ⟨fun n t => within n t.value ∧ within n t.coverage⟩
instance : Bounded SingleAdjustment2 := ⟨fun n t => within n t.values ∧ within n t.coverage⟩
instance : Bounded SingleAdjustment :=
  ⟨fun n => fun | .format1 t => within n t | .format2 t => within n t⟩
instance : Bounded PairAdjustment1 :=
  ⟨fun n t => within n t.record_offsets ∧ within n t.coverage ∧ within n t.records⟩
instance : Bounded PairAdjustment2 :=
  ⟨fun n t => within n t.records ∧ within n t.coverage ∧ within n t.class1 ∧ within n t.class2⟩
instance : Bounded PairAdjustment :=
  ⟨fun n => fun | .format1 t => within n t | .format2 t => within n t⟩
instance : Bounded CursiveAttachment := ⟨fun n t => within n t.connections ∧ within n t.coverage⟩
instance : Bounded MarkToBaseAttachment :=
  ⟨fun n t => within n t.mark_coverage ∧ within n t.base_coverage ∧ within n t.marks ∧ within n t.bases⟩
instance : Bounded MarkToLigatureAttachment :=
  ⟨fun n t => within n t.mark_coverage ∧ within n t.ligature_coverage ∧ within n t.marks ∧
    within n t.ligatures⟩
instance : Bounded MarkToMarkAttachment :=
  ⟨fun n t => within n t.mark1_coverage ∧ within n t.mark2_coverage ∧ within n t.mark1s ∧
    within n t.mark2s⟩
instance : Bounded gpos.Type_ := ⟨fun n => fun
  | .singleAdjustment t => within n t
  | .pairAdjustment t => within n t
  | .cursiveAttachment t => within n t
  | .markToBaseAttachment t => within n t
  | .markToLigatureAttachment t => within n t
  | .markToMarkAttachment t => within n t
  | .contextualPositioning t => within n t
  | .chainedContextualPositioning t => within n t
  | .extensionPositioning t => within n t⟩

end gpos

section others
open OpenType.gdef cpal fvar

instance : Bounded item.Record := ⟨fun n t => within n t.region_indices ∧ within n t.deltas⟩
instance : Bounded item.Store := ⟨fun n t => within n t.offsets ∧ within n t.records⟩
instance : Bounded Caret3 := ⟨fun n t => within n t.correction⟩
instance : Bounded Caret :=
  ⟨fun n => fun | .format1 t => within n t | .format2 t => within n t | .format3 t => within n t⟩
instance : Bounded Attachment := ⟨fun n t => within n t.indices⟩
instance : Bounded Attachments :=
  ⟨fun n t => within n t.offsets ∧ within n t.coverage ∧ within n t.records⟩
instance : Bounded gdef.Ligature := ⟨fun n t => within n t.caret_offsets ∧ within n t.carets⟩
instance : Bounded gdef.Ligatures :=
  ⟨fun n t => within n t.offsets ∧ within n t.coverage ∧ within n t.records⟩
instance : Bounded Marks := ⟨fun n t => within n t.coverage_offsets ∧ within n t.coverages⟩
instance : Bounded GlyphDefinition :=
  ⟨fun n t => within n t.glyph_class ∧ within n t.attachments ∧ within n t.ligatures ∧
    within n t.mark_class ∧ within n t.marks ∧ within n t.variations⟩
instance : Bounded cpal.Header0 := ⟨fun n t => within n t.color_indices⟩
instance : Bounded cpal.Header1 := ⟨fun n t => within n t.color_indices⟩
instance : Bounded cpal.Header :=
  ⟨fun n => fun | .version0 t => within n t | .version1 t => within n t⟩
instance : Bounded ColorPalettes := ⟨fun n t => within n t.header ∧ within n t.colors⟩
instance : Bounded InstanceRecord := ⟨fun n t => within n t.coordinates⟩
instance : Bounded FontVariations :=
  ⟨fun n t => within n t.axis_records ∧ within n t.instance_records⟩

end others

/-! ## What takes up room

A subtable of the glyph positioning table *takes up room* when every element of its vectors has at least
one byte of its own: value records with at least one field, and at least one mark class. -/

/-- See above. -/
def TakesRoom : OpenType.gpos.Type_ → Prop
  | .singleAdjustment (.format2 t) => t.value_flags % 256 ≠ 0
  | .pairAdjustment (.format2 t) =>
    (t.value1_flags % 256 ≠ 0 ∨ t.value2_flags % 256 ≠ 0) ∧ t.class2_count ≠ 0
  | .markToBaseAttachment t => t.mark_class_count ≠ 0
  | .markToLigatureAttachment t => t.mark_class_count ≠ 0
  | .markToMarkAttachment t => t.mark_class_count ≠ 0
  | _ => True

end OpenType.Spec
