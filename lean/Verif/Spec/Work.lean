import Verif.Model.Gsub
import Verif.Model.Gpos
import Verif.Model.Gdef
import Verif.Model.Cpal
import Verif.Model.Fvar
import Verif.Model.Font
/-!
# Specification: how much there is in a value

`content t` is the number of numbers, vectors, options and variants `t` is made of, at all levels: what a program
that prints `t` would go through. Nothing here mentions bytes or readers.
-/

namespace OpenType.Spec
open OpenType

/-- Values that can be measured. -/
class Measured (α : Type) where
  /-- See above. -/
  content : α → Nat

export Measured (content)

/-- A number. -/
instance : Measured Nat := ⟨fun _ => 1⟩

/-- A number. -/
instance : Measured Int := ⟨fun _ => 1⟩

/-- A vector: itself and its elements. -/
instance {α : Type} [Measured α] : Measured (List α) := ⟨fun xs => 1 + (xs.map content).sum⟩

/-- An option: itself and the value, if any. -/
instance {α : Type} [Measured α] : Measured (Option α) := ⟨fun | none => 1 | some x => 1 + content x⟩

/-! Structures: their fields. Enumerations: the variant and what it holds. -/

instance : Measured coverage.Record := ⟨fun t => content t.start_glyph_id + content t.end_glyph_id +
    content t.index⟩
instance : Measured coverage.Coverage1 := ⟨fun t => content t.format + content t.glyph_count +
    content t.glyph_ids⟩
instance : Measured coverage.Coverage2 := ⟨fun t => content t.format + content t.record_count +
    content t.records⟩
instance : Measured coverage.Coverage := ⟨fun
  | .format1 t => 1 + content t
  | .format2 t => 1 + content t⟩
instance : Measured class_.Record := ⟨fun t => content t.start_glyph_id + content t.end_glyph_id +
    content t.index⟩
instance : Measured class_.Class1 := ⟨fun t => content t.format + content t.start_glyph_id +
    content t.glyph_count + content t.indices⟩
instance : Measured class_.Class2 := ⟨fun t => content t.format + content t.record_count + content t.records⟩
instance : Measured class_.Class := ⟨fun
  | .format1 t => 1 + content t
  | .format2 t => 1 + content t⟩
instance : Measured correction.Device := ⟨fun t => content t.start_size + content t.end_size +
    content t.format + content t.deltas⟩
instance : Measured correction.Variation := ⟨fun t => content t.outer_index + content t.inner_index +
    content t.format⟩
instance : Measured correction.Correction := ⟨fun
  | .device t => 1 + content t
  | .variation t => 1 + content t⟩
instance : Measured context.Action := ⟨fun t => content t.position_index + content t.lookup_index⟩
instance : Measured context.Record := ⟨fun t => content t.glyph_count + content t.action_count +
    content t.glyph_ids + content t.actions⟩
instance : Measured context.Records := ⟨fun t => content t.count + content t.offsets + content t.records⟩
instance : Measured context.ClassRecord := ⟨fun t => content t.glyph_count + content t.action_count +
    content t.indices + content t.actions⟩
instance : Measured context.ClassRecords := ⟨fun t => content t.count + content t.offsets + content t.records⟩
instance : Measured context.ChainedRecord := ⟨fun t => content t.backward_glyph_count +
    content t.backward_glyph_ids + content t.glyph_count + content t.glyph_ids +
    content t.forward_glyph_count + content t.forward_glyph_ids + content t.action_count + content t.actions⟩
instance : Measured context.ChainedRecords := ⟨fun t => content t.count + content t.offsets + content t.records⟩
instance : Measured context.ChainedClassRecord := ⟨fun t => content t.backward_glyph_count +
    content t.backward_indices + content t.glyph_count + content t.indices + content t.forward_glyph_count +
    content t.forward_indices + content t.action_count + content t.actions⟩
instance : Measured context.ChainedClassRecords := ⟨fun t => content t.count + content t.offsets +
    content t.records⟩
instance : Measured context.Context1 := ⟨fun t => content t.format + content t.coverage_offset +
    content t.record_count + content t.record_offsets + content t.coverage + content t.records⟩
instance : Measured context.Context2 := ⟨fun t => content t.format + content t.coverage_offset +
    content t.class_offset + content t.record_count + content t.record_offsets + content t.coverage +
    content t.class_ + content t.records⟩
instance : Measured context.Context3 := ⟨fun t => content t.format + content t.glyph_count +
    content t.action_count + content t.coverage_offsets + content t.actions + content t.coverages⟩
instance : Measured context.Context := ⟨fun
  | .format1 t => 1 + content t
  | .format2 t => 1 + content t
  | .format3 t => 1 + content t⟩
instance : Measured context.ChainedContext1 := ⟨fun t => content t.format + content t.coverage_offset +
    content t.record_count + content t.record_offsets + content t.coverage + content t.records⟩
instance : Measured context.ChainedContext2 := ⟨fun t => content t.format + content t.coverage_offset +
    content t.backward_class_offset + content t.class_offset + content t.forward_class_offset +
    content t.record_count + content t.record_offsets + content t.coverage + content t.backward_class +
    content t.class_ + content t.forward_class + content t.records⟩
instance : Measured context.ChainedContext3 := ⟨fun t => content t.format + content t.backward_glyph_count +
    content t.backward_coverage_offsets + content t.glyph_count + content t.coverage_offsets +
    content t.forward_glyph_count + content t.forward_coverage_offsets + content t.action_count +
    content t.actions + content t.backward_coverages + content t.coverages + content t.forward_coverages⟩
instance : Measured context.ChainedContext := ⟨fun
  | .format1 t => 1 + content t
  | .format2 t => 1 + content t
  | .format3 t => 1 + content t⟩
instance : Measured language.Header := ⟨fun t => content t.tag + content t.offset⟩
instance : Measured language.Record := ⟨fun t => content t.lookup_order_offset +
    content t.required_feature_index + content t.feature_index_count + content t.feature_indices⟩
instance : Measured script.Header := ⟨fun t => content t.tag + content t.offset⟩
instance : Measured script.Record := ⟨fun t => content t.default_language_offset + content t.language_count +
    content t.language_headers + content t.default_language + content t.language_records⟩
instance : Measured script.Scripts := ⟨fun t => content t.count + content t.headers + content t.records⟩
instance : Measured feature.Header := ⟨fun t => content t.tag + content t.offset⟩
instance : Measured feature.Record := ⟨fun t => content t.parameter_offset + content t.lookup_index_count +
    content t.lookup_indices + content t.parameters⟩
instance : Measured feature.Variations := ⟨fun t => content t.major_version + content t.minor_version +
    content t.count⟩
instance : Measured feature.Features := ⟨fun t => content t.count + content t.headers + content t.records⟩
instance {T : Type} [Measured T] : Measured (lookup.Record T) := ⟨fun t => content t.type_ + content t.flags +
    content t.table_count + content t.table_offsets + content t.mark_filtering_set + content t.tables⟩
instance {T : Type} [Measured T] : Measured (lookup.Lookups T) := ⟨fun t => content t.count +
    content t.offsets + content t.records⟩
instance {T : Type} [Measured T] : Measured (directory.Directory T) := ⟨fun t => content t.major_version +
    content t.minor_version + content t.script_offset + content t.feature_offset + content t.lookup_offset +
    content t.variation_offset + content t.scripts + content t.features + content t.lookups +
    content t.variations⟩
instance : Measured gsub.Alternates := ⟨fun t => content t.glyph_count + content t.glyph_ids⟩
instance : Measured gsub.Ligature := ⟨fun t => content t.glyph_id + content t.glyph_count + content t.glyph_ids⟩
instance : Measured gsub.Ligatures := ⟨fun t => content t.count + content t.offsets + content t.records⟩
instance : Measured gsub.Sequence := ⟨fun t => content t.glyph_count + content t.glyph_ids⟩
instance : Measured gsub.SingleSubstitution1 := ⟨fun t => content t.format + content t.coverage_offset +
    content t.delta_glyph_id + content t.coverage⟩
instance : Measured gsub.SingleSubstitution2 := ⟨fun t => content t.format + content t.coverage_offset +
    content t.glyph_count + content t.glyph_ids + content t.coverage⟩
instance : Measured gsub.SingleSubstitution := ⟨fun
  | .format1 t => 1 + content t
  | .format2 t => 1 + content t⟩
instance : Measured gsub.MultipleSubstitution := ⟨fun t => content t.format + content t.coverage_offset +
    content t.record_count + content t.record_offsets + content t.coverage + content t.records⟩
instance : Measured gsub.AlternateSubstitution := ⟨fun t => content t.format + content t.coverage_offset +
    content t.record_count + content t.record_offsets + content t.coverage + content t.records⟩
instance : Measured gsub.LigatureSubstitution := ⟨fun t => content t.format + content t.coverage_offset +
    content t.record_count + content t.record_offsets + content t.coverage + content t.records⟩
instance : Measured gsub.ExtensionSubstitution := ⟨fun t => content t.format + content t.type_ +
    content t.offset⟩
instance : Measured gsub.ReverseChainedContextualSubstibution := ⟨fun t => content t.format +
    content t.coverage_offset + content t.backward_glyph_count + content t.backward_coverage_offsets +
    content t.forward_glyph_count + content t.forward_coverage_offsets + content t.glyph_count +
    content t.glyph_ids + content t.coverage + content t.backward_coverages + content t.forward_coverages⟩
instance : Measured gsub.Type_ := ⟨fun
  | .singleSubstitution t => 1 + content t
  | .multipleSubstitution t => 1 + content t
  | .alternateSubstitution t => 1 + content t
  | .ligatureSubstitution t => 1 + content t
  | .contextualSubstitution t => 1 + content t
  | .chainedContextualSubstitution t => 1 + content t
  | .extensionSubstitution t => 1 + content t
  | .reverseChainedContextualSubstibution t => 1 + content t⟩
instance : Measured gpos.Anchor1 := ⟨fun t => content t.format + content t.x + content t.y⟩
instance : Measured gpos.Anchor2 := ⟨fun t => content t.format + content t.x + content t.y + content t.index⟩
instance : Measured gpos.Anchor3 := ⟨fun t => content t.format + content t.x + content t.y +
    content t.x_correction_offset + content t.y_correction_offset + content t.x_correction +
    content t.y_correction⟩
instance : Measured gpos.Anchor := ⟨fun
  | .format1 t => 1 + content t
  | .format2 t => 1 + content t
  | .format3 t => 1 + content t⟩
instance : Measured gpos.Single := ⟨fun t => content t.x_placement + content t.y_placement +
    content t.x_advance + content t.y_advance + content t.x_placement_correction_offset +
    content t.y_placement_correction_offset + content t.x_advance_correction_offset +
    content t.y_advance_correction_offset + content t.x_placement_correction +
    content t.y_placement_correction + content t.x_advance_correction + content t.y_advance_correction⟩
instance : Measured gpos.Pair1 := ⟨fun t => content t.glyph2_id + content t.value1 + content t.value2⟩
instance : Measured gpos.Pair1s := ⟨fun t => content t.count + content t.records⟩
instance : Measured gpos.Pair2 := ⟨fun t => content t.value1 + content t.value2⟩
instance : Measured gpos.Pair2s := ⟨fun t => content t.records⟩
instance : Measured gpos.Base := ⟨fun t => content t.anchor_offsets + content t.anchors⟩
instance : Measured gpos.Bases := ⟨fun t => content t.count + content t.records⟩
instance : Measured gpos.Component := ⟨fun t => content t.anchor_offsets + content t.anchors⟩
instance : Measured gpos.Connection := ⟨fun t => content t.start_anchor_offset + content t.end_anchor_offset +
    content t.start_anchor + content t.end_anchor⟩
instance : Measured gpos.Ligature := ⟨fun t => content t.count + content t.components⟩
instance : Measured gpos.Ligatures := ⟨fun t => content t.count + content t.offsets + content t.records⟩
instance : Measured gpos.Mark1 := ⟨fun t => content t.class_id + content t.anchor_offset + content t.anchor⟩
instance : Measured gpos.Mark1s := ⟨fun t => content t.count + content t.records⟩
instance : Measured gpos.Mark2 := ⟨fun t => content t.anchor_offsets + content t.anchors⟩
instance : Measured gpos.Mark2s := ⟨fun t => content t.count + content t.records⟩
instance : Measured gpos.SingleAdjustment1 := ⟨fun t => content t.format + content t.coverage_offset +
    content t.value_flags + content t.value + content t.coverage⟩
instance : Measured gpos.SingleAdjustment2 := ⟨fun t => content t.format + content t.coverage_offset +
    content t.value_flags + content t.value_count + content t.values + content t.coverage⟩
instance : Measured gpos.SingleAdjustment := ⟨fun
  | .format1 t => 1 + content t
  | .format2 t => 1 + content t⟩
instance : Measured gpos.PairAdjustment1 := ⟨fun t => content t.format + content t.coverage_offset +
    content t.value1_flags + content t.value2_flags + content t.record_count + content t.record_offsets +
    content t.coverage + content t.records⟩
instance : Measured gpos.PairAdjustment2 := ⟨fun t => content t.format + content t.coverage_offset +
    content t.value1_flags + content t.value2_flags + content t.class1_offset + content t.class2_offset +
    content t.class1_count + content t.class2_count + content t.records + content t.coverage +
    content t.class1 + content t.class2⟩
instance : Measured gpos.PairAdjustment := ⟨fun
  | .format1 t => 1 + content t
  | .format2 t => 1 + content t⟩
instance : Measured gpos.CursiveAttachment := ⟨fun t => content t.format + content t.coverage_offset +
    content t.connection_count + content t.connections + content t.coverage⟩
instance : Measured gpos.MarkToBaseAttachment := ⟨fun t => content t.format + content t.mark_coverage_offset +
    content t.base_coverage_offset + content t.mark_class_count + content t.marks_offset +
    content t.bases_offset + content t.mark_coverage + content t.base_coverage + content t.marks +
    content t.bases⟩
instance : Measured gpos.MarkToLigatureAttachment := ⟨fun t => content t.format +
    content t.mark_coverage_offset + content t.ligature_coverage_offset + content t.mark_class_count +
    content t.marks_offset + content t.ligatures_offset + content t.mark_coverage +
    content t.ligature_coverage + content t.marks + content t.ligatures⟩
instance : Measured gpos.MarkToMarkAttachment := ⟨fun t => content t.format + content t.mark1_coverage_offset +
    content t.mark2_coverage_offset + content t.mark_class_count + content t.mark1s_offset +
    content t.mark2s_offset + content t.mark1_coverage + content t.mark2_coverage + content t.mark1s +
    content t.mark2s⟩
instance : Measured gpos.ExtensionPositioning := ⟨fun t => content t.format + content t.type_ +
    content t.offset⟩
instance : Measured gpos.Type_ := ⟨fun
  | .singleAdjustment t => 1 + content t
  | .pairAdjustment t => 1 + content t
  | .cursiveAttachment t => 1 + content t
  | .markToBaseAttachment t => 1 + content t
  | .markToLigatureAttachment t => 1 + content t
  | .markToMarkAttachment t => 1 + content t
  | .contextualPositioning t => 1 + content t
  | .chainedContextualPositioning t => 1 + content t
  | .extensionPositioning t => 1 + content t⟩
instance : Measured item.Record := ⟨fun t => content t.item_count + content t.short_delta_count +
    content t.region_count + content t.region_indices + content t.deltas⟩
instance : Measured item.Store := ⟨fun t => content t.format + content t.region_offset + content t.count +
    content t.offsets + content t.records⟩
instance : Measured gdef.Attachment := ⟨fun t => content t.index_count + content t.indices⟩
instance : Measured gdef.Attachments := ⟨fun t => content t.coverage_offset + content t.count +
    content t.offsets + content t.coverage + content t.records⟩
instance : Measured gdef.Caret1 := ⟨fun t => content t.format + content t.coordinate⟩
instance : Measured gdef.Caret2 := ⟨fun t => content t.format + content t.index⟩
instance : Measured gdef.Caret3 := ⟨fun t => content t.format + content t.coordinate +
    content t.correction_offset + content t.correction⟩
instance : Measured gdef.Caret := ⟨fun
  | .format1 t => 1 + content t
  | .format2 t => 1 + content t
  | .format3 t => 1 + content t⟩
instance : Measured gdef.Ligature := ⟨fun t => content t.caret_count + content t.caret_offsets +
    content t.carets⟩
instance : Measured gdef.Ligatures := ⟨fun t => content t.coverage_offset + content t.count +
    content t.offsets + content t.coverage + content t.records⟩
instance : Measured gdef.Marks := ⟨fun t => content t.format + content t.count + content t.coverage_offsets +
    content t.coverages⟩
instance : Measured gdef.Header1 := ⟨fun t => content t.major_version + content t.minor_version +
    content t.glyph_class_offset + content t.attachment_offset + content t.ligature_offset +
    content t.mark_class_offset⟩
instance : Measured gdef.Header12 := ⟨fun t => content t.major_version + content t.minor_version +
    content t.glyph_class_offset + content t.attachment_offset + content t.ligature_offset +
    content t.mark_class_offset + content t.mark_offset⟩
instance : Measured gdef.Header13 := ⟨fun t => content t.major_version + content t.minor_version +
    content t.glyph_class_offset + content t.attachment_offset + content t.ligature_offset +
    content t.mark_class_offset + content t.mark_offset + content t.variation_offset⟩
instance : Measured gdef.Header := ⟨fun
  | .version1 t => 1 + content t
  | .version12 t => 1 + content t
  | .version13 t => 1 + content t⟩
instance : Measured gdef.GlyphDefinition := ⟨fun t => content t.header + content t.glyph_class +
    content t.attachments + content t.ligatures + content t.mark_class + content t.marks + content t.variations⟩
instance : Measured cpal.Color := ⟨fun t => content t.blue + content t.green + content t.red + content t.alpha⟩
instance : Measured cpal.Header0 := ⟨fun t => content t.version + content t.entry_count +
    content t.palette_count + content t.color_count + content t.color_offset + content t.color_indices⟩
instance : Measured cpal.Header1 := ⟨fun t => content t.version + content t.entry_count +
    content t.palette_count + content t.color_count + content t.color_offset + content t.color_indices⟩
instance : Measured cpal.Header := ⟨fun
  | .version0 t => 1 + content t
  | .version1 t => 1 + content t⟩
instance : Measured cpal.ColorPalettes := ⟨fun t => content t.header + content t.colors⟩
instance : Measured fvar.Header := ⟨fun t => content t.major_version + content t.minor_version +
    content t.axis_offset + content t.reserved + content t.axis_count + content t.axis_size +
    content t.instance_count + content t.instance_size⟩
instance : Measured fvar.AxisRecord := ⟨fun t => content t.tag + content t.min_value +
    content t.default_value + content t.max_value + content t.flags + content t.name_id⟩
instance : Measured fvar.InstanceRecord := ⟨fun t => content t.subfamily_name_id + content t.flags +
    content t.coordinates + content t.postscript_name_id⟩
instance : Measured fvar.FontVariations := ⟨fun t => content t.header + content t.axis_records +
    content t.instance_records⟩
instance : Measured offsets.Header := ⟨fun t => content t.version + content t.table_count +
    content t.search_range + content t.entry_selector + content t.range_shift⟩
instance : Measured offsets.Record := ⟨fun t => content t.tag + content t.checksum + content t.offset +
    content t.size⟩
instance : Measured offsets.Offsets := ⟨fun t => content t.header + content t.records⟩
instance : Measured Font := ⟨fun t => content t.offsets⟩
instance : Measured File := ⟨fun t => content t.fonts⟩

end OpenType.Spec
