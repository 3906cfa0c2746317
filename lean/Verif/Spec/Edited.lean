import Verif.Spec.EncodeTaken
/-!
# Specification: tables that differ in their data only

`edited x y`: the table `y` is `x` with other data. Data are glyph numbers, class numbers, the numbers of features,
lookups, regions, palettes, names and contour points, tags, coordinates, amounts and colors. Everything else is the
same: versions, formats, flags, counts, offsets and what is present and absent. The new data have to fit their fields.
Nothing here mentions readers.
-/

namespace OpenType.Spec
open OpenType

/-- Where chunks of bytes are and how long they are. -/
def outline (cs : List Chunk) : List (Nat × Nat) := cs.map fun c => (c.1, c.2.length)

/-- Tables with data. -/
class Edited (α : Type) where
  /-- The second is the first with other data. -/
  edited : α → α → Prop

export Edited (edited)

/-- As many 16-bit numbers. -/
def Renumbered (xs ys : List Nat) : Prop := ys.length = xs.length ∧ All16 ys

/-- Another number, if there is one. -/
def Replaced {α : Type} (fits : α → Prop) : Option α → Option α → Prop
  | none, none => True
  | some _, some y => fits y
  | _, _ => False

/-- Vectors of the same length, element by element. -/
instance {α : Type} [Edited α] : Edited (List α) :=
  ⟨fun xs ys => ys.length = xs.length ∧ ∀ (i : Nat) x y, xs[i]? = some x → ys[i]? = some y → edited x y⟩

/-- Both absent, or both present. -/
instance {α : Type} [Edited α] : Edited (Option α) :=
  ⟨fun | none, none => True | some x, some y => edited x y | _, _ => False⟩

section layout
open coverage class_ correction context

instance : Edited coverage.Record :=
  ⟨fun _ y => y.start_glyph_id < 65536 ∧ y.end_glyph_id < 65536 ∧ y.index < 65536⟩
instance : Edited Coverage1 :=
  ⟨fun x y => y = { x with glyph_ids := y.glyph_ids } ∧ Renumbered x.glyph_ids y.glyph_ids⟩
instance : Edited Coverage2 := ⟨fun x y => y = { x with records := y.records } ∧ edited x.records y.records⟩
instance : Edited Coverage :=
  ⟨fun | .format1 x, .format1 y => edited x y | .format2 x, .format2 y => edited x y | _, _ => False⟩

instance : Edited class_.Record :=
  ⟨fun _ y => y.start_glyph_id < 65536 ∧ y.end_glyph_id < 65536 ∧ y.index < 65536⟩
instance : Edited Class1 :=
  ⟨fun x y => y = { x with start_glyph_id := y.start_glyph_id, indices := y.indices } ∧
    y.start_glyph_id < 65536 ∧ Renumbered x.indices y.indices⟩
instance : Edited Class2 := ⟨fun x y => y = { x with records := y.records } ∧ edited x.records y.records⟩
instance : Edited Class :=
  ⟨fun | .format1 x, .format1 y => edited x y | .format2 x, .format2 y => edited x y | _, _ => False⟩

instance : Edited Device :=
  ⟨fun x y => y = { x with deltas := y.deltas } ∧ Renumbered x.deltas y.deltas⟩
instance : Edited Variation :=
  ⟨fun x y => y = { x with outer_index := y.outer_index, inner_index := y.inner_index } ∧
    y.outer_index < 65536 ∧ y.inner_index < 65536⟩
instance : Edited Correction :=
  ⟨fun | .device x, .device y => edited x y | .variation x, .variation y => edited x y | _, _ => False⟩

instance : Edited Action := ⟨fun _ y => y.position_index < 65536 ∧ y.lookup_index < 65536⟩
instance : Edited context.Record :=
  ⟨fun x y => y = { x with glyph_ids := y.glyph_ids, actions := y.actions } ∧
    Renumbered x.glyph_ids y.glyph_ids ∧ edited x.actions y.actions⟩
instance : Edited Records := ⟨fun x y => y = { x with records := y.records } ∧ edited x.records y.records⟩
instance : Edited ClassRecord :=
  ⟨fun x y => y = { x with indices := y.indices, actions := y.actions } ∧
    Renumbered x.indices y.indices ∧ edited x.actions y.actions⟩
instance : Edited ClassRecords := ⟨fun x y => y = { x with records := y.records } ∧ edited x.records y.records⟩
instance : Edited ChainedRecord :=
  ⟨fun x y => y = { x with backward_glyph_ids := y.backward_glyph_ids, glyph_ids := y.glyph_ids
                           forward_glyph_ids := y.forward_glyph_ids, actions := y.actions } ∧
    Renumbered x.backward_glyph_ids y.backward_glyph_ids ∧ Renumbered x.glyph_ids y.glyph_ids ∧
    Renumbered x.forward_glyph_ids y.forward_glyph_ids ∧ edited x.actions y.actions⟩
instance : Edited ChainedRecords := ⟨fun x y => y = { x with records := y.records } ∧ edited x.records y.records⟩
instance : Edited ChainedClassRecord :=
  ⟨fun x y => y = { x with backward_indices := y.backward_indices, indices := y.indices
                           forward_indices := y.forward_indices, actions := y.actions } ∧
    Renumbered x.backward_indices y.backward_indices ∧ Renumbered x.indices y.indices ∧
    Renumbered x.forward_indices y.forward_indices ∧ edited x.actions y.actions⟩
instance : Edited ChainedClassRecords :=
  ⟨fun x y => y = { x with records := y.records } ∧ edited x.records y.records⟩

instance : Edited Context1 :=
  ⟨fun x y => y = { x with coverage := y.coverage, records := y.records } ∧
    edited x.coverage y.coverage ∧ edited x.records y.records⟩
instance : Edited Context2 :=
  ⟨fun x y => y = { x with coverage := y.coverage, class_ := y.class_, records := y.records } ∧
    edited x.coverage y.coverage ∧ edited x.class_ y.class_ ∧ edited x.records y.records⟩
instance : Edited Context3 :=
  ⟨fun x y => y = { x with actions := y.actions, coverages := y.coverages } ∧
    edited x.actions y.actions ∧ edited x.coverages y.coverages⟩
instance : Edited Context :=
  ⟨fun | .format1 x, .format1 y => edited x y | .format2 x, .format2 y => edited x y
       | .format3 x, .format3 y => edited x y | _, _ => False⟩

instance : Edited ChainedContext1 :=
  ⟨fun x y => y = { x with coverage := y.coverage, records := y.records } ∧
    edited x.coverage y.coverage ∧ edited x.records y.records⟩
instance : Edited ChainedContext2 :=
  ⟨fun x y => y = { x with coverage := y.coverage, backward_class := y.backward_class, class_ := y.class_
                           forward_class := y.forward_class, records := y.records } ∧
    edited x.coverage y.coverage ∧ edited x.backward_class y.backward_class ∧ edited x.class_ y.class_ ∧
    edited x.forward_class y.forward_class ∧ edited x.records y.records⟩
instance : Edited ChainedContext3 :=
  ⟨fun x y => y = { x with actions := y.actions, backward_coverages := y.backward_coverages
                           coverages := y.coverages, forward_coverages := y.forward_coverages } ∧
    edited x.actions y.actions ∧ edited x.backward_coverages y.backward_coverages ∧
    edited x.coverages y.coverages ∧ edited x.forward_coverages y.forward_coverages⟩
instance : Edited ChainedContext :=
  ⟨fun | .format1 x, .format1 y => edited x y | .format2 x, .format2 y => edited x y
       | .format3 x, .format3 y => edited x y | _, _ => False⟩

end layout

section lists
open script feature lookup directory

instance : Edited language.Header := ⟨fun x y => y = { x with tag := y.tag } ∧ y.tag < 4294967296⟩
instance : Edited language.Record :=
  ⟨fun x y => y = { x with required_feature_index := y.required_feature_index, feature_indices := y.feature_indices } ∧
    y.required_feature_index < 65536 ∧ Renumbered x.feature_indices y.feature_indices⟩
instance : Edited script.Header := ⟨fun x y => y = { x with tag := y.tag } ∧ y.tag < 4294967296⟩
instance : Edited script.Record :=
  ⟨fun x y => y = { x with language_headers := y.language_headers, default_language := y.default_language
                           language_records := y.language_records } ∧
    edited x.language_headers y.language_headers ∧ edited x.default_language y.default_language ∧
    edited x.language_records y.language_records⟩
instance : Edited Scripts :=
  ⟨fun x y => y = { x with headers := y.headers, records := y.records } ∧ edited x.headers y.headers ∧
    edited x.records y.records⟩
instance : Edited feature.Header := ⟨fun x y => y = { x with tag := y.tag } ∧ y.tag < 4294967296⟩
instance : Edited feature.Record :=
  ⟨fun x y => y = { x with lookup_indices := y.lookup_indices } ∧ Renumbered x.lookup_indices y.lookup_indices⟩
instance : Edited Features :=
  ⟨fun x y => y = { x with headers := y.headers, records := y.records } ∧ edited x.headers y.headers ∧
    edited x.records y.records⟩
instance {T : Type} [Edited T] : Edited (lookup.Record T) :=
  ⟨fun x y => y = { x with mark_filtering_set := y.mark_filtering_set, tables := y.tables } ∧
    Replaced (· < 65536) x.mark_filtering_set y.mark_filtering_set ∧ edited x.tables y.tables⟩
instance {T : Type} [Edited T] : Edited (Lookups T) :=
  ⟨fun x y => y = { x with records := y.records } ∧ edited x.records y.records⟩
instance {T : Type} [Edited T] : Edited (Directory T) :=
  ⟨fun x y => y = { x with scripts := y.scripts, features := y.features, lookups := y.lookups } ∧
    edited x.scripts y.scripts ∧ edited x.features y.features ∧ edited x.lookups y.lookups⟩

end lists

section gsub
open OpenType.gsub

instance : Edited Alternates :=
  ⟨fun x y => y = { x with glyph_ids := y.glyph_ids } ∧ Renumbered x.glyph_ids y.glyph_ids⟩
instance : Edited gsub.Ligature :=
  ⟨fun x y => y = { x with glyph_id := y.glyph_id, glyph_ids := y.glyph_ids } ∧ y.glyph_id < 65536 ∧
    Renumbered x.glyph_ids y.glyph_ids⟩
instance : Edited gsub.Ligatures := ⟨fun x y => y = { x with records := y.records } ∧ edited x.records y.records⟩
instance : Edited Sequence :=
  ⟨fun x y => y = { x with glyph_ids := y.glyph_ids } ∧ Renumbered x.glyph_ids y.glyph_ids⟩
instance : Edited SingleSubstitution1 :=
  ⟨fun x y => y = { x with delta_glyph_id := y.delta_glyph_id, coverage := y.coverage } ∧
    InI16 y.delta_glyph_id ∧ edited x.coverage y.coverage⟩
instance : Edited SingleSubstitution2 :=
  ⟨fun x y => y = { x with glyph_ids := y.glyph_ids, coverage := y.coverage } ∧
    Renumbered x.glyph_ids y.glyph_ids ∧ edited x.coverage y.coverage⟩
instance : Edited SingleSubstitution :=
  ⟨fun | .format1 x, .format1 y => edited x y | .format2 x, .format2 y => edited x y | _, _ => False⟩
instance : Edited MultipleSubstitution :=
  ⟨fun x y => y = { x with coverage := y.coverage, records := y.records } ∧
    edited x.coverage y.coverage ∧ edited x.records y.records⟩
instance : Edited AlternateSubstitution :=
  ⟨fun x y => y = { x with coverage := y.coverage, records := y.records } ∧
    edited x.coverage y.coverage ∧ edited x.records y.records⟩
instance : Edited LigatureSubstitution :=
  ⟨fun x y => y = { x with coverage := y.coverage, records := y.records } ∧
    edited x.coverage y.coverage ∧ edited x.records y.records⟩
/-- An extension has no data. -/
instance : Edited ExtensionSubstitution := ⟨fun x y => y = x⟩
instance : Edited ReverseChainedContextualSubstibution :=
  ⟨fun x y => y = { x with glyph_ids := y.glyph_ids, coverage := y.coverage
                           backward_coverages := y.backward_coverages, forward_coverages := y.forward_coverages } ∧
    Renumbered x.glyph_ids y.glyph_ids ∧ edited x.coverage y.coverage ∧
    edited x.backward_coverages y.backward_coverages ∧ edited x.forward_coverages y.forward_coverages⟩
instance : Edited gsub.Type_ :=
  ⟨fun | .singleSubstitution x, .singleSubstitution y => edited x y
       | .multipleSubstitution x, .multipleSubstitution y => edited x y
       | .alternateSubstitution x, .alternateSubstitution y => edited x y
       | .ligatureSubstitution x, .ligatureSubstitution y => edited x y
       | .contextualSubstitution x, .contextualSubstitution y => edited x y
       | .chainedContextualSubstitution x, .chainedContextualSubstitution y => edited x y
       | .extensionSubstitution x, .extensionSubstitution y => edited x y
       | .reverseChainedContextualSubstibution x, .reverseChainedContextualSubstibution y => edited x y
       | _, _ => False⟩

end gsub

section gpos
open OpenType.gpos

instance : Edited Anchor1 := ⟨fun x y => y = { x with x := y.x, y := y.y } ∧ InI16 y.x ∧ InI16 y.y⟩
instance : Edited Anchor2 :=
  ⟨fun x y => y = { x with x := y.x, y := y.y, index := y.index } ∧ InI16 y.x ∧ InI16 y.y ∧ y.index < 65536⟩
instance : Edited Anchor3 :=
  ⟨fun x y => y = { x with x := y.x, y := y.y, x_correction := y.x_correction, y_correction := y.y_correction } ∧
    InI16 y.x ∧ InI16 y.y ∧ edited x.x_correction y.x_correction ∧ edited x.y_correction y.y_correction⟩
instance : Edited Anchor :=
  ⟨fun | .format1 x, .format1 y => edited x y | .format2 x, .format2 y => edited x y
       | .format3 x, .format3 y => edited x y | _, _ => False⟩

instance : Edited Single :=
  ⟨fun x y =>
    y = { x with x_placement := y.x_placement, y_placement := y.y_placement
                 x_advance := y.x_advance, y_advance := y.y_advance
                 x_placement_correction := y.x_placement_correction
                 y_placement_correction := y.y_placement_correction
                 x_advance_correction := y.x_advance_correction
                 y_advance_correction := y.y_advance_correction } ∧
    Replaced InI16 x.x_placement y.x_placement ∧ Replaced InI16 x.y_placement y.y_placement ∧
    Replaced InI16 x.x_advance y.x_advance ∧ Replaced InI16 x.y_advance y.y_advance ∧
    edited x.x_placement_correction y.x_placement_correction ∧
    edited x.y_placement_correction y.y_placement_correction ∧
    edited x.x_advance_correction y.x_advance_correction ∧
    edited x.y_advance_correction y.y_advance_correction⟩

instance : Edited Pair1 :=
  ⟨fun x y => y.glyph2_id < 65536 ∧ edited x.value1 y.value1 ∧ edited x.value2 y.value2⟩
instance : Edited Pair1s := ⟨fun x y => y = { x with records := y.records } ∧ edited x.records y.records⟩
instance : Edited Pair2 := ⟨fun x y => edited x.value1 y.value1 ∧ edited x.value2 y.value2⟩
instance : Edited Pair2s := ⟨fun x y => edited x.records y.records⟩
instance : Edited Base := ⟨fun x y => y = { x with anchors := y.anchors } ∧ edited x.anchors y.anchors⟩
instance : Edited Bases := ⟨fun x y => y = { x with records := y.records } ∧ edited x.records y.records⟩
instance : Edited Component := ⟨fun x y => y = { x with anchors := y.anchors } ∧ edited x.anchors y.anchors⟩
instance : Edited Connection :=
  ⟨fun x y => y = { x with start_anchor := y.start_anchor, end_anchor := y.end_anchor } ∧
    edited x.start_anchor y.start_anchor ∧ edited x.end_anchor y.end_anchor⟩
instance : Edited gpos.Ligature :=
  ⟨fun x y => y = { x with components := y.components } ∧ edited x.components y.components⟩
instance : Edited gpos.Ligatures := ⟨fun x y => y = { x with records := y.records } ∧ edited x.records y.records⟩
/-- An anchor that is absent, and stands as the empty one of format 0, stays absent; others stay present. -/
instance : Edited Mark1 :=
  ⟨fun x y => y = { x with class_id := y.class_id, anchor := y.anchor } ∧ y.class_id < 65536 ∧
    if x.anchor = .format1 ⟨0, 0, 0⟩ then y.anchor = x.anchor
    else edited x.anchor y.anchor ∧ y.anchor ≠ .format1 ⟨0, 0, 0⟩⟩
instance : Edited Mark1s := ⟨fun x y => y = { x with records := y.records } ∧ edited x.records y.records⟩
instance : Edited Mark2 := ⟨fun x y => y = { x with anchors := y.anchors } ∧ edited x.anchors y.anchors⟩
instance : Edited Mark2s := ⟨fun x y => y = { x with records := y.records } ∧ edited x.records y.records⟩
instance : Edited SingleAdjustment1 :=
  ⟨fun x y => y = { x with value := y.value, coverage := y.coverage } ∧ edited x.value y.value ∧
    edited x.coverage y.coverage⟩
instance : Edited SingleAdjustment2 :=
  ⟨fun x y => y = { x with values := y.values, coverage := y.coverage } ∧ edited x.values y.values ∧
    edited x.coverage y.coverage⟩
instance : Edited SingleAdjustment :=
  ⟨fun | .format1 x, .format1 y => edited x y | .format2 x, .format2 y => edited x y | _, _ => False⟩
instance : Edited PairAdjustment1 :=
  ⟨fun x y => y = { x with coverage := y.coverage, records := y.records } ∧
    edited x.coverage y.coverage ∧ edited x.records y.records⟩
instance : Edited PairAdjustment2 :=
  ⟨fun x y => y = { x with records := y.records, coverage := y.coverage, class1 := y.class1, class2 := y.class2 } ∧
    edited x.records y.records ∧ edited x.coverage y.coverage ∧ edited x.class1 y.class1 ∧ edited x.class2 y.class2⟩
instance : Edited PairAdjustment :=
  ⟨fun | .format1 x, .format1 y => edited x y | .format2 x, .format2 y => edited x y | _, _ => False⟩
instance : Edited CursiveAttachment :=
  ⟨fun x y => y = { x with connections := y.connections, coverage := y.coverage } ∧
    edited x.connections y.connections ∧ edited x.coverage y.coverage⟩
instance : Edited MarkToBaseAttachment :=
  ⟨fun x y => y = { x with mark_coverage := y.mark_coverage, base_coverage := y.base_coverage
                           marks := y.marks, bases := y.bases } ∧
    edited x.mark_coverage y.mark_coverage ∧ edited x.base_coverage y.base_coverage ∧ edited x.marks y.marks ∧
    edited x.bases y.bases⟩
instance : Edited MarkToLigatureAttachment :=
  ⟨fun x y => y = { x with mark_coverage := y.mark_coverage, ligature_coverage := y.ligature_coverage
                           marks := y.marks, ligatures := y.ligatures } ∧
    edited x.mark_coverage y.mark_coverage ∧ edited x.ligature_coverage y.ligature_coverage ∧
    edited x.marks y.marks ∧ edited x.ligatures y.ligatures⟩
instance : Edited MarkToMarkAttachment :=
  ⟨fun x y => y = { x with mark1_coverage := y.mark1_coverage, mark2_coverage := y.mark2_coverage
                           mark1s := y.mark1s, mark2s := y.mark2s } ∧
    edited x.mark1_coverage y.mark1_coverage ∧ edited x.mark2_coverage y.mark2_coverage ∧
    edited x.mark1s y.mark1s ∧ edited x.mark2s y.mark2s⟩
/-- An extension has no data. -/
instance : Edited ExtensionPositioning := ⟨fun x y => y = x⟩
instance : Edited gpos.Type_ :=
  ⟨fun | .singleAdjustment x, .singleAdjustment y => edited x y
       | .pairAdjustment x, .pairAdjustment y => edited x y
       | .cursiveAttachment x, .cursiveAttachment y => edited x y
       | .markToBaseAttachment x, .markToBaseAttachment y => edited x y
       | .markToLigatureAttachment x, .markToLigatureAttachment y => edited x y
       | .markToMarkAttachment x, .markToMarkAttachment y => edited x y
       | .contextualPositioning x, .contextualPositioning y => edited x y
       | .chainedContextualPositioning x, .chainedContextualPositioning y => edited x y
       | .extensionPositioning x, .extensionPositioning y => edited x y
       | _, _ => False⟩

end gpos

section others
open OpenType.cpal OpenType.fvar OpenType.gdef

instance : Edited Color := ⟨fun _ y => y.blue < 256 ∧ y.green < 256 ∧ y.red < 256 ∧ y.alpha < 256⟩
instance : Edited cpal.Header0 :=
  ⟨fun x y => y = { x with color_indices := y.color_indices } ∧ Renumbered x.color_indices y.color_indices⟩
instance : Edited cpal.Header1 :=
  ⟨fun x y => y = { x with color_indices := y.color_indices } ∧ Renumbered x.color_indices y.color_indices⟩
instance : Edited cpal.Header :=
  ⟨fun | .version0 x, .version0 y => edited x y | .version1 x, .version1 y => edited x y | _, _ => False⟩
instance : Edited ColorPalettes := ⟨fun x y => edited x.header y.header ∧ edited x.colors y.colors⟩

instance : Edited AxisRecord :=
  ⟨fun x y => y = { x with tag := y.tag, min_value := y.min_value, default_value := y.default_value
                           max_value := y.max_value, name_id := y.name_id } ∧
    y.tag < 4294967296 ∧ InI32 y.min_value ∧ InI32 y.default_value ∧ InI32 y.max_value ∧ y.name_id < 65536⟩
instance : Edited InstanceRecord :=
  ⟨fun x y => y = { x with subfamily_name_id := y.subfamily_name_id, coordinates := y.coordinates
                           postscript_name_id := y.postscript_name_id } ∧
    y.subfamily_name_id < 65536 ∧ y.coordinates.length = x.coordinates.length ∧
    (∀ c ∈ y.coordinates, InI32 c) ∧ y.postscript_name_id < 65536⟩
instance : Edited FontVariations :=
  ⟨fun x y => y = { x with axis_records := y.axis_records, instance_records := y.instance_records } ∧
    edited x.axis_records y.axis_records ∧ edited x.instance_records y.instance_records⟩

instance : Edited item.Record :=
  ⟨fun x y => y = { x with region_indices := y.region_indices, deltas := y.deltas } ∧
    Renumbered x.region_indices y.region_indices ∧ y.deltas.length = x.deltas.length ∧ ∀ b ∈ y.deltas, b < 256⟩
instance : Edited item.Store := ⟨fun x y => y = { x with records := y.records } ∧ edited x.records y.records⟩

instance : Edited Attachment :=
  ⟨fun x y => y = { x with indices := y.indices } ∧ Renumbered x.indices y.indices⟩
instance : Edited Attachments :=
  ⟨fun x y => y = { x with coverage := y.coverage, records := y.records } ∧
    edited x.coverage y.coverage ∧ edited x.records y.records⟩
instance : Edited Caret1 := ⟨fun x y => y = { x with coordinate := y.coordinate } ∧ InI16 y.coordinate⟩
instance : Edited Caret2 := ⟨fun x y => y = { x with index := y.index } ∧ y.index < 65536⟩
instance : Edited Caret3 :=
  ⟨fun x y => y = { x with coordinate := y.coordinate, correction := y.correction } ∧ InI16 y.coordinate ∧
    edited x.correction y.correction⟩
instance : Edited Caret :=
  ⟨fun | .format1 x, .format1 y => edited x y | .format2 x, .format2 y => edited x y
       | .format3 x, .format3 y => edited x y | _, _ => False⟩
instance : Edited gdef.Ligature := ⟨fun x y => y = { x with carets := y.carets } ∧ edited x.carets y.carets⟩
instance : Edited gdef.Ligatures :=
  ⟨fun x y => y = { x with coverage := y.coverage, records := y.records } ∧
    edited x.coverage y.coverage ∧ edited x.records y.records⟩
instance : Edited Marks := ⟨fun x y => y = { x with coverages := y.coverages } ∧ edited x.coverages y.coverages⟩
instance : Edited GlyphDefinition :=
  ⟨fun x y => y = { x with glyph_class := y.glyph_class, attachments := y.attachments, ligatures := y.ligatures
                           mark_class := y.mark_class, marks := y.marks, variations := y.variations } ∧
    edited x.glyph_class y.glyph_class ∧ edited x.attachments y.attachments ∧ edited x.ligatures y.ligatures ∧
    edited x.mark_class y.mark_class ∧ edited x.marks y.marks ∧ edited x.variations y.variations⟩

end others
end OpenType.Spec
