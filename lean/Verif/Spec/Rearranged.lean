import Verif.Spec.EncodeTaken
/-!
# Specification: tables that differ in where their parts are

`rearranged x y`: the table `y` is `x` with other offsets. Everything else is the same: versions, formats, flags, counts and
data, in the table itself and in all of its parts. The new offsets have to fit their fields, and an offset that may be
zero, in which case there is nothing, is zero exactly when the old one is. The distances from one axis or instance of
a variable font to the next count as offsets. What is not followed, such as the offset in an extension, stays as it is.
Nothing here mentions readers.
-/

namespace OpenType.Spec
open OpenType

/-- Tables with offsets. -/
class Rearranged (α : Type) where
  /-- The second is the first with other offsets. -/
  rearranged : α → α → Prop

export Rearranged (rearranged)

/-- Another offset of something that is there unless the offset is zero. -/
def Shifted (o o' : Nat) : Prop := o' < 65536 ∧ (o' = 0 ↔ o = 0)

/-- As many offsets. -/
def Relisted (os os' : List Nat) : Prop := os'.length = os.length ∧ All16 os'

/-- As many offsets of what is there unless its offset is zero. -/
def ShiftedAll (os os' : List Nat) : Prop :=
  Relisted os os' ∧ ∀ (i : Nat) o o', os[i]? = some o → os'[i]? = some o' → (o' = 0 ↔ o = 0)

/-- Another offset, if there is one. -/
def ShiftedField : Option Nat → Option Nat → Prop
  | none, none => True
  | some o, some o' => Shifted o o'
  | _, _ => False

/-- Vectors of the same length, element by element. -/
instance {α : Type} [Rearranged α] : Rearranged (List α) :=
  ⟨fun xs ys => ys.length = xs.length ∧ ∀ (i : Nat) x y, xs[i]? = some x → ys[i]? = some y → rearranged x y⟩

/-- Both absent, or both present. -/
instance {α : Type} [Rearranged α] : Rearranged (Option α) :=
  ⟨fun | none, none => True | some x, some y => rearranged x y | _, _ => False⟩

section layout
open context

instance : Rearranged Records :=
  ⟨fun x y => y = { x with offsets := y.offsets } ∧ Relisted x.offsets y.offsets⟩
instance : Rearranged ClassRecords :=
  ⟨fun x y => y = { x with offsets := y.offsets } ∧ Relisted x.offsets y.offsets⟩
instance : Rearranged ChainedRecords :=
  ⟨fun x y => y = { x with offsets := y.offsets } ∧ Relisted x.offsets y.offsets⟩
instance : Rearranged ChainedClassRecords :=
  ⟨fun x y => y = { x with offsets := y.offsets } ∧ Relisted x.offsets y.offsets⟩

instance : Rearranged Context1 :=
  ⟨fun x y => y = { x with coverage_offset := y.coverage_offset, record_offsets := y.record_offsets
                           records := y.records } ∧
    y.coverage_offset < 65536 ∧ Relisted x.record_offsets y.record_offsets ∧ rearranged x.records y.records⟩
instance : Rearranged Context2 :=
  ⟨fun x y => y = { x with coverage_offset := y.coverage_offset, class_offset := y.class_offset
                           record_offsets := y.record_offsets, records := y.records } ∧
    y.coverage_offset < 65536 ∧ y.class_offset < 65536 ∧ ShiftedAll x.record_offsets y.record_offsets ∧
    rearranged x.records y.records⟩
instance : Rearranged Context3 :=
  ⟨fun x y => y = { x with coverage_offsets := y.coverage_offsets } ∧
    Relisted x.coverage_offsets y.coverage_offsets⟩
instance : Rearranged Context :=
  ⟨fun | .format1 x, .format1 y => rearranged x y | .format2 x, .format2 y => rearranged x y
       | .format3 x, .format3 y => rearranged x y | _, _ => False⟩

instance : Rearranged ChainedContext1 :=
  ⟨fun x y => y = { x with coverage_offset := y.coverage_offset, record_offsets := y.record_offsets
                           records := y.records } ∧
    y.coverage_offset < 65536 ∧ Relisted x.record_offsets y.record_offsets ∧ rearranged x.records y.records⟩
instance : Rearranged ChainedContext2 :=
  ⟨fun x y => y = { x with coverage_offset := y.coverage_offset, backward_class_offset := y.backward_class_offset
                           class_offset := y.class_offset, forward_class_offset := y.forward_class_offset
                           record_offsets := y.record_offsets, records := y.records } ∧
    y.coverage_offset < 65536 ∧ y.backward_class_offset < 65536 ∧ y.class_offset < 65536 ∧
    y.forward_class_offset < 65536 ∧ ShiftedAll x.record_offsets y.record_offsets ∧ rearranged x.records y.records⟩
instance : Rearranged ChainedContext3 :=
  ⟨fun x y => y = { x with backward_coverage_offsets := y.backward_coverage_offsets
                           coverage_offsets := y.coverage_offsets
                           forward_coverage_offsets := y.forward_coverage_offsets } ∧
    Relisted x.backward_coverage_offsets y.backward_coverage_offsets ∧
    Relisted x.coverage_offsets y.coverage_offsets ∧
    Relisted x.forward_coverage_offsets y.forward_coverage_offsets⟩
instance : Rearranged ChainedContext :=
  ⟨fun | .format1 x, .format1 y => rearranged x y | .format2 x, .format2 y => rearranged x y
       | .format3 x, .format3 y => rearranged x y | _, _ => False⟩

end layout

section lists
open script feature lookup directory

instance : Rearranged language.Header := ⟨fun x y => y = { x with offset := y.offset } ∧ y.offset < 65536⟩
instance : Rearranged script.Header := ⟨fun x y => y = { x with offset := y.offset } ∧ y.offset < 65536⟩
instance : Rearranged feature.Header := ⟨fun x y => y = { x with offset := y.offset } ∧ y.offset < 65536⟩
instance : Rearranged script.Record :=
  ⟨fun x y => y = { x with default_language_offset := y.default_language_offset
                           language_headers := y.language_headers } ∧
    Shifted x.default_language_offset y.default_language_offset ∧ rearranged x.language_headers y.language_headers⟩
instance : Rearranged Scripts :=
  ⟨fun x y => y = { x with headers := y.headers, records := y.records } ∧ rearranged x.headers y.headers ∧
    rearranged x.records y.records⟩
instance : Rearranged Features :=
  ⟨fun x y => y = { x with headers := y.headers } ∧ rearranged x.headers y.headers⟩
instance {T : Type} [Rearranged T] : Rearranged (lookup.Record T) :=
  ⟨fun x y => y = { x with table_offsets := y.table_offsets, tables := y.tables } ∧
    Relisted x.table_offsets y.table_offsets ∧ rearranged x.tables y.tables⟩
instance {T : Type} [Rearranged T] : Rearranged (Lookups T) :=
  ⟨fun x y => y = { x with offsets := y.offsets, records := y.records } ∧ Relisted x.offsets y.offsets ∧
    rearranged x.records y.records⟩
instance {T : Type} [Rearranged T] : Rearranged (Directory T) :=
  ⟨fun x y => y = { x with script_offset := y.script_offset, feature_offset := y.feature_offset
                           lookup_offset := y.lookup_offset, variation_offset := y.variation_offset
                           scripts := y.scripts, features := y.features, lookups := y.lookups } ∧
    Shifted x.script_offset y.script_offset ∧ Shifted x.feature_offset y.feature_offset ∧
    Shifted x.lookup_offset y.lookup_offset ∧
    (y.variation_offset < 4294967296 ∧ (y.variation_offset = 0 ↔ x.variation_offset = 0)) ∧
    rearranged x.scripts y.scripts ∧ rearranged x.features y.features ∧ rearranged x.lookups y.lookups⟩

end lists

section gsub
open OpenType.gsub

instance : Rearranged gsub.Ligatures :=
  ⟨fun x y => y = { x with offsets := y.offsets } ∧ Relisted x.offsets y.offsets⟩
instance : Rearranged SingleSubstitution1 :=
  ⟨fun x y => y = { x with coverage_offset := y.coverage_offset } ∧ y.coverage_offset < 65536⟩
instance : Rearranged SingleSubstitution2 :=
  ⟨fun x y => y = { x with coverage_offset := y.coverage_offset } ∧ y.coverage_offset < 65536⟩
instance : Rearranged SingleSubstitution :=
  ⟨fun | .format1 x, .format1 y => rearranged x y | .format2 x, .format2 y => rearranged x y | _, _ => False⟩
instance : Rearranged MultipleSubstitution :=
  ⟨fun x y => y = { x with coverage_offset := y.coverage_offset, record_offsets := y.record_offsets } ∧
    y.coverage_offset < 65536 ∧ Relisted x.record_offsets y.record_offsets⟩
instance : Rearranged AlternateSubstitution :=
  ⟨fun x y => y = { x with coverage_offset := y.coverage_offset, record_offsets := y.record_offsets } ∧
    y.coverage_offset < 65536 ∧ Relisted x.record_offsets y.record_offsets⟩
instance : Rearranged LigatureSubstitution :=
  ⟨fun x y => y = { x with coverage_offset := y.coverage_offset, record_offsets := y.record_offsets
                           records := y.records } ∧
    y.coverage_offset < 65536 ∧ Relisted x.record_offsets y.record_offsets ∧ rearranged x.records y.records⟩
/-- The offset of an extension is not followed. -/
instance : Rearranged ExtensionSubstitution := ⟨fun x y => y = x⟩
instance : Rearranged ReverseChainedContextualSubstibution :=
  ⟨fun x y => y = { x with coverage_offset := y.coverage_offset
                           backward_coverage_offsets := y.backward_coverage_offsets
                           forward_coverage_offsets := y.forward_coverage_offsets } ∧
    y.coverage_offset < 65536 ∧ Relisted x.backward_coverage_offsets y.backward_coverage_offsets ∧
    Relisted x.forward_coverage_offsets y.forward_coverage_offsets⟩
instance : Rearranged gsub.Type_ :=
  ⟨fun | .singleSubstitution x, .singleSubstitution y => rearranged x y
       | .multipleSubstitution x, .multipleSubstitution y => rearranged x y
       | .alternateSubstitution x, .alternateSubstitution y => rearranged x y
       | .ligatureSubstitution x, .ligatureSubstitution y => rearranged x y
       | .contextualSubstitution x, .contextualSubstitution y => rearranged x y
       | .chainedContextualSubstitution x, .chainedContextualSubstitution y => rearranged x y
       | .extensionSubstitution x, .extensionSubstitution y => rearranged x y
       | .reverseChainedContextualSubstibution x, .reverseChainedContextualSubstibution y => rearranged x y
       | _, _ => False⟩

end gsub

section gpos
open OpenType.gpos

instance : Rearranged Anchor3 :=
  ⟨fun x y => y = { x with x_correction_offset := y.x_correction_offset
                           y_correction_offset := y.y_correction_offset } ∧
    Shifted x.x_correction_offset y.x_correction_offset ∧ Shifted x.y_correction_offset y.y_correction_offset⟩
instance : Rearranged Anchor :=
  ⟨fun | .format1 x, .format1 y => y = x | .format2 x, .format2 y => y = x
       | .format3 x, .format3 y => rearranged x y | _, _ => False⟩
instance : Rearranged Single :=
  ⟨fun x y =>
    y = { x with x_placement_correction_offset := y.x_placement_correction_offset
                 y_placement_correction_offset := y.y_placement_correction_offset
                 x_advance_correction_offset := y.x_advance_correction_offset
                 y_advance_correction_offset := y.y_advance_correction_offset } ∧
    ShiftedField x.x_placement_correction_offset y.x_placement_correction_offset ∧
    ShiftedField x.y_placement_correction_offset y.y_placement_correction_offset ∧
    ShiftedField x.x_advance_correction_offset y.x_advance_correction_offset ∧
    ShiftedField x.y_advance_correction_offset y.y_advance_correction_offset⟩
instance : Rearranged Pair1 :=
  ⟨fun x y => y.glyph2_id = x.glyph2_id ∧ rearranged x.value1 y.value1 ∧ rearranged x.value2 y.value2⟩
instance : Rearranged Pair1s := ⟨fun x y => y = { x with records := y.records } ∧ rearranged x.records y.records⟩
instance : Rearranged Pair2 := ⟨fun x y => rearranged x.value1 y.value1 ∧ rearranged x.value2 y.value2⟩
instance : Rearranged Pair2s := ⟨fun x y => rearranged x.records y.records⟩
instance : Rearranged Base :=
  ⟨fun x y => ShiftedAll x.anchor_offsets y.anchor_offsets ∧ rearranged x.anchors y.anchors⟩
instance : Rearranged Bases := ⟨fun x y => y = { x with records := y.records } ∧ rearranged x.records y.records⟩
instance : Rearranged Component :=
  ⟨fun x y => ShiftedAll x.anchor_offsets y.anchor_offsets ∧ rearranged x.anchors y.anchors⟩
instance : Rearranged Connection :=
  ⟨fun x y => Shifted x.start_anchor_offset y.start_anchor_offset ∧ Shifted x.end_anchor_offset y.end_anchor_offset ∧
    rearranged x.start_anchor y.start_anchor ∧ rearranged x.end_anchor y.end_anchor⟩
instance : Rearranged gpos.Ligature :=
  ⟨fun x y => y = { x with components := y.components } ∧ rearranged x.components y.components⟩
instance : Rearranged gpos.Ligatures :=
  ⟨fun x y => y = { x with offsets := y.offsets, records := y.records } ∧ Relisted x.offsets y.offsets ∧
    rearranged x.records y.records⟩
instance : Rearranged Mark1 :=
  ⟨fun x y => y = { x with anchor_offset := y.anchor_offset, anchor := y.anchor } ∧
    Shifted x.anchor_offset y.anchor_offset ∧ rearranged x.anchor y.anchor⟩
instance : Rearranged Mark1s := ⟨fun x y => y = { x with records := y.records } ∧ rearranged x.records y.records⟩
instance : Rearranged Mark2 :=
  ⟨fun x y => ShiftedAll x.anchor_offsets y.anchor_offsets ∧ rearranged x.anchors y.anchors⟩
instance : Rearranged Mark2s := ⟨fun x y => y = { x with records := y.records } ∧ rearranged x.records y.records⟩
instance : Rearranged SingleAdjustment1 :=
  ⟨fun x y => y = { x with coverage_offset := y.coverage_offset, value := y.value } ∧ y.coverage_offset < 65536 ∧
    rearranged x.value y.value⟩
instance : Rearranged SingleAdjustment2 :=
  ⟨fun x y => y = { x with coverage_offset := y.coverage_offset, values := y.values } ∧ y.coverage_offset < 65536 ∧
    rearranged x.values y.values⟩
instance : Rearranged SingleAdjustment :=
  ⟨fun | .format1 x, .format1 y => rearranged x y | .format2 x, .format2 y => rearranged x y | _, _ => False⟩
instance : Rearranged PairAdjustment1 :=
  ⟨fun x y => y = { x with coverage_offset := y.coverage_offset, record_offsets := y.record_offsets
                           records := y.records } ∧
    y.coverage_offset < 65536 ∧ Relisted x.record_offsets y.record_offsets ∧ rearranged x.records y.records⟩
instance : Rearranged PairAdjustment2 :=
  ⟨fun x y => y = { x with coverage_offset := y.coverage_offset, class1_offset := y.class1_offset
                           class2_offset := y.class2_offset, records := y.records } ∧
    y.coverage_offset < 65536 ∧ y.class1_offset < 65536 ∧ y.class2_offset < 65536 ∧ rearranged x.records y.records⟩
instance : Rearranged PairAdjustment :=
  ⟨fun | .format1 x, .format1 y => rearranged x y | .format2 x, .format2 y => rearranged x y | _, _ => False⟩
instance : Rearranged CursiveAttachment :=
  ⟨fun x y => y = { x with coverage_offset := y.coverage_offset, connections := y.connections } ∧
    y.coverage_offset < 65536 ∧ rearranged x.connections y.connections⟩
instance : Rearranged MarkToBaseAttachment :=
  ⟨fun x y => y = { x with mark_coverage_offset := y.mark_coverage_offset
                           base_coverage_offset := y.base_coverage_offset, marks_offset := y.marks_offset
                           bases_offset := y.bases_offset, marks := y.marks, bases := y.bases } ∧
    y.mark_coverage_offset < 65536 ∧ y.base_coverage_offset < 65536 ∧ y.marks_offset < 65536 ∧
    y.bases_offset < 65536 ∧ rearranged x.marks y.marks ∧ rearranged x.bases y.bases⟩
instance : Rearranged MarkToLigatureAttachment :=
  ⟨fun x y => y = { x with mark_coverage_offset := y.mark_coverage_offset
                           ligature_coverage_offset := y.ligature_coverage_offset, marks_offset := y.marks_offset
                           ligatures_offset := y.ligatures_offset, marks := y.marks, ligatures := y.ligatures } ∧
    y.mark_coverage_offset < 65536 ∧ y.ligature_coverage_offset < 65536 ∧ y.marks_offset < 65536 ∧
    y.ligatures_offset < 65536 ∧ rearranged x.marks y.marks ∧ rearranged x.ligatures y.ligatures⟩
instance : Rearranged MarkToMarkAttachment :=
  ⟨fun x y => y = { x with mark1_coverage_offset := y.mark1_coverage_offset
                           mark2_coverage_offset := y.mark2_coverage_offset, mark1s_offset := y.mark1s_offset
                           mark2s_offset := y.mark2s_offset, mark1s := y.mark1s, mark2s := y.mark2s } ∧
    y.mark1_coverage_offset < 65536 ∧ y.mark2_coverage_offset < 65536 ∧ y.mark1s_offset < 65536 ∧
    y.mark2s_offset < 65536 ∧ rearranged x.mark1s y.mark1s ∧ rearranged x.mark2s y.mark2s⟩
/-- The offset of an extension is not followed. -/
instance : Rearranged ExtensionPositioning := ⟨fun x y => y = x⟩
instance : Rearranged gpos.Type_ :=
  ⟨fun | .singleAdjustment x, .singleAdjustment y => rearranged x y
       | .pairAdjustment x, .pairAdjustment y => rearranged x y
       | .cursiveAttachment x, .cursiveAttachment y => rearranged x y
       | .markToBaseAttachment x, .markToBaseAttachment y => rearranged x y
       | .markToLigatureAttachment x, .markToLigatureAttachment y => rearranged x y
       | .markToMarkAttachment x, .markToMarkAttachment y => rearranged x y
       | .contextualPositioning x, .contextualPositioning y => rearranged x y
       | .chainedContextualPositioning x, .chainedContextualPositioning y => rearranged x y
       | .extensionPositioning x, .extensionPositioning y => rearranged x y
       | _, _ => False⟩

end gpos

section others
open OpenType.cpal OpenType.fvar OpenType.gdef

instance : Rearranged cpal.Header0 :=
  ⟨fun x y => y = { x with color_offset := y.color_offset } ∧ y.color_offset < 4294967296⟩
instance : Rearranged cpal.Header1 :=
  ⟨fun x y => y = { x with color_offset := y.color_offset } ∧ y.color_offset < 4294967296⟩
instance : Rearranged cpal.Header :=
  ⟨fun | .version0 x, .version0 y => rearranged x y | .version1 x, .version1 y => rearranged x y | _, _ => False⟩
instance : Rearranged ColorPalettes := ⟨fun x y => rearranged x.header y.header ∧ y.colors = x.colors⟩

/-- The offset of the axes, and how far it is from one axis and instance to the next. -/
instance : Rearranged fvar.Header :=
  ⟨fun x y => y = { x with axis_offset := y.axis_offset, axis_size := y.axis_size
                           instance_size := y.instance_size } ∧
    y.axis_offset < 65536 ∧ y.axis_size < 65536 ∧ y.instance_size < 65536⟩
instance : Rearranged FontVariations :=
  ⟨fun x y => y = { x with header := y.header } ∧ rearranged x.header y.header⟩

/-- The offset of the regions is not followed. -/
instance : Rearranged item.Store :=
  ⟨fun x y => y = { x with offsets := y.offsets } ∧ y.offsets.length = x.offsets.length ∧ All32 y.offsets⟩

instance : Rearranged Attachments :=
  ⟨fun x y => y = { x with coverage_offset := y.coverage_offset, offsets := y.offsets } ∧
    y.coverage_offset < 65536 ∧ Relisted x.offsets y.offsets⟩
instance : Rearranged Caret3 :=
  ⟨fun x y => y = { x with correction_offset := y.correction_offset } ∧ y.correction_offset < 65536⟩
instance : Rearranged Caret :=
  ⟨fun | .format1 x, .format1 y => y = x | .format2 x, .format2 y => y = x
       | .format3 x, .format3 y => rearranged x y | _, _ => False⟩
instance : Rearranged gdef.Ligature :=
  ⟨fun x y => y = { x with caret_offsets := y.caret_offsets, carets := y.carets } ∧
    Relisted x.caret_offsets y.caret_offsets ∧ rearranged x.carets y.carets⟩
instance : Rearranged gdef.Ligatures :=
  ⟨fun x y => y = { x with coverage_offset := y.coverage_offset, offsets := y.offsets, records := y.records } ∧
    y.coverage_offset < 65536 ∧ Relisted x.offsets y.offsets ∧ rearranged x.records y.records⟩
instance : Rearranged Marks :=
  ⟨fun x y => y = { x with coverage_offsets := y.coverage_offsets } ∧
    y.coverage_offsets.length = x.coverage_offsets.length ∧ All32 y.coverage_offsets⟩
instance : Rearranged gdef.Header1 :=
  ⟨fun x y => y = { x with glyph_class_offset := y.glyph_class_offset, attachment_offset := y.attachment_offset
                           ligature_offset := y.ligature_offset, mark_class_offset := y.mark_class_offset } ∧
    Shifted x.glyph_class_offset y.glyph_class_offset ∧ Shifted x.attachment_offset y.attachment_offset ∧
    Shifted x.ligature_offset y.ligature_offset ∧ Shifted x.mark_class_offset y.mark_class_offset⟩
instance : Rearranged gdef.Header12 :=
  ⟨fun x y => y = { x with glyph_class_offset := y.glyph_class_offset, attachment_offset := y.attachment_offset
                           ligature_offset := y.ligature_offset, mark_class_offset := y.mark_class_offset
                           mark_offset := y.mark_offset } ∧
    Shifted x.glyph_class_offset y.glyph_class_offset ∧ Shifted x.attachment_offset y.attachment_offset ∧
    Shifted x.ligature_offset y.ligature_offset ∧ Shifted x.mark_class_offset y.mark_class_offset ∧
    Shifted x.mark_offset y.mark_offset⟩
instance : Rearranged gdef.Header13 :=
  ⟨fun x y => y = { x with glyph_class_offset := y.glyph_class_offset, attachment_offset := y.attachment_offset
                           ligature_offset := y.ligature_offset, mark_class_offset := y.mark_class_offset
                           mark_offset := y.mark_offset, variation_offset := y.variation_offset } ∧
    Shifted x.glyph_class_offset y.glyph_class_offset ∧ Shifted x.attachment_offset y.attachment_offset ∧
    Shifted x.ligature_offset y.ligature_offset ∧ Shifted x.mark_class_offset y.mark_class_offset ∧
    Shifted x.mark_offset y.mark_offset ∧
    (y.variation_offset < 4294967296 ∧ (y.variation_offset = 0 ↔ x.variation_offset = 0))⟩
instance : Rearranged gdef.Header :=
  ⟨fun | .version1 x, .version1 y => rearranged x y | .version12 x, .version12 y => rearranged x y
       | .version13 x, .version13 y => rearranged x y | _, _ => False⟩
instance : Rearranged GlyphDefinition :=
  ⟨fun x y => y = { x with header := y.header, attachments := y.attachments, ligatures := y.ligatures
                           marks := y.marks, variations := y.variations } ∧
    rearranged x.header y.header ∧ rearranged x.attachments y.attachments ∧ rearranged x.ligatures y.ligatures ∧
    rearranged x.marks y.marks ∧ rearranged x.variations y.variations⟩

end others
end OpenType.Spec
