import Verif.Spec.Work
/-! # Measuring values: equations -/

namespace OpenType
open Spec

@[simp] theorem content_nat (n : Nat) : content n = 1 := rfl
@[simp] theorem content_int (n : Int) : content n = 1 := rfl
@[simp] theorem content_nil {α : Type} [Measured α] : content ([] : List α) = 1 := rfl
@[simp] theorem content_cons {α : Type} [Measured α] (x : α) (xs : List α) :
    content (x :: xs) = content x + content xs := by
  show 1 + ((x :: xs).map content).sum = content x + (1 + (xs.map content).sum)
  rw [List.map_cons, List.sum_cons]; omega
@[simp] theorem content_none {α : Type} [Measured α] : content (none : Option α) = 1 := rfl
@[simp] theorem content_some {α : Type} [Measured α] (x : α) : content (some x) = 1 + content x := rfl
@[simp] theorem content_coverage_Record (x0 x1 x2) : content (coverage.Record.mk x0 x1 x2) = content x0 +
    content x1 + content x2 := rfl
@[simp] theorem content_coverage_Coverage1 (x0 x1 x2) : content (coverage.Coverage1.mk x0 x1 x2) = content x0 +
    content x1 + content x2 := rfl
@[simp] theorem content_coverage_Coverage2 (x0 x1 x2) : content (coverage.Coverage2.mk x0 x1 x2) = content x0 +
    content x1 + content x2 := rfl
@[simp] theorem content_coverage_Coverage_format1 (t) : content (.format1 t : coverage.Coverage) = 1 + content t := rfl
@[simp] theorem content_coverage_Coverage_format2 (t) : content (.format2 t : coverage.Coverage) = 1 + content t := rfl
@[simp] theorem content_class__Record (x0 x1 x2) : content (class_.Record.mk x0 x1 x2) = content x0 +
    content x1 + content x2 := rfl
@[simp] theorem content_class__Class1 (x0 x1 x2 x3) : content (class_.Class1.mk x0 x1 x2 x3) = content x0 +
    content x1 + content x2 + content x3 := rfl
@[simp] theorem content_class__Class2 (x0 x1 x2) : content (class_.Class2.mk x0 x1 x2) = content x0 +
    content x1 + content x2 := rfl
@[simp] theorem content_class__Class_format1 (t) : content (.format1 t : class_.Class) = 1 + content t := rfl
@[simp] theorem content_class__Class_format2 (t) : content (.format2 t : class_.Class) = 1 + content t := rfl
@[simp] theorem content_correction_Device (x0 x1 x2 x3) : content (correction.Device.mk x0 x1 x2 x3) =
    content x0 + content x1 + content x2 + content x3 := rfl
@[simp] theorem content_correction_Variation (x0 x1 x2) : content (correction.Variation.mk x0 x1 x2) =
    content x0 + content x1 + content x2 := rfl
@[simp] theorem content_correction_Correction_device (t) : content (.device t : correction.Correction) = 1 + content t := rfl
@[simp] theorem content_correction_Correction_variation (t) : content (.variation t : correction.Correction) = 1 + content t := rfl
@[simp] theorem content_context_Action (x0 x1) : content (context.Action.mk x0 x1) = content x0 +
    content x1 := rfl
@[simp] theorem content_context_Record (x0 x1 x2 x3) : content (context.Record.mk x0 x1 x2 x3) = content x0 +
    content x1 + content x2 + content x3 := rfl
@[simp] theorem content_context_Records (x0 x1 x2) : content (context.Records.mk x0 x1 x2) = content x0 +
    content x1 + content x2 := rfl
@[simp] theorem content_context_ClassRecord (x0 x1 x2 x3) : content (context.ClassRecord.mk x0 x1 x2 x3) =
    content x0 + content x1 + content x2 + content x3 := rfl
@[simp] theorem content_context_ClassRecords (x0 x1 x2) : content (context.ClassRecords.mk x0 x1 x2) =
    content x0 + content x1 + content x2 := rfl
@[simp] theorem content_context_ChainedRecord (x0 x1 x2 x3 x4 x5 x6 x7) : content (context.ChainedRecord.mk x0 x1 x2 x3 x4 x5 x6 x7) =
    content x0 + content x1 + content x2 + content x3 + content x4 + content x5 + content x6 + content x7 := rfl
@[simp] theorem content_context_ChainedRecords (x0 x1 x2) : content (context.ChainedRecords.mk x0 x1 x2) =
    content x0 + content x1 + content x2 := rfl
@[simp] theorem content_context_ChainedClassRecord (x0 x1 x2 x3 x4 x5 x6 x7) : content (context.ChainedClassRecord.mk x0 x1 x2 x3 x4 x5 x6 x7) =
    content x0 + content x1 + content x2 + content x3 + content x4 + content x5 + content x6 + content x7 := rfl
@[simp] theorem content_context_ChainedClassRecords (x0 x1 x2) : content (context.ChainedClassRecords.mk x0 x1 x2) =
    content x0 + content x1 + content x2 := rfl
@[simp] theorem content_context_Context1 (x0 x1 x2 x3 x4 x5) : content (context.Context1.mk x0 x1 x2 x3 x4 x5) =
    content x0 + content x1 + content x2 + content x3 + content x4 + content x5 := rfl
@[simp] theorem content_context_Context2 (x0 x1 x2 x3 x4 x5 x6 x7) : content (context.Context2.mk x0 x1 x2 x3 x4 x5 x6 x7) =
    content x0 + content x1 + content x2 + content x3 + content x4 + content x5 + content x6 + content x7 := rfl
@[simp] theorem content_context_Context3 (x0 x1 x2 x3 x4 x5) : content (context.Context3.mk x0 x1 x2 x3 x4 x5) =
    content x0 + content x1 + content x2 + content x3 + content x4 + content x5 := rfl
@[simp] theorem content_context_Context_format1 (t) : content (.format1 t : context.Context) = 1 + content t := rfl
@[simp] theorem content_context_Context_format2 (t) : content (.format2 t : context.Context) = 1 + content t := rfl
@[simp] theorem content_context_Context_format3 (t) : content (.format3 t : context.Context) = 1 + content t := rfl
@[simp] theorem content_context_ChainedContext1 (x0 x1 x2 x3 x4 x5) : content (context.ChainedContext1.mk x0 x1 x2 x3 x4 x5) =
    content x0 + content x1 + content x2 + content x3 + content x4 + content x5 := rfl
@[simp] theorem content_context_ChainedContext2 (x0 x1 x2 x3 x4 x5 x6 x7 x8 x9 x10 x11) : content (context.ChainedContext2.mk x0 x1 x2 x3 x4 x5 x6 x7 x8 x9 x10 x11) =
    content x0 + content x1 + content x2 + content x3 + content x4 + content x5 + content x6 + content x7 +
    content x8 + content x9 + content x10 + content x11 := rfl
@[simp] theorem content_context_ChainedContext3 (x0 x1 x2 x3 x4 x5 x6 x7 x8 x9 x10 x11) : content (context.ChainedContext3.mk x0 x1 x2 x3 x4 x5 x6 x7 x8 x9 x10 x11) =
    content x0 + content x1 + content x2 + content x3 + content x4 + content x5 + content x6 + content x7 +
    content x8 + content x9 + content x10 + content x11 := rfl
@[simp] theorem content_context_ChainedContext_format1 (t) : content (.format1 t : context.ChainedContext) = 1 + content t := rfl
@[simp] theorem content_context_ChainedContext_format2 (t) : content (.format2 t : context.ChainedContext) = 1 + content t := rfl
@[simp] theorem content_context_ChainedContext_format3 (t) : content (.format3 t : context.ChainedContext) = 1 + content t := rfl
@[simp] theorem content_language_Header (x0 x1) : content (language.Header.mk x0 x1) = content x0 +
    content x1 := rfl
@[simp] theorem content_language_Record (x0 x1 x2 x3) : content (language.Record.mk x0 x1 x2 x3) = content x0 +
    content x1 + content x2 + content x3 := rfl
@[simp] theorem content_script_Header (x0 x1) : content (script.Header.mk x0 x1) = content x0 +
    content x1 := rfl
@[simp] theorem content_script_Record (x0 x1 x2 x3 x4) : content (script.Record.mk x0 x1 x2 x3 x4) =
    content x0 + content x1 + content x2 + content x3 + content x4 := rfl
@[simp] theorem content_script_Scripts (x0 x1 x2) : content (script.Scripts.mk x0 x1 x2) = content x0 +
    content x1 + content x2 := rfl
@[simp] theorem content_feature_Header (x0 x1) : content (feature.Header.mk x0 x1) = content x0 +
    content x1 := rfl
@[simp] theorem content_feature_Record (x0 x1 x2 x3) : content (feature.Record.mk x0 x1 x2 x3) = content x0 +
    content x1 + content x2 + content x3 := rfl
@[simp] theorem content_feature_Variations (x0 x1 x2) : content (feature.Variations.mk x0 x1 x2) = content x0 +
    content x1 + content x2 := rfl
@[simp] theorem content_feature_Features (x0 x1 x2) : content (feature.Features.mk x0 x1 x2) = content x0 +
    content x1 + content x2 := rfl
@[simp] theorem content_lookup_Record {T : Type} [Measured T] (x0 x1 x2 x3 x4 x5) : content (lookup.Record.mk (T := T) x0 x1 x2 x3 x4 x5) =
    content x0 + content x1 + content x2 + content x3 + content x4 + content x5 := rfl
@[simp] theorem content_lookup_Lookups {T : Type} [Measured T] (x0 x1 x2) : content (lookup.Lookups.mk (T := T) x0 x1 x2) =
    content x0 + content x1 + content x2 := rfl
@[simp] theorem content_directory_Directory {T : Type} [Measured T] (x0 x1 x2 x3 x4 x5 x6 x7 x8 x9) : content (directory.Directory.mk (T := T) x0 x1 x2 x3 x4 x5 x6 x7 x8 x9) =
    content x0 + content x1 + content x2 + content x3 + content x4 + content x5 + content x6 + content x7 +
    content x8 + content x9 := rfl
@[simp] theorem content_gsub_Alternates (x0 x1) : content (gsub.Alternates.mk x0 x1) = content x0 +
    content x1 := rfl
@[simp] theorem content_gsub_Ligature (x0 x1 x2) : content (gsub.Ligature.mk x0 x1 x2) = content x0 +
    content x1 + content x2 := rfl
@[simp] theorem content_gsub_Ligatures (x0 x1 x2) : content (gsub.Ligatures.mk x0 x1 x2) = content x0 +
    content x1 + content x2 := rfl
@[simp] theorem content_gsub_Sequence (x0 x1) : content (gsub.Sequence.mk x0 x1) = content x0 +
    content x1 := rfl
@[simp] theorem content_gsub_SingleSubstitution1 (x0 x1 x2 x3) : content (gsub.SingleSubstitution1.mk x0 x1 x2 x3) =
    content x0 + content x1 + content x2 + content x3 := rfl
@[simp] theorem content_gsub_SingleSubstitution2 (x0 x1 x2 x3 x4) : content (gsub.SingleSubstitution2.mk x0 x1 x2 x3 x4) =
    content x0 + content x1 + content x2 + content x3 + content x4 := rfl
@[simp] theorem content_gsub_SingleSubstitution_format1 (t) : content (.format1 t : gsub.SingleSubstitution) = 1 + content t := rfl
@[simp] theorem content_gsub_SingleSubstitution_format2 (t) : content (.format2 t : gsub.SingleSubstitution) = 1 + content t := rfl
@[simp] theorem content_gsub_MultipleSubstitution (x0 x1 x2 x3 x4 x5) : content (gsub.MultipleSubstitution.mk x0 x1 x2 x3 x4 x5) =
    content x0 + content x1 + content x2 + content x3 + content x4 + content x5 := rfl
@[simp] theorem content_gsub_AlternateSubstitution (x0 x1 x2 x3 x4 x5) : content (gsub.AlternateSubstitution.mk x0 x1 x2 x3 x4 x5) =
    content x0 + content x1 + content x2 + content x3 + content x4 + content x5 := rfl
@[simp] theorem content_gsub_LigatureSubstitution (x0 x1 x2 x3 x4 x5) : content (gsub.LigatureSubstitution.mk x0 x1 x2 x3 x4 x5) =
    content x0 + content x1 + content x2 + content x3 + content x4 + content x5 := rfl
@[simp] theorem content_gsub_ExtensionSubstitution (x0 x1 x2) : content (gsub.ExtensionSubstitution.mk x0 x1 x2) =
    content x0 + content x1 + content x2 := rfl
@[simp] theorem content_gsub_ReverseChainedContextualSubstibution (x0 x1 x2 x3 x4 x5 x6 x7 x8 x9 x10) : content (gsub.ReverseChainedContextualSubstibution.mk x0 x1 x2 x3 x4 x5 x6 x7 x8 x9 x10) =
    content x0 + content x1 + content x2 + content x3 + content x4 + content x5 + content x6 + content x7 +
    content x8 + content x9 + content x10 := rfl
@[simp] theorem content_gsub_Type__singleSubstitution (t) : content (.singleSubstitution t : gsub.Type_) = 1 + content t := rfl
@[simp] theorem content_gsub_Type__multipleSubstitution (t) : content (.multipleSubstitution t : gsub.Type_) = 1 + content t := rfl
@[simp] theorem content_gsub_Type__alternateSubstitution (t) : content (.alternateSubstitution t : gsub.Type_) = 1 + content t := rfl
@[simp] theorem content_gsub_Type__ligatureSubstitution (t) : content (.ligatureSubstitution t : gsub.Type_) = 1 + content t := rfl
@[simp] theorem content_gsub_Type__contextualSubstitution (t) : content (.contextualSubstitution t : gsub.Type_) = 1 + content t := rfl
@[simp] theorem content_gsub_Type__chainedContextualSubstitution (t) : content (.chainedContextualSubstitution t : gsub.Type_) = 1 + content t := rfl
@[simp] theorem content_gsub_Type__extensionSubstitution (t) : content (.extensionSubstitution t : gsub.Type_) = 1 + content t := rfl
@[simp] theorem content_gsub_Type__reverseChainedContextualSubstibution (t) : content (.reverseChainedContextualSubstibution t : gsub.Type_) = 1 + content t := rfl
@[simp] theorem content_gpos_Anchor1 (x0 x1 x2) : content (gpos.Anchor1.mk x0 x1 x2) = content x0 +
    content x1 + content x2 := rfl
@[simp] theorem content_gpos_Anchor2 (x0 x1 x2 x3) : content (gpos.Anchor2.mk x0 x1 x2 x3) = content x0 +
    content x1 + content x2 + content x3 := rfl
@[simp] theorem content_gpos_Anchor3 (x0 x1 x2 x3 x4 x5 x6) : content (gpos.Anchor3.mk x0 x1 x2 x3 x4 x5 x6) =
    content x0 + content x1 + content x2 + content x3 + content x4 + content x5 + content x6 := rfl
@[simp] theorem content_gpos_Anchor_format1 (t) : content (.format1 t : gpos.Anchor) = 1 + content t := rfl
@[simp] theorem content_gpos_Anchor_format2 (t) : content (.format2 t : gpos.Anchor) = 1 + content t := rfl
@[simp] theorem content_gpos_Anchor_format3 (t) : content (.format3 t : gpos.Anchor) = 1 + content t := rfl
@[simp] theorem content_gpos_Single (x0 x1 x2 x3 x4 x5 x6 x7 x8 x9 x10 x11) : content (gpos.Single.mk x0 x1 x2 x3 x4 x5 x6 x7 x8 x9 x10 x11) =
    content x0 + content x1 + content x2 + content x3 + content x4 + content x5 + content x6 + content x7 +
    content x8 + content x9 + content x10 + content x11 := rfl
@[simp] theorem content_gpos_Pair1 (x0 x1 x2) : content (gpos.Pair1.mk x0 x1 x2) = content x0 + content x1 +
    content x2 := rfl
@[simp] theorem content_gpos_Pair1s (x0 x1) : content (gpos.Pair1s.mk x0 x1) = content x0 + content x1 := rfl
@[simp] theorem content_gpos_Pair2 (x0 x1) : content (gpos.Pair2.mk x0 x1) = content x0 + content x1 := rfl
@[simp] theorem content_gpos_Pair2s (x0) : content (gpos.Pair2s.mk x0) = content x0 := rfl
@[simp] theorem content_gpos_Base (x0 x1) : content (gpos.Base.mk x0 x1) = content x0 + content x1 := rfl
@[simp] theorem content_gpos_Bases (x0 x1) : content (gpos.Bases.mk x0 x1) = content x0 + content x1 := rfl
@[simp] theorem content_gpos_Component (x0 x1) : content (gpos.Component.mk x0 x1) = content x0 +
    content x1 := rfl
@[simp] theorem content_gpos_Connection (x0 x1 x2 x3) : content (gpos.Connection.mk x0 x1 x2 x3) = content x0 +
    content x1 + content x2 + content x3 := rfl
@[simp] theorem content_gpos_Ligature (x0 x1) : content (gpos.Ligature.mk x0 x1) = content x0 +
    content x1 := rfl
@[simp] theorem content_gpos_Ligatures (x0 x1 x2) : content (gpos.Ligatures.mk x0 x1 x2) = content x0 +
    content x1 + content x2 := rfl
@[simp] theorem content_gpos_Mark1 (x0 x1 x2) : content (gpos.Mark1.mk x0 x1 x2) = content x0 + content x1 +
    content x2 := rfl
@[simp] theorem content_gpos_Mark1s (x0 x1) : content (gpos.Mark1s.mk x0 x1) = content x0 + content x1 := rfl
@[simp] theorem content_gpos_Mark2 (x0 x1) : content (gpos.Mark2.mk x0 x1) = content x0 + content x1 := rfl
@[simp] theorem content_gpos_Mark2s (x0 x1) : content (gpos.Mark2s.mk x0 x1) = content x0 + content x1 := rfl
@[simp] theorem content_gpos_SingleAdjustment1 (x0 x1 x2 x3 x4) : content (gpos.SingleAdjustment1.mk x0 x1 x2 x3 x4) =
    content x0 + content x1 + content x2 + content x3 + content x4 := rfl
@[simp] theorem content_gpos_SingleAdjustment2 (x0 x1 x2 x3 x4 x5) : content (gpos.SingleAdjustment2.mk x0 x1 x2 x3 x4 x5) =
    content x0 + content x1 + content x2 + content x3 + content x4 + content x5 := rfl
@[simp] theorem content_gpos_SingleAdjustment_format1 (t) : content (.format1 t : gpos.SingleAdjustment) = 1 + content t := rfl
@[simp] theorem content_gpos_SingleAdjustment_format2 (t) : content (.format2 t : gpos.SingleAdjustment) = 1 + content t := rfl
@[simp] theorem content_gpos_PairAdjustment1 (x0 x1 x2 x3 x4 x5 x6 x7) : content (gpos.PairAdjustment1.mk x0 x1 x2 x3 x4 x5 x6 x7) =
    content x0 + content x1 + content x2 + content x3 + content x4 + content x5 + content x6 + content x7 := rfl
@[simp] theorem content_gpos_PairAdjustment2 (x0 x1 x2 x3 x4 x5 x6 x7 x8 x9 x10 x11) : content (gpos.PairAdjustment2.mk x0 x1 x2 x3 x4 x5 x6 x7 x8 x9 x10 x11) =
    content x0 + content x1 + content x2 + content x3 + content x4 + content x5 + content x6 + content x7 +
    content x8 + content x9 + content x10 + content x11 := rfl
@[simp] theorem content_gpos_PairAdjustment_format1 (t) : content (.format1 t : gpos.PairAdjustment) = 1 + content t := rfl
@[simp] theorem content_gpos_PairAdjustment_format2 (t) : content (.format2 t : gpos.PairAdjustment) = 1 + content t := rfl
@[simp] theorem content_gpos_CursiveAttachment (x0 x1 x2 x3 x4) : content (gpos.CursiveAttachment.mk x0 x1 x2 x3 x4) =
    content x0 + content x1 + content x2 + content x3 + content x4 := rfl
@[simp] theorem content_gpos_MarkToBaseAttachment (x0 x1 x2 x3 x4 x5 x6 x7 x8 x9) : content (gpos.MarkToBaseAttachment.mk x0 x1 x2 x3 x4 x5 x6 x7 x8 x9) =
    content x0 + content x1 + content x2 + content x3 + content x4 + content x5 + content x6 + content x7 +
    content x8 + content x9 := rfl
@[simp] theorem content_gpos_MarkToLigatureAttachment (x0 x1 x2 x3 x4 x5 x6 x7 x8 x9) : content (gpos.MarkToLigatureAttachment.mk x0 x1 x2 x3 x4 x5 x6 x7 x8 x9) =
    content x0 + content x1 + content x2 + content x3 + content x4 + content x5 + content x6 + content x7 +
    content x8 + content x9 := rfl
@[simp] theorem content_gpos_MarkToMarkAttachment (x0 x1 x2 x3 x4 x5 x6 x7 x8 x9) : content (gpos.MarkToMarkAttachment.mk x0 x1 x2 x3 x4 x5 x6 x7 x8 x9) =
    content x0 + content x1 + content x2 + content x3 + content x4 + content x5 + content x6 + content x7 +
    content x8 + content x9 := rfl
@[simp] theorem content_gpos_ExtensionPositioning (x0 x1 x2) : content (gpos.ExtensionPositioning.mk x0 x1 x2) =
    content x0 + content x1 + content x2 := rfl
@[simp] theorem content_gpos_Type__singleAdjustment (t) : content (.singleAdjustment t : gpos.Type_) = 1 + content t := rfl
@[simp] theorem content_gpos_Type__pairAdjustment (t) : content (.pairAdjustment t : gpos.Type_) = 1 + content t := rfl
@[simp] theorem content_gpos_Type__cursiveAttachment (t) : content (.cursiveAttachment t : gpos.Type_) = 1 + content t := rfl
@[simp] theorem content_gpos_Type__markToBaseAttachment (t) : content (.markToBaseAttachment t : gpos.Type_) = 1 + content t := rfl
@[simp] theorem content_gpos_Type__markToLigatureAttachment (t) : content (.markToLigatureAttachment t : gpos.Type_) = 1 + content t := rfl
@[simp] theorem content_gpos_Type__markToMarkAttachment (t) : content (.markToMarkAttachment t : gpos.Type_) = 1 + content t := rfl
@[simp] theorem content_gpos_Type__contextualPositioning (t) : content (.contextualPositioning t : gpos.Type_) = 1 + content t := rfl
@[simp] theorem content_gpos_Type__chainedContextualPositioning (t) : content (.chainedContextualPositioning t : gpos.Type_) = 1 + content t := rfl
@[simp] theorem content_gpos_Type__extensionPositioning (t) : content (.extensionPositioning t : gpos.Type_) = 1 + content t := rfl
@[simp] theorem content_item_Record (x0 x1 x2 x3 x4) : content (item.Record.mk x0 x1 x2 x3 x4) = content x0 +
    content x1 + content x2 + content x3 + content x4 := rfl
@[simp] theorem content_item_Store (x0 x1 x2 x3 x4) : content (item.Store.mk x0 x1 x2 x3 x4) = content x0 +
    content x1 + content x2 + content x3 + content x4 := rfl
@[simp] theorem content_gdef_Attachment (x0 x1) : content (gdef.Attachment.mk x0 x1) = content x0 +
    content x1 := rfl
@[simp] theorem content_gdef_Attachments (x0 x1 x2 x3 x4) : content (gdef.Attachments.mk x0 x1 x2 x3 x4) =
    content x0 + content x1 + content x2 + content x3 + content x4 := rfl
@[simp] theorem content_gdef_Caret1 (x0 x1) : content (gdef.Caret1.mk x0 x1) = content x0 + content x1 := rfl
@[simp] theorem content_gdef_Caret2 (x0 x1) : content (gdef.Caret2.mk x0 x1) = content x0 + content x1 := rfl
@[simp] theorem content_gdef_Caret3 (x0 x1 x2 x3) : content (gdef.Caret3.mk x0 x1 x2 x3) = content x0 +
    content x1 + content x2 + content x3 := rfl
@[simp] theorem content_gdef_Caret_format1 (t) : content (.format1 t : gdef.Caret) = 1 + content t := rfl
@[simp] theorem content_gdef_Caret_format2 (t) : content (.format2 t : gdef.Caret) = 1 + content t := rfl
@[simp] theorem content_gdef_Caret_format3 (t) : content (.format3 t : gdef.Caret) = 1 + content t := rfl
@[simp] theorem content_gdef_Ligature (x0 x1 x2) : content (gdef.Ligature.mk x0 x1 x2) = content x0 +
    content x1 + content x2 := rfl
@[simp] theorem content_gdef_Ligatures (x0 x1 x2 x3 x4) : content (gdef.Ligatures.mk x0 x1 x2 x3 x4) =
    content x0 + content x1 + content x2 + content x3 + content x4 := rfl
@[simp] theorem content_gdef_Marks (x0 x1 x2 x3) : content (gdef.Marks.mk x0 x1 x2 x3) = content x0 +
    content x1 + content x2 + content x3 := rfl
@[simp] theorem content_gdef_Header1 (x0 x1 x2 x3 x4 x5) : content (gdef.Header1.mk x0 x1 x2 x3 x4 x5) =
    content x0 + content x1 + content x2 + content x3 + content x4 + content x5 := rfl
@[simp] theorem content_gdef_Header12 (x0 x1 x2 x3 x4 x5 x6) : content (gdef.Header12.mk x0 x1 x2 x3 x4 x5 x6) =
    content x0 + content x1 + content x2 + content x3 + content x4 + content x5 + content x6 := rfl
@[simp] theorem content_gdef_Header13 (x0 x1 x2 x3 x4 x5 x6 x7) : content (gdef.Header13.mk x0 x1 x2 x3 x4 x5 x6 x7) =
    content x0 + content x1 + content x2 + content x3 + content x4 + content x5 + content x6 + content x7 := rfl
@[simp] theorem content_gdef_Header_version1 (t) : content (.version1 t : gdef.Header) = 1 + content t := rfl
@[simp] theorem content_gdef_Header_version12 (t) : content (.version12 t : gdef.Header) = 1 + content t := rfl
@[simp] theorem content_gdef_Header_version13 (t) : content (.version13 t : gdef.Header) = 1 + content t := rfl
@[simp] theorem content_gdef_GlyphDefinition (x0 x1 x2 x3 x4 x5 x6) : content (gdef.GlyphDefinition.mk x0 x1 x2 x3 x4 x5 x6) =
    content x0 + content x1 + content x2 + content x3 + content x4 + content x5 + content x6 := rfl
@[simp] theorem content_cpal_Color (x0 x1 x2 x3) : content (cpal.Color.mk x0 x1 x2 x3) = content x0 +
    content x1 + content x2 + content x3 := rfl
@[simp] theorem content_cpal_Header0 (x0 x1 x2 x3 x4 x5) : content (cpal.Header0.mk x0 x1 x2 x3 x4 x5) =
    content x0 + content x1 + content x2 + content x3 + content x4 + content x5 := rfl
@[simp] theorem content_cpal_Header1 (x0 x1 x2 x3 x4 x5) : content (cpal.Header1.mk x0 x1 x2 x3 x4 x5) =
    content x0 + content x1 + content x2 + content x3 + content x4 + content x5 := rfl
@[simp] theorem content_cpal_Header_version0 (t) : content (.version0 t : cpal.Header) = 1 + content t := rfl
@[simp] theorem content_cpal_Header_version1 (t) : content (.version1 t : cpal.Header) = 1 + content t := rfl
@[simp] theorem content_cpal_ColorPalettes (x0 x1) : content (cpal.ColorPalettes.mk x0 x1) = content x0 +
    content x1 := rfl
@[simp] theorem content_fvar_Header (x0 x1 x2 x3 x4 x5 x6 x7) : content (fvar.Header.mk x0 x1 x2 x3 x4 x5 x6 x7) =
    content x0 + content x1 + content x2 + content x3 + content x4 + content x5 + content x6 + content x7 := rfl
@[simp] theorem content_fvar_AxisRecord (x0 x1 x2 x3 x4 x5) : content (fvar.AxisRecord.mk x0 x1 x2 x3 x4 x5) =
    content x0 + content x1 + content x2 + content x3 + content x4 + content x5 := rfl
@[simp] theorem content_fvar_InstanceRecord (x0 x1 x2 x3) : content (fvar.InstanceRecord.mk x0 x1 x2 x3) =
    content x0 + content x1 + content x2 + content x3 := rfl
@[simp] theorem content_fvar_FontVariations (x0 x1 x2) : content (fvar.FontVariations.mk x0 x1 x2) =
    content x0 + content x1 + content x2 := rfl
@[simp] theorem content_offsets_Header (x0 x1 x2 x3 x4) : content (offsets.Header.mk x0 x1 x2 x3 x4) =
    content x0 + content x1 + content x2 + content x3 + content x4 := rfl
@[simp] theorem content_offsets_Record (x0 x1 x2 x3) : content (offsets.Record.mk x0 x1 x2 x3) = content x0 +
    content x1 + content x2 + content x3 := rfl
@[simp] theorem content_offsets_Offsets (x0 x1) : content (offsets.Offsets.mk x0 x1) = content x0 +
    content x1 := rfl
@[simp] theorem content_Font (x0) : content (Font.mk x0) = content x0 := rfl
@[simp] theorem content_File (x0) : content (File.mk x0) = content x0 := rfl

end OpenType
