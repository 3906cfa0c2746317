import Verif.Proof.Forward
/-!
# Where the readers of the tables go
-/

namespace OpenType

instance : Forward coverage.Record.read := by forward coverage.Record.read
instance : Forward coverage.Coverage1.read := by forward coverage.Coverage1.read
instance : Forward coverage.Coverage2.read := by forward coverage.Coverage2.read
instance : Forward coverage.Coverage.read := by forward coverage.Coverage.read
instance : Forward class_.Record.read := by forward class_.Record.read
instance : Forward class_.Class1.read := by forward class_.Class1.read
instance : Forward class_.Class2.read := by forward class_.Class2.read
instance : Forward class_.Class.read := by forward class_.Class.read
instance : Forward correction.Device.read := by forward correction.Device.read
instance : Forward correction.Variation.read := by forward correction.Variation.read
instance : Forward correction.peeked := by forward correction.peeked
instance : Forward correction.Correction.read := by forward correction.Correction.read
instance : Forward context.Action.read := by forward context.Action.read
instance : Forward context.Record.read := by forward context.Record.read
instance : Forward context.Records.read := by forward context.Records.read
instance : Forward context.ClassRecord.read := by forward context.ClassRecord.read
instance : Forward context.ClassRecords.read := by forward context.ClassRecords.read
instance : Forward context.ChainedRecord.read := by forward context.ChainedRecord.read
instance : Forward context.ChainedRecords.read := by forward context.ChainedRecords.read
instance : Forward context.ChainedClassRecord.read := by forward context.ChainedClassRecord.read
instance : Forward context.ChainedClassRecords.read := by forward context.ChainedClassRecords.read
instance : Forward context.Context1.read := by forward context.Context1.read
instance : Forward context.Context2.read := by forward context.Context2.read
instance : Forward context.Context3.read := by forward context.Context3.read
instance : Forward context.Context.read := by forward context.Context.read
instance : Forward context.ChainedContext1.read := by forward context.ChainedContext1.read
instance : Forward context.ChainedContext2.read := by forward context.ChainedContext2.read
instance : Forward context.ChainedContext3.read := by forward context.ChainedContext3.read
instance : Forward context.ChainedContext.read := by forward context.ChainedContext.read
instance {cfg : Cfg} {a b : Nat} : Forward (item.addU16 cfg a b) := by forward item.addU16
instance {cfg : Cfg} : Forward (item.Record.read cfg) := by forward item.Record.read
instance {cfg : Cfg} : Forward (item.Store.read cfg) := by forward item.Store.read
instance : Forward language.Header.read := by forward language.Header.read
instance : Forward language.Record.read := by forward language.Record.read
instance : Forward script.Header.read := by forward script.Header.read
instance : Forward script.Record.read := by forward script.Record.read
instance : Forward script.Scripts.read := by forward script.Scripts.read
instance : Forward feature.Header.read := by forward feature.Header.read
instance {position parameter_offset : Nat} : ForwardFrom position (feature.takeParameters position parameter_offset) := by forward_from feature.takeParameters
instance : Forward feature.Record.read := by forward feature.Record.read
instance : Forward feature.Variations.read := by forward feature.Variations.read
instance : Forward feature.Features.read := by forward feature.Features.read
instance {T : Type} {cfg : Cfg} {readTable : Nat → Reader T} [∀ n, Forward (readTable n)] : Forward (lookup.Record.read cfg readTable) := by forward lookup.Record.read
instance {T : Type} {cfg : Cfg} {readTable : Nat → Reader T} [∀ n, Forward (readTable n)] : Forward (lookup.Lookups.read cfg readTable) := by forward lookup.Lookups.read
instance {α : Type} {cfg : Cfg} {base offset : Nat} {r : Reader α} {default : α} [Forward r] : ForwardFrom base (directory.part cfg base offset r default) := by forward_from directory.part
instance {major_version minor_version : Nat} : Forward (directory.variationOffset major_version minor_version) := by forward directory.variationOffset
instance {T : Type} {cfg : Cfg} {readTable : Nat → Reader T} [∀ n, Forward (readTable n)] : Forward (directory.Directory.read cfg readTable) := by forward directory.Directory.read
instance : Forward gsub.Alternates.read := by forward gsub.Alternates.read
instance : Forward gsub.Ligature.read := by forward gsub.Ligature.read
instance : Forward gsub.Ligatures.read := by forward gsub.Ligatures.read
instance : Forward gsub.Sequence.read := by forward gsub.Sequence.read
instance : Forward gsub.SingleSubstitution1.read := by forward gsub.SingleSubstitution1.read
instance : Forward gsub.SingleSubstitution2.read := by forward gsub.SingleSubstitution2.read
instance : Forward gsub.SingleSubstitution.read := by forward gsub.SingleSubstitution.read
instance : Forward gsub.MultipleSubstitution.read := by forward gsub.MultipleSubstitution.read
instance : Forward gsub.AlternateSubstitution.read := by forward gsub.AlternateSubstitution.read
instance : Forward gsub.LigatureSubstitution.read := by forward gsub.LigatureSubstitution.read
instance : Forward gsub.ExtensionSubstitution.read := by forward gsub.ExtensionSubstitution.read
instance : Forward gsub.ReverseChainedContextualSubstibution.read := by forward gsub.ReverseChainedContextualSubstibution.read
instance {type_ : Nat} : Forward (gsub.Type_.read type_) := by forward gsub.Type_.read
instance {cfg : Cfg} : Forward (gsub.GlyphSubstitution.read cfg) := by forward gsub.GlyphSubstitution.read
instance : Forward gdef.Attachment.read := by forward gdef.Attachment.read
instance : Forward gdef.Attachments.read := by forward gdef.Attachments.read
instance : Forward gdef.Caret1.read := by forward gdef.Caret1.read
instance : Forward gdef.Caret2.read := by forward gdef.Caret2.read
instance : Forward gdef.Caret3.read := by forward gdef.Caret3.read
instance : Forward gdef.Caret.read := by forward gdef.Caret.read
instance : Forward gdef.Ligature.read := by forward gdef.Ligature.read
instance : Forward gdef.Ligatures.read := by forward gdef.Ligatures.read
instance : Forward gdef.Marks.read := by forward gdef.Marks.read
instance : Forward gdef.Header1.read := by forward gdef.Header1.read
instance : Forward gdef.Header12.read := by forward gdef.Header12.read
instance : Forward gdef.Header13.read := by forward gdef.Header13.read
instance : Forward gdef.Header.read := by forward gdef.Header.read
instance {cfg : Cfg} : Forward (gdef.GlyphDefinition.read cfg) := by forward gdef.GlyphDefinition.read
instance : Forward cpal.Color.read := by forward cpal.Color.read
instance : Forward cpal.Header0.read := by forward cpal.Header0.read
instance : Forward cpal.Header1.read := by forward cpal.Header1.read
instance : Forward cpal.Header.read := by forward cpal.Header.read
instance : Forward cpal.ColorPalettes.read := by forward cpal.ColorPalettes.read
instance : Forward fvar.Header.read := by forward fvar.Header.read
instance {cfg : Cfg} : Forward (fvar.AxisRecord.read cfg) := by forward fvar.AxisRecord.read
instance {cfg : Cfg} {axis_count : Nat} : Forward (fvar.InstanceRecord.read cfg axis_count) := by forward fvar.InstanceRecord.read
instance {cfg : Cfg} : Forward (fvar.FontVariations.read cfg) := by forward fvar.FontVariations.read
instance : Forward gpos.Anchor1.read := by forward gpos.Anchor1.read
instance : Forward gpos.Anchor2.read := by forward gpos.Anchor2.read
instance : Forward gpos.Anchor3.read := by forward gpos.Anchor3.read
instance : Forward gpos.Anchor.read := by forward gpos.Anchor.read
instance {cfg : Cfg} : Forward (gpos.Flags.read cfg) := by forward gpos.Flags.read
instance {base : Nat} {offset : Option Nat} : ForwardFrom base (gpos.takeCorrection base offset) := by forward_from gpos.takeCorrection
instance {position : Nat} {a b c e : Option Nat} : ForwardFrom position (gpos.takeCorrections position a b c e) := by forward_from gpos.takeCorrections
instance {position flags : Nat} : ForwardFrom position (gpos.Single.read position flags) := by forward_from gpos.Single.read
instance {position flags : Nat} : ForwardFrom position (gpos.takeValue position flags) := by forward_from gpos.takeValue
instance {position value1_flags value2_flags : Nat} : ForwardFrom position (gpos.Pair1.read position value1_flags value2_flags) := by forward_from gpos.Pair1.read
instance {value1_flags value2_flags : Nat} : Forward (gpos.Pair1s.read value1_flags value2_flags) := by forward gpos.Pair1s.read
instance {position value1_flags value2_flags : Nat} : ForwardFrom position (gpos.Pair2.read position value1_flags value2_flags) := by forward_from gpos.Pair2.read
instance {position class2_count value1_flags value2_flags : Nat} : ForwardFrom position (gpos.Pair2s.read position class2_count value1_flags value2_flags) := by forward_from gpos.Pair2s.read
instance {position mark_class_count : Nat} : ForwardFrom position (gpos.Base.read position mark_class_count) := by forward_from gpos.Base.read
instance {mark_class_count : Nat} : Forward (gpos.Bases.read mark_class_count) := by forward gpos.Bases.read
instance {position mark_class_count : Nat} : ForwardFrom position (gpos.Component.read position mark_class_count) := by forward_from gpos.Component.read
instance {position start_anchor_offset end_anchor_offset : Nat} : ForwardFrom position (gpos.takeAnchors position start_anchor_offset end_anchor_offset) := by forward_from gpos.takeAnchors
instance {position : Nat} : ForwardFrom position (gpos.Connection.read position) := by forward_from gpos.Connection.read
instance {mark_class_count : Nat} : Forward (gpos.Ligature.read mark_class_count) := by forward gpos.Ligature.read
instance {mark_class_count : Nat} : Forward (gpos.Ligatures.read mark_class_count) := by forward gpos.Ligatures.read
instance {cfg : Cfg} {position anchor_offset : Nat} : ForwardFrom position (gpos.takeMarkAnchor cfg position anchor_offset) := by forward_from gpos.takeMarkAnchor
instance {cfg : Cfg} {position : Nat} : ForwardFrom position (gpos.Mark1.read cfg position) := by forward_from gpos.Mark1.read
instance {cfg : Cfg} : Forward (gpos.Mark1s.read cfg) := by forward gpos.Mark1s.read
instance {position mark_class_count : Nat} : ForwardFrom position (gpos.Mark2.read position mark_class_count) := by forward_from gpos.Mark2.read
instance {mark_class_count : Nat} : Forward (gpos.Mark2s.read mark_class_count) := by forward gpos.Mark2s.read
instance {cfg : Cfg} : Forward (gpos.SingleAdjustment1.read cfg) := by forward gpos.SingleAdjustment1.read
instance {cfg : Cfg} : Forward (gpos.SingleAdjustment2.read cfg) := by forward gpos.SingleAdjustment2.read
instance {cfg : Cfg} : Forward (gpos.SingleAdjustment.read cfg) := by forward gpos.SingleAdjustment.read
instance {cfg : Cfg} : Forward (gpos.PairAdjustment1.read cfg) := by forward gpos.PairAdjustment1.read
instance {cfg : Cfg} : Forward (gpos.PairAdjustment2.read cfg) := by forward gpos.PairAdjustment2.read
instance {cfg : Cfg} : Forward (gpos.PairAdjustment.read cfg) := by forward gpos.PairAdjustment.read
instance : Forward gpos.CursiveAttachment.read := by forward gpos.CursiveAttachment.read
instance {cfg : Cfg} : Forward (gpos.MarkToBaseAttachment.read cfg) := by forward gpos.MarkToBaseAttachment.read
instance {cfg : Cfg} : Forward (gpos.MarkToLigatureAttachment.read cfg) := by forward gpos.MarkToLigatureAttachment.read
instance {cfg : Cfg} : Forward (gpos.MarkToMarkAttachment.read cfg) := by forward gpos.MarkToMarkAttachment.read
instance : Forward gpos.ExtensionPositioning.read := by forward gpos.ExtensionPositioning.read
instance {cfg : Cfg} {type_ : Nat} : Forward (gpos.Type_.read cfg type_) := by forward gpos.Type_.read
instance {cfg : Cfg} : Forward (gpos.GlyphPositioning.read cfg) := by forward gpos.GlyphPositioning.read

instance {accept : Tag → Bool} : Forward (offsets.Header.read accept) := by forward offsets.Header.read
instance : Forward offsets.Record.read := by forward offsets.Record.read
instance {accept : Tag → Bool} : Forward (offsets.Offsets.read accept) := by forward offsets.Offsets.read
instance {accept : Tag → Bool} : Forward (Font.read accept) := by forward Font.read
instance {accept : Tag → Bool} : Forward (File.read accept) := by forward File.read
instance {skip : Nat → Bool} {i n : Nat} : Forward (sumWords skip i n) := by
  induction n generalizing i with
  | zero => exact inferInstanceAs (Forward (pure 0))
  | succ n ih => exact ⟨fun b => stays_bind (Forward.stays b) fun _ _ => stays_bind (ih.stays b) fun _ _ => stays_pure trivial⟩

end OpenType
