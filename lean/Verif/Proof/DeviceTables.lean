import Verif.Proof.Device
import Verif.Model.Gsub
import Verif.Model.Gpos
import Verif.Model.Gdef
import Verif.Model.Cpal
import Verif.Model.Fvar
import Verif.Model.Font
/-! # Every reader stops at the first error of the tape -/

namespace OpenType

instance : Stops coverage.Record.read := by stops coverage.Record.read
instance : Stops coverage.Coverage1.read := by stops coverage.Coverage1.read
instance : Stops coverage.Coverage2.read := by stops coverage.Coverage2.read
instance : Stops coverage.Coverage.read := by stops coverage.Coverage.read
instance : Stops class_.Record.read := by stops class_.Record.read
instance : Stops class_.Class1.read := by stops class_.Class1.read
instance : Stops class_.Class2.read := by stops class_.Class2.read
instance : Stops class_.Class.read := by stops class_.Class.read
instance : Stops correction.Device.read := by stops correction.Device.read
instance : Stops correction.Variation.read := by stops correction.Variation.read
instance : Stops correction.peeked := by stops correction.peeked
instance : Stops correction.Correction.read := by stops correction.Correction.read
instance : Stops context.Action.read := by stops context.Action.read
instance : Stops context.Record.read := by stops context.Record.read
instance : Stops context.Records.read := by stops context.Records.read
instance : Stops context.ClassRecord.read := by stops context.ClassRecord.read
instance : Stops context.ClassRecords.read := by stops context.ClassRecords.read
instance : Stops context.ChainedRecord.read := by stops context.ChainedRecord.read
instance : Stops context.ChainedRecords.read := by stops context.ChainedRecords.read
instance : Stops context.ChainedClassRecord.read := by stops context.ChainedClassRecord.read
instance : Stops context.ChainedClassRecords.read := by stops context.ChainedClassRecords.read
instance : Stops context.Context1.read := by stops context.Context1.read
instance : Stops context.Context2.read := by stops context.Context2.read
instance : Stops context.Context3.read := by stops context.Context3.read
instance : Stops context.Context.read := by stops context.Context.read
instance : Stops context.ChainedContext1.read := by stops context.ChainedContext1.read
instance : Stops context.ChainedContext2.read := by stops context.ChainedContext2.read
instance : Stops context.ChainedContext3.read := by stops context.ChainedContext3.read
instance : Stops context.ChainedContext.read := by stops context.ChainedContext.read
instance {cfg : Cfg} {a b : Nat} : Stops (item.addU16 cfg a b) := by stops item.addU16
instance {cfg : Cfg} : Stops (item.Record.read cfg) := by stops item.Record.read
instance {cfg : Cfg} : Stops (item.Store.read cfg) := by stops item.Store.read
instance : Stops language.Header.read := by stops language.Header.read
instance : Stops language.Record.read := by stops language.Record.read
instance : Stops script.Header.read := by stops script.Header.read
instance : Stops script.Record.read := by stops script.Record.read
instance : Stops script.Scripts.read := by stops script.Scripts.read
instance : Stops feature.Header.read := by stops feature.Header.read
instance {position parameter_offset : Nat} : Stops (feature.takeParameters position parameter_offset) := by stops feature.takeParameters
instance : Stops feature.Record.read := by stops feature.Record.read
instance : Stops feature.Variations.read := by stops feature.Variations.read
instance : Stops feature.Features.read := by stops feature.Features.read
instance {T : Type} {cfg : Cfg} {readTable : Nat → Reader T} [∀ n, Stops (readTable n)] : Stops (lookup.Record.read cfg readTable) := by stops lookup.Record.read
instance {T : Type} {cfg : Cfg} {readTable : Nat → Reader T} [∀ n, Stops (readTable n)] : Stops (lookup.Lookups.read cfg readTable) := by stops lookup.Lookups.read
instance {α : Type} {cfg : Cfg} {base offset : Nat} {r : Reader α} {default : α} [Stops r] : Stops (directory.part cfg base offset r default) := by stops directory.part
instance {major_version minor_version : Nat} : Stops (directory.variationOffset major_version minor_version) := by stops directory.variationOffset
instance {T : Type} {cfg : Cfg} {readTable : Nat → Reader T} [∀ n, Stops (readTable n)] : Stops (directory.Directory.read cfg readTable) := by stops directory.Directory.read
instance : Stops gsub.Alternates.read := by stops gsub.Alternates.read
instance : Stops gsub.Ligature.read := by stops gsub.Ligature.read
instance : Stops gsub.Ligatures.read := by stops gsub.Ligatures.read
instance : Stops gsub.Sequence.read := by stops gsub.Sequence.read
instance : Stops gsub.SingleSubstitution1.read := by stops gsub.SingleSubstitution1.read
instance : Stops gsub.SingleSubstitution2.read := by stops gsub.SingleSubstitution2.read
instance : Stops gsub.SingleSubstitution.read := by stops gsub.SingleSubstitution.read
instance : Stops gsub.MultipleSubstitution.read := by stops gsub.MultipleSubstitution.read
instance : Stops gsub.AlternateSubstitution.read := by stops gsub.AlternateSubstitution.read
instance : Stops gsub.LigatureSubstitution.read := by stops gsub.LigatureSubstitution.read
instance : Stops gsub.ExtensionSubstitution.read := by stops gsub.ExtensionSubstitution.read
instance : Stops gsub.ReverseChainedContextualSubstibution.read := by stops gsub.ReverseChainedContextualSubstibution.read
instance {type_ : Nat} : Stops (gsub.Type_.read type_) := by stops gsub.Type_.read
instance {cfg : Cfg} : Stops (gsub.GlyphSubstitution.read cfg) := by stops gsub.GlyphSubstitution.read
instance : Stops gdef.Attachment.read := by stops gdef.Attachment.read
instance : Stops gdef.Attachments.read := by stops gdef.Attachments.read
instance : Stops gdef.Caret1.read := by stops gdef.Caret1.read
instance : Stops gdef.Caret2.read := by stops gdef.Caret2.read
instance : Stops gdef.Caret3.read := by stops gdef.Caret3.read
instance : Stops gdef.Caret.read := by stops gdef.Caret.read
instance : Stops gdef.Ligature.read := by stops gdef.Ligature.read
instance : Stops gdef.Ligatures.read := by stops gdef.Ligatures.read
instance : Stops gdef.Marks.read := by stops gdef.Marks.read
instance : Stops gdef.Header1.read := by stops gdef.Header1.read
instance : Stops gdef.Header12.read := by stops gdef.Header12.read
instance : Stops gdef.Header13.read := by stops gdef.Header13.read
instance : Stops gdef.Header.read := by stops gdef.Header.read
instance {cfg : Cfg} : Stops (gdef.GlyphDefinition.read cfg) := by stops gdef.GlyphDefinition.read
instance : Stops cpal.Color.read := by stops cpal.Color.read
instance : Stops cpal.Header0.read := by stops cpal.Header0.read
instance : Stops cpal.Header1.read := by stops cpal.Header1.read
instance : Stops cpal.Header.read := by stops cpal.Header.read
instance : Stops cpal.ColorPalettes.read := by stops cpal.ColorPalettes.read
instance : Stops fvar.Header.read := by stops fvar.Header.read
instance {cfg : Cfg} : Stops (fvar.AxisRecord.read cfg) := by stops fvar.AxisRecord.read
instance {cfg : Cfg} {axis_count : Nat} : Stops (fvar.InstanceRecord.read cfg axis_count) := by stops fvar.InstanceRecord.read
instance {cfg : Cfg} : Stops (fvar.FontVariations.read cfg) := by stops fvar.FontVariations.read
instance : Stops gpos.Anchor1.read := by stops gpos.Anchor1.read
instance : Stops gpos.Anchor2.read := by stops gpos.Anchor2.read
instance : Stops gpos.Anchor3.read := by stops gpos.Anchor3.read
instance : Stops gpos.Anchor.read := by stops gpos.Anchor.read
instance {cfg : Cfg} : Stops (gpos.Flags.read cfg) := by stops gpos.Flags.read
instance {base : Nat} {offset : Option Nat} : Stops (gpos.takeCorrection base offset) := by stops gpos.takeCorrection
instance {position : Nat} {a b c e : Option Nat} : Stops (gpos.takeCorrections position a b c e) := by stops gpos.takeCorrections
instance {position flags : Nat} : Stops (gpos.Single.read position flags) := by stops gpos.Single.read
instance {position flags : Nat} : Stops (gpos.takeValue position flags) := by stops gpos.takeValue
instance {position value1_flags value2_flags : Nat} : Stops (gpos.Pair1.read position value1_flags value2_flags) := by stops gpos.Pair1.read
instance {value1_flags value2_flags : Nat} : Stops (gpos.Pair1s.read value1_flags value2_flags) := by stops gpos.Pair1s.read
instance {position value1_flags value2_flags : Nat} : Stops (gpos.Pair2.read position value1_flags value2_flags) := by stops gpos.Pair2.read
instance {position class2_count value1_flags value2_flags : Nat} : Stops (gpos.Pair2s.read position class2_count value1_flags value2_flags) := by stops gpos.Pair2s.read
instance {position mark_class_count : Nat} : Stops (gpos.Base.read position mark_class_count) := by stops gpos.Base.read
instance {mark_class_count : Nat} : Stops (gpos.Bases.read mark_class_count) := by stops gpos.Bases.read
instance {position mark_class_count : Nat} : Stops (gpos.Component.read position mark_class_count) := by stops gpos.Component.read
instance {position start_anchor_offset end_anchor_offset : Nat} : Stops (gpos.takeAnchors position start_anchor_offset end_anchor_offset) := by stops gpos.takeAnchors
instance {position : Nat} : Stops (gpos.Connection.read position) := by stops gpos.Connection.read
instance {mark_class_count : Nat} : Stops (gpos.Ligature.read mark_class_count) := by stops gpos.Ligature.read
instance {mark_class_count : Nat} : Stops (gpos.Ligatures.read mark_class_count) := by stops gpos.Ligatures.read
instance {cfg : Cfg} {position anchor_offset : Nat} : Stops (gpos.takeMarkAnchor cfg position anchor_offset) := by stops gpos.takeMarkAnchor
instance {cfg : Cfg} {position : Nat} : Stops (gpos.Mark1.read cfg position) := by stops gpos.Mark1.read
instance {cfg : Cfg} : Stops (gpos.Mark1s.read cfg) := by stops gpos.Mark1s.read
instance {position mark_class_count : Nat} : Stops (gpos.Mark2.read position mark_class_count) := by stops gpos.Mark2.read
instance {mark_class_count : Nat} : Stops (gpos.Mark2s.read mark_class_count) := by stops gpos.Mark2s.read
instance {cfg : Cfg} : Stops (gpos.SingleAdjustment1.read cfg) := by stops gpos.SingleAdjustment1.read
instance {cfg : Cfg} : Stops (gpos.SingleAdjustment2.read cfg) := by stops gpos.SingleAdjustment2.read
instance {cfg : Cfg} : Stops (gpos.SingleAdjustment.read cfg) := by stops gpos.SingleAdjustment.read
instance {cfg : Cfg} : Stops (gpos.PairAdjustment1.read cfg) := by stops gpos.PairAdjustment1.read
instance {cfg : Cfg} : Stops (gpos.PairAdjustment2.read cfg) := by stops gpos.PairAdjustment2.read
instance {cfg : Cfg} : Stops (gpos.PairAdjustment.read cfg) := by stops gpos.PairAdjustment.read
instance : Stops gpos.CursiveAttachment.read := by stops gpos.CursiveAttachment.read
instance {cfg : Cfg} : Stops (gpos.MarkToBaseAttachment.read cfg) := by stops gpos.MarkToBaseAttachment.read
instance {cfg : Cfg} : Stops (gpos.MarkToLigatureAttachment.read cfg) := by stops gpos.MarkToLigatureAttachment.read
instance {cfg : Cfg} : Stops (gpos.MarkToMarkAttachment.read cfg) := by stops gpos.MarkToMarkAttachment.read
instance : Stops gpos.ExtensionPositioning.read := by stops gpos.ExtensionPositioning.read
instance {cfg : Cfg} {type_ : Nat} : Stops (gpos.Type_.read cfg type_) := by stops gpos.Type_.read
instance {cfg : Cfg} : Stops (gpos.GlyphPositioning.read cfg) := by stops gpos.GlyphPositioning.read

section
variable {cfg : Cfg} {accept : Tag → Bool} {checksum : offsets.Record → Reader Nat}

instance : Stops (offsets.Header.read accept) := by stops offsets.Header.read
instance : Stops offsets.Record.read := by stops offsets.Record.read
instance : Stops (offsets.Offsets.read accept) := by stops offsets.Offsets.read
instance : Stops (Font.read accept) := by stops Font.read
instance : Stops (File.read accept) := by stops File.read

instance [h : ∀ record, Stops (checksum record)] {tag : Tag} {records : List offsets.Record} :
    Stops (Font.positionIn cfg checksum tag records) := by
  induction records with
  | nil => unfold Font.positionIn; infer_instance
  | cons record records ih =>
    unfold Font.positionIn
    split
    · repeat' (first | infer_instance | (refine @stops_bind _ _ _ _ ?_ fun _ => ?_) | split)
    · exact ih

instance [h : ∀ record, Stops (checksum record)] {font : Font} {table : TableType} :
    Stops (font.position cfg checksum table) := by stops Font.position
instance [h : ∀ record, Stops (checksum record)] {α : Type} {font : Font} {table : TableType} {r : Reader α}
    [Stops r] : Stops (font.take cfg checksum table r) := by stops Font.take
instance [h : ∀ record, Stops (checksum record)] {α P : Type} {font : Font} {table : TableType}
    {r : P → Reader α} {parameter : P} [Stops (r parameter)] :
    Stops (font.take_given cfg checksum table r parameter) := by stops Font.take_given

instance {skip : Nat → Bool} {i n : Nat} : Stops (sumWords skip i n) := by
  induction n generalizing i with
  | zero => unfold sumWords; infer_instance
  | succ n ih => unfold sumWords; infer_instance

instance {record : offsets.Record} : Stops (tableChecksum record) := by stops tableChecksum

end

end OpenType
