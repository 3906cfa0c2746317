import Verif.Proof.Asked
/-!
# Which bytes the readers of the tables ask for
-/

namespace OpenType
open OpenType.Spec

instance : Spans coverage.Record.read bytes := by asks coverage.Record.read
instance : Spans coverage.Coverage1.read bytes := by asks coverage.Coverage1.read
instance : Spans coverage.Coverage2.read bytes := by asks coverage.Coverage2.read
instance : Covers coverage.Coverage.read := by asks_format coverage.Coverage.read
instance : Spans class_.Record.read bytes := by asks class_.Record.read
instance : Spans class_.Class1.read bytes := by asks class_.Class1.read
instance : Spans class_.Class2.read bytes := by asks class_.Class2.read
instance : Covers class_.Class.read := by asks_format class_.Class.read
instance : Spans correction.Device.read bytes := by asks correction.Device.read
instance : Spans correction.Variation.read bytes := by asks correction.Variation.read
instance : Spans correction.peeked (fun _ => enc16 0 ++ enc16 0 ++ enc16 0) := by asks correction.peeked
instance : Covers correction.Correction.read := by asks_format correction.Correction.read
instance : Spans context.Action.read bytes := by asks context.Action.read
instance : Spans context.Record.read bytes := by asks context.Record.read
instance : Covers context.Records.read := by asks context.Records.read
instance : Spans context.ClassRecord.read bytes := by asks context.ClassRecord.read
instance : Covers context.ClassRecords.read := by asks context.ClassRecords.read
instance : Spans context.ChainedRecord.read bytes := by asks context.ChainedRecord.read
instance : Covers context.ChainedRecords.read := by asks context.ChainedRecords.read
instance : Spans context.ChainedClassRecord.read bytes := by asks context.ChainedClassRecord.read
instance : Covers context.ChainedClassRecords.read := by asks context.ChainedClassRecords.read
instance : Covers context.Context1.read := by asks context.Context1.read
instance : Covers context.Context2.read := by asks context.Context2.read
instance : Covers context.Context3.read := by asks context.Context3.read
instance : Covers context.Context.read := by asks_format context.Context.read
instance : Covers context.ChainedContext1.read := by asks context.ChainedContext1.read
instance : Covers context.ChainedContext2.read := by asks context.ChainedContext2.read
instance : Covers context.ChainedContext3.read := by asks context.ChainedContext3.read
instance : Covers context.ChainedContext.read := by asks_format context.ChainedContext.read
instance {cfg : Cfg} {a b : Nat} : Spans (item.addU16 cfg a b) (fun _ => []) := by
  constructor
  intro d p
  unfold item.addU16
  split
  · exact track_pure rfl nofun
  · split
    · exact track_fail
    · exact track_pure rfl nofun
instance : Spans language.Header.read bytes := by asks language.Header.read
instance : Spans language.Record.read bytes := by asks language.Record.read
instance : Spans script.Header.read bytes := by asks script.Header.read
instance : Covers script.Record.read := by asks script.Record.read
instance : Covers script.Scripts.read := by asks script.Scripts.read
instance : Spans feature.Header.read bytes := by asks feature.Header.read
theorem track_takeParameters {base o p : Nat} {d : Data} :
    Track d (fun _ => False) (feature.takeParameters base o) p (fun _ _ => True) fun _ _ _ => False := by
  unfold feature.takeParameters
  split
  · exact track_addU64 (track_jump (track_pure trivial fun _ hx => hx))
  · exact track_pure trivial fun _ hx => hx
instance : Covers feature.Record.read := by
  constructor
  intro d p hd
  unfold feature.Record.read
  refine track_position (track_step fun _ _ _ => track_step fun _ _ _ => track_step fun _ _ _ => ?_)
  refine track_bind track_takeParameters fun _ _ _ => ?_
  asks_pure
instance : Spans feature.Variations.read bytes := by asks feature.Variations.read
instance : Covers feature.Features.read := by asks feature.Features.read
instance : Spans gsub.Alternates.read bytes := by asks gsub.Alternates.read
instance : Spans gsub.Ligature.read bytes := by asks gsub.Ligature.read
instance : Covers gsub.Ligatures.read := by asks gsub.Ligatures.read
instance : Spans gsub.Sequence.read bytes := by asks gsub.Sequence.read
instance : Covers gsub.SingleSubstitution1.read := by asks gsub.SingleSubstitution1.read
instance : Covers gsub.SingleSubstitution2.read := by asks gsub.SingleSubstitution2.read
instance : Covers gsub.SingleSubstitution.read := by asks_format gsub.SingleSubstitution.read
instance : Covers gsub.MultipleSubstitution.read := by asks gsub.MultipleSubstitution.read
instance : Covers gsub.AlternateSubstitution.read := by asks gsub.AlternateSubstitution.read
instance : Covers gsub.LigatureSubstitution.read := by asks gsub.LigatureSubstitution.read
instance : Spans gsub.ExtensionSubstitution.read bytes := by asks gsub.ExtensionSubstitution.read
instance : Covers gsub.ReverseChainedContextualSubstibution.read := by asks gsub.ReverseChainedContextualSubstibution.read
instance {type_ : Nat} : Covers (gsub.Type_.read type_) := by asks_format gsub.Type_.read
instance : Spans gdef.Attachment.read bytes := by asks gdef.Attachment.read
instance : Covers gdef.Attachments.read := by asks gdef.Attachments.read
instance : Spans gdef.Caret1.read bytes := by asks gdef.Caret1.read
instance : Spans gdef.Caret2.read bytes := by asks gdef.Caret2.read
instance : Covers gdef.Caret3.read := by asks gdef.Caret3.read
instance : Covers gdef.Caret.read := by asks_format gdef.Caret.read
instance : Covers gdef.Ligature.read := by asks gdef.Ligature.read
instance : Covers gdef.Ligatures.read := by asks gdef.Ligatures.read
instance : Covers gdef.Marks.read := by asks gdef.Marks.read
instance : Spans gdef.Header1.read (fun t => bytes (gdef.Header.version1 t)) := by asks gdef.Header1.read
instance : Spans gdef.Header12.read (fun t => bytes (gdef.Header.version12 t)) := by asks gdef.Header12.read
instance : Spans gdef.Header13.read (fun t => bytes (gdef.Header.version13 t)) := by asks gdef.Header13.read
instance : Covers gdef.Header.read := by asks_format gdef.Header.read
instance : Spans cpal.Color.read bytes := by asks cpal.Color.read
instance : Spans cpal.Header0.read bytes := by asks cpal.Header0.read
instance : Spans cpal.Header1.read bytes := by asks cpal.Header1.read


end OpenType
