import Verif.Proof.Size
/-!
# How much the readers of the tables give for the work they do
-/

namespace OpenType
open Spec

instance {K : Nat} [Large K] : Rich K coverage.Record.read := by rich coverage.Record.read
instance {K : Nat} [Large K] : Rich K coverage.Coverage1.read := by rich coverage.Coverage1.read
instance {K : Nat} [Large K] : Rich K coverage.Coverage2.read := by rich coverage.Coverage2.read
instance {K : Nat} [Large K] : Rich K coverage.Coverage.read := by rich coverage.Coverage.read
instance {K : Nat} [Large K] : Rich K class_.Record.read := by rich class_.Record.read
instance {K : Nat} [Large K] : Rich K class_.Class1.read := by rich class_.Class1.read
instance {K : Nat} [Large K] : Rich K class_.Class2.read := by rich class_.Class2.read
instance {K : Nat} [Large K] : Rich K class_.Class.read := by rich class_.Class.read
instance {K : Nat} [Large K] : Rich K correction.Device.read := by rich correction.Device.read
instance {K : Nat} [Large K] : Rich K correction.Variation.read := by rich correction.Variation.read
instance {K : Nat} [Large K] : Rich K correction.Correction.read := by
  refine rich_of fun _ => ?_
  unfold correction.Correction.read
  (repeat' rich_step); all_goals ((try simp at *) <;> omega)
instance {K : Nat} [Large K] : Rich K context.Action.read := by rich context.Action.read
instance {K : Nat} [Large K] : Rich K context.Record.read := by rich context.Record.read
instance {K : Nat} [Large K] : Rich K context.Records.read := by rich context.Records.read
instance {K : Nat} [Large K] : Rich K context.ClassRecord.read := by rich context.ClassRecord.read
instance {K : Nat} [Large K] : Rich K context.ClassRecords.read := by rich context.ClassRecords.read
instance {K : Nat} [Large K] : Rich K context.ChainedRecord.read := by rich context.ChainedRecord.read
instance {K : Nat} [Large K] : Rich K context.ChainedRecords.read := by rich context.ChainedRecords.read
instance {K : Nat} [Large K] : Rich K context.ChainedClassRecord.read := by rich context.ChainedClassRecord.read
instance {K : Nat} [Large K] : Rich K context.ChainedClassRecords.read := by rich context.ChainedClassRecords.read
instance {K : Nat} [Large K] : Rich K context.Context1.read := by rich context.Context1.read
instance {K : Nat} [Large K] : Rich K context.Context2.read := by rich context.Context2.read
instance {K : Nat} [Large K] : Rich K context.Context3.read := by rich context.Context3.read
instance {K : Nat} [Large K] : Rich K context.Context.read := by rich context.Context.read
instance {K : Nat} [Large K] : Rich K context.ChainedContext1.read := by rich context.ChainedContext1.read
instance {K : Nat} [Large K] : Rich K context.ChainedContext2.read := by rich context.ChainedContext2.read
instance {K : Nat} [Large K] : Rich K context.ChainedContext3.read := by rich context.ChainedContext3.read
instance {K : Nat} [Large K] : Rich K context.ChainedContext.read := by rich context.ChainedContext.read
instance {K : Nat} [Large K] {cfg : Cfg} : Rich K (item.Record.read cfg) := by rich item.Record.read
instance {K : Nat} [Large K] {cfg : Cfg} : Rich K (item.Store.read cfg) := by rich item.Store.read
instance {K : Nat} [Large K] : Rich K language.Header.read := by rich language.Header.read
instance {K : Nat} [Large K] : Rich K language.Record.read := by rich language.Record.read
instance {K : Nat} [Large K] : Rich K script.Header.read := by rich script.Header.read
instance {K : Nat} [Large K] : Rich K script.Record.read := by rich script.Record.read
instance {K : Nat} [Large K] : Rich K script.Scripts.read := by rich script.Scripts.read
instance {K : Nat} [Large K] : Rich K feature.Header.read := by rich feature.Header.read
instance {K : Nat} [Large K] {position parameter_offset : Nat} : Nearly K (feature.takeParameters position parameter_offset) := by nearly feature.takeParameters
instance {K : Nat} [Large K] : Rich K feature.Record.read := by rich feature.Record.read
instance {K : Nat} [Large K] : Rich K feature.Variations.read := by rich feature.Variations.read
instance {K : Nat} [Large K] : Rich K feature.Features.read := by rich feature.Features.read
instance {K : Nat} [Large K] {T : Type} [Measured T] {cfg : Cfg} {readTable : Nat → Reader T} [∀ n, Fair K (readTable n)] : Rich K (lookup.Record.read cfg readTable) := by rich lookup.Record.read
instance {K : Nat} [Large K] {T : Type} [Measured T] {cfg : Cfg} {readTable : Nat → Reader T} [∀ n, Fair K (readTable n)] : Rich K (lookup.Lookups.read cfg readTable) := by rich lookup.Lookups.read
instance {K : Nat} [Large K] {major_version minor_version : Nat} :
    Nearly K (directory.variationOffset major_version minor_version) := ⟨by
  unfold directory.variationOffset
  split
  · intro d p v q e
    show 1 ≤ _
    omega
  · exact earns_pure (Nat.le_refl 1)⟩
/-- A part of a directory, whose default is small. -/
theorem earns_part {K s : Nat} [Large K] {α β : Type} [Measured α] {cfg : Cfg} {base offset : Nat} {r : Reader α}
    [Fair K r] {default : α} {f : α → Reader β} {h : β → Nat} (hd : content default = 3)
    (hf : ∀ a n, content a ≤ 3 + n → Earns K (s + n) (f a) h) :
    Earns K s (directory.part cfg base offset r default >>= f) h := by
  refine earns_bind (P := fun a n => content a ≤ 3 + n) ?_ hf
  have key : Earns K 3 (directory.part cfg base offset r default) content := by
    unfold directory.part
    split
    · refine earns_nearly fun a n hn => earns_pure ?_
      cases a with
      | none => exact Nat.le_trans (Nat.le_of_eq hd) (Nat.le_add_right 3 n)
      | some x => rw [content_some] at hn; show content x ≤ _; omega
    · intro d p a q e
      have := earns_jumpTake (K := K) d p a q e
      dsimp only at this
      omega
  exact key

instance {K : Nat} [Large K] {T : Type} [Measured T] {cfg : Cfg} {readTable : Nat → Reader T} [∀ n, Fair K (readTable n)] :
    Rich K (directory.Directory.read cfg readTable) := by
  refine rich_of fun _ => ?_
  unfold directory.Directory.read
  repeat' first | rich_step | refine earns_part (by exact rfl) fun _ _ _ => ?_
  all_goals ((try simp at *) <;> omega)
instance {K : Nat} [Large K] : Rich K gsub.Alternates.read := by rich gsub.Alternates.read
instance {K : Nat} [Large K] : Rich K gsub.Ligature.read := by rich gsub.Ligature.read
instance {K : Nat} [Large K] : Rich K gsub.Ligatures.read := by rich gsub.Ligatures.read
instance {K : Nat} [Large K] : Rich K gsub.Sequence.read := by rich gsub.Sequence.read
instance {K : Nat} [Large K] : Rich K gsub.SingleSubstitution1.read := by rich gsub.SingleSubstitution1.read
instance {K : Nat} [Large K] : Rich K gsub.SingleSubstitution2.read := by rich gsub.SingleSubstitution2.read
instance {K : Nat} [Large K] : Rich K gsub.SingleSubstitution.read := by rich gsub.SingleSubstitution.read
instance {K : Nat} [Large K] : Rich K gsub.MultipleSubstitution.read := by rich gsub.MultipleSubstitution.read
instance {K : Nat} [Large K] : Rich K gsub.AlternateSubstitution.read := by rich gsub.AlternateSubstitution.read
instance {K : Nat} [Large K] : Rich K gsub.LigatureSubstitution.read := by rich gsub.LigatureSubstitution.read
instance {K : Nat} [Large K] : Rich K gsub.ExtensionSubstitution.read := by rich gsub.ExtensionSubstitution.read
instance {K : Nat} [Large K] : Rich K gsub.ReverseChainedContextualSubstibution.read := by rich gsub.ReverseChainedContextualSubstibution.read
instance {K : Nat} [Large K] {type_ : Nat} : Fair K (gsub.Type_.read type_) := by fair gsub.Type_.read
instance {K : Nat} [Large K] {cfg : Cfg} : Rich K (gsub.GlyphSubstitution.read cfg) := by rich gsub.GlyphSubstitution.read
instance {K : Nat} [Large K] : Rich K gdef.Attachment.read := by rich gdef.Attachment.read
instance {K : Nat} [Large K] : Rich K gdef.Attachments.read := by rich gdef.Attachments.read
instance {K : Nat} [Large K] : Rich K gdef.Caret1.read := by rich gdef.Caret1.read
instance {K : Nat} [Large K] : Rich K gdef.Caret2.read := by rich gdef.Caret2.read
instance {K : Nat} [Large K] : Rich K gdef.Caret3.read := by rich gdef.Caret3.read
instance {K : Nat} [Large K] : Rich K gdef.Caret.read := by rich gdef.Caret.read
instance {K : Nat} [Large K] : Rich K gdef.Ligature.read := by rich gdef.Ligature.read
instance {K : Nat} [Large K] : Rich K gdef.Ligatures.read := by rich gdef.Ligatures.read
instance {K : Nat} [Large K] : Rich K gdef.Marks.read := by rich gdef.Marks.read
instance {K : Nat} [Large K] : Rich K gdef.Header1.read := by rich gdef.Header1.read
instance {K : Nat} [Large K] : Rich K gdef.Header12.read := by rich gdef.Header12.read
instance {K : Nat} [Large K] : Rich K gdef.Header13.read := by rich gdef.Header13.read
instance {K : Nat} [Large K] : Rich K gdef.Header.read := by rich gdef.Header.read
theorem earns_gdefHeader {K : Nat} [Large K] : Earns K 0 gdef.Header.read (content · + 4) := by
  have := Large.large (K := K)
  unfold gdef.Header.read
  (repeat' rich_step); all_goals ((try simp at *) <;> omega)
instance {K : Nat} [Large K] {cfg : Cfg} : Rich K (gdef.GlyphDefinition.read cfg) := by
  refine rich_of fun _ => ?_
  unfold gdef.GlyphDefinition.read
  repeat' first | refine earns_more earns_gdefHeader fun _ _ _ => ?_ | rich_step
  all_goals ((try simp at *) <;> omega)
instance {K : Nat} [Large K] : Rich K cpal.Color.read := by rich cpal.Color.read
instance {K : Nat} [Large K] : Rich K cpal.Header0.read := by rich cpal.Header0.read
instance {K : Nat} [Large K] : Rich K cpal.Header1.read := by rich cpal.Header1.read
instance {K : Nat} [Large K] : Rich K cpal.Header.read := by rich cpal.Header.read
theorem earns_cpalHeader {K : Nat} [Large K] : Earns K 0 cpal.Header.read (content · + 2) := by
  have := Large.large (K := K)
  unfold cpal.Header.read
  (repeat' rich_step); all_goals ((try simp at *) <;> omega)
instance {K : Nat} [Large K] : Rich K cpal.ColorPalettes.read := by
  refine rich_of fun _ => ?_
  unfold cpal.ColorPalettes.read
  repeat' first | refine earns_more earns_cpalHeader fun _ _ _ => ?_ | rich_step
  all_goals ((try simp at *) <;> omega)
instance {K : Nat} [Large K] : Rich K fvar.Header.read := by rich fvar.Header.read
instance {K : Nat} [Large K] {cfg : Cfg} : Rich K (fvar.AxisRecord.read cfg) := by rich fvar.AxisRecord.read
instance {K : Nat} [Large K] {cfg : Cfg} {axis_count : Nat} : Rich K (fvar.InstanceRecord.read cfg axis_count) := by rich fvar.InstanceRecord.read
instance {K : Nat} [Large K] {cfg : Cfg} : Rich K (fvar.FontVariations.read cfg) := by rich fvar.FontVariations.read
instance {K : Nat} [Large K] : Rich K gpos.Anchor1.read := by rich gpos.Anchor1.read
instance {K : Nat} [Large K] : Rich K gpos.Anchor2.read := by rich gpos.Anchor2.read
instance {K : Nat} [Large K] : Rich K gpos.Anchor3.read := by rich gpos.Anchor3.read
instance {K : Nat} [Large K] : Rich K gpos.Anchor.read := by rich gpos.Anchor.read
instance {cfg : Cfg} : Asks (gpos.Flags.read cfg) := by unfold gpos.Flags.read; infer_instance
instance {base : Nat} {offset : Option Nat} : Nearly 8 (gpos.takeCorrection base offset) := by nearly gpos.takeCorrection
theorem earns_corrections {s position : Nat} {a b c e : Option Nat} {β : Type}
    {f : Option correction.Correction × Option correction.Correction × Option correction.Correction ×
      Option correction.Correction → Reader β} {h : β → Nat}
    (hf : ∀ a n, content a.1 + content a.2.1 + content a.2.2.1 + content a.2.2.2 ≤ 4 + n →
      Earns 8 (s + (n + 2 * 8)) (f a) h) :
    Earns 8 s (stay (gpos.takeCorrections position a b c e) >>= f) h := by
  refine earns_stay (P := fun a n => content a.1 + content a.2.1 + content a.2.2.1 + content a.2.2.2 ≤ 4 + n) ?_ hf
  have key : Earns 8 4 (gpos.takeCorrections position a b c e)
      (fun a => content a.1 + content a.2.1 + content a.2.2.1 + content a.2.2.2) := by
    unfold gpos.takeCorrections
    repeat' rich_step
    omega
  exact key
instance {position flags : Nat} : Rich 8 (gpos.Single.read position flags) := by
  refine rich_of fun _ => ?_
  unfold gpos.Single.read
  repeat' first | refine earns_corrections fun _ _ _ => ?_ | rich_step
  all_goals ((try simp at *) <;> omega)
instance {position flags : Nat} : Nearly 8 (gpos.takeValue position flags) := by nearly gpos.takeValue
instance {position value1_flags value2_flags : Nat} : Rich 8 (gpos.Pair1.read position value1_flags value2_flags) := by rich gpos.Pair1.read
instance {value1_flags value2_flags : Nat} : Rich 8 (gpos.Pair1s.read value1_flags value2_flags) := by rich gpos.Pair1s.read
instance {position mark_class_count : Nat} : Rich 8 (gpos.Base.read position mark_class_count) := by rich gpos.Base.read
instance {mark_class_count : Nat} : Rich 8 (gpos.Bases.read mark_class_count) := by rich gpos.Bases.read
instance {position mark_class_count : Nat} : Rich 8 (gpos.Component.read position mark_class_count) := by rich gpos.Component.read
theorem earns_anchors {s position start_anchor_offset end_anchor_offset : Nat} {β : Type}
    {f : Option gpos.Anchor × Option gpos.Anchor → Reader β} {h : β → Nat}
    (hf : ∀ a n, content a.1 + content a.2 ≤ 2 + n → Earns 8 (s + (n + 2 * 8)) (f a) h) :
    Earns 8 s (stay (gpos.takeAnchors position start_anchor_offset end_anchor_offset) >>= f) h := by
  refine earns_stay (P := fun a n => content a.1 + content a.2 ≤ 2 + n) ?_ hf
  have key : Earns 8 2 (gpos.takeAnchors position start_anchor_offset end_anchor_offset)
      (fun a => content a.1 + content a.2) := by
    unfold gpos.takeAnchors
    repeat' rich_step
    omega
  exact key
instance {position : Nat} : Rich 8 (gpos.Connection.read position) := by
  refine rich_of fun _ => ?_
  unfold gpos.Connection.read
  repeat' first | refine earns_anchors fun _ _ _ => ?_ | rich_step
  all_goals ((try simp at *) <;> omega)
instance {mark_class_count : Nat} : Rich 8 (gpos.Ligature.read mark_class_count) := by rich gpos.Ligature.read
instance {mark_class_count : Nat} : Rich 8 (gpos.Ligatures.read mark_class_count) := by rich gpos.Ligatures.read
instance {cfg : Cfg} {position anchor_offset : Nat} : Fair 8 (gpos.takeMarkAnchor cfg position anchor_offset) := ⟨by
  unfold gpos.takeMarkAnchor
  split
  · refine earns_stay_nearly fun a n hn => earns_pure ?_
    cases a with
    | none => exact Nat.le_trans (by decide : 4 ≤ 16) (by omega)
    | some x => rw [content_some] at hn; show content x ≤ _; omega
  · have := Reader.lawful
    rw [← bind_pure (stay _)]
    exact earns_stay (P := fun a n => content a + 8 ≤ n) (fun d p a q e => by
      have := earns_jumpTake (K := 8) d p a q e; dsimp only at this; omega) fun a n hn => earns_pure (by omega)⟩
instance {cfg : Cfg} {position : Nat} : Rich 8 (gpos.Mark1.read cfg position) := by rich gpos.Mark1.read
instance {cfg : Cfg} : Rich 8 (gpos.Mark1s.read cfg) := by rich gpos.Mark1s.read
instance {position mark_class_count : Nat} : Rich 8 (gpos.Mark2.read position mark_class_count) := by rich gpos.Mark2.read
instance {mark_class_count : Nat} : Rich 8 (gpos.Mark2s.read mark_class_count) := by rich gpos.Mark2s.read
instance {cfg : Cfg} : Rich 8 (gpos.SingleAdjustment1.read cfg) := by rich gpos.SingleAdjustment1.read
instance {cfg : Cfg} : Rich 8 (gpos.SingleAdjustment2.read cfg) := by rich gpos.SingleAdjustment2.read
instance {cfg : Cfg} : Rich 8 (gpos.SingleAdjustment.read cfg) := by rich gpos.SingleAdjustment.read
instance {cfg : Cfg} : Rich 8 (gpos.PairAdjustment1.read cfg) := by rich gpos.PairAdjustment1.read
instance : Rich 8 gpos.CursiveAttachment.read := by rich gpos.CursiveAttachment.read
instance {cfg : Cfg} : Rich 8 (gpos.MarkToBaseAttachment.read cfg) := by rich gpos.MarkToBaseAttachment.read
instance {cfg : Cfg} : Rich 8 (gpos.MarkToLigatureAttachment.read cfg) := by rich gpos.MarkToLigatureAttachment.read
instance {cfg : Cfg} : Rich 8 (gpos.MarkToMarkAttachment.read cfg) := by rich gpos.MarkToMarkAttachment.read
instance : Rich 8 gpos.ExtensionPositioning.read := by rich gpos.ExtensionPositioning.read
instance {K : Nat} [Large K] {accept : Tag → Bool} : Rich K (offsets.Header.read accept) := by rich offsets.Header.read
instance {K : Nat} [Large K] : Rich K offsets.Record.read := by rich offsets.Record.read
theorem earns_offsetsHeader {K : Nat} [Large K] {accept : Tag → Bool} : Earns K 0 (offsets.Header.read accept) (content · + 2) := by
  have := Large.large (K := K)
  unfold offsets.Header.read
  (repeat' rich_step); all_goals ((try simp at *) <;> omega)
instance {K : Nat} [Large K] {accept : Tag → Bool} : Rich K (offsets.Offsets.read accept) := by
  refine rich_of fun _ => ?_
  unfold offsets.Offsets.read
  repeat' first | refine earns_more earns_offsetsHeader fun _ _ _ => ?_ | rich_step
  all_goals ((try simp at *) <;> omega)
instance {K : Nat} [Large K] {accept : Tag → Bool} : Rich K (Font.read accept) := by rich Font.read
instance {K : Nat} [Large K] {accept : Tag → Bool} : Rich K (File.read accept) := by rich File.read

end OpenType
