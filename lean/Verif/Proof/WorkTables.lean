import Verif.Proof.Work
/-!
# How much work the readers of the tables do
-/

namespace OpenType
open Spec

instance : Cheap coverage.Record.read := by cheap coverage.Record.read
instance : Cheap coverage.Coverage1.read := by cheap coverage.Coverage1.read
instance : Cheap coverage.Coverage2.read := by cheap coverage.Coverage2.read
instance : Cheap coverage.Coverage.read := by cheap coverage.Coverage.read
instance : Cheap class_.Record.read := by cheap class_.Record.read
instance : Cheap class_.Class1.read := by cheap class_.Class1.read
instance : Cheap class_.Class2.read := by cheap class_.Class2.read
instance : Cheap class_.Class.read := by cheap class_.Class.read
instance : Cheap correction.Device.read := by cheap correction.Device.read
instance : Cheap correction.Variation.read := by cheap correction.Variation.read

theorem spends_device : Spends 3 correction.Device.read (3 * content ·) := by
  unfold correction.Device.read
  (repeat' cheap_step); all_goals ((try simp at *) <;> omega)

theorem spends_variation : Spends 3 correction.Variation.read (3 * content ·) := by
  unfold correction.Variation.read
  (repeat' cheap_step); all_goals ((try simp at *) <;> omega)

instance : Cheap correction.Correction.read := ⟨by
  unfold correction.Correction.read
  refine spends_peek operations_peeked fun _ _ _ => ?_
  dsimp only
  split
  · exact spends_bind (P := fun a n => 3 + n ≤ 3 * content a) spends_device fun _ _ _ => spends_pure (by simp at *; omega)
  · split
    · exact spends_bind (P := fun a n => 3 + n ≤ 3 * content a) spends_variation fun _ _ _ => spends_pure (by simp at *; omega)
    · exact spends_raise⟩

instance : Cheap context.Action.read := by cheap context.Action.read
instance : Cheap context.Record.read := by cheap context.Record.read
instance : Cheap context.Records.read := by cheap context.Records.read
instance : Cheap context.ClassRecord.read := by cheap context.ClassRecord.read
instance : Cheap context.ClassRecords.read := by cheap context.ClassRecords.read
instance : Cheap context.ChainedRecord.read := by cheap context.ChainedRecord.read
instance : Cheap context.ChainedRecords.read := by cheap context.ChainedRecords.read
instance : Cheap context.ChainedClassRecord.read := by cheap context.ChainedClassRecord.read
instance : Cheap context.ChainedClassRecords.read := by cheap context.ChainedClassRecords.read
instance : Cheap context.Context1.read := by cheap context.Context1.read
instance : Cheap context.Context2.read := by cheap context.Context2.read
instance : Cheap context.Context3.read := by cheap context.Context3.read
instance : Cheap context.Context.read := by cheap context.Context.read
instance : Cheap context.ChainedContext1.read := by cheap context.ChainedContext1.read
instance : Cheap context.ChainedContext2.read := by cheap context.ChainedContext2.read
instance : Cheap context.ChainedContext3.read := by cheap context.ChainedContext3.read
instance : Cheap context.ChainedContext.read := by cheap context.ChainedContext.read
instance {cfg : Cfg} : Cheap (item.Record.read cfg) := by cheap item.Record.read
instance {cfg : Cfg} : Cheap (item.Store.read cfg) := by cheap item.Store.read
instance : Cheap language.Header.read := by cheap language.Header.read
instance : Cheap language.Record.read := by cheap language.Record.read
instance : Cheap script.Header.read := by cheap script.Header.read
instance : Cheap script.Record.read := by cheap script.Record.read
instance : Cheap script.Scripts.read := by cheap script.Scripts.read
instance : Cheap feature.Header.read := by cheap feature.Header.read
instance {position parameter_offset : Nat} : Cheap (feature.takeParameters position parameter_offset) := by cheap feature.takeParameters
instance : Cheap feature.Record.read := by cheap feature.Record.read
instance : Cheap feature.Variations.read := by cheap feature.Variations.read
instance : Cheap feature.Features.read := by cheap feature.Features.read
instance {T : Type} [Measured T] {cfg : Cfg} {readTable : Nat → Reader T} [∀ n, Cheap (readTable n)] : Cheap (lookup.Record.read cfg readTable) := by cheap lookup.Record.read
instance {T : Type} [Measured T] {cfg : Cfg} {readTable : Nat → Reader T} [∀ n, Cheap (readTable n)] : Cheap (lookup.Lookups.read cfg readTable) := by cheap lookup.Lookups.read

/-- A part of a directory. -/
theorem spends_part {α β : Type} [Measured α] {cfg : Cfg} {base offset s : Nat} {r : Reader α} {default : α} [Cheap r]
    {f : α → Reader β} {h : β → Nat} (hd : 1 ≤ content default)
    (hf : ∀ a n, 1 + n ≤ 3 * content a → Spends (s + n) (f a) h) :
    Spends s (directory.part cfg base offset r default >>= f) h := by
  refine spends_bind (P := fun a n => 1 + n ≤ 3 * content a) ?_ hf
  show Spends 1 _ (3 * content ·)
  unfold directory.part
  split
  · unfold jumpTakeMaybe
    split
    · intro d p v q e
      have := Reader.lawful
      rw [bind_assoc] at e ⊢
      simp only [pure_bind, Option.getD_some, bind_pure] at e ⊢
      exact spends_jumpTake d p v q e
    · exact spends_pure (by simp; omega)
  · exact spends_jumpTake

instance {major_version minor_version : Nat} : Cheap (directory.variationOffset major_version minor_version) := by cheap directory.variationOffset
instance {T : Type} [Measured T] {cfg : Cfg} {readTable : Nat → Reader T} [∀ n, Cheap (readTable n)] : Cheap (directory.Directory.read cfg readTable) := ⟨by
  unfold directory.Directory.read
  repeat' first | cheap_step | refine spends_part (by exact (by decide : 1 ≤ 3)) fun _ _ _ => ?_
  all_goals ((try simp at *) <;> omega)⟩
instance : Cheap gsub.Alternates.read := by cheap gsub.Alternates.read
instance : Cheap gsub.Ligature.read := by cheap gsub.Ligature.read
instance : Cheap gsub.Ligatures.read := by cheap gsub.Ligatures.read
instance : Cheap gsub.Sequence.read := by cheap gsub.Sequence.read
instance : Cheap gsub.SingleSubstitution1.read := by cheap gsub.SingleSubstitution1.read
instance : Cheap gsub.SingleSubstitution2.read := by cheap gsub.SingleSubstitution2.read
instance : Cheap gsub.SingleSubstitution.read := by cheap gsub.SingleSubstitution.read
instance : Cheap gsub.MultipleSubstitution.read := by cheap gsub.MultipleSubstitution.read
instance : Cheap gsub.AlternateSubstitution.read := by cheap gsub.AlternateSubstitution.read
instance : Cheap gsub.LigatureSubstitution.read := by cheap gsub.LigatureSubstitution.read
instance : Cheap gsub.ExtensionSubstitution.read := by cheap gsub.ExtensionSubstitution.read
instance : Cheap gsub.ReverseChainedContextualSubstibution.read := by cheap gsub.ReverseChainedContextualSubstibution.read
instance {type_ : Nat} : Cheap (gsub.Type_.read type_) := by cheap gsub.Type_.read
instance {cfg : Cfg} : Cheap (gsub.GlyphSubstitution.read cfg) := by cheap gsub.GlyphSubstitution.read
instance : Cheap gdef.Attachment.read := by cheap gdef.Attachment.read
instance : Cheap gdef.Attachments.read := by cheap gdef.Attachments.read
instance : Cheap gdef.Caret1.read := by cheap gdef.Caret1.read
instance : Cheap gdef.Caret2.read := by cheap gdef.Caret2.read
instance : Cheap gdef.Caret3.read := by cheap gdef.Caret3.read
instance : Cheap gdef.Caret.read := by cheap gdef.Caret.read
instance : Cheap gdef.Ligature.read := by cheap gdef.Ligature.read
instance : Cheap gdef.Ligatures.read := by cheap gdef.Ligatures.read
instance : Cheap gdef.Marks.read := by cheap gdef.Marks.read
instance : Cheap gdef.Header1.read := by cheap gdef.Header1.read
instance : Cheap gdef.Header12.read := by cheap gdef.Header12.read
instance : Cheap gdef.Header13.read := by cheap gdef.Header13.read
instance : Cheap gdef.Header.read := by cheap gdef.Header.read
instance {cfg : Cfg} : Cheap (gdef.GlyphDefinition.read cfg) := by cheap gdef.GlyphDefinition.read
instance : Cheap cpal.Color.read := by cheap cpal.Color.read
instance : Cheap cpal.Header0.read := by cheap cpal.Header0.read
instance : Cheap cpal.Header1.read := by cheap cpal.Header1.read
instance : Cheap cpal.Header.read := by cheap cpal.Header.read
instance : Cheap cpal.ColorPalettes.read := by cheap cpal.ColorPalettes.read
instance : Cheap fvar.Header.read := by cheap fvar.Header.read
instance {cfg : Cfg} : Cheap (fvar.AxisRecord.read cfg) := by cheap fvar.AxisRecord.read
instance {cfg : Cfg} {axis_count : Nat} : Cheap (fvar.InstanceRecord.read cfg axis_count) := by cheap fvar.InstanceRecord.read
instance {cfg : Cfg} : Cheap (fvar.FontVariations.read cfg) := by cheap fvar.FontVariations.read
instance : Cheap gpos.Anchor1.read := by cheap gpos.Anchor1.read
instance : Cheap gpos.Anchor2.read := by cheap gpos.Anchor2.read
instance : Cheap gpos.Anchor3.read := by cheap gpos.Anchor3.read
instance : Cheap gpos.Anchor.read := by cheap gpos.Anchor.read
instance {cfg : Cfg} : Cheap (gpos.Flags.read cfg) := by cheap gpos.Flags.read
instance {base : Nat} {offset : Option Nat} : Cheap (gpos.takeCorrection base offset) := by cheap gpos.takeCorrection
instance {position : Nat} {a b c e : Option Nat} : Cheap (gpos.takeCorrections position a b c e) := by cheap gpos.takeCorrections
instance {position flags : Nat} : Cheap (gpos.Single.read position flags) := by cheap gpos.Single.read
instance {position flags : Nat} : Cheap (gpos.takeValue position flags) := by cheap gpos.takeValue
instance {position value1_flags value2_flags : Nat} : Cheap (gpos.Pair1.read position value1_flags value2_flags) := by cheap gpos.Pair1.read
instance {value1_flags value2_flags : Nat} : Cheap (gpos.Pair1s.read value1_flags value2_flags) := by cheap gpos.Pair1s.read
instance {position value1_flags value2_flags : Nat} : Cheap (gpos.Pair2.read position value1_flags value2_flags) := by cheap gpos.Pair2.read
instance {position class2_count value1_flags value2_flags : Nat} : Cheap (gpos.Pair2s.read position class2_count value1_flags value2_flags) := by cheap gpos.Pair2s.read
instance {position mark_class_count : Nat} : Cheap (gpos.Base.read position mark_class_count) := by cheap gpos.Base.read
instance {mark_class_count : Nat} : Cheap (gpos.Bases.read mark_class_count) := by cheap gpos.Bases.read
instance {position mark_class_count : Nat} : Cheap (gpos.Component.read position mark_class_count) := by cheap gpos.Component.read
instance {position start_anchor_offset end_anchor_offset : Nat} : Cheap (gpos.takeAnchors position start_anchor_offset end_anchor_offset) := by cheap gpos.takeAnchors
instance {position : Nat} : Cheap (gpos.Connection.read position) := by cheap gpos.Connection.read
instance {mark_class_count : Nat} : Cheap (gpos.Ligature.read mark_class_count) := by cheap gpos.Ligature.read
instance {mark_class_count : Nat} : Cheap (gpos.Ligatures.read mark_class_count) := by cheap gpos.Ligatures.read

/-- The anchor of a mark. -/
theorem spends_markAnchor {β : Type} {cfg : Cfg} {position anchor_offset s : Nat} {f : gpos.Anchor → Reader β}
    {h : β → Nat} (hf : ∀ a n, n ≤ 3 * content a + 1 → Spends (s + n) (f a) h) :
    Spends s (gpos.takeMarkAnchor cfg position anchor_offset >>= f) h := by
  refine spends_bind (P := fun a n => n ≤ 3 * content a + 1) ?_ hf
  have key : Spends 0 (gpos.takeMarkAnchor cfg position anchor_offset) (3 * content · + 1) := by
    unfold gpos.takeMarkAnchor
    split
    · unfold jumpTakeMaybe
      split
      · refine spends_stay (P := fun a n => ∃ b, a = some b ∧ 1 + n ≤ 3 * content b) ?_ ?_
        · show ∀ d p a q, _ → _
          intro d p a q e
          rw [run_bind_eq] at e
          rw [operations_bind]
          cases e' : jumpTake position anchor_offset gpos.Anchor.read d p with
          | error _ => rw [e'] at e; cases e
          | ok x =>
            obtain ⟨b, q'⟩ := x
            rw [e'] at e
            cases e
            exact ⟨b, rfl, spends_jumpTake d p b _ e'⟩
        · rintro _ n ⟨b, rfl, hn⟩
          exact spends_pure (by simp only [Option.getD_some]; omega)
      · exact spends_stay (P := fun a n => a = none ∧ n = 0)
          (fun _ _ _ _ e => by cases e; exact ⟨rfl, rfl⟩)
          fun a n ⟨ha, hn⟩ => spends_pure (by subst ha hn; exact (by decide : 0 + (0 + 2) ≤ 3 * 4 + 1))
    · have := Reader.lawful
      rw [← bind_pure (stay _)]
      exact spends_stay (P := fun a n => 1 + n ≤ 3 * content a) spends_jumpTake
        fun a n hn => spends_pure (by omega)
  intro d p a q e
  have := key d p a q e
  dsimp only at this
  omega

instance {cfg : Cfg} {position : Nat} : Cheap (gpos.Mark1.read cfg position) := ⟨by
  unfold gpos.Mark1.read
  repeat' first | cheap_step | refine spends_markAnchor fun _ _ _ => ?_
  all_goals ((try simp at *) <;> omega)⟩
instance {cfg : Cfg} : Cheap (gpos.Mark1s.read cfg) := by cheap gpos.Mark1s.read
instance {position mark_class_count : Nat} : Cheap (gpos.Mark2.read position mark_class_count) := by cheap gpos.Mark2.read
instance {mark_class_count : Nat} : Cheap (gpos.Mark2s.read mark_class_count) := by cheap gpos.Mark2s.read
instance {cfg : Cfg} : Cheap (gpos.SingleAdjustment1.read cfg) := by cheap gpos.SingleAdjustment1.read
instance {cfg : Cfg} : Cheap (gpos.SingleAdjustment2.read cfg) := by cheap gpos.SingleAdjustment2.read
instance {cfg : Cfg} : Cheap (gpos.SingleAdjustment.read cfg) := by cheap gpos.SingleAdjustment.read
instance {cfg : Cfg} : Cheap (gpos.PairAdjustment1.read cfg) := by cheap gpos.PairAdjustment1.read
instance {cfg : Cfg} : Cheap (gpos.PairAdjustment2.read cfg) := by cheap gpos.PairAdjustment2.read
instance {cfg : Cfg} : Cheap (gpos.PairAdjustment.read cfg) := by cheap gpos.PairAdjustment.read
instance : Cheap gpos.CursiveAttachment.read := by cheap gpos.CursiveAttachment.read
instance {cfg : Cfg} : Cheap (gpos.MarkToBaseAttachment.read cfg) := by cheap gpos.MarkToBaseAttachment.read
instance {cfg : Cfg} : Cheap (gpos.MarkToLigatureAttachment.read cfg) := by cheap gpos.MarkToLigatureAttachment.read
instance {cfg : Cfg} : Cheap (gpos.MarkToMarkAttachment.read cfg) := by cheap gpos.MarkToMarkAttachment.read
instance : Cheap gpos.ExtensionPositioning.read := by cheap gpos.ExtensionPositioning.read
instance {cfg : Cfg} {type_ : Nat} : Cheap (gpos.Type_.read cfg type_) := by cheap gpos.Type_.read
instance {cfg : Cfg} : Cheap (gpos.GlyphPositioning.read cfg) := by cheap gpos.GlyphPositioning.read
instance {accept : Tag → Bool} : Cheap (offsets.Header.read accept) := by cheap offsets.Header.read
instance : Cheap offsets.Record.read := by cheap offsets.Record.read
instance {accept : Tag → Bool} : Cheap (offsets.Offsets.read accept) := by cheap offsets.Offsets.read
instance {accept : Tag → Bool} : Cheap (Font.read accept) := by cheap Font.read
instance {accept : Tag → Bool} : Cheap (File.read accept) := ⟨by
  unfold File.read
  refine spends_peek (r := takeTag) operations_u32 fun _ _ _ => ?_
  (repeat' cheap_step); all_goals ((try simp at *) <;> omega)⟩

theorem operations_sumWords {skip : Nat → Bool} {i n : Nat} (d : Data) (p : Nat) :
    (sumWords skip i n).operations d p ≤ n := by
  induction n generalizing i p with
  | zero => exact Nat.le_refl 0
  | succ n ih =>
    unfold sumWords
    rw [operations_bind]
    have h1 := operations_u32 d p
    split
    · next q _ =>
      rw [operations_bind]
      have h2 := ih (i := i + 1) q
      split
      · show _ + (_ + 0) ≤ _
        omega
      · omega
    · omega

theorem operations_checksum {record : offsets.Record} (d : Data) (p : Nat) :
    (tableChecksum record).operations d p ≤ 3 + (record.size + 3) / 4 := by
  have h := operations_sumWords (skip := fun i => record.tag == TableType.fontHeader.tag && i == 2) (i := 0)
    (n := (record.size + 3) / 4) d record.offset
  unfold tableChecksum stay
  rw [operations_bind]
  show 1 + Reader.operations _ d p ≤ _
  rw [operations_bind, operations_bind]
  show 1 + (1 + Reader.operations _ d record.offset + _) ≤ _
  split
  · show 1 + (1 + _ + (1 + 0)) ≤ _
    omega
  · omega

end OpenType
