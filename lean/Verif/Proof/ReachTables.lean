import Verif.Proof.Reach
/-!
# How far the readers of the tables look
-/

namespace OpenType

instance : Reaches coverage.Record.read 6 (fun _ => True) := by reach coverage.Record.read
instance : Looks coverage.Coverage1.read 131074 := by reach coverage.Coverage1.read
instance : Looks coverage.Coverage2.read 393214 := by reach coverage.Coverage2.read
instance : Looks coverage.Coverage.read 393214 := by reach coverage.Coverage.read
instance : Reaches class_.Record.read 6 (fun _ => True) := by reach class_.Record.read
instance : Looks class_.Class1.read 131076 := by reach class_.Class1.read
instance : Looks class_.Class2.read 393214 := by reach class_.Class2.read
instance : Looks class_.Class.read 393214 := by reach class_.Class.read
instance : Looks correction.Device.read 65544 := by
  constructor
  intro b p hb
  unfold correction.Device.read
  refine window_step (by omega) fun s _ _ _ => ?_
  refine window_step (by omega) fun e _ _ _ => ?_
  refine window_raiseIf fun _ => ?_
  refine window_step (by omega) fun f _ _ _ => ?_
  refine window_raiseIf fun hf => ?_
  refine window_subUint fun _ => ?_
  refine window_addUsize (window_mulUsize (window_addUsize (window_subUint fun _ => ?_)))
  have hf : f = 1 ∨ f = 2 ∨ f = 3 := by omega
  refine window_step (by rcases hf with rfl | rfl | rfl <;> simp only [Nat.shiftRight_eq_div_pow, Nat.shiftLeft_eq] <;> omega)
    fun _ _ _ _ => ?_
  exact window_pure trivial
instance : Reaches correction.Variation.read 6 (fun _ => True) := by reach correction.Variation.read
instance : Reaches correction.peeked 6 (fun _ => True) := by reach correction.peeked
instance : Looks correction.Correction.read 65544 := by reach correction.Correction.read
instance : Reaches context.Action.read 4 (fun _ => True) := by reach context.Action.read
instance : Looks context.Record.read 393212 := by reach context.Record.read
instance : Looks context.Records.read 458747 := by reach context.Records.read
instance : Looks context.ClassRecord.read 393212 := by reach context.ClassRecord.read
instance : Looks context.ClassRecords.read 458747 := by reach context.ClassRecords.read
instance : Looks context.ChainedRecord.read 655356 := by reach context.ChainedRecord.read
instance : Looks context.ChainedRecords.read 720891 := by reach context.ChainedRecords.read
instance : Looks context.ChainedClassRecord.read 655356 := by reach context.ChainedClassRecord.read
instance : Looks context.ChainedClassRecords.read 720891 := by reach context.ChainedClassRecords.read
instance : Looks context.Context1.read 524282 := by reach context.Context1.read
instance : Looks context.Context2.read 524282 := by reach context.Context2.read
instance : Looks context.Context3.read 458749 := by reach context.Context3.read
instance : Looks context.Context.read 524282 := by reach context.Context.read
instance : Looks context.ChainedContext1.read 786426 := by reach context.ChainedContext1.read
instance : Looks context.ChainedContext2.read 786426 := by reach context.ChainedContext2.read
instance : Looks context.ChainedContext3.read 655360 := by reach context.ChainedContext3.read
instance : Looks context.ChainedContext.read 786426 := by reach context.ChainedContext.read
instance {cfg : Cfg} {a b : Nat} : Reaches (item.addU16 cfg a b) 0 (· < 65536) := by
  constructor
  intro b p hb
  unfold item.addU16
  split
  · exact window_pure ⟨by assumption, by omega⟩
  · split
    · trivial
    · exact window_pure ⟨by omega, by omega⟩
instance {cfg : Cfg} : Looks (item.Record.read cfg) 4294967301 := by
  constructor
  intro b p hb
  unfold item.Record.read
  refine window_step (by omega) fun n _ _ _ => ?_
  refine window_step (by omega) fun _ _ _ _ => ?_
  refine window_step (by omega) fun _ _ _ _ => ?_
  refine window_step (by omega) fun _ _ _ _ => ?_
  refine window_step (by omega) fun m _ _ _ => ?_
  have : n * m ≤ 65535 * 65535 := Nat.mul_le_mul (by omega) (by omega)
  refine window_mulUsize (window_step (by omega) fun _ _ _ _ => ?_)
  exact window_pure trivial
instance {cfg : Cfg} : Looks (item.Store.read cfg) 8589934596 := by reach item.Store.read
instance : Reaches language.Header.read 6 (fun h => h.offset < 65536) := by reach language.Header.read
instance : Looks language.Record.read 131076 := by reach language.Record.read
instance : Reaches script.Header.read 6 (fun h => h.offset < 65536) := by reach script.Header.read
instance : Looks script.Record.read 393214 := by reach script.Record.read
instance : Looks script.Scripts.read 458749 := by reach script.Scripts.read
instance : Reaches feature.Header.read 6 (fun h => h.offset < 65536) := by reach feature.Header.read
instance {position parameter_offset : Nat} : Looks (feature.takeParameters position parameter_offset) 0 := by
  constructor
  intro b p hb
  unfold feature.takeParameters
  split
  · exact window_addU64 (window_jump trivial)
  · trivial
instance : Looks feature.Record.read 131074 := by reach feature.Record.read
instance : Looks feature.Variations.read 8 := by reach feature.Variations.read
instance : Looks feature.Features.read 393212 := by reach feature.Features.read
instance {T : Type} {cfg : Cfg} {readTable : Nat → Reader T} {k : Nat} [∀ n, Looks (readTable n) k] : Looks (lookup.Record.read cfg readTable) (max 131078 (65535 + k)) := by reach lookup.Record.read
instance {T : Type} {cfg : Cfg} {readTable : Nat → Reader T} {k : Nat} [∀ n, Looks (readTable n) k] : Looks (lookup.Lookups.read cfg readTable) (max 196613 (131070 + k)) := by reach lookup.Lookups.read
theorem window_part {α : Type} {cfg : Cfg} {base o k b p : Nat} {r : Reader α} {default : α} [Looks r k]
    (hb : base + o + k ≤ b) : Within b (directory.part cfg base o r default) p fun _ _ => True := by
  unfold directory.part
  split
  · exact window_bind (window_jumpTakeMaybe hb) fun _ _ _ => trivial
  · exact window_jumpTake hb
instance {major_version minor_version : Nat} : Reaches (directory.variationOffset major_version minor_version) 4 (· < 4294967296) := by
  constructor
  intro b p hb
  unfold directory.variationOffset
  split
  · exact Reaches.within hb
  · exact window_pure ⟨by omega, by omega⟩
instance {T : Type} {cfg : Cfg} {readTable : Nat → Reader T} {k : Nat} [∀ n, Looks (readTable n) k] : Looks (directory.Directory.read cfg readTable) (max 4294967303 (196605 + k)) := by
  constructor
  intro b p hb
  unfold directory.Directory.read
  repeat' first
    | refine window_bind (window_part (by omega)) fun _ _ _ => ?_
    | reach_step
instance : Looks gsub.Alternates.read 131072 := by reach gsub.Alternates.read
instance : Looks gsub.Ligature.read 131072 := by reach gsub.Ligature.read
instance : Looks gsub.Ligatures.read 196607 := by reach gsub.Ligatures.read
instance : Looks gsub.Sequence.read 131072 := by reach gsub.Sequence.read
instance : Looks gsub.SingleSubstitution1.read 458749 := by reach gsub.SingleSubstitution1.read
instance : Looks gsub.SingleSubstitution2.read 458749 := by reach gsub.SingleSubstitution2.read
instance : Looks gsub.SingleSubstitution.read 458749 := by reach gsub.SingleSubstitution.read
instance : Looks gsub.MultipleSubstitution.read 458749 := by reach gsub.MultipleSubstitution.read
instance : Looks gsub.AlternateSubstitution.read 458749 := by reach gsub.AlternateSubstitution.read
instance : Looks gsub.LigatureSubstitution.read 458749 := by reach gsub.LigatureSubstitution.read
instance : Reaches gsub.ExtensionSubstitution.read 8 (fun _ => True) := by reach gsub.ExtensionSubstitution.read
instance : Looks gsub.ReverseChainedContextualSubstibution.read 458749 := by reach gsub.ReverseChainedContextualSubstibution.read
instance {type_ : Nat} : Looks (gsub.Type_.read type_) 786426 := by reach gsub.Type_.read
instance {cfg : Cfg} : Looks (gsub.GlyphSubstitution.read cfg) 4294967303 :=
  ⟨fun hb => Looks.within (r := directory.Directory.read cfg gsub.Type_.read) (by omega)⟩
instance : Looks gdef.Attachment.read 131072 := by reach gdef.Attachment.read
instance : Looks gdef.Attachments.read 458749 := by reach gdef.Attachments.read
instance : Reaches gdef.Caret1.read 4 (fun _ => True) := by reach gdef.Caret1.read
instance : Reaches gdef.Caret2.read 4 (fun _ => True) := by reach gdef.Caret2.read
instance : Looks gdef.Caret3.read 131079 := by reach gdef.Caret3.read
instance : Looks gdef.Caret.read 131079 := by reach gdef.Caret.read
instance : Looks gdef.Ligature.read 196614 := by reach gdef.Ligature.read
instance : Looks gdef.Ligatures.read 458749 := by reach gdef.Ligatures.read
instance : Looks gdef.Marks.read 4295360509 := by reach gdef.Marks.read
instance : Reaches gdef.Header1.read 12 (fun h => h.glyph_class_offset < 65536 ∧ h.attachment_offset < 65536 ∧ h.ligature_offset < 65536 ∧ h.mark_class_offset < 65536) := by reach gdef.Header1.read
instance : Reaches gdef.Header12.read 14 (fun h => h.glyph_class_offset < 65536 ∧ h.attachment_offset < 65536 ∧ h.ligature_offset < 65536 ∧ h.mark_class_offset < 65536 ∧ h.mark_offset < 65536) := by reach gdef.Header12.read
instance : Reaches gdef.Header13.read 18 (fun h => h.glyph_class_offset < 65536 ∧ h.attachment_offset < 65536 ∧ h.ligature_offset < 65536 ∧ h.mark_class_offset < 65536 ∧ h.mark_offset < 65536) := by reach gdef.Header13.read
instance : Reaches gdef.Header.read 18 (fun h => h.glyph_class_offset < 65536 ∧ h.attachment_offset < 65536 ∧ h.ligature_offset < 65536 ∧ h.mark_class_offset < 65536 ∧ h.mark_offset < 65536 ∧ h.variations_offset < 65536) := by
  constructor
  intro b p hb
  unfold gdef.Header.read
  refine window_peek (by omega) fun _ _ => ?_
  split
  · refine window_step (by omega) fun h _ hv _ => window_pure ?_
    simp only [gdef.Header.glyph_class_offset, gdef.Header.attachment_offset, gdef.Header.ligature_offset, gdef.Header.mark_class_offset, gdef.Header.mark_offset, gdef.Header.variations_offset]
    omega
  · refine window_step (by omega) fun h _ hv _ => window_pure ?_
    simp only [gdef.Header.glyph_class_offset, gdef.Header.attachment_offset, gdef.Header.ligature_offset, gdef.Header.mark_class_offset, gdef.Header.mark_offset, gdef.Header.variations_offset]
    omega
  · refine window_step (by omega) fun h _ hv _ => window_pure ?_
    simp only [gdef.Header.glyph_class_offset, gdef.Header.attachment_offset, gdef.Header.ligature_offset, gdef.Header.mark_class_offset, gdef.Header.mark_offset, gdef.Header.variations_offset]
    omega
  · trivial
instance {cfg : Cfg} : Looks (gdef.GlyphDefinition.read cfg) 8590000131 := by reach gdef.GlyphDefinition.read
instance : Reaches cpal.Color.read 4 (fun _ => True) := by reach cpal.Color.read
instance : Reaches cpal.Header0.read 131082 (fun h => h.color_offset < 4294967296 ∧ h.color_count < 65536) := by reach cpal.Header0.read
instance : Reaches cpal.Header1.read 131082 (fun h => h.color_offset < 4294967296 ∧ h.color_count < 65536) := by reach cpal.Header1.read
instance : Reaches cpal.Header.read 131082 (fun h => match h with
    | .version0 h => h.color_offset < 4294967296 ∧ h.color_count < 65536
    | .version1 h => h.color_offset < 4294967296 ∧ h.color_count < 65536) := by reach cpal.Header.read
instance : Looks cpal.ColorPalettes.read 4295229435 := by
  constructor
  intro b p hb
  unfold cpal.ColorPalettes.read
  refine window_position (window_step (by omega) fun h _ hv _ => ?_)
  cases h <;> exact window_bind (window_jumpTake (by dsimp only at hv ⊢; omega)) fun _ _ _ => window_pure trivial
instance : Reaches fvar.Header.read 16 (fun h => h.axis_offset < 65536 ∧ h.axis_count < 65536 ∧ h.axis_size < 65536 ∧ h.instance_count < 65536 ∧ h.instance_size < 65536) := by reach fvar.Header.read
instance {cfg : Cfg} : Reaches (fvar.AxisRecord.read cfg) 20 (fun _ => True) := by reach fvar.AxisRecord.read
instance {cfg : Cfg} {axis_count : Nat} : Reaches (fvar.InstanceRecord.read cfg axis_count) (6 + 4 * axis_count) (fun _ => True) := by reach fvar.InstanceRecord.read
instance {cfg : Cfg} : Looks (fvar.FontVariations.read cfg) 8589934596 := by
  constructor
  intro b p hb
  unfold fvar.FontVariations.read
  refine window_position (window_step (by omega) fun h _ hv _ => ?_)
  have h1 : h.axis_count * h.axis_size ≤ 65535 * 65535 := Nat.mul_le_mul (by omega) (by omega)
  refine window_addU64 (window_bind (window_forFrom fun i q hi => ?_) fun _ _ _ => ?_)
  · have h2 : i * h.axis_size ≤ 65534 * 65535 := Nat.mul_le_mul (by omega) (by omega)
    exact window_mulU64 (window_addU64 (window_jump (Looks.within (by omega))))
  · refine window_mulU64 (window_addU64 (window_bind (window_forFrom fun i q hi => ?_) fun _ _ _ => window_pure trivial))
    have h2 : i * h.instance_size ≤ 65534 * 65535 := Nat.mul_le_mul (by omega) (by omega)
    exact window_mulU64 (window_addU64 (window_jump (Looks.within (by omega))))
instance : Reaches gpos.Anchor1.read 6 (fun _ => True) := by reach gpos.Anchor1.read
instance : Reaches gpos.Anchor2.read 8 (fun _ => True) := by reach gpos.Anchor2.read
instance : Looks gpos.Anchor3.read 131079 := by reach gpos.Anchor3.read
instance : Looks gpos.Anchor.read 131079 := by reach gpos.Anchor.read
instance {cfg : Cfg} : Reaches (gpos.Flags.read cfg) 2 (· < 65536) := inferInstanceAs (Reaches (flagsU16 cfg _) _ _)
theorem window_takeCorrection {base b p : Nat} {o : Option Nat} (ho : ∀ x, o = some x → x < 65536)
    (hb : base + 131079 ≤ b) : Within b (gpos.takeCorrection base o) p fun _ _ => True := by
  unfold gpos.takeCorrection
  split
  · next x => exact window_jumpTakeMaybe (by have := ho x rfl; omega)
  · trivial
instance {position flags : Nat} : ReachesFrom position (gpos.Single.read position flags) 131079 16 := by
  constructor
  intro b p hb he
  unfold gpos.Single.read
  refine window_step (by omega) fun _ _ _ _ => ?_
  refine window_step (by omega) fun _ _ _ _ => ?_
  refine window_step (by omega) fun _ _ _ _ => ?_
  refine window_step (by omega) fun _ _ _ _ => ?_
  refine window_step (by omega) fun _ _ h1 _ => ?_
  refine window_step (by omega) fun _ _ h2 _ => ?_
  refine window_step (by omega) fun _ _ h3 _ => ?_
  refine window_step (by omega) fun _ _ h4 _ => ?_
  refine window_stay_bind ?_ fun _ => window_pure (by omega)
  refine window_bind (window_takeCorrection h1 hb) fun _ _ _ => ?_
  refine window_bind (window_takeCorrection h2 hb) fun _ _ _ => ?_
  refine window_bind (window_takeCorrection h3 hb) fun _ _ _ => ?_
  refine window_bind (window_takeCorrection h4 hb) fun _ _ _ => ?_
  exact window_pure trivial
instance {position flags : Nat} : ReachesFrom position (gpos.takeValue position flags) 131079 16 := by
  constructor
  intro b p hb he
  unfold gpos.takeValue
  repeat' first
    | refine window_stay_bind ?_ fun _ => ?_
    | reach_step
instance {position value1_flags value2_flags : Nat} : ReachesFrom position (gpos.Pair1.read position value1_flags value2_flags) 131079 34 := by
  constructor
  intro b p hb he
  unfold gpos.Pair1.read
  repeat' first
    | refine window_stay_bind ?_ fun _ => ?_
    | reach_step
instance {value1_flags value2_flags : Nat} : Looks (gpos.Pair1s.read value1_flags value2_flags) 2228192 := by reach gpos.Pair1s.read
instance {position value1_flags value2_flags : Nat} : ReachesFrom position (gpos.Pair2.read position value1_flags value2_flags) 131079 32 := by
  constructor
  intro b p hb he
  unfold gpos.Pair2.read
  repeat' first
    | refine window_stay_bind ?_ fun _ => ?_
    | reach_step
instance {position class2_count value1_flags value2_flags : Nat} : ReachesFrom position (gpos.Pair2s.read position class2_count value1_flags value2_flags) 131079 (32 * class2_count) := by
  constructor
  intro b p hb he
  unfold gpos.Pair2s.read
  repeat' first
    | refine window_stay_bind ?_ fun _ => ?_
    | reach_step
instance {position mark_class_count : Nat} : ReachesFrom position (gpos.Base.read position mark_class_count) 196614 (2 * mark_class_count) := by
  constructor
  intro b p hb he
  unfold gpos.Base.read
  refine window_step (by omega) fun _ _ h _ => ?_
  refine window_stay_bind (window_jumpTakeMaybeN_lt h (by omega)) fun _ => window_pure (by omega)
instance {mark_class_count : Nat} : Looks (gpos.Bases.read mark_class_count) (max (2 + 131070 * mark_class_count) 196614) := by
  constructor
  intro b p hb
  unfold gpos.Bases.read
  refine window_position (window_step (by omega) fun n _ _ _ => ?_)
  have : 2 * mark_class_count * n ≤ 2 * mark_class_count * 65535 := Nat.mul_le_mul (Nat.le_refl _) (by omega)
  refine window_bind (window_takeVec_from (by omega) (by omega)) fun _ _ _ => window_pure trivial
instance {position mark_class_count : Nat} : ReachesFrom position (gpos.Component.read position mark_class_count) 196614 (2 * mark_class_count) := by
  constructor
  intro b p hb he
  unfold gpos.Component.read
  refine window_step (by omega) fun _ _ h _ => ?_
  refine window_stay_bind (window_jumpTakeMaybeN_lt h (by omega)) fun _ => window_pure (by omega)
instance {mark_class_count : Nat} : Looks (gpos.Ligature.read mark_class_count) (max (2 + 131070 * mark_class_count) 196614) := by
  constructor
  intro b p hb
  unfold gpos.Ligature.read
  refine window_position (window_step (by omega) fun n _ _ _ => ?_)
  have : 2 * mark_class_count * n ≤ 2 * mark_class_count * 65535 := Nat.mul_le_mul (Nat.le_refl _) (by omega)
  refine window_bind (window_takeVec_from (by omega) (by omega)) fun _ _ _ => window_pure trivial
instance {position mark_class_count : Nat} : ReachesFrom position (gpos.Mark2.read position mark_class_count) 196614 (2 * mark_class_count) := by
  constructor
  intro b p hb he
  unfold gpos.Mark2.read
  refine window_step (by omega) fun _ _ h _ => ?_
  refine window_stay_bind (window_jumpTakeMaybeN_lt h (by omega)) fun _ => window_pure (by omega)
instance {mark_class_count : Nat} : Looks (gpos.Mark2s.read mark_class_count) (max (2 + 131070 * mark_class_count) 196614) := by
  constructor
  intro b p hb
  unfold gpos.Mark2s.read
  refine window_position (window_step (by omega) fun n _ _ _ => ?_)
  have : 2 * mark_class_count * n ≤ 2 * mark_class_count * 65535 := Nat.mul_le_mul (Nat.le_refl _) (by omega)
  refine window_bind (window_takeVec_from (by omega) (by omega)) fun _ _ _ => window_pure trivial
instance {position : Nat} : ReachesFrom position (gpos.Connection.read position) 196614 4 := by
  constructor
  intro b p hb he
  unfold gpos.Connection.read
  refine window_step (by omega) fun _ _ _ _ => ?_
  refine window_step (by omega) fun _ _ _ _ => ?_
  refine window_stay_bind ?_ fun _ => window_pure (by omega)
  unfold gpos.takeAnchors
  repeat' reach_step
instance {mark_class_count : Nat} : Looks (gpos.Ligatures.read mark_class_count) (max (65537 + 131070 * mark_class_count) 262149) := by
  constructor
  intro b p hb
  unfold gpos.Ligatures.read
  refine window_position (window_step (by omega) fun n _ _ _ => window_step (by omega) fun _ _ h _ => ?_)
  exact window_stay_bind (window_jumpTakeN_lt h (by omega)) fun _ => window_pure trivial
instance {cfg : Cfg} {position : Nat} : ReachesFrom position (gpos.Mark1.read cfg position) 196614 4 := by
  constructor
  intro b p hb he
  unfold gpos.Mark1.read
  refine window_step (by omega) fun _ _ _ _ => ?_
  refine window_step (by omega) fun _ _ _ _ => ?_
  unfold gpos.takeMarkAnchor
  split
  · exact window_bind (window_stay_bind (window_jumpTakeMaybe (by omega)) fun _ => window_pure rfl)
      fun _ q (hq : q = _) => window_pure (by omega)
  · exact window_stay_bind (window_jumpTake (by omega)) fun _ => window_pure (by omega)
instance {cfg : Cfg} : Looks (gpos.Mark1s.read cfg) 262142 := by reach gpos.Mark1s.read
instance {cfg : Cfg} : Looks (gpos.SingleAdjustment1.read cfg) 458749 := by reach gpos.SingleAdjustment1.read
instance {cfg : Cfg} : Looks (gpos.SingleAdjustment2.read cfg) 1048568 := by reach gpos.SingleAdjustment2.read
instance {cfg : Cfg} : Looks (gpos.SingleAdjustment.read cfg) 1048568 := by reach gpos.SingleAdjustment.read
instance {cfg : Cfg} : Looks (gpos.PairAdjustment1.read cfg) 2293727 := by reach gpos.PairAdjustment1.read
instance {cfg : Cfg} : Looks (gpos.PairAdjustment2.read cfg) 137434759216 := by
  constructor
  intro b p hb
  unfold gpos.PairAdjustment2.read
  refine window_position ?_
  refine window_step (by omega) fun _ _ _ _ => ?_
  refine window_step (by omega) fun _ _ _ _ => ?_
  refine window_step (by omega) fun _ _ _ _ => ?_
  refine window_step (by omega) fun _ _ _ _ => ?_
  refine window_step (by omega) fun _ _ _ _ => ?_
  refine window_step (by omega) fun _ _ _ _ => ?_
  refine window_step (by omega) fun n _ _ _ => ?_
  refine window_step (by omega) fun m _ _ _ => ?_
  have : 32 * m * n ≤ 32 * 65535 * 65535 := Nat.mul_le_mul (by omega) (by omega)
  repeat' reach_step
instance {cfg : Cfg} : Looks (gpos.PairAdjustment.read cfg) 137434759216 := by reach gpos.PairAdjustment.read
instance : Looks gpos.CursiveAttachment.read 458749 := by reach gpos.CursiveAttachment.read
instance {cfg : Cfg} : Looks (gpos.MarkToBaseAttachment.read cfg) 8589737987 := by reach gpos.MarkToBaseAttachment.read
instance {cfg : Cfg} : Looks (gpos.MarkToLigatureAttachment.read cfg) 8589803522 := by reach gpos.MarkToLigatureAttachment.read
instance {cfg : Cfg} : Looks (gpos.MarkToMarkAttachment.read cfg) 8589737987 := by reach gpos.MarkToMarkAttachment.read
instance : Reaches gpos.ExtensionPositioning.read 8 (fun _ => True) := by reach gpos.ExtensionPositioning.read
instance {cfg : Cfg} {type_ : Nat} : Looks (gpos.Type_.read cfg type_) 137434759216 := by reach gpos.Type_.read
instance {cfg : Cfg} : Looks (gpos.GlyphPositioning.read cfg) 137434955821 :=
  ⟨fun hb => Looks.within (r := directory.Directory.read cfg (gpos.Type_.read cfg)) (by omega)⟩
instance {accept : Tag → Bool} : Reaches (offsets.Header.read accept) 12 (fun h => h.table_count < 65536) := by reach offsets.Header.read
instance : Reaches offsets.Record.read 16 (fun _ => True) := by reach offsets.Record.read
instance {accept : Tag → Bool} : Looks (offsets.Offsets.read accept) 1048572 := by reach offsets.Offsets.read
instance {accept : Tag → Bool} : Looks (Font.read accept) 1048572 := by reach Font.read
instance {accept : Tag → Bool} : Looks (File.read accept) 1048572 := by reach File.read

end OpenType
