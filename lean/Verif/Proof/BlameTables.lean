import Verif.Proof.Blame
/-!
# Why the readers of the tables refuse
-/

namespace OpenType
open Spec

instance : Blames coverage.Record.read [] := by blames coverage.Record.read
instance : Blames coverage.Coverage1.read [] := by blames coverage.Coverage1.read
instance : Blames coverage.Coverage2.read [] := by blames coverage.Coverage2.read
instance : Blames coverage.Coverage.read [.coverage] := ⟨fun d b p h => by
  unfold coverage.Coverage.read
  refine says_peek_u16 fun v hv => ?_
  split
  · repeat' blame_step
  · repeat' blame_step
  · exact says_raise ⟨.coverage, by decide, rfl, p, h, hv, by simp_all⟩⟩
instance : Blames class_.Record.read [] := by blames class_.Record.read
instance : Blames class_.Class1.read [] := by blames class_.Class1.read
instance : Blames class_.Class2.read [] := by blames class_.Class2.read
instance : Blames class_.Class.read [.class_] := ⟨fun d b p h => by
  unfold class_.Class.read
  refine says_peek_u16 fun v hv => ?_
  split
  · repeat' blame_step
  · repeat' blame_step
  · exact says_raise ⟨.class_, by decide, rfl, p, h, hv, by simp_all⟩⟩
/-- The sizes and the format may be refused; the format only if it is none of `known`. -/
theorem says_device {d : Data} {b p : Nat} {S : List Problem} (h : b ≤ p) (hS : S.contains .device = true)
    (hf : ∀ v, U16 d (p + 4) v → v = 0 ∨ v > 3 → S.contains .deviceFormat = true) :
    Says d b S correction.Device.read p := by
  unfold correction.Device.read
  refine says_u16 fun first h1 => says_u16 fun last h2 => says_raiseIf
    (fun hc => ⟨.device, by simpa using hS, rfl, p, first, last, h, h1, h2, hc⟩) fun _ => ?_
  refine says_u16 fun v h3 => says_raiseIf
    (fun hc => ⟨.deviceFormat, by simpa using hf v h3 hc, rfl, p + 2 + 2, by omega, h3, ?_⟩) fun _ => ?_
  · simp only [List.mem_cons, List.not_mem_nil, or_false, not_or]; omega
  · repeat' blame_step
instance : Blames correction.Device.read [.device, .deviceFormat] := ⟨fun _ _ _ h => says_device h rfl fun _ _ _ => rfl⟩
instance : Blames correction.Variation.read [] := by blames correction.Variation.read
instance : Blames correction.peeked [] := by blames correction.peeked
theorem peeked_word {d : Data} {p : Nat} {x : Nat × Nat} {q : Nat} (e : peek correction.peeked d p = .ok (x, q)) :
    U16 d (p + 4) x.2 ∧ q = p := by
  obtain ⟨⟨m, h⟩, rfl⟩ := run_stay.1 e
  refine ⟨?_, rfl⟩
  unfold correction.peeked at h
  obtain ⟨x1, m1, e1, h⟩ := run_bind.1 h
  obtain ⟨-, rfl⟩ := u32_word e1
  obtain ⟨x2, m2, e2, h⟩ := run_bind.1 h
  obtain ⟨h2, rfl⟩ := u16_word e2
  obtain ⟨rfl, -⟩ := run_pure.1 h
  exact h2
instance : Blames correction.Correction.read [.correction, .device] := ⟨fun d b p h => by
  unfold correction.Correction.read
  refine says_bind (says_of h rfl) fun x q e hq => ?_
  obtain ⟨hv, rfl⟩ := peeked_word e
  dsimp only
  split
  · rename_i hc
    exact says_bind (says_device h rfl fun v h1 h2 => by cases h1.unique hv; omega) fun _ _ _ hq => says_pure hq
  · split
    · repeat' blame_step
    · exact says_raise ⟨.correction, by decide, rfl, _, by omega, hv, by
        simp only [List.mem_cons, List.not_mem_nil, or_false, not_or]; omega⟩⟩
instance : Blames context.Action.read [] := by blames context.Action.read
instance : Blames context.Record.read [.record] := ⟨fun d b p h => by
  unfold context.Record.read
  refine says_u16 fun v hv => ?_
  refine says_u16 fun w _ => ?_
  refine says_raiseIf (fun hc => ⟨.record, by decide, rfl, p, h, hc ▸ hv⟩) fun _ => ?_
  repeat' blame_step⟩
instance : Blames context.Records.read [.record] := by blames context.Records.read
instance : Blames context.ClassRecord.read [.classRecord] := ⟨fun d b p h => by
  unfold context.ClassRecord.read
  refine says_u16 fun v hv => ?_
  refine says_u16 fun w _ => ?_
  refine says_raiseIf (fun hc => ⟨.classRecord, by decide, rfl, p, h, hc ▸ hv⟩) fun _ => ?_
  repeat' blame_step⟩
instance : Blames context.ClassRecords.read [.classRecord] := by blames context.ClassRecords.read
instance : Blames context.ChainedRecord.read [.chainedRecord] := ⟨fun d b p h => by
  unfold context.ChainedRecord.read
  refine says_u16 fun _ _ => says_bind (says_of (by omega) rfl) fun _ _ _ _ => ?_
  refine says_u16 fun v hv => ?_
  refine says_raiseIf (fun hc => ⟨.chainedRecord, by decide, rfl, _, ?_, hc ▸ hv⟩) fun _ => ?_
  · omega
  · repeat' blame_step⟩
instance : Blames context.ChainedRecords.read [.chainedRecord] := by blames context.ChainedRecords.read
instance : Blames context.ChainedClassRecord.read [.chainedClassRecord] := ⟨fun d b p h => by
  unfold context.ChainedClassRecord.read
  refine says_u16 fun _ _ => says_bind (says_of (by omega) rfl) fun _ _ _ _ => ?_
  refine says_u16 fun v hv => ?_
  refine says_raiseIf (fun hc => ⟨.chainedClassRecord, by decide, rfl, _, ?_, hc ▸ hv⟩) fun _ => ?_
  · omega
  · repeat' blame_step⟩
instance : Blames context.ChainedClassRecords.read [.chainedClassRecord] := by blames context.ChainedClassRecords.read
instance : Blames context.Context1.read [.record, .coverage] := by blames context.Context1.read
instance : Blames context.Context2.read [.classRecord, .coverage, .class_] := by blames context.Context2.read
instance : Blames context.Context3.read [.coverage] := by blames context.Context3.read
instance : Blames context.Context.read [.context, .record, .classRecord, .coverage, .class_] := ⟨fun d b p h => by
  unfold context.Context.read
  refine says_peek_u16 fun v hv => ?_
  split
  · repeat' blame_step
  · repeat' blame_step
  · repeat' blame_step
  · exact says_raise ⟨.context, by decide, rfl, p, h, hv, by simp_all⟩⟩
instance : Blames context.ChainedContext1.read [.chainedRecord, .coverage] := by blames context.ChainedContext1.read
instance : Blames context.ChainedContext2.read [.chainedClassRecord, .coverage, .class_] := by blames context.ChainedContext2.read
instance : Blames context.ChainedContext3.read [.coverage] := by blames context.ChainedContext3.read
instance : Blames context.ChainedContext.read [.chainedContext, .chainedRecord, .chainedClassRecord, .coverage, .class_] := ⟨fun d b p h => by
  unfold context.ChainedContext.read
  refine says_peek_u16 fun v hv => ?_
  split
  · repeat' blame_step
  · repeat' blame_step
  · repeat' blame_step
  · exact says_raise ⟨.chainedContext, by decide, rfl, p, h, hv, by simp_all⟩⟩
instance {cfg : Cfg} {a b : Nat} : Blames (item.addU16 cfg a b) [] := by blames item.addU16
instance {cfg : Cfg} : Blames (item.Record.read cfg) [] := by blames item.Record.read
instance {cfg : Cfg} : Blames (item.Store.read cfg) [.constant] := by blames item.Store.read
instance : Blames language.Header.read [] := by blames language.Header.read
instance : Blames language.Record.read [.constant] := by blames language.Record.read
instance : Blames script.Header.read [] := by blames script.Header.read
instance : Blames script.Record.read [.constant] := by blames script.Record.read
instance : Blames script.Scripts.read [.constant] := by blames script.Scripts.read
instance : Blames feature.Header.read [] := by blames feature.Header.read
instance {position parameter_offset : Nat} : BlamesFrom position (feature.takeParameters position parameter_offset) [] := by blames_from feature.takeParameters
instance : Blames feature.Record.read [] := by blames feature.Record.read
instance : Blames feature.Variations.read [.constant] := by blames feature.Variations.read
instance : Blames feature.Features.read [] := by blames feature.Features.read
section
variable {T : Type} {cfg : Cfg} {readTable : Nat → Reader T} {S : List Problem}
theorem contains_after {k : Problem} {l : List Problem} (h : S.all (l.contains ·) = true) :
    S.all ((k :: l).contains ·) = true := by
  simp only [List.all_eq_true, List.contains_eq_mem, List.mem_cons, decide_eq_true_eq] at h ⊢
  exact fun x hx => Or.inr (h x hx)
theorem contains_all : S.all (S.contains ·) = true := by
  simp only [List.all_eq_true, List.contains_eq_mem, decide_eq_true_eq]
  exact fun _ hx => hx
instance [hT : BlamesGiven readTable S] : Blames (lookup.Record.read cfg readTable) (.flags :: S) :=
  ⟨fun d b p h => by
    unfold lookup.Record.read
    refine says_position (says_u16 fun n hn => ?_)
    refine says_bind (says_of (by omega) (by simp)) fun _ _ _ _ => ?_
    refine says_bind (says_of (by omega) rfl) fun _ _ _ _ => ?_
    refine says_bind (says_of (by omega) rfl) fun _ _ _ _ => ?_
    refine says_bind (says_of (by omega) rfl) fun _ _ _ _ => ?_
    refine says_bind (says_jumpTakeN (by omega) (by omega) fun q hq =>
      (hT.says d b q n hq ⟨p, h, hn⟩).mono (contains_after contains_all)) fun _ _ _ _ => ?_
    exact says_pure (by omega)⟩
instance [hT : BlamesGiven readTable S] : Blames (lookup.Lookups.read cfg readTable) (.flags :: S) :=
  ⟨fun d b p h => by
    unfold lookup.Lookups.read
    refine says_position (says_u16 fun n hn => ?_)
    refine says_bind (says_of (by omega) rfl) fun _ _ _ _ => ?_
    refine says_bind (says_jumpTakeN (by omega) (by omega) fun q hq => says_of hq contains_all) fun _ _ _ _ => ?_
    exact says_pure (by omega)⟩
theorem says_part {α : Type} {d : Data} {b p base offset : Nat} {r : Reader α} {default : α} {S S' : List Problem}
    [Blames r S'] (hb : b ≤ base) (h : b ≤ p) (hS : S'.all (S.contains ·) = true) :
    Says d b S (directory.part cfg base offset r default) p := by
  unfold directory.part; split
  · exact says_bind (says_jumpTakeMaybe hb h fun _ hq => says_of hq hS) fun _ _ _ _ => says_pure (by omega)
  · exact says_jumpTake hb fun _ hq => says_of hq hS
instance {major_version minor_version : Nat} : Blames (directory.variationOffset major_version minor_version) [] := by blames directory.variationOffset
theorem says_directory [hT : BlamesGiven readTable S] {d : Data} {b p : Nat} {S' : List Problem} (h : b ≤ p)
    (h1 : S'.contains .constant = true) (h2 : S'.contains .flags = true) (h3 : S.all (S'.contains ·) = true)
    (hv : ∀ major minor, U16 d p major → U16 d (p + 2) minor → ¬(major = 1 ∧ minor ≤ 1) →
      S'.contains .directory = true) : Says d b S' (directory.Directory.read cfg readTable) p := by
  unfold directory.Directory.read
  refine says_position (says_u16 fun major hm => says_u16 fun minor hn => ?_)
  refine says_raiseIf (fun hc => ?_) fun _ => ?_
  · have hc' : ¬(major = 1 ∧ minor ≤ 1) := by simp only [Prod.mk.injEq] at hc; omega
    exact ⟨.directory, by simpa using hv major minor hm hn hc', rfl, p, h, hm, hn, hc'⟩
  refine says_bind (says_of (by omega) rfl) fun _ _ _ _ => ?_
  refine says_bind (says_of (by omega) rfl) fun _ _ _ _ => ?_
  refine says_bind (says_of (by omega) rfl) fun _ _ _ _ => ?_
  refine says_bind (says_of (by omega) rfl) fun _ _ _ _ => ?_
  refine says_bind (says_part (by omega) (by omega) (by simpa using h1)) fun _ _ _ _ => ?_
  refine says_bind (says_part (by omega) (by omega) (by simp)) fun _ _ _ _ => ?_
  refine says_bind (says_part (by omega) (by omega)
    (by rw [List.all_cons, h2, h3]; rfl)) fun _ _ _ _ => ?_
  refine says_bind (says_jumpTakeMaybe (by omega) (by omega) fun q hq =>
    says_of hq (by simpa using h1)) fun _ _ _ _ => ?_
  exact says_pure (by omega)
instance [hT : BlamesGiven readTable S] :
    Blames (directory.Directory.read cfg readTable) (.directory :: .constant :: .flags :: S) :=
  ⟨fun _ _ _ h => says_directory h (by simp) (by simp)
    (contains_after (contains_after (contains_after contains_all))) fun _ _ _ _ _ => by simp⟩
end
instance : Blames gsub.Alternates.read [] := by blames gsub.Alternates.read
instance : Blames gsub.Ligature.read [.ligature] := ⟨fun d b p h => by
  unfold gsub.Ligature.read
  refine says_u16 fun _ _ => says_u16 fun v hv => ?_
  refine says_raiseIf (fun hc => ⟨.ligature, by decide, rfl, p + 2, by omega, hc ▸ hv⟩) fun _ => ?_
  repeat' blame_step⟩
instance : Blames gsub.Ligatures.read [.ligature] := by blames gsub.Ligatures.read
instance : Blames gsub.Sequence.read [] := by blames gsub.Sequence.read
instance : Blames gsub.SingleSubstitution1.read [.coverage] := by blames gsub.SingleSubstitution1.read
instance : Blames gsub.SingleSubstitution2.read [.coverage] := by blames gsub.SingleSubstitution2.read
instance : Blames gsub.SingleSubstitution.read [.single, .coverage] := ⟨fun d b p h => by
  unfold gsub.SingleSubstitution.read
  refine says_peek_u16 fun v hv => ?_
  split
  · repeat' blame_step
  · repeat' blame_step
  · exact says_raise ⟨.single, by decide, rfl, p, h, hv, by simp_all⟩⟩
instance : Blames gsub.MultipleSubstitution.read [.constant, .coverage] := by blames gsub.MultipleSubstitution.read
instance : Blames gsub.AlternateSubstitution.read [.constant, .coverage] := by blames gsub.AlternateSubstitution.read
instance : Blames gsub.LigatureSubstitution.read [.constant, .ligature, .coverage] := by blames gsub.LigatureSubstitution.read
instance : Blames gsub.ExtensionSubstitution.read [.constant] := by blames gsub.ExtensionSubstitution.read
instance : Blames gsub.ReverseChainedContextualSubstibution.read [.constant, .coverage] := by blames gsub.ReverseChainedContextualSubstibution.read
instance : BlamesGiven gsub.Type_.read
    [.substitution, .constant, .single, .ligature, .context, .record, .classRecord, .chainedContext, .chainedRecord, .chainedClassRecord, .coverage, .class_] :=
  ⟨fun d b p n h hn => by
    unfold gsub.Type_.read
    split
    case h_9 => obtain ⟨q, hq, hn⟩ := hn; exact says_raise ⟨.substitution, by decide, rfl, q, hq, hn, by simp_all⟩
    all_goals repeat' blame_step⟩
instance {cfg : Cfg} : Blames (gsub.GlyphSubstitution.read cfg)
    [.directory, .constant, .flags, .substitution, .constant, .single, .ligature, .context, .record, .classRecord, .chainedContext, .chainedRecord, .chainedClassRecord, .coverage, .class_] := by
  unfold gsub.GlyphSubstitution.read; infer_instance
instance : Blames gdef.Attachment.read [] := by blames gdef.Attachment.read
instance : Blames gdef.Attachments.read [.coverage] := by blames gdef.Attachments.read
instance : Blames gdef.Caret1.read [] := by blames gdef.Caret1.read
instance : Blames gdef.Caret2.read [] := by blames gdef.Caret2.read
instance : Blames gdef.Caret3.read [.correction, .device] := by blames gdef.Caret3.read
instance : Blames gdef.Caret.read [.caret, .correction, .device] := ⟨fun d b p h => by
  unfold gdef.Caret.read
  refine says_peek_u32 fun v hv => ?_
  split
  · repeat' blame_step
  · repeat' blame_step
  · repeat' blame_step
  · exact says_raise ⟨.caret, by decide, rfl, p, v, h, hv, by simp_all⟩⟩
instance : Blames gdef.Ligature.read [.caret, .correction, .device] := by blames gdef.Ligature.read
instance : Blames gdef.Ligatures.read [.caret, .coverage, .correction, .device] := by blames gdef.Ligatures.read
instance : Blames gdef.Marks.read [.constant, .coverage] := by blames gdef.Marks.read
instance : Blames gdef.Header1.read [.constant] := by blames gdef.Header1.read
instance : Blames gdef.Header12.read [.constant] := by blames gdef.Header12.read
instance : Blames gdef.Header13.read [.constant] := by blames gdef.Header13.read
theorem halves_of_word {d : Data} {p v : Nat} (h : U32 d p v) : U16 d p (v / 65536) ∧ U16 d (p + 2) (v % 65536) := by
  obtain ⟨a, b, ha, hb, rfl⟩ := h
  have := hb.lt
  rw [show (65536 * a + b) / 65536 = a by omega, show (65536 * a + b) % 65536 = b by omega]
  exact ⟨ha, hb⟩
theorem says_definition {d : Data} {b p : Nat} {S : List Problem} (h : b ≤ p)
    (hv : ∀ major minor, U16 d p major → U16 d (p + 2) minor → ¬(major = 1 ∧ minor ∈ [0, 2, 3]) →
      S.contains .definition = true) : Says d b S gdef.Header.read p := by
  unfold gdef.Header.read
  refine says_peek_u32 fun v hw => ?_
  obtain ⟨h1, h2⟩ := halves_of_word hw
  split
  · refine says_bind ?_ fun _ _ _ _ => says_pure (by omega)
    unfold gdef.Header1.read
    refine says_expected_bind h h1 (says_expected_bind (by omega) h2 ?_)
    repeat' blame_step
  · refine says_bind ?_ fun _ _ _ _ => says_pure (by omega)
    unfold gdef.Header12.read
    refine says_expected_bind h h1 (says_expected_bind (by omega) h2 ?_)
    repeat' blame_step
  · refine says_bind ?_ fun _ _ _ _ => says_pure (by omega)
    unfold gdef.Header13.read
    refine says_expected_bind h h1 (says_expected_bind (by omega) h2 ?_)
    repeat' blame_step
  · rename_i n1 n2 n3
    have hc : ¬(v / 65536 = 1 ∧ v % 65536 ∈ [0, 2, 3]) := by
      rintro ⟨h3, h4⟩
      simp only [List.mem_cons, List.not_mem_nil, or_false] at h4
      rcases h4 with h4 | h4 | h4
      · exact n1 (by omega)
      · exact n2 (by omega)
      · exact n3 (by omega)
    exact says_raise ⟨.definition, by simpa using hv _ _ h1 h2 hc, rfl, p, _, _, h, h1, h2, hc⟩
instance : Blames gdef.Header.read [.definition] := ⟨fun _ _ _ h => says_definition h fun _ _ _ _ _ => rfl⟩
instance {cfg : Cfg} : Blames (gdef.GlyphDefinition.read cfg) [.definition, .constant, .caret, .coverage, .class_, .correction, .device] := by blames gdef.GlyphDefinition.read
instance : Blames cpal.Color.read [] := by blames cpal.Color.read
instance : Blames cpal.Header0.read [.constant] := by blames cpal.Header0.read
instance : Blames cpal.Header1.read [.constant] := by blames cpal.Header1.read
instance : Blames cpal.Header.read [.palettes] := ⟨fun d b p h => by
  unfold cpal.Header.read
  refine says_peek_u16 fun v hv => ?_
  split
  · refine says_bind ?_ fun _ _ _ _ => says_pure (by omega)
    unfold cpal.Header0.read
    refine says_expected_bind h hv ?_
    repeat' blame_step
  · refine says_bind ?_ fun _ _ _ _ => says_pure (by omega)
    unfold cpal.Header1.read
    refine says_expected_bind h hv ?_
    repeat' blame_step
  · exact says_raise ⟨.palettes, by decide, rfl, p, h, hv, by simp_all⟩⟩
instance : Blames cpal.ColorPalettes.read [.palettes] := by blames cpal.ColorPalettes.read
instance : Blames fvar.Header.read [.constant] := by blames fvar.Header.read
instance {cfg : Cfg} : Blames (fvar.AxisRecord.read cfg) [.flags] := by blames fvar.AxisRecord.read
instance {cfg : Cfg} {axis_count : Nat} : Blames (fvar.InstanceRecord.read cfg axis_count) [.flags] := by blames fvar.InstanceRecord.read
instance {cfg : Cfg} : Blames (fvar.FontVariations.read cfg) [.constant, .flags] := by blames fvar.FontVariations.read
instance : Blames gpos.Anchor1.read [] := by blames gpos.Anchor1.read
instance : Blames gpos.Anchor2.read [] := by blames gpos.Anchor2.read
instance : Blames gpos.Anchor3.read [.correction, .device] := by blames gpos.Anchor3.read
instance : Blames gpos.Anchor.read [.anchor, .correction, .device] := ⟨fun d b p h => by
  unfold gpos.Anchor.read
  refine says_peek_u16 fun v hv => ?_
  split
  · repeat' blame_step
  · repeat' blame_step
  · repeat' blame_step
  · exact says_raise ⟨.anchor, by decide, rfl, p, h, hv, by simp_all⟩⟩
instance {cfg : Cfg} : Blames (gpos.Flags.read cfg) [.flags] := by blames gpos.Flags.read
instance {base : Nat} {offset : Option Nat} : BlamesFrom base (gpos.takeCorrection base offset) [.correction, .device] := by blames_from gpos.takeCorrection
instance {position : Nat} {a b c e : Option Nat} : BlamesFrom position (gpos.takeCorrections position a b c e) [.correction, .device] := by blames_from gpos.takeCorrections
instance {position flags : Nat} : BlamesFrom position (gpos.Single.read position flags) [.correction, .device] := by blames_from gpos.Single.read
instance {position flags : Nat} : BlamesFrom position (gpos.takeValue position flags) [.correction, .device] := by blames_from gpos.takeValue
instance {position value1_flags value2_flags : Nat} : BlamesFrom position (gpos.Pair1.read position value1_flags value2_flags) [.correction, .device] := by blames_from gpos.Pair1.read
instance {value1_flags value2_flags : Nat} : Blames (gpos.Pair1s.read value1_flags value2_flags) [.correction, .device] := by blames gpos.Pair1s.read
instance {position value1_flags value2_flags : Nat} : BlamesFrom position (gpos.Pair2.read position value1_flags value2_flags) [.correction, .device] := by blames_from gpos.Pair2.read
instance {position class2_count value1_flags value2_flags : Nat} : BlamesFrom position (gpos.Pair2s.read position class2_count value1_flags value2_flags) [.correction, .device] := by blames_from gpos.Pair2s.read
instance {position mark_class_count : Nat} : BlamesFrom position (gpos.Base.read position mark_class_count) [.anchor, .correction, .device] := by blames_from gpos.Base.read
instance {mark_class_count : Nat} : Blames (gpos.Bases.read mark_class_count) [.anchor, .correction, .device] := by blames gpos.Bases.read
instance {position mark_class_count : Nat} : BlamesFrom position (gpos.Component.read position mark_class_count) [.anchor, .correction, .device] := by blames_from gpos.Component.read
instance {position start_anchor_offset end_anchor_offset : Nat} : BlamesFrom position (gpos.takeAnchors position start_anchor_offset end_anchor_offset) [.anchor, .correction, .device] := by blames_from gpos.takeAnchors
instance {position : Nat} : BlamesFrom position (gpos.Connection.read position) [.anchor, .correction, .device] := by blames_from gpos.Connection.read
instance {mark_class_count : Nat} : Blames (gpos.Ligature.read mark_class_count) [.anchor, .correction, .device] := by blames gpos.Ligature.read
instance {mark_class_count : Nat} : Blames (gpos.Ligatures.read mark_class_count) [.anchor, .correction, .device] := by blames gpos.Ligatures.read
instance {cfg : Cfg} {position anchor_offset : Nat} : BlamesFrom position (gpos.takeMarkAnchor cfg position anchor_offset) [.anchor, .correction, .device] := by blames_from gpos.takeMarkAnchor
instance {cfg : Cfg} {position : Nat} : BlamesFrom position (gpos.Mark1.read cfg position) [.anchor, .correction, .device] := by blames_from gpos.Mark1.read
instance {cfg : Cfg} : Blames (gpos.Mark1s.read cfg) [.anchor, .correction, .device] := by blames gpos.Mark1s.read
instance {position mark_class_count : Nat} : BlamesFrom position (gpos.Mark2.read position mark_class_count) [.anchor, .correction, .device] := by blames_from gpos.Mark2.read
instance {mark_class_count : Nat} : Blames (gpos.Mark2s.read mark_class_count) [.anchor, .correction, .device] := by blames gpos.Mark2s.read
instance {cfg : Cfg} : Blames (gpos.SingleAdjustment1.read cfg) [.flags, .coverage, .correction, .device] := by blames gpos.SingleAdjustment1.read
instance {cfg : Cfg} : Blames (gpos.SingleAdjustment2.read cfg) [.flags, .coverage, .correction, .device] := by blames gpos.SingleAdjustment2.read
instance {cfg : Cfg} : Blames (gpos.SingleAdjustment.read cfg) [.singleAdjustment, .flags, .coverage, .correction, .device] := ⟨fun d b p h => by
  unfold gpos.SingleAdjustment.read
  refine says_peek_u16 fun v hv => ?_
  split
  · repeat' blame_step
  · repeat' blame_step
  · exact says_raise ⟨.singleAdjustment, by decide, rfl, p, h, hv, by simp_all⟩⟩
instance {cfg : Cfg} : Blames (gpos.PairAdjustment1.read cfg) [.flags, .coverage, .correction, .device] := by blames gpos.PairAdjustment1.read
instance {cfg : Cfg} : Blames (gpos.PairAdjustment2.read cfg) [.flags, .coverage, .class_, .correction, .device] := by blames gpos.PairAdjustment2.read
instance {cfg : Cfg} : Blames (gpos.PairAdjustment.read cfg) [.pairAdjustment, .flags, .coverage, .class_, .correction, .device] := ⟨fun d b p h => by
  unfold gpos.PairAdjustment.read
  refine says_peek_u16 fun v hv => ?_
  split
  · repeat' blame_step
  · repeat' blame_step
  · exact says_raise ⟨.pairAdjustment, by decide, rfl, p, h, hv, by simp_all⟩⟩
instance : Blames gpos.CursiveAttachment.read [.constant, .coverage, .anchor, .correction, .device] := by blames gpos.CursiveAttachment.read
instance {cfg : Cfg} : Blames (gpos.MarkToBaseAttachment.read cfg) [.constant, .coverage, .anchor, .correction, .device] := by blames gpos.MarkToBaseAttachment.read
instance {cfg : Cfg} : Blames (gpos.MarkToLigatureAttachment.read cfg) [.constant, .coverage, .anchor, .correction, .device] := by blames gpos.MarkToLigatureAttachment.read
instance {cfg : Cfg} : Blames (gpos.MarkToMarkAttachment.read cfg) [.constant, .coverage, .anchor, .correction, .device] := by blames gpos.MarkToMarkAttachment.read
instance : Blames gpos.ExtensionPositioning.read [.constant] := by blames gpos.ExtensionPositioning.read
instance {cfg : Cfg} : BlamesGiven (gpos.Type_.read cfg)
    [.positioning, .constant, .flags, .singleAdjustment, .pairAdjustment, .anchor, .correction, .device, .context, .record, .classRecord, .chainedContext, .chainedRecord, .chainedClassRecord, .coverage, .class_] :=
  ⟨fun d b p n h hn => by
    unfold gpos.Type_.read
    split
    case h_10 => obtain ⟨q, hq, hn⟩ := hn; exact says_raise ⟨.positioning, by decide, rfl, q, hq, hn, by simp_all⟩
    all_goals repeat' blame_step⟩
instance {cfg : Cfg} : Blames (gpos.GlyphPositioning.read cfg)
    [.directory, .constant, .flags, .positioning, .constant, .flags, .singleAdjustment, .pairAdjustment, .anchor, .correction, .device, .context, .record, .classRecord, .chainedContext, .chainedRecord, .chainedClassRecord, .coverage, .class_] := by
  unfold gpos.GlyphPositioning.read; infer_instance

end OpenType
