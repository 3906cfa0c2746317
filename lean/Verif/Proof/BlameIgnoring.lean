import Verif.Proof.BlameTables
/-! # The messages of a build that ignores invalid flags -/

namespace OpenType
open Spec

/-- The same build, but for that it ignores invalid flags. -/
def ignoring (cfg : Cfg) : Cfg := { cfg with rejectInvalidFlags := false }

theorem ignoring_of {cfg : Cfg} (h : cfg.rejectInvalidFlags = false) : ignoring cfg = cfg := by
  obtain ⟨_, _, _, _, e, _⟩ := cfg
  cases h
  rfl

section
variable {T : Type} {cfg : Cfg} {readTable : Nat → Reader T} {S : List Problem}

instance {n : Nat} : Blames (flagsU16 (ignoring cfg) n) [] := ⟨fun _ _ _ _ =>
  says_u16 fun _ _ => says_raiseIf (fun hc => Bool.noConfusion hc.1) fun _ => says_pure (by omega)⟩
instance [hT : BlamesGiven readTable S] : Blames (lookup.Record.read (ignoring cfg) readTable) S :=
  ⟨fun d b p h => by
    unfold lookup.Record.read
    refine says_position (says_u16 fun n hn => ?_)
    refine says_bind (says_of (by omega) rfl) fun _ _ _ _ => ?_
    refine says_bind (says_of (by omega) rfl) fun _ _ _ _ => ?_
    refine says_bind (says_of (by omega) rfl) fun _ _ _ _ => ?_
    refine says_bind (says_of (by omega) rfl) fun _ _ _ _ => ?_
    refine says_bind (says_jumpTakeN (by omega) (by omega) fun q hq =>
      (hT.says d b q n hq ⟨p, h, hn⟩).mono contains_all) fun _ _ _ _ => ?_
    exact says_pure (by omega)⟩
instance [hT : BlamesGiven readTable S] : Blames (lookup.Lookups.read (ignoring cfg) readTable) S :=
  ⟨fun d b p h => by
    unfold lookup.Lookups.read
    refine says_position (says_u16 fun n hn => ?_)
    refine says_bind (says_of (by omega) rfl) fun _ _ _ _ => ?_
    refine says_bind (says_jumpTakeN (by omega) (by omega) fun q hq => says_of hq contains_all) fun _ _ _ _ => ?_
    exact says_pure (by omega)⟩
instance [hT : BlamesGiven readTable S] :
    Blames (directory.Directory.read (ignoring cfg) readTable) (.directory :: .constant :: S) :=
  ⟨fun d b p h => by
    unfold directory.Directory.read
    refine says_position (says_u16 fun major hm => says_u16 fun minor hn => ?_)
    refine says_raiseIf (fun hc => ?_) fun _ => ?_
    · have hc' : ¬(major = 1 ∧ minor ≤ 1) := by simp only [Prod.mk.injEq] at hc; omega
      exact ⟨.directory, by simp, rfl, p, h, hm, hn, hc'⟩
    refine says_bind (says_of (by omega) rfl) fun _ _ _ _ => ?_
    refine says_bind (says_of (by omega) rfl) fun _ _ _ _ => ?_
    refine says_bind (says_of (by omega) rfl) fun _ _ _ _ => ?_
    refine says_bind (says_of (by omega) rfl) fun _ _ _ _ => ?_
    refine says_bind (says_part (by omega) (by omega) (by simp)) fun _ _ _ _ => ?_
    refine says_bind (says_part (by omega) (by omega) (by simp)) fun _ _ _ _ => ?_
    refine says_bind (says_part (by omega) (by omega) (contains_after (contains_after contains_all))) fun _ _ _ _ => ?_
    refine says_bind (says_jumpTakeMaybe (by omega) (by omega) fun q hq =>
      says_of hq (by simp)) fun _ _ _ _ => ?_
    exact says_pure (by omega)⟩
end

instance {cfg : Cfg} : Blames (gsub.GlyphSubstitution.read (ignoring cfg))
    [.directory, .constant, .substitution, .constant, .single, .ligature, .context, .record, .classRecord, .chainedContext, .chainedRecord, .chainedClassRecord, .coverage, .class_] := by
  unfold gsub.GlyphSubstitution.read; infer_instance
instance {cfg : Cfg} : Blames (fvar.AxisRecord.read (ignoring cfg)) [] := by blames fvar.AxisRecord.read
instance {cfg : Cfg} {axis_count : Nat} : Blames (fvar.InstanceRecord.read (ignoring cfg) axis_count) [] := by blames fvar.InstanceRecord.read
instance {cfg : Cfg} : Blames (fvar.FontVariations.read (ignoring cfg)) [.constant] := by blames fvar.FontVariations.read
instance {cfg : Cfg} : Blames (gpos.Flags.read (ignoring cfg)) [] := by blames gpos.Flags.read
instance {cfg : Cfg} : Blames (gpos.SingleAdjustment1.read (ignoring cfg)) [.coverage, .correction, .device] := by blames gpos.SingleAdjustment1.read
instance {cfg : Cfg} : Blames (gpos.SingleAdjustment2.read (ignoring cfg)) [.coverage, .correction, .device] := by blames gpos.SingleAdjustment2.read
instance {cfg : Cfg} : Blames (gpos.SingleAdjustment.read (ignoring cfg)) [.singleAdjustment, .coverage, .correction, .device] := ⟨fun d b p h => by
  unfold gpos.SingleAdjustment.read
  refine says_peek_u16 fun v hv => ?_
  split
  · repeat' blame_step
  · repeat' blame_step
  · exact says_raise ⟨.singleAdjustment, by decide, rfl, p, h, hv, by simp_all⟩⟩
instance {cfg : Cfg} : Blames (gpos.PairAdjustment1.read (ignoring cfg)) [.coverage, .correction, .device] := by blames gpos.PairAdjustment1.read
instance {cfg : Cfg} : Blames (gpos.PairAdjustment2.read (ignoring cfg)) [.coverage, .class_, .correction, .device] := by blames gpos.PairAdjustment2.read
instance {cfg : Cfg} : Blames (gpos.PairAdjustment.read (ignoring cfg)) [.pairAdjustment, .coverage, .class_, .correction, .device] := ⟨fun d b p h => by
  unfold gpos.PairAdjustment.read
  refine says_peek_u16 fun v hv => ?_
  split
  · repeat' blame_step
  · repeat' blame_step
  · exact says_raise ⟨.pairAdjustment, by decide, rfl, p, h, hv, by simp_all⟩⟩
instance {cfg : Cfg} : BlamesGiven (gpos.Type_.read (ignoring cfg))
    [.positioning, .constant, .singleAdjustment, .pairAdjustment, .anchor, .correction, .device, .context, .record, .classRecord, .chainedContext, .chainedRecord, .chainedClassRecord, .coverage, .class_] :=
  ⟨fun d b p n h hn => by
    unfold gpos.Type_.read
    split
    case h_10 => obtain ⟨q, hq, hn⟩ := hn; exact says_raise ⟨.positioning, by decide, rfl, q, hq, hn, by simp_all⟩
    all_goals repeat' blame_step⟩
instance {cfg : Cfg} : Blames (gpos.GlyphPositioning.read (ignoring cfg))
    [.directory, .constant, .positioning, .constant, .singleAdjustment, .pairAdjustment, .anchor, .correction, .device, .context, .record, .classRecord, .chainedContext, .chainedRecord, .chainedClassRecord, .coverage, .class_] := by
  unfold gpos.GlyphPositioning.read; infer_instance

end OpenType
