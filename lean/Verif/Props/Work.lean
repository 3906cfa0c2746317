import Verif.Proof.WorkTables
import Verif.Props.Font
/-! # C64: the work is proportional to the result -/

namespace OpenType.Props
open OpenType Spec

/-- Whenever the reader succeeds, the operations it performed on the tape are at most three for each number, vector,
option and variant (`Spec/Work.lean`) in the value it gives. -/
def WorkInProportion {α : Type} [Measured α] (r : Reader α) : Prop :=
  ∀ (d : Data) (p : Nat) (v : α) (q : Nat), r d p = .ok (v, q) → r.operations d p ≤ 3 * content v

theorem workInProportion {α : Type} [Measured α] {r : Reader α} [h : Cheap r] : WorkInProportion r := by
  intro d p v q e
  have := h.spends d p v q e
  dsimp only at this
  omega

/-- Every reader works in proportion to its result. -/
theorem C64_work (cfg : Cfg) (n m b c : Nat) (accept : Tag → Bool) :
    WorkInProportion (coverage.Coverage.read) ∧
    WorkInProportion (class_.Class.read) ∧
    WorkInProportion (correction.Correction.read) ∧
    WorkInProportion (correction.Device.read) ∧
    WorkInProportion (correction.Variation.read) ∧
    WorkInProportion (context.Action.read) ∧
    WorkInProportion (context.Record.read) ∧
    WorkInProportion (context.Records.read) ∧
    WorkInProportion (context.ClassRecord.read) ∧
    WorkInProportion (context.ClassRecords.read) ∧
    WorkInProportion (context.ChainedRecord.read) ∧
    WorkInProportion (context.ChainedRecords.read) ∧
    WorkInProportion (context.ChainedClassRecord.read) ∧
    WorkInProportion (context.ChainedClassRecords.read) ∧
    WorkInProportion (context.Context.read) ∧
    WorkInProportion (context.ChainedContext.read) ∧
    WorkInProportion (language.Record.read) ∧
    WorkInProportion (script.Record.read) ∧
    WorkInProportion (script.Scripts.read) ∧
    WorkInProportion (feature.Record.read) ∧
    WorkInProportion (feature.Features.read) ∧
    WorkInProportion (feature.Variations.read) ∧
    WorkInProportion (lookup.Record.read cfg gsub.Type_.read) ∧
    WorkInProportion (lookup.Record.read cfg (gpos.Type_.read cfg)) ∧
    WorkInProportion (lookup.Lookups.read cfg gsub.Type_.read) ∧
    WorkInProportion (lookup.Lookups.read cfg (gpos.Type_.read cfg)) ∧
    WorkInProportion (gsub.Alternates.read) ∧
    WorkInProportion (gsub.Ligature.read) ∧
    WorkInProportion (gsub.Ligatures.read) ∧
    WorkInProportion (gsub.Sequence.read) ∧
    WorkInProportion (gsub.SingleSubstitution.read) ∧
    WorkInProportion (gsub.MultipleSubstitution.read) ∧
    WorkInProportion (gsub.AlternateSubstitution.read) ∧
    WorkInProportion (gsub.LigatureSubstitution.read) ∧
    WorkInProportion (gsub.ExtensionSubstitution.read) ∧
    WorkInProportion (gsub.ReverseChainedContextualSubstibution.read) ∧
    WorkInProportion (gsub.Type_.read n) ∧
    WorkInProportion (gsub.GlyphSubstitution.read cfg) ∧
    WorkInProportion (gpos.Anchor.read) ∧
    WorkInProportion (gpos.Pair1s.read n m) ∧
    WorkInProportion (gpos.Bases.read n) ∧
    WorkInProportion (gpos.Ligature.read n) ∧
    WorkInProportion (gpos.Ligatures.read n) ∧
    WorkInProportion (gpos.Mark1s.read cfg) ∧
    WorkInProportion (gpos.Mark2s.read n) ∧
    WorkInProportion (gpos.SingleAdjustment.read cfg) ∧
    WorkInProportion (gpos.PairAdjustment.read cfg) ∧
    WorkInProportion (gpos.CursiveAttachment.read) ∧
    WorkInProportion (gpos.MarkToBaseAttachment.read cfg) ∧
    WorkInProportion (gpos.MarkToLigatureAttachment.read cfg) ∧
    WorkInProportion (gpos.MarkToMarkAttachment.read cfg) ∧
    WorkInProportion (gpos.ExtensionPositioning.read) ∧
    WorkInProportion (gpos.Type_.read cfg n) ∧
    WorkInProportion (gpos.GlyphPositioning.read cfg) ∧
    WorkInProportion (gdef.Attachment.read) ∧
    WorkInProportion (gdef.Attachments.read) ∧
    WorkInProportion (gdef.Caret.read) ∧
    WorkInProportion (gdef.Ligature.read) ∧
    WorkInProportion (gdef.Ligatures.read) ∧
    WorkInProportion (gdef.Marks.read) ∧
    WorkInProportion (cpal.Color.read) ∧
    WorkInProportion (cpal.ColorPalettes.read) ∧
    WorkInProportion (fvar.AxisRecord.read cfg) ∧
    WorkInProportion (fvar.InstanceRecord.read cfg n) ∧
    WorkInProportion (fvar.FontVariations.read cfg) ∧
    WorkInProportion (item.Record.read cfg) ∧
    WorkInProportion (item.Store.read cfg) ∧
    WorkInProportion (gdef.GlyphDefinition.read cfg) ∧
    WorkInProportion (gpos.Single.read b n) ∧
    WorkInProportion (gpos.Pair1.read b n m) ∧
    WorkInProportion (gpos.Pair2.read b n m) ∧
    WorkInProportion (gpos.Pair2s.read b c n m) ∧
    WorkInProportion (gpos.Base.read b n) ∧
    WorkInProportion (gpos.Component.read b n) ∧
    WorkInProportion (gpos.Connection.read b) ∧
    WorkInProportion (gpos.Mark1.read cfg b) ∧
    WorkInProportion (gpos.Mark2.read b n) ∧
    WorkInProportion (File.read accept) ∧
    WorkInProportion (Font.read accept) := by
  refine ⟨?_, ?_, ?_, ?_, ?_, ?_, ?_, ?_, ?_, ?_, ?_, ?_, ?_, ?_, ?_, ?_, ?_, ?_, ?_, ?_, ?_, ?_, ?_, ?_, ?_, ?_,
    ?_, ?_, ?_, ?_, ?_, ?_, ?_, ?_, ?_, ?_, ?_, ?_, ?_, ?_, ?_, ?_, ?_, ?_, ?_, ?_, ?_, ?_, ?_, ?_, ?_, ?_, ?_,
    ?_, ?_, ?_, ?_, ?_, ?_, ?_, ?_, ?_, ?_, ?_, ?_, ?_, ?_, ?_, ?_, ?_, ?_, ?_, ?_, ?_, ?_, ?_, ?_, ?_, ?_⟩
  all_goals exact workInProportion

/-- Taking a table takes no more than that, one operation for each word of the table when its checksum is computed,
and four. -/
theorem C64_take {α : Type} [Measured α] (cfg : Cfg) (font : Font) (table : TableType) (r : Reader α)
    (hr : WorkInProportion r) (d : Data) (p : Nat) (v : α) (q : Nat)
    (h : font.take cfg tableChecksum table r d p = .ok (some v, q)) :
    ∃ record ∈ font.offsets.records, record.tag = table.tag ∧
      (font.take cfg tableChecksum table r).operations d p ≤
        3 * content v + (if cfg.ignoreInvalidChecksums then 0 else (record.size + 3) / 4) + 4 := by
  have key : ∀ records x q', Font.positionIn cfg tableChecksum table.tag records d p = .ok (some x, q') →
      ∃ record ∈ records, record.tag = table.tag ∧
        (Font.positionIn cfg tableChecksum table.tag records).operations d p ≤
          (if cfg.ignoreInvalidChecksums then 0 else (record.size + 3) / 4) + 4 := by
    intro records
    induction records with
    | nil => intro x q' h; cases h
    | cons record records ih =>
      intro x q' h
      unfold Font.positionIn at h ⊢
      by_cases ht : record.tag = table.tag
      · rw [if_pos ht] at h ⊢
        refine ⟨record, by simp, ht, ?_⟩
        cases hc : cfg.ignoreInvalidChecksums
        · have h1 := operations_checksum (record := record) d p
          have h2 : ∀ (c : Prop) [Decidable c] (m : Message) p, (raiseIf c m).operations d p = 0 :=
            fun c _ m => Free.free d
          simp only [reduceIte, operations_bind, h2]
          split
          · split
            · show _ + (0 + (1 + 0)) ≤ _
              simp only [Bool.false_eq_true, reduceIte]
              omega
            · simp only [Bool.false_eq_true, reduceIte]
              show _ + 0 ≤ _
              omega
          · simp only [Bool.false_eq_true, reduceIte]
            omega
        · simp only [reduceIte, Bool.true_eq_false]
          exact (by decide : 1 ≤ 4)
      · rw [if_neg ht] at h ⊢
        obtain ⟨record', h1, h2, h3⟩ := ih x q' h
        exact ⟨record', by simp [h1], h2, h3⟩
  unfold Font.take Font.position at h ⊢
  rw [run_bind_eq] at h
  rw [operations_bind]
  cases e : Font.positionIn cfg tableChecksum table.tag font.offsets.records d p with
  | error _ => rw [e] at h; cases h
  | ok x =>
    obtain ⟨y, q'⟩ := x
    rw [e] at h
    cases y with
    | none => cases h
    | some y =>
      obtain ⟨record, h1, h2, h3⟩ := key _ _ _ e
      refine ⟨record, h1, h2, ?_⟩
      dsimp only at h ⊢
      rw [run_bind_eq] at h
      rw [operations_bind]
      cases e' : r d q' with
      | error _ => rw [e'] at h; cases h
      | ok z =>
        obtain ⟨v', q''⟩ := z
        rw [e'] at h
        cases h
        have := hr d q' _ _ e'
        show _ + (_ + 0) ≤ _
        omega

/-- A coverage table with three glyphs: eight operations, for the variant, its two numbers, its vector and the three
glyphs. -/
example :
    let d := bytes [0, 1, 0, 3, 0, 7, 0, 8, 0, 9]
    Reads coverage.Coverage.read d 0 (.format1 ⟨1, 3, [7, 8, 9]⟩) ∧ coverage.Coverage.read.operations d 0 = 8 ∧
      content (coverage.Coverage.format1 ⟨1, 3, [7, 8, 9]⟩) = 7 := by decide +kernel

/-- Taking the first four bytes of a table of two words: seven operations. -/
example :
    sampleDirectory.take defaultCfg tableChecksum .colorPalettes u32 sampleFont 3 = .ok (some 1, 64) ∧
      (sampleDirectory.take defaultCfg tableChecksum .colorPalettes u32).operations sampleFont 3 = 7 ∧
      WorkInProportion u32 := ⟨rfl, rfl, workInProportion⟩

end OpenType.Props
