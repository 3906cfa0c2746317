import Verif.Proof.ForwardTables
import Verif.Props.Font
/-! # C63: nothing before a table is touched -/

namespace OpenType.Props
open OpenType

/-- On any content and from any position `p`, whether it succeeds or fails, the reader asks for no byte before
`p`. -/
def AsksForward {α : Type} (r : Reader α) : Prop :=
  ∀ (d : Data) (p q n : Nat), (q, n) ∈ r.fetches d p → p ≤ q

/-- The same with respect to a position the reader is given, from which the offsets count. -/
def AsksForwardFrom {α : Type} (r : Nat → Reader α) : Prop :=
  ∀ (d : Data) (base p q n : Nat), base ≤ p → (q, n) ∈ (r base).fetches d p → base ≤ q

theorem stays_fetches {α : Type} {r : Reader α} {b p : Nat} {Q : α → Prop} (h : Stays b Q r) (hp : b ≤ p)
    (d : Data) : ∀ q n, (q, n) ∈ r.fetches d p → b ≤ q := by
  induction r generalizing p with
  | done a => simp [Reader.fetches]
  | fail e => simp [Reader.fetches]
  | tell next ih => exact ih _ (h _ fun _ h => by cases h; exact hp) hp
  | seek q next ih => exact ih _ (h.2 _) h.1
  | fetch n next ih =>
    intro q m hm
    rcases List.mem_cons.mp hm with hm | hm
    · cases hm; exact hp
    · exact ih _ (h _) (by omega) q m hm

theorem asksForward {α : Type} {r : Reader α} [h : Forward r] : AsksForward r :=
  fun d p => stays_fetches (h.stays p) (Nat.le_refl p) d

theorem asksForwardFrom {α : Type} {r : Nat → Reader α} (h : ∀ base, ForwardFrom base (r base)) :
    AsksForwardFrom r :=
  fun d base _ q n hp => stays_fetches ((h base).stays (Nat.le_refl base)) hp d q n

/-- Every reader of a table or of a part of one asks for nothing before the place it starts at. -/
theorem C63_forward (cfg : Cfg) (n m : Nat) (accept : Tag → Bool) :
    AsksForward (coverage.Coverage.read) ∧
    AsksForward (class_.Class.read) ∧
    AsksForward (correction.Correction.read) ∧
    AsksForward (correction.Device.read) ∧
    AsksForward (correction.Variation.read) ∧
    AsksForward (context.Action.read) ∧
    AsksForward (context.Record.read) ∧
    AsksForward (context.Records.read) ∧
    AsksForward (context.ClassRecord.read) ∧
    AsksForward (context.ClassRecords.read) ∧
    AsksForward (context.ChainedRecord.read) ∧
    AsksForward (context.ChainedRecords.read) ∧
    AsksForward (context.ChainedClassRecord.read) ∧
    AsksForward (context.ChainedClassRecords.read) ∧
    AsksForward (context.Context.read) ∧
    AsksForward (context.ChainedContext.read) ∧
    AsksForward (language.Record.read) ∧
    AsksForward (script.Record.read) ∧
    AsksForward (script.Scripts.read) ∧
    AsksForward (feature.Record.read) ∧
    AsksForward (feature.Features.read) ∧
    AsksForward (feature.Variations.read) ∧
    AsksForward (lookup.Record.read cfg gsub.Type_.read) ∧
    AsksForward (lookup.Record.read cfg (gpos.Type_.read cfg)) ∧
    AsksForward (lookup.Lookups.read cfg gsub.Type_.read) ∧
    AsksForward (lookup.Lookups.read cfg (gpos.Type_.read cfg)) ∧
    AsksForward (gsub.Alternates.read) ∧
    AsksForward (gsub.Ligature.read) ∧
    AsksForward (gsub.Ligatures.read) ∧
    AsksForward (gsub.Sequence.read) ∧
    AsksForward (gsub.SingleSubstitution.read) ∧
    AsksForward (gsub.MultipleSubstitution.read) ∧
    AsksForward (gsub.AlternateSubstitution.read) ∧
    AsksForward (gsub.LigatureSubstitution.read) ∧
    AsksForward (gsub.ExtensionSubstitution.read) ∧
    AsksForward (gsub.ReverseChainedContextualSubstibution.read) ∧
    AsksForward (gsub.Type_.read n) ∧
    AsksForward (gsub.GlyphSubstitution.read cfg) ∧
    AsksForward (gpos.Anchor.read) ∧
    AsksForward (gpos.Pair1s.read n m) ∧
    AsksForward (gpos.Bases.read n) ∧
    AsksForward (gpos.Ligature.read n) ∧
    AsksForward (gpos.Ligatures.read n) ∧
    AsksForward (gpos.Mark1s.read cfg) ∧
    AsksForward (gpos.Mark2s.read n) ∧
    AsksForward (gpos.SingleAdjustment.read cfg) ∧
    AsksForward (gpos.PairAdjustment.read cfg) ∧
    AsksForward (gpos.CursiveAttachment.read) ∧
    AsksForward (gpos.MarkToBaseAttachment.read cfg) ∧
    AsksForward (gpos.MarkToLigatureAttachment.read cfg) ∧
    AsksForward (gpos.MarkToMarkAttachment.read cfg) ∧
    AsksForward (gpos.ExtensionPositioning.read) ∧
    AsksForward (gpos.Type_.read cfg n) ∧
    AsksForward (gpos.GlyphPositioning.read cfg) ∧
    AsksForward (gdef.Attachment.read) ∧
    AsksForward (gdef.Attachments.read) ∧
    AsksForward (gdef.Caret.read) ∧
    AsksForward (gdef.Ligature.read) ∧
    AsksForward (gdef.Ligatures.read) ∧
    AsksForward (gdef.Marks.read) ∧
    AsksForward (cpal.Color.read) ∧
    AsksForward (cpal.ColorPalettes.read) ∧
    AsksForward (fvar.AxisRecord.read cfg) ∧
    AsksForward (fvar.InstanceRecord.read cfg n) ∧
    AsksForward (fvar.FontVariations.read cfg) ∧
    AsksForward (item.Record.read cfg) ∧
    AsksForward (item.Store.read cfg) ∧
    AsksForward (gdef.GlyphDefinition.read cfg) ∧
    AsksForward (Font.read accept) ∧
    AsksForward (File.read accept) := by
  refine ⟨?_, ?_, ?_, ?_, ?_, ?_, ?_, ?_, ?_, ?_, ?_, ?_, ?_, ?_, ?_, ?_, ?_, ?_, ?_, ?_, ?_, ?_, ?_, ?_, ?_, ?_, ?_, ?_,
    ?_, ?_, ?_, ?_, ?_, ?_, ?_, ?_, ?_, ?_, ?_, ?_, ?_, ?_, ?_, ?_, ?_, ?_, ?_, ?_, ?_, ?_, ?_, ?_, ?_, ?_, ?_,
    ?_, ?_, ?_, ?_, ?_, ?_, ?_, ?_, ?_, ?_, ?_, ?_, ?_, ?_, ?_⟩
  all_goals exact asksForward

/-- Nor do the readers that are given a position ask for anything before that. -/
theorem C63_forward_from (cfg : Cfg) (n m c : Nat) :
    AsksForwardFrom (fun b => gpos.Single.read b n) ∧
    AsksForwardFrom (fun b => gpos.Pair1.read b n m) ∧
    AsksForwardFrom (fun b => gpos.Pair2.read b n m) ∧
    AsksForwardFrom (fun b => gpos.Pair2s.read b c n m) ∧
    AsksForwardFrom (fun b => gpos.Base.read b n) ∧
    AsksForwardFrom (fun b => gpos.Component.read b n) ∧
    AsksForwardFrom (fun b => gpos.Connection.read b) ∧
    AsksForwardFrom (fun b => gpos.Mark1.read cfg b) ∧
    AsksForwardFrom (fun b => gpos.Mark2.read b n) := by
  refine ⟨?_, ?_, ?_, ?_, ?_, ?_, ?_, ?_, ?_⟩
  all_goals exact asksForwardFrom fun _ => inferInstance

theorem fetches_bind {α β : Type} {r : Reader α} {f : α → Reader β} {d : Data} {p : Nat} :
    (r >>= f).fetches d p = r.fetches d p ++ (match r d p with
      | .ok (a, q) => (f a).fetches d q
      | .error _ => []) := by
  show (Reader.bind r f).fetches d p = _
  induction r generalizing p with
  | done a => rfl
  | fail e => rfl
  | tell next ih => exact ih _
  | seek q next ih => exact ih _
  | fetch n next ih => exact congrArg _ (ih _)

/-- Taking a table asks for nothing before the place the directory gives for it, wherever the tape stood, whether
checksums are computed or not and whatever the outcome; and for nothing at all if there is no such table. -/
theorem C63_take {α : Type} (cfg : Cfg) (font : Font) (table : TableType) (r : Reader α) (hr : AsksForward r)
    (d : Data) (p q n : Nat) (h : (q, n) ∈ (font.take cfg tableChecksum table r).fetches d p) :
    ∃ record, font.offsets.records.find? (·.tag = table.tag) = some record ∧ record.offset ≤ q := by
  have checksum : ∀ record, ∀ x ∈ (tableChecksum record).fetches d p, record.offset ≤ x.1 := by
    intro record x hx
    unfold tableChecksum stay at hx
    rw [fetches_bind] at hx
    change x ∈ Reader.fetches _ d p at hx
    rw [fetches_bind, List.mem_append] at hx
    rcases hx with hx | hx
    · change x ∈ (sumWords _ 0 _).fetches d record.offset at hx
      exact stays_fetches (Forward.stays record.offset) (Nat.le_refl _) d x.1 x.2 hx
    · split at hx
      · rw [fetches_bind] at hx
        cases hx
      · cases hx
  have position : ∀ records,
      (∀ x ∈ (Font.positionIn cfg tableChecksum table.tag records).fetches d p,
        ∃ record, records.find? (·.tag = table.tag) = some record ∧ record.offset ≤ x.1) ∧
      (∀ u q, Font.positionIn cfg tableChecksum table.tag records d p = .ok (some u, q) →
        ∃ record, records.find? (·.tag = table.tag) = some record ∧ record.offset = q) := by
    intro records
    induction records with
    | nil =>
      constructor
      · intro x hx
        cases hx
      · intro u q hq
        cases hq
    | cons record records ih =>
      unfold Font.positionIn
      by_cases ht : record.tag = table.tag
      · simp only [if_pos ht]
        have hf : (record :: records).find? (·.tag = table.tag) = some record := by simp [ht]
        cases hc : cfg.ignoreInvalidChecksums with
        | true =>
          refine ⟨fun x hx => ?_, fun u q hq => ⟨record, hf, ?_⟩⟩
          · exact nomatch hx
          · cases hq
            rfl
        | false =>
          refine ⟨fun x hx => ⟨record, hf, ?_⟩, fun u q hq => ⟨record, hf, ?_⟩⟩
          · simp only [reduceIte] at hx
            rw [fetches_bind, List.mem_append] at hx
            rcases hx with hx | hx
            · exact checksum record x hx
            · split at hx
              · unfold raiseIf at hx
                split at hx <;> exact nomatch hx
              · exact nomatch hx
          · simp only [reduceIte, run_bind_eq] at hq
            split at hq
            · unfold raiseIf at hq
              split at hq
              · next h1 =>
                split at h1
                · cases h1
                · cases h1
                  cases hq
                  rfl
              · cases hq
            · cases hq
      · simp only [if_neg ht]
        have hf : (record :: records).find? (·.tag = table.tag) = records.find? (·.tag = table.tag) := by simp [ht]
        rw [hf]
        exact ih
  unfold Font.take Font.position at h
  rw [fetches_bind, List.mem_append] at h
  rcases h with h | h
  · exact (position _).1 _ h
  · split at h
    · next a q' e =>
      cases a with
      | none => exact nomatch h
      | some u =>
        obtain ⟨record, h1, h2⟩ := (position _).2 _ _ e
        subst h2
        refine ⟨record, h1, ?_⟩
        dsimp only at h
        rw [fetches_bind, List.mem_append] at h
        rcases h with h | h
        · exact hr _ _ _ _ h
        · split at h <;> exact nomatch h
    · exact nomatch h

/-- Taking the palettes of the sample font, which are at 60, computes the checksum of two words and reads one. -/
example :
    (sampleDirectory.take defaultCfg tableChecksum .colorPalettes u32).fetches sampleFont 3 =
      [(60, 4), (64, 4), (60, 4)] ∧ AsksForward u32 := ⟨by decide +kernel, asksForward⟩

/-- What is asked for when a coverage table at 1 is read: the format twice, the count and the glyph; and when it has
a glyph less than it says, the same. -/
example :
    coverage.Coverage.read.fetches (bytes [9, 0, 1, 0, 1, 0, 7]) 1 = [(1, 2), (1, 2), (3, 2), (5, 2)] ∧
    coverage.Coverage.read.fetches (bytes [9, 0, 1, 0, 1, 0]) 1 = [(1, 2), (1, 2), (3, 2), (5, 2)] := by
  decide +kernel

end OpenType.Props
