import Verif.Props.Forward
import Verif.Props.Device
/-! # C67: the end of the data is reported exactly when a byte that was asked for does not exist -/

namespace OpenType.Props
open OpenType

/-- On any content and from any position, the reader reports the end of the data exactly when it asks for a stretch
that reaches beyond the last byte. -/
def MissesExactly {α : Type} (r : Reader α) : Prop :=
  ∀ (d : Data) (p : Nat), r d p = .error .eof ↔ ∃ q n, (q, n) ∈ r.fetches d p ∧ 0 < n ∧ d.length < q + n

theorem slice_cases (d : Data) (p n : Nat) :
    (Reader.slice d p n = .error .eof ∧ 0 < n ∧ d.length < p + n) ∨
      ((∃ b, Reader.slice d p n = .ok b) ∧ ¬(0 < n ∧ d.length < p + n)) := by
  unfold Reader.slice
  split
  · next h => exact .inr ⟨⟨_, rfl⟩, by omega⟩
  · next h => exact .inl ⟨rfl, by omega⟩

theorem stops_misses {α : Type} {r : Reader α} (h : r.Stops) : MissesExactly r := by
  intro d p
  induction r generalizing p with
  | done a => simp [Reader.fetches, Reader.run]
  | fail e =>
    have : e ≠ .eof := h
    simp [Reader.fetches, Reader.run, this]
  | tell next ih => exact ih _ (h.2 p) p
  | seek q next ih => exact ih _ (h.2 ()) q
  | fetch n next ih =>
    show (next (Reader.slice d p n)).run d (p + n) = .error .eof ↔
      ∃ q m, (q, m) ∈ (p, n) :: (next (Reader.slice d p n)).fetches d (p + n) ∧ _
    rcases slice_cases d p n with ⟨e, hn⟩ | ⟨⟨b, e⟩, hn⟩
    · rw [e, h.1]
      exact ⟨fun _ => ⟨p, n, by simp, hn⟩, fun _ => rfl⟩
    · rw [e, ih _ (h.2 b)]
      constructor
      · rintro ⟨q, m, hm, hq⟩
        exact ⟨q, m, List.mem_cons_of_mem _ hm, hq⟩
      · rintro ⟨q, m, hm, hq⟩
        rcases List.mem_cons.mp hm with hm | hm
        · cases hm; exact absurd hq hn
        · exact ⟨q, m, hm, hq⟩

theorem missesExactly {α : Type} {r : Reader α} [h : Stops r] : MissesExactly r := stops_misses h.stops

/-- Every reader reports the end of the data exactly when a byte it asks for does not exist. -/
theorem C67_misses (cfg : Cfg) (n m b c : Nat) (accept : Tag → Bool) (record : offsets.Record) :
    MissesExactly (coverage.Coverage.read) ∧
    MissesExactly (class_.Class.read) ∧
    MissesExactly (correction.Correction.read) ∧
    MissesExactly (correction.Device.read) ∧
    MissesExactly (correction.Variation.read) ∧
    MissesExactly (context.Action.read) ∧
    MissesExactly (context.Record.read) ∧
    MissesExactly (context.Records.read) ∧
    MissesExactly (context.ClassRecord.read) ∧
    MissesExactly (context.ClassRecords.read) ∧
    MissesExactly (context.ChainedRecord.read) ∧
    MissesExactly (context.ChainedRecords.read) ∧
    MissesExactly (context.ChainedClassRecord.read) ∧
    MissesExactly (context.ChainedClassRecords.read) ∧
    MissesExactly (context.Context.read) ∧
    MissesExactly (context.ChainedContext.read) ∧
    MissesExactly (language.Record.read) ∧
    MissesExactly (script.Record.read) ∧
    MissesExactly (script.Scripts.read) ∧
    MissesExactly (feature.Record.read) ∧
    MissesExactly (feature.Features.read) ∧
    MissesExactly (feature.Variations.read) ∧
    MissesExactly (lookup.Record.read cfg gsub.Type_.read) ∧
    MissesExactly (lookup.Record.read cfg (gpos.Type_.read cfg)) ∧
    MissesExactly (lookup.Lookups.read cfg gsub.Type_.read) ∧
    MissesExactly (lookup.Lookups.read cfg (gpos.Type_.read cfg)) ∧
    MissesExactly (gsub.Alternates.read) ∧
    MissesExactly (gsub.Ligature.read) ∧
    MissesExactly (gsub.Ligatures.read) ∧
    MissesExactly (gsub.Sequence.read) ∧
    MissesExactly (gsub.SingleSubstitution.read) ∧
    MissesExactly (gsub.MultipleSubstitution.read) ∧
    MissesExactly (gsub.AlternateSubstitution.read) ∧
    MissesExactly (gsub.LigatureSubstitution.read) ∧
    MissesExactly (gsub.ExtensionSubstitution.read) ∧
    MissesExactly (gsub.ReverseChainedContextualSubstibution.read) ∧
    MissesExactly (gsub.Type_.read n) ∧
    MissesExactly (gsub.GlyphSubstitution.read cfg) ∧
    MissesExactly (gpos.Anchor.read) ∧
    MissesExactly (gpos.Pair1s.read n m) ∧
    MissesExactly (gpos.Bases.read n) ∧
    MissesExactly (gpos.Ligature.read n) ∧
    MissesExactly (gpos.Ligatures.read n) ∧
    MissesExactly (gpos.Mark1s.read cfg) ∧
    MissesExactly (gpos.Mark2s.read n) ∧
    MissesExactly (gpos.SingleAdjustment.read cfg) ∧
    MissesExactly (gpos.PairAdjustment.read cfg) ∧
    MissesExactly (gpos.CursiveAttachment.read) ∧
    MissesExactly (gpos.MarkToBaseAttachment.read cfg) ∧
    MissesExactly (gpos.MarkToLigatureAttachment.read cfg) ∧
    MissesExactly (gpos.MarkToMarkAttachment.read cfg) ∧
    MissesExactly (gpos.ExtensionPositioning.read) ∧
    MissesExactly (gpos.Type_.read cfg n) ∧
    MissesExactly (gpos.GlyphPositioning.read cfg) ∧
    MissesExactly (gdef.Attachment.read) ∧
    MissesExactly (gdef.Attachments.read) ∧
    MissesExactly (gdef.Caret.read) ∧
    MissesExactly (gdef.Ligature.read) ∧
    MissesExactly (gdef.Ligatures.read) ∧
    MissesExactly (gdef.Marks.read) ∧
    MissesExactly (cpal.Color.read) ∧
    MissesExactly (cpal.ColorPalettes.read) ∧
    MissesExactly (fvar.AxisRecord.read cfg) ∧
    MissesExactly (fvar.InstanceRecord.read cfg n) ∧
    MissesExactly (fvar.FontVariations.read cfg) ∧
    MissesExactly (item.Record.read cfg) ∧
    MissesExactly (item.Store.read cfg) ∧
    MissesExactly (gdef.GlyphDefinition.read cfg) ∧
    MissesExactly (gpos.Single.read b n) ∧
    MissesExactly (gpos.Pair1.read b n m) ∧
    MissesExactly (gpos.Pair2.read b n m) ∧
    MissesExactly (gpos.Pair2s.read b c n m) ∧
    MissesExactly (gpos.Base.read b n) ∧
    MissesExactly (gpos.Component.read b n) ∧
    MissesExactly (gpos.Connection.read b) ∧
    MissesExactly (gpos.Mark1.read cfg b) ∧
    MissesExactly (gpos.Mark2.read b n) ∧
    MissesExactly (File.read accept) ∧
    MissesExactly (Font.read accept) ∧
    MissesExactly (tableChecksum record) := by
  refine ⟨?_, ?_, ?_, ?_, ?_, ?_, ?_, ?_, ?_, ?_, ?_, ?_, ?_, ?_, ?_, ?_, ?_, ?_, ?_, ?_, ?_, ?_, ?_, ?_, ?_, ?_, ?_, ?_, ?_, ?_, ?_, ?_, ?_, ?_, ?_, ?_, ?_, ?_, ?_, ?_, ?_, ?_, ?_, ?_, ?_, ?_, ?_, ?_, ?_, ?_, ?_, ?_, ?_, ?_, ?_, ?_, ?_, ?_, ?_, ?_, ?_, ?_, ?_, ?_, ?_, ?_, ?_, ?_, ?_, ?_, ?_, ?_, ?_, ?_, ?_, ?_, ?_, ?_, ?_, ?_⟩
  all_goals exact missesExactly

theorem MissesExactly.bind {α β : Type} {r : Reader α} {f : α → Reader β} (h : MissesExactly r)
    (hf : ∀ a, MissesExactly (f a)) : MissesExactly (r >>= f) := by
  intro d p
  rw [run_bind_eq, fetches_bind]
  have hr := h d p
  cases e : r d p with
  | error x =>
    dsimp only
    rw [e] at hr
    rw [List.append_nil, ← hr]
    simp
  | ok x =>
    obtain ⟨a, q⟩ := x
    dsimp only
    rw [hf a d q]
    rw [e] at hr
    constructor
    · rintro ⟨q', n, hm, hq⟩
      exact ⟨q', n, List.mem_append_right _ hm, hq⟩
    · rintro ⟨q', n, hm, hq⟩
      rcases List.mem_append.mp hm with hm | hm
      · cases hr.mpr ⟨q', n, hm, hq⟩
      · exact ⟨q', n, hm, hq⟩

/-- Taking a table from a font does, whatever computes the checksums and whatever reads the table, if those do. -/
theorem C67_take {α : Type} (cfg : Cfg) (checksum : offsets.Record → Reader Nat) (font : Font) (table : TableType)
    (r : Reader α) (hc : ∀ record, MissesExactly (checksum record)) (hr : MissesExactly r) :
    MissesExactly (font.take cfg checksum table r) := by
  have found : ∀ records, MissesExactly (Font.positionIn cfg checksum table.tag records) := by
    intro records
    induction records with
    | nil => unfold Font.positionIn; exact missesExactly
    | cons record records ih =>
      unfold Font.positionIn
      dsimp only
      split
      · split
        · exact (hc record).bind fun _ => missesExactly
        · exact missesExactly
      · exact ih
  unfold Font.take
  refine (found font.offsets.records).bind fun x => ?_
  cases x with
  | none => exact missesExactly
  | some _ => exact hr.bind fun _ => missesExactly

/-- A coverage table of two glyphs, complete and cut: the last two bytes asked for are those at 6. -/
example :
    let d := bytes [0, 1,  0, 2,  0, 7,  0, 9]
    coverage.Coverage.read.fetches d 0 = coverage.Coverage.read.fetches (d.take 7) 0 ∧
      (6, 2) ∈ coverage.Coverage.read.fetches (d.take 7) 0 ∧ (d.take 7).length < 6 + 2 ∧
      coverage.Coverage.read (d.take 7) 0 = .error .eof ∧
      ∃ t, coverage.Coverage.read d 0 = .ok (t, 8) := by
  refine ⟨by decide +kernel, by decide +kernel, by decide +kernel, by decide +kernel, _, rfl⟩

/-- A coverage table of an unknown format is malformed and not incomplete, though nothing follows the format. -/
example : coverage.Coverage.read (bytes [0, 3]) 0 ≠ .error .eof ∧
    coverage.Coverage.read.fetches (bytes [0, 3]) 0 = [(0, 2)] := by
  decide +kernel

end OpenType.Props
