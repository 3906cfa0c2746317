import Verif.Proof.EffortFont
import Verif.Proof.Amplify
import Verif.Props.Font
/-! # C65, C66: how much work a file can cause -/

namespace OpenType.Props
open OpenType Spec

/-- Whatever the content of the tape and wherever the reader starts, and whether it succeeds or fails, it stops after
at most `c * (length + 1) ^ k` operations, where `length` is the number of bytes. -/
def WorkAtMost {α : Type} (c k : Nat) (r : Reader α) : Prop :=
  ∀ (d : Data) (p : Nat), r.operations d p ≤ c * (d.length + 1) ^ k

/-- The same for tables with rows that may be empty, of which a number of two bytes can ask for 65535. -/
def WorkAtMostWide {α : Type} (c k : Nat) (r : Reader α) : Prop :=
  ∀ (d : Data) (p : Nat), r.operations d p ≤ c * (d.length + 65536) ^ k

theorem workAtMost {α : Type} {c k : Nat} {r : Reader α} [h : Costs r 0 c k] : WorkAtMost c k r :=
  fun d p => h.effort (d := d) (Nat.lt_succ_self _) (Nat.zero_le _) p

theorem workAtMostWide {α : Type} {c k : Nat} {r : Reader α} [h : Costs r 65536 c k] : WorkAtMostWide c k r :=
  fun d p => h.effort (d := d) (by omega) (by omega) p

/-- Tables within tables: at most so many operations, whatever the bytes and whatever the outcome. -/
theorem C65_work (cfg : Cfg) (n m : Nat) :
    WorkAtMost 9 2 context.Records.read ∧
    WorkAtMost 9 2 context.ClassRecords.read ∧
    WorkAtMost 13 2 context.ChainedRecords.read ∧
    WorkAtMost 13 2 context.ChainedClassRecords.read ∧
    WorkAtMost 37 3 context.Context.read ∧
    WorkAtMost 61 3 context.ChainedContext.read ∧
    WorkAtMost 15 2 script.Record.read ∧
    WorkAtMost 20 3 script.Scripts.read ∧
    WorkAtMost 11 2 feature.Features.read ∧
    WorkAtMost 68 4 (lookup.Record.read cfg gsub.Type_.read) ∧
    WorkAtMost 72 5 (lookup.Lookups.read cfg gsub.Type_.read) ∧
    WorkAtMost 7 2 gsub.Ligatures.read ∧
    WorkAtMost 17 2 gsub.MultipleSubstitution.read ∧
    WorkAtMost 17 2 gsub.AlternateSubstitution.read ∧
    WorkAtMost 22 3 gsub.LigatureSubstitution.read ∧
    WorkAtMost 36 2 gsub.ReverseChainedContextualSubstibution.read ∧
    WorkAtMost 61 3 (gsub.Type_.read n) ∧
    WorkAtMost 117 5 (gsub.GlyphSubstitution.read cfg) ∧
    WorkAtMost 95 2 (gpos.Pair1s.read n m) ∧
    WorkAtMost 34 2 (gpos.Mark1s.read cfg) ∧
    WorkAtMost 73 2 gpos.CursiveAttachment.read ∧
    WorkAtMost 16 2 gdef.Attachments.read ∧
    WorkAtMost 20 2 gdef.Ligature.read ∧
    WorkAtMost 34 3 gdef.Ligatures.read ∧
    WorkAtMost 13 2 gdef.Marks.read ∧
    WorkAtMost 11 2 (item.Store.read cfg) ∧
    WorkAtMost 108 3 (gdef.GlyphDefinition.read cfg) := by
  refine ⟨?_, ?_, ?_, ?_, ?_, ?_, ?_, ?_, ?_, ?_, ?_, ?_, ?_, ?_, ?_, ?_, ?_, ?_, ?_, ?_, ?_, ?_, ?_, ?_, ?_,
    ?_, ?_⟩
  all_goals exact workAtMost

/-- The same for tables that contain rows that may be empty. -/
theorem C65_work_rows (cfg : Cfg) (n b : Nat) :
    WorkAtMostWide 142 4 (lookup.Record.read cfg (gpos.Type_.read cfg)) ∧
    WorkAtMostWide 146 5 (lookup.Lookups.read cfg (gpos.Type_.read cfg)) ∧
    WorkAtMostWide 50 2 (gpos.Bases.read n) ∧
    WorkAtMostWide 50 2 (gpos.Ligature.read n) ∧
    WorkAtMostWide 56 3 (gpos.Ligatures.read n) ∧
    WorkAtMostWide 50 2 (gpos.Mark2s.read n) ∧
    WorkAtMostWide 63 2 (gpos.SingleAdjustment.read cfg) ∧
    WorkAtMostWide 135 3 (gpos.PairAdjustment.read cfg) ∧
    WorkAtMostWide 111 2 (gpos.MarkToBaseAttachment.read cfg) ∧
    WorkAtMostWide 117 3 (gpos.MarkToLigatureAttachment.read cfg) ∧
    WorkAtMostWide 111 2 (gpos.MarkToMarkAttachment.read cfg) ∧
    WorkAtMostWide 135 3 (gpos.Type_.read cfg n) ∧
    WorkAtMostWide 191 5 (gpos.GlyphPositioning.read cfg) ∧
    WorkAtMostWide 21 2 (fvar.FontVariations.read cfg) ∧
    WorkAtMostWide 31 2 (gpos.Base.read b n) ∧
    WorkAtMostWide 31 2 (gpos.Component.read b n) ∧
    WorkAtMostWide 31 2 (gpos.Mark2.read b n) := by
  refine ⟨?_, ?_, ?_, ?_, ?_, ?_, ?_, ?_, ?_, ?_, ?_, ?_, ?_, ?_, ?_, ?_, ?_⟩
  all_goals exact workAtMostWide

/-- A row of pairs, of which there are as many as the caller says. -/
theorem C65_pairs (base count flags1 flags2 : Nat) (d : Data) (p : Nat) :
    (gpos.Pair2s.read base count flags1 flags2).operations d p ≤ 92 * (d.length + count + 1) ^ 2 :=
  effort_pair2s (by omega) (by omega) p

/-- Taking a table, the search and the checksum included, takes five operations for each byte more than reading it. -/
theorem C65_take {α : Type} (cfg : Cfg) (font : Font) (table : TableType) (r : Reader α) (c k : Nat) :
    (WorkAtMost c k r → WorkAtMost (c + 5) (max 1 k) (font.take cfg tableChecksum table r)) ∧
    (WorkAtMostWide c k r → WorkAtMostWide (c + 5) (max 1 k) (font.take cfg tableChecksum table r)) := by
  constructor
  · intro h
    have : Costs r 0 c k := ⟨fun {d} _ hB _ p =>
      Nat.le_trans (h d p) (Nat.mul_le_mul_left _ (Nat.pow_le_pow_left (by omega) _))⟩
    exact workAtMost
  · intro h d p
    have h1 : Effort d (d.length + 65536) c k r := h d
    have h2 : Effort d (d.length + 65536) (c + 5) (max 1 k) (font.take cfg tableChecksum table r) := by
      unfold Font.take Font.position
      refine effort_known (by omega) (Nat.zero_le _) (by omega) (by omega) fun x => ?_
      split
      · exact effort_bind h1 (by omega) (by omega) (by omega) fun _ _ _ _ => effort_pure
      · exact effort_pure
    exact h2 p

/-- Taking any of the tables of this crate. -/
theorem C65_tables (cfg : Cfg) (font : Font) (table : TableType) :
    WorkAtMost 122 5 (font.take cfg tableChecksum table (gsub.GlyphSubstitution.read cfg)) ∧
    WorkAtMostWide 196 5 (font.take cfg tableChecksum table (gpos.GlyphPositioning.read cfg)) ∧
    WorkAtMost 113 3 (font.take cfg tableChecksum table (gdef.GlyphDefinition.read cfg)) ∧
    WorkAtMost 20 1 (font.take cfg tableChecksum table cpal.ColorPalettes.read) ∧
    WorkAtMostWide 26 2 (font.take cfg tableChecksum table (fvar.FontVariations.read cfg)) :=
  ⟨(C65_take cfg font table _ 117 5).1 workAtMost, (C65_take cfg font table _ 191 5).2 workAtMostWide,
    (C65_take cfg font table _ 108 3).1 workAtMost, (C65_take cfg font table _ 15 1).1 workAtMost,
    (C65_take cfg font table _ 21 2).2 workAtMostWide⟩

theorem workAtMost_flat {α : Type} {c : Nat} {r : Reader α} (h : WorkAtMost c 0 r) : WorkAtMost c 1 r :=
  fun d p => Nat.le_trans (h d p) (Nat.mul_le_mul_left _ (Nat.pow_le_pow_right (by omega) (by decide)))

/-- Part of C66. These readers perform at most the given number of operations for each byte of the file. The part
that is missing is false: see `C66_violated`. -/
theorem C66_linear_partial (cfg : Cfg) (n m b : Nat) (accept : Tag → Bool) (font : Font) (table : TableType)
    (record : offsets.Record) :
    WorkAtMost 8 1 coverage.Coverage.read ∧
    WorkAtMost 8 1 class_.Class.read ∧
    WorkAtMost 8 1 correction.Correction.read ∧
    WorkAtMost 4 1 correction.Device.read ∧
    WorkAtMost 3 1 correction.Variation.read ∧
    WorkAtMost 2 1 context.Action.read ∧
    WorkAtMost 5 1 context.Record.read ∧
    WorkAtMost 5 1 context.ClassRecord.read ∧
    WorkAtMost 9 1 context.ChainedRecord.read ∧
    WorkAtMost 9 1 context.ChainedClassRecord.read ∧
    WorkAtMost 4 1 language.Record.read ∧
    WorkAtMost 6 1 feature.Record.read ∧
    WorkAtMost 3 1 feature.Variations.read ∧
    WorkAtMost 2 1 gsub.Alternates.read ∧
    WorkAtMost 3 1 gsub.Ligature.read ∧
    WorkAtMost 2 1 gsub.Sequence.read ∧
    WorkAtMost 17 1 gsub.SingleSubstitution.read ∧
    WorkAtMost 3 1 gsub.ExtensionSubstitution.read ∧
    WorkAtMost 27 1 gpos.Anchor.read ∧
    WorkAtMost 3 1 gpos.ExtensionPositioning.read ∧
    WorkAtMost 2 1 gdef.Attachment.read ∧
    WorkAtMost 16 1 gdef.Caret.read ∧
    WorkAtMost 4 1 cpal.Color.read ∧
    WorkAtMost 15 1 cpal.ColorPalettes.read ∧
    WorkAtMost 6 1 (fvar.AxisRecord.read cfg) ∧
    WorkAtMost 4 1 (fvar.InstanceRecord.read cfg n) ∧
    WorkAtMost 5 1 (item.Record.read cfg) ∧
    WorkAtMost 46 1 (gpos.Single.read b n) ∧
    WorkAtMost 93 1 (gpos.Pair1.read b n m) ∧
    WorkAtMost 92 1 (gpos.Pair2.read b n m) ∧
    WorkAtMost 60 1 (gpos.Connection.read b) ∧
    WorkAtMost 32 1 (gpos.Mark1.read cfg b) ∧
    WorkAtMost 12 1 (File.read accept) ∧
    WorkAtMost 9 1 (Font.read accept) ∧
    WorkAtMost 4 1 (tableChecksum record) ∧
    WorkAtMost 20 1 (font.take cfg tableChecksum table cpal.ColorPalettes.read) := by
  refine ⟨?_, ?_, ?_, ?_, ?_, ?_, ?_, ?_, ?_, ?_, ?_, ?_, ?_, ?_, ?_, ?_, ?_, ?_, ?_, ?_, ?_, ?_, ?_, ?_, ?_,
    ?_, ?_, ?_, ?_, ?_, ?_, ?_, ?_, ?_, ?_, ?_⟩
  all_goals first | exact workAtMost | exact workAtMost_flat workAtMost

/-- Reading succeeds with at least `m` operations. -/
def WorkAtLeast {α : Type} (m : Nat) (r : Reader α) (d : Data) : Prop :=
  (∃ v q, r d 0 = .ok (v, q)) ∧ m ≤ r.operations d 0

theorem workAtLeast {α : Type} {m : Nat} {r : Reader α} {d : Data} (h : Runs r d 0 m) : WorkAtLeast m r d := by
  obtain ⟨v, q, h1, h2⟩ := h
  exact ⟨⟨v, q, h1⟩, h2⟩

/-- Tables that refer to the same bytes again and again (`nested`, `nestedCarets`, `nestedInstances`) are accepted,
however the crate is built. A file of `36 + 10 * n` bytes makes reading GSUB take at least `n ^ 5` operations, and so
does one for GPOS; a file of `36 + 6 * n` bytes makes reading GDEF take at least `n ^ 3`; and a file of `36 + 4 * n`
bytes makes reading the variations take at least `n ^ 2`. The powers are those of C65. -/
theorem C66_nested (cfg : Cfg) (n : Nat) (h : 0 < n) (hn : n ≤ 32000) :
    (∃ d : Data, d.length = 36 + 10 * n ∧ WorkAtLeast (n ^ 5) (gsub.GlyphSubstitution.read cfg) d) ∧
    (∃ d : Data, d.length = 36 + 10 * n ∧ WorkAtLeast (n ^ 5) (gpos.GlyphPositioning.read cfg) d) ∧
    (∃ d : Data, d.length = 36 + 6 * n ∧ WorkAtLeast (n ^ 3) (gdef.GlyphDefinition.read cfg) d) ∧
    (∃ d : Data, d.length = 36 + 4 * n ∧ WorkAtLeast (n ^ 2) (fvar.FontVariations.read cfg) d) := by
  have hw : ∀ t a b, t < 65536 → a < 65536 → b < 65536 → ∀ w ∈ nested t a b n, w < 65536 := by
    intro t a b ht ha hb w hw
    simp only [nested, List.mem_append, List.mem_cons, List.mem_replicate, List.not_mem_nil, or_false] at hw
    omega
  have hc : ∀ w ∈ nestedCarets n, w < 65536 := by
    intro w hw
    simp only [nestedCarets, List.mem_append, List.mem_cons, List.mem_replicate, List.not_mem_nil, or_false] at hw
    omega
  have hi : ∀ w ∈ nestedInstances n, w < 65536 := by
    intro w hw
    simp only [nestedInstances, List.mem_append, List.mem_cons, List.mem_replicate, List.not_mem_nil, or_false] at hw
    omega
  refine ⟨⟨(nested 4 7 (n + 1) n).flatMap word, ?_, ?_⟩, ⟨(nested 7 (n + 1) 0 n).flatMap word, ?_, ?_⟩,
    ⟨(nestedCarets n).flatMap word, ?_, ?_⟩, ⟨(nestedInstances n).flatMap word, ?_, ?_⟩⟩
  · rw [length_words, length_nested]; omega
  · have := does_nested (cfg := cfg) (readTable := gsub.Type_.read) (m := n * (n * n)) h (by omega)
      (fun p hp hq => does_substitution hp h hq) (wordsAt_words (hw 4 7 (n + 1) (by omega) (by omega) (by omega)))
    rw [show n ^ 5 = n * (n * (n * (n * n))) by simp only [Nat.pow_succ, Nat.pow_zero, Nat.one_mul, Nat.mul_assoc]]
    exact workAtLeast this
  · rw [length_words, length_nested]; omega
  · have := does_nested (cfg := cfg) (readTable := gpos.Type_.read cfg) (m := n * (n * n)) h (by omega)
      (fun p hp hq => does_positioning hp h hq) (wordsAt_words (hw 7 (n + 1) 0 (by omega) (by omega) (by omega)))
    rw [show n ^ 5 = n * (n * (n * (n * n))) by simp only [Nat.pow_succ, Nat.pow_zero, Nat.one_mul, Nat.mul_assoc]]
    exact workAtLeast this
  · rw [length_words, length_nestedCarets]; omega
  · rw [show n ^ 3 = n * (n * n) by simp only [Nat.pow_succ, Nat.pow_zero, Nat.one_mul, Nat.mul_assoc]]
    exact workAtLeast (does_definition h (by omega) (wordsAt_words hc))
  · rw [length_words, length_nestedInstances]; omega
  · rw [Nat.pow_two]
    exact workAtLeast (does_variations h (by omega) (wordsAt_words hi))

/-- C66 is false of reading GSUB, GPOS, GDEF and the variations: no reasonable number of operations for each byte is
enough. A file of 320036 bytes takes more than a hundred million billion for each in GSUB or GPOS, one of 192036 bytes
more than a hundred million for each in GDEF, and one of 128036 bytes more than seven thousand for each in the
variations. -/
theorem C66_violated (cfg : Cfg) :
    (∃ d : Data, d.length = 320036 ∧ WorkAtLeast (10 ^ 17 * d.length) (gsub.GlyphSubstitution.read cfg) d) ∧
    (∃ d : Data, d.length = 320036 ∧ WorkAtLeast (10 ^ 17 * d.length) (gpos.GlyphPositioning.read cfg) d) ∧
    (∃ d : Data, d.length = 192036 ∧ WorkAtLeast (10 ^ 8 * d.length) (gdef.GlyphDefinition.read cfg) d) ∧
    (∃ d : Data, d.length = 128036 ∧ WorkAtLeast (7000 * d.length) (fvar.FontVariations.read cfg) d) := by
  obtain ⟨⟨a, a1, a2, a3⟩, ⟨b, b1, b2, b3⟩, ⟨c, c1, c2, c3⟩, ⟨e, e1, e2, e3⟩⟩ :=
    C66_nested cfg 32000 (by decide) (by decide)
  refine ⟨⟨a, a1, a2, ?_⟩, ⟨b, b1, b2, ?_⟩, ⟨c, c1, c2, ?_⟩, ⟨e, e1, e2, ?_⟩⟩
  · rw [a1]; omega
  · rw [b1]; omega
  · rw [c1]; omega
  · rw [e1]; omega

/-- A coverage table that asks for 65535 glyphs and has two: eight operations, the last of which fails. -/
example :
    let d := bytes [0, 1, 255, 255, 0, 7, 0, 8]
    coverage.Coverage.read d 0 = .error .eof ∧ coverage.Coverage.read.operations d 0 = 8 ∧
      8 ≤ 8 * (d.length + 1) ^ 1 := by decide +kernel

/-- The files of `C66_nested` for two: 56 bytes, 203 operations; 48 bytes; 44 bytes. -/
example :
    ((nested 4 7 3 2).flatMap word).length = 56 ∧
      (gsub.GlyphSubstitution.read defaultCfg).operations ((nested 4 7 3 2).flatMap word) 0 = 203 ∧
    ((nested 7 3 0 2).flatMap word).length = 56 ∧
      32 ≤ (gpos.GlyphPositioning.read defaultCfg).operations ((nested 7 3 0 2).flatMap word) 0 ∧
    ((nestedCarets 2).flatMap word).length = 48 ∧
      8 ≤ (gdef.GlyphDefinition.read defaultCfg).operations ((nestedCarets 2).flatMap word) 0 ∧
    ((nestedInstances 2).flatMap word).length = 44 ∧
      4 ≤ (fvar.FontVariations.read defaultCfg).operations ((nestedInstances 2).flatMap word) 0 := by decide +kernel

/-- Taking the palettes of the sample font. -/
example :
    (sampleDirectory.take defaultCfg tableChecksum .colorPalettes cpal.ColorPalettes.read).operations sampleFont 3
      ≤ 20 * (sampleFont.length + 1) ^ 1 := (C65_tables defaultCfg sampleDirectory .colorPalettes).2.2.2.1 _ _

end OpenType.Props
