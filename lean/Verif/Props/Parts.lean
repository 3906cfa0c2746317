import Verif.Proof.Parts
import Verif.Props.Sample
/-! # C86: anything inside a table can be read on its own -/

namespace OpenType.Props
open OpenType Spec context script feature lookup directory

/-- In whatever a reader returns from a tape, each part, at every level, is what the reader of its own type gives
at its own place on the tape. -/
def PartsReadAlone {α : Type} (r : Reader α) [Parts r] : Prop :=
  ∀ (d : Data) (p : Nat) (t : α), Fits d → Reads r d p t → ReadAlone d p (parts r t)

theorem parts_read_alone {α : Type} {r : Reader α} [Parts r] [Tells r] : PartsReadAlone r := fun _ _ _ => Tells.told

/-- The glyph substitution table. -/
theorem C86_gsub (cfg : Cfg) : PartsReadAlone (gsub.GlyphSubstitution.read cfg) := parts_read_alone

/-- The glyph positioning table. -/
theorem C86_gpos (cfg : Cfg) : PartsReadAlone (gpos.GlyphPositioning.read cfg) := parts_read_alone

/-- The glyph definition table. The variations are where the code looks for them, which C31 is about. -/
theorem C86_gdef (cfg : Cfg) : PartsReadAlone (gdef.GlyphDefinition.read cfg) := parts_read_alone

/-- The item variation store. -/
theorem C86_store (cfg : Cfg) : PartsReadAlone (item.Store.read cfg) := parts_read_alone

/-- The color palettes and the font variations, whose offsets lead to rows of records. -/
theorem C86_rows (cfg : Cfg) :
    PartsReadAlone cpal.ColorPalettes.read ∧ PartsReadAlone (fvar.FontVariations.read cfg) :=
  ⟨parts_read_alone, parts_read_alone⟩

/-- The tables of the layout module, taken on their own. -/
theorem C86_layout : PartsReadAlone Context.read ∧ PartsReadAlone ChainedContext.read ∧ PartsReadAlone Scripts.read ∧
    PartsReadAlone Features.read :=
  ⟨parts_read_alone, parts_read_alone, parts_read_alone, parts_read_alone⟩

/-- A substitution subtable and a positioning subtable of every type, taken on their own. -/
theorem C86_lookup (cfg : Cfg) (type_ : Nat) :
    PartsReadAlone (gsub.Type_.read type_) ∧ PartsReadAlone (gpos.Type_.read cfg type_) :=
  ⟨parts_read_alone, parts_read_alone⟩

/-- The part of a directory that any caller can look for: the subtables of its lookups. Each is what the reader
of subtables gives, with the type of its lookup, at the sum of the three offsets. -/
theorem C86_subtable (cfg : Cfg) {T : Type} (readTable : Nat → Reader T) [∀ n, Parts (readTable n)]
    (hr : PartsReadAlone (Directory.read cfg readTable)) {d : Data} {p : Nat} {t : Directory T} (hd : Fits d) (h : Reads (Directory.read cfg readTable) d p t)
    (hn : ¬(cfg.ignoreIncompleteDirectories = true ∧ t.lookup_offset = 0)) {o : Nat} {x : lookup.Record T}
    (hx : (o, x) ∈ t.lookups.offsets.zip t.lookups.records) {o' : Nat} {y : T}
    (hy : (o', y) ∈ x.table_offsets.zip x.tables) :
    Reads (readTable x.type_) d (p + (t.lookup_offset + (o + o'))) y := by
  refine hr d p t hd h ⟨T, readTable x.type_, t.lookup_offset + (o + o'), y⟩ ?_
  refine List.mem_append_left _ (List.mem_append_right _ ?_)
  unfold lenient
  rw [if_neg hn]
  refine List.mem_cons_of_mem _ (List.mem_map.mpr ⟨⟨T, readTable x.type_, o + o', y⟩, ?_, rfl⟩)
  refine List.mem_flatMap.mpr ⟨_, hx, List.mem_cons_of_mem _ (List.mem_map.mpr ⟨⟨T, readTable x.type_, o', y⟩, ?_, rfl⟩)⟩
  exact List.mem_flatMap.mpr ⟨_, hy, .head _⟩

/-- Two tables read from one tape, of whatever kinds and from whatever places: two parts of the same type, one of
each, that lie at the same place on the tape are equal. -/
theorem C86_across {α β γ : Type} {r : Reader α} {r' : Reader β} [Parts r] [Parts r'] (hr : PartsReadAlone r)
    (hr' : PartsReadAlone r') {d : Data} (hd : Fits d) {p p' : Nat} {t : α} {t' : β} (ht : Reads r d p t)
    (ht' : Reads r' d p' t') {read : Reader γ} {o o' : Nat} {x x' : γ} (hx : ⟨γ, read, o, x⟩ ∈ parts r t)
    (hx' : ⟨γ, read, o', x'⟩ ∈ parts r' t') (he : p + o = p' + o') : x = x' := by
  obtain ⟨q, h⟩ := hr d p t hd ht _ hx
  obtain ⟨q', h'⟩ := hr' d p' t' hd ht' _ hx'
  dsimp only at h h'
  rw [he, h'] at h
  cases h
  rfl

/-- A substitution table with two lookups that share a subtable, whose coverage lies at byte 42. -/
def partsGsub : Data := bytes [0, 1, 0, 0, 0, 10, 0, 12, 0, 14, 0, 0, 0, 0, 0, 2, 0, 6, 0, 14, 0, 1, 0, 0, 0, 1, 0, 16, 0, 1, 0, 1,
  0, 1, 0, 8, 0, 1, 0, 6, 0, 3, 0, 1, 0, 1, 0, 9]

/-- What is read from it. -/
def partsTable : gsub.GlyphSubstitution := ⟨1, 0, 10, 12, 14, 0, ⟨0, [], []⟩, ⟨0, [], []⟩, ⟨2, [6, 14],
  [⟨1, 0, 1, [16], none, [.singleSubstitution (.format1 ⟨1, 6, 3, .format1 ⟨1, 1, [9]⟩⟩)]⟩,
    ⟨1, 1, 1, [8], none, [.singleSubstitution (.format1 ⟨1, 6, 3, .format1 ⟨1, 1, [9]⟩⟩)]⟩]⟩, none⟩

/-- It has fifteen parts: the three lists, and for each of the two lookups itself, its subtable, the same as a
single substitution, the same of format 1, its coverage, and the same of format 1. -/
example : (parts (gsub.GlyphSubstitution.read ⟨false, false, false, false, true, true⟩) partsTable).map (·.offset) =
    [10, 12, 14, 20, 36, 36, 36, 42, 42, 28, 36, 36, 36, 42, 42] := by decide +kernel

/-- Each can be read on its own; for instance the coverage at byte 42. -/
example : Reads (gsub.GlyphSubstitution.read ⟨false, false, false, false, true, true⟩) partsGsub 0 partsTable ∧
    ReadAlone partsGsub 0 (parts (gsub.GlyphSubstitution.read ⟨false, false, false, false, true, true⟩) partsTable) ∧
    Reads coverage.Coverage.read partsGsub 42 (.format1 ⟨1, 1, [9]⟩) := by
  have h : Reads (gsub.GlyphSubstitution.read ⟨false, false, false, false, true, true⟩) partsGsub 0 partsTable := by
    decide +kernel
  exact ⟨h, C86_gsub _ _ _ _ (by decide) h, by decide +kernel⟩

/-- The subtable of the second lookup. -/
example : Reads (gsub.Type_.read 1) partsGsub (0 + (14 + (14 + 8)))
    (.singleSubstitution (.format1 ⟨1, 6, 3, .format1 ⟨1, 1, [9]⟩⟩)) :=
  C86_subtable ⟨false, false, false, false, true, true⟩ gsub.Type_.read (C86_gsub _) (t := partsTable)
    (x := ⟨1, 1, 1, [8], none, [.singleSubstitution (.format1 ⟨1, 6, 3, .format1 ⟨1, 1, [9]⟩⟩)]⟩) (by decide)
    (by decide +kernel) (by decide) (.tail _ (.head _)) (.head _)

/-- A context and a list of attachments on one tape, which share a coverage. -/
example : ∃ x, x ∈ parts Context.read (Context.format1 ⟨1, 14, 0, [], .format1 ⟨1, 1, [7]⟩, []⟩) ∧
    x.offset = 14 ∧ Reads Context.read (bytes [0, 1, 0, 14, 0, 0, 0, 8, 0, 0, 0, 0, 0, 0, 0, 1, 0, 1, 0, 7]) 0
      (.format1 ⟨1, 14, 0, [], .format1 ⟨1, 1, [7]⟩, []⟩) ∧
    Reads gdef.Attachments.read (bytes [0, 1, 0, 14, 0, 0, 0, 8, 0, 0, 0, 0, 0, 0, 0, 1, 0, 1, 0, 7]) 6
      ⟨8, 0, [], .format1 ⟨1, 1, [7]⟩, []⟩ :=
  ⟨⟨_, coverage.Coverage.read, 14, .format1 ⟨1, 1, [7]⟩⟩, .tail _ (.head _), rfl, by decide +kernel, by decide +kernel⟩

/-- The predicate is not trivial: a table that holds something else for a part than what is at its place does not
satisfy it. -/
example : ¬ReadAlone (bytes [0, 1, 0, 6, 0, 0, 0, 1, 0, 1, 0, 7]) 0
    (parts Context.read (Context.format1 ⟨1, 6, 0, [], .format1 ⟨1, 1, [8]⟩, []⟩)) := fun h => by
  obtain ⟨q, h⟩ := h ⟨_, coverage.Coverage.read, 6, .format1 ⟨1, 1, [8]⟩⟩ (.tail _ (.head _))
  have h' : ¬Reads coverage.Coverage.read (bytes [0, 1, 0, 6, 0, 0, 0, 1, 0, 1, 0, 7]) 6 (.format1 ⟨1, 1, [8]⟩) := by
    decide +kernel
  exact h' ⟨q, h⟩

end OpenType.Props
