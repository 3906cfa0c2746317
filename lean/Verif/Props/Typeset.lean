import Verif.Spec.Typeset
import Verif.Props.Position
import Verif.Props.Settle
import Verif.Props.Isolation
/-! # C113: from a file to glyphs in their places -/

namespace OpenType.Props
open OpenType Spec lookup directory

section
variable {accept : Tag → Bool} {cfg : Cfg} {d : Data} (hd : Fits d) {font : Font}
  (hf : Reads (File.read accept) d 0 ⟨[font]⟩) {table : TableType} {α : Type} {r : Reader α}
include hd hf

theorem opened : ¬U32 d 0 0x74746366 ∧ IsOffsets accept d 0 font.offsets := by
  obtain ⟨h1, font', e, h2⟩ := (C01_one_font accept d 0 hd _).mp hf
  injection e with e _
  exact ⟨h1, e ▸ h2⟩

theorem opened_unique {directory : offsets.Offsets} (h : IsOffsets accept d 0 directory) : directory = font.offsets := by
  obtain ⟨q, e⟩ := hf
  obtain ⟨q', e'⟩ := (C01_one_font accept d 0 hd ⟨[⟨directory⟩]⟩).mpr ⟨(opened hd ⟨q, e⟩).1, _, rfl, h⟩
  rw [e] at e'
  injection e' with e'
  injection e' with e' _
  injection e' with e'
  injection e' with e' _
  rw [e']

/-- Where a table is found. -/
theorem tableAt_iff (a : Nat) : TableAt accept cfg d table a ↔
    ∃ record, FirstWith table.tag font.offsets.records record ∧ record.offset = a ∧ Passes cfg tableChecksum record d 0 := by
  constructor
  · rintro ⟨_, directory, record, h1, h2, rfl, h3⟩
    obtain rfl := opened_unique hd hf h1
    have ht : record.tag = table.tag := by obtain ⟨_, _, _, h, _⟩ := h2; exact h
    exact ⟨record, h2, rfl, (passes_iff ht).mpr h3⟩
  · rintro ⟨record, h2, rfl, h3⟩
    have ht : record.tag = table.tag := by obtain ⟨_, _, _, h, _⟩ := h2; exact h
    exact ⟨(opened hd hf).1, _, record, (opened hd hf).2, h2, rfl, (passes_iff ht).mp h3⟩

theorem absent_iff : Absent accept d table ↔ NoneWith table.tag font.offsets.records := by
  constructor
  · rintro ⟨_, directory, h1, h2⟩
    obtain rfl := opened_unique hd hf h1
    exact h2
  · intro h
    exact ⟨(opened hd hf).1, _, (opened hd hf).2, h⟩

theorem tableOf_iff (q : Nat) (y : Option (Nat × α)) : Reads (tableOf cfg font table r) d q y ↔
    (Absent accept d table ∧ y = none) ∨
      ∃ a t, TableAt accept cfg d table a ∧ Reads r d a t ∧ y = some (a, t) := by
  unfold tableOf
  rw [reads_bind_iff, absent_iff hd hf]
  rcases Font.first_or_none table.tag font.offsets.records with ⟨record, h⟩ | h
  · have hp : font.position cfg tableChecksum table = Font.found cfg tableChecksum record := Font.positionIn_first h
    have ht : record.tag = table.tag := by obtain ⟨_, _, _, h, _⟩ := h; exact h
    rw [hp]
    constructor
    · rintro ⟨x, q', e, hr⟩
      obtain ⟨h1, rfl, rfl⟩ := found_ok e
      obtain ⟨a, q'', e', hr⟩ := reads_bind_iff.mp hr
      obtain ⟨rfl, rfl⟩ : a = record.offset ∧ q'' = record.offset := by
        injection e' with e'
        injection e' with e1 e2
        exact ⟨e1.symm, e2.symm⟩
      obtain ⟨t, q3, e3, hr⟩ := reads_bind_iff.mp hr
      exact .inr ⟨_, t, (tableAt_iff hd hf _).mpr ⟨record, h, rfl, (passes_iff ht).mpr ((passes_iff ht).mp h1)⟩, ⟨q3, e3⟩,
        reads_pure.mp hr⟩
    · rintro (⟨hn, _⟩ | ⟨a, t, h1, ⟨q3, e3⟩, rfl⟩)
      · obtain ⟨_, _, e, _⟩ := h
        exact (hn record (by rw [e]; simp) ht).elim
      · obtain ⟨record', h2, rfl, h3⟩ := (tableAt_iff hd hf _).mp h1
        obtain rfl := firstWith_unique h h2
        refine ⟨some (), record.offset, found_passes ((passes_iff ht).mpr ((passes_iff ht).mp h3)), ?_⟩
        refine reads_bind_iff.mpr ⟨_, _, rfl, reads_bind_iff.mpr ⟨t, q3, e3, reads_pure.mpr rfl⟩⟩
  · have hp : font.position cfg tableChecksum table = pure none := Font.positionIn_none h
    rw [hp]
    constructor
    · rintro ⟨x, q', e, hr⟩
      injection e with e
      injection e with e1 e2
      subst e1
      exact .inl ⟨h, reads_pure.mp hr⟩
    · rintro (⟨_, rfl⟩ | ⟨a, t, h1, _, rfl⟩)
      · exact ⟨none, q, rfl, reads_pure.mpr rfl⟩
      · obtain ⟨record', ⟨_, _, e, ht, _⟩, _⟩ := (tableAt_iff hd hf _).mp h1
        exact (h record' (by rw [e]; simp) ht).elim

theorem placed_unique {a b : Nat} (h1 : TableAt accept cfg d table a) (h2 : TableAt accept cfg d table b) : a = b := by
  obtain ⟨r1, g1, rfl, _⟩ := (tableAt_iff hd hf _).mp h1
  obtain ⟨r2, g2, rfl, _⟩ := (tableAt_iff hd hf _).mp h2
  rw [firstWith_unique g1 g2]

/-- What the program ignores is what the bytes say. -/
theorem ignoring_iff {q : Nat} {definition : Option (Nat × gdef.GlyphDefinition)}
    (h : Reads (tableOf cfg font .glyphDefinition (gdef.GlyphDefinition.read cfg)) d q definition) {T : Type} {p : Nat}
    {t : Directory T} (ht : ∀ q definition, Reads (gdef.GlyphDefinition.read cfg) d q definition →
      FindsIgnored cfg d q p definition t) (i g : Nat) :
    ignoring definition t i g = true ↔ IgnoredIn accept cfg d p i g := by
  unfold ignoring IgnoredIn
  rcases (tableOf_iff hd hf q definition).mp h with ⟨ha, rfl⟩ | ⟨a, definition, h1, h2, rfl⟩
  · refine ⟨fun e => (by cases e), ?_⟩
    rintro ⟨a, h1, _⟩
    obtain ⟨record', ⟨_, _, e, hk, _⟩, _⟩ := (tableAt_iff hd hf _).mp h1
    exact ((absent_iff hd hf).mp ha record' (by rw [e]; simp) hk).elim
  · obtain ⟨k1, k2⟩ := ht a definition h2
    have key : passedOver definition t i g = true ↔ Ignores cfg d a p i g := by
      unfold passedOver
      cases hi : t.lookups.records[i]? with
      | none => exact ⟨fun e => (by cases e), fun hc => (k2 i hi g hc).elim⟩
      | some record => exact k1 i record hi g
    refine Iff.trans key ⟨fun hk => ⟨a, h1, hk⟩, ?_⟩
    rintro ⟨b, h3, hk⟩
    rw [placed_unique hd hf h1 h3]
    exact hk

/-- What the program takes for marks is what the bytes say. -/
theorem marked_iff {q : Nat} {definition : Option (Nat × gdef.GlyphDefinition)}
    (h : Reads (tableOf cfg font .glyphDefinition (gdef.GlyphDefinition.read cfg)) d q definition) (g : Nat) :
    marked definition g = true ↔ MarkedIn accept cfg d g := by
  unfold marked MarkedIn
  rcases (tableOf_iff hd hf q definition).mp h with ⟨ha, rfl⟩ | ⟨a, definition, h1, h2, rfl⟩
  · refine ⟨fun e => (by cases e), ?_⟩
    rintro ⟨a, h1, _⟩
    obtain ⟨record', ⟨_, _, e, hk, _⟩, _⟩ := (tableAt_iff hd hf _).mp h1
    exact ((absent_iff hd hf).mp ha record' (by rw [e]; simp) hk).elim
  · dsimp only
    rw [beq_iff_eq]
    refine Iff.trans (C107_classes hd h2 g 3).1 ⟨fun hk => ⟨a, h1, hk⟩, ?_⟩
    rintro ⟨b, h3, hk⟩
    rw [placed_unique hd hf h1 h3]
    exact hk

end

/-- Whatever the bytes of a file are, in every build, the glyphs of text end where the bytes tell, and if these tell nothing,
there is an error. -/
theorem C113_typeset (accept : Tag → Bool) (cfg : Cfg) {d : Data} (hd : Fits d) (n : Nat) (script language : Tag)
    (tags : List Tag) (glyphs : List Nat) (out : List Item) :
    Reads (typeset accept cfg n script language tags glyphs) d 0 out ↔
      TypesetInto accept cfg d n script language tags glyphs out := by
  unfold typeset
  rw [reads_bind_iff]
  constructor
  · rintro ⟨file, q, e, hr⟩
    obtain ⟨hn, font, hfonts, ho⟩ := (C01_one_font accept d 0 hd file).mp ⟨q, e⟩
    have hfile : file = ⟨[font]⟩ := by cases file; simp only at hfonts; rw [hfonts]
    subst hfile
    have hf : Reads (File.read accept) d 0 ⟨[font]⟩ := ⟨q, e⟩
    dsimp only at hr
    obtain ⟨definition, q1, e1, hr⟩ := reads_bind_iff.mp hr
    obtain ⟨middle, q2, e2, hr⟩ := reads_bind_iff.mp hr
    obtain ⟨found, q3, e3, e2⟩ := reads_bind_iff.mp ⟨q2, e2⟩
    obtain ⟨found', q4, e4, hr⟩ := reads_bind_iff.mp hr
    refine ⟨?_, middle, ?_, ?_⟩
    · rcases (tableOf_iff hd hf _ _).mp ⟨_, e1⟩ with ⟨h, _⟩ | ⟨a, t, h1, h2, _⟩
      · exact .inl h
      · exact .inr ⟨a, t, h1, (reads_parses hd).mp h2⟩
    · rcases (tableOf_iff hd hf _ _).mp ⟨_, e3⟩ with ⟨h, rfl⟩ | ⟨a, t, h1, h2, rfl⟩
      · exact .inl ⟨h, reads_pure.mp e2⟩
      · refine .inr ⟨a, t, h1, (reads_parses hd).mp h2, ?_⟩
        exact (shapesText cfg hd h2 (ignoring_iff hd hf ⟨_, e1⟩ fun q _ hq => (C110_ignored cfg hd hq).1 t h2)
          _ _ _ _ _ _ _).mp e2
    · rcases (tableOf_iff hd hf _ _).mp ⟨_, e4⟩ with ⟨h, rfl⟩ | ⟨a, t, h1, h2, rfl⟩
      · exact .inl ⟨h, reads_pure.mp hr⟩
      · refine .inr ⟨a, t, h1, (reads_parses hd).mp h2, ?_⟩
        exact (settlesText cfg hd h2 (ignoring_iff hd hf ⟨_, e1⟩ fun q _ hq => (C110_ignored cfg hd hq).2 t h2)
          (marked_iff hd hf ⟨_, e1⟩) _ _ _ _ _ _ _).mp hr
  · rintro ⟨h0, middle, h1, h2⟩
    obtain ⟨directory, hn, ho⟩ : ∃ directory, ¬U32 d 0 0x74746366 ∧ IsOffsets accept d 0 directory := by
      rcases h0 with ⟨k1, directory, k2, _⟩ | ⟨_, _, ⟨k1, directory, _, k2, _⟩, _⟩
      · exact ⟨directory, k1, k2⟩
      · exact ⟨directory, k1, k2⟩
    have hf : Reads (File.read accept) d 0 ⟨[⟨directory⟩]⟩ := (C01_one_font accept d 0 hd _).mpr ⟨hn, _, rfl, ho⟩
    obtain ⟨q, e⟩ := hf
    have hf : Reads (File.read accept) d 0 ⟨[⟨directory⟩]⟩ := ⟨q, e⟩
    refine ⟨_, q, e, ?_⟩
    dsimp only
    obtain ⟨definition, q1, e1⟩ : ∃ definition, Reads (tableOf cfg ⟨directory⟩ .glyphDefinition (gdef.GlyphDefinition.read cfg)) d q
        definition := by
      rcases h0 with h | ⟨a, t, k1, k2⟩
      · exact ⟨none, (tableOf_iff hd hf _ _).mpr (.inl ⟨h, rfl⟩)⟩
      · exact ⟨some (a, t), (tableOf_iff hd hf _ _).mpr (.inr ⟨a, t, k1, (reads_parses hd).mpr k2, rfl⟩)⟩
    refine reads_bind_iff.mpr ⟨definition, q1, e1, ?_⟩
    obtain ⟨q2, e2⟩ : Reads (shapeWith cfg ⟨directory⟩ definition n script language tags glyphs) d q1 middle := by
      rcases h1 with ⟨h, rfl⟩ | ⟨a, t, k1, k2, k3⟩
      · obtain ⟨q2, e2⟩ := (tableOf_iff (r := gsub.GlyphSubstitution.read cfg) (cfg := cfg) hd hf q1 _).mpr (.inl ⟨h, rfl⟩)
        exact reads_bind_iff.mpr ⟨none, q2, e2, reads_pure.mpr rfl⟩
      · have k2 := (reads_parses (r := gsub.GlyphSubstitution.read cfg) hd).mpr k2
        obtain ⟨q2, e2⟩ := (tableOf_iff (cfg := cfg) hd hf q1 _).mpr (.inr ⟨a, t, k1, k2, rfl⟩)
        refine reads_bind_iff.mpr ⟨_, q2, e2, ?_⟩
        exact (shapesText cfg hd k2 (ignoring_iff hd hf ⟨_, e1⟩ fun q _ hq => (C110_ignored cfg hd hq).1 t k2)
          _ _ _ _ _ _ _).mpr k3
    refine reads_bind_iff.mpr ⟨middle, q2, e2, ?_⟩
    rcases h2 with ⟨h, rfl⟩ | ⟨a, t, k1, k2, k3⟩
    · obtain ⟨q3, e3⟩ := (tableOf_iff (r := gpos.GlyphPositioning.read cfg) (cfg := cfg) hd hf q2 _).mpr (.inl ⟨h, rfl⟩)
      exact reads_bind_iff.mpr ⟨none, q3, e3, reads_pure.mpr rfl⟩
    · have k2 := (reads_parses (r := gpos.GlyphPositioning.read cfg) hd).mpr k2
      obtain ⟨q3, e3⟩ := (tableOf_iff (cfg := cfg) hd hf q2 _).mpr (.inr ⟨a, t, k1, k2, rfl⟩)
      refine reads_bind_iff.mpr ⟨_, q3, e3, ?_⟩
      exact (settlesText cfg hd k2 (ignoring_iff hd hf ⟨_, e1⟩ fun q _ hq => (C110_ignored cfg hd hq).2 t k2)
          (marked_iff hd hf ⟨_, e1⟩) _ _ _ _ _ _ _).mpr k3

/-! ## Examples -/

/-- A file with the tables of the examples of C109 and C112. -/
def typesettingFile : Data :=
  fontFile 0x00010000 32 1 0 [(TableType.glyphPositioning.tag, positioningTable), (TableType.glyphSubstitution.tag, shapingTable)]

/-- Glyphs 9 and 3 become 6 and 3, and the latter is moved. Without features, and without any font, nothing happens. -/
example : Fits typesettingFile ∧
    Reads (typeset (· == 0x00010000) ⟨false, false, false, false, false, false⟩ 2 0x6C61746E 0x44455520 [0x6C696761, 0x6B65726E]
      [9, 3]) typesettingFile 0 [⟨6, 0, []⟩, ⟨3, 0, [.moved (advance 6)]⟩] ∧
    Reads (typeset (· == 0x00010000) ⟨false, false, false, false, false, false⟩ 2 0x6C61746E 0x44455520 []
      [9, 3]) typesettingFile 0 [⟨9, 0, []⟩, ⟨3, 0, []⟩] ∧
    ∃ e, typeset (· == 0x00010000) ⟨false, false, false, false, false, false⟩ 2 0x6C61746E 0x44455520 [] [9, 3] [] 0 = .error e :=
  ⟨by decide +kernel, by decide +kernel, by decide +kernel, _, rfl⟩

/-- A file with a GDEF table by which glyph 2 is a mark, and with the GSUB table of the example of C109, the second lookup of which
ignores marks. -/
def markedFile : Data :=
  fontFile 0x00010000 32 1 0
    [(TableType.glyphDefinition.tag, bytes ([0, 1,  0, 0,  0, 12,  0, 0,  0, 0,  0, 0] ++ [0, 1,  0, 2,  0, 1,  0, 3])),
      (TableType.glyphSubstitution.tag, shapingTable.set 83 8)]

/-- Glyphs 3, 2 and 4 become 6 and 2. -/
example : Fits markedFile ∧
    Reads (typeset (· == 0x00010000) ⟨false, false, false, false, false, false⟩ 2 0x6C61746E 0x44455520 [0x6C696761]
      [3, 2, 4]) markedFile 0 [⟨6, 0, []⟩, ⟨2, 0, []⟩] := by
  decide +kernel

end OpenType.Props
