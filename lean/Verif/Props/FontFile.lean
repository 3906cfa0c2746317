import Verif.Props.Font
import Verif.Props.Safety
import Verif.Props.Encode
import Verif.Props.Gdef
import Verif.Props.Cpal
import Verif.Proof.FontFile
/-! # C08, C55-C57, C72: from the bytes of a file to the values of its tables -/

namespace OpenType.Props
open OpenType Spec offsets

/-! ## C08 and C72 -/

theorem tag_name (table : TableType) :
    (∀ n, n < 4294967296 → enc32 n = tableName table → n = table.tag) ∧ enc32 table.tag = tableName table ∧
      table.tag < 4294967296 := by
  have e : enc32 table.tag = tableName table ∧ table.tag < 4294967296 := by
    cases table with
    | custom a b c e =>
      have := a.toNat_lt; have := b.toNat_lt; have := c.toNat_lt; have := e.toNat_lt
      have byte : ∀ (n : Nat) (x : UInt8), n = x.toNat → UInt8.ofNat n = x := fun n x h => by
        rw [h]; exact UInt8.ofNat_toNat
      simp only [TableType.tag, tableName, enc32, enc16, List.cons_append, List.nil_append, List.cons.injEq, and_true]
      exact ⟨⟨byte _ _ (by omega), byte _ _ (by omega), byte _ _ (by omega), byte _ _ (by omega)⟩,
        show @LT.lt Nat _ _ _ by omega⟩
    | _ => decide +kernel
  refine ⟨fun n hn h => ?_, e⟩
  have h1 : U32 (enc32 n) 0 n := at32.mpr ⟨hn, by simp [Stored]⟩
  have h2 : U32 (enc32 n) 0 table.tag := at32.mpr ⟨e.2, by rw [h, e.1]; simp [Stored]⟩
  exact h1.unique h2

/-- A font that was opened has a table exactly when one of the records of its directory begins with the four bytes
of the table's name. -/
theorem C08_named (accept : Tag → Bool) (d : Data) (p : Nat) (hd : Fits d) (file : File) (font : Font)
    (h : Reads (File.read accept) d p file) (hf : font ∈ file.fonts) (table : TableType) :
    font.exists table = true ↔
      ∃ count k, U16 d (p + 4) count ∧ k < count ∧ Stored d (p + 12 + 16 * k) (tableName table) := by
  obtain ⟨_, font', e, ho⟩ := (C01_one_font accept d p hd file).mp h
  rw [e, List.mem_singleton] at hf
  subst hf
  obtain ⟨_, _, hc, _, _, _, hl, hr⟩ := ho
  have ⟨n1, n2, n3⟩ := tag_name table
  rw [exists_iff]
  constructor
  · rintro ⟨record, hm, ht⟩
    obtain ⟨k, hk⟩ := List.getElem?_of_mem hm
    refine ⟨_, k, hc, hl ▸ (List.getElem?_eq_some_iff.mp hk).1, ?_⟩
    have := (at32.mp (hr k record hk).1).2
    rwa [ht, n2] at this
  · rintro ⟨count, k, hc', hk, hs⟩
    obtain rfl := hc.unique hc'
    rw [← hl] at hk
    refine ⟨_, List.getElem_mem hk, ?_⟩
    have h1 := (hr k _ (List.getElem?_eq_getElem hk)).1
    exact h1.unique (at32.mpr ⟨n3, n2 ▸ hs⟩)

example : sampleDirectory ∈ (File.mk [sampleDirectory]).fonts ∧ U16 sampleFont 4 3 ∧
    Stored sampleFont (12 + 16 * 1) (tableName .colorPalettes) ∧ sampleDirectory.exists .colorPalettes = true := by
  refine ⟨by simp, ⟨0, 3, ⟨0, rfl, rfl⟩, ⟨3, rfl, rfl⟩, rfl⟩, ?_, by decide +kernel⟩
  intro i x h
  match i with
  | 0 => exact h
  | 1 => exact h
  | 2 => exact h
  | 3 => exact h
  | _ + 4 => cases h

/-- `accept` says yes to the tag of collections and to what `truetype` accepts, and to nothing else. So every file that
opens begins with a tag it says yes to, and collections are the only ones it says yes to that never open. -/
theorem C72_accept (truetypeAccept : Tag → Bool) :
    (∀ tag, accept truetypeAccept tag = true ↔ tag = 0x74746366 ∨ truetypeAccept tag = true) ∧
    (∀ d p file, Fits d → Reads (File.read truetypeAccept) d p file →
      ∃ tag, U32 d p tag ∧ accept truetypeAccept tag = true ∧ tag ≠ 0x74746366) ∧
    (∀ tag, tag < 4294967296 → accept truetypeAccept tag = true → tag ≠ 0x74746366 →
      ∃ d file, Fits d ∧ U32 d 0 tag ∧ Reads (File.read truetypeAccept) d 0 file) := by
  have key : ∀ tag, accept truetypeAccept tag = true ↔ tag = 0x74746366 ∨ truetypeAccept tag = true := by
    intro tag
    simp [accept, tag4]
  refine ⟨key, ?_, ?_⟩
  · intro d p file hd h
    obtain ⟨hn, font, _, hv, ha, _⟩ := (C01_one_font _ d p hd file).mp h
    exact ⟨_, hv, (key _).mpr (.inr ha), fun e => hn (e ▸ hv)⟩
  · intro tag hlt h hne
    have ha : truetypeAccept tag = true := ((key tag).mp h).resolve_left hne
    have hv : U32 (enc32 tag ++ List.replicate 8 0) 0 tag :=
      at32.mpr ⟨hlt, fun i x hi => by
        rw [Nat.zero_add, List.getElem?_append_left (List.getElem?_eq_some_iff.mp hi).1]; exact hi⟩
    have hz : ∀ k, k < 8 → U8 (enc32 tag ++ List.replicate 8 0) (4 + k) 0 := by
      intro k hk
      refine ⟨0, ?_, rfl⟩
      rw [List.getElem?_append_right (by simp [enc32, enc16]), List.getElem?_replicate]
      simp [enc32, enc16]
      omega
    have hw : ∀ k, k < 7 → U16 (enc32 tag ++ List.replicate 8 0) (4 + k) 0 :=
      fun k hk => ⟨0, 0, hz k (by omega), hz (k + 1) (by omega), rfl⟩
    have hd : Fits (enc32 tag ++ List.replicate 8 0) := by simp [Fits, enc32, enc16]
    refine ⟨_, ⟨[⟨⟨⟨tag, 0, 0, 0, 0⟩, []⟩⟩]⟩, hd, hv, (C01_one_font _ _ _ hd _).mpr ⟨fun e => ?_, _, rfl, hv, ha,
      hw 0 (by omega), hw 2 (by omega), hw 4 (by omega), hw 6 (by omega), rfl, by simp⟩⟩
    exact hne (hv.unique e)

example : accept sampleAccept 0x00010000 = true ∧ accept sampleAccept 0x74746366 = true ∧
    accept sampleAccept 0x12345678 = false := by
  decide +kernel

/-! ## C55 -/

/-- The file is not a collection, it has a table directory, the first record of the table gives the offset,
and, unless the build ignores checksums, the record's checksum is the sum of the words there. -/
def TableAt (accept : Tag → Bool) (cfg : Cfg) (d : Data) (table : TableType) (offset : Nat) : Prop :=
  ¬U32 d 0 0x74746366 ∧ ∃ directory record, IsOffsets accept d 0 directory ∧
    FirstWith table.tag directory.records record ∧ record.offset = offset ∧
    (cfg.ignoreInvalidChecksums = true ∨
      ∃ words, U32s d offset ((record.size + 3) / 4) words ∧
        record.checksum =
          (if table.tag = 0x68656164 then words.set 2 0 else words).sum % 4294967296)

/-- Opening the file and taking the table from its font gives `t`. -/
def Takes {α : Type} (accept : Tag → Bool) (cfg : Cfg) (d : Data) (p : Nat) (table : TableType) (r : Reader α)
    (t : Option α) : Prop :=
  ∃ file, Reads (File.read accept) d 0 file ∧
    ∃ font ∈ file.fonts, Reads (font.take cfg tableChecksum table r) d p t

theorem passes_iff {cfg : Cfg} {record : offsets.Record} {d : Data} {p : Nat} {table : TableType}
    (ht : record.tag = table.tag) :
    Passes cfg tableChecksum record d p ↔
      (cfg.ignoreInvalidChecksums = true ∨
        ∃ words, U32s d record.offset ((record.size + 3) / 4) words ∧
          record.checksum = (if table.tag = 0x68656164 then words.set 2 0 else words).sum % 4294967296) := by
  unfold Passes
  refine or_congr Iff.rfl ?_
  unfold Reads
  simp only [run_tableChecksum]
  have e : ∀ ws, sumBut (skipped record) 0 ws = (if table.tag = 0x68656164 then ws.set 2 0 else ws).sum := by
    intro ws
    split
    · next h =>
      refine sumBut_one (k := 2) fun j => ?_
      rw [Bool.eq_iff_iff]
      have : table.tag = TableType.fontHeader.tag := h
      simp [skipped, ht, this]
    · next h =>
      refine sumBut_none fun j => ?_
      have : table.tag ≠ TableType.fontHeader.tag := h
      simp [skipped, ht, this]
  simp only [e]
  constructor
  · rintro ⟨_, h, _⟩; exact h
  · intro h; exact ⟨p, h, rfl⟩

/-- Opening a file and taking a table gives exactly what the file stores at the offset of the table's first
record, from wherever the tape is when the table is taken. -/
theorem C55_stored {α : Type} {r : Reader α} {S : Data → Nat → α → Prop} (accept : Tag → Bool) (cfg : Cfg)
    (table : TableType) {d : Data} (hd : Fits d) (hf : ∀ q t, Reads r d q t ↔ S d q t) (p : Nat) (t : α) :
    Takes accept cfg d p table r (some t) ↔ ∃ offset, TableAt accept cfg d table offset ∧ S d offset t := by
  constructor
  · rintro ⟨file, h1, font, h2, h3⟩
    obtain ⟨hn, font', e, ho⟩ := (C01_one_font accept d 0 hd file).mp h1
    rw [e, List.mem_singleton] at h2
    subst h2
    obtain ⟨record, g1, g2, g3⟩ := C04_only_first cfg tableChecksum font table r d p t h3
    have ht : record.tag = table.tag := by obtain ⟨_, _, _, h, _⟩ := g1; exact h
    exact ⟨record.offset, ⟨hn, _, record, ho, g1, rfl, (passes_iff ht).mp g2⟩, (hf _ _).mp g3⟩
  · rintro ⟨_, ⟨hn, directory, record, ho, g1, rfl, g2⟩, g3⟩
    have ht : record.tag = table.tag := by obtain ⟨_, _, _, h, _⟩ := g1; exact h
    refine ⟨⟨[⟨directory⟩]⟩, (C01_one_font accept d 0 hd _).mpr ⟨hn, ⟨directory⟩, rfl, ho⟩, ⟨directory⟩,
      List.mem_singleton.mpr rfl, ?_⟩
    obtain ⟨q, hq⟩ := (hf _ _).mpr g3
    obtain ⟨_, h, _⟩ := C04_first_record cfg tableChecksum ⟨directory⟩ table record r (fun _ : Unit => r) () d p g1
      ((passes_iff ht).mpr g2)
    rw [hq] at h
    exact ⟨_, h⟩

/-- For the tables the library itself reads. -/
theorem C55_tables (accept : Tag → Bool) (cfg : Cfg) {d : Data} (hd : Fits d) (p : Nat) :
    (∀ t, Takes accept cfg d p .glyphSubstitution (gsub.GlyphSubstitution.read cfg) (some t) ↔
      ∃ offset, TableAt accept cfg d .glyphSubstitution offset ∧ gsub.IsGlyphSubstitution cfg d offset t) ∧
    (∀ t, Takes accept cfg d p .glyphPositioning (gpos.GlyphPositioning.read cfg) (some t) ↔
      ∃ offset, TableAt accept cfg d .glyphPositioning offset ∧ gpos.IsGlyphPositioning cfg d offset t) ∧
    (∀ t, Takes accept cfg d p .glyphDefinition (gdef.GlyphDefinition.read cfg) (some t) ↔
      ∃ offset, TableAt accept cfg d .glyphDefinition offset ∧ gdef.IsGlyphDefinitionTaken cfg d offset t) ∧
    (∀ t, Takes accept cfg d p .colorPalettes cpal.ColorPalettes.read (some t) ↔
      ∃ offset, TableAt accept cfg d .colorPalettes offset ∧ IsColorPalettes d offset t) ∧
    (∀ t, Takes accept cfg d p .fontVariations (fvar.FontVariations.read cfg) (some t) ↔
      ∃ offset, TableAt accept cfg d .fontVariations offset ∧ IsFontVariations cfg d offset t) :=
  ⟨C55_stored accept cfg _ hd (fun _ _ => reads_parses hd) p,
    C55_stored accept cfg _ hd (fun _ _ => reads_parses hd) p,
    C55_stored accept cfg _ hd (fun _ _ => reads_parses hd) p,
    C55_stored accept cfg _ hd (fun _ _ => reads_parses hd) p,
    C55_stored accept cfg _ hd (fun _ _ => reads_parses hd) p⟩

/-- The table is absent exactly when the file is not a collection and its directory has no such record. -/
theorem C55_absent {α : Type} {r : Reader α} (accept : Tag → Bool) (cfg : Cfg)
    (table : TableType) {d : Data} (hd : Fits d) (p : Nat) :
    Takes accept cfg d p table r none ↔
      ¬U32 d 0 0x74746366 ∧ ∃ directory, IsOffsets accept d 0 directory ∧ NoneWith table.tag directory.records := by
  constructor
  · rintro ⟨file, h1, font, h2, h3⟩
    obtain ⟨hn, font', e, ho⟩ := (C01_one_font accept d 0 hd file).mp h1
    rw [e, List.mem_singleton] at h2
    subst h2
    exact ⟨hn, _, ho, exists_false.mp (take_none.mp h3)⟩
  · rintro ⟨hn, directory, ho, h⟩
    exact ⟨⟨[⟨directory⟩]⟩, (C01_one_font accept d 0 hd _).mpr ⟨hn, ⟨directory⟩, rfl, ho⟩, ⟨directory⟩,
      List.mem_singleton.mpr rfl, take_none.mpr (exists_false.mpr h)⟩

/-! ## C56 -/

/-- What a file is written from: an accepted format tag other than that of collections, three numbers nobody
needs, and fewer than 65536 tables that make less than `2^32` bytes. -/
structure Writable (accept : Tag → Bool) (version a b c : Nat) (tables : List (Tag × Data)) : Prop where
  format : version < 4294967296 ∧ accept version = true ∧ version ≠ 0x74746366
  numbers : a < 65536 ∧ b < 65536 ∧ c < 65536
  count : tables.length < 65536
  tags : ∀ table ∈ tables, table.1 < 4294967296
  size : (fontFile version a b c tables).length < 4294967296

/-- A font file written from tables opens as the directory of those tables, whatever follows it. -/
theorem C56_opens {accept : Tag → Bool} {version a b c : Nat} {tables : List (Tag × Data)}
    (hw : Writable accept version a b c tables) {after : Data}
    (hd : Fits (fontFile version a b c tables ++ after)) :
    Reads (File.read accept) (fontFile version a b c tables ++ after) 0 ⟨[directoryOf version a b c tables]⟩ := by
  obtain ⟨⟨hv, ha, hc⟩, ⟨h1, h2, h3⟩, hn, ht, hl⟩ := hw
  have ho := offsets_written hv ha h1 h2 h3 hn ht hl after
  exact (C01_one_font accept _ 0 hd _).mpr ⟨fun h => hc (ho.1.unique h), _, rfl, ho⟩

/-- If the reader finds a value wherever the bytes of a table are, then it is what taking the table from the
file gives: whatever the other tables, wherever the tape is, with or without the checksum test. Of two tables
with one tag it is the first. -/
theorem C56_takes {accept : Tag → Bool} {version a b c : Nat} {before rest : List (Tag × Data)} {table : TableType}
    {body : Data} (hw : Writable accept version a b c (before ++ (table.tag, body) :: rest))
    (hb : ∀ other ∈ before, other.1 ≠ table.tag) {after : Data}
    (hd : Fits (fontFile version a b c (before ++ (table.tag, body) :: rest) ++ after))
    {α : Type} {r : Reader α} {t : α}
    (hr : ∀ pre post, Fits (pre ++ body ++ post) → Reads r (pre ++ body ++ post) pre.length t)
    (cfg : Cfg) (p : Nat) :
    Takes accept cfg (fontFile version a b c (before ++ (table.tag, body) :: rest) ++ after) p table r
      (some t) := by
  refine ⟨_, C56_opens hw hd, _, List.mem_singleton.mpr rfl, ?_⟩
  generalize e : before ++ (table.tag, body) :: rest = tables at *
  obtain ⟨pre, post, e1, e2⟩ := table_written version a b c before rest table.tag body
  rw [e] at e1 e2
  have hF : FirstWith table.tag (directoryOf version a b c tables).offsets.records
      ⟨table.tag, checksumOf table.tag body, pre.length, body.length⟩ := by
    refine ⟨recordsFrom (tablesOffset tables) before,
      recordsFrom (pre.length + (pad body).length) rest, ?_, rfl, ?_⟩
    · show recordsFrom (tablesOffset tables) tables = _
      rw [e2]
      generalize tablesOffset tables = o
      rw [← e, recordsFrom_append]
      rfl
    · intro other ho
      obtain ⟨b', body', _, e', _⟩ := mem_recordsFrom ho
      exact hb (other.tag, body') (by rw [e']; simp)
  have hs : Stored (fontFile version a b c tables ++ after) pre.length (pad body) := by
    rw [e1]
    intro i x hi
    have := (List.getElem?_eq_some_iff.mp hi).1
    rw [List.append_assoc, List.append_assoc, List.getElem?_append_right (by omega), Nat.add_sub_cancel_left,
      List.getElem?_append_left this]
    exact hi
  obtain ⟨_, h, _⟩ := C04_first_record cfg tableChecksum (directoryOf version a b c tables) table _ r
    (fun _ : Unit => r) () (fontFile version a b c tables ++ after) p hF (.inr ⟨_, checksum_written hs⟩)
  have e3 : fontFile version a b c tables ++ after =
      pre ++ body ++ (List.replicate ((4 - body.length % 4) % 4) 0 ++ post ++ after) := by
    rw [e1]; unfold pad; simp only [List.append_assoc]
  have hr := hr pre (List.replicate ((4 - body.length % 4) % 4) 0 ++ post ++ after) (e3 ▸ hd)
  rw [← e3] at hr
  obtain ⟨q, hq⟩ := hr
  dsimp only at h
  rw [hq] at h
  exact ⟨_, h⟩

/-- In particular a table that its reader reads from a file of its own is read from any font file. The reader
has to be one of those of `C41_relocatable`. -/
theorem C56_alone {accept : Tag → Bool} {version a b c : Nat} {before rest : List (Tag × Data)} {table : TableType}
    {body : Data} (hw : Writable accept version a b c (before ++ (table.tag, body) :: rest))
    (hb : ∀ other ∈ before, other.1 ≠ table.tag) {after : Data}
    (hd : Fits (fontFile version a b c (before ++ (table.tag, body) :: rest) ++ after))
    {α : Type} {r : Reader α} {t : α} (hr : Relocatable r) (ht : Reads r body 0 t) (cfg : Cfg) (p : Nat) :
    Takes accept cfg (fontFile version a b c (before ++ (table.tag, body) :: rest) ++ after) p table r
      (some t) :=
  C56_takes hw hb hd (fun pre post hd => by simpa using (hr pre body post 0 hd).1 t ht) cfg p

/-- A table that was not written is absent. -/
theorem C56_absent {accept : Tag → Bool} {version a b c : Nat} {tables : List (Tag × Data)} {table : TableType}
    (hw : Writable accept version a b c tables) (hn : ∀ t ∈ tables, t.1 ≠ table.tag) {after : Data}
    (hd : Fits (fontFile version a b c tables ++ after)) {α : Type} (r : Reader α) (cfg : Cfg) (p : Nat) :
    Takes accept cfg (fontFile version a b c tables ++ after) p table r none := by
  refine ⟨_, C56_opens hw hd, _, List.mem_singleton.mpr rfl, ?_⟩
  refine take_none.mpr (exists_false.mpr fun record hr => ?_)
  obtain ⟨before, body, rest, e, _⟩ := mem_recordsFrom hr
  exact hn (record.tag, body) (by rw [e]; simp)

/-- Every valid value whose parts do not clash, written as a table of any font file, is taken from that file. -/
def TakesBack {α : Type} (cfg : Cfg) (table : TableType) (r : Reader α) (valid : α → Prop)
    (encode : α → List Chunk) : Prop :=
  ∀ accept version a b c before rest after t p, valid t → Consistent (encode t) →
    Writable accept version a b c (before ++ (table.tag, render (encode t)) :: rest) →
    (∀ other ∈ before, other.1 ≠ table.tag) →
    Fits (fontFile version a b c (before ++ (table.tag, render (encode t)) :: rest) ++ after) →
    Takes accept cfg (fontFile version a b c (before ++ (table.tag, render (encode t)) :: rest) ++ after) p
      table r (some t)

theorem RoundTrip.takesBack {α : Type} {r : Reader α} {valid : α → Prop} {encode : α → List Chunk}
    (h : RoundTrip r valid encode) (cfg : Cfg) (table : TableType) : TakesBack cfg table r valid encode := by
  intro accept version a b c before rest after t p hv hc hw hb hd
  exact C56_takes hw hb hd (fun pre post hd => h.writes t pre post hv hc hd) cfg p

/-- From values to a file and back. The glyph definition is written as the library takes it (C31, C32). -/
theorem C56_values (cfg : Cfg) :
    TakesBack cfg .glyphSubstitution (gsub.GlyphSubstitution.read cfg) (validDirectory cfg gsub.validTable)
      (directoryEncoding cfg) ∧
    TakesBack cfg .glyphPositioning (gpos.GlyphPositioning.read cfg) (validDirectory cfg (gpos.validTable cfg))
      (directoryEncoding cfg) ∧
    TakesBack cfg .glyphDefinition (gdef.GlyphDefinition.read cfg) (validGlyphDefinitionTaken cfg)
      gdefEncodingTaken ∧
    TakesBack cfg .colorPalettes cpal.ColorPalettes.read valid encoding ∧
    TakesBack cfg .fontVariations (fvar.FontVariations.read cfg) (validFontVariations cfg) encoding :=
  ⟨(C48_gsub cfg).takesBack cfg _, (C48_gpos cfg).takesBack cfg _, (C52_gdef_taken_partial cfg).takesBack cfg _,
    C48_cpal.takesBack cfg _, (C48_fvar cfg).takesBack cfg _⟩

/-- A file with a `head` of thirteen bytes, which says nothing, and the palettes of `samplePalettes`. -/
def sampleTables : List (Tag × Data) :=
  [(TableType.fontHeader.tag, bytes [0, 0, 0, 1,  0, 0, 0, 2,  9, 9, 9, 9,  3]),
    (TableType.colorPalettes.tag, samplePalettes)]

/-- The file begins with the directory; the checksum of `head` does not count its third word; the palettes begin
after the padding. -/
example : fontFile 65536 32 1 0 sampleTables = bytes (
      [0, 1, 0, 0,  0, 2,  0, 32,  0, 1,  0, 0] ++
      [0x68, 0x65, 0x61, 0x64,  3, 0, 0, 3,  0, 0, 0, 44,  0, 0, 0, 13] ++
      [0x43, 0x50, 0x41, 0x4C,  30, 36, 15, 42,  0, 0, 0, 60,  0, 0, 0, 30] ++
      [0, 0, 0, 1,  0, 0, 0, 2,  9, 9, 9, 9,  3, 0, 0, 0]) ++ samplePalettes ++ [0, 0] := by decide +kernel

/-- It meets the hypotheses. -/
theorem sample_writable : Writable sampleAccept 65536 32 1 0 sampleTables where
  format := by decide
  numbers := by decide
  count := by decide
  tags := by decide +kernel
  size := by decide +kernel

example : Takes sampleAccept defaultCfg (fontFile 65536 32 1 0 sampleTables ++ []) 7 .colorPalettes
    cpal.ColorPalettes.read
    (some ⟨.version1 ⟨1, 2, 2, 3, 18, [0, 1]⟩, [⟨1, 2, 3, 4⟩, ⟨5, 6, 7, 8⟩, ⟨9, 10, 11, 12⟩]⟩) :=
  C56_alone (before := [(TableType.fontHeader.tag, bytes [0, 0, 0, 1,  0, 0, 0, 2,  9, 9, 9, 9,  3])])
    (rest := []) sample_writable (by decide +kernel) (by decide +kernel) (relocatable (e := False))
    (by decide +kernel) _ _

/-! ## C57 -/

section
attribute [local irreducible] u16 u32 takeVec raiseIf stay raise

instance {e : Prop} : Reloc e offsets.Record.read (fun _ => True) := by reloc offsets.Record.read
instance {e : Prop} {accept : Tag → Bool} : Reloc e (offsets.Header.read accept) (fun _ => True) := by
  reloc offsets.Header.read
instance {e : Prop} {accept : Tag → Bool} : Reloc e (Offsets.read accept) (fun _ => True) := by
  reloc Offsets.read
instance {e : Prop} {accept : Tag → Bool} : Reloc e (Font.read accept) (fun _ => True) := by
  reloc Font.read
instance {e : Prop} {accept : Tag → Bool} : Reloc e (File.read accept) (fun _ => True) := by
  reloc File.read

end

/-- Opening a file never panics, and neither bytes after the directory nor bytes before it matter. -/
theorem C57_open (accept : Tag → Bool) :
    NeverPanics (File.read accept) ∧ AppendStable (File.read accept) ∧ Relocatable (File.read accept) ∧
      DependsOnRest (File.read accept) :=
  ⟨neverPanics, appendStable (e := False), relocatable (e := False), dependsOnRest (e := False)⟩

theorem sumWords_cases (skip : Nat → Bool) (n : Nat) (d : Data) : ∀ i p,
    (∃ s, sumWords skip i n d p = .ok (s, p + 4 * n)) ∨ sumWords skip i n d p = .error .eof := by
  induction n with
  | zero => intro i p; exact .inl ⟨0, rfl⟩
  | succ n ih =>
    intro i p
    unfold sumWords
    have : (∃ n, u32 d p = .ok (n, p + 4)) ∨ u32 d p = .error .eof := by
      rw [run_u32]
      split
      · exact .inl ⟨_, rfl⟩
      · exact .inr rfl
    rcases this with ⟨w, h⟩ | h
    · rcases ih (i + 1) (p + 4) with ⟨s, h'⟩ | h'
      · refine .inl ⟨((if skip i then 0 else w) + s) % 4294967296, ?_⟩
        refine (bind_ok h).trans ((bind_ok h').trans ?_)
        rw [show p + 4 * (n + 1) = p + 4 + 4 * n by omega]
        rfl
      · exact .inr ((bind_ok h).trans (bind_error h'))
    · exact .inr (bind_error h)

/-- The checksum is computed or the data end. -/
theorem tableChecksum_cases (record : offsets.Record) (d : Data) (p : Nat) :
    (∃ s, tableChecksum record d p = .ok (s, p)) ∨ tableChecksum record d p = .error .eof := by
  unfold tableChecksum
  rw [run_stay_eq]
  rcases sumWords_cases (fun i => record.tag == TableType.fontHeader.tag && i == 2) ((record.size + 3) / 4) d 0
    record.offset with ⟨s, h⟩ | h
  · refine .inl ⟨s, ?_⟩
    rw [show (jump record.offset >>= fun _ =>
      sumWords (fun i => record.tag == TableType.fontHeader.tag && i == 2) 0 ((record.size + 3) / 4)) d p = _
        from h]
  · refine .inr ?_
    rw [show (jump record.offset >>= fun _ =>
      sumWords (fun i => record.tag == TableType.fontHeader.tag && i == 2) 0 ((record.size + 3) / 4)) d p = _
        from h]

theorem stored_u32s {d D : Data} (hx : Ext d D 0) {p n : Nat} {ws : List Nat} (h : U32s d p n ws) :
    U32s D p n ws := by
  refine ⟨h.1, fun i x hi => ?_⟩
  have h1 := at32.mp (h.2 i x hi)
  refine at32.mpr ⟨h1.1, fun j y hj => ?_⟩
  have := hx _ _ (h1.2 j y hj)
  simpa using this

theorem C57_checksum (record : offsets.Record) :
    NeverPanics (tableChecksum record) ∧ AppendStable (tableChecksum record) := by
  refine ⟨fun d p m _ h => ?_, fun d s p _ => ⟨fun v q h => ?_, fun m h => ?_, fun m h => ?_⟩⟩
  · rcases tableChecksum_cases record d p with ⟨s, h'⟩ | h' <;> rw [h'] at h <;> cases h
  · obtain ⟨⟨ws, h1, h2⟩, h3⟩ := run_tableChecksum.mp h
    exact run_tableChecksum.mpr ⟨⟨ws, stored_u32s (ext_mid [] d s) h1, h2⟩, h3⟩
  · rcases tableChecksum_cases record d p with ⟨s, h'⟩ | h' <;> rw [h'] at h <;> cases h
  · rcases tableChecksum_cases record d p with ⟨s, h'⟩ | h' <;> rw [h'] at h <;> cases h

/-- Taking a table never panics if its reader does not and the computation of the checksum does not. -/
theorem C57_take {α : Type} {r : Reader α} (hr : NeverPanics r) {checksum : offsets.Record → Reader Nat}
    (hc : ∀ record, NeverPanics (checksum record)) (cfg : Cfg) (font : Font) (table : TableType) :
    NeverPanics (font.take cfg checksum table r) := by
  intro d p m hd h
  rcases Font.first_or_none table.tag font.offsets.records with ⟨record, hf⟩ | hn
  · have hp : Font.position cfg checksum font table = Font.found cfg checksum record := Font.positionIn_first hf
    have hcase : Font.found cfg checksum record d p = .ok (some (), record.offset) ∨
        ∃ e, Font.found cfg checksum record d p = .error e ∧ e ≠ .panic m := by
      cases hi : cfg.ignoreInvalidChecksums with
      | true => exact .inl (by rw [Font.found_ignore hi])
      | false =>
        rw [Font.found_check hi]
        cases hcs : checksum record d p with
        | error e => exact .inr ⟨e, rfl, fun he => hc record d p m hd (he ▸ hcs)⟩
        | ok x =>
          dsimp only
          split
          · exact .inl rfl
          · exact .inr ⟨_, rfl, by simp⟩
    rw [Font.take_eq, hp] at h
    rcases hcase with hf | ⟨e, hf, hne⟩
    · rw [hf] at h
      dsimp only at h
      cases hrr : r d record.offset with
      | ok x => rw [hrr] at h; cases h
      | error e => rw [hrr] at h; cases h; exact hr d _ m hd hrr
    · rw [hf] at h
      cases h
      exact hne rfl
  · have hp : Font.position cfg checksum font table = pure none := Font.positionIn_none hn
    rw [Font.take_eq, hp] at h
    cases h

/-- Appending bytes to a file changes neither a table that was taken nor a refusal of it. -/
theorem C57_append {α : Type} {r : Reader α} (hr : AppendStable r) {checksum : offsets.Record → Reader Nat}
    (hc : ∀ record, AppendStable (checksum record)) (cfg : Cfg) (font : Font) (table : TableType) :
    AppendStable (font.take cfg checksum table r) := by
  intro d s p hd
  rcases Font.first_or_none table.tag font.offsets.records with ⟨record, hf⟩ | hn
  · have hp : Font.position cfg checksum font table = Font.found cfg checksum record := Font.positionIn_first hf
    have hr := hr d s record.offset hd
    have hc := hc record d s p hd
    simp only [Font.take_eq, hp]
    have key : Font.found cfg checksum record d p = .error .eof ∨
        (Font.found cfg checksum record (d ++ s) p = Font.found cfg checksum record d p ∧
          (Font.found cfg checksum record d p = .ok (some (), record.offset) ∨
            ∃ e, Font.found cfg checksum record d p = .error e)) := by
      cases hi : cfg.ignoreInvalidChecksums with
      | true => exact .inr ⟨by rw [Font.found_ignore hi, Font.found_ignore hi], .inl (by rw [Font.found_ignore hi])⟩
      | false =>
        rw [Font.found_check hi, Font.found_check hi]
        cases hcs : checksum record d p with
        | error e =>
          cases e with
          | eof => exact .inl rfl
          | malformed m => exact .inr ⟨by rw [hc.2.1 m hcs], .inr ⟨_, rfl⟩⟩
          | panic m => exact .inr ⟨by rw [hc.2.2 m hcs], .inr ⟨_, rfl⟩⟩
        | ok x =>
          obtain ⟨n, q⟩ := x
          refine .inr ⟨by rw [hc.1 n q hcs], ?_⟩
          dsimp only
          split
          · exact .inl rfl
          · exact .inr ⟨_, rfl⟩
    rcases key with h | ⟨h1, h2 | ⟨e, h2⟩⟩
    · rw [h]
      exact ⟨by rintro v q ⟨⟩, by rintro m ⟨⟩, by rintro m ⟨⟩⟩
    · rw [h1, h2]
      dsimp only
      cases hrr : r d record.offset with
      | ok x =>
        obtain ⟨x, q⟩ := x
        rw [hr.1 x q hrr]
        exact ⟨fun _ _ h => h, by rintro m ⟨⟩, by rintro m ⟨⟩⟩
      | error e =>
        cases e with
        | eof => exact ⟨by rintro v q ⟨⟩, by rintro m ⟨⟩, by rintro m ⟨⟩⟩
        | malformed m =>
          rw [hr.2.1 m hrr]
          exact ⟨by rintro v q ⟨⟩, fun _ h => h, by rintro m ⟨⟩⟩
        | panic m =>
          rw [hr.2.2 m hrr]
          exact ⟨by rintro v q ⟨⟩, by rintro m ⟨⟩, fun _ h => h⟩
    · rw [h1, h2]
      exact ⟨by rintro v q ⟨⟩, fun _ h => h, fun _ h => h⟩
  · have hp : Font.position cfg checksum font table = pure none := Font.positionIn_none hn
    simp only [Font.take_eq, hp]
    exact ⟨fun _ _ h => h, by rintro m ⟨⟩, by rintro m ⟨⟩⟩

/-- For the tables the library itself reads; the glyph definition in builds without overflow checks, others
being able to panic (C39). -/
theorem C57_tables (cfg : Cfg) (font : Font) :
    NeverPanics (font.take cfg tableChecksum .glyphSubstitution (gsub.GlyphSubstitution.read cfg)) ∧
    NeverPanics (font.take cfg tableChecksum .glyphPositioning (gpos.GlyphPositioning.read cfg)) ∧
    NeverPanics (font.take cfg tableChecksum .colorPalettes cpal.ColorPalettes.read) ∧
    NeverPanics (font.take cfg tableChecksum .fontVariations (fvar.FontVariations.read cfg)) ∧
    AppendStable (font.take cfg tableChecksum .glyphSubstitution (gsub.GlyphSubstitution.read cfg)) ∧
    AppendStable (font.take cfg tableChecksum .glyphPositioning (gpos.GlyphPositioning.read cfg)) ∧
    AppendStable (font.take cfg tableChecksum .glyphDefinition (gdef.GlyphDefinition.read cfg)) ∧
    AppendStable (font.take cfg tableChecksum .colorPalettes cpal.ColorPalettes.read) ∧
    AppendStable (font.take cfg tableChecksum .fontVariations (fvar.FontVariations.read cfg)) :=
  have hp := fun record => (C57_checksum record).1
  have ha := fun record => (C57_checksum record).2
  ⟨C57_take neverPanics hp cfg font _, C57_take neverPanics hp cfg font _, C57_take neverPanics hp cfg font _,
    C57_take neverPanics hp cfg font _, C57_append (appendStable (e := False)) ha cfg font _,
    C57_append (appendStable (e := False)) ha cfg font _,
    C57_append (appendStable (e := cfg.overflowChecks = true)) ha cfg font _,
    C57_append (appendStable (e := False)) ha cfg font _, C57_append (appendStable (e := False)) ha cfg font _⟩

/-- A table of `sampleFont` that passes, one that does not, and one that is absent. -/
example :
    sampleDirectory.take defaultCfg tableChecksum .colorPalettes u32 (sampleFont ++ bytes [1, 2]) 0 =
      .ok (some 1, 64) ∧
    Refuses (sampleDirectory.take defaultCfg tableChecksum .glyphSubstitution u32 sampleFont 0) ∧
    sampleDirectory.take defaultCfg tableChecksum .names u32 sampleFont 5 = .ok (none, 5) :=
  ⟨by decide +kernel, ⟨⟨"found a malformed font table with", [TableType.glyphSubstitution.tag]⟩, by decide +kernel⟩,
    by decide +kernel⟩

end OpenType.Props
