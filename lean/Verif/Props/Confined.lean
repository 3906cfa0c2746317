import Verif.Props.FontFile
import Verif.Props.Ending
/-! # C81: a table and the bytes of its record -/

namespace OpenType.Props
open OpenType Spec

/-- The bytes that a record of the directory says a table has, or those of them that the file has. -/
def ownBytes (d : Data) (record : offsets.Record) : Data := (d.drop record.offset).take record.size

/-- The property in full: taking a table concludes what reading its own bytes, as a file of their own, concludes. -/
def Confined {α : Type} (cfg : Cfg) (table : TableType) (r : Reader α) : Prop :=
  ∀ (font : Font) (record : offsets.Record) (d : Data) (p : Nat), Fits d → FirstWith table.tag font.offsets.records record →
    Passes cfg tableChecksum record d p →
    conclusion (font.take cfg tableChecksum table r d p) = (conclusion (r (ownBytes d record) 0)).map some

/-- Taking a table concludes what reading the file from its offset on concludes, and that is what its own bytes give,
value or failure, unless those end before the table does. -/
def ConfinedIfComplete {α : Type} (cfg : Cfg) (table : TableType) (r : Reader α) : Prop :=
  ∀ (font : Font) (record : offsets.Record) (d : Data) (p : Nat), Fits d → FirstWith table.tag font.offsets.records record →
    Passes cfg tableChecksum record d p →
    conclusion (font.take cfg tableChecksum table r d p) = (conclusion (r (d.drop record.offset) 0)).map some ∧
    (conclusion (font.take cfg tableChecksum table r d p) = (conclusion (r (ownBytes d record) 0)).map some ∨
      r (ownBytes d record) 0 = .error .eof)

theorem ext_own (d : Data) (record : offsets.Record) : Ext (ownBytes d record) d record.offset := by
  intro i b h
  refine ext_drop d record.offset i b ?_
  unfold ownBytes at h
  rw [List.getElem?_take] at h
  split at h
  · exact h
  · cases h

theorem confinedIfComplete {e : Prop} {α : Type} {r : Reader α} {P : α → Prop} [h : Reloc e r P] (cfg : Cfg)
    (table : TableType) : ConfinedIfComplete cfg table r := by
  intro font record d p hd hf hc
  obtain ⟨_, ht, _⟩ := C04_first_record cfg tableChecksum font table record r (fun _ : Unit => r) () d p hf hc
  have ht : conclusion (font.take cfg tableChecksum table r d p) = (conclusion (r d record.offset)).map some := by
    rw [ht]
    cases r d record.offset with
    | error e => rfl
    | ok x => rfl
  refine ⟨by rw [ht, conclusion_drop (e := e) hd], ?_⟩
  obtain ⟨h1, h2, _, h4⟩ := moved (e := e) (r := r) (ext_own d record) hd (p := 0)
  rw [Nat.add_zero] at h1 h2 h4
  rw [ht]
  cases hr : r (ownBytes d record) 0 with
  | ok x => obtain ⟨v, q⟩ := x; rw [h1 v q hr]; exact .inl rfl
  | error e =>
    cases e with
    | eof => exact .inr rfl
    | malformed m => rw [h2 m hr]; exact .inl rfl
    | panic m => rw [h4 m hr]; exact .inl rfl

/-- Part of C81, for each table of this crate. The part that is missing, that a table that reaches beyond its own bytes is
refused, is false: see `C81_violated`. -/
theorem C81_confined_partial (cfg : Cfg) :
    ConfinedIfComplete cfg .glyphSubstitution (gsub.GlyphSubstitution.read cfg) ∧
    ConfinedIfComplete cfg .glyphPositioning (gpos.GlyphPositioning.read cfg) ∧
    ConfinedIfComplete cfg .glyphDefinition (gdef.GlyphDefinition.read cfg) ∧
    ConfinedIfComplete cfg .colorPalettes cpal.ColorPalettes.read ∧
    ConfinedIfComplete cfg .fontVariations (fvar.FontVariations.read cfg) :=
  ⟨confinedIfComplete (e := False) cfg _, confinedIfComplete (e := False) cfg _,
    confinedIfComplete (e := cfg.overflowChecks = true) cfg _, confinedIfComplete (e := False) cfg _,
    confinedIfComplete (e := False) cfg _⟩

/-- While a table is taken, no byte is asked for but those of its record and, for the checksum, those that fill up the last
word, unless the own bytes of the table end before it does. -/
def AsksWithin {α : Type} (cfg : Cfg) (table : TableType) (r : Reader α) : Prop :=
  ∀ (font : Font) (record : offsets.Record) (d : Data) (p : Nat), Fits d →
    FirstWith table.tag font.offsets.records record → Passes cfg tableChecksum record d p →
    r (ownBytes d record) 0 ≠ .error .eof →
    ∀ q n, (q, n) ∈ (font.take cfg tableChecksum table r).fetches d p → 0 < n →
      record.offset ≤ q ∧ q + n ≤ record.offset + (record.size + 3) / 4 * 4 ∧
      (cfg.ignoreInvalidChecksums = true → q + n ≤ record.offset + record.size)

/-- A reader that asks for nothing beyond the first `k` bytes asks for the same if there are more. -/
theorem fetches_take {α : Type} {r : Reader α} {d : Data} {k p : Nat}
    (h : ∀ q n, (q, n) ∈ r.fetches (d.take k) p → 0 < n → q + n ≤ (d.take k).length) :
    r.fetches d p = r.fetches (d.take k) p := by
  induction r generalizing p with
  | done a => rfl
  | fail e => rfl
  | tell next ih => exact ih _ h
  | seek q next ih => exact ih _ h
  | fetch n next ih =>
    have e : Reader.slice d p n = Reader.slice (d.take k) p n := by
      have h1 := h p n (by simp [Reader.fetches])
      unfold Reader.slice
      by_cases hn : n = 0
      · subst hn; simp
      · have h1 := h1 (by omega)
        have h2 := h1
        rw [List.length_take] at h2
        rw [if_pos (by omega), if_pos (by omega)]
        congr 1
        rw [List.drop_take, List.take_take, Nat.min_eq_left (by omega)]
    show (p, n) :: _ = (p, n) :: _
    rw [e]
    exact congrArg _ (ih _ fun q m hm => h q m (List.mem_cons_of_mem _ hm))

theorem checksum_asks {record : offsets.Record} {d : Data} {p q n : Nat}
    (h : (q, n) ∈ (tableChecksum record).fetches d p) :
    record.offset ≤ q ∧ q + n ≤ record.offset + (record.size + 3) / 4 * 4 := by
  have words : ∀ (skip : Nat → Bool) (count i b : Nat), ∀ x ∈ (sumWords skip i count).fetches d b,
      b ≤ x.1 ∧ x.1 + x.2 ≤ b + count * 4 := by
    intro skip count
    induction count with
    | zero => intro i b x hx; cases hx
    | succ count ih =>
      intro i b x hx
      unfold sumWords at hx
      rw [fetches_bind, List.mem_append] at hx
      rcases hx with hx | hx
      · cases hx with
        | head => dsimp only; omega
        | tail _ hx =>
          cases hs : Reader.slice d b 4 with
          | error e => rw [hs] at hx; cases hx
          | ok bytes => rw [hs] at hx; cases hx
      · split at hx
        · next a b' e =>
          have hb : b' = b + 4 := by
            change (Reader.ofResult ((Reader.slice d b 4).map bigEndian)).run d (b + 4) = _ at e
            cases hs : Reader.slice d b 4 with
            | error x => rw [hs] at e; cases e
            | ok bytes => rw [hs] at e; cases e; rfl
          rw [fetches_bind, List.mem_append] at hx
          rcases hx with hx | hx
          · have := ih (i + 1) b' x hx; omega
          · split at hx <;> exact nomatch hx
        · exact nomatch hx
  unfold tableChecksum stay at h
  rw [fetches_bind] at h
  change (q, n) ∈ Reader.fetches _ d p at h
  rw [fetches_bind, List.mem_append] at h
  rcases h with h | h
  · change (q, n) ∈ (sumWords _ 0 _).fetches d record.offset at h
    exact words _ _ _ _ _ h
  · split at h
    · rw [fetches_bind] at h
      cases h
    · cases h

theorem found_asks {cfg : Cfg} {record : offsets.Record} {d : Data} {p q n : Nat}
    (h : (q, n) ∈ (Font.found cfg tableChecksum record).fetches d p) :
    cfg.ignoreInvalidChecksums = false ∧ (q, n) ∈ (tableChecksum record).fetches d p := by
  unfold Font.found at h
  cases hi : cfg.ignoreInvalidChecksums with
  | true =>
    rw [hi] at h
    exact nomatch h
  | false =>
    rw [hi] at h
    simp only [reduceIte] at h
    rw [fetches_bind, List.mem_append] at h
    rcases h with h | h
    · exact ⟨rfl, h⟩
    · split at h
      · unfold raiseIf at h
        split at h <;> exact nomatch h
      · exact nomatch h

theorem asksWithin {e : Prop} {α : Type} {r : Reader α} {P : α → Prop} [h : Reloc e r P] [Stops r] [Forward r] (cfg : Cfg)
    (table : TableType) : AsksWithin cfg table r := by
  intro font record d p hd hf hc hr q n hq hn
  have hp : Font.position cfg tableChecksum font table = Font.found cfg tableChecksum record := Font.positionIn_first hf
  unfold Font.take at hq
  rw [hp, fetches_bind, List.mem_append] at hq
  rcases hq with hq | hq
  · obtain ⟨hi, hq⟩ := found_asks hq
    have := checksum_asks hq
    exact ⟨this.1, this.2, fun h => by rw [hi] at h; cases h⟩
  · rw [found_passes hc] at hq
    dsimp only at hq
    rw [fetches_bind, List.mem_append] at hq
    rcases hq with hq | hq
    · have h0 : (d.take (record.offset + record.size)).drop record.offset = ownBytes d record := by
        unfold ownBytes
        rw [List.drop_take, Nat.add_sub_cancel_left]
      have h1 : r (d.take (record.offset + record.size)) record.offset ≠ .error .eof := by
        intro h1
        have h2 := conclusion_drop (e := e) (r := r) (d := d.take (record.offset + record.size))
          (by unfold Fits at *; rw [List.length_take]; omega) record.offset
        rw [h0, h1] at h2
        revert h2 hr
        cases r (ownBytes d record) 0 with
        | ok x => obtain ⟨x, y⟩ := x; intro hr h2; cases h2
        | error e' => intro hr h2; cases h2; exact hr rfl
      have h2 : ∀ q n, (q, n) ∈ r.fetches (d.take (record.offset + record.size)) record.offset → 0 < n →
          q + n ≤ (d.take (record.offset + record.size)).length := by
        intro q n h3 h4
        refine Nat.le_of_not_lt fun h5 => h1 ((missesExactly _ _).mpr ⟨q, n, h3, h4, h5⟩)
      rw [fetches_take h2] at hq
      have h3 := h2 q n hq hn
      have h4 : record.offset ≤ q := asksForward _ _ q n hq
      rw [List.length_take] at h3
      exact ⟨h4, by omega, fun _ => by omega⟩
    · split at hq <;> exact nomatch hq

/-- The same in terms of the bytes that are asked for. -/
theorem C81_asks_partial (cfg : Cfg) :
    AsksWithin cfg .glyphSubstitution (gsub.GlyphSubstitution.read cfg) ∧
    AsksWithin cfg .glyphPositioning (gpos.GlyphPositioning.read cfg) ∧
    AsksWithin cfg .glyphDefinition (gdef.GlyphDefinition.read cfg) ∧
    AsksWithin cfg .colorPalettes cpal.ColorPalettes.read ∧
    AsksWithin cfg .fontVariations (fvar.FontVariations.read cfg) :=
  ⟨asksWithin (e := False) cfg _, asksWithin (e := False) cfg _,
    asksWithin (e := cfg.overflowChecks = true) cfg _, asksWithin (e := False) cfg _,
    asksWithin (e := False) cfg _⟩

/-- So whoever has the bytes of a table has its value: two files that agree in the bytes of their records give the same, if
the bytes are complete, wherever the tables are and whatever else the files have. -/
theorem C81_same {α : Type} {cfg : Cfg} {table : TableType} {r : Reader α} (h : ConfinedIfComplete cfg table r)
    {font font' : Font} {record record' : offsets.Record} {d d' : Data} {p p' : Nat} (hd : Fits d) (hd' : Fits d')
    (hf : FirstWith table.tag font.offsets.records record) (hf' : FirstWith table.tag font'.offsets.records record')
    (hc : Passes cfg tableChecksum record d p) (hc' : Passes cfg tableChecksum record' d' p')
    (hb : ownBytes d record = ownBytes d' record') (hr : r (ownBytes d record) 0 ≠ .error .eof) :
    conclusion (font.take cfg tableChecksum table r d p) = conclusion (font'.take cfg tableChecksum table r d' p') := by
  rw [(h font record d p hd hf hc).2.resolve_right hr, (h font' record' d' p' hd' hf' hc').2.resolve_right (hb ▸ hr), hb]

/-- In a build that ignores checksums the sizes of the records are of no account. -/
theorem C81_sizes {α P : Type} (cfg : Cfg) (checksum checksum' : offsets.Record → Reader Nat)
    (font font' : Font) (table : TableType) (r : Reader α) (r' : P → Reader α) (parameter : P)
    (hi : cfg.ignoreInvalidChecksums = true)
    (h : font.offsets.records.map (fun x => (x.tag, x.offset)) = font'.offsets.records.map (fun x => (x.tag, x.offset))) :
    font.position cfg checksum table = font'.position cfg checksum' table ∧
    font.take cfg checksum table r = font'.take cfg checksum' table r ∧
    font.take_given cfg checksum table r' parameter = font'.take_given cfg checksum' table r' parameter := by
  have key : ∀ records records' : List offsets.Record,
      records.map (fun x => (x.tag, x.offset)) = records'.map (fun x => (x.tag, x.offset)) →
      Font.positionIn cfg checksum table.tag records = Font.positionIn cfg checksum' table.tag records' := by
    intro records
    induction records with
    | nil =>
      intro records' h
      cases records' with
      | nil => rfl
      | cons => simp at h
    | cons x xs ih =>
      intro records' h
      cases records' with
      | nil => simp at h
      | cons y ys =>
        simp only [List.map_cons, List.cons.injEq, Prod.mk.injEq] at h
        obtain ⟨⟨h1, h2⟩, h3⟩ := h
        simp only [Font.positionIn, h1, h2, hi, ih _ h3]
        rfl
  have hp : font.position cfg checksum table = font'.position cfg checksum' table := key _ _ h
  refine ⟨hp, ?_, ?_⟩
  · unfold Font.take; rw [hp]
  · unfold Font.take_given; rw [hp]

/-- A file with two tables: the colour palettes, which their record says have twelve bytes, and after them four bytes of
another table. -/
def leakingFont : Data := bytes <|
  [0, 1, 0, 0,  0, 2,  0, 32,  0, 1,  0, 0] ++
  [0x43, 0x50, 0x41, 0x4C,  0, 1, 0, 16,  0, 0, 0, 44,  0, 0, 0, 12] ++
  [0x7A, 0x7A, 0x7A, 0x7A,  1, 2, 3, 4,  0, 0, 0, 58,  0, 0, 0, 4] ++
  [0, 0,  0, 1,  0, 1,  0, 1,  0, 0, 0, 14,  0, 0] ++ [1, 2, 3, 4]

def leakingRecord : offsets.Record := ⟨TableType.colorPalettes.tag, 65552, 44, 12⟩

def leakingDirectory : Font := ⟨⟨⟨65536, 2, 32, 1, 0⟩, [leakingRecord, ⟨0x7A7A7A7A, 16909060, 58, 4⟩]⟩⟩

example : Reads (File.read sampleAccept) leakingFont 0 ⟨[leakingDirectory]⟩ ∧
    Reads (leakingDirectory.take defaultCfg tableChecksum .colorPalettes cpal.ColorPalettes.read) leakingFont 0
      (some ⟨.version0 ⟨0, 1, 1, 1, 14, [0]⟩, [⟨1, 2, 3, 4⟩]⟩) := by decide +kernel

/-- The full property is false: a colour palette is taken from the bytes of another table, although the checksum is right. -/
theorem C81_violated : ¬Confined defaultCfg .colorPalettes cpal.ColorPalettes.read := by
  intro h
  have := h leakingDirectory leakingRecord leakingFont 0 (by unfold Fits; decide +kernel) ⟨[], _, rfl, rfl, by simp⟩
    (.inr (by decide +kernel))
  revert this
  decide +kernel

/-- With a record that gives the right size the palettes are within their own bytes, and nothing else is asked for. -/
example :
    let record : offsets.Record := { leakingRecord with size := 18 }
    let font : Font := ⟨⟨⟨65536, 1, 32, 1, 0⟩, [record]⟩⟩
    let cfg := { defaultCfg with ignoreInvalidChecksums := true }
    FirstWith TableType.colorPalettes.tag font.offsets.records record ∧
    Passes cfg tableChecksum record leakingFont 0 ∧
    ownBytes leakingFont record = [0, 0,  0, 1,  0, 1,  0, 1,  0, 0, 0, 14,  0, 0,  1, 2, 3, 4] ∧
    Reads cpal.ColorPalettes.read (ownBytes leakingFont record) 0 ⟨.version0 ⟨0, 1, 1, 1, 14, [0]⟩, [⟨1, 2, 3, 4⟩]⟩ ∧
    (font.take cfg tableChecksum .colorPalettes cpal.ColorPalettes.read).fetches leakingFont 0 =
      [(44, 2), (44, 2), (46, 2), (48, 2), (50, 2), (52, 4), (56, 2), (58, 1), (59, 1), (60, 1), (61, 1)] :=
  ⟨⟨[], _, rfl, rfl, by simp⟩, .inl rfl, by decide +kernel, by decide +kernel, by decide +kernel⟩

/-- The same table at the start of another file is taken alike, whatever comes behind it there. -/
example (after : Data) (hd : Fits (leakingFont.drop 44 ++ after)) :
    let record : offsets.Record := { leakingRecord with size := 18 }
    let record' : offsets.Record := { leakingRecord with size := 18, offset := 0 }
    let cfg := { defaultCfg with ignoreInvalidChecksums := true }
    conclusion ((⟨⟨⟨65536, 1, 32, 1, 0⟩, [record]⟩⟩ : Font).take cfg tableChecksum .colorPalettes cpal.ColorPalettes.read leakingFont 0) =
      conclusion ((⟨⟨⟨65536, 1, 32, 1, 0⟩, [record']⟩⟩ : Font).take cfg tableChecksum .colorPalettes cpal.ColorPalettes.read
        (leakingFont.drop 44 ++ after) 0) := by
  intro record record' cfg
  refine C81_same (C81_confined_partial cfg).2.2.2.1 (record := record) (record' := record') (by unfold Fits; decide +kernel) hd
    ⟨[], _, rfl, rfl, by simp⟩ ⟨[], _, rfl, rfl, by simp⟩ (.inl rfl) (.inl rfl) ?_ (by decide +kernel)
  show _ = (List.drop 0 (leakingFont.drop 44 ++ after)).take 18
  rw [List.drop_zero, List.take_append_of_le_length (by decide +kernel)]
  decide +kernel

/-- In a build that ignores checksums a size of zero makes no difference. -/
example : leakingDirectory.take { defaultCfg with ignoreInvalidChecksums := true } tableChecksum .colorPalettes cpal.ColorPalettes.read =
    (⟨⟨⟨65536, 2, 32, 1, 0⟩, [{ leakingRecord with size := 0 }, ⟨0x7A7A7A7A, 0, 58, 0⟩]⟩⟩ : Font).take
      { defaultCfg with ignoreInvalidChecksums := true } tableChecksum .colorPalettes cpal.ColorPalettes.read :=
  (C81_sizes _ tableChecksum tableChecksum leakingDirectory _ .colorPalettes _ (fun _ : Unit => cpal.ColorPalettes.read) () rfl rfl).2.1

end OpenType.Props
