import Verif.Props.Footprint
import Verif.Props.FontFile
/-! # C68 and C69: damage is seen where it is, and only there -/

namespace OpenType.Props
open OpenType Spec coverage class_ correction context script feature directory

/-! ## C68 -/

/-- From two tapes on which a byte of what a value is made of differs, `encode t` being where those bytes are and
what they are (`Spec/Encode.lean`), the value is not read from both. -/
def NoticesChange {α : Type} (r : Reader α) (encode : α → List Chunk) : Prop :=
  ∀ (d d' : Data) (p p' : Nat) (t : α), Fits d → Fits d' → Reads r d p t →
    (∃ c ∈ encode t, ∃ i < c.2.length, d'[p' + c.1 + i]? ≠ d[p + c.1 + i]?) → ¬Reads r d' p' t

theorem RoundTrip.noticesChange {α : Type} {r : Reader α} {valid : α → Prop}
    {encode : α → List Chunk} (h : RoundTrip r valid encode) : NoticesChange r encode := by
  rintro d d' p p' t hd hd' hr ⟨c, hc, i, hi, hne⟩ hr'
  have h1 := ((h.accepts d p t hd).mp hr).2 c hc i _ (List.getElem?_eq_getElem hi)
  have h2 := ((h.accepts d' p' t hd').mp hr').2 c hc i _ (List.getElem?_eq_getElem hi)
  exact hne (h2.trans h1.symm)

/-- For the tables. -/
theorem C68_tables (cfg : Cfg) :
    NoticesChange (gsub.GlyphSubstitution.read cfg) (directoryEncoding cfg) ∧
    NoticesChange (gpos.GlyphPositioning.read cfg) (directoryEncoding cfg) ∧
    NoticesChange (gdef.GlyphDefinition.read cfg) gdefEncodingTaken ∧
    NoticesChange cpal.ColorPalettes.read encoding ∧
    NoticesChange (fvar.FontVariations.read cfg) encoding ∧
    NoticesChange (item.Store.read cfg) encoding :=
  ⟨(C48_gsub cfg).noticesChange, (C48_gpos cfg).noticesChange,
    (C52_gdef_taken_partial cfg).noticesChange, C48_cpal.noticesChange,
    (C48_fvar cfg).noticesChange, (C48_store cfg).noticesChange⟩

/-- For the parts of the layout tables, taken on their own. -/
theorem C68_layout (cfg : Cfg) (type_ : Nat) :
    NoticesChange Coverage.read encoding ∧ NoticesChange Class.read encoding ∧
    NoticesChange Correction.read encoding ∧ NoticesChange Context.read encoding ∧
    NoticesChange ChainedContext.read encoding ∧ NoticesChange Scripts.read encoding ∧
    NoticesChange Features.read encoding ∧
    NoticesChange (gsub.Type_.read type_) encoding ∧
    NoticesChange (gpos.Type_.read cfg type_) encoding :=
  have ⟨h1, h2, h3, h4, h5, h6, h7⟩ := C48_layout
  have ⟨h8, h9⟩ := C48_lookup cfg type_
  ⟨h1.noticesChange, h2.noticesChange, h3.noticesChange, h4.noticesChange, h5.noticesChange, h6.noticesChange,
    h7.noticesChange, h8.noticesChange, h9.noticesChange⟩

theorem u8_inj {d d' : Data} {p p' n : Nat} (h : U8 d p n) (h' : U8 d' p' n) : d'[p']? = d[p]? := by
  obtain ⟨a, e, rfl⟩ := h
  obtain ⟨b, e', h⟩ := h'
  rw [e, e', UInt8.toNat_inj.mp h]

theorem u8_lt {d : Data} {p n : Nat} (h : U8 d p n) : n < 256 := by
  obtain ⟨a, _, rfl⟩ := h
  exact a.toNat_lt

theorem u16_inj {d d' : Data} {p p' n : Nat} (h : U16 d p n) (h' : U16 d' p' n) :
    ∀ i < 2, d'[p' + i]? = d[p + i]? := by
  obtain ⟨a, b, ha, hb, rfl⟩ := h
  obtain ⟨a', b', ha', hb', h⟩ := h'
  have := u8_lt hb
  have := u8_lt hb'
  obtain rfl : a' = a := by omega
  obtain rfl : b' = b := by omega
  intro i hi
  rcases i with _ | _ | i
  · exact u8_inj ha ha'
  · exact u8_inj hb hb'
  · omega

theorem u16_lt' {d : Data} {p n : Nat} (h : U16 d p n) : n < 65536 := by
  obtain ⟨a, b, ha, hb, rfl⟩ := h
  have := u8_lt ha
  have := u8_lt hb
  omega

theorem u32_inj {d d' : Data} {p p' n : Nat} (h : U32 d p n) (h' : U32 d' p' n) :
    ∀ i < 4, d'[p' + i]? = d[p + i]? := by
  obtain ⟨a, b, ha, hb, rfl⟩ := h
  obtain ⟨a', b', ha', hb', h⟩ := h'
  have := u16_lt' hb
  have := u16_lt' hb'
  obtain rfl : a' = a := by omega
  obtain rfl : b' = b := by omega
  intro i hi
  by_cases h2 : i < 2
  · exact u16_inj ha ha' i h2
  · have := u16_inj hb hb' (i - 2) (by omega)
    rwa [show p' + 2 + (i - 2) = p' + i by omega, show p + 2 + (i - 2) = p + i by omega] at this

theorem offsets_inj {accept accept' : Tag → Bool} {d d' : Data} {p p' : Nat} {t : offsets.Offsets}
    (h : IsOffsets accept d p t) (h' : IsOffsets accept' d' p' t) :
    ∀ i < 12 + 16 * t.records.length, d'[p' + i]? = d[p + i]? := by
  obtain ⟨a1, _, a2, a3, a4, a5, al, a6⟩ := h
  obtain ⟨b1, _, b2, b3, b4, b5, _, b6⟩ := h'
  intro i hi
  have shift : ∀ k n, k ≤ i → i < k + n → (∀ j < n, d'[p' + k + j]? = d[p + k + j]?) →
      d'[p' + i]? = d[p + i]? := by
    intro k n h1 h2 h
    have := h (i - k) (by omega)
    rwa [show p' + k + (i - k) = p' + i by omega, show p + k + (i - k) = p + i by omega] at this
  by_cases h1 : i < 4
  · exact u32_inj a1 b1 i h1
  by_cases h2 : i < 6
  · exact shift 4 2 (by omega) h2 (u16_inj a2 b2)
  by_cases h3 : i < 8
  · exact shift 6 2 (by omega) h3 (u16_inj a3 b3)
  by_cases h4 : i < 10
  · exact shift 8 2 (by omega) h4 (u16_inj a4 b4)
  by_cases h5 : i < 12
  · exact shift 10 2 (by omega) h5 (u16_inj a5 b5)
  have hk : (i - 12) / 16 < t.records.length := by omega
  obtain ⟨x1, x2, x3, x4⟩ := a6 _ _ (List.getElem?_eq_getElem hk)
  obtain ⟨y1, y2, y3, y4⟩ := b6 _ _ (List.getElem?_eq_getElem hk)
  generalize e : 16 * ((i - 12) / 16) = k at *
  simp only [Nat.add_assoc p, Nat.add_assoc p'] at x1 x2 x3 x4 y1 y2 y3 y4
  by_cases g1 : i < 12 + k + 4
  · exact shift (12 + k) 4 (by omega) g1 (u32_inj x1 y1)
  by_cases g2 : i < 12 + k + 8
  · exact shift (12 + (k + 4)) 4 (by omega) (by omega) (u32_inj x2 y2)
  by_cases g3 : i < 12 + k + 12
  · exact shift (12 + (k + 8)) 4 (by omega) (by omega) (u32_inj x3 y3)
  · exact shift (12 + (k + 12)) 4 (by omega) (by omega) (u32_inj x4 y4)

/-- And for the directory of a file: a file that differs in a byte of its first `12 + 16 n`, where `n` is the number
of its tables, does not open as the same file. -/
theorem C68_file (accept : Tag → Bool) (d d' : Data) (p p' : Nat) (file : File) (hd : Fits d) (hd' : Fits d')
    (h : Reads (File.read accept) d p file) (font : Font) (hf : font ∈ file.fonts) (i : Nat)
    (hi : i < 12 + 16 * font.offsets.records.length) (hne : d'[p' + i]? ≠ d[p + i]?) :
    ¬Reads (File.read accept) d' p' file := by
  intro h'
  obtain ⟨_, f, e, ho⟩ := (C01_one_font accept d p hd file).mp h
  obtain ⟨_, f', e', ho'⟩ := (C01_one_font accept d' p' hd' file).mp h'
  rw [e, List.mem_singleton] at hf
  obtain rfl : f = f' := by rw [e] at e'; exact List.singleton_inj.mp e'
  subst hf
  exact hne (offsets_inj ho ho' i hi)

/-- Changing the third byte of the colour of a palette table gives another table, changing a byte between the header
and the colours does not. -/
example :
    let d := bytes [0, 0,  0, 1,  0, 1,  0, 1,  0, 0, 0, 16,  0, 0,  3, 4,  9, 8, 7, 6]
    let t : cpal.ColorPalettes := ⟨.version0 ⟨0, 1, 1, 1, 16, [0]⟩, [⟨9, 8, 7, 6⟩]⟩
    Reads cpal.ColorPalettes.read d 0 t ∧ Reads cpal.ColorPalettes.read (d.set 14 5) 0 t ∧
      (∃ c ∈ encoding t, ∃ i < c.2.length, (d.set 18 5)[0 + c.1 + i]? ≠ d[0 + c.1 + i]?) ∧
      ¬Reads cpal.ColorPalettes.read (d.set 18 5) 0 t := by
  decide +kernel

/-! ## C69 -/

theorem u8_same {d d' : Data} {p p' n : Nat} (h : U8 d p n) (e : d'[p']? = d[p]?) : U8 d' p' n := by
  obtain ⟨a, e', rfl⟩ := h
  exact ⟨a, e.trans e', rfl⟩

theorem u16_same {d d' : Data} {p p' n : Nat} (h : U16 d p n) (e : ∀ i < 2, d'[p' + i]? = d[p + i]?) :
    U16 d' p' n := by
  obtain ⟨a, b, ha, hb, rfl⟩ := h
  exact ⟨a, b, u8_same ha (e 0 (by omega)), u8_same hb (e 1 (by omega)), rfl⟩

theorem u32_same {d d' : Data} {p p' n : Nat} (h : U32 d p n) (e : ∀ i < 4, d'[p' + i]? = d[p + i]?) :
    U32 d' p' n := by
  obtain ⟨a, b, ha, hb, rfl⟩ := h
  refine ⟨a, b, u16_same ha fun i hi => e i (by omega), u16_same hb fun i hi => ?_, rfl⟩
  have := e (2 + i) (by omega)
  rwa [← Nat.add_assoc, ← Nat.add_assoc] at this

theorem u32s_same {d d' : Data} {p n : Nat} {words : List Nat} (h : U32s d p n words)
    (e : ∀ i < 4 * n, d'[p + i]? = d[p + i]?) : U32s d' p n words := by
  refine ⟨h.1, fun i x hx => u32_same (h.2 i x hx) fun j hj => ?_⟩
  have : i < n := by
    rw [← h.1]; exact (List.getElem?_eq_some_iff.mp hx).1
  have := e (4 * i + j) (by omega)
  rwa [← Nat.add_assoc] at this

theorem offsets_same {accept : Tag → Bool} {d d' : Data} {p : Nat} {t : offsets.Offsets}
    (h : IsOffsets accept d p t) (e : ∀ i < 12 + 16 * t.records.length, d'[p + i]? = d[p + i]?) :
    IsOffsets accept d' p t := by
  obtain ⟨a1, ha, a2, a3, a4, a5, al, a6⟩ := h
  have at_ : ∀ k n, k + n ≤ 12 + 16 * t.records.length → ∀ j < n, d'[p + k + j]? = d[p + k + j]? := by
    intro k n hk j hj
    rw [Nat.add_assoc]
    exact e _ (by omega)
  refine ⟨u32_same a1 fun i hi => e i (by omega), ha, u16_same a2 (at_ 4 2 (by omega)),
    u16_same a3 (at_ 6 2 (by omega)), u16_same a4 (at_ 8 2 (by omega)), u16_same a5 (at_ 10 2 (by omega)), al,
    fun i x hx => ?_⟩
  have : i < t.records.length := (List.getElem?_eq_some_iff.mp hx).1
  obtain ⟨x1, x2, x3, x4⟩ := a6 i x hx
  unfold IsOffsetsRecord
  simp only [Nat.add_assoc p] at x1 x2 x3 x4 ⊢
  exact ⟨u32_same x1 (at_ _ 4 (by omega)), u32_same x2 (at_ _ 4 (by omega)), u32_same x3 (at_ _ 4 (by omega)),
    u32_same x4 (at_ _ 4 (by omega))⟩

/-- A table that was taken from a font is taken again from any other tape that has the same bytes where the table's
value has its own, counted from the offset in the directory, and, unless the build ignores checksums, in the words
the checksum is computed from. All other bytes may differ, those of other tables among them, and so may the lengths
of the tapes and the positions they stand at. -/
def Isolated {α : Type} (cfg : Cfg) (r : Reader α) (encode : α → List Chunk) : Prop :=
  ∀ (font : Font) (table : TableType) (d d' : Data) (p p' : Nat) (t : α) (record : offsets.Record),
    Fits d → Fits d' → FirstWith table.tag font.offsets.records record →
    Reads (font.take cfg tableChecksum table r) d p (some t) →
    (∀ c ∈ encode t, ∀ i < c.2.length, d'[record.offset + c.1 + i]? = d[record.offset + c.1 + i]?) →
    (cfg.ignoreInvalidChecksums = false →
      ∀ i < 4 * ((record.size + 3) / 4), d'[record.offset + i]? = d[record.offset + i]?) →
    Reads (font.take cfg tableChecksum table r) d' p' (some t)

theorem firstWith_unique {tag : Tag} {records : List offsets.Record} {a b : offsets.Record}
    (h : FirstWith tag records a) (h' : FirstWith tag records b) : a = b := by
  have find : ∀ {a}, FirstWith tag records a → records.find? (·.tag = tag) = some a := by
    rintro a ⟨before, after, rfl, ht, hb⟩
    rw [List.find?_append, List.find?_eq_none.mpr (by simpa using hb)]
    simp [ht]
  exact Option.some.inj ((find h).symm.trans (find h'))

theorem DependsOnOwnBytes.isolated {α : Type} {r : Reader α} {encode : α → List Chunk} (cfg : Cfg)
    (h : DependsOnOwnBytes r encode) : Isolated cfg r encode := by
  intro font table d d' p p' t record hd hd' hf ht he hw
  obtain ⟨record', hf', hp, hr⟩ := C04_only_first cfg tableChecksum font table r d p t ht
  obtain rfl := firstWith_unique hf hf'
  have hg : record.tag = table.tag := by obtain ⟨_, _, _, h, _⟩ := hf; exact h
  have hp' : Passes cfg tableChecksum record d' p' := by
    refine (passes_iff hg).mpr ?_
    cases hi : cfg.ignoreInvalidChecksums with
    | true => exact .inl rfl
    | false =>
      rcases (passes_iff hg).mp hp with h | ⟨words, h1, h2⟩
      · rw [hi] at h; cases h
      · exact .inr ⟨words, u32s_same h1 (hw hi), h2⟩
  obtain ⟨_, h1, _⟩ := C04_first_record cfg tableChecksum font table record r (fun _ : Unit => r) () d' p' hf hp'
  obtain ⟨q, hq⟩ := h d d' record.offset record.offset t hd hd' hr he
  rw [hq] at h1
  exact ⟨_, h1⟩

/-- For the tables the library itself reads. -/
theorem C69_tables (cfg : Cfg) :
    Isolated cfg (gsub.GlyphSubstitution.read cfg) (directoryEncoding cfg) ∧
    Isolated cfg (gpos.GlyphPositioning.read cfg) (directoryEncoding cfg) ∧
    Isolated cfg (gdef.GlyphDefinition.read cfg) gdefEncodingTaken ∧
    Isolated cfg cpal.ColorPalettes.read encoding ∧
    Isolated cfg (fvar.FontVariations.read cfg) encoding :=
  have ⟨h1, h2, h3, h4, h5, _⟩ := C50_own_bytes cfg
  ⟨h1.isolated cfg, h2.isolated cfg, h3.isolated cfg, h4.isolated cfg, h5.isolated cfg⟩

/-- From the bytes of the file: if in addition the bytes of the directory are the same, the damaged file opens and
the table is taken from it. `n` is the number of the tables. -/
theorem C69_file {α : Type} {r : Reader α} {encode : α → List Chunk} (accept : Tag → Bool) (cfg : Cfg)
    (hr : Isolated cfg r encode) (table : TableType) (d d' : Data) (p p' : Nat) (t : α) (hd : Fits d) (hd' : Fits d')
    (directory : offsets.Offsets) (record : offsets.Record) (ho : IsOffsets accept d 0 directory)
    (hf : FirstWith table.tag directory.records record) (ht : Takes accept cfg d p table r (some t))
    (h1 : ∀ i < 12 + 16 * directory.records.length, d'[i]? = d[i]?)
    (h2 : ∀ c ∈ encode t, ∀ i < c.2.length, d'[record.offset + c.1 + i]? = d[record.offset + c.1 + i]?)
    (h3 : cfg.ignoreInvalidChecksums = false →
      ∀ i < 4 * ((record.size + 3) / 4), d'[record.offset + i]? = d[record.offset + i]?) :
    Takes accept cfg d' p' table r (some t) := by
  obtain ⟨file, g1, font, g2, g3⟩ := ht
  obtain ⟨hn, font', e, ho'⟩ := (C01_one_font accept d 0 hd file).mp g1
  rw [e, List.mem_singleton] at g2
  subst g2
  have same : font.offsets = directory := by
    obtain ⟨_, k⟩ := (C01_one_font accept d 0 hd ⟨[⟨directory⟩]⟩).mpr ⟨hn, ⟨directory⟩, rfl, ho⟩
    obtain ⟨_, k'⟩ := g1
    rw [k] at k'
    obtain ⟨k', _⟩ := Prod.mk.inj (Except.ok.inj k')
    rw [← k'] at e
    rw [← List.singleton_inj.mp e]
  subst same
  have hs : ∀ i < 12 + 16 * font.offsets.records.length, d'[0 + i]? = d[0 + i]? := by
    simpa only [Nat.zero_add] using h1
  refine ⟨file, (C01_one_font accept d' 0 hd' file).mpr ⟨fun hc => hn ?_, font, e, offsets_same ho hs⟩, font,
    by rw [e]; exact List.mem_singleton.mpr rfl, hr font table d d' p p' t record hd hd' hf g3 h2 h3⟩
  exact u32_same hc fun i hi => (hs i (by omega)).symm

/-- A font with a palette table of one colour, followed by two bytes that belong to no table: these may change. -/
example :
    let font := bytes [0, 1, 0, 0,  0, 1,  0, 16,  0, 0,  0, 0,
      67, 80, 65, 76,  7, 7, 9, 24,  0, 0, 0, 28,  0, 0, 0, 18,
      0, 0,  0, 1,  0, 1,  0, 1,  0, 0, 0, 14,  0, 0,  9, 8, 7, 6,  0, 0,  3, 4]
    let font' := font.set 48 77
    let t : cpal.ColorPalettes := ⟨.version0 ⟨0, 1, 1, 1, 14, [0]⟩, [⟨9, 8, 7, 6⟩]⟩
    let record : offsets.Record := ⟨TableType.colorPalettes.tag, 117901592, 28, 18⟩
    let directory : offsets.Offsets := ⟨⟨65536, 1, 16, 0, 0⟩, [record]⟩
    font ≠ font' ∧ Reads (File.read sampleAccept) font 0 ⟨[⟨directory⟩]⟩ ∧
    (Font.mk directory).take defaultCfg tableChecksum .colorPalettes cpal.ColorPalettes.read font 0 = .ok (some t, 46) ∧
    (∀ i < 12 + 16 * directory.records.length, font'[i]? = font[i]?) ∧
    (∀ c ∈ encoding t, ∀ i < c.2.length, font'[record.offset + c.1 + i]? = font[record.offset + c.1 + i]?) ∧
    (∀ i < 4 * ((record.size + 3) / 4), font'[record.offset + i]? = font[record.offset + i]?) ∧
    (Font.mk directory).take defaultCfg tableChecksum .colorPalettes cpal.ColorPalettes.read font' 0 =
      .ok (some t, 46) := by
  decide +kernel

end OpenType.Props
