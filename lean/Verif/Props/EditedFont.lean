import Verif.Props.AskedFont
import Verif.Props.Damage
import Verif.Props.Edited
import Verif.Props.Isolation
/-!
# C98 in a font

A table that has been taken from a font can be edited in the file: its new bytes take the places of the old ones, and
the record of the table gets the new checksum. Nothing else changes.
-/

namespace OpenType.Props
open OpenType Spec

/-- Data of a table can be edited in a font. Let a table have been taken from a file, record number `before.length` of
whose directory is the first of the table, and the table begin behind the directory. Let another table have the same
versions, formats, flags, counts and offsets, and its parts that share bytes agree. Then there is another file, as long
as the first one, that differs only in the places of the table and in the checksum in its record, from which the other
table is taken. -/
def FontTakesOtherData {α : Type} (cfg : Cfg) (r : Reader α) (edit : α → α → Prop) (encode : α → List Chunk) : Prop :=
  ∀ (accept : Tag → Bool) (table : TableType) (d : Data) (p : Nat) (t t' : α) (directory : offsets.Offsets)
    (before after : List offsets.Record) (record : offsets.Record), Fits d →
    Takes accept cfg d p table r (some t) → edit t t' → Consistent (encode t') →
    IsOffsets accept d 0 directory → directory.records = before ++ record :: after → record.tag = table.tag →
    (∀ other ∈ before, other.tag ≠ table.tag) → 12 + 16 * directory.header.table_count ≤ record.offset →
    ∃ (d' : Data) (checksum : Nat), d'.length = d.length ∧
      (∀ i, (∀ c ∈ encode t, ¬(record.offset + c.1 ≤ i ∧ i < record.offset + c.1 + c.2.length)) →
        ¬(12 + 16 * before.length + 4 ≤ i ∧ i < 12 + 16 * before.length + 8) → d'[i]? = d[i]?) ∧
      IsOffsets accept d' 0 ⟨directory.header, before ++ { record with checksum := checksum } :: after⟩ ∧
      ∀ p', Takes accept cfg d' p' table r (some t')

/-- A file that is not a collection has at most one directory. -/
theorem offsets_unique {accept : Tag → Bool} {d : Data} (hd : Fits d) (hn : ¬U32 d 0 0x74746366)
    {a b : offsets.Offsets} (ha : IsOffsets accept d 0 a) (hb : IsOffsets accept d 0 b) : a = b := by
  obtain ⟨_, h1⟩ := (C01_one_font accept d 0 hd ⟨[⟨a⟩]⟩).mpr ⟨hn, _, rfl, ha⟩
  obtain ⟨_, h2⟩ := (C01_one_font accept d 0 hd ⟨[⟨b⟩]⟩).mpr ⟨hn, _, rfl, hb⟩
  rw [h1] at h2
  simpa using congrArg Prod.fst (Except.ok.inj h2)

theorem u16_congr {d d' : Data} {p n : Nat} (h : ∀ q, p ≤ q → q < p + 2 → d'[q]? = d[q]?) (hu : U16 d p n) :
    U16 d' p n := by
  unfold U16 U8 at *
  rw [h p (by omega) (by omega), h (p + 1) (by omega) (by omega)]
  exact hu

/-- The directory with another checksum in one of its records. -/
theorem isOffsets_checksum {accept : Tag → Bool} {d d' : Data} {directory : offsets.Offsets}
    {before after : List offsets.Record} {record : offsets.Record} {s : Nat} (h : IsOffsets accept d 0 directory)
    (he : directory.records = before ++ record :: after)
    (hs : ∀ i < 12 + 16 * directory.header.table_count,
      ¬(12 + 16 * before.length + 4 ≤ i ∧ i < 12 + 16 * before.length + 8) → d'[i]? = d[i]?)
    (hu : U32 d' (12 + 16 * before.length + 4) s) :
    IsOffsets accept d' 0 ⟨directory.header, before ++ { record with checksum := s } :: after⟩ := by
  obtain ⟨h1, h2, h3, h4, h5, h6, h7, h8⟩ := h
  have hl : directory.header.table_count = before.length + (after.length + 1) := by
    rw [← h7, he]; simp
  refine ⟨u32_congr (fun q _ _ => hs q (by omega) (by omega)) h1, h2,
    u16_congr (fun q _ _ => hs q (by omega) (by omega)) h3, u16_congr (fun q _ _ => hs q (by omega) (by omega)) h4,
    u16_congr (fun q _ _ => hs q (by omega) (by omega)) h5, u16_congr (fun q _ _ => hs q (by omega) (by omega)) h6,
    by simp [hl], fun i x hx => ?_⟩
  by_cases hi : i = before.length
  · subst hi
    have hx : x = { record with checksum := s } := by
      rw [List.getElem?_append_right (Nat.le_refl _)] at hx
      simpa using hx.symm
    obtain ⟨g1, g2, g3, g4⟩ := h8 before.length record (by rw [he]; simp)
    subst hx
    refine ⟨u32_congr (fun q _ _ => hs q (by omega) (by omega)) g1, ?_,
      u32_congr (fun q _ _ => hs q (by omega) (by omega)) g3, u32_congr (fun q _ _ => hs q (by omega) (by omega)) g4⟩
    rw [show 0 + 12 + 16 * before.length + 4 = 12 + 16 * before.length + 4 by omega]
    exact hu
  · have hx : directory.records[i]? = some x := by
      rw [he]
      rcases Nat.lt_or_ge i before.length with h | h
      · rw [List.getElem?_append_left h] at hx ⊢; exact hx
      · rw [List.getElem?_append_right h] at hx ⊢
        obtain ⟨k, hk⟩ : ∃ k, i - before.length = k + 1 := ⟨i - before.length - 1, by omega⟩
        rw [hk] at hx ⊢
        exact hx
    have hb : i < directory.header.table_count := by
      rw [← h7]
      exact (List.getElem?_eq_some_iff.mp hx).1
    obtain ⟨g1, g2, g3, g4⟩ := h8 i x hx
    exact ⟨u32_congr (fun q _ _ => hs q (by omega) (by omega)) g1,
      u32_congr (fun q _ _ => hs q (by omega) (by omega)) g2,
      u32_congr (fun q _ _ => hs q (by omega) (by omega)) g3,
      u32_congr (fun q _ _ => hs q (by omega) (by omega)) g4⟩

theorem holds_same {d d' : Data} {p : Nat} {cs : List Chunk} (h : Holds d p cs) (hs : ∀ i, p ≤ i → d'[i]? = d[i]?) :
    Holds d' p cs := fun c hc i x hx => by
  rw [hs _ (by omega)]
  exact h c hc i x hx

theorem RoundTrip.fontTakesOtherData {α : Type} {r : Reader α} {valid : α → Prop} {encode : α → List Chunk}
    {edit : α → α → Prop} (cfg : Cfg) (h : RoundTrip r valid encode) (hk : ∀ x y, edit x y → valid x → valid y)
    (hl : ∀ x y, edit x y → outline (encode y) = outline (encode x)) : FontTakesOtherData cfg r edit encode := by
  intro accept table d p t t' directory before after record hd ht ha hc ho he hg hb hin
  obtain ⟨offset, ⟨hn, directory', record', ho', hf', rfl, hp⟩, hv, hh⟩ :=
    (C55_stored (S := fun d q t => valid t ∧ Holds d q (encode t)) accept cfg table hd
      (fun q t => h.accepts d q t hd) p t).mp ht
  obtain rfl := offsets_unique hd hn ho ho'
  obtain rfl := firstWith_unique ⟨before, after, he, hg, hb⟩ hf'
  have hv' := hk t t' ha hv
  have hln : directory.header.table_count = before.length + (after.length + 1) := by
    rw [← ho.2.2.2.2.2.2.1, he]; simp
  -- The new bytes of the table.
  obtain ⟨d₁, hd₁⟩ : ∃ d₁, d₁ = overwritten d record.offset (encode t') := ⟨_, rfl⟩
  have hl₁ : d₁.length = d.length := by rw [hd₁]; simp [overwritten]
  have hh₁ : Holds d₁ record.offset (encode t') := by rw [hd₁]; exact holds_overwritten hh (hl t t' ha) hc
  have hs₁ : ∀ i, (∀ c ∈ encode t, ¬(record.offset + c.1 ≤ i ∧ i < record.offset + c.1 + c.2.length)) →
      d₁[i]? = d[i]? := by rw [hd₁]; exact fun i => overwritten_else (hl t t' ha)
  have hlow : ∀ i < record.offset, d₁[i]? = d[i]? := fun i hi => hs₁ i fun c _ => by omega
  -- The new checksum.
  obtain ⟨s, hs, hp₁⟩ : ∃ s < 4294967296, cfg.ignoreInvalidChecksums = true ∨
      ∃ words, U32s d₁ record.offset ((record.size + 3) / 4) words ∧
        s = (if table.tag = 0x68656164 then words.set 2 0 else words).sum % 4294967296 := by
    rcases hp with hp | ⟨ws, hw, _⟩
    · exact ⟨0, by omega, .inl hp⟩
    · obtain ⟨ws', hw'⟩ : ∃ ws', U32s d₁ record.offset ((record.size + 3) / 4) ws' := by
        rcases Nat.eq_zero_or_pos ((record.size + 3) / 4) with hz | hz
        · rw [hz]
          exact ⟨[], rfl, fun i x hx => by simp at hx⟩
        · obtain ⟨x, hx⟩ : ∃ x, ws[(record.size + 3) / 4 - 1]? = some x :=
            ⟨_, List.getElem?_eq_getElem (by rw [hw.1]; omega)⟩
          obtain ⟨_, _, _, ⟨_, _, _, ⟨_, hlen, _⟩, _⟩, _⟩ := hw.2 _ _ hx
          have := (List.getElem?_eq_some_iff.mp hlen).1
          exact u32s_exists (by omega)
      exact ⟨_, Nat.mod_lt _ (by omega), .inr ⟨ws', hw', rfl⟩⟩
  obtain ⟨d₂, hd₂⟩ : ∃ d₂, d₂ = overwritten d₁ (12 + 16 * before.length + 4) [(0, enc32 s)] := ⟨_, rfl⟩
  have hl₂ : d₂.length = d.length := by rw [hd₂, ← hl₁]; simp [overwritten]
  have hold : U32 d₁ (12 + 16 * before.length + 4) record.checksum := by
    have := (ho.2.2.2.2.2.2.2 before.length record (by rw [he]; simp)).2.1
    rw [show 0 + 12 + 16 * before.length + 4 = 12 + 16 * before.length + 4 by omega] at this
    exact u32_congr (fun q _ _ => hlow q (by omega)) this
  have hone : ∀ n, Holds d₁ (12 + 16 * before.length + 4) [(0, enc32 n)] ↔
      Stored d₁ (12 + 16 * before.length + 4) (enc32 n) := fun n => by simp [Holds]
  have hu : U32 d₂ (12 + 16 * before.length + 4) s := by
    refine at32.mpr ⟨hs, ?_⟩
    have : Holds d₂ (12 + 16 * before.length + 4) [(0, enc32 s)] := by
      rw [hd₂]
      refine holds_overwritten (cs := [(0, enc32 record.checksum)]) ((hone _).mpr (at32.mp hold).2) rfl ?_
      intro c hc c' hc' i j x y hx hy hij
      rw [List.mem_singleton] at hc hc'
      subst hc hc'
      obtain rfl : i = j := by omega
      exact Option.some.inj (hx.symm.trans hy)
    simpa [Holds] using this
  have hs₂ : ∀ i, ¬(12 + 16 * before.length + 4 ≤ i ∧ i < 12 + 16 * before.length + 8) → d₂[i]? = d₁[i]? := by
    intro i hi
    rw [hd₂]
    refine overwritten_else (cs := [(0, enc32 s)]) rfl ?_
    intro c hc
    rw [List.mem_singleton] at hc
    subst hc
    simp only [enc32_length]
    omega
  have hhigh : ∀ i, record.offset ≤ i → d₂[i]? = d₁[i]? := fun i hi => hs₂ i (by omega)
  have ho₂ := isOffsets_checksum ho he (fun i hi hne => (hs₂ i hne).trans (hlow i (by omega))) hu
  refine ⟨d₂, s, hl₂, fun i h1 h2 => (hs₂ i h2).trans (hs₁ i h1), ho₂, fun p' => ?_⟩
  have hd' : Fits d₂ := by unfold Fits; rw [hl₂]; exact hd
  refine (C55_stored (S := fun d q t => valid t ∧ Holds d q (encode t)) accept cfg table hd'
    (fun q t => h.accepts d₂ q t hd') p' t').mpr ⟨record.offset, ⟨?_, _, { record with checksum := s }, ho₂,
      ⟨before, after, rfl, hg, hb⟩, rfl, ?_⟩, hv', holds_same hh₁ hhigh⟩
  · exact fun hu => hn (u32_congr (fun q _ _ => ((hs₂ q (by omega)).trans (hlow q (by omega))).symm) hu)
  · rcases hp₁ with hp₁ | ⟨ws, hw, e⟩
    · exact .inl hp₁
    · exact .inr ⟨ws, ⟨hw.1, fun i x hx => u32_congr (fun q _ _ => hhigh q (by omega)) (hw.2 i x hx)⟩, e⟩

/-- All tables but the glyph definition. -/
theorem C98_font (cfg : Cfg) :
    FontTakesOtherData cfg (gsub.GlyphSubstitution.read cfg) edited (directoryEncoding cfg) ∧
    FontTakesOtherData cfg (gpos.GlyphPositioning.read cfg) edited (directoryEncoding cfg) ∧
    FontTakesOtherData cfg cpal.ColorPalettes.read edited encoding ∧
    FontTakesOtherData cfg (fvar.FontVariations.read cfg) edited encoding :=
  ⟨(C48_gsub cfg).fontTakesOtherData cfg stays fun _ _ => level_directory,
    (C48_gpos cfg).fontTakesOtherData cfg stays fun _ _ => level_directory,
    C48_cpal.fontTakesOtherData cfg stays fun _ _ => level_encoding,
    (C48_fvar cfg).fontTakesOtherData cfg stays fun _ _ => level_encoding⟩

/-- The glyph definition, as long as the ligatures and their carets stay as they are, see `C98_gdef_partial`. -/
theorem C98_font_gdef_partial (cfg : Cfg) :
    FontTakesOtherData cfg (gdef.GlyphDefinition.read cfg) (fun t t' => edited t t' ∧ t'.ligatures = t.ligatures)
      gdefEncodingTaken :=
  (C52_gdef_taken_partial cfg).fontTakesOtherData cfg (fun _ _ h => edited_gdef h.1 h.2) fun _ _ h => level_gdef h.1

/-- The other tables of the font are taken as before, each as long as its bytes, and those that its checksum is
computed from, are not among those that have changed. -/
theorem C98_font_others {α : Type} {r : Reader α} {encode : α → List Chunk} (h : DependsOnOwnBytes r encode)
    (accept : Tag → Bool) (cfg : Cfg) (other : TableType) (d d' : Data) (p p' : Nat) (directory : offsets.Offsets)
    (before after : List offsets.Record) (record record' : offsets.Record) (checksum : Nat) (t : α) (hd : Fits d)
    (hd' : Fits d') (ho : IsOffsets accept d 0 directory) (he : directory.records = before ++ record :: after)
    (ho' : IsOffsets accept d' 0 ⟨directory.header, before ++ { record with checksum := checksum } :: after⟩)
    (hne : record.tag ≠ other.tag) (hf : FirstWith other.tag directory.records record')
    (ht : Takes accept cfg d p other r (some t))
    (hs : ∀ c ∈ encode t, ∀ i < c.2.length, d'[record'.offset + c.1 + i]? = d[record'.offset + c.1 + i]?)
    (hw : cfg.ignoreInvalidChecksums = false →
      ∀ i < 4 * ((record'.size + 3) / 4), d'[record'.offset + i]? = d[record'.offset + i]?) :
    Takes accept cfg d' p' other r (some t) := by
  obtain ⟨offset, ⟨hn, directory₂, record₂, ho₂, hf₂, rfl, hp⟩, hr⟩ :=
    (C55_stored (S := Reads r) accept cfg other hd (fun q t => Iff.rfl) p t).mp ht
  obtain rfl := offsets_unique hd hn ho ho₂
  obtain rfl := firstWith_unique hf hf₂
  refine (C55_stored (S := Reads r) accept cfg other hd' (fun q t => Iff.rfl) p' t).mpr ⟨record'.offset,
    ⟨fun hu => hn ((ho'.1.unique hu) ▸ ho.1), _, record', ho', ?_, rfl, ?_⟩, h d d' _ _ t hd hd' hr hs⟩
  · obtain ⟨b, a, e, hg, hb⟩ := hf
    rw [he] at e
    rcases List.append_eq_append_iff.mp e with ⟨m, e1, e2⟩ | ⟨m, e1, e2⟩
    · cases m with
      | nil =>
        simp at e2
        exact absurd (e2.1 ▸ hg) hne
      | cons x m =>
        simp at e2
        obtain ⟨rfl, rfl⟩ := e2
        refine ⟨before ++ { record with checksum := checksum } :: m, a, by simp, hg, fun y hy => ?_⟩
        rcases List.mem_append.mp hy with hy | hy
        · exact hb y (by rw [e1]; simp [hy])
        · rcases List.mem_cons.mp hy with rfl | hy
          · exact hne
          · exact hb y (by rw [e1]; simp [hy])
    · cases m with
      | nil =>
        simp at e2
        exact absurd (e2.1 ▸ hg) hne
      | cons x m =>
        simp at e2
        obtain ⟨rfl, rfl⟩ := e2
        exact ⟨b, m ++ { record with checksum := checksum } :: after, by rw [e1]; simp, hg, hb⟩
  · rcases hp with hp | ⟨ws, h1, h2⟩
    · exact .inl hp
    · cases hi : cfg.ignoreInvalidChecksums with
      | true => exact .inl rfl
      | false => exact .inr ⟨ws, u32s_same h1 (hw hi), h2⟩

/-- What has been taken from `gappedFont`. -/
def gappedTable : cpal.ColorPalettes := ⟨.version0 ⟨0, 2, 1, 2, 18, [0]⟩, [⟨1, 2, 3, 4⟩, ⟨5, 6, 7, 8⟩]⟩

/-- The same with other colors and another first index, which is out of range. -/
def gappedOther : cpal.ColorPalettes := ⟨.version0 ⟨0, 2, 1, 2, 18, [900]⟩, [⟨255, 254, 253, 252⟩, ⟨0, 0, 0, 0⟩]⟩

/-- The hypotheses are met. -/
example : Takes sampleAccept defaultCfg gappedFont 0 .colorPalettes cpal.ColorPalettes.read (some gappedTable) ∧
    edited gappedTable gappedOther ∧ Consistent (encoding gappedOther) ∧
    IsOffsets sampleAccept gappedFont 0 gappedDirectory.offsets ∧
    gappedDirectory.offsets.records = [] ++ ⟨TableType.colorPalettes.tag, 320212775, 28, 26⟩ :: [] := by
  have h : Reads (File.read sampleAccept) gappedFont 0 ⟨[gappedDirectory]⟩ := by decide +kernel
  refine ⟨⟨_, h, gappedDirectory, List.mem_singleton.mpr rfl, by decide +kernel⟩, ?_, by decide +kernel, ?_, rfl⟩
  · refine ⟨⟨rfl, rfl, by simp [All16]⟩, rfl, ?_⟩
    rintro (_ | _ | i) x y hx hy
    · cases hy
      exact ⟨by decide, by decide, by decide, by decide⟩
    · cases hy
      exact ⟨by decide, by decide, by decide, by decide⟩
    · cases hy
  · obtain ⟨_, font, e, ho⟩ := (C01_one_font sampleAccept gappedFont 0 (by decide +kernel) _).mp h
    obtain rfl : gappedDirectory = font := by simpa using e
    exact ho

end OpenType.Props
