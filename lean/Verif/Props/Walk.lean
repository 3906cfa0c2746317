import Verif.Spec.Walk
import Verif.Props.Lists
import Verif.Props.FontFile
/-! # C100: from a script and a language to lookups -/

namespace OpenType.Props
open OpenType Spec script feature lookup directory

theorem _root_.OpenType.Spec.Tagged.unique {d : Data} {base c : Nat} {tag : Tag} {a a' : Nat} (h : Tagged d base c tag a)
    (h' : Tagged d base c tag a') : a = a' := by
  obtain ⟨n, k, o, _, _, h1, h2, h3, rfl⟩ := h
  obtain ⟨n', k', o', _, _, h1', h2', h3', rfl⟩ := h'
  have hk : k = k' := by
    rcases Nat.lt_trichotomy k k' with hl | he | hl
    · exact (h2' k hl h1).elim
    · exact he
    · exact (h2 k' hl h1').elim
  subst hk
  rw [h3.unique h3']

theorem _root_.OpenType.Spec.ListAt.unique {cfg : Cfg} {d : Data} {p k a a' : Nat} (h : ListAt cfg d p k a) (h' : ListAt cfg d p k a') :
    a = a' := by
  obtain ⟨o, h1, _, rfl⟩ := h
  obtain ⟨o', h1', _, rfl⟩ := h'
  rw [h1.unique h1']

theorem _root_.OpenType.Spec.LookupAt.unique {cfg : Cfg} {d : Data} {p k a a' : Nat} (h : LookupAt cfg d p k a)
    (h' : LookupAt cfg d p k a') : a = a' := by
  obtain ⟨b, n, o, h0, _, _, h1, rfl⟩ := h
  obtain ⟨b', n', o', h0', _, _, h1', rfl⟩ := h'
  obtain rfl := h0.unique h0'
  rw [h1.unique h1']

theorem _root_.OpenType.Spec.LanguageAt.unique {d : Data} {s : Nat} {tag : Tag} {l l' : Nat} (h : LanguageAt d s tag l)
    (h' : LanguageAt d s tag l') : l = l' := by
  rcases h with h | ⟨h, o, ho, _, rfl⟩ <;> rcases h' with h' | ⟨h', o', ho', _, rfl⟩
  · exact h.unique h'
  · exact (h' _ h).elim
  · exact (h _ h').elim
  · rw [ho.unique ho']

/-- A search by tag finds what the tag leads to. -/
theorem getByTag_tagged {H R : Type} {tagOf : H → Tag} {offsetOf : H → Nat} {S : Nat → R → Prop} {d : Data}
    {base c n : Nat} {headers : List H} {records : List R} (hn : U16 d c n)
    (hh : ArrayOf (fun q h => U32 d q (tagOf h) ∧ U16 d (q + 4) (offsetOf h)) 6 (c + 2) n headers)
    (hr : AtOffsets S base (headers.map offsetOf) records) (tag : Tag) :
    (∃ r a, getByTag tagOf headers records tag = .ok (some r) ∧ Tagged d base c tag a ∧ S a r) ∨
      (getByTag tagOf headers records tag = .ok none ∧ ∀ a, ¬Tagged d base c tag a) := by
  have hl : records.length = headers.length := by have := hr.1; rwa [List.length_map] at this
  have := getsFirst (tagOf := tagOf) hl tag
  by_cases he : ∃ header ∈ headers, tagOf header = tag
  · left
    obtain ⟨i, header, record, h1, h2, h3, h4, h5⟩ := this.2.1 he
    refine ⟨record, base + offsetOf header, h5, ⟨n, i, offsetOf header, hn, ?_, ?_, ?_, (hh.2 i _ h1).2, rfl⟩, ?_⟩
    · rw [← hh.1]; exact (List.getElem?_eq_some_iff.mp h1).1
    · rw [← h2]; exact (hh.2 i _ h1).1
    · intro j hj ht
      have hi := (List.getElem?_eq_some_iff.mp h1).1
      have e := List.getElem?_eq_getElem (l := headers) (i := j) (by omega)
      exact h3 j _ hj e ((hh.2 j _ e).1.unique ht)
    · exact hr.2 i _ _ (by rw [List.getElem?_map, h1]; rfl) h4
  · right
    refine ⟨this.1.mpr (fun header hm ht => he ⟨header, hm, ht⟩), ?_⟩
    rintro a ⟨n', k, o, h1, h2, h3, _⟩
    rw [h1.unique hn] at h2
    have e := List.getElem?_eq_getElem (l := headers) (i := k) (by rw [hh.1]; exact h2)
    exact he ⟨_, List.getElem_mem _, (hh.2 k _ e).1.unique h3⟩

theorem _root_.OpenType.Spec.IsPart.listAt {α : Type} {cfg : Cfg} {S : Nat → α → Prop} {d : Data} {p k offset : Nat} {empty x : α}
    (ho : U16 d (p + 4 + 2 * k) offset) (h : IsPart cfg S p offset empty x) :
    (∃ a, ListAt cfg d p k a ∧ S a x) ∨ (x = empty ∧ ∀ a, ¬ListAt cfg d p k a) := by
  unfold IsPart at h
  split at h
  · rename_i hc
    refine .inr ⟨h, ?_⟩
    rintro a ⟨o, h1, h2, _⟩
    rw [h1.unique ho] at h2
    exact h2 hc
  · rename_i hc
    exact .inl ⟨_, ⟨offset, ho, hc, rfl⟩, h⟩

theorem mem_featuresOf {d : Data} {l : Nat} {t : language.Record} (h : IsLanguageRecord d l t) (f : Nat) :
    f ∈ featuresOf t ↔ HasFeature d l f := by
  obtain ⟨_, _, h1, h2, h3, h4⟩ := h
  unfold featuresOf HasFeature
  rw [List.mem_append]
  refine or_congr ?_ ?_
  · split
    · rename_i he
      constructor
      · intro h; cases h
      · rintro ⟨h, hn⟩; exact (hn ((h.unique h1).trans he)).elim
    · rename_i he
      rw [List.mem_singleton]
      constructor
      · rintro rfl; exact ⟨h1, he⟩
      · rintro ⟨h, _⟩; exact h.unique h1
  · constructor
    · intro hm
      obtain ⟨i, hi, rfl⟩ := List.getElem_of_mem hm
      exact ⟨_, i, h2, by rw [← h3]; exact hi, h4 i _ (List.getElem?_eq_getElem hi)⟩
    · rintro ⟨n, i, hn, hi, hf⟩
      rw [hn.unique h2, ← h3] at hi
      rw [← (h4 i _ (List.getElem?_eq_getElem hi)).unique hf]
      exact List.getElem_mem hi

theorem mem_lookup_indices {d : Data} {a : Nat} {t : feature.Record} (h : IsFeatureRecord d a t) (k : Nat) :
    k ∈ t.lookup_indices ↔ HasLookup d a k := by
  obtain ⟨_, h2, ⟨h3, h4⟩, _⟩ := h
  constructor
  · intro hm
    obtain ⟨i, hi, rfl⟩ := List.getElem_of_mem hm
    exact ⟨_, i, h2, by rw [← h3]; exact hi, h4 i _ (List.getElem?_eq_getElem hi)⟩
  · rintro ⟨n, i, hn, hi, hf⟩
    rw [hn.unique h2, ← h3] at hi
    rw [← (h4 i _ (List.getElem?_eq_getElem hi)).unique hf]
    exact List.getElem_mem hi

/-- The records of the lookup list are those at the places of the lookups. -/
theorem lookups_at {T : Type} {cfg : Cfg} {isTable : Nat → Data → Nat → T → Prop} {d : Data} {p : Nat}
    {t : Directory T} (h : IsDirectory cfg isTable d p t) (k : Nat) :
    (∀ record, t.lookups.records[k]? = some record →
      ∃ a, LookupAt cfg d p k a ∧ IsLookupRecord cfg isTable d a record) ∧
    ∀ a, LookupAt cfg d p k a → ∃ record, t.lookups.records[k]? = some record := by
  obtain ⟨_, _, _, _, _, _, ho, _, _, _, hp, _⟩ := h
  rcases IsPart.listAt (k := 2) ho hp with ⟨b, hb, h1, ⟨h2, h3⟩, h4, h5⟩ | ⟨he, hn⟩
  · constructor
    · intro record hr
      have hk := (List.getElem?_eq_some_iff.mp hr).1
      have e := List.getElem?_eq_getElem (l := t.lookups.offsets) (i := k) (by omega)
      exact ⟨_, ⟨b, _, _, hb, h1, by omega, h3 k _ e, rfl⟩, h5 k _ _ e hr⟩
    · rintro a ⟨b', n, o, hb', hn, hk, _⟩
      obtain rfl := hb.unique hb'
      rw [hn.unique h1] at hk
      exact ⟨_, List.getElem?_eq_getElem (by omega)⟩
  · constructor
    · intro record hr; rw [he] at hr; cases hr
    · rintro a ⟨b', n, o, hb', _⟩; exact (hn _ hb').elim

theorem mem_lookupsOf {T : Type} {cfg : Cfg} {isTable : Nat → Data → Nat → T → Prop} {d : Data} {p : Nat}
    {t : Directory T} (h : IsDirectory cfg isTable d p t) (f : Nat) (tag : Tag) (k : Nat) (record : lookup.Record T) :
    (tag, k, record) ∈ lookupsOf t f ↔
      t.lookups.records[k]? = some record ∧ ∃ b, FeatureAt cfg d p f tag b ∧ HasLookup d b k := by
  obtain ⟨_, _, _, _, _, ho, _, _, _, hp, _, _⟩ := h
  unfold lookupsOf
  rcases IsPart.listAt (k := 1) ho hp with ⟨b, hb, h1, ⟨h2, h3⟩, h4, h5⟩ | ⟨he, hn⟩
  · rw [List.length_map] at h4
    by_cases hf : f < t.features.headers.length
    · have e1 := List.getElem?_eq_getElem hf
      have e2 := List.getElem?_eq_getElem (l := t.features.records) (i := f) (by omega)
      have e3 := h5 f _ _ (by rw [List.getElem?_map, e1]; rfl) e2
      simp only [e1, e2, List.mem_filterMap, Option.map_eq_some_iff, Prod.mk.injEq]
      constructor
      · rintro ⟨k', hk', r', hr', rfl, rfl, rfl⟩
        exact ⟨hr', _, ⟨b, _, _, hb, h1, by omega, (h3 f _ e1).1, (h3 f _ e1).2, rfl⟩,
          (mem_lookup_indices e3 _).mp hk'⟩
      · rintro ⟨hr, a, ⟨b', n, o, hb', _, _, ht, hof, rfl⟩, hl⟩
        obtain rfl := hb.unique hb'
        rw [hof.unique (h3 f _ e1).2] at hl
        exact ⟨k, (mem_lookup_indices e3 _).mpr hl, record, hr, (h3 f _ e1).1.unique ht, rfl, rfl⟩
    · rw [List.getElem?_eq_none (by omega)]
      constructor
      · intro hm; cases hm
      · rintro ⟨_, a, ⟨b', n, o, hb', hn, hl, _⟩, _⟩
        obtain rfl := hb.unique hb'
        rw [hn.unique h1] at hl
        omega
  · rw [he]
    constructor
    · intro hm; cases hm
    · rintro ⟨_, a, ⟨b', n, o, hb', _⟩, _⟩; exact (hn _ hb').elim

/-- What the lookups for a script and a language should be: exactly those that the bytes lead to, each as its bytes are
read, and without a panic on the way. -/
def FindsLookups {T : Type} (cfg : Cfg) (readTable : Nat → Reader T) (d : Data) (p : Nat) (t : Directory T) : Prop :=
  ∀ script language, ∃ found, lookupsFor t script language = .ok found ∧
    ∀ tag k record, (tag, k, record) ∈ found ↔
      ∃ a, LeadsTo cfg d p script language tag k a ∧ Reads (lookup.Record.read cfg readTable) d a record

theorem finds_lookups {T : Type} {cfg : Cfg} {readTable : Nat → Reader T} {isTable : Nat → Data → Nat → T → Prop}
    [∀ t, Parses (readTable t) (isTable t)] {d : Data} {p : Nat} (hd : Fits d) {t : Directory T}
    (h : Reads (Directory.read cfg readTable) d p t) : FindsLookups cfg readTable d p t := by
  have h := (reads_parses (S := IsDirectory cfg isTable) hd).mp h
  have hall := h
  obtain ⟨_, _, _, _, ho, _, _, _, hp, _, _, _⟩ := h
  intro script' language'
  have key : ∀ (l : language.Record) (s ll : Nat), ScriptAt cfg d p script' s → LanguageAt d s language' ll →
      IsLanguageRecord d ll l → (∀ s', ScriptAt cfg d p script' s' → s' = s) →
      ∀ tag k record, (tag, k, record) ∈ (featuresOf l).flatMap (lookupsOf t) ↔
      ∃ a, LeadsTo cfg d p script' language' tag k a ∧ Reads (lookup.Record.read cfg readTable) d a record := by
    intro l s ll hs hl hll hu tag k record
    rw [List.mem_flatMap]
    constructor
    · rintro ⟨f, hf, hm⟩
      obtain ⟨hr, b, hb, hk⟩ := (mem_lookupsOf hall f tag k record).mp hm
      obtain ⟨a, ha, hi⟩ := (lookups_at hall k).1 record hr
      exact ⟨a, ⟨s, ll, f, b, hs, hl, (mem_featuresOf hll f).mp hf, hb, hk, ha⟩,
        (reads_parses (S := IsLookupRecord cfg isTable) hd).mpr hi⟩
    · rintro ⟨a, ⟨s', ll', f, b, hs', hl', hf, hb, hk, ha⟩, hr⟩
      obtain rfl := hu _ hs'
      obtain rfl := hl'.unique hl
      obtain ⟨record', hr'⟩ := (lookups_at hall k).2 a ha
      obtain ⟨a', ha', hi⟩ := (lookups_at hall k).1 record' hr'
      obtain rfl := ha.unique ha'
      have he : record' = record := by
        obtain ⟨q, h1⟩ := (reads_parses (r := lookup.Record.read cfg readTable) (S := IsLookupRecord cfg isTable) hd).mpr hi
        obtain ⟨q', h2⟩ := hr
        rw [h1] at h2
        injection h2 with h2
        injection h2
      subst he
      exact ⟨f, (mem_featuresOf hll f).mpr hf, (mem_lookupsOf hall f tag k _).mpr ⟨hr', b, hb, hk⟩⟩
  unfold lookupsFor
  rcases IsPart.listAt (k := 0) ho hp with ⟨c, hc, h1, h2, h3⟩ | ⟨he, hn⟩
  · rcases getByTag_tagged (tagOf := script.Header.tag) (offsetOf := script.Header.offset) h1 h2 h3 script' with
      ⟨sr, s, e1, e2, e3⟩ | ⟨e1, e2⟩
    · have e1' : t.scripts.get script' = .ok (some sr) := e1
      have hu : ∀ s', ScriptAt cfg d p script' s' → s' = s := by
        rintro s' ⟨c', hc', ht⟩
        obtain rfl := hc.unique hc'
        exact ht.unique e2
      have hs : ScriptAt cfg d p script' s := ⟨c, hc, e2⟩
      obtain ⟨g1, g2, g3, g4, g5⟩ := e3
      rw [e1']
      rcases getByTag_tagged (tagOf := language.Header.tag) (offsetOf := language.Header.offset) (base := s) (c := s + 2) g2
          g3 g5 language' with ⟨lr, l, f1, f2, f3⟩ | ⟨f1, f2⟩
      · have f1' : sr.get language' = .ok (some lr) := f1
        refine ⟨_, ?_, key lr s l hs (.inl f2) f3 hu⟩
        change (do let x ← sr.get language'; _) = _
        rw [f1']; rfl
      · have f1' : sr.get language' = .ok none := f1
        cases hdl : sr.default_language with
        | none =>
          rw [hdl] at g4
          refine ⟨[], ?_, ?_⟩
          · change (do let x ← sr.get language'; _) = _
            rw [f1', hdl]; rfl
          · intro tag k record
            constructor
            · intro hm; cases hm
            · rintro ⟨a, ⟨s', ll', f, b, hs', hl', _⟩, _⟩
              obtain rfl := hu _ hs'
              rcases hl' with hl' | ⟨_, o, ho', hz, _⟩
              · exact (f2 _ hl').elim
              · exact (hz ((ho'.unique g1).trans g4)).elim
        | some lr =>
          rw [hdl] at g4
          refine ⟨_, ?_, key lr s _ hs (.inr ⟨f2, _, g1, g4.1, rfl⟩) g4.2 hu⟩
          change (do let x ← sr.get language'; _) = _
          rw [f1', hdl]; rfl
    · have e1' : t.scripts.get script' = .ok none := e1
      refine ⟨[], by rw [e1']; rfl, ?_⟩
      intro tag k record
      constructor
      · intro hm; cases hm
      · rintro ⟨a, ⟨s', ll', f, b, ⟨c', hc', ht⟩, _⟩, _⟩
        obtain rfl := hc.unique hc'
        exact (e2 _ ht).elim
  · refine ⟨[], by rw [he]; rfl, ?_⟩
    intro tag k record
    constructor
    · intro hm; cases hm
    · rintro ⟨a, ⟨s', ll', f, b, ⟨c', hc', ht⟩, _⟩, _⟩
      exact (hn _ hc').elim

/-- In whatever GSUB or GPOS table is read from any tape, in every build, the lookups that are found for a script and a
language are exactly those that the bytes of the table lead to. -/
theorem C100_walk (cfg : Cfg) {d : Data} {p : Nat} (hd : Fits d) :
    (∀ t, Reads (gsub.GlyphSubstitution.read cfg) d p t → FindsLookups cfg gsub.Type_.read d p t) ∧
    (∀ t, Reads (gpos.GlyphPositioning.read cfg) d p t → FindsLookups cfg (gpos.Type_.read cfg) d p t) :=
  ⟨fun _ h => finds_lookups (isTable := Spec.gsub.IsTable) hd h,
    fun _ h => finds_lookups (isTable := Spec.gpos.IsTable cfg) hd h⟩

/-- The same from the file on: when a file is opened and one of the tables taken from its font, the lookups that are found
are those that the bytes at the place of the table lead to. -/
theorem C100_font (accept : Tag → Bool) (cfg : Cfg) {d : Data} (hd : Fits d) (p : Nat) :
    (∀ t, Takes accept cfg d p .glyphSubstitution (gsub.GlyphSubstitution.read cfg) (some t) →
      ∃ offset, TableAt accept cfg d .glyphSubstitution offset ∧ FindsLookups cfg gsub.Type_.read d offset t) ∧
    (∀ t, Takes accept cfg d p .glyphPositioning (gpos.GlyphPositioning.read cfg) (some t) →
      ∃ offset, TableAt accept cfg d .glyphPositioning offset ∧
        FindsLookups cfg (gpos.Type_.read cfg) d offset t) := by
  constructor
  · intro t h
    obtain ⟨offset, h1, h2⟩ := (C55_stored (S := Reads _) accept cfg _ hd (fun _ _ => Iff.rfl) p t).mp h
    exact ⟨offset, h1, (C100_walk cfg hd).1 t h2⟩
  · intro t h
    obtain ⟨offset, h1, h2⟩ := (C55_stored (S := Reads _) accept cfg _ hd (fun _ _ => Iff.rfl) p t).mp h
    exact ⟨offset, h1, (C100_walk cfg hd).2 t h2⟩

/-- A GSUB table with one script, `latn`, that has a default language with the feature `liga`, and German, for which
`locl` is required and which has a feature and a lookup with numbers that are in no list. -/
def walkTable : Data := bytes <|
  [0, 1,  0, 0,  0, 10,  0, 44,  0, 72] ++
  [0, 1,  0x6C, 0x61, 0x74, 0x6E,  0, 8] ++ [0, 10,  0, 1,  0x44, 0x45, 0x55, 0x20,  0, 18] ++
  [0, 0,  0xFF, 0xFF,  0, 1,  0, 0] ++ [0, 0,  0, 1,  0, 1,  0, 7] ++
  [0, 2,  0x6C, 0x69, 0x67, 0x61,  0, 14,  0x6C, 0x6F, 0x63, 0x6C,  0, 20] ++
  [0, 0,  0, 1,  0, 0] ++ [0, 0,  0, 2,  0, 1,  0, 9] ++
  [0, 2,  0, 6,  0, 12] ++ [0, 4,  0, 0,  0, 0] ++ [0, 1,  0, 1,  0, 0]

/-- What is read from it. -/
def walkValue : gsub.GlyphSubstitution :=
  ⟨1, 0, 10, 44, 72, 0,
    ⟨1, [⟨0x6C61746E, 8⟩],
      [⟨10, 1, [⟨0x44455520, 18⟩], some ⟨0, 0xFFFF, 1, [0]⟩, [⟨0, 1, 1, [7]⟩]⟩]⟩,
    ⟨2, [⟨0x6C696761, 14⟩, ⟨0x6C6F636C, 20⟩], [⟨0, 1, [0], none⟩, ⟨0, 2, [1, 9], none⟩]⟩,
    ⟨2, [6, 12], [⟨4, 0, 0, [], none, []⟩, ⟨1, 1, 0, [], none, []⟩]⟩, none⟩

example : Reads (gsub.GlyphSubstitution.read ⟨false, false, false, false, false, false⟩) walkTable 0 walkValue ∧
    (lookupsFor walkValue 0x6C61746E 0x44455520).toOption = some [(0x6C6F636C, 1, ⟨1, 1, 0, [], none, []⟩)] ∧
    (lookupsFor walkValue 0x6C61746E 0x454E4720).toOption = some [(0x6C696761, 0, ⟨4, 0, 0, [], none, []⟩)] ∧
    (lookupsFor walkValue 0x6379726C 0x44455520).toOption = some [] := by decide +kernel

/-- And in a font file. -/
example : Takes sampleAccept defaultCfg
    (fontFile 65536 32 1 0 [(TableType.glyphSubstitution.tag, walkTable)] ++ []) 3 .glyphSubstitution
    (gsub.GlyphSubstitution.read defaultCfg) (some walkValue) :=
  C56_alone (before := []) (rest := [])
    { format := by decide, numbers := by decide, count := by decide, tags := by decide +kernel,
      size := by decide +kernel }
    (by decide +kernel) (by decide +kernel) (relocatable (e := False)) (by decide +kernel) _ _

end OpenType.Props
