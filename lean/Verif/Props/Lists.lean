import Verif.Proof.Lists
import Verif.Proof.Gsub
import Verif.Proof.Gpos
import Verif.Props.Faithful
/-! # C16-C21: feature, script and lookup lists and the directory -/

namespace OpenType.Props
open OpenType Spec script feature lookup directory

/-! ## C16 and C17 -/

/-- A feature list is read as it is stored. -/
theorem C16_features : Faithful Features.read IsFeatures := faithful

/-- The same, spelled out for one feature: its tag and offset are those of its own header, its lookup indices
are those stored at that offset from the start of the list, and its parameters are reported, with no byte of
them, exactly when their offset is not zero. -/
theorem C16_feature {d : Data} {p i : Nat} (hd : Fits d) {t : Features} (h : Reads Features.read d p t)
    (hi : i < t.count) :
    ∃ header record, t.headers[i]? = some header ∧ t.records[i]? = some record ∧
      U32 d (p + 2 + 6 * i) header.tag ∧ U16 d (p + 2 + 6 * i + 4) header.offset ∧
      U16 d (p + header.offset) record.parameter_offset ∧
      U16 d (p + header.offset + 2) record.lookup_indices.length ∧
      (∀ j n, record.lookup_indices[j]? = some n → U16 d (p + header.offset + 4 + 2 * j) n) ∧
      (record.parameter_offset = 0 → record.parameters = none) ∧
      (record.parameter_offset ≠ 0 → record.parameters = some []) := by
  obtain ⟨_, ⟨h1, h2⟩, h3, h4⟩ := (reads_parses hd).mp h
  rw [List.length_map] at h3
  have e1 := List.getElem?_eq_getElem (l := t.headers) (i := i) (by omega)
  have e2 := List.getElem?_eq_getElem (l := t.records) (i := i) (by omega)
  obtain ⟨h5, h6⟩ := h2 i _ e1
  obtain ⟨h7, h8, h9, h10⟩ := h4 i _ _ (by rw [List.getElem?_map, e1]; rfl) e2
  refine ⟨_, _, e1, e2, h5, h6, h7, h9.1 ▸ h8, h9.2, fun h => ?_, fun h => ?_⟩
  · rw [h10, if_pos h]
  · rw [h10, if_neg h]

/-- A script list with its language systems is read as it is stored. -/
theorem C17_scripts : Faithful Scripts.read IsScripts := faithful

/-- The same, spelled out for one script and one of its language systems: the offset of the script counts from
the start of the list, those of its language systems from the start of the script. -/
theorem C17_language {d : Data} {p i j : Nat} (hd : Fits d) {t : Scripts} (h : Reads Scripts.read d p t)
    {header : script.Header} {record : script.Record} (hh : t.headers[i]? = some header)
    (hr : t.records[i]? = some record) (hj : j < record.language_count) :
    let start := p + header.offset
    U32 d (p + 2 + 6 * i) header.tag ∧ U16 d (p + 2 + 6 * i + 4) header.offset ∧
    U16 d start record.default_language_offset ∧
    (record.default_language = none ↔ record.default_language_offset = 0) ∧
    (∀ x, record.default_language = some x →
      IsLanguageRecord d (start + record.default_language_offset) x) ∧
    ∃ header' language, record.language_headers[j]? = some header' ∧
      record.language_records[j]? = some language ∧
      U32 d (start + 4 + 6 * j) header'.tag ∧ U16 d (start + 4 + 6 * j + 4) header'.offset ∧
      IsLanguageRecord d (start + header'.offset) language := by
  obtain ⟨_, ⟨h1, h2⟩, h3, h4⟩ := (reads_parses hd).mp h
  obtain ⟨h5, h6⟩ := h2 i _ hh
  obtain ⟨h7, h8, ⟨h9, h10⟩, h11, h12, h13⟩ := h4 i _ _ (by rw [List.getElem?_map, hh]; rfl) hr
  rw [List.length_map] at h12
  have e1 := List.getElem?_eq_getElem (l := record.language_headers) (i := j) (by omega)
  have e2 := List.getElem?_eq_getElem (l := record.language_records) (i := j) (by omega)
  obtain ⟨h14, h15⟩ := h10 j _ e1
  refine ⟨h5, h6, h7, ?_, ?_, _, _, e1, e2, h14, h15, h13 j _ _ (by rw [List.getElem?_map, e1]; rfl) e2⟩
  · unfold Optional at h11
    cases hx : record.default_language <;> rw [hx] at h11
    · exact ⟨fun _ => h11, fun _ => rfl⟩
    · simp [h11.1]
  · intro x hx
    rw [hx] at h11
    exact h11.2

/-- One script, `latn`, with a default language system and `NLD `. -/
def sampleScripts : Data := bytes <|
  [0, 1,  0x6C, 0x61, 0x74, 0x6E,  0, 8] ++
  [0, 10,  0, 1,  0x4E, 0x4C, 0x44, 0x20,  0, 18] ++
  [0, 0,  0xFF, 0xFF,  0, 1,  0, 3] ++ [0, 0,  0, 7,  0, 0]

def sampleScriptsValue : Scripts :=
  ⟨1, [⟨0x6C61746E, 8⟩], [⟨10, 1, [⟨0x4E4C4420, 18⟩], some ⟨0, 65535, 1, [3]⟩, [⟨0, 7, 0, []⟩]⟩]⟩

example : Reads Scripts.read sampleScripts 0 sampleScriptsValue := by decide +kernel

/-- Two features with the same tag `liga`, the second with parameters. -/
def sampleFeatures : Data := bytes <|
  [0, 2,  0x6C, 0x69, 0x67, 0x61,  0, 14,  0x6C, 0x69, 0x67, 0x61,  0, 20] ++
  [0, 0,  0, 1,  0, 5] ++ [0, 4,  0, 0,  1, 2, 3]

def sampleFeaturesValue : Features :=
  ⟨2, [⟨0x6C696761, 14⟩, ⟨0x6C696761, 20⟩], [⟨0, 1, [5], none⟩, ⟨4, 0, [], some []⟩]⟩

example : Reads Features.read sampleFeatures 0 sampleFeaturesValue := by decide +kernel

/-! ## C18 -/

/-- `get` finds the record of the first header with the tag, and nothing exactly when there is none. In
particular it never panics. -/
def GetsFirst {H R : Type} (tagOf : H → Tag) (headers : List H) (records : List R)
    (get : Tag → Except Err (Option R)) : Prop :=
  ∀ tag,
    (get tag = .ok none ↔ ∀ header ∈ headers, tagOf header ≠ tag) ∧
    ((∃ header ∈ headers, tagOf header = tag) →
      ∃ (i : Nat) (header : H) (record : R), headers[i]? = some header ∧ tagOf header = tag ∧
        (∀ (j : Nat) header', j < i → headers[j]? = some header' → tagOf header' ≠ tag) ∧
        records[i]? = some record ∧ get tag = .ok (some record)) ∧
    ∀ m, get tag ≠ .error (.panic m)

theorem getsFirst {H R : Type} {tagOf : H → Tag} {headers : List H} {records : List R}
    (h : records.length = headers.length) : GetsFirst tagOf headers records (getByTag tagOf headers records) := by
  intro tag
  unfold getByTag
  cases hf : headers.findIdx? (fun header => tagOf header == tag) with
  | none =>
    rw [List.findIdx?_eq_none_iff] at hf
    simp only [beq_eq_false_iff_ne, ne_eq] at hf
    refine ⟨⟨fun _ => hf, fun _ => rfl⟩, ?_, by simp⟩
    rintro ⟨header, hm, ht⟩
    exact (hf header hm ht).elim
  | some i =>
    rw [List.findIdx?_eq_some_iff_getElem] at hf
    obtain ⟨hi, ht, hl⟩ := hf
    have hr := List.getElem?_eq_getElem (l := records) (i := i) (by omega)
    simp only [hr]
    have ht' : tagOf headers[i] = tag := by simpa using ht
    refine ⟨?_, fun _ => ⟨i, headers[i], records[i], List.getElem?_eq_getElem hi, ht', ?_, hr, rfl⟩, by simp⟩
    · constructor
      · intro h; cases h
      · intro hn
        exact (hn _ (List.getElem_mem hi) ht').elim
    · intro j header' hj hh
      obtain ⟨hj', rfl⟩ := List.getElem?_eq_some_iff.mp hh
      simpa using hl j hj

theorem IsScriptRecord.gets {d : Data} {p : Nat} {t : script.Record} (h : IsScriptRecord d p t) :
    GetsFirst (·.tag) t.language_headers t.language_records t.get :=
  getsFirst (by have := h.2.2.2.2.1; rwa [List.length_map] at this)

theorem IsScripts.gets {d : Data} {p : Nat} {t : Scripts} (h : IsScripts d p t) :
    GetsFirst (·.tag) t.headers t.records t.get ∧
    ∀ record ∈ t.records, GetsFirst (·.tag) record.language_headers record.language_records record.get := by
  have hl : t.records.length = t.headers.length := by have := h.2.2.1; rwa [List.length_map] at this
  refine ⟨getsFirst hl, ?_⟩
  intro record hr
  obtain ⟨i, hi, rfl⟩ := List.getElem_of_mem hr
  have e := List.getElem?_eq_getElem (l := t.headers) (i := i) (by omega)
  exact IsScriptRecord.gets (h.2.2.2 i _ _ (by rw [List.getElem?_map, e]; rfl) (List.getElem?_eq_getElem hi))

theorem IsFeatures.gets {d : Data} {p : Nat} {t : Features} (h : IsFeatures d p t) :
    GetsFirst (·.tag) t.headers t.records t.get :=
  getsFirst (by have := h.2.2.1; rwa [List.length_map] at this)

/-- For every feature list, script list and script read from any tape. -/
theorem C18_get {d : Data} {p : Nat} (hd : Fits d) :
    (∀ t, Reads Features.read d p t → GetsFirst (·.tag) t.headers t.records t.get) ∧
    (∀ t, Reads Scripts.read d p t → GetsFirst (·.tag) t.headers t.records t.get ∧
      ∀ record ∈ t.records, GetsFirst (·.tag) record.language_headers record.language_records record.get) ∧
    (∀ t, Reads script.Record.read d p t →
      GetsFirst (·.tag) t.language_headers t.language_records t.get) :=
  ⟨fun _ h => IsFeatures.gets ((reads_parses hd).mp h), fun _ h => IsScripts.gets ((reads_parses hd).mp h),
    fun _ h => IsScriptRecord.gets ((reads_parses hd).mp h)⟩

theorem IsDirectory.gets {T : Type} {cfg : Cfg} {isTable : Nat → Data → Nat → T → Prop} {d : Data} {p : Nat}
    {t : Directory T} (h : IsDirectory cfg isTable d p t) :
    GetsFirst (·.tag) t.features.headers t.features.records t.features.get ∧
    GetsFirst (·.tag) t.scripts.headers t.scripts.records t.scripts.get ∧
    ∀ record ∈ t.scripts.records,
      GetsFirst (·.tag) record.language_headers record.language_records record.get := by
  obtain ⟨_, _, _, _, _, _, _, _, h1, h2, _, _⟩ := h
  unfold IsPart at h1 h2
  refine ⟨?_, ?_⟩
  · split at h2
    · rw [h2]; exact getsFirst rfl
    · exact IsFeatures.gets h2
  · split at h1
    · rw [h1]; exact ⟨getsFirst rfl, by simp⟩
    · exact IsScripts.gets h1

/-- For the lists of every GSUB and GPOS table read from any tape, in every configuration. -/
theorem C18_get_directory (cfg : Cfg) {d : Data} {p : Nat} (hd : Fits d) :
    (∀ t, Reads (gsub.GlyphSubstitution.read cfg) d p t →
      GetsFirst (·.tag) t.features.headers t.features.records t.features.get ∧
      GetsFirst (·.tag) t.scripts.headers t.scripts.records t.scripts.get ∧
      ∀ record ∈ t.scripts.records,
        GetsFirst (·.tag) record.language_headers record.language_records record.get) ∧
    (∀ t, Reads (gpos.GlyphPositioning.read cfg) d p t →
      GetsFirst (·.tag) t.features.headers t.features.records t.features.get ∧
      GetsFirst (·.tag) t.scripts.headers t.scripts.records t.scripts.get ∧
      ∀ record ∈ t.scripts.records,
        GetsFirst (·.tag) record.language_headers record.language_records record.get) :=
  ⟨fun _ h => IsDirectory.gets ((reads_parses hd).mp h), fun _ h => IsDirectory.gets ((reads_parses hd).mp h)⟩

/-- The first of two features with the same tag; no such tag. -/
example : Reads Features.read sampleFeatures 0 sampleFeaturesValue ∧
    sampleFeaturesValue.get 0x6C696761 = .ok (some ⟨0, 1, [5], none⟩) ∧
    sampleFeaturesValue.get 0x6C696762 = .ok none ∧
    sampleScriptsValue.get 0x6C61746E = .ok sampleScriptsValue.records.head? := by decide +kernel

/-! ## C19 -/

/-- A lookup list is read as it is stored, every subtable under the type of its lookup. -/
theorem C19_lookups (cfg : Cfg) :
    Faithful (Lookups.read cfg gsub.Type_.read) (IsLookups cfg Spec.gsub.IsTable) ∧
    Faithful (Lookups.read cfg (gpos.Type_.read cfg)) (IsLookups cfg (Spec.gpos.IsTable cfg)) :=
  ⟨faithful, faithful⟩

/-- `record` is what is stored for the lookup `i` of the lookup list at `p`. -/
def IsStoredLookup {T : Type} (isTable : Nat → Data → Nat → T → Prop) (d : Data) (p i : Nat)
    (record : lookup.Record T) : Prop :=
  ∃ offset, U16 d (p + 2 + 2 * i) offset ∧
    U16 d (p + offset) record.type_ ∧ U16 d (p + offset + 2) record.flags ∧
    U16 d (p + offset + 4) record.tables.length ∧
    (∀ j table, record.tables[j]? = some table →
      ∃ offset', U16 d (p + offset + 6 + 2 * j) offset' ∧
        isTable record.type_ d (p + offset + offset') table) ∧
    (record.mark_filtering_set.isSome ↔ record.flags / 16 % 2 = 1) ∧
    ∀ n, record.mark_filtering_set = some n → U16 d (p + offset + 6 + 2 * record.tables.length) n

theorem IsLookups.stored {T : Type} {cfg : Cfg} {isTable : Nat → Data → Nat → T → Prop} {d : Data} {p i : Nat}
    {t : Lookups T} (h : IsLookups cfg isTable d p t) {record : lookup.Record T}
    (hr : t.records[i]? = some record) : IsStoredLookup isTable d p i record := by
  obtain ⟨_, ⟨h1, h2⟩, h3, h4⟩ := h
  have hi := (List.getElem?_eq_some_iff.mp hr).1
  have e1 := List.getElem?_eq_getElem (l := t.offsets) (i := i) (by omega)
  obtain ⟨h5, h6, h7, h8, h9, h10, h11⟩ := h4 i _ _ e1 hr
  have hl : record.tables.length = record.table_count := by rw [h11.1, h9.1]
  refine ⟨_, h2 i _ e1, h5, h6, hl ▸ h8, ?_, ?_, ?_⟩
  · intro j table hj
    have hj' := (List.getElem?_eq_some_iff.mp hj).1
    have e2 := List.getElem?_eq_getElem (l := record.table_offsets) (i := j) (by have := h11.1; omega)
    exact ⟨_, h9.2 j _ e2, h11.2 j _ _ e2 hj⟩
  · have hb : record.flags.testBit 4 = decide (record.flags / 16 % 2 = 1) := by
      rw [Nat.testBit_eq_decide_div_mod_eq]
    unfold IsMarkFilteringSet at h10
    split at h10
    · rw [hb] at h10; simp_all
    · rw [hb] at h10; simp_all
  · intro n hn
    rw [hn] at h10
    rw [hl]
    exact h10.2

/-- The same, spelled out for each lookup. -/
theorem C19_lookup (cfg : Cfg) {d : Data} {p : Nat} (hd : Fits d) :
    (∀ t, Reads (Lookups.read cfg gsub.Type_.read) d p t → ∀ i record, t.records[i]? = some record →
      IsStoredLookup Spec.gsub.IsTable d p i record) ∧
    (∀ t, Reads (Lookups.read cfg (gpos.Type_.read cfg)) d p t → ∀ i record, t.records[i]? = some record →
      IsStoredLookup (Spec.gpos.IsTable cfg) d p i record) :=
  ⟨fun _ h _ _ hr => IsLookups.stored ((reads_parses hd).mp h) hr,
    fun _ h _ _ hr => IsLookups.stored ((reads_parses hd).mp h) hr⟩

/-- One lookup of type 1 with two subtables and a mark filtering set. -/
def sampleLookups : Data := bytes <|
  [0, 1,  0, 4] ++
  [0, 1,  0, 16,  0, 2,  0, 12,  0, 18,  0, 9] ++
  [0, 1,  0, 12,  0, 3] ++ [0, 1,  0, 6,  0, 4] ++ [0, 1,  0, 1,  0, 70]

example : Reads (Lookups.read ⟨false, false, false, false, false, true⟩ gsub.Type_.read) sampleLookups 0
    ⟨1, [4], [⟨1, 16, 2, [12, 18], some 9,
      [.singleSubstitution (.format1 ⟨1, 12, 3, .format1 ⟨1, 1, [70]⟩⟩),
       .singleSubstitution (.format1 ⟨1, 6, 4, .format1 ⟨1, 1, [70]⟩⟩)]⟩]⟩ := by decide +kernel

/-! ## C20 -/

/-- A GSUB or GPOS table is read as it is stored. -/
theorem C20_directory (cfg : Cfg) :
    Faithful (gsub.GlyphSubstitution.read cfg) (Spec.gsub.IsGlyphSubstitution cfg) ∧
    Faithful (gpos.GlyphPositioning.read cfg) (Spec.gpos.IsGlyphPositioning cfg) :=
  ⟨faithful, faithful⟩

theorem other_version {T : Type} {cfg : Cfg} {readTable : Nat → Reader T} {d : Data} {p a b : Nat}
    (hd : Fits d) (ha : U16 d p a) (hb : U16 d (p + 2) b) (h : ¬(a = 1 ∧ (b = 0 ∨ b = 1))) :
    Refuses (Directory.read cfg readTable d p) := by
  refine ⟨⟨"found an unknown version of the directory table", [a, b]⟩, ?_⟩
  unfold Directory.read
  refine (bind_ok (show position d p = .ok (p, p) from rfl)).trans ?_
  refine (bind_ok ((Fixed.run hd).mpr ⟨ha, rfl⟩)).trans ?_
  refine (bind_ok ((Fixed.run hd).mpr ⟨hb, rfl⟩)).trans ?_
  refine bind_error ?_
  unfold raiseIf
  rw [if_pos (by simp only [Prod.mk.injEq]; omega)]
  rfl

/-- Any version but 1.0 and 1.1 is refused. -/
theorem C20_other_version (cfg : Cfg) {d : Data} {p a b : Nat} (hd : Fits d) (ha : U16 d p a)
    (hb : U16 d (p + 2) b) (h : ¬(a = 1 ∧ (b = 0 ∨ b = 1))) :
    Refuses (gsub.GlyphSubstitution.read cfg d p) ∧ Refuses (gpos.GlyphPositioning.read cfg d p) :=
  ⟨other_version hd ha hb h, other_version hd ha hb h⟩

/-- Feature variations: present exactly for version 1.1 with an offset that is not zero, and then those at the
offset; version 1.0 reports offset 0. -/
def HasStoredVariations {T : Type} (d : Data) (p : Nat) (t : Directory T) : Prop :=
  (t.minor_version = 0 → t.variation_offset = 0 ∧ t.variations = none) ∧
  (t.minor_version = 1 → U32 d (p + 10) t.variation_offset ∧ (t.variations = none ↔ t.variation_offset = 0)) ∧
  ∀ x, t.variations = some x → IsVariations d (p + t.variation_offset) x

theorem IsDirectory.variations {T : Type} {cfg : Cfg} {isTable : Nat → Data → Nat → T → Prop} {d : Data} {p : Nat}
    {t : Directory T} (h : IsDirectory cfg isTable d p t) : HasStoredVariations d p t := by
  obtain ⟨_, _, _, _, _, _, _, h1, _, _, _, h2⟩ := h
  have h3 : t.variations = none ↔ t.variation_offset = 0 := by
    unfold Optional at h2
    split at h2 <;> simp_all
  refine ⟨fun h0 => ?_, fun h0 => ?_, fun x hx => ?_⟩
  · rw [if_neg (by omega)] at h1
    exact ⟨h1, h3.mpr h1⟩
  · rw [if_pos h0] at h1
    exact ⟨h1, h3⟩
  · rw [hx] at h2
    exact h2.2

/-- The variations of what was read are those stored. -/
theorem C20_variations (cfg : Cfg) {d : Data} {p : Nat} (hd : Fits d) :
    (∀ t, Reads (gsub.GlyphSubstitution.read cfg) d p t → HasStoredVariations d p t) ∧
    (∀ t, Reads (gpos.GlyphPositioning.read cfg) d p t → HasStoredVariations d p t) :=
  ⟨fun _ h => IsDirectory.variations ((reads_parses hd).mp h),
    fun _ h => IsDirectory.variations ((reads_parses hd).mp h)⟩

/-- A GSUB table of version 1.1 with empty lists and feature variations. -/
def sampleDirectoryTable : Data := bytes <|
  [0, 1,  0, 1,  0, 14,  0, 14,  0, 14,  0, 0, 0, 16] ++ [0, 0] ++ [0, 1,  0, 0,  0, 0, 0, 3]

example : Reads (gsub.GlyphSubstitution.read ⟨false, false, false, false, false, false⟩) sampleDirectoryTable 0
      ⟨1, 1, 14, 14, 14, 16, ⟨0, [], []⟩, ⟨0, [], []⟩, ⟨0, [], []⟩, some ⟨1, 0, 3⟩⟩ ∧
    U16 sampleDirectoryTable 4 14 ∧ U16 sampleDirectoryTable 6 14 := by decide +kernel

/-! ## C21 -/

/-- A zero offset goes with an empty list. -/
def EmptyAtZero {T : Type} (t : Directory T) : Prop :=
  (t.script_offset = 0 → t.scripts = ⟨0, [], []⟩) ∧ (t.feature_offset = 0 → t.features = ⟨0, [], []⟩) ∧
    (t.lookup_offset = 0 → t.lookups = ⟨0, [], []⟩)

theorem IsDirectory.empty_at_zero {T : Type} {cfg : Cfg} {isTable : Nat → Data → Nat → T → Prop} {d : Data} {p : Nat}
    {t : Directory T} (h : IsDirectory cfg isTable d p t) (hc : cfg.ignoreIncompleteDirectories = true) :
    EmptyAtZero t := by
  obtain ⟨_, _, _, _, _, _, _, _, h1, h2, h3, _⟩ := h
  unfold IsPart at h1 h2 h3
  simp only [hc, true_and] at h1 h2 h3
  refine ⟨fun h => ?_, fun h => ?_, fun h => ?_⟩
  · rwa [if_pos h] at h1
  · rwa [if_pos h] at h2
  · rwa [if_pos h] at h3

/-- With the feature, a zero offset gives an empty list. -/
theorem C21_zero_offset (cfg : Cfg) (hc : cfg.ignoreIncompleteDirectories = true) {d : Data} {p : Nat}
    (hd : Fits d) :
    (∀ t, Reads (gsub.GlyphSubstitution.read cfg) d p t → EmptyAtZero t) ∧
    (∀ t, Reads (gpos.GlyphPositioning.read cfg) d p t → EmptyAtZero t) :=
  ⟨fun _ h => IsDirectory.empty_at_zero ((reads_parses hd).mp h) hc,
    fun _ h => IsDirectory.empty_at_zero ((reads_parses hd).mp h) hc⟩

theorem part_eq {α : Type} {cfg : Cfg} {b o : Nat} (ho : 0 < o) (r : Reader α) (e : α) :
    part cfg b o r e = jumpTake b o r := by
  unfold part
  split
  · unfold jumpTakeMaybe
    rw [if_pos ho]
    have := Reader.lawful
    simp
  · rfl

/-- When none of the three offsets is zero, the feature makes no difference: same value, same error. -/
theorem same_directory {T : Type} {cfg : Cfg} {readTable : Nat → Reader T} {d : Data} {p a b c : Nat}
    (hd : Fits d) (ha : U16 d (p + 4) a) (hb : U16 d (p + 6) b) (hc : U16 d (p + 8) c) (h : 0 < a ∧ 0 < b ∧ 0 < c) :
    Directory.read { cfg with ignoreIncompleteDirectories := true } readTable d p =
      Directory.read { cfg with ignoreIncompleteDirectories := false } readTable d p := by
  have word : ∀ q, q + 1 < d.length → ∃ w, U16 d q w := fun q hq =>
    ⟨_, _, _, ⟨_, List.getElem?_eq_getElem (by omega), rfl⟩, ⟨_, List.getElem?_eq_getElem hq, rfl⟩, rfl⟩
  have hl := ha.bound'
  obtain ⟨x, hx⟩ := word p (by omega)
  obtain ⟨y, hy⟩ := word (p + 2) (by omega)
  by_cases hv : x = 1 ∧ (y = 0 ∨ y = 1)
  · unfold Directory.read
    refine (bind_ok (show position d p = .ok (p, p) from rfl)).trans ((bind_ok
      (show position d p = .ok (p, p) from rfl)).trans ?_).symm
    have hu := fun {q n} (h : U16 d q n) => (Fixed.run (r := u16) (q := q + 2) hd).mpr ⟨h, rfl⟩
    have hr : raiseIf (¬((x, y) = (1, 0) ∨ (x, y) = (1, 1)))
        ⟨"found an unknown version of the directory table", [x, y]⟩ d (p + 2 + 2) = .ok ((), p + 4) := by
      unfold raiseIf
      rw [if_neg (by simp only [Prod.mk.injEq]; omega)]
      rfl
    refine Eq.symm ((bind_ok (hu hx)).trans (((bind_ok (hu hx)).trans ?_).symm))
    refine Eq.symm ((bind_ok (hu hy)).trans (((bind_ok (hu hy)).trans ?_).symm))
    refine Eq.symm ((bind_ok hr).trans (((bind_ok hr).trans ?_).symm))
    refine Eq.symm ((bind_ok (hu ha)).trans (((bind_ok (hu ha)).trans ?_).symm))
    refine Eq.symm ((bind_ok (hu hb)).trans (((bind_ok (hu hb)).trans ?_).symm))
    refine Eq.symm ((bind_ok (hu hc)).trans (((bind_ok (hu hc)).trans ?_).symm))
    simp only [part_eq h.1, part_eq h.2.1, part_eq h.2.2]
    rfl
  · obtain ⟨m, hm⟩ := other_version (cfg := { cfg with ignoreIncompleteDirectories := true })
      (readTable := readTable) hd hx hy hv
    unfold Directory.read at hm ⊢
    refine (bind_ok (show position d p = .ok (p, p) from rfl)).trans ?_
    refine Eq.symm ((bind_ok (show position d p = .ok (p, p) from rfl)).trans ?_)
    have hu := fun {q n} (h : U16 d q n) => (Fixed.run (r := u16) (q := q + 2) hd).mpr ⟨h, rfl⟩
    refine Eq.symm ((bind_ok (hu hx)).trans (((bind_ok (hu hx)).trans ?_).symm))
    refine Eq.symm ((bind_ok (hu hy)).trans (((bind_ok (hu hy)).trans ?_).symm))
    have hr : raiseIf (¬((x, y) = (1, 0) ∨ (x, y) = (1, 1)))
        ⟨"found an unknown version of the directory table", [x, y]⟩ d (p + 2 + 2) =
        .error (.malformed ⟨"found an unknown version of the directory table", [x, y]⟩) := by
      unfold raiseIf
      rw [if_pos (by simp only [Prod.mk.injEq]; omega)]
      rfl
    exact (bind_error hr).trans (bind_error hr).symm

/-- When none of the three offsets is zero, the feature makes no difference: same value, same error. -/
theorem C21_nonzero_offsets (cfg : Cfg) {d : Data} {p a b c : Nat} (hd : Fits d) (ha : U16 d (p + 4) a)
    (hb : U16 d (p + 6) b) (hc : U16 d (p + 8) c) (h : 0 < a ∧ 0 < b ∧ 0 < c) :
    gsub.GlyphSubstitution.read { cfg with ignoreIncompleteDirectories := true } d p =
      gsub.GlyphSubstitution.read { cfg with ignoreIncompleteDirectories := false } d p ∧
    gpos.GlyphPositioning.read { cfg with ignoreIncompleteDirectories := true } d p =
      gpos.GlyphPositioning.read { cfg with ignoreIncompleteDirectories := false } d p :=
  ⟨same_directory hd ha hb hc h, same_directory hd ha hb hc h⟩

/-- With a zero script offset the two builds differ: one gives an empty list, the other takes the version
number for the number of scripts. -/
example : let d := bytes [0, 1,  0, 0,  0, 0,  0, 10,  0, 10,  0, 0]
    Reads (gsub.GlyphSubstitution.read ⟨false, true, false, false, false, false⟩) d 0
      ⟨1, 0, 0, 10, 10, 0, ⟨0, [], []⟩, ⟨0, [], []⟩, ⟨0, [], []⟩, none⟩ ∧
    gsub.GlyphSubstitution.read ⟨false, false, false, false, false, false⟩ d 0 = .error .eof := by
  decide +kernel

end OpenType.Props
