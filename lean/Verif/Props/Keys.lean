import Verif.Props.Tags
import Verif.Props.Lists
/-! # C73: features, scripts and languages as keys -/

namespace OpenType.Props
open OpenType

/-- What a sorted collection, such as `BTreeMap`, expects of the comparison of its keys. -/
def IsOrder {K : Type} (cmp : K → K → Ordering) : Prop :=
  (∀ x y, cmp x y = .eq ↔ x = y) ∧
  (∀ x y, cmp x y = .lt ↔ cmp y x = .gt) ∧
  (∀ x y z, cmp x y = .lt → cmp y z = .lt → cmp x z = .lt)

/-- The comparison of features, scripts and languages is an order that agrees with equality. -/
theorem C73_order :
    IsOrder (K := feature.Feature) Named.cmp ∧ IsOrder (K := script.Script) Named.cmp ∧
    IsOrder (K := language.Language) Named.cmp := by
  have key : ∀ n, IsOrder (K := Named n) Named.cmp := by
    refine fun n => ⟨fun x y => ?_, fun x y => ?_, fun x y z => ?_⟩
    · cases x <;> cases y <;> simp only [Named.cmp, Nat.compare_eq_eq, Named.known.injEq, Named.other.injEq, reduceCtorEq]
      exact Fin.val_inj
    · cases x <;> cases y <;> simp only [Named.cmp, Nat.compare_eq_lt, Nat.compare_eq_gt, reduceCtorEq]
    · cases x <;> cases y <;> cases z <;> simp only [Named.cmp, Nat.compare_eq_lt, reduceCtorEq, false_implies, true_implies, implies_true]
      all_goals exact Nat.lt_trans
  exact ⟨key _, key _, key _⟩

/-- `row` is the number of the first row that satisfies `arm`. -/
def FirstAt {R : Type} (rows : List R) (arm : R → Prop) (row : Nat) : Prop :=
  (∃ x, rows[row]? = some x ∧ arm x) ∧ ∀ (j : Nat) x, j < row → rows[j]? = some x → ¬arm x

/-- Recognised tags come in the order of their rows and before all others, which come in the order of the tags. -/
def SortsTags {R K : Type} (rows : List R) (arm : Tag → R → Prop) (from_tag : Tag → K) (cmp : K → K → Ordering) : Prop :=
  ∀ s t,
    (∀ i j, FirstAt rows (arm s) i → FirstAt rows (arm t) j → (cmp (from_tag s) (from_tag t) = .lt ↔ i < j)) ∧
    ((∃ row ∈ rows, arm s row) → (∀ row ∈ rows, ¬arm t row) → cmp (from_tag s) (from_tag t) = .lt) ∧
    ((∀ row ∈ rows, ¬arm s row) → (∀ row ∈ rows, ¬arm t row) → (cmp (from_tag s) (from_tag t) = .lt ↔ s < t))

theorem sortsTags {R : Type} {rows : List R} {arm : Tag → R → Bool} {P : Tag → R → Prop}
    (hP : ∀ t row, arm t row = true ↔ P t row) : SortsTags rows P (fun t => firstArm rows (arm t) t) Named.cmp := by
  have first : ∀ t i, FirstAt rows (P t) i → ∃ k : Fin rows.length, k.val = i ∧ firstArm rows (arm t) t = .known k := by
    intro t i h
    obtain ⟨⟨x, hi, hx⟩, hj⟩ := h
    obtain ⟨hlt, rfl⟩ := List.getElem?_eq_some_iff.mp hi
    rcases firstArm_cases rows (arm t) t with ⟨k, hk, h1, h2⟩ | ⟨_, h1⟩
    · refine ⟨k, ?_, hk⟩
      rcases Nat.lt_trichotomy k.val i with hl | he | hl
      · exact (hj k.val rows[k] hl (List.getElem?_eq_getElem k.isLt) ((hP _ _).mp h1)).elim
      · exact he
      · have := h2 ⟨i, hlt⟩ hl
        have h5 : arm t rows[i] = true := (hP _ _).mpr hx
        exact absurd h5 (by rw [show rows[i] = rows[(⟨i, hlt⟩ : Fin rows.length)] from rfl, this]; decide)
    · have := h1 rows[i] (List.getElem_mem hlt)
      rw [(hP _ _).mpr hx] at this
      cases this
  intro s t
  refine ⟨fun i j hi hj => ?_, fun ⟨row, hrow, ha⟩ ht => ?_, fun hs ht => ?_⟩
  · obtain ⟨a, rfl, ha⟩ := first s i hi
    obtain ⟨b, rfl, hb⟩ := first t j hj
    simp only [ha, hb, Named.cmp, Nat.compare_eq_lt]
  · rcases firstArm_cases rows (arm s) s with ⟨k, hk, _⟩ | ⟨_, h1⟩
    · simp only [hk, firstArm_none (hP t) t ht, Named.cmp]
    · have := h1 row hrow
      rw [(hP _ _).mpr ha] at this
      cases this
  · simp only [firstArm_none (hP s) s hs, firstArm_none (hP t) t ht, Named.cmp, Nat.compare_eq_lt]

/-- The order of features, scripts and languages. -/
theorem C73_declared (cfg : Cfg) :
    SortsTags feature.rows (fun t row => row.tag = t) feature.Feature.from_tag Named.cmp ∧
    SortsTags script.rows (fun t row => row.tag = t) script.Script.from_tag Named.cmp ∧
    SortsTags language.rows (fun t row => row.tag = t ∧ InBuild cfg row) (language.Language.from_tag cfg) Named.cmp :=
  ⟨sortsTags (arm := fun t row => TagRow.tag row == t) fun _ _ => beq_iff_eq,
    sortsTags (arm := fun t row => TagRow.tag row == t) fun _ _ => beq_iff_eq,
    sortsTags (arm := fun t row => language.present cfg row && row.tag == t) (arm_iff cfg)⟩

/-- Comparing the numbers of tags is comparing their bytes from the first on. -/
theorem C73_bytes (a b c e a' b' c' e' : UInt8) :
    bigEndian [a, b, c, e] < bigEndian [a', b', c', e'] ↔
      a < a' ∨ a = a' ∧ (b < b' ∨ b = b' ∧ (c < c' ∨ c = c' ∧ e < e')) := by
  simp only [bigEndian, List.foldl_cons, List.foldl_nil, UInt8.lt_iff_toNat_lt, ← UInt8.toNat_inj]
  have := a.toNat_lt; have := b.toNat_lt; have := c.toNat_lt; have := e.toNat_lt
  have := a'.toNat_lt; have := b'.toNat_lt; have := c'.toNat_lt; have := e'.toNat_lt
  omega

/-- Two tags give the same feature, script or language exactly when they are the same, so that what is kept under one
is never found under the other. -/
theorem C73_distinct (cfg : Cfg) (s t : Tag) :
    (Named.cmp (feature.Feature.from_tag s) (feature.Feature.from_tag t) = .eq ↔ s = t) ∧
    (Named.cmp (script.Script.from_tag s) (script.Script.from_tag t) = .eq ↔ s = t) ∧
    (Named.cmp (language.Language.from_tag cfg s) (language.Language.from_tag cfg t) = .eq ↔ s = t) := by
  obtain ⟨h1, h2, h3⟩ := C73_order
  obtain ⟨i1, i2, i3⟩ := C43_injective cfg s t
  refine ⟨(h1.1 _ _).trans ⟨i1, ?_⟩, (h2.1 _ _).trans ⟨i2, ?_⟩, (h3.1 _ _).trans ⟨i3, ?_⟩⟩
  all_goals rintro rfl; rfl

/-- `get` with a name finds the record of the first header whose tag has that name, and nothing exactly when there is
none. `named` is the conversion of a tag to a name, and `tagOf` that of a name to a tag. -/
def GetsNamed {H R K : Type} (header : H → Tag) (named : Tag → K) (tagOf : K → Tag) (headers : List H)
    (records : List R) (get : Tag → Except Err (Option R)) : Prop :=
  ∀ t,
    (get (tagOf (named t)) = .ok none ↔ ∀ h ∈ headers, named (header h) ≠ named t) ∧
    ((∃ h ∈ headers, named (header h) = named t) →
      ∃ (i : Nat) (h : H) (record : R), headers[i]? = some h ∧ named (header h) = named t ∧
        (∀ (j : Nat) h', j < i → headers[j]? = some h' → named (header h') ≠ named t) ∧
        records[i]? = some record ∧ get (tagOf (named t)) = .ok (some record))

theorem getsNamed {H R K : Type} {header : H → Tag} {named : Tag → K} {tagOf : K → Tag} {headers : List H}
    {records : List R} {get : Tag → Except Err (Option R)} (hn : ∀ t, tagOf (named t) = t)
    (h : GetsFirst header headers records get) : GetsNamed header named tagOf headers records get := by
  have inj : ∀ s t, named s = named t ↔ s = t := fun s t => ⟨fun e => by rw [← hn s, e, hn], congrArg _⟩
  intro t
  simp only [hn, ne_eq, inj]
  exact ⟨(h t).1, (h t).2.1⟩

/-- For the lists of every GSUB and GPOS table read from any tape. -/
theorem C73_get (cfg : Cfg) {d : Data} {p : Nat} (hd : Fits d) :
    (∀ t, Reads (gsub.GlyphSubstitution.read cfg) d p t →
      GetsNamed (·.tag) feature.Feature.from_tag feature.Feature.tag t.features.headers t.features.records
        t.features.get ∧
      GetsNamed (·.tag) script.Script.from_tag script.Script.tag t.scripts.headers t.scripts.records t.scripts.get ∧
      ∀ record ∈ t.scripts.records, GetsNamed (·.tag) (language.Language.from_tag cfg) language.Language.tag
        record.language_headers record.language_records record.get) ∧
    (∀ t, Reads (gpos.GlyphPositioning.read cfg) d p t →
      GetsNamed (·.tag) feature.Feature.from_tag feature.Feature.tag t.features.headers t.features.records
        t.features.get ∧
      GetsNamed (·.tag) script.Script.from_tag script.Script.tag t.scripts.headers t.scripts.records t.scripts.get ∧
      ∀ record ∈ t.scripts.records, GetsNamed (·.tag) (language.Language.from_tag cfg) language.Language.tag
        record.language_headers record.language_records record.get) := by
  obtain ⟨h1, h2⟩ := C18_get_directory cfg (p := p) hd
  refine ⟨fun t ht => ?_, fun t ht => ?_⟩
  · obtain ⟨a, b, c⟩ := h1 t ht
    exact ⟨getsNamed C43_tag_feature a, getsNamed C43_tag_script b,
      fun r hr => getsNamed (C43_tag_language cfg) (c r hr)⟩
  · obtain ⟨a, b, c⟩ := h2 t ht
    exact ⟨getsNamed C43_tag_feature a, getsNamed C43_tag_script b,
      fun r hr => getsNamed (C43_tag_language cfg) (c r hr)⟩

/-- `Hiragana` and `Katakana` are two keys with one tag: as keys they differ, and `get` finds the same with either. -/
theorem C73_katakana (scripts : script.Scripts) :
    Named.cmp (.known hiragana) (.known katakana) = .lt ∧
      scripts.get (script.Script.tag (.known hiragana)) = scripts.get (script.Script.tag (.known katakana)) := by
  have : script.Script.tag (.known hiragana) = script.Script.tag (.known katakana) := by decide +kernel
  rw [this]
  exact ⟨by decide, rfl⟩

/-- `Kerning` comes before an unknown feature, and `AAAA` before `AAAB`. -/
example : Named.cmp (feature.Feature.from_tag 0x6B65726E) (feature.Feature.from_tag 0x41414141) = .lt ∧
    Named.cmp (feature.Feature.from_tag 0x41414142) (feature.Feature.from_tag 0x41414141) = .gt ∧
    sampleFeaturesValue.get (feature.Feature.tag (feature.Feature.from_tag 0x6C696761)) =
      .ok (some ⟨0, 1, [5], none⟩) := by decide +kernel

end OpenType.Props
