import Verif.Model.Tags
import Verif.Model.Lists
import Verif.Props.Sample
/-! # C43–C47: features, scripts and languages by tag

The tables `feature.rows`, `script.rows` and `language.rows` are the ones of the source. -/

namespace OpenType.Props
open OpenType

/-- `row` is the first of the rows that satisfy `arm`. -/
def IsFirst {R : Type} (rows : List R) (arm : R → Prop) (row : R) : Prop :=
  ∃ i, rows[i]? = some row ∧ arm row ∧ ∀ (j : Nat) x, j < i → rows[j]? = some x → ¬arm x

theorem firstArm_cases {R : Type} (rows : List R) (arm : R → Bool) (tag : Tag) :
    (∃ i, firstArm rows arm tag = .known i ∧ arm rows[i] = true ∧ ∀ j, j < i → arm rows[j] = false) ∨
    (firstArm rows arm tag = .other tag ∧ ∀ row ∈ rows, arm row = false) := by
  unfold firstArm
  cases h : rows.findFinIdx? arm with
  | none =>
    right
    refine ⟨rfl, fun row hrow => ?_⟩
    have := List.findFinIdx?_eq_none_iff.mp h row hrow
    simpa using this
  | some i =>
    left
    obtain ⟨h1, h2⟩ := List.findFinIdx?_eq_some_iff.mp h
    refine ⟨i, rfl, h1, fun j hj => ?_⟩
    have := h2 j hj
    simpa using this

/-! ## C43 -/

/-- Every tag survives the conversion to a feature, a script or a language of any build. -/
theorem C43_tag_feature (tag : Tag) : (feature.Feature.from_tag tag).tag = tag := by
  unfold feature.Feature.from_tag
  rcases firstArm_cases feature.rows (fun row => row.tag == tag) tag with ⟨i, h, h', _⟩ | ⟨h, _⟩
  · rw [h]; exact beq_iff_eq.mp h'
  · rw [h]; rfl

theorem C43_tag_script (tag : Tag) : (script.Script.from_tag tag).tag = tag := by
  unfold script.Script.from_tag
  rcases firstArm_cases script.rows (fun row => row.tag == tag) tag with ⟨i, h, h', _⟩ | ⟨h, _⟩
  · rw [h]; exact beq_iff_eq.mp h'
  · rw [h]; rfl

theorem C43_tag_language (cfg : Cfg) (tag : Tag) : (language.Language.from_tag cfg tag).tag = tag := by
  unfold language.Language.from_tag
  rcases firstArm_cases language.rows (fun row => language.present cfg row && row.tag == tag) tag with
    ⟨i, h, h', _⟩ | ⟨h, _⟩
  · rw [h]
    exact beq_iff_eq.mp (Bool.and_eq_true_iff.mp h').2
  · rw [h]; rfl

/-- Distinct tags are never merged. -/
theorem C43_injective (cfg : Cfg) (s t : Tag) :
    (feature.Feature.from_tag s = feature.Feature.from_tag t → s = t) ∧
    (script.Script.from_tag s = script.Script.from_tag t → s = t) ∧
    (language.Language.from_tag cfg s = language.Language.from_tag cfg t → s = t) :=
  ⟨fun h => (C43_tag_feature s).symm.trans ((congrArg _ h).trans (C43_tag_feature t)),
    fun h => (C43_tag_script s).symm.trans ((congrArg _ h).trans (C43_tag_script t)),
    fun h => (C43_tag_language cfg s).symm.trans ((congrArg _ h).trans (C43_tag_language cfg t))⟩

/-- So looking up a list with a named feature, script or language is looking it up with the tag. -/
theorem C43_get (cfg : Cfg) (tag : Tag) (features : feature.Features) (scripts : script.Scripts)
    (record : script.Record) :
    getByTag feature.Header.tag features.headers features.records (feature.Feature.from_tag tag).tag =
      getByTag feature.Header.tag features.headers features.records tag ∧
    getByTag script.Header.tag scripts.headers scripts.records (script.Script.from_tag tag).tag =
      getByTag script.Header.tag scripts.headers scripts.records tag ∧
    getByTag language.Header.tag record.language_headers record.language_records
        (language.Language.from_tag cfg tag).tag =
      getByTag language.Header.tag record.language_headers record.language_records tag := by
  rw [C43_tag_feature, C43_tag_script, C43_tag_language]
  exact ⟨rfl, rfl, rfl⟩

/-- `kern` is a known feature, and `0` is not a known anything. -/
example : (∃ i, feature.Feature.from_tag 0x6B65726E = .known i ∧ (feature.rows[i]).tag = 0x6B65726E) ∧
    feature.Feature.from_tag 0 = .other 0 ∧ script.Script.from_tag 0 = .other 0 := by
  refine ⟨⟨⟨150, by decide +kernel⟩, by decide +kernel, by decide +kernel⟩, by decide +kernel, by decide +kernel⟩

/-! ## C44 -/

/-- No two numbers are equal. -/
def distinct : List Nat → Bool
  | [] => true
  | x :: xs => xs.all (fun y => !Nat.beq y x) && distinct xs

theorem distinct_spec {xs : List Nat} (h : distinct xs = true) {i j x : Nat} (hij : j < i) (hi : xs[i]? = some x)
    (hj : xs[j]? = some x) : False := by
  induction xs generalizing i j with
  | nil => cases hi
  | cons y ys ih =>
    rw [distinct, Bool.and_eq_true] at h
    match i, j, hij with
    | i + 1, 0, _ =>
      cases hj
      have := List.all_eq_true.mp h.1 _ (List.mem_of_getElem? hi)
      simp at this
    | i + 1, j + 1, hij => exact ih h.2 (by omega : j < i) hi hj

theorem distinct_nodup {xs : List Nat} (h : distinct xs = true) : xs.Nodup := by
  induction xs with
  | nil => exact List.nodup_nil
  | cons y ys ih =>
    rw [distinct, Bool.and_eq_true] at h
    refine List.nodup_cons.mpr ⟨fun hy => ?_, ih h.2⟩
    have := List.all_eq_true.mp h.1 _ hy
    simp at this

theorem feature_distinct : distinct (feature.rows.map TagRow.tag) = true := by decide +kernel

theorem language_distinct : distinct (language.rows.map LanguageRow.tag) = true := by decide +kernel

theorem first_of_distinct {R : Type} {rows : List R} {tagOf : R → Nat} (h : distinct (rows.map tagOf) = true)
    {arm : R → Bool} (i : Fin rows.length) (ha : arm rows[i] = true)
    (ht : ∀ row, arm row = true → tagOf row = tagOf rows[i]) (tag : Tag) : firstArm rows arm tag = .known i := by
  have e (j : Fin rows.length) : (rows.map tagOf)[j.val]? = some (tagOf rows[j]) := by simp
  rcases firstArm_cases rows arm tag with ⟨j, hj, h1, _⟩ | ⟨_, h1⟩
  · rw [hj]
    rcases Nat.lt_trichotomy j.val i.val with hl | he | hl
    · exact (distinct_spec h hl (e i) (ht _ h1 ▸ e j)).elim
    · rw [Fin.ext he]
    · exact (distinct_spec h hl (ht _ h1 ▸ e j) (e i)).elim
  · have := h1 rows[i] (List.getElem_mem i.isLt)
    rw [ha] at this
    cases this

/-- Every named feature survives the conversion to a tag. -/
theorem C44_feature (i : Fin feature.rows.length) :
    feature.Feature.from_tag (feature.Feature.tag (.known i)) = .known i :=
  first_of_distinct feature_distinct i
    (arm := fun row => row.tag == feature.rows[i].tag) (beq_self_eq_true _) (fun _ h => beq_iff_eq.mp h) _

/-- Every named language of a build survives the conversion to a tag. -/
theorem C44_language (cfg : Cfg) (i : Fin language.rows.length)
    (h : language.Language.exists_ cfg (.known i) = true) :
    language.Language.from_tag cfg (language.Language.tag (.known i)) = .known i :=
  first_of_distinct language_distinct i (Bool.and_eq_true_iff.mpr ⟨h, beq_self_eq_true _⟩)
    (fun _ h => beq_iff_eq.mp (Bool.and_eq_true_iff.mp h).2) _

/-- The languages of a build are those that tags stand for, and no others: a value is one that some tag gives exactly if it
belongs to the build and, being `Other`, does not have the tag of a named one. -/
theorem C44_build (cfg : Cfg) (l : language.Language) :
    (∃ tag, language.Language.from_tag cfg tag = l) ↔
      language.Language.exists_ cfg l = true ∧
        ∀ i, l = .other language.rows[i].tag → language.Language.exists_ cfg (.known i) = false := by
  constructor
  · rintro ⟨tag, rfl⟩
    unfold language.Language.from_tag
    rcases firstArm_cases language.rows (fun row => language.present cfg row && row.tag == tag) tag with
      ⟨i, hi, h, _⟩ | ⟨hi, h⟩
    · rw [hi]
      exact ⟨(Bool.and_eq_true_iff.mp h).1, fun _ h => by cases h⟩
    · rw [hi]
      refine ⟨rfl, fun i e => ?_⟩
      cases e
      have := h language.rows[i] (List.getElem_mem i.isLt)
      rw [beq_self_eq_true, Bool.and_true] at this
      exact this
  · rintro ⟨h1, h2⟩
    refine ⟨language.Language.tag l, ?_⟩
    cases l with
    | known i => exact C44_language cfg i h1
    | other tag =>
      unfold language.Language.from_tag
      rcases firstArm_cases language.rows
        (fun row => language.present cfg row && row.tag == language.Language.tag (.other tag))
        (language.Language.tag (.other tag)) with ⟨i, hi, h, _⟩ | ⟨hi, _⟩
      · obtain ⟨h3, h4⟩ := Bool.and_eq_true_iff.mp h
        have h5 := h2 i (congrArg _ (beq_iff_eq.mp h4).symm)
        exact absurd (show language.present cfg language.rows[i] = true from h3) (by
          rw [show language.present cfg language.rows[i] = false from h5]; decide)
      · exact hi

/-- The property for scripts. -/
def ScriptsSurvive : Prop :=
  ∀ i : Fin script.rows.length, script.Script.from_tag (script.Script.tag (.known i)) = .known i

/-- The number of the row of `Hiragana`, and that of `Katakana`. -/
def hiragana : Fin script.rows.length := ⟨51, by decide +kernel⟩
def katakana : Fin script.rows.length := ⟨59, by decide +kernel⟩

/-- Every named script but `Katakana` survives the conversion to a tag. -/
theorem C44_script_partial : ∀ i : Fin script.rows.length, i ≠ katakana →
    script.Script.from_tag (script.Script.tag (.known i)) = .known i := by decide +kernel

/-- `Katakana` turns into `Hiragana`. -/
theorem C44_katakana : script.rows[hiragana].variant = "Hiragana" ∧ script.rows[katakana].variant = "Katakana" ∧
    script.Script.from_tag (script.Script.tag (.known katakana)) = .known hiragana := by decide +kernel

theorem C44_violated : ¬ScriptsSurvive := fun h => absurd (h katakana) (by decide +kernel)

/-- A language that only some builds have: a build without it gives `Other`, which a build with it never does. -/
example : ∃ i : Fin language.rows.length,
    language.Language.exists_ ⟨true, false, false, false, false, false⟩ (.known i) = true ∧
    language.Language.exists_ ⟨false, false, false, false, false, false⟩ (.known i) = false ∧
    language.Language.from_tag ⟨true, false, false, false, false, false⟩ language.rows[i].tag = .known i ∧
    language.Language.from_tag ⟨false, false, false, false, false, false⟩ language.rows[i].tag =
      .other language.rows[i].tag := by decide +kernel

/-! ## C45 -/

theorem firstArm_first {R : Type} {rows : List R} {arm : R → Bool} {P : R → Prop} (hP : ∀ row, arm row = true ↔ P row)
    (tag : Tag) {row : R} (h : IsFirst rows P row) : ∃ i, firstArm rows arm tag = .known i ∧ rows[i] = row := by
  obtain ⟨i, hi, h1, h2⟩ := h
  obtain ⟨hlt, he⟩ := List.getElem?_eq_some_iff.mp hi
  rcases firstArm_cases rows arm tag with ⟨j, hj, h3, h4⟩ | ⟨_, h3⟩
  · refine ⟨j, hj, ?_⟩
    rcases Nat.lt_trichotomy j.val i with hl | rfl | hl
    · exact (h2 j.val rows[j] hl (List.getElem?_eq_getElem j.isLt) ((hP _).mp h3)).elim
    · exact he
    · have := h4 ⟨i, hlt⟩ hl
      have h5 : arm rows[i] = true := (hP _).mpr (he ▸ h1)
      exact absurd h5 (by rw [show rows[i] = rows[(⟨i, hlt⟩ : Fin rows.length)] from rfl, this]; decide)
  · have := h3 row (List.mem_of_getElem? hi)
    rw [(hP row).mpr h1] at this
    cases this

theorem firstArm_none {R : Type} {rows : List R} {arm : R → Bool} {P : R → Prop} (hP : ∀ row, arm row = true ↔ P row)
    (tag : Tag) (h : ∀ row ∈ rows, ¬P row) : firstArm rows arm tag = .other tag := by
  rcases firstArm_cases rows arm tag with ⟨j, _, h3, _⟩ | ⟨h3, _⟩
  · exact (h _ (List.getElem_mem j.isLt) ((hP _).mp h3)).elim
  · exact h3

/-- The name of a feature is that of the first row with the tag, and there is none without such a row. -/
theorem C45_feature (tag : Tag) :
    (∀ row, IsFirst feature.rows (fun row => row.tag = tag) row →
      (feature.Feature.from_tag tag).name = some row.name) ∧
    ((∀ row ∈ feature.rows, row.tag ≠ tag) → (feature.Feature.from_tag tag).name = none) := by
  refine ⟨fun row h => ?_, fun h => ?_⟩
  · obtain ⟨i, hi, rfl⟩ := firstArm_first (arm := fun row => TagRow.tag row == tag) (fun _ => beq_iff_eq) tag h
    unfold feature.Feature.from_tag
    rw [hi]
    rfl
  · unfold feature.Feature.from_tag
    rw [firstArm_none (P := fun row => TagRow.tag row = tag) (fun _ => beq_iff_eq) tag h]
    rfl

/-- The same for scripts. -/
theorem C45_script (tag : Tag) :
    (∀ row, IsFirst script.rows (fun row => row.tag = tag) row →
      (script.Script.from_tag tag).name = some row.name) ∧
    ((∀ row ∈ script.rows, row.tag ≠ tag) → (script.Script.from_tag tag).name = none) := by
  refine ⟨fun row h => ?_, fun h => ?_⟩
  · obtain ⟨i, hi, rfl⟩ := firstArm_first (arm := fun row => TagRow.tag row == tag) (fun _ => beq_iff_eq) tag h
    unfold script.Script.from_tag
    rw [hi]
    rfl
  · unfold script.Script.from_tag
    rw [firstArm_none (P := fun row => TagRow.tag row = tag) (fun _ => beq_iff_eq) tag h]
    rfl

/-- The row is part of the build. -/
def InBuild (cfg : Cfg) (row : LanguageRow) : Prop := row.gated = true → cfg.defaultLanguage = true

theorem arm_iff (cfg : Cfg) (tag : Tag) (row : LanguageRow) :
    (language.present cfg row && row.tag == tag) = true ↔ row.tag = tag ∧ InBuild cfg row := by
  unfold language.present InBuild
  cases cfg.defaultLanguage <;> cases row.gated <;> simp

/-- The same for languages, the rows being those of the build. -/
theorem C45_language (cfg : Cfg) (tag : Tag) :
    (∀ row, IsFirst language.rows (fun row => row.tag = tag ∧ InBuild cfg row) row →
      (language.Language.from_tag cfg tag).name = some row.name) ∧
    ((∀ row ∈ language.rows, ¬(row.tag = tag ∧ InBuild cfg row)) →
      (language.Language.from_tag cfg tag).name = none) := by
  refine ⟨fun row h => ?_, fun h => ?_⟩
  · obtain ⟨i, hi, rfl⟩ := firstArm_first (arm_iff cfg tag) tag h
    unfold language.Language.from_tag
    rw [hi]
    rfl
  · unfold language.Language.from_tag
    rw [firstArm_none (arm_iff cfg tag) tag h]
    rfl

/-- The names of `kern`, of `kana`, of `ATH `, and of something else. -/
example : (feature.Feature.from_tag 0x6B65726E).name = some "Kerning" ∧
    (script.Script.from_tag 0x6B616E61).name = some "Hiragana" ∧
    (language.Language.from_tag ⟨false, false, false, false, false, false⟩ 0x41544820).name = some "Athapaskan" ∧
    (language.Language.from_tag ⟨false, false, false, false, false, false⟩ 1).name = none := by decide +kernel

/-! ## C46 -/

/-- Three lowercase letters. -/
def IsCode (code : List Char) : Prop := code.length = 3 ∧ ∀ c ∈ code, 'a' ≤ c ∧ c ≤ 'z'

/-- A decision procedure for the codes of a row. -/
def cleanCodes (row : LanguageRow) : Bool :=
  let codes := (language.split row.codes).filter fun code => !code.isEmpty
  codes.all (fun code => code.length == 3 && code.all fun c => Nat.ble 97 c.toNat && Nat.ble c.toNat 122) &&
    distinct (codes.map fun code => code.foldl (fun n c => 256 * n + c.toNat) 0)

theorem rows_clean : language.rows.all cleanCodes = true := by decide +kernel

/-- Every code any language yields has three lowercase letters, and no language yields a code twice. -/
theorem C46_codes (language : language.Language) :
    (∀ code ∈ language.codes, IsCode code) ∧ language.codes.Nodup := by
  cases language with
  | other tag =>
    have : language.Language.codes (.other tag) = [] := rfl
    rw [this]
    exact ⟨fun code h => (List.not_mem_nil h).elim, List.nodup_nil⟩
  | known i =>
    have h := List.all_eq_true.mp rows_clean language.rows[i] (List.getElem_mem i.isLt)
    unfold cleanCodes at h
    rw [Bool.and_eq_true] at h
    have e : language.Language.codes (.known i) =
      (language.split language.rows[i].codes).filter fun code => !code.isEmpty := rfl
    rw [e]
    refine ⟨fun code hc => ?_, ?_⟩
    · have h1 := List.all_eq_true.mp h.1 code hc
      rw [Bool.and_eq_true] at h1
      refine ⟨beq_iff_eq.mp h1.1, fun c hc' => ?_⟩
      have h2 := List.all_eq_true.mp h1.2 c hc'
      rw [Bool.and_eq_true] at h2
      exact ⟨Nat.le_of_ble_eq_true h2.1, Nat.le_of_ble_eq_true h2.2⟩
    · exact List.Pairwise.of_map _ (fun a b hne hab => hne (congrArg _ hab)) (distinct_nodup h.2)

/-- A language the build does not know yields none. -/
theorem C46_unknown (cfg : Cfg) (tag : Tag) (h : ∀ row ∈ language.rows, ¬(row.tag = tag ∧ InBuild cfg row)) :
    (language.Language.from_tag cfg tag).codes = [] := by
  unfold language.Language.from_tag
  rw [firstArm_none (arm_iff cfg tag) tag h]
  rfl

theorem rows_complete : language.rows.all (fun row =>
    [',', ' '].intercalate ((language.split row.codes).filter fun code => !code.isEmpty) == row.codes) = true := by
  decide +kernel

/-- Nothing is lost: put together with the separator the codes give the literal of the row. -/
theorem C46_complete (i : Fin language.rows.length) :
    [',', ' '].intercalate (language.Language.codes (.known i)) = language.rows[i].codes :=
  beq_iff_eq.mp (List.all_eq_true.mp rows_complete language.rows[i] (List.getElem_mem i.isLt))

/-- `ATH ` has 43 codes and `IPPH` none, as the test of the source says; `ALT ` has two. -/
example : (language.Language.from_tag ⟨true, false, false, false, false, false⟩ 0x41544820).codes.length = 43 ∧
    (language.Language.from_tag ⟨true, false, false, false, false, false⟩ 0x49505048).codes = [] ∧
    (language.Language.from_tag ⟨true, false, false, false, false, false⟩ 0x414C5420).codes =
      [['a', 't', 'v'], ['a', 'l', 't']] := by decide +kernel

/-! ## C47 -/

/-- The one row that depends on the feature. -/
theorem gated_iff : ∀ row ∈ language.rows, (row.gated = true ↔ row.tag = 0x44464C54) := by
  have : language.rows.all (fun row => row.gated == (row.tag == 0x44464C54)) = true := by decide +kernel
  intro row h
  have := beq_iff_eq.mp (List.all_eq_true.mp this row h)
  rw [this, beq_iff_eq]

theorem firstArm_congr {R : Type} {rows : List R} {arm arm' : R → Bool} (h : ∀ row ∈ rows, arm row = arm' row)
    (tag : Tag) : firstArm rows arm tag = firstArm rows arm' tag := by
  rcases firstArm_cases rows arm tag with ⟨i, hi, h1, h2⟩ | ⟨hi, h1⟩ <;>
    rcases firstArm_cases rows arm' tag with ⟨j, hj, h3, h4⟩ | ⟨hj, h3⟩
  · rw [hi, hj]
    rcases Nat.lt_trichotomy j.val i.val with hl | he | hl
    · have := h2 j hl
      rw [show arm rows[j] = arm' rows[j] from h _ (List.getElem_mem j.isLt), h3] at this
      cases this
    · rw [Fin.ext he]
    · have := h4 i hl
      rw [show arm' rows[i] = arm rows[i] from (h _ (List.getElem_mem i.isLt)).symm, h1] at this
      cases this
  · have := h3 _ (List.getElem_mem i.isLt)
    rw [← h _ (List.getElem_mem i.isLt), show arm rows[i.val] = true from h1] at this
    cases this
  · have := h1 _ (List.getElem_mem j.isLt)
    rw [h _ (List.getElem_mem j.isLt), show arm' rows[j.val] = true from h3] at this
    cases this
  · rw [hi, hj]

/-- For any tag but `DFLT` all builds agree on the language, and therefore on its name and its codes. -/
theorem C47_other_tags (cfg cfg' : Cfg) (tag : Tag) (h : tag ≠ 0x44464C54) :
    language.Language.from_tag cfg tag = language.Language.from_tag cfg' tag := by
  refine firstArm_congr (fun row hrow => ?_) tag
  unfold language.present
  have := gated_iff row hrow
  cases hg : row.gated with
  | false => simp
  | true =>
    have ht : row.tag ≠ tag := fun e => h (e ▸ this.mp hg)
    have : (row.tag == tag) = false := by simpa using ht
    rw [this, Bool.and_false, Bool.and_false]

/-- `DFLT` is the default language with the feature and an unknown one without. -/
theorem C47_default (cfg : Cfg) :
    (cfg.defaultLanguage = true → ∃ i, language.Language.from_tag cfg 0x44464C54 = .known i ∧
      language.rows[i].variant = "Default" ∧ language.rows[i].name = "Default") ∧
    (cfg.defaultLanguage = false → language.Language.from_tag cfg 0x44464C54 = .other 0x44464C54) := by
  refine ⟨fun h => ⟨⟨105, by decide +kernel⟩, ?_, by decide +kernel⟩, fun h => ?_⟩
  · unfold language.Language.from_tag language.present
    rw [h]
    decide +kernel
  · unfold language.Language.from_tag language.present
    rw [h]
    decide +kernel

example : language.Language.from_tag ⟨true, false, false, false, false, false⟩ 0x41544820 ≠ .other 0x41544820 := by
  decide +kernel

end OpenType.Props
