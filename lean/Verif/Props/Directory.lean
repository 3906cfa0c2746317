import Verif.Props.Font
/-! # C59: neither the order of the directory nor the records of other tables matter -/

namespace OpenType.Props
open OpenType Spec offsets

/-- Whatever one does with a font to look for a table, it makes no difference whether it is done with `font`
or with `font'`. -/
def SameTable (cfg : Cfg) (checksum : offsets.Record → Reader Nat) (font font' : Font) (table : TableType) :
    Prop :=
  font.exists table = font'.exists table ∧
  font.position cfg checksum table = font'.position cfg checksum table ∧
  (∀ {α : Type} (r : Reader α), font.take cfg checksum table r = font'.take cfg checksum table r) ∧
  (∀ {α P : Type} (r : P → Reader α) (parameter : P),
    font.take_given cfg checksum table r parameter = font'.take_given cfg checksum table r parameter)

theorem sameTable_of {cfg : Cfg} {checksum : offsets.Record → Reader Nat} {font font' : Font}
    {table : TableType}
    (h : ∀ record, FirstWith table.tag font.offsets.records record ↔
      FirstWith table.tag font'.offsets.records record) : SameTable cfg checksum font font' table := by
  have key : font.exists table = font'.exists table ∧
      font.position cfg checksum table = font'.position cfg checksum table := by
    have mem : ∀ {f : Font} {record}, FirstWith table.tag f.offsets.records record → f.exists table = true := by
      rintro f record ⟨b, a, e, ht, _⟩
      exact exists_iff.mpr ⟨record, by rw [e]; simp, ht⟩
    rcases Font.first_or_none table.tag font.offsets.records with ⟨record, h1⟩ | h1
    · have h2 := (h record).mp h1
      exact ⟨(mem h1).trans (mem h2).symm,
        (Font.positionIn_first h1).trans (Font.positionIn_first h2).symm⟩
    · rcases Font.first_or_none table.tag font'.offsets.records with ⟨record, h2⟩ | h2
      · obtain ⟨b, a, e, ht, _⟩ := (h record).mpr h2
        exact absurd ht (h1 record (by rw [e]; simp))
      · exact ⟨(exists_false.mpr h1).trans (exists_false.mpr h2).symm,
          (Font.positionIn_none h1).trans (Font.positionIn_none h2).symm⟩
  refine ⟨key.1, key.2, fun r => ?_, fun r parameter => ?_⟩
  · unfold Font.take
    rw [key.2]
  · unfold Font.take_given
    rw [key.2]

theorem firstWith_filter {tag : Tag} {records : List offsets.Record} {record : offsets.Record} :
    FirstWith tag records record ↔ (records.filter (fun x => x.tag = tag)).head? = some record := by
  induction records with
  | nil =>
    refine ⟨fun h => ?_, fun h => by simp at h⟩
    obtain ⟨b, a, e, _⟩ := h
    simp at e
  | cons x xs ih =>
    by_cases hx : x.tag = tag
    · rw [List.filter_cons_of_pos (by simpa using hx)]
      simp only [List.head?_cons, Option.some.injEq]
      constructor
      · rintro ⟨b, a, e, ht, hb⟩
        cases b with
        | nil => exact (List.cons.inj e).1
        | cons y ys =>
          obtain ⟨rfl, _⟩ := List.cons.inj e
          exact absurd hx (hb _ (by simp))
      · rintro rfl
        exact ⟨[], xs, rfl, hx, by simp⟩
    · rw [List.filter_cons_of_neg (by simpa using hx), ← ih]
      constructor
      · rintro ⟨b, a, e, ht, hb⟩
        cases b with
        | nil =>
          obtain ⟨rfl, _⟩ := List.cons.inj e
          exact absurd ht hx
        | cons y ys =>
          obtain ⟨rfl, e'⟩ := List.cons.inj e
          exact ⟨ys, a, e', ht, fun o ho => hb o (by simp [ho])⟩
      · rintro ⟨b, a, e, ht, hb⟩
        refine ⟨x :: b, a, by rw [e]; rfl, ht, fun o ho => ?_⟩
        rcases List.mem_cons.mp ho with rfl | ho
        · exact hx
        · exact hb o ho

/-- Only the records with the tag of a table matter to it: not those of other tables, how many they are, where
they come or what they hold, and not the numbers of the header. -/
theorem C59_other_records (cfg : Cfg) (checksum : offsets.Record → Reader Nat) (font font' : Font)
    (table : TableType)
    (h : font.offsets.records.filter (fun record => record.tag = table.tag) =
      font'.offsets.records.filter (fun record => record.tag = table.tag)) :
    SameTable cfg checksum font font' table :=
  sameTable_of fun record => by rw [firstWith_filter, firstWith_filter, h]

/-- Of the records with the tag of a table only the first matters. -/
theorem C59_first (cfg : Cfg) (checksum : offsets.Record → Reader Nat) (header header' : offsets.Header)
    (table : TableType) (record : offsets.Record) (before after before' after' : List offsets.Record)
    (ht : record.tag = table.tag) (hb : ∀ other ∈ before, other.tag ≠ table.tag)
    (hb' : ∀ other ∈ before', other.tag ≠ table.tag) :
    SameTable cfg checksum ⟨⟨header, before ++ record :: after⟩⟩ ⟨⟨header', before' ++ record :: after'⟩⟩
      table := by
  have key : ∀ b a : List offsets.Record, (∀ other ∈ b, other.tag ≠ table.tag) → ∀ x,
      FirstWith table.tag (b ++ record :: a) x ↔ x = record := by
    intro b a h x
    rw [firstWith_filter, List.filter_append,
      List.filter_eq_nil_iff.mpr (fun o ho => by simpa using h o ho),
      List.filter_cons_of_pos (by simpa using ht)]
    simp [eq_comm]
  exact sameTable_of fun x => (key before after hb x).trans (key before' after' hb' x).symm

/-- The order of the records does not matter when no two of them have the same tag, as OpenType asks for. -/
theorem C59_order (cfg : Cfg) (checksum : offsets.Record → Reader Nat) (font font' : Font) (table : TableType)
    (hp : font.offsets.records.Perm font'.offsets.records)
    (hn : (font.offsets.records.map (·.tag)).Nodup) : SameTable cfg checksum font font' table := by
  apply C59_other_records
  have hf := hp.filter (fun record => decide (record.tag = table.tag))
  have hl : (font.offsets.records.filter (fun record => decide (record.tag = table.tag))).length ≤ 1 := by
    have key : ∀ records : List offsets.Record, (records.map (·.tag)).Nodup →
        (records.filter (fun record => decide (record.tag = table.tag))).length ≤ 1 := by
      intro records hn
      induction records with
      | nil => simp
      | cons x xs ih =>
        rw [List.map_cons, List.nodup_cons] at hn
        by_cases hx : x.tag = table.tag
        · rw [List.filter_cons_of_pos (by simpa using hx),
            List.filter_eq_nil_iff.mpr (fun o ho => by
              simp only [decide_eq_true_eq]
              intro e
              exact hn.1 (List.mem_map.mpr ⟨o, ho, e.trans hx.symm⟩))]
          simp
        · rw [List.filter_cons_of_neg (by simpa using hx)]
          exact ih hn.2
    exact key _ hn
  revert hf hl
  generalize font.offsets.records.filter _ = xs
  generalize font'.offsets.records.filter _ = ys
  intro hf hl
  match xs, hl with
  | [], _ => exact (List.nil_perm.mp hf).symm
  | [x], _ => exact List.singleton_perm.mp hf

/-- Three records in the opposite order. -/
example :
    let records : List offsets.Record := [⟨TableType.names.tag, 1, 60, 8⟩,
      ⟨TableType.glyphSubstitution.tag, 2, 68, 4⟩, ⟨TableType.colorPalettes.tag, 3, 72, 14⟩]
    records.Perm records.reverse ∧ (records.map (·.tag)).Nodup ∧ records ≠ records.reverse :=
  ⟨(List.reverse_perm _).symm, by decide +kernel, by decide +kernel⟩

/-- With two records of one tag the order does matter. -/
example :
    let a : offsets.Record := ⟨TableType.names.tag, 0, 12, 0⟩
    let b : offsets.Record := ⟨TableType.names.tag, 0, 16, 0⟩
    let header : offsets.Header := ⟨65536, 2, 0, 0, 0⟩
    Font.position defaultCfg tableChecksum ⟨⟨header, [a, b]⟩⟩ .names [] 0 = .ok (some (), 12) ∧
    Font.position defaultCfg tableChecksum ⟨⟨header, [b, a]⟩⟩ .names [] 0 = .ok (some (), 16) := by
  decide +kernel

end OpenType.Props
