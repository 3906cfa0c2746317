import Verif.Spec.Follow
import Verif.Props.Walk
import Verif.Props.Options
/-! # C101: following extensions -/

namespace OpenType.Props
open OpenType Spec lookup directory

/-- What getting a subtable should give: nothing if there is none; otherwise just what reading gives, value or error, with
the type and at the place that the subtable stands for, wherever the tape was before. -/
def FindsSubtables {T : Type} (cfg : Cfg) (number : Nat) (extension : T → Option (Nat × Nat)) (readTable : Nat → Reader T)
    (d : Data) (p : Nat) (t : Directory T) : Prop :=
  ∀ i j q,
    ((∀ type_ a, ¬SubtableAt cfg d p i j type_ a) → Reads (subtable extension readTable p t i j) d q none) ∧
    ∀ type_ a, SubtableAt cfg d p i j type_ a → ∃ type' a', StandsFor number d type_ a type' a' ∧
      (∀ x, Reads (subtable extension readTable p t i j) d q (some x) ↔ Reads (readTable type') d a' x) ∧
      ∀ e, subtable extension readTable p t i j d q = .error e ↔ readTable type' d a' = .error e

/-- Taking something from elsewhere gives what it gives there. -/
theorem jumpTake_some {T : Type} {r : Reader T} {d : Data} {b o q : Nat} (h : b + o < 2 ^ 64) :
    (jumpTake b o r >>= fun x => pure (some x)) d q = (r d (b + o)).map fun x => (some x.1, x.2) := by
  rw [run_bind_eq]
  have : jumpTake b o r d q = r d (b + o) := by
    unfold jumpTake addU64
    rw [if_pos h]
    rfl
  rw [this]
  cases r d (b + o) <;> rfl

theorem finds_subtables {T : Type} {cfg : Cfg} {number : Nat} {extension : T → Option (Nat × Nat)}
    {readTable : Nat → Reader T} {isTable : Nat → Data → Nat → T → Prop} [∀ t, Parses (readTable t) (isTable t)]
    (he : ∀ type_ d a table, isTable type_ d a table → (type_ ≠ number ∧ extension table = none) ∨
      type_ = number ∧ ∃ type' offset, extension table = some (type', offset) ∧ U16 d (a + 2) type' ∧ U32 d (a + 4) offset)
    {d : Data} {p : Nat} (hd : Fits d) {t : Directory T} (h : Reads (Directory.read cfg readTable) d p t) :
    FindsSubtables cfg number extension readTable d p t := by
  have h := (reads_parses (S := IsDirectory cfg isTable) hd).mp h
  obtain ⟨_, _, _, _, _, _, ho, _, _, _, hp, _⟩ := h
  intro i j q
  unfold subtable
  rcases IsPart.listAt (k := 2) ho hp with ⟨b, hb, h1, ⟨h2, h3⟩, h4, h5⟩ | ⟨he, hn⟩
  · by_cases hi : i < t.lookups.offsets.length
    · have e1 := List.getElem?_eq_getElem hi
      have e2 := List.getElem?_eq_getElem (l := t.lookups.records) (i := i) (by omega)
      obtain ⟨g1, _, _, g4, ⟨g5, g6⟩, _, g7, g8⟩ := h5 i _ _ e1 e2
      have hl : LookupAt cfg d p i (b + t.lookups.offsets[i]) := ⟨b, _, _, hb, h1, by omega, h3 i _ e1, rfl⟩
      simp only [e1, e2]
      generalize t.lookups.records[i] = record at *
      generalize t.lookups.offsets[i] = o at *
      by_cases hj : j < record.table_offsets.length
      · have f1 := List.getElem?_eq_getElem hj
        have f2 := List.getElem?_eq_getElem (l := record.tables) (i := j) (by omega)
        have f3 := g8 j _ _ f1 f2
        have hs : SubtableAt cfg d p i j record.type_ (b + o + record.table_offsets[j]) :=
          ⟨_, _, _, hl, g1, g4, by omega, g6 j _ f1, rfl⟩
        simp only [f1, f2]
        generalize record.tables[j] = table at *
        generalize record.table_offsets[j] = s at *
        refine ⟨fun hn => (hn _ _ hs).elim, ?_⟩
        rintro type_ a ⟨l, n, offset, k1, k2, _, _, k5, rfl⟩
        obtain rfl := k1.unique hl
        obtain rfl := k2.unique g1
        obtain rfl := k5.unique (g6 j _ f1)
        have hb' : b = p + t.lookup_offset := by
          obtain ⟨o', m1, _, rfl⟩ := hb
          rw [m1.unique (show U16 d (p + 4 + 2 * 2) t.lookup_offset from ho)]
        rcases he _ _ _ _ f3 with ⟨m1, m2⟩ | ⟨m1, type', offset', m2, m3, m4⟩
        · refine ⟨_, _, .inl ⟨m1, rfl, rfl⟩, ?_, ?_⟩ <;> rw [m2]
          · intro x
            have hr := (reads_parses (r := readTable record.type_) hd).mpr f3
            constructor
            · rintro ⟨q', e⟩
              injection e with e
              injection e with e
              injection e with e
              rw [← e]; exact hr
            · rintro ⟨q', e⟩
              obtain ⟨q'', e'⟩ := hr
              rw [e] at e'
              injection e' with e'
              injection e' with e'
              rw [e']; exact ⟨q, rfl⟩
          · intro e
            obtain ⟨q'', e'⟩ := (reads_parses (r := readTable record.type_) hd).mpr f3
            constructor
            · intro h; cases h
            · intro h; rw [e'] at h; cases h
        · have hlt := (inferInstance : Parses (readTable record.type_) (isTable record.type_)).bound f3
          have hlt' := m4.lt
          have hf := hd
          unfold Fits at hf
          rw [hb'] at hlt
          refine ⟨_, _, .inr ⟨m1, offset', m3, m4, rfl⟩, ?_, ?_⟩ <;> rw [m2, hb'] <;> simp only
          · intro x
            unfold Reads
            rw [jumpTake_some (by omega)]
            cases readTable type' d (p + t.lookup_offset + o + offset + offset') with
            | error e => simp [Except.map]
            | ok y => obtain ⟨y, q'⟩ := y; simp [Except.map]
          · intro e
            rw [jumpTake_some (by omega)]
            cases readTable type' d (p + t.lookup_offset + o + offset + offset') with
            | error e => simp [Except.map]
            | ok y => simp [Except.map]
      · rw [List.getElem?_eq_none (by omega)]
        refine ⟨fun _ => ⟨q, rfl⟩, ?_⟩
        rintro type_ a ⟨l, n, offset, k1, k2, k3, k4, k5, rfl⟩
        obtain rfl := k1.unique hl
        rw [k3.unique g4] at k4
        omega
    · rw [List.getElem?_eq_none (by omega)]
      refine ⟨fun _ => ⟨q, rfl⟩, ?_⟩
      rintro type_ a ⟨l, n, offset, ⟨b', n', o', k1, k2, k3, _⟩, _⟩
      obtain rfl := k1.unique hb
      rw [k2.unique h1] at k3
      omega
  · rw [he]
    refine ⟨fun _ => ⟨q, rfl⟩, ?_⟩
    rintro type_ a ⟨l, n, offset, ⟨b', n', o', k1, _⟩, _⟩
    exact (hn _ k1).elim

theorem substitution_extension (type_ : Nat) (d : Data) (a : Nat) (table : gsub.Type_) (h : gsub.IsTable type_ d a table) :
    (type_ ≠ 7 ∧ substitutionExtension table = none) ∨ type_ = 7 ∧
      ∃ type' offset, substitutionExtension table = some (type', offset) ∧ U16 d (a + 2) type' ∧ U32 d (a + 4) offset := by
  cases table with
  | extensionSubstitution t => exact .inr ⟨h.1, _, _, rfl, h.2.2.2.1, h.2.2.2.2⟩
  | _ => exact .inl ⟨by have := h.1; omega, rfl⟩

theorem positioning_extension (cfg : Cfg) (type_ : Nat) (d : Data) (a : Nat) (table : gpos.Type_)
    (h : gpos.IsTable cfg type_ d a table) :
    (type_ ≠ 9 ∧ positioningExtension table = none) ∨ type_ = 9 ∧
      ∃ type' offset, positioningExtension table = some (type', offset) ∧ U16 d (a + 2) type' ∧ U32 d (a + 4) offset := by
  cases table with
  | extensionPositioning t => exact .inr ⟨h.1, _, _, rfl, h.2.2.2.1, h.2.2.2.2⟩
  | _ => exact .inl ⟨by have := h.1; omega, rfl⟩

/-- In whatever GSUB or GPOS table is read from any tape, in every build, extensions can be followed. -/
theorem C101_follow (cfg : Cfg) {d : Data} {p : Nat} (hd : Fits d) :
    (∀ t, Reads (gsub.GlyphSubstitution.read cfg) d p t →
      FindsSubtables cfg 7 substitutionExtension gsub.Type_.read d p t) ∧
    (∀ t, Reads (gpos.GlyphPositioning.read cfg) d p t →
      FindsSubtables cfg 9 positioningExtension (gpos.Type_.read cfg) d p t) :=
  ⟨fun _ h => finds_subtables (isTable := Spec.gsub.IsTable) substitution_extension hd h,
    fun _ h => finds_subtables (isTable := Spec.gpos.IsTable cfg) (positioning_extension cfg) hd h⟩

/-- The same from the file on, with the table at the place the directory of the file tells. -/
theorem C101_font (accept : Tag → Bool) (cfg : Cfg) {d : Data} (hd : Fits d) (p : Nat) :
    (∀ t, Takes accept cfg d p .glyphSubstitution (gsub.GlyphSubstitution.read cfg) (some t) →
      ∃ offset, TableAt accept cfg d .glyphSubstitution offset ∧
        FindsSubtables cfg 7 substitutionExtension gsub.Type_.read d offset t) ∧
    (∀ t, Takes accept cfg d p .glyphPositioning (gpos.GlyphPositioning.read cfg) (some t) →
      ∃ offset, TableAt accept cfg d .glyphPositioning offset ∧
        FindsSubtables cfg 9 positioningExtension (gpos.Type_.read cfg) d offset t) := by
  constructor
  · intro t h
    obtain ⟨offset, h1, h2⟩ := (C55_stored (S := Reads _) accept cfg _ hd (fun _ _ => Iff.rfl) p t).mp h
    exact ⟨offset, h1, (C101_follow cfg hd).1 t h2⟩
  · intro t h
    obtain ⟨offset, h1, h2⟩ := (C55_stored (S := Reads _) accept cfg _ hd (fun _ _ => Iff.rfl) p t).mp h
    exact ⟨offset, h1, (C101_follow cfg hd).2 t h2⟩

/-- What is read is an extension again if and only if the type says so. So one step is enough unless an extension has the
type of extensions, which OpenType forbids. -/
theorem C101_step (cfg : Cfg) {d : Data} {p : Nat} (hd : Fits d) (type_ : Nat) :
    (∀ x, Reads (gsub.Type_.read type_) d p x → ((substitutionExtension x).isSome ↔ type_ = 7)) ∧
    (∀ x, Reads (gpos.Type_.read cfg type_) d p x → ((positioningExtension x).isSome ↔ type_ = 9)) := by
  constructor
  · intro x h
    rcases substitution_extension _ _ _ _ ((reads_parses hd).mp h) with ⟨h1, h2⟩ | ⟨h1, _, _, h2, _⟩ <;> rw [h2] <;> simp [h1]
  · intro x h
    rcases positioning_extension _ _ _ _ _ ((reads_parses hd).mp h) with ⟨h1, h2⟩ | ⟨h1, _, _, h2, _⟩ <;> rw [h2] <;> simp [h1]

/-- A GSUB table without scripts and features and with one lookup, of extensions. The first is one of type 1, which is a
single substitution, 16 bytes on. The second is one of type 7, that of extensions, at its own place. -/
def extensionTable : Data := bytes <|
  [0, 1,  0, 0,  0, 10,  0, 10,  0, 12] ++ [0, 0] ++ [0, 1,  0, 4] ++ [0, 7,  0, 0,  0, 2,  0, 10,  0, 18] ++
  [0, 1,  0, 1,  0, 0, 0, 16] ++ [0, 1,  0, 7,  0, 0, 0, 0] ++
  [0, 1,  0, 6,  0, 5] ++ [0, 1,  0, 1,  0, 9]

/-- What is read from it. -/
def extensionValue : gsub.GlyphSubstitution :=
  ⟨1, 0, 10, 10, 12, 0, ⟨0, [], []⟩, ⟨0, [], []⟩,
    ⟨1, [4], [⟨7, 0, 2, [10, 18], none, [.extensionSubstitution ⟨1, 1, 16⟩, .extensionSubstitution ⟨1, 7, 0⟩]⟩]⟩, none⟩

example : Reads (gsub.GlyphSubstitution.read ⟨false, false, false, false, false, false⟩) extensionTable 0 extensionValue ∧
    Reads (subtable substitutionExtension gsub.Type_.read 0 extensionValue 0 0) extensionTable 3
      (some (.singleSubstitution (.format1 ⟨1, 6, 5, .format1 ⟨1, 1, [9]⟩⟩))) ∧
    Reads (subtable substitutionExtension gsub.Type_.read 0 extensionValue 0 1) extensionTable 3
      (some (.extensionSubstitution ⟨1, 7, 0⟩)) ∧
    Reads (subtable substitutionExtension gsub.Type_.read 0 extensionValue 0 2) extensionTable 3 none := by
  decide +kernel

/-- An extension may have the type of extensions and stand for itself, and the crate takes the table, whatever the build. A
program that goes on as long as it finds an extension does not end. -/
theorem C101_circular (cfg : Cfg) :
    Reads (gsub.GlyphSubstitution.read cfg) extensionTable 0 extensionValue ∧
      SubtableAt cfg extensionTable 0 0 1 7 34 ∧
      ∀ type' a', StandsFor 7 extensionTable 7 34 type' a' ↔ type' = 7 ∧ a' = 34 := by
  refine ⟨?_, ⟨16, 2, 18, ⟨12, 1, 4, ⟨12, by decide +kernel, by simp, rfl⟩, by decide +kernel, by decide,
    by decide +kernel, rfl⟩, by decide +kernel, by decide +kernel, by decide, by decide +kernel, rfl⟩, ?_⟩
  · obtain ⟨a, b, c, d, e, f⟩ := cfg
    rw [C76_gsub ⟨a, b, c, d, e, f⟩ ⟨false, b, false, false, false, f⟩ rfl rfl]
    cases b <;> cases f <;> decide +kernel
  · intro type' a'
    have h1 : U16 extensionTable (34 + 2) 7 := by decide +kernel
    have h2 : U32 extensionTable (34 + 4) 0 := by decide +kernel
    constructor
    · rintro (⟨h, _⟩ | ⟨_, o, h3, h4, rfl⟩)
      · exact (h rfl).elim
      · exact ⟨h3.unique h1, by rw [h4.unique h2]⟩
    · rintro ⟨rfl, rfl⟩
      exact .inr ⟨rfl, 0, h1, h2, rfl⟩

end OpenType.Props
