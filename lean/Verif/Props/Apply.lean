import Verif.Spec.Apply
import Verif.Props.Gsub
import Verif.Props.Gpos
/-! # C102 and C103: what is done to glyphs -/

namespace OpenType.Props
open OpenType Spec coverage class_

/-- The first element with a property, in terms of places. -/
theorem find?_places {α : Type} {xs : List α} {f : α → Bool} {x : α} :
    xs.find? f = some x ↔ ∃ k : Nat, xs[k]? = some x ∧ f x = true ∧ ∀ j < k, ∀ y, xs[j]? = some y → f y = false := by
  rw [List.find?_eq_some_iff_getElem]
  constructor
  · rintro ⟨h1, k, hk, rfl, h3⟩
    refine ⟨k, List.getElem?_eq_getElem hk, h1, ?_⟩
    intro j hj y hy
    obtain ⟨_, rfl⟩ := List.getElem?_eq_some_iff.mp hy
    simpa using h3 j hj
  · rintro ⟨k, h1, h2, h3⟩
    obtain ⟨hk, rfl⟩ := List.getElem?_eq_some_iff.mp h1
    refine ⟨h2, k, hk, rfl, ?_⟩
    intro j hj
    simpa using h3 j hj _ (List.getElem?_eq_getElem (by omega))

theorem indexOf_iff {d : Data} {c : Nat} {t : Coverage} (h : IsCoverage d c t) (g i : Nat) :
    indexOf t g = some i ↔ CoveredAs d c g i := by
  cases t with
  | format1 t =>
    obtain ⟨h0, h1, h2, h3, h4⟩ := h
    rw [h0] at h1
    simp only [indexOf, List.findIdx?_eq_some_iff_getElem, beq_iff_eq]
    constructor
    · rintro ⟨hi, rfl, hj⟩
      refine .inl ⟨h1, _, h2, by omega, h4 i _ (List.getElem?_eq_getElem hi), ?_⟩
      intro j hji hu
      exact hj j hji ((h4 j _ (List.getElem?_eq_getElem (by omega))).unique hu)
    · rintro (⟨_, n, h5, h6, h7, h8⟩ | ⟨h5, _⟩)
      · rw [h5.unique h2, ← h3] at h6
        refine ⟨h6, (h4 i _ (List.getElem?_eq_getElem h6)).unique h7, ?_⟩
        intro j hji he
        exact h8 j hji (he ▸ h4 j _ (List.getElem?_eq_getElem (by omega)))
      · have := h5.unique h1; omega
  | format2 t =>
    obtain ⟨h0, h1, h2, h3, h4⟩ := h
    rw [h0] at h1
    simp only [indexOf, Option.map_eq_some_iff, find?_places]
    constructor
    · rintro ⟨r, ⟨k, hk, hc, hj⟩, rfl⟩
      simp only [Bool.and_eq_true, decide_eq_true_eq] at hc
      obtain ⟨g1, g2, g3⟩ := h4 k _ hk
      refine .inr ⟨h1, _, k, _, _, _, h2, ?_, g1, g2, g3, hc.1, hc.2, rfl, ?_⟩
      · have := (List.getElem?_eq_some_iff.mp hk).1; omega
      · intro j hjk a b ha hb hab
        have hlt := (List.getElem?_eq_some_iff.mp hk).1
        have e := List.getElem?_eq_getElem (l := t.records) (i := j) (by omega)
        obtain ⟨k1, k2, _⟩ := h4 j _ e
        have := hj j hjk _ e
        rw [← k1.unique ha, ← k2.unique hb] at hab
        simp [hab] at this
    · rintro (⟨h5, _⟩ | ⟨_, n, k, first, last, start, g0, g1, g2, g3, g4, g5, g6, rfl, g7⟩)
      · have := h5.unique h1; omega
      · rw [g0.unique h2, ← h3] at g1
        have e := List.getElem?_eq_getElem g1
        obtain ⟨k1, k2, k3⟩ := h4 k _ e
        obtain rfl := k1.unique g2
        obtain rfl := k2.unique g3
        obtain rfl := k3.unique g4
        refine ⟨_, ⟨k, e, by simp [g5, g6], ?_⟩, rfl⟩
        intro j hj y hy
        obtain ⟨m1, m2, _⟩ := h4 j _ hy
        have := g7 j hj _ _ m1 m2
        by_cases hz : y.start_glyph_id ≤ g
        · simp [hz]; omega
        · simp [hz]

theorem classOf_iff {d : Data} {c : Nat} {t : Class} (h : IsClass d c t) (g k : Nat) :
    classOf t g = k ↔ ClassedAs d c g k := by
  cases t with
  | format1 t =>
    obtain ⟨h0, h1, h2, h3, h4, h5⟩ := h
    rw [h0] at h1
    simp only [classOf]
    constructor
    · rintro rfl
      refine .inl ⟨h1, _, _, h2, h3, ?_⟩
      split
      · rename_i hg
        have e := List.getElem?_eq_getElem (l := t.indices) (i := g - t.start_glyph_id) (by omega)
        rw [if_pos hg.1, e]
        exact h5 _ _ e
      · rename_i hg
        split
        · rw [List.getElem?_eq_none (by omega)]; rfl
        · rfl
    · rintro (⟨_, first, n, g1, g2, g3⟩ | ⟨g1, _⟩)
      · obtain rfl := g1.unique h2
        obtain rfl := g2.unique h3
        split at g3
        · rename_i hg
          have e := List.getElem?_eq_getElem (l := t.indices) (i := g - t.start_glyph_id) (by omega)
          rw [if_pos hg.1, e]
          exact (h5 _ _ e).unique g3
        · rename_i hg
          rw [g3]
          split
          · rw [List.getElem?_eq_none (by omega)]; rfl
          · rfl
      · have := g1.unique h1; omega
  | format2 t =>
    obtain ⟨h0, h1, h2, h3, h4⟩ := h
    rw [h0] at h1
    simp only [classOf]
    have hit : ∀ (i : Nat) (r : class_.Record), t.records[i]? = some r → (decide (r.start_glyph_id ≤ g) && decide (g ≤ r.end_glyph_id)) = true →
        ∃ a b, U16 d (c + 4 + 6 * i) a ∧ U16 d (c + 4 + 6 * i + 2) b ∧ a ≤ g ∧ g ≤ b := by
      intro i r hr hf
      simp only [Bool.and_eq_true, decide_eq_true_eq] at hf
      exact ⟨_, _, (h4 i r hr).1, (h4 i r hr).2.1, hf⟩
    have miss : ∀ (i : Nat) (r : class_.Record), t.records[i]? = some r → (decide (r.start_glyph_id ≤ g) && decide (g ≤ r.end_glyph_id)) = false →
        ∀ a b, U16 d (c + 4 + 6 * i) a → U16 d (c + 4 + 6 * i + 2) b → ¬(a ≤ g ∧ g ≤ b) := by
      intro i r hr hf a b ha hb hab
      rw [← (h4 i r hr).1.unique ha, ← (h4 i r hr).2.1.unique hb] at hab
      simp [hab] at hf
    cases hfind : t.records.find? fun r => decide (r.start_glyph_id ≤ g) && decide (g ≤ r.end_glyph_id) with
    | some r =>
      obtain ⟨i, e, hf, hj⟩ := find?_places.mp hfind
      have hi := (List.getElem?_eq_some_iff.mp e).1
      have hold : ∀ j < i, ∀ a b, U16 d (c + 4 + 6 * j) a → U16 d (c + 4 + 6 * j + 2) b → ¬(a ≤ g ∧ g ≤ b) := by
        intro j hji
        have e' := List.getElem?_eq_getElem (l := t.records) (i := j) (by omega)
        exact miss j _ e' (hj j hji _ e')
      obtain ⟨a, b, ha, hb, hab⟩ := hit i r e hf
      constructor
      · rintro rfl
        exact .inr ⟨h1, _, h2, .inl ⟨i, by omega, ⟨a, b, ha, hb, hab⟩, (h4 i r e).2.2, hold⟩⟩
      · rintro (⟨g1, _⟩ | ⟨_, n, g1, ⟨i', g2, ⟨a', b', ga, gb, gab⟩, g3, g4⟩ | ⟨_, g2⟩⟩)
        · have := g1.unique h1; omega
        · have : i' = i := by
            rcases Nat.lt_trichotomy i' i with hl | he | hl
            · exact (hold i' hl _ _ ga gb gab).elim
            · exact he
            · exact (g4 i hl _ _ ha hb hab).elim
          subst this
          exact (h4 i' r e).2.2.unique g3
        · rw [g1.unique h2] at g2
          exact (g2 i (by omega) _ _ ha hb hab).elim
    | none =>
      rw [List.find?_eq_none] at hfind
      have hold : ∀ j < t.record_count, ∀ a b, U16 d (c + 4 + 6 * j) a → U16 d (c + 4 + 6 * j + 2) b →
          ¬(a ≤ g ∧ g ≤ b) := by
        intro j hji
        have e' := List.getElem?_eq_getElem (l := t.records) (i := j) (by omega)
        refine miss j _ e' ?_
        have := hfind _ (List.getElem_mem (l := t.records) (n := j) (by omega))
        simpa using this
      constructor
      · rintro rfl
        exact .inr ⟨h1, _, h2, .inr ⟨rfl, hold⟩⟩
      · rintro (⟨g1, _⟩ | ⟨_, n, g1, ⟨i', g2, ⟨a', b', ga, gb, gab⟩, g3, g4⟩ | ⟨rfl, g2⟩⟩)
        · have := g1.unique h1; omega
        · rw [g1.unique h2] at g2
          exact (hold i' g2 _ _ ga gb gab).elim
        · rfl

/-- The number of a glyph in a coverage that is read from any tape is the one its bytes give. -/
theorem C102_coverage {d : Data} {c : Nat} (hd : Fits d) {t : Coverage} (h : Reads Coverage.read d c t) (g i : Nat) :
    indexOf t g = some i ↔ CoveredAs d c g i :=
  indexOf_iff ((reads_parses (S := IsCoverage) hd).mp h) g i

/-- The class of a glyph by a class definition that is read from any tape is the one its bytes give. -/
theorem C102_class {d : Data} {c : Nat} (hd : Fits d) {t : Class} (h : Reads Class.read d c t) (g k : Nat) :
    classOf t g = k ↔ ClassedAs d c g k :=
  classOf_iff ((reads_parses (S := IsClass) hd).mp h) g k

theorem coveredIn_iff {d : Data} {p o : Nat} {t : Coverage} (ho : U16 d (p + 2) o) (h : IsCoverage d (p + o) t) (g i : Nat) :
    indexOf t g = some i ↔ CoveredIn d p g i := by
  rw [indexOf_iff h]
  constructor
  · intro h; exact ⟨o, ho, h⟩
  · rintro ⟨o', h1, h2⟩; rw [h1.unique ho] at h2; exact h2

/-- What looking for the entry of a glyph gives. -/
theorem entryOf_iff {α : Type} {t : Coverage} {entries : List α} {g : Nat} {C : Nat → Prop}
    (hc : ∀ i, indexOf t g = some i ↔ C i) :
    (entryOf t entries g = .ok none ↔ ∀ i, ¬C i) ∧
    (∀ x, entryOf t entries g = .ok (some x) ↔ ∃ i, C i ∧ entries[i]? = some x) ∧
    ((∃ e, entryOf t entries g = .error e) ↔ ∃ i, C i ∧ entries.length ≤ i) := by
  unfold entryOf
  cases h : indexOf t g with
  | none =>
    have hn : ∀ i, ¬C i := fun i hi => by rw [(hc i).mpr hi] at h; cases h
    refine ⟨⟨fun _ => hn, fun _ => rfl⟩, fun x => ⟨fun e => (by cases e), fun ⟨i, hi, _⟩ => (hn i hi).elim⟩,
      ⟨fun ⟨e, he⟩ => (by cases he), fun ⟨i, hi, _⟩ => (hn i hi).elim⟩⟩
  | some i =>
    have hi := (hc i).mp h
    have hu : ∀ j, C j → j = i := fun j hj => by
      have := (hc j).mpr hj
      rw [h] at this; injection this with this; exact this.symm
    simp only [element]
    cases he : entries[i]? with
    | none =>
      have hl := List.getElem?_eq_none_iff.mp he
      refine ⟨⟨fun e => (by cases e), fun hn => (hn i hi).elim⟩, fun x => ⟨fun e => (by cases e), ?_⟩,
        ⟨fun _ => ⟨i, hi, hl⟩, fun _ => ⟨_, rfl⟩⟩⟩
      rintro ⟨j, hj, hx⟩
      rw [hu j hj, he] at hx; cases hx
    | some y =>
      have hl := (List.getElem?_eq_some_iff.mp he).1
      refine ⟨⟨fun e => (by cases e), fun hn => (hn i hi).elim⟩, fun x => ⟨fun e => ?_, ?_⟩, ⟨fun ⟨e, hee⟩ => (by cases hee), ?_⟩⟩
      · injection e with e
        injection e with e
        exact ⟨i, hi, e ▸ he⟩
      · rintro ⟨j, hj, hx⟩
        rw [hu j hj, he] at hx
        injection hx with hx
        rw [hx]; rfl
      · rintro ⟨j, hj, hx⟩
        rw [hu j hj] at hx; omega

/-- What applying a single substitution gives: what the bytes tell. It panics if and only if the table has no entry for the
glyph although it covers it. -/
theorem C102_single {d : Data} {p : Nat} (hd : Fits d) {t : gsub.SingleSubstitution}
    (h : Reads gsub.SingleSubstitution.read d p t) (g : Nat) :
    (∀ x, replace t g = .ok (some x) ↔ ReplacedBy d p g x) ∧
    (replace t g = .ok none ↔ ∀ i, ¬CoveredIn d p g i) ∧
    ((∃ e, replace t g = .error e) ↔ U16 d p 2 ∧ Missing d p g) := by
  have h := (reads_parses (S := gsub.IsSingle) hd).mp h
  cases t with
  | format1 t =>
    obtain ⟨h0, h1, h2, h3, h4⟩ := h
    rw [h0] at h1
    have hc := coveredIn_iff h2 h4 g
    have h12 : ¬U16 d p 2 := fun h => by have := h.unique h1; omega
    simp only [replace, Except.ok.injEq]
    refine ⟨fun x => ?_, ?_, ?_⟩
    · rw [Option.map_eq_some_iff]
      constructor
      · rintro ⟨i, hi, rfl⟩
        exact .inl ⟨h1, i, _, (hc i).mp hi, h3, rfl⟩
      · rintro (⟨_, i, delta, hi, hd, rfl⟩ | ⟨h, _⟩)
        · refine ⟨i, (hc i).mpr hi, ?_⟩
          obtain ⟨m1, m2, m3⟩ := hd
          obtain ⟨m4, m5, m6⟩ := h3
          have := m3.unique m6
          have : delta = t.delta_glyph_id := by omega
          rw [this]
        · exact (h12 h).elim
    · rw [Option.map_eq_none_iff]
      constructor
      · intro hn i hi
        rw [(hc i).mpr hi] at hn; cases hn
      · intro hn
        cases e : indexOf t.coverage g with
        | none => rfl
        | some i => exact (hn i ((hc i).mp e)).elim
    · constructor
      · rintro ⟨e, h⟩; cases h
      · rintro ⟨h, _⟩; exact (h12 h).elim
  | format2 t =>
    obtain ⟨h0, h1, h2, h3, ⟨h4, h5⟩, h6⟩ := h
    rw [h0] at h1
    have hc := coveredIn_iff h2 h6 g
    have h12 : ¬U16 d p 1 := fun h => by have := h.unique h1; omega
    obtain ⟨k1, k2, k3⟩ := entryOf_iff (entries := t.glyph_ids) hc
    simp only [replace]
    refine ⟨fun x => (k2 x).trans ?_, k1, k3.trans ?_⟩
    · constructor
      · rintro ⟨i, hi, hx⟩
        have := (List.getElem?_eq_some_iff.mp hx).1
        exact .inr ⟨h1, i, _, hi, h3, by omega, h5 i _ hx⟩
      · rintro (⟨h, _⟩ | ⟨_, i, n, hi, hn, hl, hx⟩)
        · exact (h12 h).elim
        · rw [hn.unique h3, ← h4] at hl
          refine ⟨i, hi, ?_⟩
          rw [List.getElem?_eq_getElem hl, (h5 i _ (List.getElem?_eq_getElem hl)).unique hx]
    · constructor
      · rintro ⟨i, hi, hl⟩; exact ⟨h1, i, _, hi, h3, by omega⟩
      · rintro ⟨_, i, n, hi, hn, hl⟩; rw [hn.unique h3] at hl; exact ⟨i, hi, by omega⟩

/-- The entries of a substitution that has an offset for each. -/
theorem entries_iff {α : Type} {d : Data} {p o n g : Nat} {t : Coverage} {S : Nat → α → Prop} {offsets : List Nat}
    {records : List α} (ho : U16 d (p + 2) o) (h : IsCoverage d (p + o) t) (hn : U16 d (p + 4) n)
    (hs : U16s d (p + 6) n offsets) (hr : AtOffsets S p offsets records) (hS : ∀ a x y, S a x → S a y → x = y) :
    (entryOf t records g = .ok none ↔ ∀ i, ¬CoveredIn d p g i) ∧
    (∀ x, entryOf t records g = .ok (some x) ↔ ∃ a, EntryAt d p g a ∧ S a x) ∧
    ((∃ e, entryOf t records g = .error e) ↔ Missing d p g) := by
  obtain ⟨k1, k2, k3⟩ := entryOf_iff (entries := records) (coveredIn_iff ho h g)
  refine ⟨k1, fun x => (k2 x).trans ?_, k3.trans ?_⟩
  · constructor
    · rintro ⟨i, hi, hx⟩
      have hl := (List.getElem?_eq_some_iff.mp hx).1
      have e := List.getElem?_eq_getElem (l := offsets) (i := i) (by rw [← hr.1]; exact hl)
      exact ⟨_, ⟨i, n, _, hi, hn, by rw [← hs.1, ← hr.1]; exact hl, hs.2 i _ e, rfl⟩, hr.2 i _ _ e hx⟩
    · rintro ⟨a, ⟨i, n', o', hi, hn', hl, ho', rfl⟩, hS'⟩
      rw [hn'.unique hn] at hl
      have e := List.getElem?_eq_getElem (l := offsets) (i := i) (by rw [hs.1]; exact hl)
      have e' := List.getElem?_eq_getElem (l := records) (i := i) (by rw [hr.1, hs.1]; exact hl)
      have hv := hr.2 i _ _ e e'
      rw [(hs.2 i _ e).unique ho'] at hv
      exact ⟨i, hi, by rw [e', hS _ _ _ hv hS']⟩
  · have hl : records.length = n := by rw [hr.1, hs.1]
    constructor
    · rintro ⟨i, hi, hx⟩; exact ⟨i, n, hi, hn, by omega⟩
    · rintro ⟨i, n', hi, hn', hx⟩; rw [hn'.unique hn] at hx; exact ⟨i, hi, by omega⟩

theorem parses_unique {α : Type} {r : Reader α} {S : Data → Nat → α → Prop} [Parses r S] {d : Data} (hd : Fits d) (a : Nat)
    (x y : α) (hx : S d a x) (hy : S d a y) : x = y := by
  obtain ⟨_, e⟩ := (reads_parses (r := r) hd).mpr hx
  obtain ⟨_, e'⟩ := (reads_parses (r := r) hd).mpr hy
  rw [e] at e'
  injection e' with e'
  injection e'

/-- What applying a substitution with lists of glyphs gives. -/
def GivesGlyphs (d : Data) (p g : Nat) (result : Except Err (Option (List Nat))) : Prop :=
  (∀ glyphs, result = .ok (some glyphs) ↔ ∃ a, EntryAt d p g a ∧ GlyphsAt d a glyphs) ∧
  (result = .ok none ↔ ∀ i, ¬CoveredIn d p g i) ∧
  ((∃ e, result = .error e) ↔ Missing d p g)

theorem gives_glyphs {α : Type} {d : Data} {p g : Nat} {result : Except Err (Option α)} {f : α → List Nat}
    {S : Nat → α → Prop} (hS : ∀ a glyphs, (∃ x, S a x ∧ f x = glyphs) ↔ GlyphsAt d a glyphs)
    (h : (result = .ok none ↔ ∀ i, ¬CoveredIn d p g i) ∧
      (∀ x, result = .ok (some x) ↔ ∃ a, EntryAt d p g a ∧ S a x) ∧ ((∃ e, result = .error e) ↔ Missing d p g)) :
    GivesGlyphs d p g (do return (← result).map f) := by
  obtain ⟨h1, h2, h3⟩ := h
  refine ⟨fun glyphs => ?_, Iff.trans ?_ h1, Iff.trans ?_ h3⟩
  · constructor
    · intro e
      cases result with
      | error m => cases e
      | ok x =>
        cases x with
        | none => cases e
        | some x =>
          obtain ⟨a, k1, k2⟩ := (h2 x).mp rfl
          injection e with e
          injection e with e
          exact ⟨a, k1, (hS a glyphs).mp ⟨x, k2, e⟩⟩
    · rintro ⟨a, k1, k2⟩
      obtain ⟨x, k3, rfl⟩ := (hS a glyphs).mpr k2
      rw [(h2 x).mpr ⟨a, k1, k3⟩]
      rfl
  · constructor
    · intro e
      cases result with
      | error m => cases e
      | ok x =>
        cases x with
        | none => rfl
        | some x => cases e
    · rintro rfl; rfl
  · constructor
    · rintro ⟨m, e⟩
      cases result with
      | error m => exact ⟨m, rfl⟩
      | ok x => cases e
    · rintro ⟨m, rfl⟩; exact ⟨m, rfl⟩

/-- What applying a multiple substitution gives: the glyphs the bytes tell. -/
theorem C102_multiple {d : Data} {p : Nat} (hd : Fits d) {t : gsub.MultipleSubstitution}
    (h : Reads gsub.MultipleSubstitution.read d p t) (g : Nat) : GivesGlyphs d p g (expand t g) := by
  obtain ⟨_, _, h2, h3, h4, h5, h6⟩ := (reads_parses (S := gsub.IsMultiple) hd).mp h
  refine gives_glyphs ?_ (entries_iff h2 h5 h3 h4 h6 (parses_unique (r := gsub.Sequence.read) hd))
  intro a glyphs
  constructor
  · rintro ⟨x, ⟨k1, k2⟩, rfl⟩; exact ⟨_, k1, k2⟩
  · rintro ⟨n, k1, k2⟩; exact ⟨⟨n, glyphs⟩, ⟨k1, k2⟩, rfl⟩

/-- What asking for the alternates of a glyph gives: the glyphs the bytes tell. -/
theorem C102_alternate {d : Data} {p : Nat} (hd : Fits d) {t : gsub.AlternateSubstitution}
    (h : Reads gsub.AlternateSubstitution.read d p t) (g : Nat) : GivesGlyphs d p g (alternatives t g) := by
  obtain ⟨_, _, h2, h3, h4, h5, h6⟩ := (reads_parses (S := gsub.IsAlternate) hd).mp h
  refine gives_glyphs ?_ (entries_iff h2 h5 h3 h4 h6 (parses_unique (r := gsub.Alternates.read) hd))
  intro a glyphs
  constructor
  · rintro ⟨x, ⟨k1, k2⟩, rfl⟩; exact ⟨_, k1, k2⟩
  · rintro ⟨n, k1, k2⟩; exact ⟨⟨n, glyphs⟩, ⟨k1, k2⟩, rfl⟩

theorem ligatureIn_iff {d : Data} {s : Nat} (hd : Fits d) {t : gsub.Ligatures} (h : gsub.IsLigatures d s t) (k x : Nat)
    (components : List Nat) :
    LigatureIn d s k x components ↔ ∃ l, t.records[k]? = some l ∧ l.glyph_id = x ∧ l.glyph_ids = components := by
  obtain ⟨h1, ⟨h2, h3⟩, h4, h5⟩ := h
  constructor
  · rintro ⟨n, o, m, k1, k2, k3, k4, k5, k6, k7⟩
    rw [k1.unique h1] at k2
    have e := List.getElem?_eq_getElem (l := t.offsets) (i := k) (by omega)
    have e' := List.getElem?_eq_getElem (l := t.records) (i := k) (by omega)
    have hl := h5 k _ _ e e'
    rw [(h3 k _ e).unique k3] at hl
    have := parses_unique (r := gsub.Ligature.read) hd _ _ ⟨x, m, components⟩ hl ⟨k4, k5, k6, k7⟩
    exact ⟨_, e', by rw [this], by rw [this]⟩
  · rintro ⟨l, e', rfl, rfl⟩
    have hlt := (List.getElem?_eq_some_iff.mp e').1
    have e := List.getElem?_eq_getElem (l := t.offsets) (i := k) (by omega)
    obtain ⟨k1, k2, k3, k4⟩ := h5 k _ _ e e'
    exact ⟨_, _, _, h1, by omega, h3 k _ e, k1, k2, k3, k4⟩

/-- What applying a ligature substitution gives: the ligature the bytes tell. -/
theorem C102_ligature {d : Data} {p : Nat} (hd : Fits d) {t : gsub.LigatureSubstitution}
    (h : Reads gsub.LigatureSubstitution.read d p t) (g : Nat) (following : List Nat) :
    (∀ x n, ligate t g following = .ok (some (x, n)) ↔ LigatedBy d p g following x n) ∧
    (ligate t g following = .ok none ↔ ¬Missing d p g ∧ ∀ x n, ¬LigatedBy d p g following x n) ∧
    ((∃ e, ligate t g following = .error e) ↔ Missing d p g) := by
  obtain ⟨_, _, h2, h3, h4, h5, h6⟩ := (reads_parses (S := gsub.IsLigatureSubstitution) hd).mp h
  obtain ⟨k1, k2, k3⟩ := entries_iff (g := g) h2 h5 h3 h4 h6 (parses_unique (r := gsub.Ligatures.read) hd)
  have some_iff : ∀ x n, ligate t g following = .ok (some (x, n)) ↔ LigatedBy d p g following x n := by
    intro x n
    constructor
    · intro e
      unfold ligate at e
      cases hr : entryOf t.coverage t.records g with
      | error m => rw [hr] at e; cases e
      | ok r =>
        rw [hr] at e
        cases r with
        | none => cases e
        | some set =>
          obtain ⟨s, hs, hset⟩ := (k2 set).mp hr
          injection e with e
          obtain ⟨l, hl, e⟩ := Option.map_eq_some_iff.mp e
          injection e with e1 e2
          obtain ⟨k, m1, m2, m3⟩ := find?_places.mp hl
          refine ⟨s, k, hs, ⟨_, (ligatureIn_iff hd hset k x _).mpr ⟨l, m1, e1, rfl⟩, List.isPrefixOf_iff_prefix.mp m2, e2.symm⟩, ?_⟩
          intro j hj y components hy hp
          obtain ⟨l', n1, _, rfl⟩ := (ligatureIn_iff hd hset j y components).mp hy
          have := m3 j hj _ n1
          rw [List.isPrefixOf_iff_prefix.mpr hp] at this
          cases this
    · rintro ⟨s, k, hs, ⟨components, m1, m2, rfl⟩, m3⟩
      have : ∃ set, gsub.IsLigatures d s set := by
        obtain ⟨i, n, o, hi, hn, hl, ho, rfl⟩ := hs
        rw [hn.unique h3] at hl
        have e := List.getElem?_eq_getElem (l := t.record_offsets) (i := i) (by rw [h4.1]; exact hl)
        have e' := List.getElem?_eq_getElem (l := t.records) (i := i) (by rw [h6.1, h4.1]; exact hl)
        have := h6.2 i _ _ e e'
        rw [(h4.2 i _ e).unique ho] at this
        exact ⟨_, this⟩
      obtain ⟨set, hset⟩ := this
      unfold ligate
      rw [(k2 set).mpr ⟨s, hs, hset⟩]
      obtain ⟨l, n1, rfl, rfl⟩ := (ligatureIn_iff hd hset k x components).mp m1
      have hf : (set.records.find? fun l => l.glyph_ids.isPrefixOf following) = some l := by
        refine find?_places.mpr ⟨k, n1, List.isPrefixOf_iff_prefix.mpr m2, ?_⟩
        intro j hj y hy
        have := m3 j hj _ _ ((ligatureIn_iff hd hset j _ _).mpr ⟨y, hy, rfl, rfl⟩)
        rw [← List.isPrefixOf_iff_prefix] at this
        exact Bool.eq_false_iff.mpr this
      change Except.ok _ = _
      rw [hf]
      rfl
  have error_iff : (∃ e, ligate t g following = .error e) ↔ Missing d p g := by
    rw [← k3]
    unfold ligate
    constructor
    · rintro ⟨m, e⟩
      cases hr : entryOf t.coverage t.records g with
      | error m => exact ⟨m, rfl⟩
      | ok r => rw [hr] at e; cases r <;> cases e
    · rintro ⟨m, e⟩
      rw [e]; exact ⟨m, rfl⟩
  refine ⟨some_iff, ?_, error_iff⟩
  constructor
  · intro e
    refine ⟨fun hm => ?_, fun x n hl => ?_⟩
    · obtain ⟨m, e'⟩ := error_iff.mpr hm
      rw [e] at e'; cases e'
    · rw [← some_iff, e] at hl; cases hl
  · rintro ⟨hm, hl⟩
    cases hr : ligate t g following with
    | error m => exact (hm (error_iff.mp ⟨m, hr⟩)).elim
    | ok r =>
      cases r with
      | none => rfl
      | some r => exact (hl r.1 r.2 ((some_iff r.1 r.2).mp hr)).elim

/-! ## Examples -/

/-- A multiple substitution that covers glyphs 3 and 4 and has a sequence for glyph 3 only. -/
def expandingTable : Data := bytes <|
  [0, 1,  0, 8,  0, 1,  0, 16] ++ [0, 1, 0, 2, 0, 3, 0, 4] ++ [0, 2, 0, 10, 0, 11]

def expandingValue : gsub.MultipleSubstitution := ⟨1, 8, 1, [16], .format1 ⟨1, 2, [3, 4]⟩, [⟨2, [10, 11]⟩]⟩

example : Reads gsub.MultipleSubstitution.read expandingTable 0 expandingValue ∧
    expand expandingValue 3 = .ok (some [10, 11]) ∧ expand expandingValue 5 = .ok none ∧
    (∃ e, expand expandingValue 4 = .error e) :=
  ⟨by decide +kernel, by decide +kernel, by decide +kernel, _, rfl⟩

/-- The same facts, in terms of the bytes. -/
example : EntryAt expandingTable 0 3 16 ∧ GlyphsAt expandingTable 16 [10, 11] ∧ Missing expandingTable 0 4 ∧
    ∀ i, ¬CoveredIn expandingTable 0 5 i := by
  have c : U16 expandingTable 2 8 := by decide +kernel
  refine ⟨⟨0, 1, 16, ⟨8, c, .inl ⟨by decide +kernel, 2, by decide +kernel, by omega, by decide +kernel, ?_⟩⟩, by decide +kernel,
      by omega, by decide +kernel, rfl⟩, ⟨2, by decide +kernel, rfl, ?_⟩,
    ⟨1, 1, ⟨8, c, .inl ⟨by decide +kernel, 2, by decide +kernel, by omega, by decide +kernel, ?_⟩⟩, by decide +kernel,
      by omega⟩, ?_⟩
  · intro j hj; omega
  · intro i x h
    match i with
    | 0 => cases h; decide +kernel
    | 1 => cases h; decide +kernel
    | _ + 2 => cases h
  · intro j hj
    obtain rfl : j = 0 := by omega
    decide +kernel
  · rintro i ⟨o, ho, h⟩
    rw [ho.unique c] at h
    obtain ⟨_, n, hn, hi, hu, _⟩ | ⟨h, _⟩ := h
    · have : U16 expandingTable (0 + 8 + 2) 2 := by decide +kernel
      rw [hn.unique this] at hi
      match i with
      | 0 => revert hu; decide +kernel
      | 1 => revert hu; decide +kernel
      | _ + 2 => omega
    · revert h; decide +kernel

/-- A set of two ligatures for glyph 3: 7 for 3, 4, 5 and 9 for 3, 4. -/
def ligatingTable : Data := bytes <|
  [0, 1,  0, 8,  0, 1,  0, 14] ++ [0, 1, 0, 1, 0, 3] ++ [0, 2, 0, 6, 0, 14] ++ [0, 7, 0, 3, 0, 4, 0, 5] ++ [0, 9, 0, 2, 0, 4]

def ligatingValue : gsub.LigatureSubstitution :=
  ⟨1, 8, 1, [14], .format1 ⟨1, 1, [3]⟩, [⟨2, [6, 14], [⟨7, 3, [4, 5]⟩, ⟨9, 2, [4]⟩]⟩]⟩

example : Reads gsub.LigatureSubstitution.read ligatingTable 0 ligatingValue ∧
    ligate ligatingValue 3 [4, 5, 6] = .ok (some (7, 2)) ∧ ligate ligatingValue 3 [4, 6] = .ok (some (9, 1)) ∧
    ligate ligatingValue 3 [6] = .ok none ∧ ligate ligatingValue 4 [4, 5] = .ok none := by decide +kernel

/-- The second of these facts, in terms of the bytes. -/
example : LigatedBy ligatingTable 0 3 [4, 6] 9 1 := by
  have fits : Fits ligatingTable := by decide +kernel
  refine ⟨14, 1, ⟨0, 1, 14, ⟨8, by decide +kernel, .inl ⟨by decide +kernel, 1, by decide +kernel, by omega, by decide +kernel, ?_⟩⟩,
    by decide +kernel, by omega, by decide +kernel, rfl⟩, ⟨[4], ⟨2, 14, 2, by decide +kernel, by omega, by decide +kernel,
    by decide +kernel, by decide +kernel, by omega, rfl, ?_⟩, by decide, rfl⟩, ?_⟩
  · intro j hj; omega
  · intro i x h
    match i with
    | 0 => cases h; decide +kernel
    | _ + 1 => cases h
  · intro j hj y components h
    obtain rfl : j = 0 := by omega
    obtain ⟨n, o, m, _, _, ho, _, hm, _, hs⟩ := h
    have h1 : U16 ligatingTable (14 + 2 + 2 * 0) 6 := by decide +kernel
    rw [ho.unique h1] at hm hs
    have h2 : U16 ligatingTable (14 + 6 + 2) 3 := by decide +kernel
    rw [hm.unique h2] at hs
    have h3 : U16 ligatingTable (14 + 6 + 4 + 2 * 1) 5 := by decide +kernel
    rintro ⟨rest, e⟩
    obtain ⟨hl, hs⟩ := hs
    match components, hl with
    | [a, b], _ =>
      have hb := (hs 1 b rfl).unique h3
      injection e with _ e
      injection e with e
      omega

/-- A glyph in a range of a coverage and of a class definition. -/
example : indexOf (.format2 ⟨2, 2, [⟨3, 5, 0⟩, ⟨8, 9, 3⟩]⟩) 9 = some 4 ∧ indexOf (.format2 ⟨2, 1, [⟨3, 5, 0⟩]⟩) 6 = none ∧
    classOf (.format2 ⟨2, 1, [⟨3, 5, 7⟩]⟩) 4 = 7 ∧ classOf (.format1 ⟨1, 3, 2, [5, 6]⟩) 4 = 6 ∧
    classOf (.format1 ⟨1, 3, 2, [5, 6]⟩) 5 = 0 := by decide +kernel

/-- Single substitutions: from 65535 by adding, and from a list. -/
example : replace (.format1 ⟨1, 6, 3, .format1 ⟨1, 1, [65535]⟩⟩) 65535 = .ok (some 2) ∧
    replace (.format2 ⟨2, 8, 1, [17], .format1 ⟨1, 1, [5]⟩⟩) 5 = .ok (some 17) := by decide +kernel

example : Reads gsub.SingleSubstitution.read (bytes [0, 1, 0, 6, 0, 3, 0, 1, 0, 1, 255, 255]) 0
      (.format1 ⟨1, 6, 3, .format1 ⟨1, 1, [65535]⟩⟩) ∧
    Reads gsub.SingleSubstitution.read (bytes [0, 2, 0, 8, 0, 1, 0, 17, 0, 1, 0, 1, 0, 5]) 0
      (.format2 ⟨2, 8, 1, [17], .format1 ⟨1, 1, [5]⟩⟩) := by decide +kernel

end OpenType.Props
