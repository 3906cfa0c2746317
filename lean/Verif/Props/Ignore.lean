import Verif.Spec.Ignore
import Verif.Props.Classify
import Verif.Props.Follow
/-! # C110: which glyphs lookups ignore -/

namespace OpenType.Props
open OpenType Spec lookup directory

/-- What asking whether lookups ignore glyphs should give. -/
def FindsIgnored {T : Type} (cfg : Cfg) (d : Data) (q p : Nat) (definition : gdef.GlyphDefinition) (t : Directory T) : Prop :=
  (∀ i record, t.lookups.records[i]? = some record → ∀ g, ignores definition record g = true ↔ Ignores cfg d q p i g) ∧
  ∀ i, t.lookups.records[i]? = none → ∀ g, ¬Ignores cfg d q p i g

theorem finds_ignored {T : Type} {cfg : Cfg} {readTable : Nat → Reader T} {isTable : Nat → Data → Nat → T → Prop}
    [∀ t, Parses (readTable t) (isTable t)] {d : Data} {p q : Nat} (hd : Fits d) {definition : gdef.GlyphDefinition}
    (hdef : Reads (gdef.GlyphDefinition.read cfg) d q definition) {t : Directory T}
    (h : Reads (Directory.read cfg readTable) d p t) : FindsIgnored cfg d q p definition t := by
  have h := (reads_parses (S := IsDirectory cfg isTable) hd).mp h
  obtain ⟨_, _, _, _, _, _, ho, _, _, _, hp, _⟩ := h
  rcases IsPart.listAt (k := 2) ho hp with ⟨b, hb, h1, ⟨h2, h3⟩, h4, h5⟩ | ⟨he, hn⟩
  · constructor
    · intro i record hi g
      have hl := (List.getElem?_eq_some_iff.mp hi).1
      have e1 := List.getElem?_eq_getElem (l := t.lookups.offsets) (i := i) (by omega)
      obtain ⟨_, g2, _, g4, _, g6, _⟩ := h5 i _ _ e1 hi
      have hat : LookupAt cfg d p i (b + t.lookups.offsets[i]) := ⟨b, _, _, hb, h1, by omega, h3 i _ e1, rfl⟩
      generalize b + t.lookups.offsets[i] = l at *
      have f1 : should_ignore_base_glyphs record.flags = record.flags.testBit 1 := flag_two_pow _ 1
      have f2 : should_ignore_ligature record.flags = record.flags.testBit 2 := flag_two_pow _ 2
      have f3 : should_ignore_marks record.flags = record.flags.testBit 3 := flag_two_pow _ 3
      have mark : (should_ignore_marks record.flags ||
          match record.mark_filtering_set with
          | some set => !inMarkSet definition set g
          | none => record.flags / 256 != 0 && classIn definition.mark_class g != record.flags / 256) = true ↔
          IgnoresMark d q l record.flags g := by
        unfold IgnoresMark
        rw [f3, Bool.or_eq_true]
        refine or_congr Iff.rfl ?_
        unfold IsMarkFilteringSet at g6
        cases hs : record.mark_filtering_set with
        | none =>
          rw [hs] at g6
          rw [if_neg (by rw [g6]; decide)]
          simp only [Bool.and_eq_true, bne_iff_ne]
          refine and_congr Iff.rfl (not_congr ?_)
          exact (C107_classes hd hdef g _).2
        | some set =>
          rw [hs] at g6
          rw [if_pos g6.1]
          have hm := C107_marks hd hdef set g
          simp only [Bool.not_eq_true', ← Bool.not_eq_true]
          rw [not_congr hm]
          constructor
          · intro hn; exact ⟨_, set, g4, g6.2, hn⟩
          · rintro ⟨n, set', u1, u2, u3⟩
            rw [u1.unique g4] at u2
            rw [u2.unique g6.2] at u3
            exact u3
      have hc := (C107_classes hd hdef g (classIn definition.glyph_class g)).1.mp rfl
      have key : Ignores cfg d q p i g ↔
          (classIn definition.glyph_class g = 1 ∧ record.flags.testBit 1 = true ∨
            classIn definition.glyph_class g = 2 ∧ record.flags.testBit 2 = true ∨
            classIn definition.glyph_class g = 3 ∧ IgnoresMark d q l record.flags g) := by
        constructor
        · rintro ⟨l', flags, k, u1, u2, u3, u4⟩
          obtain rfl := u1.unique hat
          obtain rfl := u2.unique g2
          rw [(C107_classes hd hdef g k).1.mpr u3]
          exact u4
        · intro u; exact ⟨l, _, _, hat, g2, hc, u⟩
      rw [key]
      unfold ignores
      split
      · rename_i e; rw [e, f1]; simp
      · rename_i e; rw [e, f2]; simp
      · rename_i e; rw [e]; refine Iff.trans mark ?_; simp
      · rename_i n1 n2 n3
        refine ⟨fun h => (by cases h), ?_⟩
        rintro (⟨u, _⟩ | ⟨u, _⟩ | ⟨u, _⟩)
        · exact (n1 u).elim
        · exact (n2 u).elim
        · exact (n3 u).elim
    · rintro i hi g ⟨l, flags, k, ⟨b', n, o, k1, k2, k3, _⟩, _⟩
      obtain rfl := k1.unique hb
      rw [k2.unique h1] at k3
      have := List.getElem?_eq_none_iff.mp hi
      omega
  · rw [FindsIgnored, he]
    constructor
    · intro i record hi; simp at hi
    · rintro i _ g ⟨l, flags, k, ⟨b', n', o', k1, _⟩, _⟩
      exact (hn _ k1).elim

/-- Whatever GDEF table and GSUB or GPOS table are read from any tape, in every build, lookups ignore the glyphs that the bytes
of the two tables tell. -/
theorem C110_ignored (cfg : Cfg) {d : Data} {p q : Nat} (hd : Fits d) {definition : gdef.GlyphDefinition}
    (hdef : Reads (gdef.GlyphDefinition.read cfg) d q definition) :
    (∀ t, Reads (gsub.GlyphSubstitution.read cfg) d p t → FindsIgnored cfg d q p definition t) ∧
    (∀ t, Reads (gpos.GlyphPositioning.read cfg) d p t → FindsIgnored cfg d q p definition t) :=
  ⟨fun _ h => finds_ignored (isTable := Spec.gsub.IsTable) hd hdef h,
    fun _ h => finds_ignored (isTable := Spec.gpos.IsTable cfg) hd hdef h⟩

/-- The same from the file on. -/
theorem C110_font (accept : Tag → Bool) (cfg : Cfg) {d : Data} (hd : Fits d) (p p' : Nat) {definition : gdef.GlyphDefinition}
    (hdef : Takes accept cfg d p .glyphDefinition (gdef.GlyphDefinition.read cfg) (some definition)) :
    (∀ t, Takes accept cfg d p' .glyphSubstitution (gsub.GlyphSubstitution.read cfg) (some t) →
      ∃ a b, TableAt accept cfg d .glyphDefinition a ∧ TableAt accept cfg d .glyphSubstitution b ∧
        FindsIgnored cfg d a b definition t) ∧
    (∀ t, Takes accept cfg d p' .glyphPositioning (gpos.GlyphPositioning.read cfg) (some t) →
      ∃ a b, TableAt accept cfg d .glyphDefinition a ∧ TableAt accept cfg d .glyphPositioning b ∧
        FindsIgnored cfg d a b definition t) := by
  obtain ⟨a, h1, h2⟩ := (C55_stored (S := Reads _) accept cfg _ hd (fun _ _ => Iff.rfl) p definition).mp hdef
  constructor
  · intro t h
    obtain ⟨b, h3, h4⟩ := (C55_stored (S := Reads _) accept cfg _ hd (fun _ _ => Iff.rfl) p' t).mp h
    exact ⟨a, b, h1, h3, (C110_ignored cfg hd h2).1 t h4⟩
  · intro t h
    obtain ⟨b, h3, h4⟩ := (C55_stored (S := Reads _) accept cfg _ hd (fun _ _ => Iff.rfl) p' t).mp h
    exact ⟨a, b, h1, h3, (C110_ignored cfg hd h2).2 t h4⟩

/-! ## Example -/

/-- A GDEF table by which glyph 3 is a base and glyphs 8 and 9 are marks, 9 in a set; then, from byte 44 on, a GSUB table with
two lookups without subtables, the first of which ignores bases, and the second marks that are not in the set. -/
def ignoringTables : Data := bytes <|
  [0, 1, 0, 2,  0, 14,  0, 0,  0, 0,  0, 0,  0, 30] ++ [0, 2, 0, 2,  0, 3, 0, 3, 0, 1,  0, 8, 0, 9, 0, 3] ++
  [0, 1, 0, 1, 0, 0, 0, 8] ++ [0, 1, 0, 1, 0, 9] ++
  [0, 1,  0, 0,  0, 10,  0, 10,  0, 12] ++ [0, 0] ++ [0, 2,  0, 6,  0, 12] ++ [0, 1,  0, 2,  0, 0] ++ [0, 1,  0, 16,  0, 0,  0, 0]

def ignoringDefinition : gdef.GlyphDefinition where
  header := .version12 ⟨1, 2, 14, 0, 0, 0, 30⟩
  glyph_class := some (.format2 ⟨2, 2, [⟨3, 3, 1⟩, ⟨8, 9, 3⟩]⟩)
  attachments := none
  ligatures := none
  mark_class := none
  marks := some ⟨1, 1, [8], [.format1 ⟨1, 1, [9]⟩]⟩
  variations := none

def ignoringLookups : List (lookup.Record gsub.Type_) := [⟨1, 2, 0, [], none, []⟩, ⟨1, 16, 0, [], some 0, []⟩]

example : Reads (gdef.GlyphDefinition.read ⟨false, false, false, false, false, true⟩) ignoringTables 0 ignoringDefinition ∧
    Reads (gsub.GlyphSubstitution.read ⟨false, false, false, false, false, true⟩) ignoringTables 44
      ⟨1, 0, 10, 10, 12, 0, ⟨0, [], []⟩, ⟨0, [], []⟩, ⟨2, [6, 12], ignoringLookups⟩, none⟩ ∧
    (ignoringLookups.map fun record => [3, 4, 8, 9].map (ignores ignoringDefinition record)) =
      [[true, false, false, false], [false, false, true, false]] := by decide +kernel

end OpenType.Props
