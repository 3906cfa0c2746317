import Verif.Spec.Gsub
import Verif.Spec.Gpos
/-!
# Specification: what is done to glyphs

What the bytes of a coverage, a class definition, a substitution and a pair adjustment say about a glyph, without any
reader and without the values that are read; and the programs with which a user of the crate finds it out from these
values. A program that indexes a list takes the element, and panics when there is none, as Rust does. Where OpenType
wants glyphs in order but the crate does not test it, the first entry counts.
-/

namespace OpenType.Spec
open OpenType coverage class_

/-! ## In bytes -/

/-- The coverage at `c` has glyph `g`, with number `i`. -/
def CoveredAs (d : Data) (c g i : Nat) : Prop :=
  (U16 d c 1 ∧ ∃ n, U16 d (c + 2) n ∧ i < n ∧ U16 d (c + 4 + 2 * i) g ∧ ∀ j < i, ¬U16 d (c + 4 + 2 * j) g) ∨
  (U16 d c 2 ∧ ∃ n k first last start, U16 d (c + 2) n ∧ k < n ∧
    U16 d (c + 4 + 6 * k) first ∧ U16 d (c + 4 + 6 * k + 2) last ∧ U16 d (c + 4 + 6 * k + 4) start ∧
    first ≤ g ∧ g ≤ last ∧ i = start + (g - first) ∧
    ∀ j < k, ∀ a b, U16 d (c + 4 + 6 * j) a → U16 d (c + 4 + 6 * j + 2) b → ¬(a ≤ g ∧ g ≤ b))

/-- The class definition at `c` puts glyph `g` into class `k`, which is 0 if it does not mention it. -/
def ClassedAs (d : Data) (c g k : Nat) : Prop :=
  (U16 d c 1 ∧ ∃ first n, U16 d (c + 2) first ∧ U16 d (c + 4) n ∧
    if first ≤ g ∧ g < first + n then U16 d (c + 6 + 2 * (g - first)) k else k = 0) ∨
  (U16 d c 2 ∧ ∃ n, U16 d (c + 2) n ∧
    ((∃ i < n, (∃ a b, U16 d (c + 4 + 6 * i) a ∧ U16 d (c + 4 + 6 * i + 2) b ∧ a ≤ g ∧ g ≤ b) ∧
        U16 d (c + 4 + 6 * i + 4) k ∧
        ∀ j < i, ∀ a b, U16 d (c + 4 + 6 * j) a → U16 d (c + 4 + 6 * j + 2) b → ¬(a ≤ g ∧ g ≤ b)) ∨
      (k = 0 ∧ ∀ j < n, ∀ a b, U16 d (c + 4 + 6 * j) a → U16 d (c + 4 + 6 * j + 2) b → ¬(a ≤ g ∧ g ≤ b))))

/-- The subtable at `p`, which has the offset of its coverage behind its format, covers glyph `g`, with number `i`. -/
def CoveredIn (d : Data) (p g i : Nat) : Prop := ∃ offset, U16 d (p + 2) offset ∧ CoveredAs d (p + offset) g i

/-- The single substitution at `p` replaces glyph `g` by glyph `x`: by adding the same number to each of its glyphs,
modulo 65536, or by those it has a list of. -/
def ReplacedBy (d : Data) (p g x : Nat) : Prop :=
  (U16 d p 1 ∧ ∃ (i : Nat) (delta : Int), CoveredIn d p g i ∧ I16 d (p + 4) delta ∧ x = ((g + delta) % 65536).toNat) ∨
  (U16 d p 2 ∧ ∃ i n, CoveredIn d p g i ∧ U16 d (p + 4) n ∧ i < n ∧ U16 d (p + 6 + 2 * i) x)

/-- For glyph `g` the subtable at `p`, which has as many offsets as it says, has one that leads to `a`. -/
def EntryAt (d : Data) (p g a : Nat) : Prop :=
  ∃ i n offset, CoveredIn d p g i ∧ U16 d (p + 4) n ∧ i < n ∧ U16 d (p + 6 + 2 * i) offset ∧ a = p + offset

/-- The subtable at `p` covers glyph `g` with a number for which it has no entry. -/
def Missing (d : Data) (p g : Nat) : Prop := ∃ i n, CoveredIn d p g i ∧ U16 d (p + 4) n ∧ n ≤ i

/-- At `a` there is a number of glyphs, followed by the glyphs. -/
def GlyphsAt (d : Data) (a : Nat) (glyphs : List Nat) : Prop := ∃ n, U16 d a n ∧ U16s d (a + 2) n glyphs

/-- Number `k` of the ligatures in the set at `s` is `x` and stands for the glyph of the set followed by `components`. -/
def LigatureIn (d : Data) (s k x : Nat) (components : List Nat) : Prop :=
  ∃ n offset m, U16 d s n ∧ k < n ∧ U16 d (s + 2 + 2 * k) offset ∧ U16 d (s + offset) x ∧ U16 d (s + offset + 2) m ∧
    m ≠ 0 ∧ U16s d (s + offset + 4) (m - 1) components

/-- The ligature substitution at `p` replaces glyph `g` and the first `n` of the glyphs that follow it by glyph `x`: the first
ligature of the set of `g` whose components these are. -/
def LigatedBy (d : Data) (p g : Nat) (following : List Nat) (x n : Nat) : Prop :=
  ∃ s k, EntryAt d p g s ∧ (∃ components, LigatureIn d s k x components ∧ components <+: following ∧ n = components.length) ∧
    ∀ j < k, ∀ y components, LigatureIn d s j y components → ¬components <+: following

/-- The single adjustment at `p` has `value` for glyph `g`: the same for each of its glyphs, or one from a list. -/
def PlacedBy (d : Data) (p g : Nat) (value : gpos.Single) : Prop :=
  ∃ flags i, U16 d (p + 4) flags ∧ CoveredIn d p g i ∧
    ((U16 d p 1 ∧ gpos.IsSingle p flags d (p + 6) value) ∨
      (U16 d p 2 ∧ ∃ n, U16 d (p + 6) n ∧ i < n ∧ gpos.IsSingle p flags d (p + 8 + gpos.valueSize flags * i) value))

/-- The single adjustment at `p` covers glyph `g` with a number for which it has no value. -/
def MissingValue (d : Data) (p g : Nat) : Prop := U16 d p 2 ∧ ∃ i n, CoveredIn d p g i ∧ U16 d (p + 6) n ∧ n ≤ i

/-- The pair adjustment at `p` has values for glyph `g` followed by glyph `h`: in format 1 those of the first pair with
`h` in the set of `g`, and in format 2 those in the row of the class of `g` and the column of the class of `h`. -/
def AdjustedBy (d : Data) (p g h : Nat) (value1 value2 : Option gpos.Single) : Prop :=
  ∃ flags1 flags2, U16 d (p + 4) flags1 ∧ U16 d (p + 6) flags2 ∧
    let size1 := gpos.valueSize flags1
    let size2 := gpos.valueSize flags2
    ((U16 d p 1 ∧ ∃ i n offset m k, CoveredIn d p g i ∧ U16 d (p + 8) n ∧ i < n ∧ U16 d (p + 10 + 2 * i) offset ∧
        U16 d (p + offset) m ∧ k < m ∧
        let pair := fun k => p + offset + 2 + (2 + size1 + size2) * k
        U16 d (pair k) h ∧ (∀ j < k, ¬U16 d (pair j) h) ∧
        gpos.IsValue (p + offset) flags1 d (pair k + 2) value1 ∧
        gpos.IsValue (p + offset) flags2 d (pair k + 2 + size1) value2) ∨
      (U16 d p 2 ∧ ∃ i offset1 offset2 n1 n2 row column, CoveredIn d p g i ∧ U16 d (p + 8) offset1 ∧
        U16 d (p + 10) offset2 ∧ U16 d (p + 12) n1 ∧ U16 d (p + 14) n2 ∧ ClassedAs d (p + offset1) g row ∧
        ClassedAs d (p + offset2) h column ∧ row < n1 ∧ column < n2 ∧
        let cell := p + 16 + (size1 + size2) * (n2 * row + column)
        gpos.IsValue p flags1 d cell value1 ∧ gpos.IsValue p flags2 d (cell + size1) value2))

/-- The pair adjustment at `p` refers to a set, a row or a column that it does not have. -/
def MissingPair (d : Data) (p g h : Nat) : Prop :=
  (U16 d p 1 ∧ ∃ i n, CoveredIn d p g i ∧ U16 d (p + 8) n ∧ n ≤ i) ∨
  (U16 d p 2 ∧ ∃ i offset1 offset2 n1 n2 row column, CoveredIn d p g i ∧ U16 d (p + 8) offset1 ∧
    U16 d (p + 10) offset2 ∧ U16 d (p + 12) n1 ∧ U16 d (p + 14) n2 ∧ ClassedAs d (p + offset1) g row ∧
    ClassedAs d (p + offset2) h column ∧ (n1 ≤ row ∨ n2 ≤ column))

/-! ## Programs -/

/-- Indexing in Rust. -/
def element {α : Type} (xs : List α) (i : Nat) : Except Err α :=
  match xs[i]? with
  | some x => .ok x
  | none => .error (.panic "index out of bounds")

/-- The number of a glyph in a coverage. -/
def indexOf : Coverage → Nat → Option Nat
  | .format1 t, g => t.glyph_ids.findIdx? (· == g)
  | .format2 t, g =>
    (t.records.find? fun r => r.start_glyph_id ≤ g && g ≤ r.end_glyph_id).map fun r => r.index + (g - r.start_glyph_id)

/-- The class of a glyph. -/
def classOf : Class → Nat → Nat
  | .format1 t, g => if t.start_glyph_id ≤ g then t.indices[g - t.start_glyph_id]?.getD 0 else 0
  | .format2 t, g => ((t.records.find? fun r => r.start_glyph_id ≤ g && g ≤ r.end_glyph_id).map (·.index)).getD 0

/-- The entry for a glyph, if the glyph is covered. -/
def entryOf {α : Type} (coverage : Coverage) (entries : List α) (g : Nat) : Except Err (Option α) :=
  match indexOf coverage g with
  | none => .ok none
  | some i => some <$> element entries i

/-- What a single substitution replaces a glyph by. -/
def replace : gsub.SingleSubstitution → Nat → Except Err (Option Nat)
  | .format1 t, g => .ok ((indexOf t.coverage g).map fun _ => ((g + t.delta_glyph_id) % 65536).toNat)
  | .format2 t, g => entryOf t.coverage t.glyph_ids g

/-- What a multiple substitution replaces a glyph by. -/
def expand (t : gsub.MultipleSubstitution) (g : Nat) : Except Err (Option (List Nat)) := do
  return (← entryOf t.coverage t.records g).map (·.glyph_ids)

/-- The alternates of a glyph. -/
def alternatives (t : gsub.AlternateSubstitution) (g : Nat) : Except Err (Option (List Nat)) := do
  return (← entryOf t.coverage t.records g).map (·.glyph_ids)

/-- The ligature for a glyph and some of those that follow it, and how many. -/
def ligate (t : gsub.LigatureSubstitution) (g : Nat) (following : List Nat) : Except Err (Option (Nat × Nat)) := do
  match ← entryOf t.coverage t.records g with
  | none => return none
  | some set =>
    return (set.records.find? fun l => l.glyph_ids.isPrefixOf following).map fun l => (l.glyph_id, l.glyph_ids.length)

/-- The value for a glyph. -/
def place : gpos.SingleAdjustment → Nat → Except Err (Option gpos.Single)
  | .format1 t, g => .ok ((indexOf t.coverage g).map fun _ => t.value)
  | .format2 t, g => entryOf t.coverage t.values g

/-- The two values for a pair of glyphs. -/
def adjust : gpos.PairAdjustment → Nat → Nat → Except Err (Option (Option gpos.Single × Option gpos.Single))
  | .format1 t, g, h => do
    match ← entryOf t.coverage t.records g with
    | none => return none
    | some set => return (set.records.find? fun pair => pair.glyph2_id == h).map fun pair => (pair.value1, pair.value2)
  | .format2 t, g, h => do
    match indexOf t.coverage g with
    | none => return none
    | some _ =>
      let row ← element t.records (classOf t.class1 g)
      let cell ← element row.records (classOf t.class2 h)
      return some (cell.value1, cell.value2)

end OpenType.Spec
