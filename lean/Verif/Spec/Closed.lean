import Verif.Spec.Lacking
/-!
# Specification: glyphs that lead to each other

What the subtables of a GSUB table may make of glyphs: which sets of glyphs they do not lead out of, and which glyphs they leave
alone. First in terms of the bytes, and then of the values that are read.
-/

namespace OpenType.Spec
open OpenType

/-! ## In bytes -/

/-- By the GSUB table at `p`, glyphs with `S` among others with `S` are replaced only by glyphs with `S`. -/
def ClosedUnder (cfg : Cfg) (d : Data) (p : Nat) (S : Nat → Prop) : Prop :=
  AllSubtables cfg 7 d p fun type_ a => ∀ before g following, (∀ h ∈ before, S h) → S g → (∀ h ∈ following, S h) →
    (∀ glyphs n, SubstitutedBy d type_ a g following glyphs n → ∀ x ∈ glyphs, S x) ∧
    ∀ x, type_ = 8 → ReversedBy d a before g following x → S x

/-- No single, multiple, ligature or reverse chained substitution of the GSUB table at `p` covers a glyph with `S`. Contexts may. -/
def NoneCovers (cfg : Cfg) (d : Data) (p : Nat) (S : Nat → Prop) : Prop :=
  AllSubtables cfg 7 d p fun type_ a => (type_ = 1 ∨ type_ = 2 ∨ type_ = 4 ∨ type_ = 8) → ∀ g i, S g → ¬CoveredIn d a g i

/-- The GSUB table at `p` has no subtables of the given type, not even through extensions. -/
def NoneOf (cfg : Cfg) (d : Data) (p : Nat) (k : Nat) : Prop := AllSubtables cfg 7 d p fun type_ _ => type_ ≠ k

/-! ## Values -/

/-- The subtable may put glyph `x` in the place of glyph `g`, or of `g` and others. -/
def Produces : gsub.Type_ → Nat → Nat → Prop
  | .singleSubstitution (.format1 t), g, x => (indexOf t.coverage g).isSome ∧ x = ((g + t.delta_glyph_id) % 65536).toNat
  | .singleSubstitution (.format2 t), _, x => x ∈ t.glyph_ids
  | .multipleSubstitution t, _, x => ∃ sequence ∈ t.records, x ∈ sequence.glyph_ids
  | .ligatureSubstitution t, _, x => ∃ set ∈ t.records, ∃ ligature ∈ set.records, x = ligature.glyph_id
  | .reverseChainedContextualSubstibution t, _, x => x ∈ t.glyph_ids
  | _, _, _ => False

end OpenType.Spec
