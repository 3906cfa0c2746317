import Verif.Spec.Lacking
import Verif.Spec.Renumber
/-!
# Specification: how long text may become

How many glyphs the subtables of a GSUB table put in at most, and how much they ask for: first in terms of the bytes, and then of
the values that are read.
-/

namespace OpenType.Spec
open OpenType context

/-- The subtables of the GSUB table at `p` replace a glyph by at most `most` glyphs, and ask for at most `asked` actions at once. -/
def PutsIn (cfg : Cfg) (d : Data) (p most asked : Nat) : Prop :=
  AllSubtables cfg 7 d p fun type_ a => ∀ before g following,
    (∀ glyphs n, SubstitutedBy d type_ a g following glyphs n → glyphs.length ≤ most) ∧
    (∀ n actions, type_ = 5 → MatchedBy d a g following (n, actions) → actions.length ≤ asked) ∧
    ∀ n actions, type_ = 6 → ChainMatchedBy d a before g following (n, actions) → actions.length ≤ asked

/-- How many times as long a text may be after one lookup, if contexts may call lookups `n` deep: instead of one glyph there may be
`most`, and then `asked` times as many more for each call. -/
def factor (most asked n : Nat) : Nat := 1 + (most - 1) * (max 1 asked) ^ (n - 1)

/-! ## Values -/

/-- A subtable of GSUB replaces a glyph by at most `most` glyphs, and asks for at most `asked` actions at once. -/
def TablePutsIn (most asked : Nat) : gsub.Type_ → Prop
  | .singleSubstitution _ => 1 ≤ most
  | .multipleSubstitution t => ∀ sequence ∈ t.records, sequence.glyph_ids.length ≤ most
  | .ligatureSubstitution _ => 1 ≤ most
  | .contextualSubstitution (.format1 t) => ∀ set ∈ t.records, ∀ rule ∈ set.records, rule.actions.length ≤ asked
  | .contextualSubstitution (.format2 t) => ∀ set ∈ t.records, ∀ rules ∈ set.toList, ∀ rule ∈ rules.records, rule.actions.length ≤ asked
  | .contextualSubstitution (.format3 t) => t.actions.length ≤ asked
  | .chainedContextualSubstitution (.format1 t) => ∀ set ∈ t.records, ∀ rule ∈ set.records, rule.actions.length ≤ asked
  | .chainedContextualSubstitution (.format2 t) => ∀ set ∈ t.records, ∀ rules ∈ set.toList, ∀ rule ∈ rules.records, rule.actions.length ≤ asked
  | .chainedContextualSubstitution (.format3 t) => t.actions.length ≤ asked
  | _ => True

end OpenType.Spec
