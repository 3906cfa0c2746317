import Verif.Spec.Classify
import Verif.Spec.Walk
/-!
# Specification: which glyphs a lookup ignores

What the bytes of a GSUB or GPOS table at `p` and those of a GDEF table at `q` say together about it, and the program with
which a user of the crate finds it out.
-/

namespace OpenType.Spec
open OpenType lookup directory

/-- The lookup at `l` has the flags and ignores mark `g`. The flag for all marks comes first, then the set of marks that are not
ignored, if there is one, then the class of marks that are not ignored, in the high byte, if there is one. -/
def IgnoresMark (d : Data) (q l flags g : Nat) : Prop :=
  flags.testBit 3 = true ∨
    if flags.testBit 4 = true then ∃ n set, U16 d (l + 4) n ∧ U16 d (l + 6 + 2 * n) set ∧ ¬InMarkSet d q set g
    else flags / 256 ≠ 0 ∧ ¬MarkClass d q g (flags / 256)

/-- Lookup number `i` ignores glyph `g`: it is a base (1), a ligature (2) or a mark (3), and the lookup ignores such. -/
def Ignores (cfg : Cfg) (d : Data) (q p i g : Nat) : Prop :=
  ∃ l flags k, LookupAt cfg d p i l ∧ U16 d (l + 2) flags ∧ GlyphClass d q g k ∧
    (k = 1 ∧ flags.testBit 1 = true ∨ k = 2 ∧ flags.testBit 2 = true ∨ k = 3 ∧ IgnoresMark d q l flags g)

/-- Whether a lookup ignores a glyph. -/
def ignores {T : Type} (definition : gdef.GlyphDefinition) (record : lookup.Record T) (g : Nat) : Bool :=
  match classIn definition.glyph_class g with
  | 1 => should_ignore_base_glyphs record.flags
  | 2 => should_ignore_ligature record.flags
  | 3 => should_ignore_marks record.flags ||
    match record.mark_filtering_set with
    | some set => !inMarkSet definition set g
    | none => record.flags / 256 != 0 && classIn definition.mark_class g != record.flags / 256
  | _ => false

end OpenType.Spec
