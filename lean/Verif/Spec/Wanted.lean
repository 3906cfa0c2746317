import Verif.Spec.Typeset
/-!
# Specification: what is wanted

When two choices of a script, a language and features ask for the same lookups of a file.
-/

namespace OpenType.Spec
open OpenType
open OpenType.Props (TableAt)

/-- The same lookups of the tables of the file for glyphs are wanted. -/
def SameWanted (accept : Tag → Bool) (cfg : Cfg) (d : Data) (script language : Tag) (tags : List Tag)
    (script' language' : Tag) (tags' : List Tag) : Prop :=
  ∀ p, TableAt accept cfg d .glyphSubstitution p ∨ TableAt accept cfg d .glyphPositioning p →
    ∀ k, Wanted cfg d p script language tags k ↔ Wanted cfg d p script' language' tags' k

end OpenType.Spec
