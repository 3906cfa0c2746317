import Verif.Spec.Placing
import Verif.Spec.FontFile
import Verif.Spec.Typeset
/-!
# Specification: whole fonts made of rules

A font made of the classes of glyphs, of stages that make texts into others and of rules that place glyphs, and what they say about a text.
-/

namespace OpenType.Spec
open OpenType

/-- All that is said about the glyphs of a font. The classes are one for bases, two for ligatures, three for marks and four for components;
the first for a glyph counts. -/
structure Sources where
  classes : List (Nat × Nat)
  stages : List Stage
  placings : List Placing

/-- A glyph is a mark. -/
def Sources.mark (sources : Sources) (g : Nat) : Bool := sources.classes.lookup g == some 3

/-- What becomes of a text with all that is said. -/
def Sources.set (sources : Sources) (glyphs : List Nat) : List Item :=
  placingsThrough sources.mark sources.placings ((stagesThrough sources.stages glyphs).map Item.of)

/-- The glyph definition: a header, in which only the offset of the classes is not zero, and ranges of one glyph each. -/
def writeClasses (classes : List (Nat × Nat)) : Data :=
  enc16 1 ++ enc16 0 ++ enc16 12 ++ enc16 0 ++ enc16 0 ++ enc16 0 ++
    (enc16 2 ++ enc16 classes.length ++ classes.flatMap fun c => enc16 c.1 ++ enc16 c.1 ++ enc16 c.2)

/-- The file, with the script and the feature for everything. -/
def Sources.file (sources : Sources) (script feature : Tag) : Data :=
  fontFile 0x00010000 32 1 16
    [(TableType.glyphDefinition.tag, writeClasses sources.classes),
      (TableType.glyphPositioning.tag, compilePlacings script feature sources.placings),
      (TableType.glyphSubstitution.tag, compile script feature sources.stages)]

/-- Numbers are of 16 bits, each set of rules fits a subtable, and there are not too many of them. -/
structure Sources.Fine (sources : Sources) : Prop where
  classes : sources.classes.length < 65536 ∧ ∀ c ∈ sources.classes, c.1 < 65536 ∧ c.2 < 65536
  stages : sources.stages.length ≤ 3640 ∧ ∀ stage ∈ sources.stages, stage.Fine
  placings : sources.placings.length ≤ 3640 ∧ ∀ placing ∈ sources.placings, placing.Fine

/-- Each two glyphs that can be joined are, from the first on. What they become is not joined again. -/
def joinPairs (join : Nat → Nat → Option Nat) : List Nat → List Nat
  | [] => []
  | [g] => [g]
  | g :: h :: text =>
    match join g h with
    | none => g :: joinPairs join (h :: text)
    | some x => x :: joinPairs join text

end OpenType.Spec
