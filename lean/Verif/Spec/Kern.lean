import Verif.Spec.Compile
/-!
# Specification: kerning made of rules

What rules for pairs of glyphs say about a text, and how to write the table of a font that does it: by how much the advance of a glyph
changes when another follows it.
-/

namespace OpenType.Spec
open OpenType

/-- A value that changes the advance, and nothing else. -/
def advanceBy (v : Int) : gpos.Single := ⟨none, none, some v, none, none, none, none, none, none, none, none, none⟩

/-- By how much the advance of glyph `g` changes in front of the next, if there is a rule. The first rule counts. -/
def kernAt (rules : List (Nat × List (Nat × Int))) (g : Nat) (next : Option Nat) : Option Int :=
  next.bind fun h => (rules.lookup g).bind fun pairs => pairs.lookup h

/-- The glyphs of a text with what the rules say about their places. -/
def kerned (rules : List (Nat × List (Nat × Int))) : List Nat → List Item
  | [] => []
  | g :: text =>
    (match kernAt rules g text.head? with
      | none => ⟨g, 0, []⟩
      | some v => ⟨g, 0, [.moved (advanceBy v)]⟩) :: kerned rules text

/-- The pairs that begin with the same glyph. -/
def writePairs (pairs : List (Nat × Int)) : Data := enc16 pairs.length ++ pairs.flatMap fun pair => enc16 pair.1 ++ encI16 pair.2

/-- The subtable with the rules: values for the first glyphs with nothing but the advance, and none for the second. -/
def writeKern (rules : List (Nat × List (Nat × Int))) : Data :=
  enc16 1 ++ enc16 (10 + 2 * rules.length) ++ enc16 4 ++ enc16 0 ++ enc16 rules.length ++
    enc16s (placesFrom (10 + 2 * rules.length + (writeCoverage (rules.map (·.1))).length) (rules.map fun r => writePairs r.2)) ++
    writeCoverage (rules.map (·.1)) ++ (rules.map fun r => writePairs r.2).flatten

/-- Glyphs and values are numbers of 16 bits, and the rules fit a subtable. -/
def KernFine (rules : List (Nat × List (Nat × Int))) : Prop :=
  Glyphs (rules.map (·.1)) ∧ (∀ r ∈ rules, ∀ pair ∈ r.2, pair.1 < 65536 ∧ -32768 ≤ pair.2 ∧ pair.2 < 32768) ∧
    (writeKern rules).length < 65536

/-- The table with one lookup for the rules. -/
def compileKern (script feature : Tag) (rules : List (Nat × List (Nat × Int))) : Data :=
  assemble 9 (writeScript script) (writeFeature feature 1) [⟨2, 0, none, [writeKern rules]⟩]

end OpenType.Spec
