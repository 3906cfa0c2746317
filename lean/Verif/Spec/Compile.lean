import Verif.Spec.Rules
import Verif.Spec.Assemble
import Verif.Spec.Typeset
/-!
# Specification: fonts made of rules

What rules make of a text, and how to write the table of a font that does it. The rules come in stages, each of which goes through the
text from the first glyph to the last before the next one begins.
-/

namespace OpenType.Spec
open OpenType

/-- A stage: rules that replace a glyph by another, rules that replace a glyph by several, or rules that join a glyph with some that
follow it. -/
inductive Stage where
  | single (rules : List (Nat × Nat))
  | multiple (rules : List (Nat × List Nat))
  | ligature (rules : List (Nat × List (List Nat × Nat)))
deriving DecidableEq, Repr

/-- What becomes of a glyph that others follow, and how many of these it takes with it, if there is a rule. The first rule counts. -/
def Stage.at (g : Nat) (following : List Nat) : Stage → Option (List Nat × Nat)
  | .single rules => (rules.lookup g).map fun x => ([x], 0)
  | .multiple rules => (rules.lookup g).map fun xs => (xs, 0)
  | .ligature rules => ((rules.lookup g).bind fun ls => ls.find? fun l => l.1.isPrefixOf following).map fun l => ([l.2], l.1.length)

/-- A stage goes through a text, the first `k` glyphs of which are taken already. -/
def Stage.through (stage : Stage) : Nat → List Nat → List Nat
  | _, [] => []
  | k + 1, _ :: text => stage.through k text
  | 0, g :: text =>
    match stage.at g text with
    | none => g :: stage.through 0 text
    | some (xs, k) => xs ++ stage.through k text

/-- All stages, one after another. -/
def stagesThrough (stages : List Stage) (text : List Nat) : List Nat := stages.foldl (fun text stage => stage.through 0 text) text

/-- The type of the lookup for a stage, and its subtable. -/
def Stage.type_ : Stage → Nat
  | .single _ => 1
  | .multiple _ => 2
  | .ligature _ => 4

def Stage.bytes : Stage → Data
  | .single rules => writeSingle rules
  | .multiple rules => writeEach writeGlyphs rules
  | .ligature rules => writeEach writeLigatures rules

/-- The glyphs are numbers of 16 bits, and the rules fit a subtable. -/
def Stage.Fine : Stage → Prop
  | .single rules => Glyphs (rules.map (·.1)) ∧ Glyphs (rules.map (·.2)) ∧ 6 + 2 * rules.length < 65536
  | .multiple rules => Glyphs (rules.map (·.1)) ∧ (∀ r ∈ rules, Glyphs r.2) ∧ (writeEach writeGlyphs rules).length < 65536
  | .ligature rules => Glyphs (rules.map (·.1)) ∧ (∀ r ∈ rules, ∀ l ∈ r.2, Glyphs l.1 ∧ l.2 < 65536) ∧
      (writeEach writeLigatures rules).length < 65536

/-- One script, with one feature for all languages. -/
def writeScript (script : Tag) : Data :=
  enc16 1 ++ enc32 script ++ enc16 8 ++ enc16 4 ++ enc16 0 ++ enc16 0 ++ enc16 0xFFFF ++ enc16 1 ++ enc16 0

/-- One feature, with the first `m` lookups. -/
def writeFeature (feature : Tag) (m : Nat) : Data :=
  enc16 1 ++ enc32 feature ++ enc16 8 ++ enc16 0 ++ enc16 m ++ enc16s (List.range m)

/-- The table with a lookup for each stage. -/
def compile (script feature : Tag) (stages : List Stage) : Data :=
  assemble 7 (writeScript script) (writeFeature feature stages.length) (stages.map fun stage => ⟨stage.type_, 0, none, [stage.bytes]⟩)

end OpenType.Spec
