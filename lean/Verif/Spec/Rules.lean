import Verif.Spec.Apply
import Verif.Spec.Encode
/-!
# Specification: subtables made of rules

How to write rules for glyphs as the subtables of a GSUB table: each rule is a glyph and what becomes of it. A subtable has its header
first, then the glyphs of the rules as a coverage, and then what becomes of them, one after another.
-/

namespace OpenType.Spec
open OpenType

/-- The glyphs of some rules. -/
def writeCoverage (glyphs : List Nat) : Data := enc16 1 ++ enc16 glyphs.length ++ enc16s glyphs

/-- Where things are that come one after another from `o` on. -/
def placesFrom : Nat → List Data → List Nat
  | _, [] => []
  | o, body :: bodies => o :: placesFrom (o + body.length) bodies

/-- Each glyph becomes another. -/
def writeSingle (rules : List (Nat × Nat)) : Data :=
  enc16 2 ++ enc16 (6 + 2 * rules.length) ++ enc16 rules.length ++ enc16s (rules.map (·.2)) ++ writeCoverage (rules.map (·.1))

/-- For each glyph something written with `write`. -/
def writeEach {α : Type} (write : α → Data) (rules : List (Nat × α)) : Data :=
  enc16 1 ++ enc16 (6 + 2 * rules.length) ++ enc16 rules.length ++
    enc16s (placesFrom (6 + 2 * rules.length + (writeCoverage (rules.map (·.1))).length) (rules.map fun r => write r.2)) ++
    writeCoverage (rules.map (·.1)) ++ (rules.map fun r => write r.2).flatten

/-- Some glyphs. -/
def writeGlyphs (glyphs : List Nat) : Data := enc16 glyphs.length ++ enc16s glyphs

/-- The glyphs of `l.1`, behind the glyph of the rule, become `l.2` with it. -/
def writeLigature (l : List Nat × Nat) : Data := enc16 l.2 ++ enc16 (l.1.length + 1) ++ enc16s l.1

/-- Some ligatures that begin with the same glyph. -/
def writeLigatures (ls : List (List Nat × Nat)) : Data :=
  enc16 ls.length ++ enc16s (placesFrom (2 + 2 * ls.length) (ls.map writeLigature)) ++ (ls.map writeLigature).flatten

/-- The glyphs are numbers of 16 bits. -/
def Glyphs (xs : List Nat) : Prop := ∀ g ∈ xs, g < 65536

end OpenType.Spec
