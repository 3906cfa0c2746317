import Verif.Spec.Typeset
import Verif.Spec.Apart
/-!
# Specification: text set with values

The program that sets text with tables that are already in memory, without any tape. It works for tables without extensions.
-/

namespace OpenType.Spec
open OpenType directory

/-- What a program gives when the tape is empty. -/
def offline {α : Type} (r : Reader α) : Except Err α := alone r []

/-- None of the subtables is an extension. -/
def Inline {T : Type} (extension : T → Option (Nat × Nat)) (t : Directory T) : Prop :=
  ∀ record ∈ t.lookups.records, ∀ table ∈ record.tables, extension table = none

/-- The glyphs are shaped, if there is a table for it. -/
def shapeValue (definition : Option (Nat × gdef.GlyphDefinition)) (n : Nat) (script language : Tag) (tags : List Tag)
    (glyphs : List Nat) : Option gsub.GlyphSubstitution → Except Err (List Nat)
  | none => .ok glyphs
  | some t => offline (shapeText 0 t (ignoring definition t) n script language tags glyphs)

/-- The glyphs are placed, if there is a table for it. -/
def settleValue (cfg : Cfg) (definition : Option (Nat × gdef.GlyphDefinition)) (n : Nat) (script language : Tag) (tags : List Tag)
    (glyphs : List Nat) : Option gpos.GlyphPositioning → Except Err (List Item)
  | none => .ok (glyphs.map Item.of)
  | some t => offline (settleText cfg 0 t (ignoring definition t) (marked definition) n script language tags (glyphs.map Item.of))

/-- Glyphs are shaped and placed with the tables that there are, offline. -/
def setValues (cfg : Cfg) (definition : Option gdef.GlyphDefinition) (substitution : Option gsub.GlyphSubstitution)
    (positioning : Option gpos.GlyphPositioning) (n : Nat) (script language : Tag) (tags : List Tag) (glyphs : List Nat) :
    Except Err (List Item) := do
  let definition := definition.map fun t => (0, t)
  let glyphs ← shapeValue definition n script language tags glyphs substitution
  settleValue cfg definition n script language tags glyphs positioning

end OpenType.Spec
