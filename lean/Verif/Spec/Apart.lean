import Verif.Spec.Typeset
/-!
# Specification: tables apart from their file

The program that sets text with up to three tables, each on a tape of its own and from its first byte on; and when a file has the
bytes of a table.
-/

namespace OpenType.Spec
open OpenType
open OpenType.Props (TableAt)

/-- The file has no such table; or it has it, whole, with these bytes, in whatever place. The bytes may be more or fewer than the
directory of the file says. -/
def HasTable (accept : Tag → Bool) (cfg : Cfg) (d : Data) (table : TableType) : Option Data → Prop
  | none => Absent accept d table
  | some body => ∃ before after, d = before ++ body ++ after ∧ TableAt accept cfg d table before.length

/-- What a program gives on a tape with these bytes, from the first on. -/
def alone {α : Type} (r : Reader α) (body : Data) : Except Err α := (r body 0).map (·.1)

/-- The glyph definition, if there is one. -/
def definitionAlone (cfg : Cfg) : Option Data → Except Err (Option (Nat × gdef.GlyphDefinition))
  | none => .ok none
  | some body => (alone (gdef.GlyphDefinition.read cfg) body).map fun t => some (0, t)

/-- The glyphs are shaped, if there is a table for it. -/
def shapeAlone (cfg : Cfg) (definition : Option (Nat × gdef.GlyphDefinition)) (n : Nat) (script language : Tag) (tags : List Tag)
    (glyphs : List Nat) : Option Data → Except Err (List Nat)
  | none => .ok glyphs
  | some body => alone (do
      let t ← gsub.GlyphSubstitution.read cfg
      shapeText 0 t (ignoring definition t) n script language tags glyphs) body

/-- The glyphs are placed, if there is a table for it. -/
def settleAlone (cfg : Cfg) (definition : Option (Nat × gdef.GlyphDefinition)) (n : Nat) (script language : Tag) (tags : List Tag)
    (glyphs : List Nat) : Option Data → Except Err (List Item)
  | none => .ok (glyphs.map Item.of)
  | some body => alone (do
      let t ← gpos.GlyphPositioning.read cfg
      settleText cfg 0 t (ignoring definition t) (marked definition) n script language tags (glyphs.map Item.of)) body

/-- Glyphs are shaped and placed with the tables that there are. -/
def setApart (cfg : Cfg) (gdef gsub gpos : Option Data) (n : Nat) (script language : Tag) (tags : List Tag) (glyphs : List Nat) :
    Except Err (List Item) := do
  let definition ← definitionAlone cfg gdef
  let glyphs ← shapeAlone cfg definition n script language tags glyphs gsub
  settleAlone cfg definition n script language tags glyphs gpos

/-- The bytes of the first of the tables with the tag. -/
def bodyOf (table : TableType) : List (Tag × Data) → Option Data
  | [] => none
  | (tag, body) :: tables => if tag = table.tag then some body else bodyOf table tables

end OpenType.Spec
