import Verif.Spec.Position
import Verif.Spec.Settle
import Verif.Props.FontFile
/-!
# Specification: from a file to glyphs in their places

What the bytes of a file make of the glyphs of a text, from the first byte on; and the program with which a user of the crate
finds it out, which begins with a tape and nothing else.
-/

namespace OpenType.Spec
open OpenType lookup directory
open OpenType.Props (TableAt)

/-! ## In bytes -/

/-- The file is not a collection, has a directory, and the table is not in it. -/
def Absent (accept : Tag → Bool) (d : Data) (table : TableType) : Prop :=
  ¬U32 d 0 0x74746366 ∧ ∃ directory, IsOffsets accept d 0 directory ∧ NoneWith table.tag directory.records

/-- What the GDEF table of the file, if there is one, says about the glyphs that lookup number `i` of the table at `p` ignores. -/
def IgnoredIn (accept : Tag → Bool) (cfg : Cfg) (d : Data) (p i g : Nat) : Prop :=
  ∃ q, TableAt accept cfg d .glyphDefinition q ∧ Ignores cfg d q p i g

/-- What the GDEF table of the file, if there is one, has as marks. -/
def MarkedIn (accept : Tag → Bool) (cfg : Cfg) (d : Data) (g : Nat) : Prop :=
  ∃ q, TableAt accept cfg d .glyphDefinition q ∧ GlyphClass d q g 3

/-- A glyph that has not been placed. Marks belong to the first component of a ligature. -/
def Item.of (g : Nat) : Item := ⟨g, 0, []⟩

/-- The GDEF table is well-formed or there is none; the GSUB table is well-formed and makes the glyphs into others, or there is
none; and the GPOS table is well-formed and places these, or there is none. Contexts may call lookups `n` deep, as in
`Spec/Contextual.lean`. -/
def TypesetInto (accept : Tag → Bool) (cfg : Cfg) (d : Data) (n : Nat) (script language : Tag) (tags : List Tag) (glyphs : List Nat)
    (out : List Item) : Prop :=
  (Absent accept d .glyphDefinition ∨
    ∃ q definition, TableAt accept cfg d .glyphDefinition q ∧ gdef.IsGlyphDefinitionTaken cfg d q definition) ∧
  ∃ middle,
    ((Absent accept d .glyphSubstitution ∧ middle = glyphs) ∨
      ∃ p t, TableAt accept cfg d .glyphSubstitution p ∧ gsub.IsGlyphSubstitution cfg d p t ∧
        Becomes cfg d p (IgnoredIn accept cfg d p) n script language tags glyphs middle) ∧
    ((Absent accept d .glyphPositioning ∧ out = middle.map Item.of) ∨
      ∃ p t, TableAt accept cfg d .glyphPositioning p ∧ gpos.IsGlyphPositioning cfg d p t ∧
        SettledInto cfg d p (IgnoredIn accept cfg d p) (MarkedIn accept cfg d) n script language tags (middle.map Item.of) out)

/-! ## Program -/

/-- A table of a font and where it begins. -/
def tableOf {α : Type} (cfg : Cfg) (font : Font) (table : TableType) (r : Reader α) : Reader (Option (Nat × α)) := do
  match ← font.position cfg tableChecksum table with
  | none => return none
  | some () => do
    let p ← OpenType.position
    let t ← r
    return some (p, t)

/-- Which glyphs are ignored, if there is a glyph definition. -/
def ignoring {T : Type} (definition : Option (Nat × gdef.GlyphDefinition)) (t : Directory T) (i g : Nat) : Bool :=
  match definition with
  | none => false
  | some (_, definition) => passedOver definition t i g

/-- Which glyphs are marks, if there is a glyph definition. -/
def marked (definition : Option (Nat × gdef.GlyphDefinition)) (g : Nat) : Bool :=
  match definition with
  | none => false
  | some (_, definition) => classIn definition.glyph_class g == 3

/-- The glyphs are shaped, if the font has a table for it. -/
def shapeWith (cfg : Cfg) (font : Font) (definition : Option (Nat × gdef.GlyphDefinition)) (n : Nat) (script language : Tag)
    (tags : List Tag) (glyphs : List Nat) : Reader (List Nat) := do
  match ← tableOf cfg font .glyphSubstitution (gsub.GlyphSubstitution.read cfg) with
  | none => return glyphs
  | some (p, t) => shapeText p t (ignoring definition t) n script language tags glyphs

/-- The glyphs are placed, if the font has a table for it. -/
def settleWith (cfg : Cfg) (font : Font) (definition : Option (Nat × gdef.GlyphDefinition)) (n : Nat) (script language : Tag)
    (tags : List Tag) (glyphs : List Nat) : Reader (List Item) := do
  match ← tableOf cfg font .glyphPositioning (gpos.GlyphPositioning.read cfg) with
  | none => return glyphs.map Item.of
  | some (p, t) => settleText cfg p t (ignoring definition t) (marked definition) n script language tags (glyphs.map Item.of)

/-- The file is opened, its tables are taken from its first font, and the glyphs are shaped and placed. -/
def typeset (accept : Tag → Bool) (cfg : Cfg) (n : Nat) (script language : Tag) (tags : List Tag) (glyphs : List Nat) :
    Reader (List Item) := do
  let file ← File.read accept
  match file.fonts with
  | [] => return []
  | font :: _ => do
    let definition ← tableOf cfg font .glyphDefinition (gdef.GlyphDefinition.read cfg)
    let glyphs ← shapeWith cfg font definition n script language tags glyphs
    settleWith cfg font definition n script language tags glyphs

end OpenType.Spec
