import Verif.Spec.Encode
/-!
# Specification: the glyph definition tables the code accepts

As `Spec/Encode.lean`, for the glyph definition as the code takes it: carets whose first 32 bits tell the
format (property C32), and a variation store at the offset of the mark glyph sets (property C31). Nothing
here mentions readers or the predicates on byte positions.
-/

namespace OpenType.Spec
open OpenType OpenType.gdef

/-- The carets whose first four bytes, as one number, are 1, 2 or 3. -/
def validCaretTaken : Caret → Prop
  | .format1 t => t.format = 0 ∧ t.coordinate = 1
  | .format2 t => t.format = 0 ∧ t.index = 2
  | .format3 t => t.format = 0 ∧ t.coordinate = 3 ∧ t.correction_offset < 65536 ∧ valid t.correction

/-- A ligature with such carets. -/
def validLigatureTaken (t : gdef.Ligature) : Prop :=
  t.caret_count < 65536 ∧ t.caret_offsets.length = t.caret_count ∧
    All16 t.caret_offsets ∧ t.carets.length = t.caret_count ∧ ∀ x ∈ t.carets, validCaretTaken x

/-- Ligatures with such carets. -/
def validLigaturesTaken (t : gdef.Ligatures) : Prop :=
  t.coverage_offset < 65536 ∧ t.count < 65536 ∧ t.offsets.length = t.count ∧
    All16 t.offsets ∧ valid t.coverage ∧ t.records.length = t.count ∧
    ∀ x ∈ t.records, validLigatureTaken x

/-- The offset at which the variation store is: in version 1.3 that of the mark glyph sets. -/
def storePlace : gdef.Header → Nat
  | .version13 t => t.mark_offset
  | _ => 0

/-- A glyph definition table and everything its offsets lead to. -/
def gdefEncodingTaken (t : GlyphDefinition) : List Chunk :=
  (0, bytes t.header) :: (placedOpt (gdef.offsets t.header).1 t.glyph_class ++
    placedOpt (gdef.offsets t.header).2.1 t.attachments ++
    placedOpt (gdef.offsets t.header).2.2.1 t.ligatures ++
    placedOpt (gdef.offsets t.header).2.2.2.1 t.mark_class ++
    placedOpt (gdef.offsets t.header).2.2.2.2.1 t.marks ++
    placedOpt (storePlace t.header) t.variations)

/-- A glyph definition table the code accepts. -/
def validGlyphDefinitionTaken (cfg : Cfg) (t : GlyphDefinition) : Prop :=
  valid t.header ∧
    Presence (gdef.offsets t.header).1 t.glyph_class ∧ valid t.glyph_class ∧
    Presence (gdef.offsets t.header).2.1 t.attachments ∧ valid t.attachments ∧
    Presence (gdef.offsets t.header).2.2.1 t.ligatures ∧
    (∀ x, t.ligatures = some x → validLigaturesTaken x) ∧
    Presence (gdef.offsets t.header).2.2.2.1 t.mark_class ∧ valid t.mark_class ∧
    Presence (gdef.offsets t.header).2.2.2.2.1 t.marks ∧ valid t.marks ∧
    Presence (storePlace t.header) t.variations ∧
    ∀ x, t.variations = some x → validStore cfg x

end OpenType.Spec
