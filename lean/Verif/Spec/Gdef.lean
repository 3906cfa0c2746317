import Verif.Model.Gdef
import Verif.Spec.Layout
import Verif.Spec.Item
/-! # Specification: the glyph definition table, as the code reads it

Two predicates follow the code where it departs from the OpenType specification: `IsCaretTaken` (the
format is taken from 32 bits) and the last conjunct of `IsGlyphDefinitionTaken` (the offset of the
variation store). Properties C31 and C32 compare them with what the OpenType specification says. -/

namespace OpenType.Spec.gdef
open OpenType OpenType.gdef

/-- AttachPoint. -/
def IsAttachment (d : Data) (p : Nat) (t : Attachment) : Prop :=
  U16 d p t.index_count ∧ U16s d (p + 2) t.index_count t.indices

/-- AttachList. -/
def IsAttachments (d : Data) (p : Nat) (t : Attachments) : Prop :=
  U16 d p t.coverage_offset ∧ U16 d (p + 2) t.count ∧ U16s d (p + 4) t.count t.offsets ∧
    IsCoverage d (p + t.coverage_offset) t.coverage ∧ AtOffsets (IsAttachment d) p t.offsets t.records

/-- CaretValueFormat1. -/
def IsCaret1 (d : Data) (p : Nat) (t : Caret1) : Prop := U16 d p t.format ∧ I16 d (p + 2) t.coordinate

/-- CaretValueFormat2. -/
def IsCaret2 (d : Data) (p : Nat) (t : Caret2) : Prop := U16 d p t.format ∧ U16 d (p + 2) t.index

/-- CaretValueFormat3. -/
def IsCaret3 (d : Data) (p : Nat) (t : Caret3) : Prop :=
  U16 d p t.format ∧ I16 d (p + 2) t.coordinate ∧ U16 d (p + 4) t.correction_offset ∧
    IsCorrection d (p + t.correction_offset) t.correction

/-- CaretValue according to the OpenType specification: the first 16 bits tell the format. -/
def IsCaret (d : Data) (p : Nat) : Caret → Prop
  | .format1 t => t.format = 1 ∧ IsCaret1 d p t
  | .format2 t => t.format = 2 ∧ IsCaret2 d p t
  | .format3 t => t.format = 3 ∧ IsCaret3 d p t

/-- CaretValue as the code takes it: the first 32 bits tell the format. -/
def IsCaretTaken (d : Data) (p : Nat) : Caret → Prop
  | .format1 t => U32 d p 1 ∧ IsCaret1 d p t
  | .format2 t => U32 d p 2 ∧ IsCaret2 d p t
  | .format3 t => U32 d p 3 ∧ IsCaret3 d p t

/-- LigGlyph, given what a caret is. -/
def IsLigature (isCaret : Data → Nat → Caret → Prop) (d : Data) (p : Nat) (t : Ligature) : Prop :=
  U16 d p t.caret_count ∧ U16s d (p + 2) t.caret_count t.caret_offsets ∧
    AtOffsets (isCaret d) p t.caret_offsets t.carets

/-- LigCaretList, given what a caret is. -/
def IsLigatures (isCaret : Data → Nat → Caret → Prop) (d : Data) (p : Nat) (t : Ligatures) : Prop :=
  U16 d p t.coverage_offset ∧ U16 d (p + 2) t.count ∧ U16s d (p + 4) t.count t.offsets ∧
    IsCoverage d (p + t.coverage_offset) t.coverage ∧
    AtOffsets (IsLigature isCaret d) p t.offsets t.records

/-- MarkGlyphSets. -/
def IsMarks (d : Data) (p : Nat) (t : Marks) : Prop :=
  U16 d p t.format ∧ t.format = 1 ∧ U16 d (p + 2) t.count ∧
    U32s d (p + 4) t.count t.coverage_offsets ∧ AtOffsets (IsCoverage d) p t.coverage_offsets t.coverages

/-- The GDEF header, version 1.0. -/
def IsHeader1 (d : Data) (p : Nat) (t : Header1) : Prop :=
  U16 d p t.major_version ∧ t.major_version = 1 ∧ U16 d (p + 2) t.minor_version ∧
    t.minor_version = 0 ∧
    U16 d (p + 4) t.glyph_class_offset ∧ U16 d (p + 6) t.attachment_offset ∧
    U16 d (p + 8) t.ligature_offset ∧ U16 d (p + 10) t.mark_class_offset

/-- The GDEF header, version 1.2. -/
def IsHeader12 (d : Data) (p : Nat) (t : Header12) : Prop :=
  U16 d p t.major_version ∧ t.major_version = 1 ∧ U16 d (p + 2) t.minor_version ∧
    t.minor_version = 2 ∧
    U16 d (p + 4) t.glyph_class_offset ∧ U16 d (p + 6) t.attachment_offset ∧
    U16 d (p + 8) t.ligature_offset ∧ U16 d (p + 10) t.mark_class_offset ∧
    U16 d (p + 12) t.mark_offset

/-- The GDEF header, version 1.3. -/
def IsHeader13 (d : Data) (p : Nat) (t : Header13) : Prop :=
  U16 d p t.major_version ∧ t.major_version = 1 ∧ U16 d (p + 2) t.minor_version ∧
    t.minor_version = 3 ∧
    U16 d (p + 4) t.glyph_class_offset ∧ U16 d (p + 6) t.attachment_offset ∧
    U16 d (p + 8) t.ligature_offset ∧ U16 d (p + 10) t.mark_class_offset ∧
    U16 d (p + 12) t.mark_offset ∧ U32 d (p + 14) t.variation_offset

/-- The GDEF header. -/
def IsHeader (d : Data) (p : Nat) : gdef.Header → Prop
  | .version1 t => IsHeader1 d p t
  | .version12 t => IsHeader12 d p t
  | .version13 t => IsHeader13 d p t

/-- The offsets a GDEF header holds, zero when its version has no such field: `glyphClassDefOffset`,
`attachListOffset`, `ligCaretListOffset`, `markAttachClassDefOffset`, `markGlyphSetsDefOffset`,
`itemVarStoreOffset`. -/
def offsets : gdef.Header → Nat × Nat × Nat × Nat × Nat × Nat
  | .version1 t => (t.glyph_class_offset, t.attachment_offset, t.ligature_offset, t.mark_class_offset, 0, 0)
  | .version12 t =>
    (t.glyph_class_offset, t.attachment_offset, t.ligature_offset, t.mark_class_offset, t.mark_offset, 0)
  | .version13 t =>
    (t.glyph_class_offset, t.attachment_offset, t.ligature_offset, t.mark_class_offset, t.mark_offset,
      t.variation_offset)

/-- Everything in the GDEF table but the variation store, given what a caret is. -/
def IsGlyphDefinitionBut (isCaret : Data → Nat → Caret → Prop) (d : Data) (p : Nat)
    (t : GlyphDefinition) : Prop :=
  IsHeader d p t.header ∧
    Optional (IsClass d) p (offsets t.header).1 t.glyph_class ∧
    Optional (IsAttachments d) p (offsets t.header).2.1 t.attachments ∧
    Optional (IsLigatures isCaret d) p (offsets t.header).2.2.1 t.ligatures ∧
    Optional (IsClass d) p (offsets t.header).2.2.2.1 t.mark_class ∧
    Optional (IsMarks d) p (offsets t.header).2.2.2.2.1 t.marks

/-- The GDEF table according to the OpenType specification. -/
def IsGlyphDefinition (cfg : Cfg) (d : Data) (p : Nat) (t : GlyphDefinition) : Prop :=
  IsGlyphDefinitionBut IsCaret d p t ∧
    Optional (IsStore cfg d) p (offsets t.header).2.2.2.2.2 t.variations

/-- The offset at which the code looks for the variation store: in version 1.3 that of the mark glyph
sets. -/
def storeOffsetTaken : gdef.Header → Nat
  | .version13 t => t.mark_offset
  | _ => 0

/-- The GDEF table as the code takes it. -/
def IsGlyphDefinitionTaken (cfg : Cfg) (d : Data) (p : Nat) (t : GlyphDefinition) : Prop :=
  IsGlyphDefinitionBut IsCaretTaken d p t ∧
    Optional (IsStore cfg d) p (storeOffsetTaken t.header) t.variations

end OpenType.Spec.gdef
