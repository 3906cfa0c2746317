import Verif.Model.Gsub
import Verif.Spec.Layout
import Verif.Spec.Lists
/-! # Specification: the glyph substitution table -/

namespace OpenType.Spec.gsub
open OpenType OpenType.gsub context

/-- AlternateSet. -/
def IsAlternates (d : Data) (p : Nat) (t : Alternates) : Prop :=
  U16 d p t.glyph_count ∧ U16s d (p + 2) t.glyph_count t.glyph_ids

/-- Ligature: one component fewer than the count, which is not zero. -/
def IsLigature (d : Data) (p : Nat) (t : Ligature) : Prop :=
  U16 d p t.glyph_id ∧ U16 d (p + 2) t.glyph_count ∧ t.glyph_count ≠ 0 ∧
    U16s d (p + 4) (t.glyph_count - 1) t.glyph_ids

/-- LigatureSet. -/
def IsLigatures (d : Data) (p : Nat) (t : Ligatures) : Prop :=
  U16 d p t.count ∧ U16s d (p + 2) t.count t.offsets ∧ AtOffsets (IsLigature d) p t.offsets t.records

/-- Sequence. -/
def IsSequence (d : Data) (p : Nat) (t : Sequence) : Prop :=
  U16 d p t.glyph_count ∧ U16s d (p + 2) t.glyph_count t.glyph_ids

/-- SingleSubstFormat1. -/
def IsSingle1 (d : Data) (p : Nat) (t : SingleSubstitution1) : Prop :=
  U16 d p t.format ∧ U16 d (p + 2) t.coverage_offset ∧ I16 d (p + 4) t.delta_glyph_id ∧
    IsCoverage d (p + t.coverage_offset) t.coverage

/-- SingleSubstFormat2. -/
def IsSingle2 (d : Data) (p : Nat) (t : SingleSubstitution2) : Prop :=
  U16 d p t.format ∧ U16 d (p + 2) t.coverage_offset ∧ U16 d (p + 4) t.glyph_count ∧
    U16s d (p + 6) t.glyph_count t.glyph_ids ∧ IsCoverage d (p + t.coverage_offset) t.coverage

/-- SingleSubst. -/
def IsSingle (d : Data) (p : Nat) : SingleSubstitution → Prop
  | .format1 t => t.format = 1 ∧ IsSingle1 d p t
  | .format2 t => t.format = 2 ∧ IsSingle2 d p t

/-- MultipleSubstFormat1. -/
def IsMultiple (d : Data) (p : Nat) (t : MultipleSubstitution) : Prop :=
  U16 d p t.format ∧ t.format = 1 ∧ U16 d (p + 2) t.coverage_offset ∧ U16 d (p + 4) t.record_count ∧
    U16s d (p + 6) t.record_count t.record_offsets ∧
    IsCoverage d (p + t.coverage_offset) t.coverage ∧
    AtOffsets (IsSequence d) p t.record_offsets t.records

/-- AlternateSubstFormat1. -/
def IsAlternate (d : Data) (p : Nat) (t : AlternateSubstitution) : Prop :=
  U16 d p t.format ∧ t.format = 1 ∧ U16 d (p + 2) t.coverage_offset ∧ U16 d (p + 4) t.record_count ∧
    U16s d (p + 6) t.record_count t.record_offsets ∧
    IsCoverage d (p + t.coverage_offset) t.coverage ∧
    AtOffsets (IsAlternates d) p t.record_offsets t.records

/-- LigatureSubstFormat1. -/
def IsLigatureSubstitution (d : Data) (p : Nat) (t : LigatureSubstitution) : Prop :=
  U16 d p t.format ∧ t.format = 1 ∧ U16 d (p + 2) t.coverage_offset ∧ U16 d (p + 4) t.record_count ∧
    U16s d (p + 6) t.record_count t.record_offsets ∧
    IsCoverage d (p + t.coverage_offset) t.coverage ∧
    AtOffsets (IsLigatures d) p t.record_offsets t.records

/-- ExtensionSubstFormat1: three numbers; the offset is not followed. -/
def IsExtension (d : Data) (p : Nat) (t : ExtensionSubstitution) : Prop :=
  U16 d p t.format ∧ t.format = 1 ∧ U16 d (p + 2) t.type_ ∧ U32 d (p + 4) t.offset

/-- ReverseChainSingleSubstFormat1. -/
def IsReverse (d : Data) (p : Nat) (t : ReverseChainedContextualSubstibution) : Prop :=
  let p1 := p + 6 + 2 * t.backward_glyph_count
  let p2 := p1 + 2 + 2 * t.forward_glyph_count
  U16 d p t.format ∧ U16 d (p + 2) t.coverage_offset ∧ U16 d (p + 4) t.backward_glyph_count ∧
    U16s d (p + 6) t.backward_glyph_count t.backward_coverage_offsets ∧
    U16 d p1 t.forward_glyph_count ∧
    U16s d (p1 + 2) t.forward_glyph_count t.forward_coverage_offsets ∧
    U16 d p2 t.glyph_count ∧ U16s d (p2 + 2) t.glyph_count t.glyph_ids ∧
    IsCoverage d (p + t.coverage_offset) t.coverage ∧
    AtOffsets (IsCoverage d) p t.backward_coverage_offsets t.backward_coverages ∧
    AtOffsets (IsCoverage d) p t.forward_coverage_offsets t.forward_coverages

/-- A subtable of a lookup of the given type. -/
def IsTable (type_ : Nat) (d : Data) (p : Nat) : Type_ → Prop
  | .singleSubstitution t => type_ = 1 ∧ IsSingle d p t
  | .multipleSubstitution t => type_ = 2 ∧ IsMultiple d p t
  | .alternateSubstitution t => type_ = 3 ∧ IsAlternate d p t
  | .ligatureSubstitution t => type_ = 4 ∧ IsLigatureSubstitution d p t
  | .contextualSubstitution t => type_ = 5 ∧ IsContext d p t
  | .chainedContextualSubstitution t => type_ = 6 ∧ IsChainedContext d p t
  | .extensionSubstitution t => type_ = 7 ∧ IsExtension d p t
  | .reverseChainedContextualSubstibution t => type_ = 8 ∧ IsReverse d p t

/-- The GSUB table. -/
def IsGlyphSubstitution (cfg : Cfg) (d : Data) (p : Nat) (t : GlyphSubstitution) : Prop :=
  IsDirectory cfg IsTable d p t

end OpenType.Spec.gsub
