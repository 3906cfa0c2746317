import Verif.Spec.Typeset
/-!
# Specification: tables that lack nothing

When the bytes of a GSUB or GPOS table lack nothing that text could ask for: whatever its subtables stand for is well-formed, and
whatever glyph comes, between whatever others, no subtable covers it and has nothing for it.
-/

namespace OpenType.Spec
open OpenType

/-- What the subtables of the table at `p` stand for, a type and a place, is so. Extensions have the type `number`. -/
def AllSubtables (cfg : Cfg) (number : Nat) (d : Data) (p : Nat) (P : Nat → Nat → Prop) : Prop :=
  ∀ i j type_ a type' a', SubtableAt cfg d p i j type_ a → StandsFor number d type_ a type' a' → P type' a'

/-- The GSUB table at `p` lacks nothing. -/
def CompleteSubstitution (cfg : Cfg) (d : Data) (p : Nat) : Prop :=
  AllSubtables cfg 7 d p fun type_ a => (∃ x, gsub.IsTable type_ d a x) ∧ ∀ before g following,
    ¬LacksSubstitute d type_ a g ∧ ¬(type_ = 5 ∧ MissingRules d a g) ∧ ¬(type_ = 6 ∧ MissingChain d a g) ∧
    ¬(type_ = 8 ∧ MissingSubstitute d a before g following)

/-- The GPOS table at `p` lacks nothing. Of ligatures, the first component counts. -/
def CompletePositioning (cfg : Cfg) (d : Data) (p : Nat) : Prop :=
  AllSubtables cfg 9 d p fun type_ a => (∃ x, gpos.IsTable cfg type_ d a x) ∧ ∀ g h,
    ¬(type_ = 1 ∧ MissingValue d a g) ∧ ¬(type_ = 2 ∧ MissingPair d a g h) ∧ ¬(type_ = 3 ∧ MissingJoint d a g h) ∧
    ¬(type_ = 4 ∧ MissingAnchor cfg (NoAnchorIn d) d a g h) ∧ ¬(type_ = 5 ∧ MissingAnchor cfg (NoComponentIn d 0) d a g h) ∧
    ¬(type_ = 6 ∧ MissingAnchor cfg (NoAnchorIn d) d a g h) ∧ ¬(type_ = 7 ∧ MissingRules d a g) ∧ ¬(type_ = 8 ∧ MissingChain d a g)

/-- The tables of the file for glyphs are absent, or well-formed and lack nothing. -/
def CompleteFile (accept : Tag → Bool) (cfg : Cfg) (d : Data) : Prop :=
  (Absent accept d .glyphDefinition ∨
    ∃ p t, Props.TableAt accept cfg d .glyphDefinition p ∧ gdef.IsGlyphDefinitionTaken cfg d p t) ∧
  (Absent accept d .glyphSubstitution ∨
    ∃ p t, Props.TableAt accept cfg d .glyphSubstitution p ∧ gsub.IsGlyphSubstitution cfg d p t ∧ CompleteSubstitution cfg d p) ∧
  (Absent accept d .glyphPositioning ∨
    ∃ p t, Props.TableAt accept cfg d .glyphPositioning p ∧ gpos.IsGlyphPositioning cfg d p t ∧ CompletePositioning cfg d p)

/-! ## Values

When a subtable, as it is read, has enough entries. -/

/-- All glyphs that are covered have numbers less than `n`. -/
def NumbersBelow (coverage : coverage.Coverage) (n : Nat) : Prop := ∀ g i, indexOf coverage g = some i → i < n

/-- All glyphs that are covered have classes less than `n`. -/
def ClassesBelow (coverage : coverage.Coverage) (classes : class_.Class) (n : Nat) : Prop :=
  ∀ g i, indexOf coverage g = some i → classOf classes g < n

/-- A context has rules for all glyphs it covers. -/
def WholeContext : context.Context → Prop
  | .format1 t => NumbersBelow t.coverage t.records.length
  | .format2 t => ClassesBelow t.coverage t.class_ t.records.length
  | .format3 _ => True

/-- A chained context has rules for all glyphs it covers. -/
def WholeChain : context.ChainedContext → Prop
  | .format1 t => NumbersBelow t.coverage t.records.length
  | .format2 t => ClassesBelow t.coverage t.class_ t.records.length
  | .format3 _ => True

/-- A subtable of GSUB has something for all glyphs it covers. Alternates are never taken by themselves. -/
def WholeSubstitution : gsub.Type_ → Prop
  | .singleSubstitution (.format1 _) => True
  | .singleSubstitution (.format2 t) => NumbersBelow t.coverage t.glyph_ids.length
  | .multipleSubstitution t => NumbersBelow t.coverage t.records.length
  | .alternateSubstitution _ => True
  | .ligatureSubstitution t => NumbersBelow t.coverage t.records.length
  | .contextualSubstitution t => WholeContext t
  | .chainedContextualSubstitution t => WholeChain t
  | .extensionSubstitution _ => True
  | .reverseChainedContextualSubstibution t => NumbersBelow t.coverage t.glyph_ids.length

/-- A subtable of GPOS has something for all glyphs it covers: an entry, a row and a column, or a mark and an anchor of the class
of each mark. -/
def WholePositioning : gpos.Type_ → Prop
  | .singleAdjustment (.format1 _) => True
  | .singleAdjustment (.format2 t) => NumbersBelow t.coverage t.values.length
  | .pairAdjustment (.format1 t) => NumbersBelow t.coverage t.records.length
  | .pairAdjustment (.format2 t) => ClassesBelow t.coverage t.class1 t.records.length ∧
    ∀ row ∈ t.records, ∀ h, classOf t.class2 h < row.records.length
  | .cursiveAttachment t => NumbersBelow t.coverage t.connections.length
  | .markToBaseAttachment t => NumbersBelow t.mark_coverage t.marks.records.length ∧
    NumbersBelow t.base_coverage t.bases.records.length ∧
    ∀ mark ∈ t.marks.records, ∀ base ∈ t.bases.records, mark.class_id < base.anchors.length
  | .markToLigatureAttachment t => NumbersBelow t.mark_coverage t.marks.records.length ∧
    NumbersBelow t.ligature_coverage t.ligatures.records.length ∧
    ∀ mark ∈ t.marks.records, ∀ ligature ∈ t.ligatures.records,
      ∃ component, ligature.components[0]? = some component ∧ mark.class_id < component.anchors.length
  | .markToMarkAttachment t => NumbersBelow t.mark1_coverage t.mark1s.records.length ∧
    NumbersBelow t.mark2_coverage t.mark2s.records.length ∧
    ∀ mark ∈ t.mark1s.records, ∀ other ∈ t.mark2s.records, mark.class_id < other.anchors.length
  | .contextualPositioning t => WholeContext t
  | .chainedContextualPositioning t => WholeChain t
  | .extensionPositioning _ => True

end OpenType.Spec
