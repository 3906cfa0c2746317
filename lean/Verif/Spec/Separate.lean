import Verif.Spec.Lacking
/-!
# Specification: glyphs between which text can be set separately

When the subtables of a GSUB or GPOS table do nothing at some glyphs, the separators, and do at others what they would do if there
were nothing from the next separator on, and nothing up to the last one: first in terms of the bytes, and then of the values that
are read.
-/

namespace OpenType.Spec
open OpenType context

/-- There is nothing, or a separator comes first. -/
def Edge (S : Nat → Prop) (glyphs : List Nat) : Prop := ∀ g, glyphs.head? = some g → S g

/-! ## In bytes -/

/-- Two ways to look at a subtable tell the same. -/
def SameEffect {T β : Type} (E E' : Effect T β) (d : Data) (type_ a : Nat) : Prop :=
  (E.missing d type_ a ↔ E'.missing d type_ a) ∧ ∀ y, E.does d type_ a y ↔ E'.does d type_ a y

/-- The subtables of the GSUB table at `p` are well-formed and do nothing at separators, and between two separators do what they do
if there is nothing else. -/
def SubstitutionSeparated (cfg : Cfg) (d : Data) (p : Nat) (S : Nat → Prop) : Prop :=
  AllSubtables cfg 7 d p fun type_ a => ∀ before g following,
    (S g → (reaction before g following).Silent d type_ a ∧ (reverseEffect before g following).Silent d type_ a) ∧
    ∀ left right, Edge S left → Edge S right →
      SameEffect (reaction (before ++ left) g (following ++ right)) (reaction before g following) d type_ a ∧
      SameEffect (reverseEffect (before ++ left) g (following ++ right)) (reverseEffect before g following) d type_ a

/-- The subtables of the GPOS table at `p` are well-formed and do nothing at separators, and between two separators do what they do
if there is nothing else; separators are not bases. -/
def PositioningSeparated (cfg : Cfg) (d : Data) (p : Nat) (S : Nat → Prop) : Prop :=
  AllSubtables cfg 9 d p fun type_ a => ∀ before base component g following,
    (S g → (response cfg before base component g following).Silent d type_ a) ∧
    (∀ left right, Edge S left → Edge S right →
      SameEffect (response cfg (before ++ left) base component g (following ++ right))
        (response cfg before base component g following) d type_ a) ∧
    ∀ b, S b → SameEffect (response cfg before (some b) component g following) (response cfg before none component g following)
      d type_ a

/-- The glyphs with `S` separate words in the file: the subtables of its GSUB and GPOS tables, if there are such tables, have no part
in them, none of their lookups ignores them, and they are not marks. -/
def Separates (accept : Tag → Bool) (cfg : Cfg) (d : Data) (S : Nat → Prop) : Prop :=
  (∀ p, Props.TableAt accept cfg d .glyphSubstitution p →
    SubstitutionSeparated cfg d p S ∧ ∀ i g, S g → ¬IgnoredIn accept cfg d p i g) ∧
  (∀ p, Props.TableAt accept cfg d .glyphPositioning p →
    PositioningSeparated cfg d p S ∧ (∀ i g, S g → ¬IgnoredIn accept cfg d p i g) ∧ ∀ g, S g → ¬MarkedIn accept cfg d g)

/-! ## Values

When a subtable, as it is read, has no part in the glyphs with `S`. -/

/-- A coverage has none of the glyphs. -/
def Uncovers (S : Nat → Prop) (coverage : coverage.Coverage) : Prop := ∀ g, S g → indexOf coverage g = none

/-- None of the glyphs has one of the classes. -/
def Unclassed (S : Nat → Prop) (classes : class_.Class) (ks : List Nat) : Prop := ∀ k ∈ ks, ∀ g, S g → classOf classes g ≠ k

/-- None of the glyphs is among some. -/
def Unnamed (S : Nat → Prop) (glyphs : List Nat) : Prop := ∀ g ∈ glyphs, ¬S g

/-- None of the glyphs can be in a sequence a context is about. -/
def ContextAvoids (S : Nat → Prop) : Context → Prop
  | .format1 t => Uncovers S t.coverage ∧ ∀ set ∈ t.records, ∀ rule ∈ set.records, Unnamed S rule.glyph_ids
  | .format2 t => Uncovers S t.coverage ∧ ∀ set, some set ∈ t.records → ∀ rule ∈ set.records, Unclassed S t.class_ rule.indices
  | .format3 t => t.coverages ≠ [] ∧ ∀ c ∈ t.coverages, Uncovers S c

/-- None of the glyphs can be in a sequence a chained context is about, or in what is asked for before and behind it. -/
def ChainAvoids (S : Nat → Prop) : ChainedContext → Prop
  | .format1 t => Uncovers S t.coverage ∧ ∀ set ∈ t.records, ∀ rule ∈ set.records,
    Unnamed S rule.backward_glyph_ids ∧ Unnamed S rule.glyph_ids ∧ Unnamed S rule.forward_glyph_ids
  | .format2 t => Uncovers S t.coverage ∧ ∀ set, some set ∈ t.records → ∀ rule ∈ set.records,
    Unclassed S t.backward_class rule.backward_indices ∧ Unclassed S t.class_ rule.indices ∧
      Unclassed S t.forward_class rule.forward_indices
  | .format3 t => t.coverages ≠ [] ∧ (∀ c ∈ t.backward_coverages, Uncovers S c) ∧ (∀ c ∈ t.coverages, Uncovers S c) ∧
    ∀ c ∈ t.forward_coverages, Uncovers S c

/-- A subtable of GSUB has no part in the glyphs. -/
def SubstitutionAvoids (S : Nat → Prop) : gsub.Type_ → Prop
  | .singleSubstitution (.format1 t) => Uncovers S t.coverage
  | .singleSubstitution (.format2 t) => Uncovers S t.coverage
  | .multipleSubstitution t => Uncovers S t.coverage
  | .alternateSubstitution _ => True
  | .ligatureSubstitution t => Uncovers S t.coverage ∧ ∀ set ∈ t.records, ∀ ligature ∈ set.records, Unnamed S ligature.glyph_ids
  | .contextualSubstitution t => ContextAvoids S t
  | .chainedContextualSubstitution t => ChainAvoids S t
  | .extensionSubstitution _ => True
  | .reverseChainedContextualSubstibution t => Uncovers S t.coverage ∧ (∀ c ∈ t.backward_coverages, Uncovers S c) ∧
    ∀ c ∈ t.forward_coverages, Uncovers S c

/-- A subtable of GPOS has no part in the glyphs. Pairs and joints must have entries for what they cover, because that they have none
comes to light only when there is another glyph. Pairs by classes have values for any second glyph, so must cover nothing. -/
def PositioningAvoids (S : Nat → Prop) : gpos.Type_ → Prop
  | .singleAdjustment (.format1 t) => Uncovers S t.coverage
  | .singleAdjustment (.format2 t) => Uncovers S t.coverage
  | .pairAdjustment (.format1 t) => Uncovers S t.coverage ∧ NumbersBelow t.coverage t.records.length ∧
    ∀ set ∈ t.records, ∀ pair ∈ set.records, ¬S pair.glyph2_id
  | .pairAdjustment (.format2 t) => ∀ g, indexOf t.coverage g = none
  | .cursiveAttachment t => Uncovers S t.coverage ∧ NumbersBelow t.coverage t.connections.length
  | .markToBaseAttachment t => Uncovers S t.mark_coverage ∧ Uncovers S t.base_coverage
  | .markToLigatureAttachment t => Uncovers S t.mark_coverage ∧ Uncovers S t.ligature_coverage
  | .markToMarkAttachment t => Uncovers S t.mark1_coverage ∧ Uncovers S t.mark2_coverage
  | .contextualPositioning t => ContextAvoids S t
  | .chainedContextualPositioning t => ChainAvoids S t
  | .extensionPositioning _ => True

end OpenType.Spec
