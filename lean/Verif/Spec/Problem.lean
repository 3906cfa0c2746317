import Verif.Spec.Basic
/-!
# Specification: why a table is refused

Every way in which the content of a table can be refused, the text of the message, and what there is in the file that
explains it.
-/

namespace OpenType.Spec
open OpenType

/-- The reasons why the content of a table is refused. -/
inductive Problem where
  /-- A number that has to have one value has another. -/
  | constant
  /-- Reserved bits of flags are set. -/
  | flags
  | coverage | class_ | device | deviceFormat | correction
  /-- A sequence of a context without its first glyph, in four variants. -/
  | record | classRecord | chainedRecord | chainedClassRecord
  | context | chainedContext
  | directory
  | single | ligature | substitution
  | anchor | singleAdjustment | pairAdjustment | positioning
  | caret | definition
  | palettes
deriving DecidableEq, Repr

namespace Problem

/-- The message. -/
def text : Problem → String
  | constant => "found a malformed or unknown table"
  | flags => "found malformed flags"
  | coverage => "found an unknown format of the glyph coverage"
  | class_ => "found an unknown format of the glyph class"
  | device => "found a malformed device correction"
  | deviceFormat => "found an unknown format of the device correction"
  | correction => "found an unknown format of the adjustment correction"
  | record => "found a malformed context record"
  | classRecord => "found a malformed class context record"
  | chainedRecord => "found a malformed chained context record"
  | chainedClassRecord => "found a malformed chained class context record"
  | context => "found an unknown format of the context table"
  | chainedContext => "found an unknown format of the chained context table"
  | directory => "found an unknown version of the directory table"
  | single => "found an unknown format of the single substitution"
  | ligature => "found a malformed ligature substitution"
  | substitution => "found an unknown type of glyph substitution"
  | anchor => "found an unknown format of the anchor table"
  | singleAdjustment => "found an unknown format of the single adjustment"
  | pairAdjustment => "found an unknown format of the pair adjustment"
  | positioning => "found an unknown type of glyph positioning"
  | caret => "found an unknown format of the caret-value table"
  | definition => "found an unknown format of the glyph definition"
  | palettes => "found an unknown version of the color-palette table"

/-- The word `v` stands in the file, not before `b`, and is none of `known`. -/
def Unknown (d : Data) (b v : Nat) (known : List Nat) : Prop := ∃ q, b ≤ q ∧ U16 d q v ∧ v ∉ known

/-- What there is in the file, not before the position `b`, that justifies a message with the given values. -/
def Shows (d : Data) (b : Nat) : Problem → List Nat → Prop
  | constant, [] => ∃ q v known, b ≤ q ∧ U16 d q v ∧ known ≤ 3 ∧ v ≠ known
  | flags, [] => ∃ q v invalid, b ≤ q ∧ U16 d q v ∧ v &&& invalid ≠ 0
  | coverage, [v] => Unknown d b v [1, 2]
  | class_, [v] => Unknown d b v [1, 2]
  | device, [] => ∃ q first last, b ≤ q ∧ U16 d q first ∧ U16 d (q + 2) last ∧ last < first
  | deviceFormat, [v] => Unknown d b v [1, 2, 3]
  | correction, [v] => Unknown d b v [1, 2, 3, 32768]
  | record, [] => ∃ q, b ≤ q ∧ U16 d q 0
  | classRecord, [] => ∃ q, b ≤ q ∧ U16 d q 0
  | chainedRecord, [] => ∃ q, b ≤ q ∧ U16 d q 0
  | chainedClassRecord, [] => ∃ q, b ≤ q ∧ U16 d q 0
  | context, [v] => Unknown d b v [1, 2, 3]
  | chainedContext, [v] => Unknown d b v [1, 2, 3]
  | directory, [major, minor] =>
    ∃ q, b ≤ q ∧ U16 d q major ∧ U16 d (q + 2) minor ∧ ¬(major = 1 ∧ minor ≤ 1)
  | single, [v] => Unknown d b v [1, 2]
  | ligature, [] => ∃ q, b ≤ q ∧ U16 d q 0
  | substitution, [v] => Unknown d b v [1, 2, 3, 4, 5, 6, 7, 8]
  | anchor, [v] => Unknown d b v [1, 2, 3]
  | singleAdjustment, [v] => Unknown d b v [1, 2]
  | pairAdjustment, [v] => Unknown d b v [1, 2]
  | positioning, [v] => Unknown d b v [1, 2, 3, 4, 5, 6, 7, 8, 9]
  | caret, [] => ∃ q v, b ≤ q ∧ U32 d q v ∧ v ∉ [1, 2, 3]
  | definition, [] =>
    ∃ q major minor, b ≤ q ∧ U16 d q major ∧ U16 d (q + 2) minor ∧ ¬(major = 1 ∧ minor ∈ [0, 2, 3])
  | palettes, [v] => Unknown d b v [0, 1]
  | _, _ => False

/-- Why a glyph-substitution table may be refused. -/
def ofSubstitution : List Problem :=
  [directory, constant, flags, substitution, single, ligature, context, record, classRecord, chainedContext,
    chainedRecord, chainedClassRecord, coverage, class_]

/-- Why a glyph-positioning table may be refused. -/
def ofPositioning : List Problem :=
  [directory, constant, flags, positioning, singleAdjustment, pairAdjustment, anchor, correction, device, context, record,
    classRecord, chainedContext, chainedRecord, chainedClassRecord, coverage, class_]

/-- Why a glyph-definition table may be refused. -/
def ofDefinition : List Problem := [definition, constant, caret, coverage, class_, correction, device]

/-- Why a color-palette table may be refused. -/
def ofPalettes : List Problem := [palettes]

/-- Why a font-variation table may be refused. -/
def ofVariations : List Problem := [constant, flags]

end Problem

/-- The message is that of one of the `problems`, and the file has, not before `b`, what justifies it. -/
def Justified (d : Data) (b : Nat) (problems : List Problem) (m : Message) : Prop :=
  ∃ k ∈ problems, m.text = k.text ∧ k.Shows d b m.values

end OpenType.Spec
