import Verif.Spec.Gsub
import Verif.Spec.Gpos
import Verif.Spec.Gdef
/-!
# Specification: sharing

Fonts are made smaller by letting several offsets lead to the same place. `shares t` says that wherever two offsets
of `t` that lead to things of the same kind are equal, the things are equal, and likewise for every table inside `t`.
Nothing here mentions bytes or readers.
-/

namespace OpenType.Spec
open OpenType

/-- In a list of offsets with what they lead to, equal offsets lead to equal things. -/
def Alike {κ α : Type} (ps : List (κ × α)) : Prop := ∀ a ∈ ps, ∀ b ∈ ps, a.1 = b.1 → a.2 = b.2

/-- Tables with offsets. -/
class Sharing (α : Type) where
  /-- Equal offsets lead to equal things. -/
  shares : α → Prop

export Sharing (shares)

/-- A vector: every element. -/
instance {α : Type} [Sharing α] : Sharing (List α) := ⟨fun xs => ∀ x ∈ xs, shares x⟩

/-- An option: the value, if any. -/
instance {α : Type} [Sharing α] : Sharing (Option α) := ⟨fun o => ∀ x, o = some x → shares x⟩

section layout
open context

instance : Sharing Records := ⟨fun t => Alike (t.offsets.zip t.records)⟩
instance : Sharing ClassRecords := ⟨fun t => Alike (t.offsets.zip t.records)⟩
instance : Sharing ChainedRecords := ⟨fun t => Alike (t.offsets.zip t.records)⟩
instance : Sharing ChainedClassRecords := ⟨fun t => Alike (t.offsets.zip t.records)⟩
instance : Sharing Context1 := ⟨fun t => Alike (t.record_offsets.zip t.records) ∧ shares t.records⟩
instance : Sharing Context2 := ⟨fun t => Alike (t.record_offsets.zip t.records) ∧ shares t.records⟩
instance : Sharing Context3 := ⟨fun t => Alike (t.coverage_offsets.zip t.coverages)⟩
instance : Sharing Context := ⟨fun | .format1 t => shares t | .format2 t => shares t | .format3 t => shares t⟩
instance : Sharing ChainedContext1 := ⟨fun t => Alike (t.record_offsets.zip t.records) ∧ shares t.records⟩
instance : Sharing ChainedContext2 :=
  ⟨fun t => Alike [(t.backward_class_offset, t.backward_class), (t.class_offset, t.class_),
      (t.forward_class_offset, t.forward_class)] ∧
    Alike (t.record_offsets.zip t.records) ∧ shares t.records⟩
instance : Sharing ChainedContext3 :=
  ⟨fun t => Alike (t.backward_coverage_offsets.zip t.backward_coverages ++ t.coverage_offsets.zip t.coverages ++
    t.forward_coverage_offsets.zip t.forward_coverages)⟩
instance : Sharing ChainedContext := ⟨fun | .format1 t => shares t | .format2 t => shares t | .format3 t => shares t⟩

end layout

section lists
open script feature lookup directory

/-- The default language, if there is one, may be one of the others. -/
instance : Sharing script.Record :=
  ⟨fun t => Alike (t.default_language.toList.map (fun x => (t.default_language_offset, x)) ++
    (t.language_headers.map (·.offset)).zip t.language_records)⟩
instance : Sharing Scripts := ⟨fun t => Alike ((t.headers.map (·.offset)).zip t.records) ∧ shares t.records⟩
instance : Sharing Features := ⟨fun t => Alike ((t.headers.map (·.offset)).zip t.records)⟩
instance {T : Type} [Sharing T] : Sharing (lookup.Record T) :=
  ⟨fun t => Alike (t.table_offsets.zip t.tables) ∧ shares t.tables⟩

/-- The subtables of all lookups, each with the type of its lookup and its distance from the start of the list. -/
def subtables {T : Type} (t : Lookups T) : List ((Nat × Nat) × T) :=
  (t.offsets.zip t.records).flatMap fun (offset, record) =>
    (record.table_offsets.zip record.tables).map fun (table_offset, table) => ((record.type_, offset + table_offset), table)

/-- Lookups may be shared, and lookups of the same type may share subtables. -/
instance {T : Type} [Sharing T] : Sharing (Lookups T) :=
  ⟨fun t => Alike (t.offsets.zip t.records) ∧ Alike (subtables t) ∧ shares t.records⟩
instance {T : Type} [Sharing T] : Sharing (Directory T) :=
  ⟨fun t => shares t.scripts ∧ shares t.features ∧ shares t.lookups⟩

end lists

section gsub
open OpenType.gsub

instance : Sharing gsub.Ligatures := ⟨fun t => Alike (t.offsets.zip t.records)⟩
instance : Sharing MultipleSubstitution := ⟨fun t => Alike (t.record_offsets.zip t.records)⟩
instance : Sharing AlternateSubstitution := ⟨fun t => Alike (t.record_offsets.zip t.records)⟩
instance : Sharing LigatureSubstitution := ⟨fun t => Alike (t.record_offsets.zip t.records) ∧ shares t.records⟩
instance : Sharing ReverseChainedContextualSubstibution :=
  ⟨fun t => Alike ((t.coverage_offset, t.coverage) :: (t.backward_coverage_offsets.zip t.backward_coverages ++
    t.forward_coverage_offsets.zip t.forward_coverages))⟩
/-- A single substitution and an extension have no two offsets. -/
instance : Sharing gsub.Type_ := ⟨fun
  | .singleSubstitution _ => True
  | .multipleSubstitution t => shares t
  | .alternateSubstitution t => shares t
  | .ligatureSubstitution t => shares t
  | .contextualSubstitution t => shares t
  | .chainedContextualSubstitution t => shares t
  | .extensionSubstitution _ => True
  | .reverseChainedContextualSubstibution t => shares t⟩

end gsub

section gpos
open OpenType.gpos

/-- The corrections of a value. -/
def corrections (t : Single) : List (Option Nat × Option correction.Correction) :=
  [(t.x_placement_correction_offset, t.x_placement_correction), (t.y_placement_correction_offset, t.y_placement_correction),
    (t.x_advance_correction_offset, t.x_advance_correction), (t.y_advance_correction_offset, t.y_advance_correction)]

/-- The corrections of two values, either of which may be absent. -/
def corrections2 (value1 value2 : Option Single) : List (Option Nat × Option correction.Correction) :=
  (value1.toList ++ value2.toList).flatMap corrections

/-- The anchors of a connection. -/
def ends (t : Connection) : List (Nat × Option Anchor) :=
  [(t.start_anchor_offset, t.start_anchor), (t.end_anchor_offset, t.end_anchor)]

instance : Sharing Anchor := ⟨fun
  | .format1 _ => True
  | .format2 _ => True
  | .format3 t => Alike [(t.x_correction_offset, t.x_correction), (t.y_correction_offset, t.y_correction)]⟩
instance : Sharing Pair1s := ⟨fun t => Alike (t.records.flatMap fun r => corrections2 r.value1 r.value2)⟩
instance : Sharing Bases :=
  ⟨fun t => Alike (t.records.flatMap fun r => r.anchor_offsets.zip r.anchors) ∧ ∀ r ∈ t.records, shares r.anchors⟩
instance : Sharing gpos.Ligature :=
  ⟨fun t => Alike (t.components.flatMap fun r => r.anchor_offsets.zip r.anchors) ∧ ∀ r ∈ t.components, shares r.anchors⟩
instance : Sharing gpos.Ligatures := ⟨fun t => Alike (t.offsets.zip t.records) ∧ shares t.records⟩
instance : Sharing Mark1s :=
  ⟨fun t => Alike (t.records.map fun r => (r.anchor_offset, r.anchor)) ∧ ∀ r ∈ t.records, shares r.anchor⟩
instance : Sharing Mark2s :=
  ⟨fun t => Alike (t.records.flatMap fun r => r.anchor_offsets.zip r.anchors) ∧ ∀ r ∈ t.records, shares r.anchors⟩
instance : Sharing SingleAdjustment := ⟨fun
  | .format1 t => Alike (corrections t.value)
  | .format2 t => Alike (t.values.flatMap corrections)⟩
instance : Sharing PairAdjustment := ⟨fun
  | .format1 t => Alike (t.record_offsets.zip t.records) ∧ shares t.records
  | .format2 t => Alike [(t.class1_offset, t.class1), (t.class2_offset, t.class2)] ∧
    Alike (t.records.flatMap fun row => row.records.flatMap fun r => corrections2 r.value1 r.value2)⟩
instance : Sharing CursiveAttachment :=
  ⟨fun t => Alike (t.connections.flatMap ends) ∧ ∀ r ∈ t.connections, shares r.start_anchor ∧ shares r.end_anchor⟩
instance : Sharing MarkToBaseAttachment :=
  ⟨fun t => Alike [(t.mark_coverage_offset, t.mark_coverage), (t.base_coverage_offset, t.base_coverage)] ∧
    shares t.marks ∧ shares t.bases⟩
instance : Sharing MarkToLigatureAttachment :=
  ⟨fun t => Alike [(t.mark_coverage_offset, t.mark_coverage), (t.ligature_coverage_offset, t.ligature_coverage)] ∧
    shares t.marks ∧ shares t.ligatures⟩
instance : Sharing MarkToMarkAttachment :=
  ⟨fun t => Alike [(t.mark1_coverage_offset, t.mark1_coverage), (t.mark2_coverage_offset, t.mark2_coverage)] ∧
    shares t.mark1s ∧ shares t.mark2s⟩
/-- An extension has no two offsets. -/
instance : Sharing gpos.Type_ := ⟨fun
  | .singleAdjustment t => shares t
  | .pairAdjustment t => shares t
  | .cursiveAttachment t => shares t
  | .markToBaseAttachment t => shares t
  | .markToLigatureAttachment t => shares t
  | .markToMarkAttachment t => shares t
  | .contextualPositioning t => shares t
  | .chainedContextualPositioning t => shares t
  | .extensionPositioning _ => True⟩

end gpos

section gdef
open OpenType.gdef

instance : Sharing item.Store := ⟨fun t => Alike (t.offsets.zip t.records)⟩
instance : Sharing Attachments := ⟨fun t => Alike (t.offsets.zip t.records)⟩
instance : Sharing gdef.Ligature := ⟨fun t => Alike (t.caret_offsets.zip t.carets)⟩
instance : Sharing gdef.Ligatures := ⟨fun t => Alike (t.offsets.zip t.records) ∧ shares t.records⟩
instance : Sharing Marks := ⟨fun t => Alike (t.coverage_offsets.zip t.coverages)⟩
instance : Sharing GlyphDefinition :=
  ⟨fun t => Alike [((gdef.offsets t.header).1, t.glyph_class), ((gdef.offsets t.header).2.2.2.1, t.mark_class)] ∧
    shares t.attachments ∧ shares t.ligatures ∧ shares t.marks ∧ shares t.variations⟩

end gdef
end OpenType.Spec
