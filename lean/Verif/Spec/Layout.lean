import Verif.Model.Layout
import Verif.Spec.Basic
/-!
# Specification: the common layout tables

What the OpenType specification says about where each field of a coverage, class, device, context and
chained-context table is stored. Each predicate `IsX d p t` says that `t` is what is stored in `d` from
byte `p` on. The comments give the names the OpenType specification uses. Nothing here mentions readers.
-/

namespace OpenType.Spec
open OpenType coverage class_ correction context

/-- RangeRecord. -/
def IsCoverageRecord (d : Data) (p : Nat) (t : coverage.Record) : Prop :=
  U16 d p t.start_glyph_id ∧ U16 d (p + 2) t.end_glyph_id ∧ U16 d (p + 4) t.index

/-- CoverageFormat1. -/
def IsCoverage1 (d : Data) (p : Nat) (t : Coverage1) : Prop :=
  U16 d p t.format ∧ U16 d (p + 2) t.glyph_count ∧ U16s d (p + 4) t.glyph_count t.glyph_ids

/-- CoverageFormat2. -/
def IsCoverage2 (d : Data) (p : Nat) (t : Coverage2) : Prop :=
  U16 d p t.format ∧ U16 d (p + 2) t.record_count ∧
    ArrayOf (IsCoverageRecord d) 6 (p + 4) t.record_count t.records

/-- Coverage: the format field tells the format. -/
def IsCoverage (d : Data) (p : Nat) : Coverage → Prop
  | .format1 t => t.format = 1 ∧ IsCoverage1 d p t
  | .format2 t => t.format = 2 ∧ IsCoverage2 d p t

/-- ClassRangeRecord. -/
def IsClassRecord (d : Data) (p : Nat) (t : class_.Record) : Prop :=
  U16 d p t.start_glyph_id ∧ U16 d (p + 2) t.end_glyph_id ∧ U16 d (p + 4) t.index

/-- ClassDefFormat1. -/
def IsClass1 (d : Data) (p : Nat) (t : Class1) : Prop :=
  U16 d p t.format ∧ U16 d (p + 2) t.start_glyph_id ∧ U16 d (p + 4) t.glyph_count ∧
    U16s d (p + 6) t.glyph_count t.indices

/-- ClassDefFormat2. -/
def IsClass2 (d : Data) (p : Nat) (t : Class2) : Prop :=
  U16 d p t.format ∧ U16 d (p + 2) t.record_count ∧
    ArrayOf (IsClassRecord d) 6 (p + 4) t.record_count t.records

/-- ClassDef. -/
def IsClass (d : Data) (p : Nat) : Class → Prop
  | .format1 t => t.format = 1 ∧ IsClass1 d p t
  | .format2 t => t.format = 2 ∧ IsClass2 d p t

/-- The number of 16-bit words the code reads after the header of a Device table. One delta per size from
`start_size` to `end_size`, `2 ^ format` bits each; the code takes one word more than needed when they fill
the last word (see `Spec.deviceWords` and property C12). -/
def deviceWordsTaken (start_size end_size format : Nat) : Nat :=
  2 ^ format * (end_size - start_size + 1) / 16 + 1

/-- The number of 16-bit words of deltas according to the OpenType specification: just enough for one
delta of `2 ^ format` bits per size from `start_size` to `end_size`. -/
def deviceWords (start_size end_size format : Nat) : Nat :=
  (2 ^ format * (end_size - start_size + 1) + 15) / 16

/-- Device, with the number of words the code takes. -/
def IsDevice (d : Data) (p : Nat) (t : Device) : Prop :=
  U16 d p t.start_size ∧ U16 d (p + 2) t.end_size ∧ U16 d (p + 4) t.format ∧
    t.start_size ≤ t.end_size ∧ 1 ≤ t.format ∧ t.format ≤ 3 ∧
    U16s d (p + 6) (deviceWordsTaken t.start_size t.end_size t.format) t.deltas

/-- Device, with the number of words of the OpenType specification. -/
def IsDeviceExact (d : Data) (p : Nat) (t : Device) : Prop :=
  U16 d p t.start_size ∧ U16 d (p + 2) t.end_size ∧ U16 d (p + 4) t.format ∧
    t.start_size ≤ t.end_size ∧ 1 ≤ t.format ∧ t.format ≤ 3 ∧
    U16s d (p + 6) (deviceWords t.start_size t.end_size t.format) t.deltas

/-- VariationIndex. -/
def IsVariation (d : Data) (p : Nat) (t : Variation) : Prop :=
  U16 d p t.outer_index ∧ U16 d (p + 2) t.inner_index ∧ U16 d (p + 4) t.format

/-- Device or VariationIndex: the third word tells which. -/
def IsCorrection (d : Data) (p : Nat) : Correction → Prop
  | .device t => IsDevice d p t
  | .variation t => t.format = 0x8000 ∧ IsVariation d p t

/-- SequenceLookupRecord. -/
def IsAction (d : Data) (p : Nat) (t : Action) : Prop :=
  U16 d p t.position_index ∧ U16 d (p + 2) t.lookup_index

/-- SequenceRule: one glyph fewer than the count, which is not zero. -/
def IsRecord (d : Data) (p : Nat) (t : context.Record) : Prop :=
  U16 d p t.glyph_count ∧ U16 d (p + 2) t.action_count ∧ t.glyph_count ≠ 0 ∧
    U16s d (p + 4) (t.glyph_count - 1) t.glyph_ids ∧
    ArrayOf (IsAction d) 4 (p + 4 + 2 * (t.glyph_count - 1)) t.action_count t.actions

/-- SequenceRuleSet. -/
def IsRecords (d : Data) (p : Nat) (t : Records) : Prop :=
  U16 d p t.count ∧ U16s d (p + 2) t.count t.offsets ∧ AtOffsets (IsRecord d) p t.offsets t.records

/-- ClassSequenceRule. -/
def IsContextClassRecord (d : Data) (p : Nat) (t : ClassRecord) : Prop :=
  U16 d p t.glyph_count ∧ U16 d (p + 2) t.action_count ∧ t.glyph_count ≠ 0 ∧
    U16s d (p + 4) (t.glyph_count - 1) t.indices ∧
    ArrayOf (IsAction d) 4 (p + 4 + 2 * (t.glyph_count - 1)) t.action_count t.actions

/-- ClassSequenceRuleSet. -/
def IsClassRecords (d : Data) (p : Nat) (t : ClassRecords) : Prop :=
  U16 d p t.count ∧ U16s d (p + 2) t.count t.offsets ∧
    AtOffsets (IsContextClassRecord d) p t.offsets t.records

/-- ChainedSequenceRule. -/
def IsChainedRecord (d : Data) (p : Nat) (t : ChainedRecord) : Prop :=
  let p1 := p + 2 + 2 * t.backward_glyph_count
  let p2 := p1 + 2 + 2 * (t.glyph_count - 1)
  let p3 := p2 + 2 + 2 * t.forward_glyph_count
  U16 d p t.backward_glyph_count ∧ U16s d (p + 2) t.backward_glyph_count t.backward_glyph_ids ∧
    U16 d p1 t.glyph_count ∧ t.glyph_count ≠ 0 ∧ U16s d (p1 + 2) (t.glyph_count - 1) t.glyph_ids ∧
    U16 d p2 t.forward_glyph_count ∧
    U16s d (p2 + 2) t.forward_glyph_count t.forward_glyph_ids ∧
    U16 d p3 t.action_count ∧ ArrayOf (IsAction d) 4 (p3 + 2) t.action_count t.actions

/-- ChainedSequenceRuleSet. -/
def IsChainedRecords (d : Data) (p : Nat) (t : ChainedRecords) : Prop :=
  U16 d p t.count ∧ U16s d (p + 2) t.count t.offsets ∧
    AtOffsets (IsChainedRecord d) p t.offsets t.records

/-- ChainedClassSequenceRule. -/
def IsChainedClassRecord (d : Data) (p : Nat) (t : ChainedClassRecord) : Prop :=
  let p1 := p + 2 + 2 * t.backward_glyph_count
  let p2 := p1 + 2 + 2 * (t.glyph_count - 1)
  let p3 := p2 + 2 + 2 * t.forward_glyph_count
  U16 d p t.backward_glyph_count ∧ U16s d (p + 2) t.backward_glyph_count t.backward_indices ∧
    U16 d p1 t.glyph_count ∧ t.glyph_count ≠ 0 ∧ U16s d (p1 + 2) (t.glyph_count - 1) t.indices ∧
    U16 d p2 t.forward_glyph_count ∧ U16s d (p2 + 2) t.forward_glyph_count t.forward_indices ∧
    U16 d p3 t.action_count ∧ ArrayOf (IsAction d) 4 (p3 + 2) t.action_count t.actions

/-- ChainedClassSequenceRuleSet. -/
def IsChainedClassRecords (d : Data) (p : Nat) (t : ChainedClassRecords) : Prop :=
  U16 d p t.count ∧ U16s d (p + 2) t.count t.offsets ∧
    AtOffsets (IsChainedClassRecord d) p t.offsets t.records

/-- SequenceContextFormat1. -/
def IsContext1 (d : Data) (p : Nat) (t : Context1) : Prop :=
  U16 d p t.format ∧ U16 d (p + 2) t.coverage_offset ∧ U16 d (p + 4) t.record_count ∧
    U16s d (p + 6) t.record_count t.record_offsets ∧
    IsCoverage d (p + t.coverage_offset) t.coverage ∧
    AtOffsets (IsRecords d) p t.record_offsets t.records

/-- SequenceContextFormat2: a rule set may be absent. -/
def IsContext2 (d : Data) (p : Nat) (t : Context2) : Prop :=
  U16 d p t.format ∧ U16 d (p + 2) t.coverage_offset ∧ U16 d (p + 4) t.class_offset ∧
    U16 d (p + 6) t.record_count ∧ U16s d (p + 8) t.record_count t.record_offsets ∧
    IsCoverage d (p + t.coverage_offset) t.coverage ∧ IsClass d (p + t.class_offset) t.class_ ∧
    AtOptionalOffsets (IsClassRecords d) p t.record_offsets t.records

/-- SequenceContextFormat3. -/
def IsContext3 (d : Data) (p : Nat) (t : Context3) : Prop :=
  U16 d p t.format ∧ U16 d (p + 2) t.glyph_count ∧ U16 d (p + 4) t.action_count ∧
    U16s d (p + 6) t.glyph_count t.coverage_offsets ∧
    ArrayOf (IsAction d) 4 (p + 6 + 2 * t.glyph_count) t.action_count t.actions ∧
    AtOffsets (IsCoverage d) p t.coverage_offsets t.coverages

/-- SequenceContext. -/
def IsContext (d : Data) (p : Nat) : Context → Prop
  | .format1 t => t.format = 1 ∧ IsContext1 d p t
  | .format2 t => t.format = 2 ∧ IsContext2 d p t
  | .format3 t => t.format = 3 ∧ IsContext3 d p t

/-- ChainedSequenceContextFormat1. -/
def IsChainedContext1 (d : Data) (p : Nat) (t : ChainedContext1) : Prop :=
  U16 d p t.format ∧ U16 d (p + 2) t.coverage_offset ∧ U16 d (p + 4) t.record_count ∧
    U16s d (p + 6) t.record_count t.record_offsets ∧
    IsCoverage d (p + t.coverage_offset) t.coverage ∧
    AtOffsets (IsChainedRecords d) p t.record_offsets t.records

/-- ChainedSequenceContextFormat2: a rule set may be absent. -/
def IsChainedContext2 (d : Data) (p : Nat) (t : ChainedContext2) : Prop :=
  U16 d p t.format ∧ U16 d (p + 2) t.coverage_offset ∧ U16 d (p + 4) t.backward_class_offset ∧
    U16 d (p + 6) t.class_offset ∧ U16 d (p + 8) t.forward_class_offset ∧
    U16 d (p + 10) t.record_count ∧ U16s d (p + 12) t.record_count t.record_offsets ∧
    IsCoverage d (p + t.coverage_offset) t.coverage ∧
    IsClass d (p + t.backward_class_offset) t.backward_class ∧
    IsClass d (p + t.class_offset) t.class_ ∧
    IsClass d (p + t.forward_class_offset) t.forward_class ∧
    AtOptionalOffsets (IsChainedClassRecords d) p t.record_offsets t.records

/-- ChainedSequenceContextFormat3. -/
def IsChainedContext3 (d : Data) (p : Nat) (t : ChainedContext3) : Prop :=
  let p1 := p + 4 + 2 * t.backward_glyph_count
  let p2 := p1 + 2 + 2 * t.glyph_count
  let p3 := p2 + 2 + 2 * t.forward_glyph_count
  U16 d p t.format ∧
    U16 d (p + 2) t.backward_glyph_count ∧
    U16s d (p + 4) t.backward_glyph_count t.backward_coverage_offsets ∧
    U16 d p1 t.glyph_count ∧ U16s d (p1 + 2) t.glyph_count t.coverage_offsets ∧
    U16 d p2 t.forward_glyph_count ∧
    U16s d (p2 + 2) t.forward_glyph_count t.forward_coverage_offsets ∧
    U16 d p3 t.action_count ∧ ArrayOf (IsAction d) 4 (p3 + 2) t.action_count t.actions ∧
    AtOffsets (IsCoverage d) p t.backward_coverage_offsets t.backward_coverages ∧
    AtOffsets (IsCoverage d) p t.coverage_offsets t.coverages ∧
    AtOffsets (IsCoverage d) p t.forward_coverage_offsets t.forward_coverages

/-- ChainedSequenceContext. -/
def IsChainedContext (d : Data) (p : Nat) : ChainedContext → Prop
  | .format1 t => t.format = 1 ∧ IsChainedContext1 d p t
  | .format2 t => t.format = 2 ∧ IsChainedContext2 d p t
  | .format3 t => t.format = 3 ∧ IsChainedContext3 d p t

end OpenType.Spec
