import Verif.Model.Gpos
import Verif.Spec.Layout
import Verif.Spec.Lists
/-! # Specification: the glyph positioning table -/

namespace OpenType.Spec.gpos
open OpenType OpenType.gpos context

/-! ## Anchors -/

/-- AnchorFormat1. -/
def IsAnchor1 (d : Data) (p : Nat) (t : Anchor1) : Prop :=
  U16 d p t.format ∧ I16 d (p + 2) t.x ∧ I16 d (p + 4) t.y

/-- AnchorFormat2. -/
def IsAnchor2 (d : Data) (p : Nat) (t : Anchor2) : Prop :=
  U16 d p t.format ∧ I16 d (p + 2) t.x ∧ I16 d (p + 4) t.y ∧ U16 d (p + 6) t.index

/-- AnchorFormat3: the corrections are optional and relative to the anchor. -/
def IsAnchor3 (d : Data) (p : Nat) (t : Anchor3) : Prop :=
  U16 d p t.format ∧ I16 d (p + 2) t.x ∧ I16 d (p + 4) t.y ∧
    U16 d (p + 6) t.x_correction_offset ∧ U16 d (p + 8) t.y_correction_offset ∧
    Optional (IsCorrection d) p t.x_correction_offset t.x_correction ∧
    Optional (IsCorrection d) p t.y_correction_offset t.y_correction

/-- Anchor. -/
def IsAnchor (d : Data) (p : Nat) : Anchor → Prop
  | .format1 t => t.format = 1 ∧ IsAnchor1 d p t
  | .format2 t => t.format = 2 ∧ IsAnchor2 d p t
  | .format3 t => t.format = 3 ∧ IsAnchor3 d p t

/-! ## Value records -/

/-- How many of the lowest `k` bits of `flags` are set. -/
def bitsBelow (flags : Nat) : Nat → Nat
  | 0 => 0
  | k + 1 => bitsBelow flags k + if flags.testBit k then 1 else 0

/-- The size in bytes of a value record: two bytes for each of the eight lowest bits that is set. -/
def valueSize (flags : Nat) : Nat := 2 * bitsBelow flags 8

/-- Field `k` of a value record at `p`: present exactly when bit `k` is set, right after the fields of the
lower bits. -/
def IsField {α : Type} (S : Nat → α → Prop) (flags p k : Nat) (x : Option α) : Prop :=
  match x with
  | none => flags.testBit k = false
  | some v => flags.testBit k = true ∧ S (p + 2 * bitsBelow flags k) v

/-- The correction an offset field leads to: none without the field or with a null offset. -/
def IsCorrectionOf (d : Data) (base : Nat) (offset : Option Nat) (x : Option correction.Correction) :
    Prop :=
  match offset with
  | none => x = none
  | some o => Optional (IsCorrection d) base o x

/-- ValueRecord, whose correction offsets count from `base`. -/
def IsSingle (base flags : Nat) (d : Data) (p : Nat) (t : Single) : Prop :=
  IsField (I16 d) flags p 0 t.x_placement ∧ IsField (I16 d) flags p 1 t.y_placement ∧
    IsField (I16 d) flags p 2 t.x_advance ∧ IsField (I16 d) flags p 3 t.y_advance ∧
    IsField (U16 d) flags p 4 t.x_placement_correction_offset ∧
    IsField (U16 d) flags p 5 t.y_placement_correction_offset ∧
    IsField (U16 d) flags p 6 t.x_advance_correction_offset ∧
    IsField (U16 d) flags p 7 t.y_advance_correction_offset ∧
    IsCorrectionOf d base t.x_placement_correction_offset t.x_placement_correction ∧
    IsCorrectionOf d base t.y_placement_correction_offset t.y_placement_correction ∧
    IsCorrectionOf d base t.x_advance_correction_offset t.x_advance_correction ∧
    IsCorrectionOf d base t.y_advance_correction_offset t.y_advance_correction

/-- A value record that is absent exactly when its flags are zero. -/
def IsValue (base flags : Nat) (d : Data) (p : Nat) (x : Option Single) : Prop :=
  match x with
  | none => flags = 0
  | some t => flags ≠ 0 ∧ IsSingle base flags d p t

/-! ## Pairs -/

/-- PairValueRecord. -/
def IsPair1 (base flags1 flags2 : Nat) (d : Data) (p : Nat) (t : Pair1) : Prop :=
  U16 d p t.glyph2_id ∧ IsValue base flags1 d (p + 2) t.value1 ∧
    IsValue base flags2 d (p + 2 + valueSize flags1) t.value2

/-- PairSet: the correction offsets count from the set. -/
def IsPair1s (flags1 flags2 : Nat) (d : Data) (p : Nat) (t : Pair1s) : Prop :=
  U16 d p t.count ∧
    ArrayOf (IsPair1 p flags1 flags2 d) (2 + valueSize flags1 + valueSize flags2) (p + 2) t.count
      t.records

/-- Class2Record. -/
def IsPair2 (base flags1 flags2 : Nat) (d : Data) (p : Nat) (t : Pair2) : Prop :=
  IsValue base flags1 d p t.value1 ∧ IsValue base flags2 d (p + valueSize flags1) t.value2

/-- Class1Record: one Class2Record for each second class. -/
def IsPair2s (base class2_count flags1 flags2 : Nat) (d : Data) (p : Nat) (t : Pair2s) : Prop :=
  ArrayOf (IsPair2 base flags1 flags2 d) (valueSize flags1 + valueSize flags2) p class2_count t.records

/-! ## Attachments -/

/-- BaseRecord: one optional anchor for each mark class. -/
def IsBase (base n : Nat) (d : Data) (p : Nat) (t : Base) : Prop :=
  U16s d p n t.anchor_offsets ∧ AtOptionalOffsets (IsAnchor d) base t.anchor_offsets t.anchors

/-- BaseArray. -/
def IsBases (n : Nat) (d : Data) (p : Nat) (t : Bases) : Prop :=
  U16 d p t.count ∧ ArrayOf (IsBase p n d) (2 * n) (p + 2) t.count t.records

/-- ComponentRecord. -/
def IsComponent (base n : Nat) (d : Data) (p : Nat) (t : Component) : Prop :=
  U16s d p n t.anchor_offsets ∧ AtOptionalOffsets (IsAnchor d) base t.anchor_offsets t.anchors

/-- EntryExitRecord. -/
def IsConnection (base : Nat) (d : Data) (p : Nat) (t : Connection) : Prop :=
  U16 d p t.start_anchor_offset ∧ U16 d (p + 2) t.end_anchor_offset ∧
    Optional (IsAnchor d) base t.start_anchor_offset t.start_anchor ∧
    Optional (IsAnchor d) base t.end_anchor_offset t.end_anchor

/-- LigatureAttach. -/
def IsLigature (n : Nat) (d : Data) (p : Nat) (t : Ligature) : Prop :=
  U16 d p t.count ∧ ArrayOf (IsComponent p n d) (2 * n) (p + 2) t.count t.components

/-- LigatureArray. -/
def IsLigatures (n : Nat) (d : Data) (p : Nat) (t : Ligatures) : Prop :=
  U16 d p t.count ∧ U16s d (p + 2) t.count t.offsets ∧
    AtOffsets (IsLigature n d) p t.offsets t.records

/-- The anchor of a mark: at its offset, or, with `ignore-incomplete-marks` and a zero offset, the anchor
of format 1 with all fields zero. -/
def IsMarkAnchor (cfg : Cfg) (d : Data) (base offset : Nat) (x : Anchor) : Prop :=
  if cfg.ignoreIncompleteMarks = true ∧ offset = 0 then x = .format1 ⟨0, 0, 0⟩
  else IsAnchor d (base + offset) x

/-- MarkRecord. -/
def IsMark1 (cfg : Cfg) (base : Nat) (d : Data) (p : Nat) (t : Mark1) : Prop :=
  U16 d p t.class_id ∧ U16 d (p + 2) t.anchor_offset ∧ IsMarkAnchor cfg d base t.anchor_offset t.anchor

/-- MarkArray. -/
def IsMark1s (cfg : Cfg) (d : Data) (p : Nat) (t : Mark1s) : Prop :=
  U16 d p t.count ∧ ArrayOf (IsMark1 cfg p d) 4 (p + 2) t.count t.records

/-- Mark2Record. -/
def IsMark2 (base n : Nat) (d : Data) (p : Nat) (t : Mark2) : Prop :=
  U16s d p n t.anchor_offsets ∧ AtOptionalOffsets (IsAnchor d) base t.anchor_offsets t.anchors

/-- Mark2Array. -/
def IsMark2s (n : Nat) (d : Data) (p : Nat) (t : Mark2s) : Prop :=
  U16 d p t.count ∧ ArrayOf (IsMark2 p n d) (2 * n) (p + 2) t.count t.records

/-! ## Lookup subtables -/

/-- SinglePosFormat1. -/
def IsSingleAdjustment1 (cfg : Cfg) (d : Data) (p : Nat) (t : SingleAdjustment1) : Prop :=
  U16 d p t.format ∧ U16 d (p + 2) t.coverage_offset ∧
    U16 d (p + 4) t.value_flags ∧ FlagsOk cfg 0xFF00 t.value_flags ∧
    IsSingle p t.value_flags d (p + 6) t.value ∧ IsCoverage d (p + t.coverage_offset) t.coverage

/-- SinglePosFormat2. -/
def IsSingleAdjustment2 (cfg : Cfg) (d : Data) (p : Nat) (t : SingleAdjustment2) : Prop :=
  U16 d p t.format ∧ U16 d (p + 2) t.coverage_offset ∧
    U16 d (p + 4) t.value_flags ∧ FlagsOk cfg 0xFF00 t.value_flags ∧ U16 d (p + 6) t.value_count ∧
    ArrayOf (IsSingle p t.value_flags d) (valueSize t.value_flags) (p + 8) t.value_count t.values ∧
    IsCoverage d (p + t.coverage_offset) t.coverage

/-- SinglePos. -/
def IsSingleAdjustment (cfg : Cfg) (d : Data) (p : Nat) : SingleAdjustment → Prop
  | .format1 t => t.format = 1 ∧ IsSingleAdjustment1 cfg d p t
  | .format2 t => t.format = 2 ∧ IsSingleAdjustment2 cfg d p t

/-- PairPosFormat1. -/
def IsPairAdjustment1 (cfg : Cfg) (d : Data) (p : Nat) (t : PairAdjustment1) : Prop :=
  U16 d p t.format ∧ U16 d (p + 2) t.coverage_offset ∧
    U16 d (p + 4) t.value1_flags ∧ FlagsOk cfg 0xFF00 t.value1_flags ∧
    U16 d (p + 6) t.value2_flags ∧ FlagsOk cfg 0xFF00 t.value2_flags ∧ U16 d (p + 8) t.record_count ∧
    U16s d (p + 10) t.record_count t.record_offsets ∧ IsCoverage d (p + t.coverage_offset) t.coverage ∧
    AtOffsets (IsPair1s t.value1_flags t.value2_flags d) p t.record_offsets t.records

/-- PairPosFormat2. -/
def IsPairAdjustment2 (cfg : Cfg) (d : Data) (p : Nat) (t : PairAdjustment2) : Prop :=
  U16 d p t.format ∧ U16 d (p + 2) t.coverage_offset ∧
    U16 d (p + 4) t.value1_flags ∧ FlagsOk cfg 0xFF00 t.value1_flags ∧
    U16 d (p + 6) t.value2_flags ∧ FlagsOk cfg 0xFF00 t.value2_flags ∧
    U16 d (p + 8) t.class1_offset ∧ U16 d (p + 10) t.class2_offset ∧
    U16 d (p + 12) t.class1_count ∧ U16 d (p + 14) t.class2_count ∧
    ArrayOf (IsPair2s p t.class2_count t.value1_flags t.value2_flags d)
      ((valueSize t.value1_flags + valueSize t.value2_flags) * t.class2_count) (p + 16) t.class1_count
      t.records ∧
    IsCoverage d (p + t.coverage_offset) t.coverage ∧ IsClass d (p + t.class1_offset) t.class1 ∧
    IsClass d (p + t.class2_offset) t.class2

/-- PairPos. -/
def IsPairAdjustment (cfg : Cfg) (d : Data) (p : Nat) : PairAdjustment → Prop
  | .format1 t => t.format = 1 ∧ IsPairAdjustment1 cfg d p t
  | .format2 t => t.format = 2 ∧ IsPairAdjustment2 cfg d p t

/-- CursivePosFormat1. -/
def IsCursive (d : Data) (p : Nat) (t : CursiveAttachment) : Prop :=
  U16 d p t.format ∧ t.format = 1 ∧ U16 d (p + 2) t.coverage_offset ∧ U16 d (p + 4) t.connection_count ∧
    ArrayOf (IsConnection p d) 4 (p + 6) t.connection_count t.connections ∧
    IsCoverage d (p + t.coverage_offset) t.coverage

/-- MarkBasePosFormat1. -/
def IsMarkToBase (cfg : Cfg) (d : Data) (p : Nat) (t : MarkToBaseAttachment) : Prop :=
  U16 d p t.format ∧ t.format = 1 ∧ U16 d (p + 2) t.mark_coverage_offset ∧
    U16 d (p + 4) t.base_coverage_offset ∧ U16 d (p + 6) t.mark_class_count ∧
    U16 d (p + 8) t.marks_offset ∧ U16 d (p + 10) t.bases_offset ∧
    IsCoverage d (p + t.mark_coverage_offset) t.mark_coverage ∧
    IsCoverage d (p + t.base_coverage_offset) t.base_coverage ∧
    IsMark1s cfg d (p + t.marks_offset) t.marks ∧
    IsBases t.mark_class_count d (p + t.bases_offset) t.bases

/-- MarkLigPosFormat1. -/
def IsMarkToLigature (cfg : Cfg) (d : Data) (p : Nat) (t : MarkToLigatureAttachment) : Prop :=
  U16 d p t.format ∧ t.format = 1 ∧ U16 d (p + 2) t.mark_coverage_offset ∧
    U16 d (p + 4) t.ligature_coverage_offset ∧ U16 d (p + 6) t.mark_class_count ∧
    U16 d (p + 8) t.marks_offset ∧ U16 d (p + 10) t.ligatures_offset ∧
    IsCoverage d (p + t.mark_coverage_offset) t.mark_coverage ∧
    IsCoverage d (p + t.ligature_coverage_offset) t.ligature_coverage ∧
    IsMark1s cfg d (p + t.marks_offset) t.marks ∧
    IsLigatures t.mark_class_count d (p + t.ligatures_offset) t.ligatures

/-- MarkMarkPosFormat1. -/
def IsMarkToMark (cfg : Cfg) (d : Data) (p : Nat) (t : MarkToMarkAttachment) : Prop :=
  U16 d p t.format ∧ t.format = 1 ∧ U16 d (p + 2) t.mark1_coverage_offset ∧
    U16 d (p + 4) t.mark2_coverage_offset ∧ U16 d (p + 6) t.mark_class_count ∧
    U16 d (p + 8) t.mark1s_offset ∧ U16 d (p + 10) t.mark2s_offset ∧
    IsCoverage d (p + t.mark1_coverage_offset) t.mark1_coverage ∧
    IsCoverage d (p + t.mark2_coverage_offset) t.mark2_coverage ∧
    IsMark1s cfg d (p + t.mark1s_offset) t.mark1s ∧
    IsMark2s t.mark_class_count d (p + t.mark2s_offset) t.mark2s

/-- PosExtensionFormat1: three numbers; the offset is not followed. -/
def IsExtension (d : Data) (p : Nat) (t : ExtensionPositioning) : Prop :=
  U16 d p t.format ∧ t.format = 1 ∧ U16 d (p + 2) t.type_ ∧ U32 d (p + 4) t.offset

/-- A subtable of a lookup of the given type. -/
def IsTable (cfg : Cfg) (type_ : Nat) (d : Data) (p : Nat) : Type_ → Prop
  | .singleAdjustment t => type_ = 1 ∧ IsSingleAdjustment cfg d p t
  | .pairAdjustment t => type_ = 2 ∧ IsPairAdjustment cfg d p t
  | .cursiveAttachment t => type_ = 3 ∧ IsCursive d p t
  | .markToBaseAttachment t => type_ = 4 ∧ IsMarkToBase cfg d p t
  | .markToLigatureAttachment t => type_ = 5 ∧ IsMarkToLigature cfg d p t
  | .markToMarkAttachment t => type_ = 6 ∧ IsMarkToMark cfg d p t
  | .contextualPositioning t => type_ = 7 ∧ IsContext d p t
  | .chainedContextualPositioning t => type_ = 8 ∧ IsChainedContext d p t
  | .extensionPositioning t => type_ = 9 ∧ IsExtension d p t

/-- The GPOS table. -/
def IsGlyphPositioning (cfg : Cfg) (d : Data) (p : Nat) (t : GlyphPositioning) : Prop :=
  IsDirectory cfg (IsTable cfg) d p t

end OpenType.Spec.gpos
