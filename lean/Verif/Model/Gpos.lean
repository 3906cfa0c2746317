import Verif.Model.Layout
import Verif.Model.Lists
/-! # `src/tables/glyph_positioning/{element,mod}.rs` -/

namespace OpenType.gpos
open coverage class_ correction context

/-! ## Anchors -/

/-- `src/tables/glyph_positioning/element.rs:17-25`. -/
structure Anchor1 where
  format : Nat
  x : Int
  y : Int
deriving DecidableEq, Repr

/-- `src/tables/glyph_positioning/element.rs:17-25`. -/
def Anchor1.read : Reader Anchor1 := do
  let format ← u16
  let x ← i16
  let y ← i16
  return { format, x, y }

/-- `src/tables/glyph_positioning/element.rs:27-36`. -/
structure Anchor2 where
  format : Nat
  x : Int
  y : Int
  index : Nat
deriving DecidableEq, Repr

/-- `src/tables/glyph_positioning/element.rs:27-36`. -/
def Anchor2.read : Reader Anchor2 := do
  let format ← u16
  let x ← i16
  let y ← i16
  let index ← u16
  return { format, x, y, index }

/-- `src/tables/glyph_positioning/element.rs:38-56`. -/
structure Anchor3 where
  format : Nat
  x : Int
  y : Int
  x_correction_offset : Nat
  y_correction_offset : Nat
  x_correction : Option Correction
  y_correction : Option Correction
deriving DecidableEq, Repr

/-- `src/tables/glyph_positioning/element.rs:38-56`. -/
def Anchor3.read : Reader Anchor3 := do
  let position ← position
  let format ← u16
  let x ← i16
  let y ← i16
  let x_correction_offset ← u16
  let y_correction_offset ← u16
  let x_correction ← jumpTakeMaybe position x_correction_offset Correction.read
  let y_correction ← jumpTakeMaybe position y_correction_offset Correction.read
  return { format, x, y, x_correction_offset, y_correction_offset, x_correction, y_correction }

/-- `src/tables/glyph_positioning/element.rs:6-15`. -/
inductive Anchor where
  | format1 (table : Anchor1)
  | format2 (table : Anchor2)
  | format3 (table : Anchor3)
deriving DecidableEq, Repr

/-- `src/tables/glyph_positioning/element.rs:232-237`, with the `Default` derived by `table!`. -/
def Anchor.default : Anchor := .format1 { format := 0, x := 0, y := 0 }

/-- `src/tables/glyph_positioning/element.rs:239-248`. -/
def Anchor.read : Reader Anchor := do
  match ← peek u16 with
  | 1 => return .format1 (← Anchor1.read)
  | 2 => return .format2 (← Anchor2.read)
  | 3 => return .format3 (← Anchor3.read)
  | value => raise ⟨"found an unknown format of the anchor table", [value]⟩

/-! ## Value records -/

/-- `src/tables/glyph_positioning/element.rs:228`: the `is_invalid` mask of the value flags. -/
def invalidFlags : Nat := 0b1111111100000000

/-- `src/tables/glyph_positioning/element.rs:217-230`. -/
def Flags.read (cfg : Cfg) : Reader Nat := flagsU16 cfg invalidFlags

/-- `src/tables/glyph_positioning/element.rs:220`. -/
def has_x_placement (flags : Nat) : Bool := flag flags 0b0000000000000001
/-- `src/tables/glyph_positioning/element.rs:221`. -/
def has_y_placement (flags : Nat) : Bool := flag flags 0b0000000000000010
/-- `src/tables/glyph_positioning/element.rs:222`. -/
def has_x_advance (flags : Nat) : Bool := flag flags 0b0000000000000100
/-- `src/tables/glyph_positioning/element.rs:223`. -/
def has_y_advance (flags : Nat) : Bool := flag flags 0b0000000000001000
/-- `src/tables/glyph_positioning/element.rs:224`. -/
def has_x_placement_correction (flags : Nat) : Bool := flag flags 0b0000000000010000
/-- `src/tables/glyph_positioning/element.rs:225`. -/
def has_y_placement_correction (flags : Nat) : Bool := flag flags 0b0000000000100000
/-- `src/tables/glyph_positioning/element.rs:226`. -/
def has_x_advance_correction (flags : Nat) : Bool := flag flags 0b0000000001000000
/-- `src/tables/glyph_positioning/element.rs:227`. -/
def has_y_advance_correction (flags : Nat) : Bool := flag flags 0b0000000010000000

/-- `src/tables/glyph_positioning/element.rs:228`. -/
def is_invalid (flags : Nat) : Bool := flag flags invalidFlags

/-- `src/tables/glyph_positioning/element.rs:197-215`. -/
structure Single where
  x_placement : Option Int
  y_placement : Option Int
  x_advance : Option Int
  y_advance : Option Int
  x_placement_correction_offset : Option Nat
  y_placement_correction_offset : Option Nat
  x_advance_correction_offset : Option Nat
  y_advance_correction_offset : Option Nat
  x_placement_correction : Option Correction
  y_placement_correction : Option Correction
  x_advance_correction : Option Correction
  y_advance_correction : Option Correction
deriving DecidableEq, Repr

/-- The inner local macro `take!` of `src/tables/glyph_positioning/element.rs:497-502`. -/
def takeCorrection (base : Nat) (offset : Option Nat) : Reader (Option Correction) :=
  match offset with
  | some offset => jumpTakeMaybe base offset Correction.read
  | none => return none

/-- The body of `stay` in `src/tables/glyph_positioning/element.rs:496-509`. -/
def takeCorrections (position : Nat) (a b c e : Option Nat) :
    Reader (Option Correction × Option Correction × Option Correction × Option Correction) := do
  let a ← takeCorrection position a
  let b ← takeCorrection position b
  let c ← takeCorrection position c
  let e ← takeCorrection position e
  return (a, b, c, e)

/-- `src/tables/glyph_positioning/element.rs:473-525`. -/
def Single.read (position flags : Nat) : Reader Single := do
  let x_placement ← takeIf (has_x_placement flags) i16
  let y_placement ← takeIf (has_y_placement flags) i16
  let x_advance ← takeIf (has_x_advance flags) i16
  let y_advance ← takeIf (has_y_advance flags) i16
  let x_placement_correction_offset ← takeIf (has_x_placement_correction flags) u16
  let y_placement_correction_offset ← takeIf (has_y_placement_correction flags) u16
  let x_advance_correction_offset ← takeIf (has_x_advance_correction flags) u16
  let y_advance_correction_offset ← takeIf (has_y_advance_correction flags) u16
  let corrections ← stay (takeCorrections position x_placement_correction_offset
    y_placement_correction_offset x_advance_correction_offset y_advance_correction_offset)
  return { x_placement, y_placement, x_advance, y_advance,
           x_placement_correction_offset, y_placement_correction_offset,
           x_advance_correction_offset, y_advance_correction_offset,
           x_placement_correction := corrections.1, y_placement_correction := corrections.2.1,
           x_advance_correction := corrections.2.2.1, y_advance_correction := corrections.2.2.2 }

/-! ## Pairs -/

/-- `src/tables/glyph_positioning/element.rs:161-169`. -/
structure Pair1 where
  glyph2_id : Nat
  value1 : Option Single
  value2 : Option Single
deriving DecidableEq, Repr

/-- `if flags.0 > 0 { Some(tape.take_given((position, flags))?) } else { None }`, as in
`src/tables/glyph_positioning/element.rs:386-390`. -/
def takeValue (position flags : Nat) : Reader (Option Single) :=
  if flags > 0 then do
    let x ← Single.read position flags
    return some x
  else
    return none

/-- `src/tables/glyph_positioning/element.rs:377-398`. -/
def Pair1.read (position value1_flags value2_flags : Nat) : Reader Pair1 := do
  let glyph2_id ← u16
  let value1 ← takeValue position value1_flags
  let value2 ← takeValue position value2_flags
  return { glyph2_id, value1, value2 }

/-- `src/tables/glyph_positioning/element.rs:171-178`. -/
structure Pair1s where
  count : Nat
  records : List Pair1
deriving DecidableEq, Repr

/-- `src/tables/glyph_positioning/element.rs:400-414`. -/
def Pair1s.read (value1_flags value2_flags : Nat) : Reader Pair1s := do
  let position ← position
  let count ← u16
  let records ← takeVec (Pair1.read position value1_flags value2_flags) count
  return { count, records }

/-- `src/tables/glyph_positioning/element.rs:180-187`. -/
structure Pair2 where
  value1 : Option Single
  value2 : Option Single
deriving DecidableEq, Repr

/-- `src/tables/glyph_positioning/element.rs:416-436`. -/
def Pair2.read (position value1_flags value2_flags : Nat) : Reader Pair2 := do
  let value1 ← takeValue position value1_flags
  let value2 ← takeValue position value2_flags
  return { value1, value2 }

/-- `src/tables/glyph_positioning/element.rs:189-195`. -/
structure Pair2s where
  records : List Pair2
deriving DecidableEq, Repr

/-- `src/tables/glyph_positioning/element.rs:438-450`. -/
def Pair2s.read (position class2_count value1_flags value2_flags : Nat) : Reader Pair2s := do
  let records ← takeVec (Pair2.read position value1_flags value2_flags) class2_count
  return { records }

/-! ## Attachments -/

/-- `src/tables/glyph_positioning/element.rs:58-66`. -/
structure Base where
  anchor_offsets : List Nat
  anchors : List (Option Anchor)
deriving DecidableEq, Repr

/-- `src/tables/glyph_positioning/element.rs:250-265`. -/
def Base.read (position mark_class_count : Nat) : Reader Base := do
  let anchor_offsets ← takeVec u16 mark_class_count
  let anchors ← stay (jumpTakeMaybeN position mark_class_count anchor_offsets Anchor.read)
  return { anchor_offsets, anchors }

/-- `src/tables/glyph_positioning/element.rs:68-75`. -/
structure Bases where
  count : Nat
  records : List Base
deriving DecidableEq, Repr

/-- `src/tables/glyph_positioning/element.rs:267-278`. -/
def Bases.read (mark_class_count : Nat) : Reader Bases := do
  let position ← position
  let count ← u16
  let records ← takeVec (Base.read position mark_class_count) count
  return { count, records }

/-- `src/tables/glyph_positioning/element.rs:77-85`. -/
structure Component where
  anchor_offsets : List Nat
  anchors : List (Option Anchor)
deriving DecidableEq, Repr

/-- `src/tables/glyph_positioning/element.rs:280-295`. -/
def Component.read (position mark_class_count : Nat) : Reader Component := do
  let anchor_offsets ← takeVec u16 mark_class_count
  let anchors ← stay (jumpTakeMaybeN position mark_class_count anchor_offsets Anchor.read)
  return { anchor_offsets, anchors }

/-- `src/tables/glyph_positioning/element.rs:87-97`. -/
structure Connection where
  start_anchor_offset : Nat
  end_anchor_offset : Nat
  start_anchor : Option Anchor
  end_anchor : Option Anchor
deriving DecidableEq, Repr

/-- The body of `stay` in `src/tables/glyph_positioning/element.rs:458-463`. -/
def takeAnchors (position start_anchor_offset end_anchor_offset : Nat) :
    Reader (Option Anchor × Option Anchor) := do
  let a ← jumpTakeMaybe position start_anchor_offset Anchor.read
  let b ← jumpTakeMaybe position end_anchor_offset Anchor.read
  return (a, b)

/-- `src/tables/glyph_positioning/element.rs:452-471`. -/
def Connection.read (position : Nat) : Reader Connection := do
  let start_anchor_offset ← u16
  let end_anchor_offset ← u16
  let anchors ← stay (takeAnchors position start_anchor_offset end_anchor_offset)
  return { start_anchor_offset, end_anchor_offset,
           start_anchor := anchors.1, end_anchor := anchors.2 }

/-- `src/tables/glyph_positioning/element.rs:99-106`. -/
structure Ligature where
  count : Nat
  components : List Component
deriving DecidableEq, Repr

/-- `src/tables/glyph_positioning/element.rs:297-308`. -/
def Ligature.read (mark_class_count : Nat) : Reader Ligature := do
  let position ← position
  let count ← u16
  let components ← takeVec (Component.read position mark_class_count) count
  return { count, components }

/-- `src/tables/glyph_positioning/element.rs:108-117`. -/
structure Ligatures where
  count : Nat
  offsets : List Nat
  records : List Ligature
deriving DecidableEq, Repr

/-- `src/tables/glyph_positioning/element.rs:310-325`. -/
def Ligatures.read (mark_class_count : Nat) : Reader Ligatures := do
  let position ← position
  let count ← u16
  let offsets ← takeVec u16 count
  let records ← stay (jumpTakeN position count offsets (Ligature.read mark_class_count))
  return { count, offsets, records }

/-- `src/tables/glyph_positioning/element.rs:119-128`. -/
structure Mark1 where
  class_id : Nat
  anchor_offset : Nat
  anchor : Anchor
deriving DecidableEq, Repr

/-- `src/tables/glyph_positioning/element.rs:333-338`. -/
def takeMarkAnchor (cfg : Cfg) (position anchor_offset : Nat) : Reader Anchor :=
  if cfg.ignoreIncompleteMarks then do
    let x ← stay (jumpTakeMaybe position anchor_offset Anchor.read)
    return x.getD Anchor.default
  else
    stay (jumpTake position anchor_offset Anchor.read)

/-- `src/tables/glyph_positioning/element.rs:327-345`. -/
def Mark1.read (cfg : Cfg) (position : Nat) : Reader Mark1 := do
  let class_id ← u16
  let anchor_offset ← u16
  let anchor ← takeMarkAnchor cfg position anchor_offset
  return { class_id, anchor_offset, anchor }

/-- `src/tables/glyph_positioning/element.rs:130-140`. -/
structure Mark1s where
  count : Nat
  records : List Mark1
deriving DecidableEq, Repr

/-- `src/tables/glyph_positioning/element.rs:130-140`. -/
def Mark1s.read (cfg : Cfg) : Reader Mark1s := do
  let position ← position
  let count ← u16
  let records ← takeVec (Mark1.read cfg position) count
  return { count, records }

/-- `src/tables/glyph_positioning/element.rs:142-150`. -/
structure Mark2 where
  anchor_offsets : List Nat
  anchors : List (Option Anchor)
deriving DecidableEq, Repr

/-- `src/tables/glyph_positioning/element.rs:347-362`. -/
def Mark2.read (position mark_class_count : Nat) : Reader Mark2 := do
  let anchor_offsets ← takeVec u16 mark_class_count
  let anchors ← stay (jumpTakeMaybeN position mark_class_count anchor_offsets Anchor.read)
  return { anchor_offsets, anchors }

/-- `src/tables/glyph_positioning/element.rs:152-159`. -/
structure Mark2s where
  count : Nat
  records : List Mark2
deriving DecidableEq, Repr

/-- `src/tables/glyph_positioning/element.rs:364-375`. -/
def Mark2s.read (mark_class_count : Nat) : Reader Mark2s := do
  let position ← position
  let count ← u16
  let records ← takeVec (Mark2.read position mark_class_count) count
  return { count, records }

/-! ## Lookup subtables -/

/-- `src/tables/glyph_positioning/mod.rs:38-54`. -/
structure SingleAdjustment1 where
  format : Nat
  coverage_offset : Nat
  value_flags : Nat
  value : Single
  coverage : Coverage
deriving DecidableEq, Repr

/-- `src/tables/glyph_positioning/mod.rs:38-54`. -/
def SingleAdjustment1.read (cfg : Cfg) : Reader SingleAdjustment1 := do
  let position ← position
  let format ← u16
  let coverage_offset ← u16
  let value_flags ← Flags.read cfg
  let value ← Single.read position value_flags
  let coverage ← jumpTake position coverage_offset Coverage.read
  return { format, coverage_offset, value_flags, value, coverage }

/-- `src/tables/glyph_positioning/mod.rs:56-75`. -/
structure SingleAdjustment2 where
  format : Nat
  coverage_offset : Nat
  value_flags : Nat
  value_count : Nat
  values : List Single
  coverage : Coverage
deriving DecidableEq, Repr

/-- `src/tables/glyph_positioning/mod.rs:56-75`. -/
def SingleAdjustment2.read (cfg : Cfg) : Reader SingleAdjustment2 := do
  let position ← position
  let format ← u16
  let coverage_offset ← u16
  let value_flags ← Flags.read cfg
  let value_count ← u16
  let values ← takeVec (Single.read position value_flags) value_count
  let coverage ← jumpTake position coverage_offset Coverage.read
  return { format, coverage_offset, value_flags, value_count, values, coverage }

/-- `src/tables/glyph_positioning/mod.rs:29-36`. -/
inductive SingleAdjustment where
  | format1 (table : SingleAdjustment1)
  | format2 (table : SingleAdjustment2)
deriving DecidableEq, Repr

/-- `src/tables/glyph_positioning/mod.rs:284-292`. -/
def SingleAdjustment.read (cfg : Cfg) : Reader SingleAdjustment := do
  match ← peek u16 with
  | 1 => return .format1 (← SingleAdjustment1.read cfg)
  | 2 => return .format2 (← SingleAdjustment2.read cfg)
  | value => raise ⟨"found an unknown format of the single adjustment", [value]⟩

/-- `src/tables/glyph_positioning/mod.rs:86-114`. -/
structure PairAdjustment1 where
  format : Nat
  coverage_offset : Nat
  value1_flags : Nat
  value2_flags : Nat
  record_count : Nat
  record_offsets : List Nat
  coverage : Coverage
  records : List Pair1s
deriving DecidableEq, Repr

/-- `src/tables/glyph_positioning/mod.rs:86-114`. -/
def PairAdjustment1.read (cfg : Cfg) : Reader PairAdjustment1 := do
  let position ← position
  let format ← u16
  let coverage_offset ← u16
  let value1_flags ← Flags.read cfg
  let value2_flags ← Flags.read cfg
  let record_count ← u16
  let record_offsets ← takeVec u16 record_count
  let coverage ← jumpTake position coverage_offset Coverage.read
  let records ←
    jumpTakeN position record_count record_offsets (Pair1s.read value1_flags value2_flags)
  return { format, coverage_offset, value1_flags, value2_flags, record_count, record_offsets,
           coverage, records }

/-- `src/tables/glyph_positioning/mod.rs:116-147`. -/
structure PairAdjustment2 where
  format : Nat
  coverage_offset : Nat
  value1_flags : Nat
  value2_flags : Nat
  class1_offset : Nat
  class2_offset : Nat
  class1_count : Nat
  class2_count : Nat
  records : List Pair2s
  coverage : Coverage
  class1 : Class
  class2 : Class
deriving DecidableEq, Repr

/-- `src/tables/glyph_positioning/mod.rs:116-147`. -/
def PairAdjustment2.read (cfg : Cfg) : Reader PairAdjustment2 := do
  let position ← position
  let format ← u16
  let coverage_offset ← u16
  let value1_flags ← Flags.read cfg
  let value2_flags ← Flags.read cfg
  let class1_offset ← u16
  let class2_offset ← u16
  let class1_count ← u16
  let class2_count ← u16
  let records ←
    takeVec (Pair2s.read position class2_count value1_flags value2_flags) class1_count
  let coverage ← jumpTake position coverage_offset Coverage.read
  let class1 ← jumpTake position class1_offset Class.read
  let class2 ← jumpTake position class2_offset Class.read
  return { format, coverage_offset, value1_flags, value2_flags, class1_offset, class2_offset,
           class1_count, class2_count, records, coverage, class1, class2 }

/-- `src/tables/glyph_positioning/mod.rs:77-84`. -/
inductive PairAdjustment where
  | format1 (table : PairAdjustment1)
  | format2 (table : PairAdjustment2)
deriving DecidableEq, Repr

/-- `src/tables/glyph_positioning/mod.rs:294-302`. -/
def PairAdjustment.read (cfg : Cfg) : Reader PairAdjustment := do
  match ← peek u16 with
  | 1 => return .format1 (← PairAdjustment1.read cfg)
  | 2 => return .format2 (← PairAdjustment2.read cfg)
  | value => raise ⟨"found an unknown format of the pair adjustment", [value]⟩

/-- `src/tables/glyph_positioning/mod.rs:149-167`. -/
structure CursiveAttachment where
  format : Nat
  coverage_offset : Nat
  connection_count : Nat
  connections : List Connection
  coverage : Coverage
deriving DecidableEq, Repr

/-- `src/tables/glyph_positioning/mod.rs:149-167`. -/
def CursiveAttachment.read : Reader CursiveAttachment := do
  let position ← position
  let format ← expectU16 1
  let coverage_offset ← u16
  let connection_count ← u16
  let connections ← takeVec (Connection.read position) connection_count
  let coverage ← jumpTake position coverage_offset Coverage.read
  return { format, coverage_offset, connection_count, connections, coverage }

/-- `src/tables/glyph_positioning/mod.rs:169-196`. -/
structure MarkToBaseAttachment where
  format : Nat
  mark_coverage_offset : Nat
  base_coverage_offset : Nat
  mark_class_count : Nat
  marks_offset : Nat
  bases_offset : Nat
  mark_coverage : Coverage
  base_coverage : Coverage
  marks : Mark1s
  bases : Bases
deriving DecidableEq, Repr

/-- `src/tables/glyph_positioning/mod.rs:169-196`. -/
def MarkToBaseAttachment.read (cfg : Cfg) : Reader MarkToBaseAttachment := do
  let position ← position
  let format ← expectU16 1
  let mark_coverage_offset ← u16
  let base_coverage_offset ← u16
  let mark_class_count ← u16
  let marks_offset ← u16
  let bases_offset ← u16
  let mark_coverage ← jumpTake position mark_coverage_offset Coverage.read
  let base_coverage ← jumpTake position base_coverage_offset Coverage.read
  let marks ← jumpTake position marks_offset (Mark1s.read cfg)
  let bases ← jumpTake position bases_offset (Bases.read mark_class_count)
  return { format, mark_coverage_offset, base_coverage_offset, mark_class_count, marks_offset,
           bases_offset, mark_coverage, base_coverage, marks, bases }

/-- `src/tables/glyph_positioning/mod.rs:198-225`. -/
structure MarkToLigatureAttachment where
  format : Nat
  mark_coverage_offset : Nat
  ligature_coverage_offset : Nat
  mark_class_count : Nat
  marks_offset : Nat
  ligatures_offset : Nat
  mark_coverage : Coverage
  ligature_coverage : Coverage
  marks : Mark1s
  ligatures : Ligatures
deriving DecidableEq, Repr

/-- `src/tables/glyph_positioning/mod.rs:198-225`. -/
def MarkToLigatureAttachment.read (cfg : Cfg) : Reader MarkToLigatureAttachment := do
  let position ← position
  let format ← expectU16 1
  let mark_coverage_offset ← u16
  let ligature_coverage_offset ← u16
  let mark_class_count ← u16
  let marks_offset ← u16
  let ligatures_offset ← u16
  let mark_coverage ← jumpTake position mark_coverage_offset Coverage.read
  let ligature_coverage ← jumpTake position ligature_coverage_offset Coverage.read
  let marks ← jumpTake position marks_offset (Mark1s.read cfg)
  let ligatures ← jumpTake position ligatures_offset (Ligatures.read mark_class_count)
  return { format, mark_coverage_offset, ligature_coverage_offset, mark_class_count, marks_offset,
           ligatures_offset, mark_coverage, ligature_coverage, marks, ligatures }

/-- `src/tables/glyph_positioning/mod.rs:227-254`. -/
structure MarkToMarkAttachment where
  format : Nat
  mark1_coverage_offset : Nat
  mark2_coverage_offset : Nat
  mark_class_count : Nat
  mark1s_offset : Nat
  mark2s_offset : Nat
  mark1_coverage : Coverage
  mark2_coverage : Coverage
  mark1s : Mark1s
  mark2s : Mark2s
deriving DecidableEq, Repr

/-- `src/tables/glyph_positioning/mod.rs:227-254`. -/
def MarkToMarkAttachment.read (cfg : Cfg) : Reader MarkToMarkAttachment := do
  let position ← position
  let format ← expectU16 1
  let mark1_coverage_offset ← u16
  let mark2_coverage_offset ← u16
  let mark_class_count ← u16
  let mark1s_offset ← u16
  let mark2s_offset ← u16
  let mark1_coverage ← jumpTake position mark1_coverage_offset Coverage.read
  let mark2_coverage ← jumpTake position mark2_coverage_offset Coverage.read
  let mark1s ← jumpTake position mark1s_offset (Mark1s.read cfg)
  let mark2s ← jumpTake position mark2s_offset (Mark2s.read mark_class_count)
  return { format, mark1_coverage_offset, mark2_coverage_offset, mark_class_count, mark1s_offset,
           mark2s_offset, mark1_coverage, mark2_coverage, mark1s, mark2s }

/-- `src/tables/glyph_positioning/mod.rs:256-263`. -/
structure ExtensionPositioning where
  format : Nat
  type_ : Nat
  offset : Nat
deriving DecidableEq, Repr

/-- `src/tables/glyph_positioning/mod.rs:256-263`. -/
def ExtensionPositioning.read : Reader ExtensionPositioning := do
  let format ← expectU16 1
  let type_ ← u16
  let offset ← u32
  return { format, type_, offset }

/-- `src/tables/glyph_positioning/mod.rs:15-27`. -/
inductive Type_ where
  | singleAdjustment (table : SingleAdjustment)
  | pairAdjustment (table : PairAdjustment)
  | cursiveAttachment (table : CursiveAttachment)
  | markToBaseAttachment (table : MarkToBaseAttachment)
  | markToLigatureAttachment (table : MarkToLigatureAttachment)
  | markToMarkAttachment (table : MarkToMarkAttachment)
  | contextualPositioning (table : Context)
  | chainedContextualPositioning (table : ChainedContext)
  | extensionPositioning (table : ExtensionPositioning)
deriving DecidableEq, Repr

/-- `src/tables/glyph_positioning/mod.rs:265-282`. -/
def Type_.read (cfg : Cfg) (type_ : Nat) : Reader Type_ :=
  match type_ with
  | 1 => do return .singleAdjustment (← SingleAdjustment.read cfg)
  | 2 => do return .pairAdjustment (← PairAdjustment.read cfg)
  | 3 => do return .cursiveAttachment (← CursiveAttachment.read)
  | 4 => do return .markToBaseAttachment (← MarkToBaseAttachment.read cfg)
  | 5 => do return .markToLigatureAttachment (← MarkToLigatureAttachment.read cfg)
  | 6 => do return .markToMarkAttachment (← MarkToMarkAttachment.read cfg)
  | 7 => do return .contextualPositioning (← Context.read)
  | 8 => do return .chainedContextualPositioning (← ChainedContext.read)
  | 9 => do return .extensionPositioning (← ExtensionPositioning.read)
  | value => raise ⟨"found an unknown type of glyph positioning", [value]⟩

/-- `src/tables/glyph_positioning/mod.rs:12-13`. -/
abbrev GlyphPositioning := directory.Directory Type_

/-- `src/tables/glyph_positioning/mod.rs:12-13` with `src/layout/directory.rs:22-67`. -/
def GlyphPositioning.read (cfg : Cfg) : Reader GlyphPositioning :=
  directory.Directory.read cfg (Type_.read cfg)

end OpenType.gpos
