import Verif.Model.Gpos
import Verif.Generated.Layout
import Verif.Generated.Lists
/-!
# Generated by `tools/translate.py` from the source: do not edit

Each definition is the translation of the code at the lines given, and each theorem says that the definition
of the model written by hand is the same.
-/

set_option linter.unusedVariables false

namespace OpenType.Generated

namespace gpos
/-- `src/tables/glyph_positioning/element.rs:232-237`. -/
def Anchor.default : gpos.Anchor := (.format1 { format := 0, x := 0, y := 0 })

/-- The model of `src/tables/glyph_positioning/element.rs:232-237` is its translation. -/
theorem Anchor.default_eq : @Anchor.default = @OpenType.gpos.Anchor.default := rfl
end gpos

namespace gpos
/-- `src/tables/glyph_positioning/element.rs:17-25`. -/
def Anchor1.read : Reader gpos.Anchor1 := do
  let format ← u16
  let x ← i16
  let y ← i16
  return { format, x, y }

/-- The model of `src/tables/glyph_positioning/element.rs:17-25` is its translation. -/
theorem Anchor1.read_eq : @Anchor1.read = @OpenType.gpos.Anchor1.read := rfl
end gpos

namespace gpos
/-- `src/tables/glyph_positioning/element.rs:27-36`. -/
def Anchor2.read : Reader gpos.Anchor2 := do
  let format ← u16
  let x ← i16
  let y ← i16
  let index ← u16
  return { format, x, y, index }

/-- The model of `src/tables/glyph_positioning/element.rs:27-36` is its translation. -/
theorem Anchor2.read_eq : @Anchor2.read = @OpenType.gpos.Anchor2.read := rfl
end gpos

namespace gpos
/-- `src/tables/glyph_positioning/element.rs:38-56`. -/
def Anchor3.read : Reader gpos.Anchor3 := do
  let position ← position
  let format ← u16
  let x ← i16
  let y ← i16
  let x_correction_offset ← u16
  let y_correction_offset ← u16
  let x_correction ← jumpTakeMaybe position x_correction_offset Generated.correction.Correction.read
  let y_correction ← jumpTakeMaybe position y_correction_offset Generated.correction.Correction.read
  return { format, x, y, x_correction_offset, y_correction_offset, x_correction, y_correction }

/-- The model of `src/tables/glyph_positioning/element.rs:38-56` is its translation. -/
theorem Anchor3.read_eq : @Anchor3.read = @OpenType.gpos.Anchor3.read := by
  delta Anchor3.read OpenType.gpos.Anchor3.read
  simp only [Generated.correction.Correction.read_eq] <;> rfl
end gpos

namespace gpos
/-- `src/tables/glyph_positioning/element.rs:239-248`. -/
def Anchor.read : Reader gpos.Anchor := do
  let t1 ← peek u16
  match t1 with
  | 1 => do
      let t2 ← Anchor1.read
      pure (.format1 t2)
  | 2 => do
      let t3 ← Anchor2.read
      pure (.format2 t3)
  | 3 => do
      let t4 ← Anchor3.read
      pure (.format3 t4)
  | value => raise ⟨"found an unknown format of the anchor table", [value]⟩

/-- The model of `src/tables/glyph_positioning/element.rs:239-248` is its translation. -/
theorem Anchor.read_eq : @Anchor.read = @OpenType.gpos.Anchor.read := by
  delta Anchor.read OpenType.gpos.Anchor.read
  simp only [Anchor1.read_eq, Anchor2.read_eq, Anchor3.read_eq] <;> rfl
end gpos

namespace gpos
/-- `src/tables/glyph_positioning/element.rs:250-265`. -/
def Base.read (position : Nat) (mark_class_count : Nat) : Reader gpos.Base := do
  let anchor_offsets ← takeVec u16 mark_class_count
  let anchors ← stay (jumpTakeMaybeN position mark_class_count anchor_offsets Anchor.read)
  return { anchor_offsets, anchors }

/-- The model of `src/tables/glyph_positioning/element.rs:250-265` is its translation. -/
theorem Base.read_eq : @Base.read = @OpenType.gpos.Base.read := by
  delta Base.read OpenType.gpos.Base.read
  simp only [Anchor.read_eq] <;> rfl
end gpos

namespace gpos
/-- `src/tables/glyph_positioning/element.rs:267-278`. -/
def Bases.read (mark_class_count : Nat) : Reader gpos.Bases := do
  let position ← position
  let count ← u16
  let records ← takeVec (Base.read position mark_class_count) count
  return { count, records }

/-- The model of `src/tables/glyph_positioning/element.rs:267-278` is its translation. -/
theorem Bases.read_eq : @Bases.read = @OpenType.gpos.Bases.read := by
  delta Bases.read OpenType.gpos.Bases.read
  simp only [Base.read_eq] <;> rfl
end gpos

namespace gpos
/-- `src/tables/glyph_positioning/element.rs:280-295`. -/
def Component.read (position : Nat) (mark_class_count : Nat) : Reader gpos.Component := do
  let anchor_offsets ← takeVec u16 mark_class_count
  let anchors ← stay (jumpTakeMaybeN position mark_class_count anchor_offsets Anchor.read)
  return { anchor_offsets, anchors }

/-- The model of `src/tables/glyph_positioning/element.rs:280-295` is its translation. -/
theorem Component.read_eq : @Component.read = @OpenType.gpos.Component.read := by
  delta Component.read OpenType.gpos.Component.read
  simp only [Anchor.read_eq] <;> rfl
end gpos

namespace gpos
/-- `src/tables/glyph_positioning/element.rs:452-471`. -/
def Connection.read (position : Nat) : Reader gpos.Connection := do
  let start_anchor_offset ← u16
  let end_anchor_offset ← u16
  let (start_anchor, end_anchor) ←
    stay (do
      let t3 ← jumpTakeMaybe position start_anchor_offset Anchor.read
      let t4 ← jumpTakeMaybe position end_anchor_offset Anchor.read
      pure (t3, t4))
  return { start_anchor_offset, end_anchor_offset, start_anchor, end_anchor }

/-- The model of `src/tables/glyph_positioning/element.rs:452-471` is its translation. -/
theorem Connection.read_eq : @Connection.read = @OpenType.gpos.Connection.read := by
  delta Connection.read OpenType.gpos.Connection.read
  simp only [Anchor.read_eq] <;> rfl
end gpos

namespace gpos
/-- `src/tables/glyph_positioning/element.rs:297-308`. -/
def Ligature.read (mark_class_count : Nat) : Reader gpos.Ligature := do
  let position ← position
  let count ← u16
  let components ← takeVec (Component.read position mark_class_count) count
  return { count, components }

/-- The model of `src/tables/glyph_positioning/element.rs:297-308` is its translation. -/
theorem Ligature.read_eq : @Ligature.read = @OpenType.gpos.Ligature.read := by
  delta Ligature.read OpenType.gpos.Ligature.read
  simp only [Component.read_eq] <;> rfl
end gpos

namespace gpos
/-- `src/tables/glyph_positioning/element.rs:310-325`. -/
def Ligatures.read (mark_class_count : Nat) : Reader gpos.Ligatures := do
  let position ← position
  let count ← u16
  let offsets ← takeVec u16 count
  let records ← stay (jumpTakeN position count offsets (Ligature.read mark_class_count))
  return { count, offsets, records }

/-- The model of `src/tables/glyph_positioning/element.rs:310-325` is its translation. -/
theorem Ligatures.read_eq : @Ligatures.read = @OpenType.gpos.Ligatures.read := by
  delta Ligatures.read OpenType.gpos.Ligatures.read
  simp only [Ligature.read_eq] <;> rfl
end gpos

namespace gpos
/-- `src/tables/glyph_positioning/element.rs:327-345`. -/
def Mark1.read (cfg : Cfg) (position : Nat) : Reader gpos.Mark1 := do
  let class_id ← u16
  let anchor_offset ← u16
  let anchor ←
    (if cfg.ignoreIncompleteMarks = true then
      do
        let t3 ← stay (jumpTakeMaybe position anchor_offset Anchor.read)
        pure (t3.getD (Anchor.default))
    else
      stay (jumpTake position anchor_offset Anchor.read))
  return { class_id, anchor_offset, anchor }

/-- The model of `src/tables/glyph_positioning/element.rs:327-345` is its translation. -/
theorem Mark1.read_eq : @Mark1.read = @OpenType.gpos.Mark1.read := by
  delta Mark1.read OpenType.gpos.Mark1.read
  simp only [Anchor.default_eq, Anchor.read_eq] <;> rfl
end gpos

namespace gpos
/-- `src/tables/glyph_positioning/element.rs:130-140`. -/
def Mark1s.read (cfg : Cfg) : Reader gpos.Mark1s := do
  let position ← position
  let count ← u16
  let records ← takeVec (Mark1.read cfg position) count
  return { count, records }

/-- The model of `src/tables/glyph_positioning/element.rs:130-140` is its translation. -/
theorem Mark1s.read_eq : @Mark1s.read = @OpenType.gpos.Mark1s.read := by
  delta Mark1s.read OpenType.gpos.Mark1s.read
  simp only [Mark1.read_eq] <;> rfl
end gpos

namespace gpos
/-- `src/tables/glyph_positioning/element.rs:347-362`. -/
def Mark2.read (position : Nat) (mark_class_count : Nat) : Reader gpos.Mark2 := do
  let anchor_offsets ← takeVec u16 mark_class_count
  let anchors ← stay (jumpTakeMaybeN position mark_class_count anchor_offsets Anchor.read)
  return { anchor_offsets, anchors }

/-- The model of `src/tables/glyph_positioning/element.rs:347-362` is its translation. -/
theorem Mark2.read_eq : @Mark2.read = @OpenType.gpos.Mark2.read := by
  delta Mark2.read OpenType.gpos.Mark2.read
  simp only [Anchor.read_eq] <;> rfl
end gpos

namespace gpos
/-- `src/tables/glyph_positioning/element.rs:364-375`. -/
def Mark2s.read (mark_class_count : Nat) : Reader gpos.Mark2s := do
  let position ← position
  let count ← u16
  let records ← takeVec (Mark2.read position mark_class_count) count
  return { count, records }

/-- The model of `src/tables/glyph_positioning/element.rs:364-375` is its translation. -/
theorem Mark2s.read_eq : @Mark2s.read = @OpenType.gpos.Mark2s.read := by
  delta Mark2s.read OpenType.gpos.Mark2s.read
  simp only [Mark2.read_eq] <;> rfl
end gpos

namespace gpos
/-- `src/tables/glyph_positioning/element.rs:220`. -/
def Flags.has_x_placement (flags : Nat) : Bool := flag flags 0b0000000000000001

/-- The model of `src/tables/glyph_positioning/element.rs:220` is its translation. -/
theorem Flags.has_x_placement_eq : @Flags.has_x_placement = @OpenType.gpos.has_x_placement := rfl
end gpos

namespace gpos
/-- `src/tables/glyph_positioning/element.rs:221`. -/
def Flags.has_y_placement (flags : Nat) : Bool := flag flags 0b0000000000000010

/-- The model of `src/tables/glyph_positioning/element.rs:221` is its translation. -/
theorem Flags.has_y_placement_eq : @Flags.has_y_placement = @OpenType.gpos.has_y_placement := rfl
end gpos

namespace gpos
/-- `src/tables/glyph_positioning/element.rs:222`. -/
def Flags.has_x_advance (flags : Nat) : Bool := flag flags 0b0000000000000100

/-- The model of `src/tables/glyph_positioning/element.rs:222` is its translation. -/
theorem Flags.has_x_advance_eq : @Flags.has_x_advance = @OpenType.gpos.has_x_advance := rfl
end gpos

namespace gpos
/-- `src/tables/glyph_positioning/element.rs:223`. -/
def Flags.has_y_advance (flags : Nat) : Bool := flag flags 0b0000000000001000

/-- The model of `src/tables/glyph_positioning/element.rs:223` is its translation. -/
theorem Flags.has_y_advance_eq : @Flags.has_y_advance = @OpenType.gpos.has_y_advance := rfl
end gpos

namespace gpos
/-- `src/tables/glyph_positioning/element.rs:224`. -/
def Flags.has_x_placement_correction (flags : Nat) : Bool := flag flags 0b0000000000010000

/-- The model of `src/tables/glyph_positioning/element.rs:224` is its translation. -/
theorem Flags.has_x_placement_correction_eq : @Flags.has_x_placement_correction = @OpenType.gpos.has_x_placement_correction := rfl
end gpos

namespace gpos
/-- `src/tables/glyph_positioning/element.rs:225`. -/
def Flags.has_y_placement_correction (flags : Nat) : Bool := flag flags 0b0000000000100000

/-- The model of `src/tables/glyph_positioning/element.rs:225` is its translation. -/
theorem Flags.has_y_placement_correction_eq : @Flags.has_y_placement_correction = @OpenType.gpos.has_y_placement_correction := rfl
end gpos

namespace gpos
/-- `src/tables/glyph_positioning/element.rs:226`. -/
def Flags.has_x_advance_correction (flags : Nat) : Bool := flag flags 0b0000000001000000

/-- The model of `src/tables/glyph_positioning/element.rs:226` is its translation. -/
theorem Flags.has_x_advance_correction_eq : @Flags.has_x_advance_correction = @OpenType.gpos.has_x_advance_correction := rfl
end gpos

namespace gpos
/-- `src/tables/glyph_positioning/element.rs:227`. -/
def Flags.has_y_advance_correction (flags : Nat) : Bool := flag flags 0b0000000010000000

/-- The model of `src/tables/glyph_positioning/element.rs:227` is its translation. -/
theorem Flags.has_y_advance_correction_eq : @Flags.has_y_advance_correction = @OpenType.gpos.has_y_advance_correction := rfl
end gpos

namespace gpos
/-- `src/tables/glyph_positioning/element.rs:228`. -/
def Flags.is_invalid (flags : Nat) : Bool := flag flags 0b1111111100000000

/-- The model of `src/tables/glyph_positioning/element.rs:228` is its translation. -/
theorem Flags.is_invalid_eq : @Flags.is_invalid = @OpenType.gpos.is_invalid := rfl
end gpos

namespace gpos
/-- `src/tables/glyph_positioning/element.rs:217-230`. -/
def Flags.read (cfg : Cfg) : Reader Nat := flagsU16 cfg 0b1111111100000000

/-- The model of `src/tables/glyph_positioning/element.rs:217-230` is its translation. -/
theorem Flags.read_eq : @Flags.read = @OpenType.gpos.Flags.read := rfl
end gpos

namespace gpos
/-- `src/tables/glyph_positioning/element.rs:473-525`. -/
def Single.read (position : Nat) (flags : Nat) : Reader gpos.Single := do
  let x_placement ←
    (if (Flags.has_x_placement flags = true) then
      do
        let t1 ← i16
        pure (some t1)
    else
      pure none)
  let y_placement ←
    (if (Flags.has_y_placement flags = true) then
      do
        let t3 ← i16
        pure (some t3)
    else
      pure none)
  let x_advance ←
    (if (Flags.has_x_advance flags = true) then
      do
        let t5 ← i16
        pure (some t5)
    else
      pure none)
  let y_advance ←
    (if (Flags.has_y_advance flags = true) then
      do
        let t7 ← i16
        pure (some t7)
    else
      pure none)
  let x_placement_correction_offset ←
    (if (Flags.has_x_placement_correction flags = true) then
      do
        let t9 ← u16
        pure (some t9)
    else
      pure none)
  let y_placement_correction_offset ←
    (if (Flags.has_y_placement_correction flags = true) then
      do
        let t11 ← u16
        pure (some t11)
    else
      pure none)
  let x_advance_correction_offset ←
    (if (Flags.has_x_advance_correction flags = true) then
      do
        let t13 ← u16
        pure (some t13)
    else
      pure none)
  let y_advance_correction_offset ←
    (if (Flags.has_y_advance_correction flags = true) then
      do
        let t15 ← u16
        pure (some t15)
    else
      pure none)
  let (x_placement_correction, y_placement_correction, x_advance_correction, y_advance_correction) ←
    stay (do
      let t18 ←
        (match x_placement_correction_offset with
        | some offset => jumpTakeMaybe position offset Generated.correction.Correction.read
        | none => pure none)
      let t20 ←
        (match y_placement_correction_offset with
        | some offset => jumpTakeMaybe position offset Generated.correction.Correction.read
        | none => pure none)
      let t22 ←
        (match x_advance_correction_offset with
        | some offset => jumpTakeMaybe position offset Generated.correction.Correction.read
        | none => pure none)
      let t24 ←
        (match y_advance_correction_offset with
        | some offset => jumpTakeMaybe position offset Generated.correction.Correction.read
        | none => pure none)
      pure (t18, t20, t22, t24))
  return { x_placement, y_placement, x_advance, y_advance, x_placement_correction_offset, y_placement_correction_offset, x_advance_correction_offset, y_advance_correction_offset, x_placement_correction, y_placement_correction, x_advance_correction, y_advance_correction }

/-- The model of `src/tables/glyph_positioning/element.rs:473-525` is its translation. -/
theorem Single.read_eq : @Single.read = @OpenType.gpos.Single.read := by
  delta Single.read OpenType.gpos.Single.read
  simp only [Generated.correction.Correction.read_eq] <;> rfl
end gpos

namespace gpos
/-- `src/tables/glyph_positioning/element.rs:377-398`. -/
def Pair1.read (position : Nat) (value1_flags : Nat) (value2_flags : Nat) : Reader gpos.Pair1 := do
  let t1 ← u16
  let t3 ←
    (if (value1_flags > 0) then
      do
        let t2 ← Single.read position value1_flags
        pure (some t2)
    else
      pure none)
  let t5 ←
    (if (value2_flags > 0) then
      do
        let t4 ← Single.read position value2_flags
        pure (some t4)
    else
      pure none)
  return { glyph2_id := t1, value1 := t3, value2 := t5 }

/-- The model of `src/tables/glyph_positioning/element.rs:377-398` is its translation. -/
theorem Pair1.read_eq : @Pair1.read = @OpenType.gpos.Pair1.read := by
  delta Pair1.read OpenType.gpos.Pair1.read
  simp only [Single.read_eq] <;> rfl
end gpos

namespace gpos
/-- `src/tables/glyph_positioning/element.rs:400-414`. -/
def Pair1s.read (value1_flags : Nat) (value2_flags : Nat) : Reader gpos.Pair1s := do
  let position ← position
  let count ← u16
  let records ← takeVec (Pair1.read position value1_flags value2_flags) count
  return { count, records }

/-- The model of `src/tables/glyph_positioning/element.rs:400-414` is its translation. -/
theorem Pair1s.read_eq : @Pair1s.read = @OpenType.gpos.Pair1s.read := by
  delta Pair1s.read OpenType.gpos.Pair1s.read
  simp only [Pair1.read_eq] <;> rfl
end gpos

namespace gpos
/-- `src/tables/glyph_positioning/element.rs:416-436`. -/
def Pair2.read (position : Nat) (value1_flags : Nat) (value2_flags : Nat) : Reader gpos.Pair2 := do
  let t2 ←
    (if (value1_flags > 0) then
      do
        let t1 ← Single.read position value1_flags
        pure (some t1)
    else
      pure none)
  let t4 ←
    (if (value2_flags > 0) then
      do
        let t3 ← Single.read position value2_flags
        pure (some t3)
    else
      pure none)
  return { value1 := t2, value2 := t4 }

/-- The model of `src/tables/glyph_positioning/element.rs:416-436` is its translation. -/
theorem Pair2.read_eq : @Pair2.read = @OpenType.gpos.Pair2.read := by
  delta Pair2.read OpenType.gpos.Pair2.read
  simp only [Single.read_eq] <;> rfl
end gpos

namespace gpos
/-- `src/tables/glyph_positioning/element.rs:438-450`. -/
def Pair2s.read (position : Nat) (class2_count : Nat) (value1_flags : Nat) (value2_flags : Nat) : Reader gpos.Pair2s := do
  let records ← takeVec (Pair2.read position value1_flags value2_flags) class2_count
  return { records }

/-- The model of `src/tables/glyph_positioning/element.rs:438-450` is its translation. -/
theorem Pair2s.read_eq : @Pair2s.read = @OpenType.gpos.Pair2s.read := by
  delta Pair2s.read OpenType.gpos.Pair2s.read
  simp only [Pair2.read_eq] <;> rfl
end gpos

namespace gpos
/-- `src/tables/glyph_positioning/mod.rs:149-167`. -/
def CursiveAttachment.read : Reader gpos.CursiveAttachment := do
  let position ← position
  let format ← expectU16 1
  let coverage_offset ← u16
  let connection_count ← u16
  let connections ← takeVec (Connection.read position) connection_count
  let coverage ← jumpTake position coverage_offset Generated.coverage.Coverage.read
  return { format, coverage_offset, connection_count, connections, coverage }

/-- The model of `src/tables/glyph_positioning/mod.rs:149-167` is its translation. -/
theorem CursiveAttachment.read_eq : @CursiveAttachment.read = @OpenType.gpos.CursiveAttachment.read := by
  delta CursiveAttachment.read OpenType.gpos.CursiveAttachment.read
  simp only [Connection.read_eq, Generated.coverage.Coverage.read_eq] <;> rfl
end gpos

namespace gpos
/-- `src/tables/glyph_positioning/mod.rs:256-263`. -/
def ExtensionPositioning.read : Reader gpos.ExtensionPositioning := do
  let format ← expectU16 1
  let type_ ← u16
  let offset ← u32
  return { format, type_, offset }

/-- The model of `src/tables/glyph_positioning/mod.rs:256-263` is its translation. -/
theorem ExtensionPositioning.read_eq : @ExtensionPositioning.read = @OpenType.gpos.ExtensionPositioning.read := rfl
end gpos

namespace gpos
/-- `src/tables/glyph_positioning/mod.rs:169-196`. -/
def MarkToBaseAttachment.read (cfg : Cfg) : Reader gpos.MarkToBaseAttachment := do
  let position ← position
  let format ← expectU16 1
  let mark_coverage_offset ← u16
  let base_coverage_offset ← u16
  let mark_class_count ← u16
  let marks_offset ← u16
  let bases_offset ← u16
  let mark_coverage ← jumpTake position mark_coverage_offset Generated.coverage.Coverage.read
  let base_coverage ← jumpTake position base_coverage_offset Generated.coverage.Coverage.read
  let marks ← jumpTake position marks_offset (Mark1s.read cfg)
  let bases ← jumpTake position bases_offset (Bases.read mark_class_count)
  return { format, mark_coverage_offset, base_coverage_offset, mark_class_count, marks_offset, bases_offset, mark_coverage, base_coverage, marks, bases }

/-- The model of `src/tables/glyph_positioning/mod.rs:169-196` is its translation. -/
theorem MarkToBaseAttachment.read_eq : @MarkToBaseAttachment.read = @OpenType.gpos.MarkToBaseAttachment.read := by
  delta MarkToBaseAttachment.read OpenType.gpos.MarkToBaseAttachment.read
  simp only [Bases.read_eq, Generated.coverage.Coverage.read_eq, Mark1s.read_eq] <;> rfl
end gpos

namespace gpos
/-- `src/tables/glyph_positioning/mod.rs:198-225`. -/
def MarkToLigatureAttachment.read (cfg : Cfg) : Reader gpos.MarkToLigatureAttachment := do
  let position ← position
  let format ← expectU16 1
  let mark_coverage_offset ← u16
  let ligature_coverage_offset ← u16
  let mark_class_count ← u16
  let marks_offset ← u16
  let ligatures_offset ← u16
  let mark_coverage ← jumpTake position mark_coverage_offset Generated.coverage.Coverage.read
  let ligature_coverage ← jumpTake position ligature_coverage_offset Generated.coverage.Coverage.read
  let marks ← jumpTake position marks_offset (Mark1s.read cfg)
  let ligatures ← jumpTake position ligatures_offset (Ligatures.read mark_class_count)
  return { format, mark_coverage_offset, ligature_coverage_offset, mark_class_count, marks_offset, ligatures_offset, mark_coverage, ligature_coverage, marks, ligatures }

/-- The model of `src/tables/glyph_positioning/mod.rs:198-225` is its translation. -/
theorem MarkToLigatureAttachment.read_eq : @MarkToLigatureAttachment.read = @OpenType.gpos.MarkToLigatureAttachment.read := by
  delta MarkToLigatureAttachment.read OpenType.gpos.MarkToLigatureAttachment.read
  simp only [Generated.coverage.Coverage.read_eq, Ligatures.read_eq, Mark1s.read_eq] <;> rfl
end gpos

namespace gpos
/-- `src/tables/glyph_positioning/mod.rs:227-254`. -/
def MarkToMarkAttachment.read (cfg : Cfg) : Reader gpos.MarkToMarkAttachment := do
  let position ← position
  let format ← expectU16 1
  let mark1_coverage_offset ← u16
  let mark2_coverage_offset ← u16
  let mark_class_count ← u16
  let mark1s_offset ← u16
  let mark2s_offset ← u16
  let mark1_coverage ← jumpTake position mark1_coverage_offset Generated.coverage.Coverage.read
  let mark2_coverage ← jumpTake position mark2_coverage_offset Generated.coverage.Coverage.read
  let mark1s ← jumpTake position mark1s_offset (Mark1s.read cfg)
  let mark2s ← jumpTake position mark2s_offset (Mark2s.read mark_class_count)
  return { format, mark1_coverage_offset, mark2_coverage_offset, mark_class_count, mark1s_offset, mark2s_offset, mark1_coverage, mark2_coverage, mark1s, mark2s }

/-- The model of `src/tables/glyph_positioning/mod.rs:227-254` is its translation. -/
theorem MarkToMarkAttachment.read_eq : @MarkToMarkAttachment.read = @OpenType.gpos.MarkToMarkAttachment.read := by
  delta MarkToMarkAttachment.read OpenType.gpos.MarkToMarkAttachment.read
  simp only [Generated.coverage.Coverage.read_eq, Mark1s.read_eq, Mark2s.read_eq] <;> rfl
end gpos

namespace gpos
/-- `src/tables/glyph_positioning/mod.rs:86-114`. -/
def PairAdjustment1.read (cfg : Cfg) : Reader gpos.PairAdjustment1 := do
  let position ← position
  let format ← u16
  let coverage_offset ← u16
  let value1_flags ← Flags.read cfg
  let value2_flags ← Flags.read cfg
  let record_count ← u16
  let record_offsets ← takeVec u16 record_count
  let coverage ← jumpTake position coverage_offset Generated.coverage.Coverage.read
  let records ← jumpTakeN position record_count record_offsets (Pair1s.read value1_flags value2_flags)
  return { format, coverage_offset, value1_flags, value2_flags, record_count, record_offsets, coverage, records }

/-- The model of `src/tables/glyph_positioning/mod.rs:86-114` is its translation. -/
theorem PairAdjustment1.read_eq : @PairAdjustment1.read = @OpenType.gpos.PairAdjustment1.read := by
  delta PairAdjustment1.read OpenType.gpos.PairAdjustment1.read
  simp only [Flags.read_eq, Generated.coverage.Coverage.read_eq, Pair1s.read_eq] <;> rfl
end gpos

namespace gpos
/-- `src/tables/glyph_positioning/mod.rs:116-147`. -/
def PairAdjustment2.read (cfg : Cfg) : Reader gpos.PairAdjustment2 := do
  let position ← position
  let format ← u16
  let coverage_offset ← u16
  let value1_flags ← Flags.read cfg
  let value2_flags ← Flags.read cfg
  let class1_offset ← u16
  let class2_offset ← u16
  let class1_count ← u16
  let class2_count ← u16
  let records ← takeVec (Pair2s.read position class2_count value1_flags value2_flags) class1_count
  let coverage ← jumpTake position coverage_offset Generated.coverage.Coverage.read
  let class1 ← jumpTake position class1_offset Generated.class_.Class.read
  let class2 ← jumpTake position class2_offset Generated.class_.Class.read
  return { format, coverage_offset, value1_flags, value2_flags, class1_offset, class2_offset, class1_count, class2_count, records, coverage, class1, class2 }

/-- The model of `src/tables/glyph_positioning/mod.rs:116-147` is its translation. -/
theorem PairAdjustment2.read_eq : @PairAdjustment2.read = @OpenType.gpos.PairAdjustment2.read := by
  delta PairAdjustment2.read OpenType.gpos.PairAdjustment2.read
  simp only [Flags.read_eq, Generated.class_.Class.read_eq, Generated.coverage.Coverage.read_eq, Pair2s.read_eq] <;> rfl
end gpos

namespace gpos
/-- `src/tables/glyph_positioning/mod.rs:294-302`. -/
def PairAdjustment.read (cfg : Cfg) : Reader gpos.PairAdjustment := do
  let t1 ← peek u16
  match t1 with
  | 1 => do
      let t2 ← PairAdjustment1.read cfg
      pure (.format1 t2)
  | 2 => do
      let t3 ← PairAdjustment2.read cfg
      pure (.format2 t3)
  | value => raise ⟨"found an unknown format of the pair adjustment", [value]⟩

/-- The model of `src/tables/glyph_positioning/mod.rs:294-302` is its translation. -/
theorem PairAdjustment.read_eq : @PairAdjustment.read = @OpenType.gpos.PairAdjustment.read := by
  delta PairAdjustment.read OpenType.gpos.PairAdjustment.read
  simp only [PairAdjustment1.read_eq, PairAdjustment2.read_eq] <;> rfl
end gpos

namespace gpos
/-- `src/tables/glyph_positioning/mod.rs:38-54`. -/
def SingleAdjustment1.read (cfg : Cfg) : Reader gpos.SingleAdjustment1 := do
  let position ← position
  let format ← u16
  let coverage_offset ← u16
  let value_flags ← Flags.read cfg
  let value ← Single.read position value_flags
  let coverage ← jumpTake position coverage_offset Generated.coverage.Coverage.read
  return { format, coverage_offset, value_flags, value, coverage }

/-- The model of `src/tables/glyph_positioning/mod.rs:38-54` is its translation. -/
theorem SingleAdjustment1.read_eq : @SingleAdjustment1.read = @OpenType.gpos.SingleAdjustment1.read := by
  delta SingleAdjustment1.read OpenType.gpos.SingleAdjustment1.read
  simp only [Flags.read_eq, Generated.coverage.Coverage.read_eq, Single.read_eq] <;> rfl
end gpos

namespace gpos
/-- `src/tables/glyph_positioning/mod.rs:56-75`. -/
def SingleAdjustment2.read (cfg : Cfg) : Reader gpos.SingleAdjustment2 := do
  let position ← position
  let format ← u16
  let coverage_offset ← u16
  let value_flags ← Flags.read cfg
  let value_count ← u16
  let values ← takeVec (Single.read position value_flags) value_count
  let coverage ← jumpTake position coverage_offset Generated.coverage.Coverage.read
  return { format, coverage_offset, value_flags, value_count, values, coverage }

/-- The model of `src/tables/glyph_positioning/mod.rs:56-75` is its translation. -/
theorem SingleAdjustment2.read_eq : @SingleAdjustment2.read = @OpenType.gpos.SingleAdjustment2.read := by
  delta SingleAdjustment2.read OpenType.gpos.SingleAdjustment2.read
  simp only [Flags.read_eq, Generated.coverage.Coverage.read_eq, Single.read_eq] <;> rfl
end gpos

namespace gpos
/-- `src/tables/glyph_positioning/mod.rs:284-292`. -/
def SingleAdjustment.read (cfg : Cfg) : Reader gpos.SingleAdjustment := do
  let t1 ← peek u16
  match t1 with
  | 1 => do
      let t2 ← SingleAdjustment1.read cfg
      pure (.format1 t2)
  | 2 => do
      let t3 ← SingleAdjustment2.read cfg
      pure (.format2 t3)
  | value => raise ⟨"found an unknown format of the single adjustment", [value]⟩

/-- The model of `src/tables/glyph_positioning/mod.rs:284-292` is its translation. -/
theorem SingleAdjustment.read_eq : @SingleAdjustment.read = @OpenType.gpos.SingleAdjustment.read := by
  delta SingleAdjustment.read OpenType.gpos.SingleAdjustment.read
  simp only [SingleAdjustment1.read_eq, SingleAdjustment2.read_eq] <;> rfl
end gpos

namespace gpos
/-- `src/tables/glyph_positioning/mod.rs:265-282`. -/
def Type_.read (cfg : Cfg) (type_ : Nat) : Reader gpos.Type_ :=
  match type_ with
  | 1 => do
      let t1 ← SingleAdjustment.read cfg
      pure (.singleAdjustment t1)
  | 2 => do
      let t2 ← PairAdjustment.read cfg
      pure (.pairAdjustment t2)
  | 3 => do
      let t3 ← CursiveAttachment.read
      pure (.cursiveAttachment t3)
  | 4 => do
      let t4 ← MarkToBaseAttachment.read cfg
      pure (.markToBaseAttachment t4)
  | 5 => do
      let t5 ← MarkToLigatureAttachment.read cfg
      pure (.markToLigatureAttachment t5)
  | 6 => do
      let t6 ← MarkToMarkAttachment.read cfg
      pure (.markToMarkAttachment t6)
  | 7 => do
      let t7 ← Generated.context.Context.read
      pure (.contextualPositioning t7)
  | 8 => do
      let t8 ← Generated.context.ChainedContext.read
      pure (.chainedContextualPositioning t8)
  | 9 => do
      let t9 ← ExtensionPositioning.read
      pure (.extensionPositioning t9)
  | value => raise ⟨"found an unknown type of glyph positioning", [value]⟩

/-- The model of `src/tables/glyph_positioning/mod.rs:265-282` is its translation. -/
theorem Type_.read_eq : @Type_.read = @OpenType.gpos.Type_.read := by
  delta Type_.read OpenType.gpos.Type_.read
  simp only [CursiveAttachment.read_eq, ExtensionPositioning.read_eq, Generated.context.ChainedContext.read_eq, Generated.context.Context.read_eq, MarkToBaseAttachment.read_eq, MarkToLigatureAttachment.read_eq, MarkToMarkAttachment.read_eq, PairAdjustment.read_eq, SingleAdjustment.read_eq] <;> rfl
end gpos

namespace gpos
/-- `src/tables/glyph_positioning/mod.rs:13`. -/
def GlyphPositioning.read (cfg : Cfg) : Reader gpos.GlyphPositioning :=
  Generated.directory.Directory.read cfg (Type_.read cfg)

/-- The model of `src/tables/glyph_positioning/mod.rs:13` is its translation. -/
theorem GlyphPositioning.read_eq : @GlyphPositioning.read = @OpenType.gpos.GlyphPositioning.read := by
  delta GlyphPositioning.read OpenType.gpos.GlyphPositioning.read
  simp only [Generated.directory.Directory.read_eq, Type_.read_eq] <;> rfl
end gpos

end OpenType.Generated
