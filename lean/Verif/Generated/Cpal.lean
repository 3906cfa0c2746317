import Verif.Model.Cpal
/-!
# Generated by `tools/translate.py` from the source: do not edit

Each definition is the translation of the code at the lines given, and each theorem says that the definition
of the model written by hand is the same.
-/

set_option linter.unusedVariables false

namespace OpenType.Generated

namespace cpal
/-- `src/tables/color_palettes.rs:52-61`. -/
def Color.read : Reader cpal.Color := do
  let blue ← u8
  let green ← u8
  let red ← u8
  let alpha ← u8
  return { blue, green, red, alpha }

/-- The model of `src/tables/color_palettes.rs:52-61` is its translation. -/
theorem Color.read_eq : @Color.read = @OpenType.cpal.Color.read := rfl
end cpal

namespace cpal
/-- `src/tables/color_palettes.rs:22-35`. -/
def Header0.read : Reader cpal.Header0 := do
  let version ← expectU16 0
  let entry_count ← u16
  let palette_count ← u16
  let color_count ← u16
  let color_offset ← u32
  let color_indices ← takeVec u16 palette_count
  return { version, entry_count, palette_count, color_count, color_offset, color_indices }

/-- The model of `src/tables/color_palettes.rs:22-35` is its translation. -/
theorem Header0.read_eq : @Header0.read = @OpenType.cpal.Header0.read := rfl
end cpal

namespace cpal
/-- `src/tables/color_palettes.rs:37-50`. -/
def Header1.read : Reader cpal.Header1 := do
  let version ← expectU16 1
  let entry_count ← u16
  let palette_count ← u16
  let color_count ← u16
  let color_offset ← u32
  let color_indices ← takeVec u16 palette_count
  return { version, entry_count, palette_count, color_count, color_offset, color_indices }

/-- The model of `src/tables/color_palettes.rs:37-50` is its translation. -/
theorem Header1.read_eq : @Header1.read = @OpenType.cpal.Header1.read := rfl
end cpal

namespace cpal
/-- `src/tables/color_palettes.rs:103-111`. -/
def Header.read : Reader cpal.Header := do
  let t1 ← peek u16
  match t1 with
  | 0 => do
      let t2 ← Header0.read
      pure (.version0 t2)
  | 1 => do
      let t3 ← Header1.read
      pure (.version1 t3)
  | value => raise ⟨"found an unknown version of the color-palette table", [value]⟩

/-- The model of `src/tables/color_palettes.rs:103-111` is its translation. -/
theorem Header.read_eq : @Header.read = @OpenType.cpal.Header.read := by
  delta Header.read OpenType.cpal.Header.read
  simp only [Header0.read_eq, Header1.read_eq] <;> rfl
end cpal

namespace cpal
/-- `src/tables/color_palettes.rs:90-101`. -/
def ColorPalettes.read : Reader cpal.ColorPalettes := do
  let position ← position
  let header ← Header.read
  let (offset, count) := (match header with
      | .version0 header => (header.color_offset, header.color_count)
      | .version1 header => (header.color_offset, header.color_count))
  let colors ← jumpTake position offset (takeVec Color.read count)
  return { header, colors }

/-- The model of `src/tables/color_palettes.rs:90-101` is its translation. -/
theorem ColorPalettes.read_eq : @ColorPalettes.read = @OpenType.cpal.ColorPalettes.read := by
  delta ColorPalettes.read OpenType.cpal.ColorPalettes.read
  simp only [Color.read_eq, Header.read_eq] <;> rfl
end cpal

end OpenType.Generated
