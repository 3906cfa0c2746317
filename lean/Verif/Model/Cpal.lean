import Verif.Prim
/-! # `src/tables/color_palettes.rs` -/

namespace OpenType.cpal

/-- `src/tables/color_palettes.rs:52-61`. -/
structure Color where
  blue : Nat
  green : Nat
  red : Nat
  alpha : Nat
deriving DecidableEq, Repr

/-- `src/tables/color_palettes.rs:52-61`. -/
def Color.read : Reader Color := do
  let blue ← u8
  let green ← u8
  let red ← u8
  let alpha ← u8
  return { blue, green, red, alpha }

/-- `src/tables/color_palettes.rs:22-35`. -/
structure Header0 where
  version : Nat
  entry_count : Nat
  palette_count : Nat
  color_count : Nat
  color_offset : Nat
  color_indices : List Nat
deriving DecidableEq, Repr

/-- `src/tables/color_palettes.rs:22-35`. -/
def Header0.read : Reader Header0 := do
  let version ← expectU16 0
  let entry_count ← u16
  let palette_count ← u16
  let color_count ← u16
  let color_offset ← u32
  let color_indices ← takeVec u16 palette_count
  return { version, entry_count, palette_count, color_count, color_offset, color_indices }

/-- `src/tables/color_palettes.rs:37-50`. -/
structure Header1 where
  version : Nat
  entry_count : Nat
  palette_count : Nat
  color_count : Nat
  color_offset : Nat
  color_indices : List Nat
deriving DecidableEq, Repr

/-- `src/tables/color_palettes.rs:37-50`. -/
def Header1.read : Reader Header1 := do
  let version ← expectU16 1
  let entry_count ← u16
  let palette_count ← u16
  let color_count ← u16
  let color_offset ← u32
  let color_indices ← takeVec u16 palette_count
  return { version, entry_count, palette_count, color_count, color_offset, color_indices }

/-- `src/tables/color_palettes.rs:13-20`. -/
inductive Header where
  | version0 (table : Header0)
  | version1 (table : Header1)
deriving DecidableEq, Repr

/-- `src/tables/color_palettes.rs:103-111`. -/
def Header.read : Reader Header := do
  match ← peek u16 with
  | 0 => return .version0 (← Header0.read)
  | 1 => return .version1 (← Header1.read)
  | value => raise ⟨"found an unknown version of the color-palette table", [value]⟩

/-- `src/tables/color_palettes.rs:7-11`. -/
structure ColorPalettes where
  header : Header
  colors : List Color
deriving DecidableEq, Repr

/-- `src/tables/color_palettes.rs:90-101`. -/
def ColorPalettes.read : Reader ColorPalettes := do
  let position ← position
  let header ← Header.read
  let (offset, count) :=
    match header with
    | .version0 header => (header.color_offset, header.color_count)
    | .version1 header => (header.color_offset, header.color_count)
  let colors ← jumpTake position offset (takeVec Color.read count)
  return { header, colors }

/-- The innermost closure of `src/tables/color_palettes.rs:82-84`. Indexing out of range panics in every
build; `debug_assert!` panics in a debug build when the index is not below `color_count`. The sum is one of
`usize`, see `addUsize`. -/
def entry (cfg : Cfg) (colors : List Color) (color_count palette_index entry_index : Nat) :
    Except Err Color :=
  let color_index := palette_index + entry_index
  if 2 ^ 32 ≤ color_index then
    .error (.panic "attempt to add with overflow")
  else if cfg.overflowChecks && !decide (color_index < color_count) then
    .error (.panic "assertion failed: color_index < color_count as usize")
  else
    match colors[color_index]? with
    | some color => .ok color
    | none => .error (.panic "index out of bounds")

/-- `src/tables/color_palettes.rs:63-88`. The lazy iterator of iterators is the list of lists of what each
item evaluates to when it is requested. -/
def ColorPalettes.iter (cfg : Cfg) (palettes : ColorPalettes) : List (List (Except Err Color)) :=
  let (entry_count, color_count, color_indices) :=
    match palettes.header with
    | .version0 header => (header.entry_count, header.color_count, header.color_indices)
    | .version1 header => (header.entry_count, header.color_count, header.color_indices)
  color_indices.map fun palette_index =>
    (List.range entry_count).map fun entry_index =>
      entry cfg palettes.colors color_count palette_index entry_index

end OpenType.cpal
