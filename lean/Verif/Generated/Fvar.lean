import Verif.Model.Fvar
/-!
# Generated by `tools/translate.py` from the source: do not edit

Each definition is the translation of the code at the lines given, and each theorem says that the definition
of the model written by hand is the same.
-/

set_option linter.unusedVariables false

namespace OpenType.Generated

namespace fvar
/-- `src/tables/font_variations/mod.rs:60`. -/
def AxisFlags.is_hidden (flags : Nat) : Bool := flag flags 0b0000000000000001

/-- The model of `src/tables/font_variations/mod.rs:60` is its translation. -/
theorem AxisFlags.is_hidden_eq : @AxisFlags.is_hidden = @OpenType.fvar.AxisFlags.is_hidden := rfl
end fvar

namespace fvar
/-- `src/tables/font_variations/mod.rs:61`. -/
def AxisFlags.is_invalid (flags : Nat) : Bool := flag flags 0b1111111111111110

/-- The model of `src/tables/font_variations/mod.rs:61` is its translation. -/
theorem AxisFlags.is_invalid_eq : @AxisFlags.is_invalid = @OpenType.fvar.AxisFlags.is_invalid := rfl
end fvar

namespace fvar
/-- `src/tables/font_variations/mod.rs:57-63`. -/
def AxisFlags.read (cfg : Cfg) : Reader Nat := flagsU16 cfg 0b1111111111111110

/-- The model of `src/tables/font_variations/mod.rs:57-63` is its translation. -/
theorem AxisFlags.read_eq : @AxisFlags.read = (fun cfg => flagsU16 cfg OpenType.fvar.invalidAxisFlags) := rfl
end fvar

namespace fvar
/-- `src/tables/font_variations/mod.rs:33-44`. -/
def AxisRecord.read (cfg : Cfg) : Reader fvar.AxisRecord := do
  let tag ← takeTag
  let min_value ← q32
  let default_value ← q32
  let max_value ← q32
  let flags ← AxisFlags.read cfg
  let name_id ← u16
  return { tag, min_value, default_value, max_value, flags, name_id }

/-- The model of `src/tables/font_variations/mod.rs:33-44` is its translation. -/
theorem AxisRecord.read_eq : @AxisRecord.read = @OpenType.fvar.AxisRecord.read := by
  delta AxisRecord.read OpenType.fvar.AxisRecord.read
  simp only [AxisFlags.read_eq] <;> rfl
end fvar

namespace fvar
/-- `src/tables/font_variations/mod.rs:18-31`. -/
def Header.read : Reader fvar.Header := do
  let major_version ← u16
  let minor_version ← u16
  let axis_offset ← u16
  let reserved ← expectU16 2
  let axis_count ← u16
  let axis_size ← u16
  let instance_count ← u16
  let instance_size ← u16
  return { major_version, minor_version, axis_offset, reserved, axis_count, axis_size, instance_count, instance_size }

/-- The model of `src/tables/font_variations/mod.rs:18-31` is its translation. -/
theorem Header.read_eq : @Header.read = @OpenType.fvar.Header.read := rfl
end fvar

namespace fvar
/-- `src/tables/font_variations/mod.rs:68`. -/
def InstanceFlags.is_invalid (flags : Nat) : Bool := flag flags 0b1111111111111111

/-- The model of `src/tables/font_variations/mod.rs:68` is its translation. -/
theorem InstanceFlags.is_invalid_eq : @InstanceFlags.is_invalid = @OpenType.fvar.InstanceFlags.is_invalid := rfl
end fvar

namespace fvar
/-- `src/tables/font_variations/mod.rs:65-70`. -/
def InstanceFlags.read (cfg : Cfg) : Reader Nat := flagsU16 cfg 0b1111111111111111

/-- The model of `src/tables/font_variations/mod.rs:65-70` is its translation. -/
theorem InstanceFlags.read_eq : @InstanceFlags.read = (fun cfg => flagsU16 cfg OpenType.fvar.invalidInstanceFlags) := rfl
end fvar

namespace fvar
/-- `src/tables/font_variations/mod.rs:98-109`. -/
def InstanceRecord.read (cfg : Cfg) (axis_count : Nat) : Reader fvar.InstanceRecord := do
  let t1 ← u16
  let t2 ← InstanceFlags.read cfg
  let t3 ← takeVec q32 axis_count
  let t4 ← u16
  return { subfamily_name_id := t1, flags := t2, coordinates := t3, postscript_name_id := t4 }

/-- The model of `src/tables/font_variations/mod.rs:98-109` is its translation. -/
theorem InstanceRecord.read_eq : @InstanceRecord.read = @OpenType.fvar.InstanceRecord.read := by
  delta InstanceRecord.read OpenType.fvar.InstanceRecord.read
  simp only [InstanceFlags.read_eq] <;> rfl
end fvar

namespace fvar
/-- `src/tables/font_variations/mod.rs:72-96`. -/
def FontVariations.read (cfg : Cfg) : Reader fvar.FontVariations := do
  let position ← position
  let header ← Header.read
  let position ← addU64 position header.axis_offset
  let axis_records ←
    forFrom (fun i => do
      let t4 ← mulU64 i header.axis_size
      let t5 ← addU64 position t4
      jump t5
      AxisRecord.read cfg) 0 header.axis_count
  let t8 ← mulU64 header.axis_count header.axis_size
  let position ← addU64 position t8
  let instance_records ←
    forFrom (fun i => do
      let t10 ← mulU64 i header.instance_size
      let t11 ← addU64 position t10
      jump t11
      InstanceRecord.read cfg header.axis_count) 0 header.instance_count
  return { header, axis_records, instance_records }

/-- The model of `src/tables/font_variations/mod.rs:72-96` is its translation. -/
theorem FontVariations.read_eq : @FontVariations.read = @OpenType.fvar.FontVariations.read := by
  delta FontVariations.read OpenType.fvar.FontVariations.read
  simp only [AxisRecord.read_eq, Header.read_eq, InstanceRecord.read_eq] <;> rfl
end fvar

end OpenType.Generated
