import Verif.Prim
/-! # `src/tables/font_variations/mod.rs` -/

namespace OpenType.fvar

/-- `src/tables/font_variations/mod.rs:18-31`. -/
structure Header where
  major_version : Nat
  minor_version : Nat
  axis_offset : Nat
  reserved : Nat
  axis_count : Nat
  axis_size : Nat
  instance_count : Nat
  instance_size : Nat
deriving DecidableEq, Repr

/-- `src/tables/font_variations/mod.rs:18-31`. -/
def Header.read : Reader Header := do
  let major_version ← u16
  let minor_version ← u16
  let axis_offset ← u16
  let reserved ← expectU16 2
  let axis_count ← u16
  let axis_size ← u16
  let instance_count ← u16
  let instance_size ← u16
  return { major_version, minor_version, axis_offset, reserved, axis_count, axis_size,
           instance_count, instance_size }

/-- `src/tables/font_variations/mod.rs:57-63`: the `is_invalid` mask. -/
def invalidAxisFlags : Nat := 0b1111111111111110

/-- `src/tables/font_variations/mod.rs:65-70`: the `is_invalid` mask. -/
def invalidInstanceFlags : Nat := 0b1111111111111111

/-- `src/tables/font_variations/mod.rs:60`. -/
def AxisFlags.is_hidden (flags : Nat) : Bool := flag flags 0b0000000000000001

/-- `src/tables/font_variations/mod.rs:61`. -/
def AxisFlags.is_invalid (flags : Nat) : Bool := flag flags invalidAxisFlags

/-- `src/tables/font_variations/mod.rs:68`. -/
def InstanceFlags.is_invalid (flags : Nat) : Bool := flag flags invalidInstanceFlags

/-- `src/tables/font_variations/mod.rs:33-44`. -/
structure AxisRecord where
  tag : Tag
  min_value : Int
  default_value : Int
  max_value : Int
  flags : Nat
  name_id : Nat
deriving DecidableEq, Repr

/-- `src/tables/font_variations/mod.rs:33-44`. -/
def AxisRecord.read (cfg : Cfg) : Reader AxisRecord := do
  let tag ← takeTag
  let min_value ← q32
  let default_value ← q32
  let max_value ← q32
  let flags ← flagsU16 cfg invalidAxisFlags
  let name_id ← u16
  return { tag, min_value, default_value, max_value, flags, name_id }

/-- `src/tables/font_variations/mod.rs:46-55`. -/
structure InstanceRecord where
  subfamily_name_id : Nat
  flags : Nat
  coordinates : List Int
  postscript_name_id : Nat
deriving DecidableEq, Repr

/-- `src/tables/font_variations/mod.rs:98-109`. -/
def InstanceRecord.read (cfg : Cfg) (axis_count : Nat) : Reader InstanceRecord := do
  let subfamily_name_id ← u16
  let flags ← flagsU16 cfg invalidInstanceFlags
  let coordinates ← takeVec q32 axis_count
  let postscript_name_id ← u16
  return { subfamily_name_id, flags, coordinates, postscript_name_id }

/-- `src/tables/font_variations/mod.rs:8-16`. -/
structure FontVariations where
  header : Header
  axis_records : List AxisRecord
  instance_records : List InstanceRecord
deriving DecidableEq, Repr

/-- `src/tables/font_variations/mod.rs:72-96`. -/
def FontVariations.read (cfg : Cfg) : Reader FontVariations := do
  let position ← position
  let header ← Header.read
  let position ← addU64 position header.axis_offset
  let axis_records ← forFrom (fun i => do
    let offset ← mulU64 i header.axis_size
    let q ← addU64 position offset
    jump q
    AxisRecord.read cfg) 0 header.axis_count
  let offset ← mulU64 header.axis_count header.axis_size
  let position ← addU64 position offset
  let instance_records ← forFrom (fun i => do
    let offset ← mulU64 i header.instance_size
    let q ← addU64 position offset
    jump q
    InstanceRecord.read cfg header.axis_count) 0 header.instance_count
  return { header, axis_records, instance_records }

end OpenType.fvar
