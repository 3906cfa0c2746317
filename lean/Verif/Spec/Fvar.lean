import Verif.Model.Fvar
import Verif.Spec.Basic
/-! # Specification: the font variations -/

namespace OpenType.Spec
open OpenType fvar

/-- The fvar header. -/
def IsFvarHeader (d : Data) (p : Nat) (t : fvar.Header) : Prop :=
  U16 d p t.major_version ∧ U16 d (p + 2) t.minor_version ∧ U16 d (p + 4) t.axis_offset ∧
    U16 d (p + 6) t.reserved ∧ t.reserved = 2 ∧ U16 d (p + 8) t.axis_count ∧
    U16 d (p + 10) t.axis_size ∧ U16 d (p + 12) t.instance_count ∧ U16 d (p + 14) t.instance_size

/-- VariationAxisRecord. -/
def IsAxis (cfg : Cfg) (d : Data) (p : Nat) (t : AxisRecord) : Prop :=
  U32 d p t.tag ∧ I32 d (p + 4) t.min_value ∧ I32 d (p + 8) t.default_value ∧
    I32 d (p + 12) t.max_value ∧ U16 d (p + 16) t.flags ∧ FlagsOk cfg 0xFFFE t.flags ∧
    U16 d (p + 18) t.name_id

/-- InstanceRecord with a PostScript name, for the given number of axes. -/
def IsInstance (cfg : Cfg) (axis_count : Nat) (d : Data) (p : Nat) (t : InstanceRecord) : Prop :=
  U16 d p t.subfamily_name_id ∧ U16 d (p + 2) t.flags ∧ FlagsOk cfg 0xFFFF t.flags ∧
    ArrayOf (I32 d) 4 (p + 4) axis_count t.coordinates ∧
    U16 d (p + 4 + 4 * axis_count) t.postscript_name_id

/-- InstanceRecord without a PostScript name, for the given number of axes: `instanceSize` is then
`4 + 4 * axisCount`. -/
def IsShortInstance (cfg : Cfg) (axis_count : Nat) (d : Data) (p : Nat) (name flags : Nat)
    (coordinates : List Int) : Prop :=
  U16 d p name ∧ U16 d (p + 2) flags ∧ FlagsOk cfg 0xFFFF flags ∧
    ArrayOf (I32 d) 4 (p + 4) axis_count coordinates

/-- The fvar table: the axes from `axesArrayOffset` on, `axisSize` bytes apart, then the instances,
`instanceSize` bytes apart. -/
def IsFontVariations (cfg : Cfg) (d : Data) (p : Nat) (t : FontVariations) : Prop :=
  IsFvarHeader d p t.header ∧
    ArrayOf (IsAxis cfg d) t.header.axis_size (p + t.header.axis_offset) t.header.axis_count
      t.axis_records ∧
    ArrayOf (IsInstance cfg t.header.axis_count d) t.header.instance_size
      (p + t.header.axis_offset + t.header.axis_count * t.header.axis_size)
      t.header.instance_count t.instance_records

end OpenType.Spec
