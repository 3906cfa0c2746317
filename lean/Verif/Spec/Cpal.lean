import Verif.Model.Cpal
import Verif.Spec.Basic
/-! # Specification: the color palettes -/

namespace OpenType.Spec
open OpenType cpal

/-- ColorRecord. -/
def IsColor (d : Data) (p : Nat) (t : Color) : Prop :=
  U8 d p t.blue ∧ U8 d (p + 1) t.green ∧ U8 d (p + 2) t.red ∧ U8 d (p + 3) t.alpha

/-- The CPAL header, version 0. -/
def IsCpalHeader0 (d : Data) (p : Nat) (t : Header0) : Prop :=
  U16 d p t.version ∧ t.version = 0 ∧ U16 d (p + 2) t.entry_count ∧ U16 d (p + 4) t.palette_count ∧
    U16 d (p + 6) t.color_count ∧ U32 d (p + 8) t.color_offset ∧
    U16s d (p + 12) t.palette_count t.color_indices

/-- The CPAL header, version 1, up to the color indices. -/
def IsCpalHeader1 (d : Data) (p : Nat) (t : Header1) : Prop :=
  U16 d p t.version ∧ t.version = 1 ∧ U16 d (p + 2) t.entry_count ∧ U16 d (p + 4) t.palette_count ∧
    U16 d (p + 6) t.color_count ∧ U32 d (p + 8) t.color_offset ∧
    U16s d (p + 12) t.palette_count t.color_indices

/-- The CPAL header. -/
def IsCpalHeader (d : Data) (p : Nat) : cpal.Header → Prop
  | .version0 t => IsCpalHeader0 d p t
  | .version1 t => IsCpalHeader1 d p t

/-- The CPAL table: the colors are four bytes each from `colorRecordsArrayOffset` on. -/
def IsColorPalettes (d : Data) (p : Nat) (t : ColorPalettes) : Prop :=
  IsCpalHeader d p t.header ∧
    match t.header with
    | .version0 h => ArrayOf (IsColor d) 4 (p + h.color_offset) h.color_count t.colors
    | .version1 h => ArrayOf (IsColor d) 4 (p + h.color_offset) h.color_count t.colors

end OpenType.Spec
