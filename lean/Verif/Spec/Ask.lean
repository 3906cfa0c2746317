import Verif.Spec.Cpal
import Verif.Spec.Fvar
import Verif.Spec.Typeset
/-!
# Specification: from a file to its colors and instances

What the bytes of a file say about the colors of its palettes and about its axes and instances, from the first byte on; and the
programs with which a user of the crate finds it out, which begin with a tape and nothing else.
-/

namespace OpenType.Spec
open OpenType
open OpenType.Props (TableAt)

/-! ## In bytes -/

/-- The CPAL table at `p` has that many palettes of that many entries. -/
def PaletteShape (d : Data) (p palettes entries : Nat) : Prop := U16 d (p + 2) entries ∧ U16 d (p + 4) palettes

/-- The CPAL table at `p` has the color for entry `j` of palette `i`. -/
def Colored (d : Data) (p i j : Nat) (color : cpal.Color) : Prop :=
  ∃ palettes entries colors offset start, PaletteShape d p palettes entries ∧ i < palettes ∧ j < entries ∧
    U16 d (p + 6) colors ∧ U32 d (p + 8) offset ∧ U16 d (p + 12 + 2 * i) start ∧ start + j < colors ∧
    IsColor d (p + offset + 4 * (start + j)) color

/-- The CPAL table at `p` has entry `j` of palette `i`, but it is none of the colors. -/
def Uncolored (d : Data) (p i j : Nat) : Prop :=
  ∃ palettes entries colors start, PaletteShape d p palettes entries ∧ i < palettes ∧ j < entries ∧
    U16 d (p + 6) colors ∧ U16 d (p + 12 + 2 * i) start ∧ colors ≤ start + j

/-- Where the fvar table at `p` has axis `i`. -/
def AxisAt (d : Data) (p i a : Nat) : Prop :=
  ∃ offset axes size, U16 d (p + 4) offset ∧ U16 d (p + 8) axes ∧ U16 d (p + 10) size ∧ i < axes ∧ a = p + offset + i * size

/-- The first axis with the tag is number `i`, at `a`. -/
def AxisWith (d : Data) (p : Nat) (tag : Tag) (i a : Nat) : Prop :=
  AxisAt d p i a ∧ U32 d a tag ∧ ∀ i' a', i' < i → AxisAt d p i' a' → ¬U32 d a' tag

/-- No axis has the tag. -/
def NoAxisWith (d : Data) (p : Nat) (tag : Tag) : Prop := ∀ i a, AxisAt d p i a → ¬U32 d a tag

/-- Where the fvar table at `p` has instance `j`. -/
def InstanceAt (d : Data) (p j a : Nat) : Prop :=
  ∃ offset axes axisSize instances size, U16 d (p + 4) offset ∧ U16 d (p + 8) axes ∧ U16 d (p + 10) axisSize ∧
    U16 d (p + 12) instances ∧ U16 d (p + 14) size ∧ j < instances ∧ a = p + offset + axes * axisSize + j * size

/-- On the axis with the tag, instance `j` is at `x`. -/
def Coordinate (d : Data) (p j : Nat) (tag : Tag) (x : Int) : Prop :=
  ∃ i a b, AxisWith d p tag i a ∧ InstanceAt d p j b ∧ I32 d (b + 4 + 4 * i) x

/-- Of the places on the axis with the tag, `x` is the nearest to `v`: the place itself from the least to the greatest value of the
axis, the least value below it, and the greatest otherwise. -/
def NearestOn (d : Data) (p : Nat) (tag : Tag) (v x : Int) : Prop :=
  ∃ i a least greatest, AxisWith d p tag i a ∧ I32 d (a + 4) least ∧ I32 d (a + 12) greatest ∧
    ((v < least ∧ x = least) ∨ (least ≤ v ∧ v ≤ greatest ∧ x = v) ∨ (least ≤ v ∧ greatest < v ∧ x = greatest))

/-! ## Programs -/

/-- The file is opened, the table is taken from its first font, if it is there, and something is found out from it. -/
def ask {α β : Type} (accept : Tag → Bool) (cfg : Cfg) (table : TableType) (r : Reader α) (f : α → Except Err (Option β)) :
    Reader (Option β) := do
  let file ← File.read accept
  match file.fonts with
  | [] => return none
  | font :: _ => do
    match ← tableOf cfg font table r with
    | none => return none
    | some (_, t) =>
      match f t with
      | .error e => .fail e
      | .ok y => return y

/-- The color of an entry of a palette, by iteration. -/
def colorIn (cfg : Cfg) (i j : Nat) (t : cpal.ColorPalettes) : Except Err (Option cpal.Color) :=
  match (t.iter cfg)[i]? with
  | none => .ok none
  | some palette =>
    match palette[j]? with
    | none => .ok none
    | some item => some <$> item

/-- The color of an entry of a palette. -/
def colorOf (accept : Tag → Bool) (cfg : Cfg) (i j : Nat) : Reader (Option cpal.Color) :=
  ask accept cfg .colorPalettes cpal.ColorPalettes.read (colorIn cfg i j)

/-- The first axis with the tag. -/
def axisIn (tag : Tag) (t : fvar.FontVariations) : Option Nat := t.axis_records.findIdx? (·.tag == tag)

/-- Where an instance is on the axis with the tag. -/
def coordinateIn (j : Nat) (tag : Tag) (t : fvar.FontVariations) : Except Err (Option Int) :=
  match axisIn tag t, t.instance_records[j]? with
  | some i, some x => some <$> element x.coordinates i
  | _, _ => .ok none

/-- Where an instance is on the axis with the tag. -/
def coordinateOf (accept : Tag → Bool) (cfg : Cfg) (j : Nat) (tag : Tag) : Reader (Option Int) :=
  ask accept cfg .fontVariations (fvar.FontVariations.read cfg) (coordinateIn j tag)

/-- A place is brought into the range of the axis with the tag. -/
def clampIn (tag : Tag) (v : Int) (t : fvar.FontVariations) : Except Err (Option Int) :=
  match t.axis_records.find? (·.tag == tag) with
  | none => .ok none
  | some axis => .ok (some (if v < axis.min_value then axis.min_value else if axis.max_value < v then axis.max_value else v))

/-- A place is brought into the range of the axis with the tag. -/
def clampOf (accept : Tag → Bool) (cfg : Cfg) (tag : Tag) (v : Int) : Reader (Option Int) :=
  ask accept cfg .fontVariations (fvar.FontVariations.read cfg) (clampIn tag v)

end OpenType.Spec
