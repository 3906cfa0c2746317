import Verif.Spec.Apply
import Verif.Spec.Gdef
/-!
# Specification: what a glyph definition tells about a glyph

What the bytes of a GDEF table say about a glyph, and the programs with which a user of the crate finds it out from the value
that is read (see `Spec/Apply.lean`).
-/

namespace OpenType.Spec
open OpenType

/-! ## In bytes -/

/-- Glyph `g` is of class `k` by the definition whose offset from `p` is stored at `a`; without definition it is of class 0. -/
def ClassAt (d : Data) (p a g k : Nat) : Prop :=
  ∃ offset, U16 d a offset ∧ if offset = 0 then k = 0 else ClassedAs d (p + offset) g k

/-- The class of glyph `g` (base, ligature, mark or component) by the GDEF table at `p`. -/
def GlyphClass (d : Data) (p g k : Nat) : Prop := ClassAt d p (p + 4) g k

/-- The class of mark `g` by the GDEF table at `p`. -/
def MarkClass (d : Data) (p g k : Nat) : Prop := ClassAt d p (p + 10) g k

/-- The list of attachment points of the GDEF table at `p` is at `s` and has number `i` of `n` for glyph `g`. -/
def PointsAt (d : Data) (p g s i n : Nat) : Prop :=
  ∃ offset coverage, U16 d (p + 6) offset ∧ offset ≠ 0 ∧ s = p + offset ∧ U16 d s coverage ∧ CoveredAs d (s + coverage) g i ∧
    U16 d (s + 2) n

/-- The attachment points of glyph `g` by the GDEF table at `p`. -/
def PointsOf (d : Data) (p g : Nat) (points : List Nat) : Prop :=
  ∃ s i n offset, PointsAt d p g s i n ∧ i < n ∧ U16 d (s + 4 + 2 * i) offset ∧ GlyphsAt d (s + offset) points

/-- The GDEF table at `p` has no attachment points for glyph `g` although it should. -/
def MissingPoints (d : Data) (p g : Nat) : Prop := ∃ s i n, PointsAt d p g s i n ∧ n ≤ i

/-- Glyph `g` is in mark set `k` of the GDEF table at `p`; there are mark sets from version 1.2 on. -/
def InMarkSet (d : Data) (p k g : Nat) : Prop :=
  ∃ minor offset n coverage i, U16 d (p + 2) minor ∧ 2 ≤ minor ∧ U16 d (p + 12) offset ∧ offset ≠ 0 ∧
    U16 d (p + offset + 2) n ∧ k < n ∧ U32 d (p + offset + 4 + 4 * k) coverage ∧ CoveredAs d (p + offset + coverage) g i

/-! ## Programs -/

/-- The class of a glyph by a definition that may be absent. -/
def classIn (t : Option class_.Class) (g : Nat) : Nat := (t.map (classOf · g)).getD 0

/-- The attachment points of a glyph. -/
def pointsOf (t : gdef.GlyphDefinition) (g : Nat) : Except Err (Option (List Nat)) :=
  match t.attachments with
  | none => .ok none
  | some attachments => do return (← entryOf attachments.coverage attachments.records g).map (·.indices)

/-- Whether a glyph is in a mark set. -/
def inMarkSet (t : gdef.GlyphDefinition) (k g : Nat) : Bool :=
  match t.marks with
  | none => false
  | some marks =>
    match marks.coverages[k]? with
    | none => false
    | some coverage => (indexOf coverage g).isSome

end OpenType.Spec
