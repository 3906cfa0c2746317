import Verif.Spec.Apply
/-!
# Specification: how marks and letters are attached

What the bytes of cursive attachments and of attachments of marks to bases, ligatures and marks say about glyphs, and the
programs with which a user of the crate finds it out from the values that are read (see `Spec/Apply.lean`).
-/

namespace OpenType.Spec
open OpenType coverage

/-! ## In bytes -/

/-- The subtable at `p`, which has the offset of a coverage at `p + k`, covers glyph `g`, with number `i`. -/
def CoveredVia (d : Data) (p k g i : Nat) : Prop := ∃ offset, U16 d (p + k) offset ∧ CoveredAs d (p + offset) g i

/-- The cursive attachment at `p` has a place where glyph `g` is entered and one where it is left, each of which may be
absent. -/
def ConnectedBy (d : Data) (p g : Nat) (entry exit : Option gpos.Anchor) : Prop :=
  ∃ i n a b, CoveredIn d p g i ∧ U16 d (p + 4) n ∧ i < n ∧ U16 d (p + 6 + 4 * i) a ∧ U16 d (p + 6 + 4 * i + 2) b ∧
    Optional (gpos.IsAnchor d) p a entry ∧ Optional (gpos.IsAnchor d) p b exit

/-- Mark `i` of the array of marks at `s` is of class `k` and has the anchor `x`. -/
def MarkIn (cfg : Cfg) (d : Data) (s i k : Nat) (x : gpos.Anchor) : Prop :=
  ∃ n offset, U16 d s n ∧ i < n ∧ U16 d (s + 2 + 4 * i) k ∧ U16 d (s + 2 + 4 * i + 2) offset ∧
    gpos.IsMarkAnchor cfg d s offset x

/-- The anchor, which may be absent, for class `k` in row `j` of the array at `s`, whose rows have a column for each of
`classes`. -/
def AnchorIn (d : Data) (s classes j k : Nat) (x : Option gpos.Anchor) : Prop :=
  ∃ n offset, U16 d s n ∧ j < n ∧ k < classes ∧ U16 d (s + 2 + 2 * (classes * j + k)) offset ∧
    Optional (gpos.IsAnchor d) s offset x

/-- The array at `s` has no row `j`, or no column for class `k`. -/
def NoAnchorIn (d : Data) (s classes j k : Nat) : Prop := ∃ n, U16 d s n ∧ (n ≤ j ∨ classes ≤ k)

/-- The attachment at `p` brings the anchor `x` of mark `m` to the anchor `y` of glyph `b`. Here `A s classes j k` has the
anchors of the glyph with number `j` for class `k`. -/
def AttachedBy (cfg : Cfg) (A : Nat → Nat → Nat → Nat → Option gpos.Anchor → Prop) (d : Data) (p m b : Nat)
    (x y : gpos.Anchor) : Prop :=
  ∃ i j k classes marks others, CoveredVia d p 2 m i ∧ CoveredVia d p 4 b j ∧ U16 d (p + 6) classes ∧
    U16 d (p + 8) marks ∧ U16 d (p + 10) others ∧ MarkIn cfg d (p + marks) i k x ∧ A (p + others) classes j k (some y)

/-- The attachment at `p` covers both glyphs but has no such mark or no place for an anchor of its class. -/
def MissingAnchor (cfg : Cfg) (B : Nat → Nat → Nat → Nat → Prop) (d : Data) (p m b : Nat) : Prop :=
  ∃ i j classes marks others, CoveredVia d p 2 m i ∧ CoveredVia d p 4 b j ∧ U16 d (p + 6) classes ∧
    U16 d (p + 8) marks ∧ U16 d (p + 10) others ∧
    ((∃ n, U16 d (p + marks) n ∧ n ≤ i) ∨ ∃ k x, MarkIn cfg d (p + marks) i k x ∧ B (p + others) classes j k)

/-- The anchors of component `c` of a ligature: each ligature has an array of its own. -/
def ComponentIn (d : Data) (c s classes j k : Nat) (x : Option gpos.Anchor) : Prop :=
  ∃ n offset, U16 d s n ∧ j < n ∧ U16 d (s + 2 + 2 * j) offset ∧ AnchorIn d (s + offset) classes c k x

/-- There is no such ligature, component or class. -/
def NoComponentIn (d : Data) (c s classes j k : Nat) : Prop :=
  ∃ n, U16 d s n ∧ (n ≤ j ∨ j < n ∧ ∃ offset, U16 d (s + 2 + 2 * j) offset ∧ NoAnchorIn d (s + offset) classes c k)

/-! ## Programs -/

/-- Where a glyph is entered and left. -/
def connect (t : gpos.CursiveAttachment) (g : Nat) : Except Err (Option (Option gpos.Anchor × Option gpos.Anchor)) := do
  return (← entryOf t.coverage t.connections g).map fun c => (c.start_anchor, c.end_anchor)

/-- The anchor of a mark and that of the glyph it is attached to. -/
def anchors (markCoverage coverage : Coverage) (marks : List gpos.Mark1)
    (anchor : Nat → Nat → Except Err (Option gpos.Anchor)) (m b : Nat) : Except Err (Option (gpos.Anchor × gpos.Anchor)) :=
  match indexOf markCoverage m, indexOf coverage b with
  | some i, some j => do
    let mark ← element marks i
    let anchor ← anchor j mark.class_id
    return anchor.map fun anchor => (mark.anchor, anchor)
  | _, _ => .ok none

/-- Attaching a mark to a base. -/
def attachToBase (t : gpos.MarkToBaseAttachment) : Nat → Nat → Except Err (Option (gpos.Anchor × gpos.Anchor)) :=
  anchors t.mark_coverage t.base_coverage t.marks.records fun j k => do element (← element t.bases.records j).anchors k

/-- Attaching a mark to another mark. -/
def attachToMark (t : gpos.MarkToMarkAttachment) : Nat → Nat → Except Err (Option (gpos.Anchor × gpos.Anchor)) :=
  anchors t.mark1_coverage t.mark2_coverage t.mark1s.records fun j k => do element (← element t.mark2s.records j).anchors k

/-- Attaching a mark to component `c` of a ligature. -/
def attachToLigature (t : gpos.MarkToLigatureAttachment) (c : Nat) :
    Nat → Nat → Except Err (Option (gpos.Anchor × gpos.Anchor)) :=
  anchors t.mark_coverage t.ligature_coverage t.marks.records fun j k => do
    let ligature ← element t.ligatures.records j
    element (← element ligature.components c).anchors k

end OpenType.Spec
