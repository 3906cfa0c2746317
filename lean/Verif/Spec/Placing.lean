import Verif.Spec.Kern
/-!
# Specification: places made of rules

What rules for pairs and for marks say about a text, and how to write the table of a font that does it, with any number of them one after
another.
-/

namespace OpenType.Spec
open OpenType

/-- Marks, each of a class and with the point by which it hangs, and bases, each with the points where marks of each of the classes go, if
there is one. -/
structure MarkRules where
  classes : Nat
  marks : List (Nat × Nat × (Int × Int))
  bases : List (Nat × List (Option (Int × Int)))

/-- The points of mark `m` and base `b` that come together, if the rules have them. The first rules count. -/
def MarkRules.at (rules : MarkRules) (m b : Nat) : Option ((Int × Int) × (Int × Int)) :=
  (rules.marks.lookup m).bind fun mark => (rules.bases.lookup b).bind fun points =>
    (points[mark.1]?.getD none).map fun point => (mark.2, point)

/-- How far back the nearest glyph is that is not a mark, and which it is. The glyphs before are given from the last to the first. -/
def baseBefore (mark : Nat → Bool) : List Nat → Option (Nat × Nat)
  | [] => none
  | g :: before => if mark g then (baseBefore mark before).map fun y => (y.1 + 1, y.2) else some (1, g)

/-- A point as an anchor. -/
def anchorAt (point : Int × Int) : gpos.Anchor := .format1 ⟨1, point.1, point.2⟩

/-- A value that moves a glyph to the side and up, and changes the advance. -/
def moveBy (v : Int × Int × Int) : gpos.Single := ⟨some v.1, some v.2.1, some v.2.2, none, none, none, none, none, none, none, none, none⟩

/-- The points where glyph `g` is left and the next is entered, if the rules have both. Each rule has the point where a glyph is entered
first. -/
def jointAt (rules : List (Nat × Option (Int × Int) × Option (Int × Int))) (g : Nat) (next : Option Nat) :
    Option ((Int × Int) × (Int × Int)) :=
  next.bind fun h => ((rules.lookup g).bind (·.2)).bind fun exit => ((rules.lookup h).bind (·.1)).map fun entry => (exit, entry)

/-- Rules for pairs of classes: the classes of the glyphs that come first and of those that come second, the first for a glyph counts, and
for each first class the values for the second ones. -/
structure ClassRules where
  firsts : List (Nat × Nat)
  seconds : List (Nat × Nat)
  width : Nat
  rows : List (List Int)

/-- What the rules say about two glyphs. All glyphs that are not among the second ones are in class zero, but only those that are among the
first ones are kerned. -/
def ClassRules.at (rules : ClassRules) (g : Nat) (next : Option Nat) : Option Int :=
  next.bind fun h => (rules.firsts.lookup g).bind fun i => rules.rows[i]?.bind fun row => row[(rules.seconds.lookup h).getD 0]?

/-- The class and the point of each mark, and for each ligature and each of its components the points where marks of the classes go, if
there are any. -/
structure LigatureRules where
  classes : Nat
  marks : List (Nat × Nat × (Int × Int))
  ligatures : List (Nat × List (List (Option (Int × Int))))

/-- The points by which mark `m` hangs on component `c` of ligature `b`, by the first rules for the two. -/
def LigatureRules.at (rules : LigatureRules) (c m b : Nat) : Option ((Int × Int) × (Int × Int)) :=
  (rules.marks.lookup m).bind fun mark => (rules.ligatures.lookup b).bind fun components =>
    components[c]?.bind fun points => (points[mark.1]?.getD none).map fun point => (mark.2, point)

/-- Rules of one kind: values for glyphs; for pairs; for pairs of classes; joints between glyphs; points where marks hang on bases; the same for marks on
ligatures, where they hang on the first component; and the same for marks on the glyphs in front of them. -/
inductive Placing
  | move (rules : List (Nat × Int × Int × Int))
  | kern (rules : List (Nat × List (Nat × Int)))
  | classes (rules : ClassRules)
  | joints (rules : List (Nat × Option (Int × Int) × Option (Int × Int)))
  | marks (rules : MarkRules)
  | ligatures (rules : LigatureRules)
  | stacks (rules : MarkRules)

/-- What they say about the place of glyph `g`, after the glyphs `before` and in front of `next`. -/
def Placing.at (mark : Nat → Bool) (before : List Nat) (g : Nat) (next : Option Nat) : Placing → List Placement
  | .move rules => (rules.lookup g).toList.map fun v => .moved (moveBy v)
  | .kern rules => (kernAt rules g next).toList.map fun v => .moved (advanceBy v)
  | .classes rules => (rules.at g next).toList.map fun v => .moved (advanceBy v)
  | .joints rules => (jointAt rules g next).toList.map fun y => .joined 1 (anchorAt y.1) (anchorAt y.2)
  | .marks rules =>
    match baseBefore mark before with
    | none => []
    | some (k, b) => (rules.at g b).toList.map fun y => .attached k (anchorAt y.1) (anchorAt y.2)
  | .ligatures rules =>
    match baseBefore mark before with
    | none => []
    | some (k, b) => (rules.at 0 g b).toList.map fun y => .attached k (anchorAt y.1) (anchorAt y.2)
  | .stacks rules => (before.head?.bind fun b => rules.at g b).toList.map fun y => .attached 1 (anchorAt y.1) (anchorAt y.2)

/-- What they say is added to what there is about each glyph. -/
def Placing.through (mark : Nat → Bool) (placing : Placing) : List Nat → List Item → List Item
  | _, [] => []
  | before, x :: text =>
    x.add (placing.at mark before x.glyph (text.head?.map Item.glyph)) :: placing.through mark (x.glyph :: before) text

/-- One after another. -/
def placingsThrough (mark : Nat → Bool) (placings : List Placing) (text : List Item) : List Item :=
  placings.foldl (fun text placing => placing.through mark [] text) text

/-! ## Writing -/

def writeAnchor (point : Int × Int) : Data := enc16 1 ++ encI16 point.1 ++ encI16 point.2

/-- The classes of the marks, with the offsets of their anchors, which begin at `o`. -/
def writeMarkRecords : Nat → List (Nat × Nat × (Int × Int)) → Data
  | _, [] => []
  | o, m :: marks => enc16 m.2.1 ++ enc16 o ++ writeMarkRecords (o + 6) marks

def writeMarks (marks : List (Nat × Nat × (Int × Int))) : Data :=
  enc16 marks.length ++ writeMarkRecords (2 + 4 * marks.length) marks ++ marks.flatMap fun m => writeAnchor m.2.2

/-- The points that there are. -/
def points (cells : List (Option (Int × Int))) : List (Int × Int) := cells.filterMap id

/-- The offsets of their anchors, which begin at `o`, and zeros where there is none. -/
def cellPlaces : Nat → List (Option (Int × Int)) → List Nat
  | _, [] => []
  | o, none :: cells => 0 :: cellPlaces o cells
  | o, some _ :: cells => o :: cellPlaces (o + 6) cells

def writeBases (bases : List (Nat × List (Option (Int × Int)))) : Data :=
  enc16 bases.length ++ enc16s (cellPlaces (2 + 2 * (bases.flatMap (·.2)).length) (bases.flatMap (·.2))) ++
    (points (bases.flatMap (·.2))).flatMap writeAnchor

/-- The subtable: the header, the marks, the bases, and what they have. -/
def MarkRules.bytes (rules : MarkRules) : Data :=
  let c₁ := writeCoverage (rules.marks.map (·.1))
  let c₂ := writeCoverage (rules.bases.map (·.1))
  let m := writeMarks rules.marks
  enc16 1 ++ enc16 12 ++ enc16 (12 + c₁.length) ++ enc16 rules.classes ++ enc16 (12 + c₁.length + c₂.length) ++
    enc16 (12 + c₁.length + c₂.length + m.length) ++ c₁ ++ c₂ ++ m ++ writeBases rules.bases

/-- The components of a ligature, each as a base. -/
def writeComponents (components : List (List (Option (Int × Int)))) : Data := writeBases (components.map fun cells => (0, cells))

def writeLigatureArray (ligatures : List (Nat × List (List (Option (Int × Int))))) : Data :=
  enc16 ligatures.length ++ enc16s (placesFrom (2 + 2 * ligatures.length) (ligatures.map fun l => writeComponents l.2)) ++
    (ligatures.map fun l => writeComponents l.2).flatten

/-- The subtable. -/
def LigatureRules.bytes (rules : LigatureRules) : Data :=
  let c₁ := writeCoverage (rules.marks.map (·.1))
  let c₂ := writeCoverage (rules.ligatures.map (·.1))
  let m := writeMarks rules.marks
  enc16 1 ++ enc16 12 ++ enc16 (12 + c₁.length) ++ enc16 rules.classes ++ enc16 (12 + c₁.length + c₂.length) ++
    enc16 (12 + c₁.length + c₂.length + m.length) ++ c₁ ++ c₂ ++ m ++ writeLigatureArray rules.ligatures

/-- The subtable with values for glyphs: all have the first three fields, and no others. -/
def writeMoves (rules : List (Nat × Int × Int × Int)) : Data :=
  enc16 2 ++ enc16 (8 + 6 * rules.length) ++ enc16 7 ++ enc16 rules.length ++
    (rules.flatMap fun r => encI16 r.2.1 ++ encI16 r.2.2.1 ++ encI16 r.2.2.2) ++ writeCoverage (rules.map (·.1))

/-- Classes of glyphs: ranges of one glyph each. -/
def writeClassRanges (classes : List (Nat × Nat)) : Data :=
  enc16 2 ++ enc16 classes.length ++ classes.flatMap fun c => enc16 c.1 ++ enc16 c.1 ++ enc16 c.2

/-- The subtable for pairs of classes: a table of values, with the advance of the first glyph only, and the first glyphs and both classes. -/
def ClassRules.bytes (rules : ClassRules) : Data :=
  let o := 16 + 2 * (rules.rows.length * rules.width)
  let c := writeCoverage (rules.firsts.map (·.1))
  let classes := writeClassRanges rules.firsts
  enc16 2 ++ enc16 o ++ enc16 4 ++ enc16 0 ++ enc16 (o + c.length) ++ enc16 (o + c.length + classes.length) ++ enc16 rules.rows.length ++
    enc16 rules.width ++ (rules.rows.flatMap fun row => row.flatMap encI16) ++ c ++ classes ++ writeClassRanges rules.seconds

/-- Classes are of those there are, with class zero among them, numbers are of 16 bits, and all fits a subtable. -/
structure ClassRules.Fine (rules : ClassRules) : Prop where
  firsts : ∀ c ∈ rules.firsts, c.1 < 65536 ∧ c.2 < rules.rows.length
  seconds : ∀ c ∈ rules.seconds, c.1 < 65536 ∧ c.2 < rules.width
  width : 0 < rules.width ∧ rules.width < 65536
  rows : ∀ row ∈ rules.rows, row.length = rules.width ∧ ∀ v ∈ row, -32768 ≤ v ∧ v < 32768
  length : rules.bytes.length < 65536

/-- The subtable with joints. -/
def writeJoints (rules : List (Nat × Option (Int × Int) × Option (Int × Int))) : Data :=
  let c := writeCoverage (rules.map (·.1))
  let cells := rules.flatMap fun r => [r.2.1, r.2.2]
  enc16 1 ++ enc16 (6 + 4 * rules.length) ++ enc16 rules.length ++ enc16s (cellPlaces (6 + 4 * rules.length + c.length) cells) ++ c ++
    (points cells).flatMap writeAnchor

/-- A point with coordinates of 16 bits. -/
def PointFine (point : Int × Int) : Prop := (-32768 ≤ point.1 ∧ point.1 < 32768) ∧ -32768 ≤ point.2 ∧ point.2 < 32768

/-- Glyphs, classes and coordinates are numbers of 16 bits, marks are of one of the classes, bases have as many points as there are
classes, and the rules fit a subtable. -/
structure MarkRules.Fine (rules : MarkRules) : Prop where
  classes : rules.classes < 65536
  marks : ∀ m ∈ rules.marks, m.1 < 65536 ∧ m.2.1 < rules.classes ∧ PointFine m.2.2
  bases : ∀ b ∈ rules.bases, b.1 < 65536 ∧ b.2.length = rules.classes ∧ ∀ point, some point ∈ b.2 → PointFine point
  length : rules.bytes.length < 65536

/-- Numbers are of 16 bits, marks are of one of the classes, components have as many points as there are classes, and the rules fit a
subtable. -/
structure LigatureRules.Fine (rules : LigatureRules) : Prop where
  classes : rules.classes < 65536
  marks : ∀ m ∈ rules.marks, m.1 < 65536 ∧ m.2.1 < rules.classes ∧ PointFine m.2.2
  ligatures : ∀ l ∈ rules.ligatures, l.1 < 65536 ∧ l.2.length < 65536 ∧
    ∀ cells ∈ l.2, cells.length = rules.classes ∧ ∀ point, some point ∈ cells → PointFine point
  length : rules.bytes.length < 65536

def Placing.type_ : Placing → Nat
  | .move _ => 1
  | .kern _ => 2
  | .classes _ => 2
  | .joints _ => 3
  | .marks _ => 4
  | .ligatures _ => 5
  | .stacks _ => 6

def Placing.bytes : Placing → Data
  | .move rules => writeMoves rules
  | .kern rules => writeKern rules
  | .classes rules => rules.bytes
  | .joints rules => writeJoints rules
  | .marks rules => rules.bytes
  | .ligatures rules => rules.bytes
  | .stacks rules => rules.bytes

def Placing.Fine : Placing → Prop
  | .move rules => (∀ r ∈ rules, r.1 < 65536 ∧ PointFine (r.2.1, r.2.2.1) ∧ -32768 ≤ r.2.2.2 ∧ r.2.2.2 < 32768) ∧
    (writeMoves rules).length < 65536
  | .kern rules => KernFine rules
  | .classes rules => rules.Fine
  | .joints rules => (∀ r ∈ rules, r.1 < 65536 ∧ (∀ point, r.2.1 = some point → PointFine point) ∧ ∀ point, r.2.2 = some point → PointFine point) ∧
    (writeJoints rules).length < 65536
  | .marks rules => rules.Fine
  | .ligatures rules => rules.Fine ∧ ∀ l ∈ rules.ligatures, l.2 ≠ []
  | .stacks rules => rules.Fine

/-- The table with a lookup for each. -/
def compilePlacings (script feature : Tag) (placings : List Placing) : Data :=
  assemble 9 (writeScript script) (writeFeature feature placings.length)
    (placings.map fun placing => ⟨placing.type_, 0, none, [placing.bytes]⟩)

end OpenType.Spec
