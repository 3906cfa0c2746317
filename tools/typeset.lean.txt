import Verif
open OpenType Spec
def slice (f : String) (o n : Nat) : IO Data := do
  let b ← IO.FS.readBinFile (System.FilePath.mk "/repo/tests/fixtures" / f)
  return (b.extract o (o + n)).toList
def run {α} (r : Reader α) (d : Data) : Except Err α := (r d 0).map (·.1)
def cfg : Cfg := ⟨false, false, false, false, true, false⟩
def go (f : String) (gs gl ps pl : Nat) (text : List Nat) : IO Unit := do
  IO.println f
  let s ← slice f gs gl
  let latn := tag4 'l' 'a' 't' 'n'
  match run (gsub.GlyphSubstitution.read cfg) s with
  | .error e => IO.println (repr e)
  | .ok t =>
    match run (shape 0 t (fun _ _ => false) latn (tag4 'D' 'E' 'U' ' ') [tag4 'l' 'i' 'g' 'a'] text) s with
    | .error e => IO.println s!"shape {repr e}"
    | .ok x =>
      IO.println s!"{x}"
      let s ← slice f ps pl
      match run (gpos.GlyphPositioning.read cfg) s with
      | .error e => IO.println (repr e)
      | .ok t =>
        match run (positionText cfg 0 t (fun _ _ => false) latn (tag4 'D' 'E' 'U' ' ') [tag4 'k' 'e' 'r' 'n'] x) s with
        | .error e => IO.println s!"position {repr e}"
        | .ok x => IO.println s!"{x.map fun y => (y.1, y.2.map (·.x_advance))}"
def context (f : String) (gs gl : Nat) (tag : Tag) (text : List Nat) : IO Unit := do
  let s ← slice f gs gl
  match run (do
      let t ← gsub.GlyphSubstitution.read cfg
      shapeText 0 t (fun _ _ => false) 6 (tag4 'l' 'a' 't' 'n') (tag4 'D' 'E' 'U' ' ') [tag] text) s with
  | .error e => IO.println s!"shape {repr e}"
  | .ok x => IO.println s!"{f} {x}"
def anchor : gpos.Anchor → Int × Int
  | .format1 t => (t.x, t.y)
  | .format2 t => (t.x, t.y)
  | .format3 t => (t.x, t.y)
def placement : Placement → String
  | .moved v => s!"moved {v.x_advance}"
  | .attached k a b => s!"attached {k} {anchor a} {anchor b}"
  | .joined k a b => s!"joined {k} {anchor a} {anchor b}"
def settling (f : String) (ps pl : Nat) (marks : List Nat) (tags : List Tag) (text : List (Nat × Nat)) : IO Unit := do
  let s ← slice f ps pl
  match run (do
      let t ← gpos.GlyphPositioning.read cfg
      settleText cfg 0 t (fun _ _ => false) (fun g => marks.contains g) 6 (tag4 'l' 'a' 't' 'n') (tag4 'D' 'E' 'U' ' ') tags
        (text.map fun x => ⟨x.1, x.2, []⟩)) s with
  | .error e => IO.println s!"settle {repr e}"
  | .ok x => IO.println s!"{f} {x.map fun y => (y.glyph, y.placements.map placement)}"
def whole (f : String) (tags : List Tag) (text : List Nat) : IO Unit := do
  let d := (← IO.FS.readBinFile (System.FilePath.mk "/repo/tests/fixtures" / f)).toList
  match run (typeset (fun t => t == 0x00010000 || t == tag4 'O' 'T' 'T' 'O') cfg 6 (tag4 'l' 'a' 't' 'n') (tag4 'D' 'E' 'U' ' ')
      tags text) d with
  | .error e => IO.println s!"{f} {repr e}"
  | .ok x => IO.println s!"{f} {x.map fun y => (y.glyph, y.placements.map placement)}"
def asked {α : Type} [Repr α] (f : String) (r : Reader (Option α)) : IO Unit := do
  let d := (← IO.FS.readBinFile (System.FilePath.mk "/repo/tests/fixtures" / f)).toList
  match run r d with
  | .error e => IO.println s!"{f} {repr e}"
  | .ok x => IO.println s!"{f} {repr x}"
def main : IO Unit := do
  go "CrimsonText-Regular.ttf" 105340 1858 94952 10388 [382, 315, 315, 332, 279, 295, 556, 1, 216, 1, 181, 382]
  go "OpenSans-Italic.ttf" 206436 966 206380 56 [82, 73, 73, 76, 70, 72, 3, 36, 57, 36, 55, 82]
  go "KaushanScript-Regular.ttf" 24536 494 300 24236 [269, 206, 206, 233, 162, 186, 316, 1, 115, 1, 100, 269]
  go "SourceSerifPro-Regular.otf" 57648 2762 60412 24440 [42, 33, 33, 36, 30, 32, 1, 2, 23, 2, 21, 42]
  context "SourceSerifPro-Regular.otf" 57648 2762 (tag4 'f' 'r' 'a' 'c') [220, 310, 216, 217, 218]
  context "SourceSerifPro-Regular.otf" 57648 2762 (tag4 'n' 'u' 'm' 'r') [220, 216, 217, 218]
  context "SourceSerifPro-Regular.otf" 57648 2762 (tag4 'd' 'n' 'o' 'm') [220, 216, 217, 218]
  context "CrimsonText-Regular.ttf" 105340 1858 (tag4 'c' 'c' 'm' 'p') [332, 665, 556, 332]
  context "KalniaGlaze[wdth,wght].ttf" 165856 1018 (tag4 'c' 'c' 'm' 'p') [155, 357, 1, 166, 354, 1, 155]
  context "KalniaGlaze[wdth,wght].ttf" 165856 1018 (tag4 'o' 'r' 'd' 'n') [248, 117, 1, 117]
  let placing := [tag4 'k' 'e' 'r' 'n', tag4 'm' 'a' 'r' 'k', tag4 'm' 'k' 'm' 'k', tag4 'l' 'i' 'g' 'a']
  settling "CrimsonText-Regular.ttf" 94952 10388 [665, 668] placing [(181, 0), (665, 0), (668, 0), (216, 0), (181, 0)]
  settling "CrimsonText-Regular.ttf" 94952 10388 [665, 668] placing [(246, 0), (665, 0), (668, 1)]
  settling "KalniaGlaze[wdth,wght].ttf" 150232 15622 [357, 360] placing [(117, 0), (357, 0), (360, 0), (2, 0), (101, 0)]
  whole "SourceSerifPro-Regular.otf" placing [42, 33, 33, 36, 30, 32, 1, 2, 23, 2, 21, 42]
  whole "KaushanScript-Regular.ttf" placing [269, 206, 206, 233, 162, 186, 316, 1, 115, 1, 100, 269]
  whole "CrimsonText-Regular.ttf" placing [382, 315]
  let accept : Tag → Bool := fun t => t == 0x00010000 || t == tag4 'O' 'T' 'T' 'O'
  for f in ["AdobeVFPrototype.ttf", "KalniaGlaze[wdth,wght].ttf"] do
    for (i, j) in [(0, 0), (0, 1), (1, 0)] do
      asked f (colorOf accept cfg i j)
    for j in [0, 1, 3, 12] do
      asked f (coordinateOf accept cfg j (tag4 'w' 'g' 'h' 't'))
    asked f (clampOf accept cfg (tag4 'w' 'g' 'h' 't') 100000000)
    asked f (clampOf accept cfg (tag4 'w' 'g' 'h' 't') 0)
