import Verif.Spec.Shape
/-!
# Specification: how text is placed

The lookups of the features that are wanted for a script and a language are performed one after another, in the order in which
the table has them, each on all glyphs from the first to the last. Here is, in terms of the bytes of a GPOS table at `p`, by
which values each glyph is moved; and the program with which a user of the crate finds it out. Both know single and pair
adjustments only.
-/

namespace OpenType.Spec
open OpenType lookup directory

/-- A glyph with the values by which it is moved. -/
abbrev Moved := Nat × List gpos.Single

/-! ## In bytes -/

/-- Lookup number `i` has values for glyph `g` and for the glyph that follows it: its first subtable that does not keep silent
has them. -/
def AdjustsAt (cfg : Cfg) (d : Data) (p i g : Nat) (next : Option Nat) (y : Option gpos.Single × Option gpos.Single) : Prop :=
  ∃ j, AtSubtable cfg 9 d p i j ((adjustment cfg g next).Works d y) ∧
    ∀ k < j, AtSubtable cfg 9 d p i k ((adjustment cfg g next).Silent d)

/-- Lookup number `i` has nothing for glyph `g`: its subtables keep silent. -/
def LeavesAt (cfg : Cfg) (d : Data) (p i g : Nat) (next : Option Nat) : Prop :=
  ∀ j type_ a, SubtableAt cfg d p i j type_ a → AtSubtable cfg 9 d p i j ((adjustment cfg g next).Silent d)

/-- The first of some glyphs that is not ignored. -/
def FirstSeen (I : Nat → Prop) : List Moved → Option Nat → Prop
  | [], next => next = none
  | x :: following, next => (I x.1 ∧ FirstSeen I following next) ∨ (¬I x.1 ∧ next = some x.1)

/-- Lookup number `i`, for which glyphs with `I` do not exist, adds to the values of the glyphs. If it has a value for the second
of two glyphs, the one behind is not looked at again: `second` is this value, for the first glyph that is not ignored. -/
inductive Adjusted (cfg : Cfg) (d : Data) (p : Nat) (I : Nat → Prop) (i : Nat) : Option gpos.Single → List Moved → List Moved → Prop
  | nil {second} : Adjusted cfg d p I i second [] []
  | ignore {second g values following out} : I g → Adjusted cfg d p I i second following out →
    Adjusted cfg d p I i second ((g, values) :: following) ((g, values) :: out)
  | second {value g values following out} : ¬I g → Adjusted cfg d p I i none following out →
    Adjusted cfg d p I i (some value) ((g, values) :: following) ((g, values ++ [value]) :: out)
  | leave {g values following next out} : ¬I g → FirstSeen I following next → LeavesAt cfg d p i g next →
    Adjusted cfg d p I i none following out → Adjusted cfg d p I i none ((g, values) :: following) ((g, values) :: out)
  | adjust {g values following next value second out} : ¬I g → FirstSeen I following next →
    AdjustsAt cfg d p i g next (value, second) → Adjusted cfg d p I i second following out →
    Adjusted cfg d p I i none ((g, values) :: following) ((g, values ++ value.toList) :: out)

/-- The lookups that are wanted and have numbers less than `n` add to the values of the glyphs. `I` tells which glyphs each of
the lookups ignores. -/
inductive PositionedBelow (cfg : Cfg) (d : Data) (p : Nat) (I : Nat → Nat → Prop) (wanted : Nat → Prop) :
    Nat → List Moved → List Moved → Prop
  | zero {glyphs} : PositionedBelow cfg d p I wanted 0 glyphs glyphs
  | skip {n glyphs out} : ¬wanted n → PositionedBelow cfg d p I wanted n glyphs out →
    PositionedBelow cfg d p I wanted (n + 1) glyphs out
  | pass {n glyphs middle out} : wanted n → PositionedBelow cfg d p I wanted n glyphs middle →
    Adjusted cfg d p (I n) n none middle out → PositionedBelow cfg d p I wanted (n + 1) glyphs out

/-- The lookups that are wanted move the glyphs by these values. -/
def PositionedBy (cfg : Cfg) (d : Data) (p : Nat) (I : Nat → Nat → Prop) (script language : Tag) (tags : List Tag)
    (glyphs : List Nat) (out : List Moved) : Prop :=
  ∃ n, (∀ k, Wanted cfg d p script language tags k → k < n) ∧
    PositionedBelow cfg d p I (Wanted cfg d p script language tags) n (glyphs.map fun g => (g, [])) out

/-! ## Programs -/

/-- Lookup number `i` is performed on all glyphs that it does not ignore. -/
def adjustAll (cfg : Cfg) (p : Nat) (t : gpos.GlyphPositioning) (ignored : Nat → Bool) (i : Nat) :
    Option gpos.Single → List Moved → Reader (List Moved)
  | _, [] => return []
  | second, (g, values) :: following =>
    if ignored g then do return (g, values) :: (← adjustAll cfg p t ignored i second following)
    else
      match second with
      | some value => do return (g, values ++ [value]) :: (← adjustAll cfg p t ignored i none following)
      | none => do
        match ← perform positioningExtension (gpos.Type_.read cfg)
            (move g ((following.find? fun x => !ignored x.1).map (·.1))) p t i with
        | none => return (g, values) :: (← adjustAll cfg p t ignored i none following)
        | some (value, second) => return (g, values ++ value.toList) :: (← adjustAll cfg p t ignored i second following)

/-- Those of some lookups that are wanted are performed. -/
def adjustments (cfg : Cfg) (p : Nat) (t : gpos.GlyphPositioning) (ignored : Nat → Nat → Bool) (wanted : Nat → Bool) :
    Nat → List Moved → Reader (List Moved)
  | 0, glyphs => return glyphs
  | n + 1, glyphs => do
    let glyphs ← adjustments cfg p t ignored wanted n glyphs
    if wanted n then adjustAll cfg p t (ignored n) n none glyphs else return glyphs

/-- Glyphs of text in a script and a language are positioned with a table that was read at `p`. -/
def positionText (cfg : Cfg) (p : Nat) (t : gpos.GlyphPositioning) (ignored : Nat → Nat → Bool) (script language : Tag)
    (tags : List Tag) (glyphs : List Nat) : Reader (List Moved) :=
  match lookupsFor t script language with
  | .error e => .fail e
  | .ok found =>
    adjustments cfg p t ignored (fun k => found.any fun x => tags.contains x.1 && x.2.1 == k) t.lookups.records.length
      (glyphs.map fun g => (g, []))

/-- The glyphs that lookup number `i` ignores. -/
def passedOver {T : Type} (definition : gdef.GlyphDefinition) (t : Directory T) (i g : Nat) : Bool :=
  match t.lookups.records[i]? with
  | some record => ignores definition record g
  | none => false

end OpenType.Spec
