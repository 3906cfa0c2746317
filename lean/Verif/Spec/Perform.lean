import Verif.Spec.Apply
import Verif.Spec.Follow
/-!
# Specification: what a lookup does at a glyph

The subtables of a lookup are tried one after another until one does something. Here is, in terms of the bytes of a GSUB or
GPOS table at `p`, what this comes to; and the program with which a user of the crate does it.
-/

namespace OpenType.Spec
open OpenType lookup directory

/-! ## In bytes -/

/-- What subtable number `j` of lookup number `i` stands for, a type and a place, is so. -/
def AtSubtable (cfg : Cfg) (extension : Nat) (d : Data) (p i j : Nat) (P : Nat → Nat → Prop) : Prop :=
  ∃ type_ a type' a', SubtableAt cfg d p i j type_ a ∧ StandsFor extension d type_ a type' a' ∧ P type' a'

/-- What the subtables of the tables for glyphs do: which subtables are well-formed, what they do, and when what they
should do is not there. -/
structure Effect (T β : Type) where
  wellFormed : Nat → Data → Nat → T → Prop
  does : Data → Nat → Nat → β → Prop
  missing : Data → Nat → Nat → Prop

/-- The subtable is well-formed and does nothing. -/
def Effect.Silent {T β : Type} (E : Effect T β) (d : Data) (type_ a : Nat) : Prop :=
  (∃ x, E.wellFormed type_ d a x) ∧ ¬E.missing d type_ a ∧ ∀ y, ¬E.does d type_ a y

/-- The subtable is well-formed and does this. -/
def Effect.Works {T β : Type} (E : Effect T β) (d : Data) (y : β) (type_ a : Nat) : Prop :=
  (∃ x, E.wellFormed type_ d a x) ∧ E.does d type_ a y

/-- The subtable is not well-formed or lacks what it should do. -/
def Effect.Fails {T β : Type} (E : Effect T β) (d : Data) (type_ a : Nat) : Prop :=
  (¬∃ x, E.wellFormed type_ d a x) ∨ E.missing d type_ a

/-- The substitution of the given type at `a` replaces glyph `g` and the first `n` of the glyphs that follow it by others. -/
def SubstitutedBy (d : Data) (type_ a g : Nat) (following glyphs : List Nat) (n : Nat) : Prop :=
  (type_ = 1 ∧ n = 0 ∧ ∃ x, ReplacedBy d a g x ∧ glyphs = [x]) ∨
  (type_ = 2 ∧ n = 0 ∧ ∃ s, EntryAt d a g s ∧ GlyphsAt d s glyphs) ∨
  (type_ = 4 ∧ ∃ x, LigatedBy d a g following x n ∧ glyphs = [x])

/-- The substitution of the given type at `a` covers the glyph and has nothing for it. -/
def LacksSubstitute (d : Data) (type_ a g : Nat) : Prop :=
  (type_ = 1 ∧ U16 d a 2 ∨ type_ = 2 ∨ type_ = 4) ∧ Missing d a g

/-- Substitutions at glyph `g` with those that follow it. -/
def substitution (g : Nat) (following : List Nat) : Effect gsub.Type_ (List Nat × Nat) where
  wellFormed := gsub.IsTable
  does d type_ a y := SubstitutedBy d type_ a g following y.1 y.2
  missing d type_ a := LacksSubstitute d type_ a g

/-- The adjustment of the given type at `a` has values for glyph `g` and, if there is one, the glyph that follows it. -/
def MovedBy (d : Data) (type_ a g : Nat) (next : Option Nat) (y : Option gpos.Single × Option gpos.Single) : Prop :=
  (type_ = 1 ∧ ∃ value, PlacedBy d a g value ∧ y = (some value, none)) ∨
  (type_ = 2 ∧ ∃ h, next = some h ∧ AdjustedBy d a g h y.1 y.2)

/-- The adjustment of the given type at `a` covers the glyph and has nothing for it. -/
def MissingMove (d : Data) (type_ a g : Nat) (next : Option Nat) : Prop :=
  (type_ = 1 ∧ MissingValue d a g) ∨ (type_ = 2 ∧ ∃ h, next = some h ∧ MissingPair d a g h)

/-- Adjustments at glyph `g` with the one that follows it. -/
def adjustment (cfg : Cfg) (g : Nat) (next : Option Nat) : Effect gpos.Type_ (Option gpos.Single × Option gpos.Single) where
  wellFormed := gpos.IsTable cfg
  does d type_ a y := MovedBy d type_ a g next y
  missing d type_ a := MissingMove d type_ a g next

/-! ## Programs -/

/-- The first of some subtables that does something. -/
def firstActing {T β : Type} (extension : T → Option (Nat × Nat)) (readTable : Nat → Reader T)
    (act : T → Except Err (Option β)) (p : Nat) (t : Directory T) (i : Nat) : List Nat → Reader (Option β)
  | [] => return none
  | j :: js => do
    match ← subtable extension readTable p t i j with
    | none => return none
    | some x =>
      match act x with
      | .error e => .fail e
      | .ok (some y) => return some y
      | .ok none => firstActing extension readTable act p t i js

/-- What lookup number `i` does. -/
def perform {T β : Type} (extension : T → Option (Nat × Nat)) (readTable : Nat → Reader T)
    (act : T → Except Err (Option β)) (p : Nat) (t : Directory T) (i : Nat) : Reader (Option β) :=
  firstActing extension readTable act p t i (List.range ((t.lookups.records[i]?.map (·.tables.length)).getD 0))

/-- What a subtable of GSUB does to a glyph and those that follow it. The glyphs that replace it, and the number of those that
follow it and are replaced with it. -/
def substitute (g : Nat) (following : List Nat) : gsub.Type_ → Except Err (Option (List Nat × Nat))
  | .singleSubstitution t => do return (← replace t g).map fun x => ([x], 0)
  | .multipleSubstitution t => do return (← expand t g).map fun glyphs => (glyphs, 0)
  | .ligatureSubstitution t => do return (← ligate t g following).map fun y => ([y.1], y.2)
  | _ => .ok none

/-- What a subtable of GPOS does to a glyph and the one that follows it. -/
def move (g : Nat) (next : Option Nat) : gpos.Type_ → Except Err (Option (Option gpos.Single × Option gpos.Single))
  | .singleAdjustment t => do return (← place t g).map fun value => (some value, none)
  | .pairAdjustment t =>
    match next with
    | none => .ok none
    | some h => adjust t g h
  | _ => .ok none

end OpenType.Spec
