import Verif.Spec.Contextual
/-!
# Specification: how text is placed, with contexts and attachments

As `Spec/Position.lean`, but with cursive attachments, attachments of marks to bases, ligatures and marks, contexts and chained
contexts, as `Spec/Contextual.lean` has the latter for GSUB. Which component of a ligature a mark belongs to is not in a font:
each glyph comes with a number for it.
-/

namespace OpenType.Spec
open OpenType lookup directory context

/-- Something about where a glyph is placed: it is moved by a value; it is attached to a glyph so many places back, so that an
anchor of its own and one of the other coincide; or it is joined in this way to a glyph so many places ahead. -/
inductive Placement
  | moved (value : gpos.Single)
  | attached (back : Nat) (own other : gpos.Anchor)
  | joined (ahead : Nat) (exit entry : gpos.Anchor)
deriving DecidableEq

/-- A glyph of a text, with the number of a component of a ligature, and what there is about its place. -/
structure Item where
  glyph : Nat
  component : Nat
  placements : List Placement
deriving DecidableEq

def Item.add (x : Item) (placements : List Placement) : Item := { x with placements := x.placements ++ placements }

/-- What a subtable wants to be done: values for a glyph and the next; the anchors by which a glyph is joined to the next; those
by which it is attached to the base before it, or to the mark before it; or actions on a sequence of some glyphs, of which the one
in question is the first. -/
inductive Response
  | moved (first second : Option gpos.Single)
  | joined (exit entry : gpos.Anchor)
  | onBase (own other : gpos.Anchor)
  | onMark (own other : gpos.Anchor)
  | sequence (n : Nat) (actions : List Action)
deriving DecidableEq

/-! ## In bytes -/

/-- The cursive attachment at `a` joins the place where glyph `g` is left to that where glyph `h` is entered. -/
def JoinedBy (d : Data) (a g h : Nat) (exit entry : gpos.Anchor) : Prop :=
  (∃ x, ConnectedBy d a g x (some exit)) ∧ ∃ x, ConnectedBy d a h (some entry) x

/-- The cursive attachment at `a` covers glyph `g`, or glyph `h` if it is needed, and has nothing for it. -/
def MissingJoint (d : Data) (a g h : Nat) : Prop :=
  Missing d a g ∨ (∃ x exit, ConnectedBy d a g x (some exit)) ∧ Missing d a h

/-- Everything GPOS may do at glyph `g` between others. The base before it, if there is one, is given. -/
def response (cfg : Cfg) (before : List Nat) (base : Option Nat) (component g : Nat) (following : List Nat) :
    Effect gpos.Type_ Response where
  wellFormed := gpos.IsTable cfg
  does d type_ a
    | .moved first second => MovedBy d type_ a g following.head? (first, second)
    | .joined exit entry => type_ = 3 ∧ ∃ h, following.head? = some h ∧ JoinedBy d a g h exit entry
    | .onBase own other =>
      (type_ = 4 ∧ ∃ b, base = some b ∧ AttachedBy cfg (AnchorIn d) d a g b own other) ∨
      (type_ = 5 ∧ ∃ b, base = some b ∧ AttachedBy cfg (ComponentIn d component) d a g b own other)
    | .onMark own other => type_ = 6 ∧ ∃ b, before.head? = some b ∧ AttachedBy cfg (AnchorIn d) d a g b own other
    | .sequence n actions =>
      (type_ = 7 ∧ MatchedBy d a g following (n, actions)) ∨ (type_ = 8 ∧ ChainMatchedBy d a before g following (n, actions))
  missing d type_ a :=
    MissingMove d type_ a g following.head? ∨
    (type_ = 3 ∧ ∃ h, following.head? = some h ∧ MissingJoint d a g h) ∨
    (type_ = 4 ∧ ∃ b, base = some b ∧ MissingAnchor cfg (NoAnchorIn d) d a g b) ∨
    (type_ = 5 ∧ ∃ b, base = some b ∧ MissingAnchor cfg (NoComponentIn d component) d a g b) ∨
    (type_ = 6 ∧ ∃ b, before.head? = some b ∧ MissingAnchor cfg (NoAnchorIn d) d a g b) ∨
    (type_ = 7 ∧ MissingRules d a g) ∨ (type_ = 8 ∧ MissingChain d a g)

/-- The first of some glyphs that is not ignored, with its number among all, from one on. -/
def Nearest (I : Item → Prop) (text : List Item) : Option (Nat × Item) → Prop
  | none => ∀ x ∈ text, I x
  | some (k, x) => ∃ pre post, SplitAt I 0 text pre x post ∧ k = pre.length + 1

/-- How far away the nearest glyph is. -/
def distance (nearest : Option (Nat × Item)) : Nat := (nearest.map (·.1)).getD 0

/-- The second glyph of a pair is moved and is then done with, as are those between the two, if there is a value for it. -/
inductive Second (I : Item → Prop) : Option gpos.Single → List Item → List Item → List Item → Prop
  | none {following} : Second I none following [] following
  | absent {value following} : (∀ x ∈ following, I x) → Second I (some value) following [] following
  | moved {value following pre x post} : SplitAt I 0 following pre x post →
    Second I (some value) following (pre ++ [x.add [.moved value]]) post

/-- What becomes of glyph `x` and those that follow it by what a subtable wants to be done. Glyphs with `I` are ignored, `base` is
the base before the glyph, and `nested` is what other lookups do. -/
inductive Outcome (I : Item → Prop) (nested : Nat → List Item → List Item → Option (List Item × List Item) → Prop)
    (before : List Item) (base : Option (Nat × Item)) (x : Item) (following : List Item) : Response → List Item → List Item → Prop
  | moved {first second done rest} : Second I second following done rest →
    Outcome I nested before base x following (.moved first second) (x.add (first.toList.map .moved) :: done) rest
  | joined {exit entry next} : Nearest I following next →
    Outcome I nested before base x following (.joined exit entry) [x.add [.joined (distance next) exit entry]] following
  | onBase {own other} :
    Outcome I nested before base x following (.onBase own other) [x.add [.attached (distance base) own other]] following
  | onMark {own other mark} : Nearest I before mark →
    Outcome I nested before base x following (.onMark own other) [x.add [.attached (distance mark) own other]] following
  | sequence {n actions window rest done rest'} : Window I (n - 1) following window rest →
    ActedOn nested I before actions (x :: window) rest done rest' →
    Outcome I nested before base x following (.sequence n actions) done rest'

/-- What becomes of glyph `x` and those that follow it when lookup number `i` comes to it: nothing, or some glyphs that are done
with and the rest of the text. Glyphs with `M` are marks; what is before `x` and neither ignored nor a mark is a base. -/
def Settled (cfg : Cfg) (d : Data) (p : Nat) (I : Nat → Nat → Prop) (M : Nat → Prop) :
    Nat → Nat → List Item → List Item → Option (List Item × List Item) → Prop
  | 0, _, _, _, result => result = none
  | _ + 1, _, _, [], result => result = none
  | n + 1, i, before, x :: following, result =>
    (I i x.glyph ∧ result = none) ∨
    (¬I i x.glyph ∧ ∃ base, Nearest (fun y => I i y.glyph ∨ M y.glyph) before base ∧
      ((SilentAt cfg 9 (response cfg (seen (I i) (before.map Item.glyph)) (base.map (·.2.glyph)) x.component x.glyph
          (seen (I i) (following.map Item.glyph))) d p i ∧ result = none) ∨
        ∃ r done rest, DoneAt cfg 9 (response cfg (seen (I i) (before.map Item.glyph)) (base.map (·.2.glyph)) x.component x.glyph
          (seen (I i) (following.map Item.glyph))) d p i r ∧
          Outcome (fun y => I i y.glyph) (Settled cfg d p I M n) before base x following r done rest ∧ result = some (done, rest)))

/-- The lookups that are wanted place the glyphs. `I` tells which glyphs each of the lookups ignores, `M` which glyphs are marks. -/
def SettledInto (cfg : Cfg) (d : Data) (p : Nat) (I : Nat → Nat → Prop) (M : Nat → Prop) (n : Nat) (script language : Tag)
    (tags : List Tag) (text out : List Item) : Prop :=
  AllPassed cfg d p (fun i text out => Forward (Settled cfg d p I M n i) [] text out) script language tags text out

/-! ## Programs -/

/-- Joining a glyph to the next. -/
def join (t : gpos.CursiveAttachment) (g h : Nat) : Except Err (Option Response) :=
  match connect t g with
  | .error e => .error e
  | .ok none => .ok none
  | .ok (some (_, none)) => .ok none
  | .ok (some (_, some exit)) => do
    return (← connect t h).bind fun y => y.1.map fun entry => .joined exit entry

/-- What a subtable wants to be done at a glyph. -/
def respond (before : List Nat) (base : Option Nat) (component g : Nat) (following : List Nat) :
    gpos.Type_ → Except Err (Option Response)
  | .cursiveAttachment t =>
    match following.head? with
    | none => .ok none
    | some h => join t g h
  | .markToBaseAttachment t =>
    match base with
    | none => .ok none
    | some b => do return (← attachToBase t g b).map fun y => .onBase y.1 y.2
  | .markToLigatureAttachment t =>
    match base with
    | none => .ok none
    | some b => do return (← attachToLigature t component g b).map fun y => .onBase y.1 y.2
  | .markToMarkAttachment t =>
    match before.head? with
    | none => .ok none
    | some b => do return (← attachToMark t g b).map fun y => .onMark y.1 y.2
  | .contextualPositioning t => do return (← matchContext t g following).map fun y => .sequence y.1 y.2
  | .chainedContextualPositioning t => do return (← matchChain t before g following).map fun y => .sequence y.1 y.2
  | x => do return (← move g following.head? x).map fun y => .moved y.1 y.2

/-- The first of some glyphs that is not ignored, with its number among all, from one on. -/
def nearest (ignored : Item → Bool) (text : List Item) : Option (Nat × Item) :=
  (splitAt ignored 0 text).map fun s => (s.1.length + 1, s.2.1)

/-- The second glyph of a pair is moved, if there is a value for it. -/
def moveSecond (ignored : Item → Bool) (second : Option gpos.Single) (following : List Item) : List Item × List Item :=
  match second with
  | none => ([], following)
  | some value =>
    match splitAt ignored 0 following with
    | none => ([], following)
    | some (pre, x, post) => (pre ++ [x.add [.moved value]], post)

/-- What a subtable wants is done. -/
def conclude (ignored : Item → Bool) (nested : Nat → List Item → List Item → Reader (Option (List Item × List Item)))
    (before : List Item) (base : Option (Nat × Item)) (x : Item) (following : List Item) :
    Response → Reader (List Item × List Item)
  | .moved first second =>
    let split := moveSecond ignored second following
    return (x.add (first.toList.map .moved) :: split.1, split.2)
  | .joined exit entry => return ([x.add [.joined (distance (nearest ignored following)) exit entry]], following)
  | .onBase own other => return ([x.add [.attached (distance base) own other]], following)
  | .onMark own other => return ([x.add [.attached (distance (nearest ignored before)) own other]], following)
  | .sequence n actions =>
    let split := windowOf ignored (n - 1) following
    actAll nested ignored before actions (x :: split.1) split.2

/-- Lookup number `i` comes to a glyph. -/
def settle (cfg : Cfg) (p : Nat) (t : gpos.GlyphPositioning) (ignored : Nat → Nat → Bool) (mark : Nat → Bool) :
    Nat → Nat → List Item → List Item → Reader (Option (List Item × List Item))
  | 0, _, _, _ => return none
  | _ + 1, _, _, [] => return none
  | n + 1, i, before, x :: following =>
    if ignored i x.glyph then return none
    else do
      let base := nearest (fun y => ignored i y.glyph || mark y.glyph) before
      match ← perform positioningExtension (gpos.Type_.read cfg)
          (respond ((before.map Item.glyph).filter (!ignored i ·)) (base.map (·.2.glyph)) x.component x.glyph
            ((following.map Item.glyph).filter (!ignored i ·))) p t i with
      | none => return none
      | some r => return some (← conclude (fun y => ignored i y.glyph) (settle cfg p t ignored mark n) before base x following r)

/-- Glyphs of text in a script and a language are placed with a table that was read at `p`. -/
def settleText (cfg : Cfg) (p : Nat) (t : gpos.GlyphPositioning) (ignored : Nat → Nat → Bool) (mark : Nat → Bool) (n : Nat)
    (script language : Tag) (tags : List Tag) (text : List Item) : Reader (List Item) :=
  passAll t (fun i text => forward (settle cfg p t ignored mark n i) text.length [] text) script language tags text

end OpenType.Spec
