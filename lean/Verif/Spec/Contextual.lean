import Verif.Spec.Shape
import Verif.Spec.Engage
/-!
# Specification: what text becomes, with contexts

As `Spec/Shape.lean`, but with contexts, chained contexts and reverse chained substitutions. A context that matches asks for
other lookups to be performed at some of the glyphs it is about. These may again have contexts: `n` is how deep such calls may
be nested. Text is given by the glyphs from some place on and those before it, the nearest first.
-/

namespace OpenType.Spec
open OpenType lookup directory context

/-- What a subtable wants to be done: glyphs to be put in the place of the one in question and the first few of those that
follow it; or actions on a sequence of some glyphs, of which the one in question is the first. -/
inductive Reaction
  | replaced (glyphs : List Nat) (n : Nat)
  | sequence (n : Nat) (actions : List Action)
deriving DecidableEq

/-! ## In bytes -/

/-- Single, multiple and ligature substitutions, contexts and chained contexts at glyph `g` between others. -/
def reaction (before : List Nat) (g : Nat) (following : List Nat) : Effect gsub.Type_ Reaction where
  wellFormed := gsub.IsTable
  does d type_ a
    | .replaced glyphs n => SubstitutedBy d type_ a g following glyphs n
    | .sequence n actions =>
      (type_ = 5 ∧ MatchedBy d a g following (n, actions)) ∨ (type_ = 6 ∧ ChainMatchedBy d a before g following (n, actions))
  missing d type_ a :=
    LacksSubstitute d type_ a g ∨ (type_ = 5 ∧ MissingRules d a g) ∨ (type_ = 6 ∧ MissingChain d a g)

/-- What lookup number `i` does: what the first subtable that does not keep silent does. -/
def DoneAt {T β : Type} (cfg : Cfg) (extension : Nat) (E : Effect T β) (d : Data) (p i : Nat) (y : β) : Prop :=
  ∃ j, AtSubtable cfg extension d p i j (E.Works d y) ∧ ∀ k < j, AtSubtable cfg extension d p i k (E.Silent d)

/-- Lookup number `i` does nothing: its subtables keep silent. -/
def SilentAt {T β : Type} (cfg : Cfg) (extension : Nat) (E : Effect T β) (d : Data) (p i : Nat) : Prop :=
  ∀ j type_ a, SubtableAt cfg d p i j type_ a → AtSubtable cfg extension d p i j (E.Silent d)

/-- The second list is the first without the first `n` glyphs that are not ignored. -/
inductive Without (I : Nat → Prop) : Nat → List Nat → List Nat → Prop
  | zero {glyphs} : Without I 0 glyphs glyphs
  | nil {n} : Without I n [] []
  | ignore {n g glyphs rest} : I g → Without I (n + 1) glyphs rest → Without I (n + 1) (g :: glyphs) (g :: rest)
  | gone {n g glyphs rest} : ¬I g → Without I n glyphs rest → Without I (n + 1) (g :: glyphs) rest

/-- The first list begins with the second, which ends with the `n`th glyph that is not ignored, and goes on with the third. -/
inductive Window {α : Type} (I : α → Prop) : Nat → List α → List α → List α → Prop
  | zero {glyphs} : Window I 0 glyphs [] glyphs
  | nil {n} : Window I n [] [] []
  | ignore {n g glyphs window rest} : I g → Window I (n + 1) glyphs window rest →
    Window I (n + 1) (g :: glyphs) (g :: window) rest
  | seen {n g glyphs window rest} : ¬I g → Window I n glyphs window rest →
    Window I (n + 1) (g :: glyphs) (g :: window) rest

/-- Glyph number `k`, from zero on, of those that are not ignored is between these. -/
def SplitAt {α : Type} (I : α → Prop) (k : Nat) (glyphs pre : List α) (g : α) (post : List α) : Prop :=
  glyphs = pre ++ g :: post ∧ ¬I g ∧ (seen I pre).length = k

/-- The actions make the sequence `window` and what follows it, `rest`, into others. `nested` is what a lookup does; glyphs with
`I` do not count. What follows the sequence stays as long as it was, if there are so many glyphs. -/
inductive ActedOn {α : Type} (nested : Nat → List α → List α → Option (List α × List α) → Prop) (I : α → Prop)
    (before : List α) : List Action → List α → List α → List α → List α → Prop
  | nil {window rest} : ActedOn nested I before [] window rest window rest
  | absent {action actions window rest window' rest'} :
    (∀ pre g post, ¬SplitAt I action.position_index window pre g post) →
    ActedOn nested I before actions window rest window' rest' →
    ActedOn nested I before (action :: actions) window rest window' rest'
  | still {action actions window rest pre g post window' rest'} :
    SplitAt I action.position_index window pre g post →
    nested action.lookup_index (pre.reverse ++ before) (g :: post ++ rest) none →
    ActedOn nested I before actions window rest window' rest' →
    ActedOn nested I before (action :: actions) window rest window' rest'
  | act {action actions window rest pre g post done rest₁ text window' rest'} :
    SplitAt I action.position_index window pre g post →
    nested action.lookup_index (pre.reverse ++ before) (g :: post ++ rest) (some (done, rest₁)) →
    text = pre ++ done ++ rest₁ →
    ActedOn nested I before actions (text.take (text.length - rest.length)) (text.drop (text.length - rest.length)) window' rest' →
    ActedOn nested I before (action :: actions) window rest window' rest'

/-- What becomes of glyph `g` and those that follow it when lookup number `i` comes to it: nothing, or some glyphs that are
done with and the rest of the text. -/
def Touched (cfg : Cfg) (d : Data) (p : Nat) (I : Nat → Nat → Prop) :
    Nat → Nat → List Nat → List Nat → Option (List Nat × List Nat) → Prop
  | 0, _, _, _, result => result = none
  | _ + 1, _, _, [], result => result = none
  | n + 1, i, before, g :: following, result =>
    (I i g ∧ result = none) ∨
    (¬I i g ∧ SilentAt cfg 7 (reaction (seen (I i) before) g (seen (I i) following)) d p i ∧ result = none) ∨
    (¬I i g ∧ ∃ glyphs k rest, DoneAt cfg 7 (reaction (seen (I i) before) g (seen (I i) following)) d p i (.replaced glyphs k) ∧
      Without (I i) k following rest ∧ result = some (glyphs, rest)) ∨
    (¬I i g ∧ ∃ k actions window rest window' rest',
      DoneAt cfg 7 (reaction (seen (I i) before) g (seen (I i) following)) d p i (.sequence k actions) ∧
      Window (I i) (k - 1) following window rest ∧
      ActedOn (Touched cfg d p I n) (I i) before actions (g :: window) rest window' rest' ∧
      result = some (window', rest'))

/-- A lookup makes the first glyphs, which have others before them, into the second, from the first to the last. It goes on behind
what is done with. -/
inductive Forward {α : Type} (touched : List α → List α → Option (List α × List α) → Prop) : List α → List α → List α → Prop
  | nil {before} : Forward touched before [] []
  | keep {before g following out} : touched before (g :: following) none →
    Forward touched (g :: before) following out → Forward touched before (g :: following) (g :: out)
  | change {before g following done rest out} : touched before (g :: following) (some (done, rest)) →
    Forward touched (done.reverse ++ before) rest out → Forward touched before (g :: following) (done ++ out)

/-- Lookup number `i` makes the first glyphs into the second, from the last to the first, by reverse chained substitutions. -/
inductive Backward (cfg : Cfg) (d : Data) (p : Nat) (I : Nat → Prop) (i : Nat) : List Nat → List Nat → List Nat → Prop
  | nil {before} : Backward cfg d p I i before [] []
  | ignore {before g following out} : Backward cfg d p I i (g :: before) following out → I g →
    Backward cfg d p I i before (g :: following) (g :: out)
  | keep {before g following out} : Backward cfg d p I i (g :: before) following out → ¬I g →
    SilentAt cfg 7 (reverseEffect (seen I before) g (seen I out)) d p i →
    Backward cfg d p I i before (g :: following) (g :: out)
  | replace {before g following out x} : Backward cfg d p I i (g :: before) following out → ¬I g →
    DoneAt cfg 7 (reverseEffect (seen I before) g (seen I out)) d p i x →
    Backward cfg d p I i before (g :: following) (x :: out)

/-- The lookups that are wanted and have numbers less than `m` make the first glyphs into the second, one after another. -/
inductive Below {α : Type} (passed : Nat → List α → List α → Prop) (wanted : Nat → Prop) : Nat → List α → List α → Prop
  | zero {glyphs} : Below passed wanted 0 glyphs glyphs
  | skip {m glyphs out} : ¬wanted m → Below passed wanted m glyphs out → Below passed wanted (m + 1) glyphs out
  | pass {m glyphs middle out} : wanted m → Below passed wanted m glyphs middle → passed m middle out →
    Below passed wanted (m + 1) glyphs out

/-- The lookups that are wanted for a script, a language and some features make the first glyphs into the second. -/
def AllPassed {α : Type} (cfg : Cfg) (d : Data) (p : Nat) (passed : Nat → List α → List α → Prop) (script language : Tag)
    (tags : List Tag) (glyphs out : List α) : Prop :=
  ∃ m, (∀ k, Wanted cfg d p script language tags k → k < m) ∧
    Below passed (Wanted cfg d p script language tags) m glyphs out

/-- The lookups that are wanted make the first glyphs into the second. Each goes forward and then backward. `I` tells which glyphs
each of the lookups ignores. -/
def Becomes (cfg : Cfg) (d : Data) (p : Nat) (I : Nat → Nat → Prop) (n : Nat) (script language : Tag) (tags : List Tag)
    (glyphs out : List Nat) : Prop :=
  AllPassed cfg d p (fun i glyphs out =>
    ∃ middle, Forward (Touched cfg d p I n i) [] glyphs middle ∧ Backward cfg d p (I i) i [] middle out)
    script language tags glyphs out

/-! ## Programs -/

/-- What a subtable wants to be done at a glyph. -/
def react (before : List Nat) (g : Nat) (following : List Nat) : gsub.Type_ → Except Err (Option Reaction)
  | .contextualSubstitution t => do return (← matchContext t g following).map fun y => .sequence y.1 y.2
  | .chainedContextualSubstitution t => do return (← matchChain t before g following).map fun y => .sequence y.1 y.2
  | x => do return (← substitute g following x).map fun y => .replaced y.1 y.2

/-- Some glyphs without the first few that are not ignored. -/
def without (ignored : Nat → Bool) : Nat → List Nat → List Nat
  | 0, glyphs => glyphs
  | _ + 1, [] => []
  | n + 1, g :: glyphs => if ignored g then g :: without ignored (n + 1) glyphs else without ignored n glyphs

/-- The first few glyphs that are not ignored with those between them, and the rest. -/
def windowOf {α : Type} (ignored : α → Bool) : Nat → List α → List α × List α
  | 0, glyphs => ([], glyphs)
  | _ + 1, [] => ([], [])
  | n + 1, g :: glyphs =>
    let split := windowOf ignored (if ignored g then n + 1 else n) glyphs
    (g :: split.1, split.2)

/-- A glyph by its number among those that are not ignored, with what is before and behind it. -/
def splitAt {α : Type} (ignored : α → Bool) : Nat → List α → Option (List α × α × List α)
  | _, [] => none
  | k, g :: glyphs =>
    if ignored g then (splitAt ignored k glyphs).map fun x => (g :: x.1, x.2)
    else
      match k with
      | 0 => some ([], g, glyphs)
      | k + 1 => (splitAt ignored k glyphs).map fun x => (g :: x.1, x.2)

/-- Actions are performed on a sequence of glyphs and those that follow it. -/
def actAll {α : Type} (nested : Nat → List α → List α → Reader (Option (List α × List α))) (ignored : α → Bool)
    (before : List α) : List Action → List α → List α → Reader (List α × List α)
  | [], window, rest => return (window, rest)
  | action :: actions, window, rest =>
    match splitAt ignored action.position_index window with
    | none => actAll nested ignored before actions window rest
    | some (pre, g, post) => do
      match ← nested action.lookup_index (pre.reverse ++ before) (g :: post ++ rest) with
      | none => actAll nested ignored before actions window rest
      | some (done, rest₁) =>
        let text := pre ++ done ++ rest₁
        actAll nested ignored before actions (text.take (text.length - rest.length)) (text.drop (text.length - rest.length))

/-- Lookup number `i` comes to a glyph. -/
def touch (p : Nat) (t : gsub.GlyphSubstitution) (ignored : Nat → Nat → Bool) :
    Nat → Nat → List Nat → List Nat → Reader (Option (List Nat × List Nat))
  | 0, _, _, _ => return none
  | _ + 1, _, _, [] => return none
  | n + 1, i, before, g :: following =>
    if ignored i g then return none
    else do
      match ← perform substitutionExtension gsub.Type_.read
          (react (before.filter (!ignored i ·)) g (following.filter (!ignored i ·))) p t i with
      | none => return none
      | some (.replaced glyphs k) => return some (glyphs, without (ignored i) k following)
      | some (.sequence k actions) =>
        let split := windowOf (ignored i) (k - 1) following
        return some (← actAll (touch p t ignored n) (ignored i) before actions (g :: split.1) split.2)

/-- A lookup is performed on all glyphs, from the first to the last. What there is to do is no more than `fuel` steps. -/
def forward {α : Type} (touch : List α → List α → Reader (Option (List α × List α))) : Nat → List α → List α → Reader (List α)
  | 0, _, _ => return []
  | _ + 1, _, [] => return []
  | fuel + 1, before, g :: following => do
    match ← touch before (g :: following) with
    | none => return g :: (← forward touch fuel (g :: before) following)
    | some (done, rest) => return done ++ (← forward touch fuel (done.reverse ++ before) rest)

/-- Lookup number `i` is performed on all glyphs, from the last to the first. -/
def backward (p : Nat) (t : gsub.GlyphSubstitution) (ignored : Nat → Bool) (i : Nat) : List Nat → List Nat → Reader (List Nat)
  | _, [] => return []
  | before, g :: following => do
    let out ← backward p t ignored i (g :: before) following
    if ignored g then return g :: out
    else
      match ← perform substitutionExtension gsub.Type_.read
          (reverseAct (before.filter (!ignored ·)) g (out.filter (!ignored ·))) p t i with
      | none => return g :: out
      | some x => return x :: out

/-- Those of some lookups that are wanted are performed. -/
def below {α : Type} (pass : Nat → List α → Reader (List α)) (wanted : Nat → Bool) : Nat → List α → Reader (List α)
  | 0, glyphs => return glyphs
  | m + 1, glyphs => do
    let glyphs ← below pass wanted m glyphs
    if wanted m then pass m glyphs else return glyphs

/-- The lookups for a script, a language and some features are performed. -/
def passAll {T α : Type} (t : Directory T) (pass : Nat → List α → Reader (List α)) (script language : Tag) (tags : List Tag)
    (glyphs : List α) : Reader (List α) :=
  match lookupsFor t script language with
  | .error e => .fail e
  | .ok found => below pass (fun k => found.any fun x => tags.contains x.1 && x.2.1 == k) t.lookups.records.length glyphs

/-- Glyphs of text in a script and a language are shaped with a table that was read at `p`. -/
def shapeText (p : Nat) (t : gsub.GlyphSubstitution) (ignored : Nat → Nat → Bool) (n : Nat) (script language : Tag)
    (tags : List Tag) (glyphs : List Nat) : Reader (List Nat) :=
  passAll t (fun i glyphs => do
    let glyphs ← forward (touch p t ignored n i) glyphs.length [] glyphs
    backward p t (ignored i) i [] glyphs) script language tags glyphs

end OpenType.Spec
