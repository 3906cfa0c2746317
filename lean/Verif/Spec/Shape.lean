import Verif.Spec.Perform
import Verif.Spec.Ignore
/-!
# Specification: what text becomes

The lookups of the features that are wanted for a script and a language are performed one after another, in the order in which
the table has them, each on all glyphs from the first to the last. Here is, in terms of the bytes of a GSUB table at `p`, what
the glyphs become; and the program with which a user of the crate does it. Both know single, multiple and ligature
substitutions only.
-/

namespace OpenType.Spec
open OpenType lookup directory

/-! ## In bytes -/

/-- Lookup number `i` replaces glyph `g` and the first `y.2` of those that follow it by the glyphs `y.1`: its first subtable
that does not keep silent does it. -/
def SubstitutesAt (cfg : Cfg) (d : Data) (p i g : Nat) (following : List Nat) (y : List Nat × Nat) : Prop :=
  ∃ j, AtSubtable cfg 7 d p i j ((substitution g following).Works d y) ∧
    ∀ k < j, AtSubtable cfg 7 d p i k ((substitution g following).Silent d)

/-- Lookup number `i` does nothing at glyph `g`: its subtables keep silent. -/
def KeepsAt (cfg : Cfg) (d : Data) (p i g : Nat) (following : List Nat) : Prop :=
  ∀ j type_ a, SubtableAt cfg d p i j type_ a → AtSubtable cfg 7 d p i j ((substitution g following).Silent d)

/-- Those of some glyphs that are not ignored. -/
noncomputable def seen {α : Type} (I : α → Prop) (glyphs : List α) : List α :=
  open Classical in glyphs.filter fun g => ¬I g

/-- Lookup number `i`, for which glyphs with `I` do not exist, makes the first glyphs into the second; the first `n` of those
that are not ignored are there no more, as they have been replaced. It goes on behind what it has replaced, and does not look
again at what it has put in its place. -/
inductive Passed (cfg : Cfg) (d : Data) (p : Nat) (I : Nat → Prop) (i : Nat) : Nat → List Nat → List Nat → Prop
  | nil {n} : Passed cfg d p I i n [] []
  | ignore {n g following out} : I g → Passed cfg d p I i n following out →
    Passed cfg d p I i n (g :: following) (g :: out)
  | gone {n g following out} : ¬I g → Passed cfg d p I i n following out →
    Passed cfg d p I i (n + 1) (g :: following) out
  | keep {g following out} : ¬I g → KeepsAt cfg d p i g (seen I following) → Passed cfg d p I i 0 following out →
    Passed cfg d p I i 0 (g :: following) (g :: out)
  | replace {g following glyphs n out} : ¬I g → SubstitutesAt cfg d p i g (seen I following) (glyphs, n) →
    Passed cfg d p I i n following out → Passed cfg d p I i 0 (g :: following) (glyphs ++ out)

/-- Lookup number `k` is wanted: one of the features with the given tags has it, for the script and the language. -/
def Wanted (cfg : Cfg) (d : Data) (p : Nat) (script language : Tag) (tags : List Tag) (k : Nat) : Prop :=
  ∃ tag ∈ tags, ∃ a, LeadsTo cfg d p script language tag k a

/-- The lookups that are wanted and have numbers less than `n` make the first glyphs into the second. `I` tells which glyphs each
of the lookups ignores. -/
inductive ShapedBelow (cfg : Cfg) (d : Data) (p : Nat) (I : Nat → Nat → Prop) (wanted : Nat → Prop) :
    Nat → List Nat → List Nat → Prop
  | zero {glyphs} : ShapedBelow cfg d p I wanted 0 glyphs glyphs
  | skip {n glyphs out} : ¬wanted n → ShapedBelow cfg d p I wanted n glyphs out →
    ShapedBelow cfg d p I wanted (n + 1) glyphs out
  | pass {n glyphs middle out} : wanted n → ShapedBelow cfg d p I wanted n glyphs middle →
    Passed cfg d p (I n) n 0 middle out → ShapedBelow cfg d p I wanted (n + 1) glyphs out

/-- The lookups that are wanted make the first glyphs into the second. -/
def ShapedInto (cfg : Cfg) (d : Data) (p : Nat) (I : Nat → Nat → Prop) (script language : Tag) (tags : List Tag)
    (glyphs out : List Nat) : Prop :=
  ∃ n, (∀ k, Wanted cfg d p script language tags k → k < n) ∧
    ShapedBelow cfg d p I (Wanted cfg d p script language tags) n glyphs out

/-! ## Programs -/

/-- Lookup number `i` is performed on all glyphs that it does not ignore but the first `skip`, which have been replaced. -/
def pass (p : Nat) (t : gsub.GlyphSubstitution) (ignored : Nat → Bool) (i : Nat) : Nat → List Nat → Reader (List Nat)
  | _, [] => return []
  | skip, g :: following =>
    if ignored g then do return g :: (← pass p t ignored i skip following)
    else
      match skip with
      | skip + 1 => pass p t ignored i skip following
      | 0 => do
        match ← perform substitutionExtension gsub.Type_.read (substitute g (following.filter (!ignored ·))) p t i with
        | none => return g :: (← pass p t ignored i 0 following)
        | some (glyphs, n) => return glyphs ++ (← pass p t ignored i n following)

/-- Those of some lookups that are wanted are performed. -/
def passes (p : Nat) (t : gsub.GlyphSubstitution) (ignored : Nat → Nat → Bool) (wanted : Nat → Bool) :
    Nat → List Nat → Reader (List Nat)
  | 0, glyphs => return glyphs
  | n + 1, glyphs => do
    let glyphs ← passes p t ignored wanted n glyphs
    if wanted n then pass p t (ignored n) n 0 glyphs else return glyphs

/-- Glyphs of text in a script and a language are shaped with a table that was read at `p`. -/
def shape (p : Nat) (t : gsub.GlyphSubstitution) (ignored : Nat → Nat → Bool) (script language : Tag) (tags : List Tag)
    (glyphs : List Nat) : Reader (List Nat) :=
  match lookupsFor t script language with
  | .error e => .fail e
  | .ok found =>
    passes p t ignored (fun k => found.any fun x => tags.contains x.1 && x.2.1 == k) t.lookups.records.length glyphs

/-- The glyphs that lookup number `i` ignores. -/
def ignoredBy (definition : gdef.GlyphDefinition) (t : gsub.GlyphSubstitution) (i g : Nat) : Bool :=
  match t.lookups.records[i]? with
  | some record => ignores definition record g
  | none => false

end OpenType.Spec
