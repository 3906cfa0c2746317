import Mathlib.Data.List.Forall2
import Verif.Spec.Values
import Verif.Spec.Nested
/-!
# Specification: fonts that say the same

Two fonts, one of which may have more lookups than the other, or the same ones under other numbers. `R i j` says that lookup number
`i` of the one corresponds to lookup number `j` of the other. All is in terms of the values of the tables, where there are any.
-/

namespace OpenType.Spec
open OpenType lookup directory context

/-! ## What subtables do -/

/-- Actions at the same places with lookups that correspond. -/
def ActionsAlike (R : Nat → Nat → Prop) : List Action → List Action → Prop :=
  List.Forall₂ fun a b => a.position_index = b.position_index ∧ R a.lookup_index b.lookup_index

/-- The same replacement, or actions that are alike on sequences of the same length. -/
inductive ReactionsAlike (R : Nat → Nat → Prop) : Reaction → Reaction → Prop
  | replaced {glyphs n} : ReactionsAlike R (.replaced glyphs n) (.replaced glyphs n)
  | sequence {n actions actions'} : ActionsAlike R actions actions' → ReactionsAlike R (.sequence n actions) (.sequence n actions')

/-- The same placement, or actions that are alike on sequences of the same length. -/
inductive ResponsesAlike (R : Nat → Nat → Prop) : Response → Response → Prop
  | moved {first second} : ResponsesAlike R (.moved first second) (.moved first second)
  | joined {exit entry} : ResponsesAlike R (.joined exit entry) (.joined exit entry)
  | onBase {own other} : ResponsesAlike R (.onBase own other) (.onBase own other)
  | onMark {own other} : ResponsesAlike R (.onMark own other) (.onMark own other)
  | sequence {n actions actions'} : ActionsAlike R actions actions' → ResponsesAlike R (.sequence n actions) (.sequence n actions')

/-- The same error, or nothing, or things that are alike. -/
inductive ResultsAlike {α β : Type} (alike : α → β → Prop) : Except Err (Option α) → Except Err (Option β) → Prop
  | error {e} : ResultsAlike alike (.error e) (.error e)
  | none : ResultsAlike alike (.ok none) (.ok none)
  | some {x y} : alike x y → ResultsAlike alike (.ok (some x)) (.ok (some y))

/-- Two subtables of GSUB do alike at every glyph, whatever is around it. -/
def SubstitutionsAlike (R : Nat → Nat → Prop) (x y : gsub.Type_) : Prop :=
  ∀ before g following, ResultsAlike (ReactionsAlike R) (react before g following x) (react before g following y) ∧
    ResultsAlike (· = ·) (reverseAct before g following x) (reverseAct before g following y)

/-- Two subtables of GPOS do alike at every glyph, whatever is around it. -/
def PositioningsAlike (R : Nat → Nat → Prop) (x y : gpos.Type_) : Prop :=
  ∀ before base component g following,
    ResultsAlike (ResponsesAlike R) (respond before base component g following x) (respond before base component g following y)

/-! ## Tables -/

/-- The subtables of lookup number `i`. There are none if there is no such lookup. -/
def tablesOf {T : Type} (t : Option (Directory T)) (i : Nat) : List T :=
  ((t.bind fun t => t.lookups.records[i]?).map fun record => record.tables).getD []

/-- Lookup number `i` passes over glyph `g`. -/
def PassesOver {T : Type} (definition : Option gdef.GlyphDefinition) (t : Option (Directory T)) (i g : Nat) : Prop :=
  ∃ definition', definition = some definition' ∧ ∃ t', t = some t' ∧ ∃ record, t'.lookups.records[i]? = some record ∧
    ignores definition' record g = true

/-- Lookup number `i` is wanted for the script, the language and the features. -/
def WantedOf {T : Type} (t : Option (Directory T)) (script language : Tag) (tags : List Tag) (i : Nat) : Prop :=
  ∃ t', t = some t' ∧ ∃ found, lookupsFor t' script language = .ok found ∧ ∃ tag ∈ tags, ∃ record, (tag, i, record) ∈ found

/-- Two tables, which are used with two glyph definitions, have lookups that correspond: for each that is wanted in the one, there is
one that is wanted in the other, in the same order; and those that correspond pass over the same glyphs and have subtables that do
alike. -/
structure Corresponds {T : Type} (alike : T → T → Prop) (R : Nat → Nat → Prop) (definition definition' : Option gdef.GlyphDefinition)
    (script language : Tag) (tags : List Tag) (t t' : Option (Directory T)) : Prop where
  there : ∀ i, WantedOf t script language tags i → ∃ j, R i j ∧ WantedOf t' script language tags j
  back : ∀ j, WantedOf t' script language tags j → ∃ i, R i j ∧ WantedOf t script language tags i
  order : ∀ i j i' j', WantedOf t script language tags i → WantedOf t script language tags i' → R i j → R i' j' → (i < i' ↔ j < j')
  passes : ∀ i j, R i j → ∀ g, PassesOver definition t i g ↔ PassesOver definition' t' j g
  tables : ∀ i j, R i j → List.Forall₂ alike (tablesOf t i) (tablesOf t' j)

/-- The same glyphs are marks. -/
def MarksAlike (definition definition' : Option gdef.GlyphDefinition) : Prop :=
  ∀ g, (∃ t, definition = some t ∧ classIn t.glyph_class g = 3) ↔ ∃ t, definition' = some t ∧ classIn t.glyph_class g = 3

/-! ## Other numbers -/

/-- An action with another number for its lookup. -/
def renumberAction (f : Nat → Nat) (a : Action) : Action := { a with lookup_index := f a.lookup_index }

/-- A context with other numbers for the lookups it asks for. -/
def renumberContext (f : Nat → Nat) : Context → Context
  | .format1 t => .format1 { t with records := t.records.map fun set =>
      { set with records := set.records.map fun rule => { rule with actions := rule.actions.map (renumberAction f) } } }
  | .format2 t => .format2 { t with records := t.records.map (Option.map fun set =>
      { set with records := set.records.map fun rule => { rule with actions := rule.actions.map (renumberAction f) } }) }
  | .format3 t => .format3 { t with actions := t.actions.map (renumberAction f) }

/-- A chained context with other numbers for the lookups it asks for. -/
def renumberChain (f : Nat → Nat) : ChainedContext → ChainedContext
  | .format1 t => .format1 { t with records := t.records.map fun set =>
      { set with records := set.records.map fun rule => { rule with actions := rule.actions.map (renumberAction f) } } }
  | .format2 t => .format2 { t with records := t.records.map (Option.map fun set =>
      { set with records := set.records.map fun rule => { rule with actions := rule.actions.map (renumberAction f) } }) }
  | .format3 t => .format3 { t with actions := t.actions.map (renumberAction f) }

/-- A subtable of GSUB with other numbers for the lookups it asks for. -/
def renumberSubstitution (f : Nat → Nat) : gsub.Type_ → gsub.Type_
  | .contextualSubstitution t => .contextualSubstitution (renumberContext f t)
  | .chainedContextualSubstitution t => .chainedContextualSubstitution (renumberChain f t)
  | x => x

/-- A subtable of GPOS with other numbers for the lookups it asks for. -/
def renumberPositioning (f : Nat → Nat) : gpos.Type_ → gpos.Type_
  | .contextualPositioning t => .contextualPositioning (renumberContext f t)
  | .chainedContextualPositioning t => .chainedContextualPositioning (renumberChain f t)
  | x => x

/-- Two lookups have the same flags and set of marks, and the same subtables, except for the numbers that these ask for; or neither is
there. -/
def SameRecord {T : Type} (renumber : T → T) : Option (lookup.Record T) → Option (lookup.Record T) → Prop
  | some record, some record' => record'.flags = record.flags ∧ record'.mark_filtering_set = record.mark_filtering_set ∧
    record'.tables = record.tables.map renumber
  | none, none => True
  | _, _ => False

/-- The second table has what the first needs for the script, the language and the features, under the numbers that `f` gives. `used`
tells which lookups of the first table are needed: those that are wanted, and those that the needed ones ask for. Where the wanted
ones come in some order, those with the new numbers do so, too. Each needed lookup is the same under its new number. -/
structure Retains {T : Type} (actions : T → List Action) (renumber : (Nat → Nat) → T → T) (f : Nat → Nat) (used : Nat → Prop)
    (script language : Tag) (tags : List Tag) (t t' : Option (Directory T)) : Prop where
  wanted : ∀ i, WantedOf t script language tags i → used i
  asked : ∀ x, t = some x → ∀ i j, used i → Asks actions x i j → used j
  same : ∀ j, WantedOf t' script language tags j ↔ ∃ i, f i = j ∧ WantedOf t script language tags i
  order : ∀ i j, WantedOf t script language tags i → WantedOf t script language tags j → i < j → f i < f j
  records : ∀ i, used i →
    SameRecord (renumber f) (t.bind fun t => t.lookups.records[i]?) (t'.bind fun t => t.lookups.records[f i]?)

end OpenType.Spec
