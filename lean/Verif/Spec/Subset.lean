import Verif.Spec.Renumber
/-!
# Specification: fonts with other glyphs

Two fonts, one of which has the glyphs of the other, or some of them, perhaps under other numbers. `G g h` says that glyph `g` of the
one is glyph `h` of the other, and `R i j` that lookup number `i` of the one corresponds to lookup number `j` of the other. All is in
terms of the values of the tables, where there are any.
-/

namespace OpenType.Spec
open OpenType lookup directory context coverage class_

/-- Two lists are the same one by one, but elements that are dead may be missing from the other. -/
inductive SameBut {α β : Type} (same : α → β → Prop) (dead : α → Prop) (dead' : β → Prop) : List α → List β → Prop
  | nil : SameBut same dead dead' [] []
  | cons {x y xs ys} : same x y → SameBut same dead dead' xs ys → SameBut same dead dead' (x :: xs) (y :: ys)
  | left {x xs ys} : dead x → SameBut same dead dead' xs ys → SameBut same dead dead' (x :: xs) ys
  | right {y xs ys} : dead' y → SameBut same dead dead' xs ys → SameBut same dead dead' xs (y :: ys)

/-- The same error, or values that are alike. -/
inductive OutcomesBy {α β : Type} (alike : α → β → Prop) : Except Err α → Except Err β → Prop
  | error {e} : OutcomesBy alike (.error e) (.error e)
  | ok {x y} : alike x y → OutcomesBy alike (.ok x) (.ok y)

/-! ## What subtables do -/

/-- The glyph of the first font is in the second, too. -/
def Kept (G : Nat → Nat → Prop) (g : Nat) : Prop := ∃ h, G g h

/-- The glyph of the second font is in the first, too. -/
def Known (G : Nat → Nat → Prop) (h : Nat) : Prop := ∃ g, G g h

/-- Replacements by the same glyphs, or actions that are alike on sequences of the same length. -/
inductive ReactionsBy (G R : Nat → Nat → Prop) : Reaction → Reaction → Prop
  | replaced {glyphs glyphs' n} : List.Forall₂ G glyphs glyphs' → ReactionsBy G R (.replaced glyphs n) (.replaced glyphs' n)
  | sequence {n actions actions'} : ActionsAlike R actions actions' → ReactionsBy G R (.sequence n actions) (.sequence n actions')

/-- Two subtables of GSUB do alike at the same glyph, if the glyphs around it are the same. -/
def SubstitutionsBy (G R : Nat → Nat → Prop) (x y : gsub.Type_) : Prop :=
  ∀ before before' g g' following following', List.Forall₂ G before before' → G g g' → List.Forall₂ G following following' →
    ResultsAlike (ReactionsBy G R) (react before g following x) (react before' g' following' y) ∧
    ResultsAlike G (reverseAct before g following x) (reverseAct before' g' following' y)

/-- A subtable of GSUB does nothing to glyphs with `P` among others with `P`. -/
def SubstitutionIdle (P : Nat → Prop) (x : gsub.Type_) : Prop :=
  ∀ before g following, (∀ h ∈ before, P h) → P g → (∀ h ∈ following, P h) →
    react before g following x = .ok none ∧ reverseAct before g following x = .ok none

/-- Two subtables of GPOS do alike at the same glyph, if the glyphs around it are the same. -/
def PositioningsBy (G R : Nat → Nat → Prop) (x y : gpos.Type_) : Prop :=
  ∀ before before' base base' component g g' following following', List.Forall₂ G before before' → Option.Rel G base base' →
    G g g' → List.Forall₂ G following following' →
    ResultsAlike (ResponsesAlike R) (respond before base component g following x) (respond before' base' component g' following' y)

/-- A subtable of GPOS does nothing to glyphs with `P` among others with `P`. -/
def PositioningIdle (P : Nat → Prop) (x : gpos.Type_) : Prop :=
  ∀ before base component g following, (∀ h ∈ before, P h) → (∀ h ∈ base, P h) → P g → (∀ h ∈ following, P h) →
    respond before base component g following x = .ok none

/-! ## Tables -/

/-- Two tables, which are used with two glyph definitions, have lookups that correspond: for each that is wanted in the one, there is
one that is wanted in the other, in the same order; and those that correspond pass over the same glyphs and have subtables that do
alike, except for some that do nothing. -/
structure CorrespondsBy {T : Type} (alike : T → T → Prop) (idle idle' : T → Prop) (G R : Nat → Nat → Prop)
    (definition definition' : Option gdef.GlyphDefinition) (script language : Tag) (tags : List Tag) (t t' : Option (Directory T)) :
    Prop where
  there : ∀ i, WantedOf t script language tags i → ∃ j, R i j ∧ WantedOf t' script language tags j
  back : ∀ j, WantedOf t' script language tags j → ∃ i, R i j ∧ WantedOf t script language tags i
  order : ∀ i j i' j', WantedOf t script language tags i → WantedOf t script language tags i' → R i j → R i' j' → (i < i' ↔ j < j')
  passes : ∀ i j, R i j → ∀ g h, G g h → (PassesOver definition t i g ↔ PassesOver definition' t' j h)
  tables : ∀ i j, R i j → SameBut alike idle idle' (tablesOf t i) (tablesOf t' j)

/-- The same glyphs are marks. -/
def MarksBy (G : Nat → Nat → Prop) (definition definition' : Option gdef.GlyphDefinition) : Prop :=
  ∀ g h, G g h →
    ((∃ t, definition = some t ∧ classIn t.glyph_class g = 3) ↔ ∃ t, definition' = some t ∧ classIn t.glyph_class h = 3)

/-- The same glyph in the same place. -/
def ItemsBy (G : Nat → Nat → Prop) (x y : Item) : Prop :=
  G x.glyph y.glyph ∧ y.component = x.component ∧ y.placements = x.placements

/-! ## Subtables with other glyphs -/

/-- No two glyphs of the one font are the same glyph of the other. -/
def OneToOne (G : Nat → Nat → Prop) : Prop := ∀ g h g' h', G g h → G g' h' → (g = g' ↔ h = h')

/-- There is a glyph among these that is not with `P`. -/
def Dead (P : Nat → Prop) (glyphs : List Nat) : Prop := ∃ g ∈ glyphs, ¬P g

/-- There is a class among these that no glyph with `P` has. -/
def DeadClass (P : Nat → Prop) (classes : Class) (indices : List Nat) : Prop := ∃ k ∈ indices, ∀ g, P g → classOf classes g ≠ k

/-- The same glyphs are covered. -/
def CoverageBy (G : Nat → Nat → Prop) (c c' : Coverage) : Prop := ∀ g h, G g h → covers g c = covers h c'

/-- The same glyphs have the same classes. -/
def ClassBy (G : Nat → Nat → Prop) (k k' : Class) : Prop := ∀ g h, G g h → classOf k g = classOf k' h

/-- The entries for the same glyphs are alike, whatever their numbers. -/
def EntriesBy {α β : Type} (G : Nat → Nat → Prop) (alike : α → β → Prop) (c : Coverage) (xs : List α) (c' : Coverage) (ys : List β) :
    Prop :=
  ∀ g h, G g h → ResultsAlike alike (entryOf c xs g) (entryOf c' ys h)

/-- The entries for the classes of the same glyphs are alike. -/
def ClassEntriesBy {α β : Type} (G : Nat → Nat → Prop) (alike : α → β → Prop) (c : Coverage) (k : Class) (xs : List (Option α))
    (c' : Coverage) (k' : Class) (ys : List (Option β)) : Prop :=
  ∀ g h, G g h → ResultsAlike alike (classEntryOf c k xs g) (classEntryOf c' k' ys h)

/-- The rules of contexts are the same, but those with glyphs, or with classes, that are not in both fonts may be missing. -/
def ContextBy (G R : Nat → Nat → Prop) : Context → Context → Prop
  | .format1 t, .format1 t' =>
    EntriesBy G (fun set set' => SameBut
      (fun x y : context.Record => List.Forall₂ G x.glyph_ids y.glyph_ids ∧ ActionsAlike R x.actions y.actions)
      (fun x => Dead (Kept G) x.glyph_ids) (fun y => Dead (Known G) y.glyph_ids) set.records set'.records)
      t.coverage t.records t'.coverage t'.records
  | .format2 t, .format2 t' => ClassBy G t.class_ t'.class_ ∧
    ClassEntriesBy G (fun set set' => SameBut
      (fun x y : ClassRecord => x.indices = y.indices ∧ ActionsAlike R x.actions y.actions)
      (fun x => DeadClass (Kept G) t.class_ x.indices) (fun y => DeadClass (Known G) t'.class_ y.indices) set.records set'.records)
      t.coverage t.class_ t.records t'.coverage t'.class_ t'.records
  | .format3 t, .format3 t' => List.Forall₂ (CoverageBy G) t.coverages t'.coverages ∧ ActionsAlike R t.actions t'.actions
  | _, _ => False

/-- The same for chained contexts. -/
def ChainBy (G R : Nat → Nat → Prop) : ChainedContext → ChainedContext → Prop
  | .format1 t, .format1 t' =>
    EntriesBy G (fun set set' => SameBut
      (fun x y : ChainedRecord => List.Forall₂ G x.backward_glyph_ids y.backward_glyph_ids ∧ List.Forall₂ G x.glyph_ids y.glyph_ids ∧
        List.Forall₂ G x.forward_glyph_ids y.forward_glyph_ids ∧ ActionsAlike R x.actions y.actions)
      (fun x => Dead (Kept G) x.backward_glyph_ids ∨ Dead (Kept G) x.glyph_ids ∨ Dead (Kept G) x.forward_glyph_ids)
      (fun y => Dead (Known G) y.backward_glyph_ids ∨ Dead (Known G) y.glyph_ids ∨ Dead (Known G) y.forward_glyph_ids)
      set.records set'.records) t.coverage t.records t'.coverage t'.records
  | .format2 t, .format2 t' =>
    ClassBy G t.backward_class t'.backward_class ∧ ClassBy G t.class_ t'.class_ ∧ ClassBy G t.forward_class t'.forward_class ∧
    ClassEntriesBy G (fun set set' => SameBut
      (fun x y : ChainedClassRecord => x.backward_indices = y.backward_indices ∧ x.indices = y.indices ∧
        x.forward_indices = y.forward_indices ∧ ActionsAlike R x.actions y.actions)
      (fun x => DeadClass (Kept G) t.backward_class x.backward_indices ∨ DeadClass (Kept G) t.class_ x.indices ∨
        DeadClass (Kept G) t.forward_class x.forward_indices)
      (fun y => DeadClass (Known G) t'.backward_class y.backward_indices ∨ DeadClass (Known G) t'.class_ y.indices ∨
        DeadClass (Known G) t'.forward_class y.forward_indices)
      set.records set'.records) t.coverage t.class_ t.records t'.coverage t'.class_ t'.records
  | .format3 t, .format3 t' =>
    List.Forall₂ (CoverageBy G) t.backward_coverages t'.backward_coverages ∧ List.Forall₂ (CoverageBy G) t.coverages t'.coverages ∧
      List.Forall₂ (CoverageBy G) t.forward_coverages t'.forward_coverages ∧ ActionsAlike R t.actions t'.actions
  | _, _ => False

/-- Two subtables of GSUB have the same for the glyphs that are in both fonts. -/
def SubsetSubstitution (G R : Nat → Nat → Prop) : gsub.Type_ → gsub.Type_ → Prop
  | .singleSubstitution t, .singleSubstitution t' => ∀ g h, G g h → ResultsAlike G (replace t g) (replace t' h)
  | .multipleSubstitution t, .multipleSubstitution t' =>
    EntriesBy G (fun x y : gsub.Sequence => List.Forall₂ G x.glyph_ids y.glyph_ids) t.coverage t.records t'.coverage t'.records
  | .alternateSubstitution _, .alternateSubstitution _ => True
  | .ligatureSubstitution t, .ligatureSubstitution t' =>
    EntriesBy G (fun set set' => SameBut
      (fun x y : gsub.Ligature => List.Forall₂ G x.glyph_ids y.glyph_ids ∧ G x.glyph_id y.glyph_id)
      (fun x => Dead (Kept G) x.glyph_ids) (fun y => Dead (Known G) y.glyph_ids) set.records set'.records)
      t.coverage t.records t'.coverage t'.records
  | .contextualSubstitution t, .contextualSubstitution t' => ContextBy G R t t'
  | .chainedContextualSubstitution t, .chainedContextualSubstitution t' => ChainBy G R t t'
  | .reverseChainedContextualSubstibution t, .reverseChainedContextualSubstibution t' =>
    List.Forall₂ (CoverageBy G) t.backward_coverages t'.backward_coverages ∧
      List.Forall₂ (CoverageBy G) t.forward_coverages t'.forward_coverages ∧
      EntriesBy G G t.coverage t.glyph_ids t'.coverage t'.glyph_ids
  | _, _ => False

/-- Two subtables of GPOS have the same for the glyphs that are in both fonts. -/
def SubsetPositioning (G R : Nat → Nat → Prop) : gpos.Type_ → gpos.Type_ → Prop
  | .singleAdjustment t, .singleAdjustment t' => ∀ g h, G g h → place t g = place t' h
  | .pairAdjustment t, .pairAdjustment t' => ∀ g h g' h', G g h → G g' h' → adjust t g g' = adjust t' h h'
  | .cursiveAttachment t, .cursiveAttachment t' => ∀ g h, G g h → connect t g = connect t' h
  | .markToBaseAttachment t, .markToBaseAttachment t' => ∀ g h g' h', G g h → G g' h' → attachToBase t g g' = attachToBase t' h h'
  | .markToLigatureAttachment t, .markToLigatureAttachment t' =>
    ∀ c g h g' h', G g h → G g' h' → attachToLigature t c g g' = attachToLigature t' c h h'
  | .markToMarkAttachment t, .markToMarkAttachment t' => ∀ g h g' h', G g h → G g' h' → attachToMark t g g' = attachToMark t' h h'
  | .contextualPositioning t, .contextualPositioning t' => ContextBy G R t t'
  | .chainedContextualPositioning t, .chainedContextualPositioning t' => ChainBy G R t t'
  | _, _ => False

/-- What a context covers. -/
def contextCoverage : Context → Option Coverage
  | .format1 t => some t.coverage
  | .format2 t => some t.coverage
  | .format3 t => t.coverages.head?

/-- What a chained context covers. -/
def chainCoverage : ChainedContext → Option Coverage
  | .format1 t => some t.coverage
  | .format2 t => some t.coverage
  | .format3 t => t.coverages.head?

/-- What a subtable of GSUB covers. -/
def substitutionCoverage : gsub.Type_ → Option Coverage
  | .singleSubstitution (.format1 t) => some t.coverage
  | .singleSubstitution (.format2 t) => some t.coverage
  | .multipleSubstitution t => some t.coverage
  | .alternateSubstitution t => some t.coverage
  | .ligatureSubstitution t => some t.coverage
  | .contextualSubstitution t => contextCoverage t
  | .chainedContextualSubstitution t => chainCoverage t
  | .reverseChainedContextualSubstibution t => some t.coverage
  | .extensionSubstitution _ => none

/-- What a subtable of GPOS covers. -/
def positioningCoverage : gpos.Type_ → Option Coverage
  | .singleAdjustment (.format1 t) => some t.coverage
  | .singleAdjustment (.format2 t) => some t.coverage
  | .pairAdjustment (.format1 t) => some t.coverage
  | .pairAdjustment (.format2 t) => some t.coverage
  | .cursiveAttachment t => some t.coverage
  | .markToBaseAttachment t => some t.mark_coverage
  | .markToLigatureAttachment t => some t.mark_coverage
  | .markToMarkAttachment t => some t.mark1_coverage
  | .contextualPositioning t => contextCoverage t
  | .chainedContextualPositioning t => chainCoverage t
  | .extensionPositioning _ => none

end OpenType.Spec
