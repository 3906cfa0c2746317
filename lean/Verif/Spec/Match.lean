import Verif.Spec.Apply
/-!
# Specification: where contexts match

What the bytes of contexts and chained contexts say about a glyph among others, and the programs with which a user of the
crate finds it out from the values that are read (see `Spec/Apply.lean`). The text is given by the glyph in question, those
that follow it, and those that come before it, the nearest first. The result is the list of actions of the first rule that
matches, and the number of glyphs it is about.
-/

namespace OpenType.Spec
open OpenType coverage class_ context

/-! ## In bytes -/

/-- The list `ys` begins with elements that stand, one by one, in relation `R` to those of `xs`. -/
def Begins {α β : Type} (R : β → α → Prop) (xs : List α) (ys : List β) : Prop :=
  ∀ (k : Nat) x, xs[k]? = some x → ∃ y, ys[k]? = some y ∧ R y x

/-- Rule `k` of the set at `s`. -/
def RuleIn {α : Type} (IsRule : Data → Nat → α → Prop) (d : Data) (s k : Nat) (rule : α) : Prop :=
  ∃ n offset, U16 d s n ∧ k < n ∧ U16 d (s + 2 + 2 * k) offset ∧ IsRule d (s + offset) rule

/-- The first rule of the set at `s` that fits. -/
def FirstRule {α : Type} (IsRule : Data → Nat → α → Prop) (d : Data) (s : Nat) (fits : α → Prop) (rule : α) : Prop :=
  ∃ k, RuleIn IsRule d s k rule ∧ fits rule ∧ ∀ j < k, ∀ other, RuleIn IsRule d s j other → ¬fits other

/-- The set of rules for glyph `g` in a context of format 2 at `p`, which has the offset of the classes at `a` and the
number of its sets at `b`: it goes by the class of the glyph. -/
def ClassEntryAt (d : Data) (p a b g s : Nat) : Prop :=
  ∃ i classes k n offset, CoveredIn d p g i ∧ U16 d a classes ∧ ClassedAs d (p + classes) g k ∧ U16 d b n ∧ k < n ∧
    U16 d (b + 2 + 2 * k) offset ∧ offset ≠ 0 ∧ s = p + offset

/-- The context covers glyph `g`, whose class is one for which it does not have a place. -/
def MissingClass (d : Data) (p a b g : Nat) : Prop :=
  ∃ i classes k n, CoveredIn d p g i ∧ U16 d a classes ∧ ClassedAs d (p + classes) g k ∧ U16 d b n ∧ n ≤ k

/-- The glyphs begin with some that the `n` coverages whose offsets are at `a` have, one by one. -/
def CoveredBy (d : Data) (p a n : Nat) (glyphs : List Nat) : Prop :=
  ∀ k < n, ∃ g offset i, glyphs[k]? = some g ∧ U16 d (a + 2 * k) offset ∧ CoveredAs d (p + offset) g i

/-- The context at `p` matches glyph `g` followed by `after`: the first `y.1` of these glyphs. It asks for the actions `y.2`. -/
def MatchedBy (d : Data) (p g : Nat) (after : List Nat) (y : Nat × List Action) : Prop :=
  (U16 d p 1 ∧ ∃ s rule, EntryAt d p g s ∧ FirstRule IsRecord d s (fun rule => Begins Eq rule.glyph_ids after) rule ∧
    y = (rule.glyph_ids.length + 1, rule.actions)) ∨
  (U16 d p 2 ∧ ∃ classes s rule, U16 d (p + 4) classes ∧ ClassEntryAt d p (p + 4) (p + 6) g s ∧
    FirstRule IsContextClassRecord d s (fun rule => Begins (ClassedAs d (p + classes)) rule.indices after) rule ∧
    y = (rule.indices.length + 1, rule.actions)) ∨
  (U16 d p 3 ∧ ∃ n m, U16 d (p + 2) n ∧ U16 d (p + 4) m ∧ CoveredBy d p (p + 6) n (g :: after) ∧ y.1 = n ∧
    ArrayOf (IsAction d) 4 (p + 6 + 2 * n) m y.2)

/-- The context at `p` covers glyph `g` but has no place for its rules. -/
def MissingRules (d : Data) (p g : Nat) : Prop :=
  (U16 d p 1 ∧ Missing d p g) ∨ (U16 d p 2 ∧ MissingClass d p (p + 4) (p + 6) g)

/-- The chained context at `p` matches glyph `g` between `before` and `after`: it is about the first `y.1` of these glyphs from `g`
on, and asks for the actions `y.2`. What a rule wants to follow comes after the glyphs it is about. -/
def ChainMatchedBy (d : Data) (p : Nat) (before : List Nat) (g : Nat) (after : List Nat) (y : Nat × List Action) : Prop :=
  (U16 d p 1 ∧ ∃ s rule, EntryAt d p g s ∧
    FirstRule IsChainedRecord d s (fun rule => Begins Eq rule.backward_glyph_ids before ∧ Begins Eq rule.glyph_ids after ∧
      Begins Eq rule.forward_glyph_ids (after.drop rule.glyph_ids.length)) rule ∧
    y = (rule.glyph_ids.length + 1, rule.actions)) ∨
  (U16 d p 2 ∧ ∃ classes1 classes2 classes3 s rule, U16 d (p + 4) classes1 ∧ U16 d (p + 6) classes2 ∧ U16 d (p + 8) classes3 ∧
    ClassEntryAt d p (p + 6) (p + 10) g s ∧
    FirstRule IsChainedClassRecord d s (fun rule => Begins (ClassedAs d (p + classes1)) rule.backward_indices before ∧
      Begins (ClassedAs d (p + classes2)) rule.indices after ∧
      Begins (ClassedAs d (p + classes3)) rule.forward_indices (after.drop rule.indices.length)) rule ∧
    y = (rule.indices.length + 1, rule.actions)) ∨
  (U16 d p 3 ∧ ∃ n1 n2 n3 m,
    let p1 := p + 4 + 2 * n1
    let p2 := p1 + 2 + 2 * n2
    let p3 := p2 + 2 + 2 * n3
    U16 d (p + 2) n1 ∧ U16 d p1 n2 ∧ U16 d p2 n3 ∧ U16 d p3 m ∧ CoveredBy d p (p + 4) n1 before ∧
    CoveredBy d p (p1 + 2) n2 (g :: after) ∧ CoveredBy d p (p2 + 2) n3 ((g :: after).drop n2) ∧
    y.1 = n2 ∧ ArrayOf (IsAction d) 4 (p3 + 2) m y.2)

/-- The chained context at `p` covers glyph `g` but has no place for its rules. -/
def MissingChain (d : Data) (p g : Nat) : Prop :=
  (U16 d p 1 ∧ Missing d p g) ∨ (U16 d p 2 ∧ MissingClass d p (p + 6) (p + 10) g)

/-- The glyphs around glyph `g` are those that the reverse chained substitution at `p` wants, and its number is `i` of `n`,
with the substitutes at `a`. -/
def ReverseAt (d : Data) (p : Nat) (before : List Nat) (g : Nat) (after : List Nat) (i n a : Nat) : Prop :=
  CoveredIn d p g i ∧ ∃ n1 n2,
    let p1 := p + 6 + 2 * n1
    let p2 := p1 + 2 + 2 * n2
    U16 d (p + 4) n1 ∧ U16 d p1 n2 ∧ U16 d p2 n ∧ CoveredBy d p (p + 6) n1 before ∧ CoveredBy d p (p1 + 2) n2 after ∧
    a = p2 + 2

/-- The reverse chained substitution at `p` replaces glyph `g` between `before` and `after` by `x`. -/
def ReversedBy (d : Data) (p : Nat) (before : List Nat) (g : Nat) (after : List Nat) (x : Nat) : Prop :=
  ∃ i n a, ReverseAt d p before g after i n a ∧ i < n ∧ U16 d (a + 2 * i) x

/-- The reverse chained substitution at `p` has no substitute for glyph `g` although it should. -/
def MissingSubstitute (d : Data) (p : Nat) (before : List Nat) (g : Nat) (after : List Nat) : Prop :=
  ∃ i n a, ReverseAt d p before g after i n a ∧ n ≤ i

/-! ## Programs -/

/-- Whether `ys` begins with elements that pass the tests `xs`, one by one. -/
def begins {α : Type} (test : Nat → α → Bool) : List α → List Nat → Bool
  | [], _ => true
  | _ :: _, [] => false
  | x :: xs, y :: ys => test y x && begins test xs ys

/-- Whether a coverage has a glyph. -/
def covers (g : Nat) (coverage : Coverage) : Bool := (indexOf coverage g).isSome

/-- The set of rules for a glyph by its class. -/
def classEntryOf {α : Type} (coverage : Coverage) (classes : Class) (sets : List (Option α)) (g : Nat) :
    Except Err (Option α) :=
  match indexOf coverage g with
  | none => .ok none
  | some _ => element sets (classOf classes g)

/-- What is wanted of the first rule of a set that passes the test. -/
def ruleOf {Set Rule β : Type} (records : Set → List Rule) (wanted : Rule → β) (entry : Except Err (Option Set))
    (test : Rule → Bool) : Except Err (Option β) := do
  match ← entry with
  | none => return none
  | some set => return ((records set).find? test).map wanted

/-- How many glyphs a context is about, and its actions. -/
def matchContext : Context → Nat → List Nat → Except Err (Option (Nat × List Action))
  | .format1 t, g, after =>
    ruleOf Records.records (fun rule => (rule.glyph_ids.length + 1, rule.actions)) (entryOf t.coverage t.records g) fun rule =>
      begins (· == ·) rule.glyph_ids after
  | .format2 t, g, after =>
    ruleOf ClassRecords.records (fun rule => (rule.indices.length + 1, rule.actions)) (classEntryOf t.coverage t.class_ t.records g) fun rule =>
      begins (fun g k => classOf t.class_ g == k) rule.indices after
  | .format3 t, g, after => .ok (if begins covers t.coverages (g :: after) then some (t.coverages.length, t.actions) else none)

/-- How many glyphs a chained context is about, and its actions. -/
def matchChain : ChainedContext → List Nat → Nat → List Nat → Except Err (Option (Nat × List Action))
  | .format1 t, before, g, after =>
    ruleOf ChainedRecords.records (fun rule => (rule.glyph_ids.length + 1, rule.actions)) (entryOf t.coverage t.records g) fun rule =>
      begins (· == ·) rule.backward_glyph_ids before && (begins (· == ·) rule.glyph_ids after &&
        begins (· == ·) rule.forward_glyph_ids (after.drop rule.glyph_ids.length))
  | .format2 t, before, g, after =>
    ruleOf ChainedClassRecords.records (fun rule => (rule.indices.length + 1, rule.actions)) (classEntryOf t.coverage t.class_ t.records g) fun rule =>
      begins (fun g k => classOf t.backward_class g == k) rule.backward_indices before &&
      (begins (fun g k => classOf t.class_ g == k) rule.indices after &&
        begins (fun g k => classOf t.forward_class g == k) rule.forward_indices (after.drop rule.indices.length))
  | .format3 t, before, g, after =>
    .ok (if begins covers t.backward_coverages before && (begins covers t.coverages (g :: after) &&
        begins covers t.forward_coverages ((g :: after).drop t.coverages.length)) then some (t.coverages.length, t.actions)
      else none)

/-- What a reverse chained substitution replaces a glyph by. -/
def matchReverse (t : gsub.ReverseChainedContextualSubstibution) (before : List Nat) (g : Nat) (after : List Nat) :
    Except Err (Option Nat) :=
  if begins covers t.backward_coverages before && begins covers t.forward_coverages after then
    entryOf t.coverage t.glyph_ids g
  else .ok none

end OpenType.Spec
