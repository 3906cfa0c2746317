import Verif.Spec.Typeset
/-!
# Specification: how deep lookups call each other

Which lookups the contexts of a lookup ask for, and how deep such calls are nested: first in terms of the bytes, and then of the
values that are read.
-/

namespace OpenType.Spec
open OpenType lookup directory context

/-- Starting from something, one can make fewer than `n` steps. -/
def Fewer (step : Nat → Nat → Prop) : Nat → Nat → Prop
  | 0, _ => False
  | n + 1, i => ∀ j, step i j → Fewer step n j

/-- Nothing leads back to itself. -/
def NoCircles (step : Nat → Nat → Prop) : Prop := ∀ i, ¬Relation.TransGen step i i

/-! ## In bytes -/

/-- Lookup number `i` of the table at `p` asks for lookup number `j`: a context or chained context that one of its subtables stands
for matches some glyphs between others, and number `j` is among what it asks for. Contexts have the type `plain`, chained contexts
the type `chained`, and extensions the type `number`. -/
def Calls (cfg : Cfg) (number plain chained : Nat) (d : Data) (p i j : Nat) : Prop :=
  ∃ k, AtSubtable cfg number d p i k fun type_ a => ∃ before g following n actions,
    ((type_ = plain ∧ MatchedBy d a g following (n, actions)) ∨
      (type_ = chained ∧ ChainMatchedBy d a before g following (n, actions))) ∧
    ∃ action ∈ actions, action.lookup_index = j

/-- In GSUB. -/
def CallsInSubstitution (cfg : Cfg) (d : Data) (p : Nat) : Nat → Nat → Prop := Calls cfg 7 5 6 d p

/-- In GPOS. -/
def CallsInPositioning (cfg : Cfg) (d : Data) (p : Nat) : Nat → Nat → Prop := Calls cfg 9 7 8 d p

/-! ## Values -/

/-- All that the rules of a context ask for. -/
def contextActions : Context → List Action
  | .format1 t => t.records.flatMap fun set => set.records.flatMap (·.actions)
  | .format2 t => t.records.flatMap fun set => set.toList.flatMap fun set => set.records.flatMap (·.actions)
  | .format3 t => t.actions

/-- All that the rules of a chained context ask for. -/
def chainActions : ChainedContext → List Action
  | .format1 t => t.records.flatMap fun set => set.records.flatMap (·.actions)
  | .format2 t => t.records.flatMap fun set => set.toList.flatMap fun set => set.records.flatMap (·.actions)
  | .format3 t => t.actions

/-- All that a subtable of GSUB asks for. -/
def substitutionActions : gsub.Type_ → List Action
  | .contextualSubstitution t => contextActions t
  | .chainedContextualSubstitution t => chainActions t
  | _ => []

/-- All that a subtable of GPOS asks for. -/
def positioningActions : gpos.Type_ → List Action
  | .contextualPositioning t => contextActions t
  | .chainedContextualPositioning t => chainActions t
  | _ => []

/-- Lookup number `i` of a table asks for lookup number `j`. -/
def Asks {T : Type} (actions : T → List Action) (t : Directory T) (i j : Nat) : Prop :=
  ∃ record, t.lookups.records[i]? = some record ∧ ∃ table ∈ record.tables, ∃ action ∈ actions table, action.lookup_index = j

end OpenType.Spec
