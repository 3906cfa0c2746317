import Verif.Spec.Renumber
/-!
# Specification: extensions and what they stand for

Large fonts have extensions in the place of subtables, since those have offsets of 32 bits. Here is what a table says with the subtables
that its extensions stand for instead of them.
-/

namespace OpenType.Spec
open OpenType lookup directory

/-- A table with other subtables: `x i j` is in the place of subtable number `j` of lookup number `i`. -/
def withSubtables {T : Type} (x : Nat → Nat → T) (t : Directory T) : Directory T :=
  { t with lookups := { t.lookups with records := t.lookups.records.mapIdx fun i record =>
      { record with tables := record.tables.mapIdx fun j _ => x i j } } }

/-- In the bytes of the table at `p`, subtable number `j` of lookup number `i` stands for `x i j`: this is read from where the extension
says, with the type that it says, which is not again the type of extensions; or from the place of the subtable itself, if it is none. -/
def StandFor {T : Type} (cfg : Cfg) (extension : Nat) (isTable : Nat → Data → Nat → T → Prop) (d : Data) (p : Nat) (x : Nat → Nat → T) :
    Prop :=
  ∀ i j type_ a, SubtableAt cfg d p i j type_ a →
    ∃ type' a', StandsFor extension d type_ a type' a' ∧ type' ≠ extension ∧ isTable type' d a' (x i j)

/-- Two lookups have the same flags, set of marks and subtables. -/
def SameLookup {T : Type} (record record' : lookup.Record T) : Prop :=
  record.flags = record'.flags ∧ record.mark_filtering_set = record'.mark_filtering_set ∧ record.tables = record'.tables

/-- Two tables have the same scripts, features and lookups, wherever these are in the bytes. -/
structure SameContent {T : Type} (t t' : Directory T) : Prop where
  scripts : t.scripts = t'.scripts
  features : t.features = t'.features
  lookups : List.Forall₂ SameLookup t.lookups.records t'.lookups.records

end OpenType.Spec
