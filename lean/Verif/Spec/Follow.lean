import Verif.Model.Gsub
import Verif.Model.Gpos
import Verif.Spec.Walk
/-!
# Specification: subtables and what they stand for

A subtable of a lookup may be an extension, which stands for a subtable somewhere else. Here is, in terms of the bytes
of a GSUB or GPOS table at `p` and without any reader, where the subtables are and what they stand for; and the program
with which a user of the crate gets them.
-/

namespace OpenType.Spec
open OpenType lookup directory

/-- Subtable number `j` of lookup number `i` is at `a`, and the lookup has the given type. -/
def SubtableAt (cfg : Cfg) (d : Data) (p i j type_ a : Nat) : Prop :=
  ∃ l n offset, LookupAt cfg d p i l ∧ U16 d l type_ ∧ U16 d (l + 4) n ∧ j < n ∧ U16 d (l + 6 + 2 * j) offset ∧
    a = l + offset

/-- The subtable of the given type at `a` stands for one of type `type'` at `a'`. An extension, the type of which is
`extension`, has these behind its format, the place as a distance from the extension; any other subtable stands for
itself. -/
def StandsFor (extension : Nat) (d : Data) (type_ a type' a' : Nat) : Prop :=
  (type_ ≠ extension ∧ type' = type_ ∧ a' = a) ∨
    type_ = extension ∧ ∃ offset, U16 d (a + 2) type' ∧ U32 d (a + 4) offset ∧ a' = a + offset

/-- What a user of the crate does in order to get subtable number `j` of lookup number `i` of a table that was read at `p`:
they take it from the table and, if it is an extension, add up the offsets that lead to it and the one it has, and read
from there what it stands for. `extension` tells whether a subtable is an extension, with which type and offset. -/
def subtable {T : Type} (extension : T → Option (Nat × Nat)) (readTable : Nat → Reader T) (p : Nat) (t : Directory T)
    (i j : Nat) : Reader (Option T) :=
  match t.lookups.offsets[i]?, t.lookups.records[i]? with
  | some o, some record =>
    match record.table_offsets[j]?, record.tables[j]? with
    | some s, some table =>
      match extension table with
      | some (type_, offset) => do
        let x ← jumpTake (p + t.lookup_offset + o + s) offset (readTable type_)
        return some x
      | none => return some table
    | _, _ => return none
  | _, _ => return none

/-- Extensions among the subtables of GSUB. -/
def substitutionExtension : gsub.Type_ → Option (Nat × Nat)
  | .extensionSubstitution t => some (t.type_, t.offset)
  | _ => none

/-- Extensions among the subtables of GPOS. -/
def positioningExtension : gpos.Type_ → Option (Nat × Nat)
  | .extensionPositioning t => some (t.type_, t.offset)
  | _ => none

end OpenType.Spec
