import Verif.Spec.Resolve
import Verif.Spec.Encode
import Verif.Spec.Apart
/-!
# Specification: a table put together from parts

How to put a GSUB or GPOS table together from a list of scripts, a list of features and subtables that were each written on their own:
the lists come behind the header, then the lookups, which have nothing but extensions, and then the subtables one after another. Nothing
in the parts is changed, and they can be of any size.
-/

namespace OpenType.Spec
open OpenType lookup directory

/-- A lookup to be put together: the type of its subtables, its flags, its set of marks, if it has one, and the bytes of its subtables,
each as if it were on its own. -/
structure Planned where
  type_ : Nat
  flags : Nat
  mark_filtering_set : Option Nat
  bodies : List Data

/-- How many bytes come before the extensions of the lookup. -/
def Planned.head (l : Planned) : Nat := 6 + 2 * l.bodies.length + (if l.mark_filtering_set.isSome then 2 else 0)

/-- How many bytes the lookup has with its extensions. -/
def Planned.size (l : Planned) : Nat := l.head + 8 * l.bodies.length

/-- The extensions, the first of them at `p`, for subtables of a type that come one after another from `e` on. -/
def extensionsAt (type_ : Nat) : Nat → Nat → List Data → Data
  | _, _, [] => []
  | p, e, body :: bodies => enc16 1 ++ enc16 type_ ++ enc32 (e - p) ++ extensionsAt type_ (p + 8) (e + body.length) bodies

/-- The lookup at `p`, the subtables of which come one after another from `e` on; `number` is the type of extensions. -/
def Planned.bytesAt (number p e : Nat) (l : Planned) : Data :=
  enc16 number ++ enc16 l.flags ++ enc16 l.bodies.length ++ enc16s ((List.range l.bodies.length).map fun j => l.head + 8 * j) ++
    (match l.mark_filtering_set with
      | none => []
      | some n => enc16 n) ++ extensionsAt l.type_ (p + l.head) e l.bodies

/-- Lookups one after another from `p` on, the subtables of which come one after another from `e` on. -/
def lookupsAt (number : Nat) : Nat → Nat → List Planned → Data
  | _, _, [] => []
  | p, e, l :: ls => l.bytesAt number p e ++ lookupsAt number (p + l.size) (e + l.bodies.flatten.length) ls

/-- The offsets of lookups one after another, the first of which is `o`. -/
def offsetsFrom : Nat → List Planned → List Nat
  | _, [] => []
  | o, l :: ls => o :: offsetsFrom (o + l.size) ls

/-- The table with the scripts, the features and the lookups. -/
def assemble (number : Nat) (scripts features : Data) (ls : List Planned) : Data :=
  let start := 10 + scripts.length + features.length
  let first := start + 2 + 2 * ls.length
  enc16 1 ++ enc16 0 ++ enc16 10 ++ enc16 (10 + scripts.length) ++ enc16 start ++ scripts ++ features ++ enc16 ls.length ++
    enc16s (offsetsFrom (2 + 2 * ls.length) ls) ++ lookupsAt number first (first + (ls.map Planned.size).sum) ls ++
    ls.flatMap fun l => l.bodies.flatten

/-- The parts are those of a table `t`: they read, each on its own, as its scripts, its features and its subtables, none of which is an
extension; the lookups are planned with the same flags and sets of marks; and all numbers fit. -/
structure PlanFor {T : Type} (cfg : Cfg) (number : Nat) (readTable : Nat → Reader T) (extension : T → Option (Nat × Nat)) (t : Directory T)
    (s f : Data) (ls : List Planned) : Prop where
  scripts : Reads script.Scripts.read s 0 t.scripts
  features : Reads feature.Features.read f 0 t.features
  lookups : List.Forall₂ (fun (record : lookup.Record T) (l : Planned) =>
    record.flags = l.flags ∧ record.mark_filtering_set = l.mark_filtering_set ∧
    List.Forall₂ (fun x body => Reads (readTable l.type_) body 0 x ∧ extension x = none) record.tables l.bodies) t.lookups.records ls
  fine : ∀ l ∈ ls, l.type_ < 65536 ∧ l.flags < 65536 ∧ FlagsOk cfg 0x00E0 l.flags ∧
    (l.flags.testBit 4 = l.mark_filtering_set.isSome) ∧ ∀ n, l.mark_filtering_set = some n → n < 65536
  start : 10 + s.length + f.length < 65536
  offsets : 2 + 2 * ls.length + (ls.map Planned.size).sum < 65536
  length : (assemble number s f ls).length < 4294967296

/-- A file has the table `t` put together from parts; or it has no such table, if there is none. -/
def HasAssembled {T : Type} (accept : Tag → Bool) (cfg : Cfg) (d : Data) (table : TableType) (number : Nat) (readTable : Nat → Reader T)
    (extension : T → Option (Nat × Nat)) : Option (Directory T) → Prop
  | none => HasTable accept cfg d table none
  | some t => ∃ s f ls, PlanFor cfg number readTable extension t s f ls ∧
      HasTable accept cfg d table (some (assemble number s f ls))

end OpenType.Spec
