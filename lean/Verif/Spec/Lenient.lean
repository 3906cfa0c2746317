import Verif.Spec.Gsub
import Verif.Spec.Gpos
/-!
# Specification: what the features that ignore incomplete data change

Maps from the value one build reads to the value a more lenient build reads. Nothing here mentions bytes or
readers.
-/

namespace OpenType.Spec
open OpenType lookup directory gpos

/-- `cfg'` refuses nothing that `cfg` accepts: it ignores what `cfg` ignores, and checks flags and sums only
if `cfg` does. -/
def Milder (cfg cfg' : Cfg) : Prop :=
  (cfg.ignoreIncompleteDirectories = true → cfg'.ignoreIncompleteDirectories = true) ∧
    (cfg.ignoreIncompleteMarks = true → cfg'.ignoreIncompleteMarks = true) ∧
    (cfg'.rejectInvalidFlags = true → cfg.rejectInvalidFlags = true) ∧
    (cfg'.overflowChecks = true → cfg.overflowChecks = true)

/-- The anchor of a mark without an offset is forgotten. -/
def forgiveMark (t : Mark1) : Mark1 :=
  if t.anchor_offset = 0 then { t with anchor := .format1 ⟨0, 0, 0⟩ } else t

/-- All marks of an array. -/
def forgiveMarks (t : Mark1s) : Mark1s := { t with records := t.records.map forgiveMark }

/-- The mark arrays of a subtable; only three types have one. -/
def forgiveTable : gpos.Type_ → gpos.Type_
  | .markToBaseAttachment t => .markToBaseAttachment { t with marks := forgiveMarks t.marks }
  | .markToLigatureAttachment t => .markToLigatureAttachment { t with marks := forgiveMarks t.marks }
  | .markToMarkAttachment t => .markToMarkAttachment { t with mark1s := forgiveMarks t.mark1s }
  | t => t

/-- Apply `f` to every subtable of every lookup. -/
def mapTables {T : Type} (f : T → T) (t : Directory T) : Directory T :=
  { t with lookups := { t.lookups with records := t.lookups.records.map fun r => { r with tables := r.tables.map f } } }

/-- The lists without an offset are forgotten. -/
def forgiveLists {T : Type} (t : Directory T) : Directory T :=
  { t with
    scripts := if t.script_offset = 0 then ⟨0, [], []⟩ else t.scripts
    features := if t.feature_offset = 0 then ⟨0, [], []⟩ else t.features
    lookups := if t.lookup_offset = 0 then ⟨0, [], []⟩ else t.lookups }

/-- The substitution table a build reads, given the one a less lenient build reads. -/
def forgiveGsub (cfg : Cfg) (t : gsub.GlyphSubstitution) : gsub.GlyphSubstitution :=
  if cfg.ignoreIncompleteDirectories = true then forgiveLists t else t

/-- The positioning table a build reads, given the one a less lenient build reads. -/
def forgiveGpos (cfg : Cfg) (t : gpos.GlyphPositioning) : gpos.GlyphPositioning :=
  let t : Directory gpos.Type_ := if cfg.ignoreIncompleteMarks = true then mapTables forgiveTable t else t
  if cfg.ignoreIncompleteDirectories = true then forgiveLists t else t

/-- No mark of the array lacks its offset. -/
def CompleteMarks (t : Mark1s) : Prop := ∀ m ∈ t.records, m.anchor_offset ≠ 0

/-- No mark of the subtable lacks its offset. -/
def CompleteTable : gpos.Type_ → Prop
  | .markToBaseAttachment t => CompleteMarks t.marks
  | .markToLigatureAttachment t => CompleteMarks t.marks
  | .markToMarkAttachment t => CompleteMarks t.mark1s
  | _ => True

/-- No list of the directory lacks its offset. -/
def CompleteLists {T : Type} (t : Directory T) : Prop :=
  t.script_offset ≠ 0 ∧ t.feature_offset ≠ 0 ∧ t.lookup_offset ≠ 0

/-- Neither a list nor a mark lacks its offset. -/
def CompleteGpos (t : gpos.GlyphPositioning) : Prop :=
  CompleteLists t ∧ ∀ r ∈ t.lookups.records, ∀ s ∈ r.tables, CompleteTable s

end OpenType.Spec
