import Verif.Model.Lists
import Verif.Spec.Basic
/-!
# Specification: from a script and a language to lookups

Text in a script and a language is shaped with the lookups of the features of the language. Here is, in terms of the
bytes of a GSUB or GPOS table at `p` and without any reader, which these are; and the program with which a user of the
crate finds them.
-/

namespace OpenType.Spec
open OpenType script feature lookup directory

/-- List number `k` of the table (0: scripts, 1: features, 2: lookups) begins at `a`. In a build that ignores
incomplete directories there is none at offset zero. -/
def ListAt (cfg : Cfg) (d : Data) (p k a : Nat) : Prop :=
  ∃ offset, U16 d (p + 4 + 2 * k) offset ∧ ¬(cfg.ignoreIncompleteDirectories = true ∧ offset = 0) ∧ a = p + offset

/-- At `c` there is a number of tags, followed by the tags, each with an offset from `base`. The offset of the first tag
that is `tag` leads to `a`. -/
def Tagged (d : Data) (base c : Nat) (tag : Tag) (a : Nat) : Prop :=
  ∃ n k offset, U16 d c n ∧ k < n ∧ U32 d (c + 2 + 6 * k) tag ∧ (∀ j < k, ¬U32 d (c + 2 + 6 * j) tag) ∧
    U16 d (c + 2 + 6 * k + 4) offset ∧ a = base + offset

/-- The script with the tag is at `s`. -/
def ScriptAt (cfg : Cfg) (d : Data) (p : Nat) (tag : Tag) (s : Nat) : Prop :=
  ∃ a, ListAt cfg d p 0 a ∧ Tagged d a a tag s

/-- In the script at `s`, the language with the tag is at `l`. If there is no such language, it is the default one of
the script, if there is one. -/
def LanguageAt (d : Data) (s : Nat) (tag : Tag) (l : Nat) : Prop :=
  Tagged d s (s + 2) tag l ∨
    (∀ a, ¬Tagged d s (s + 2) tag a) ∧ ∃ offset, U16 d s offset ∧ offset ≠ 0 ∧ l = s + offset

/-- The language at `l` has feature number `f`: it is the required one, or one of the others. -/
def HasFeature (d : Data) (l f : Nat) : Prop :=
  (U16 d (l + 2) f ∧ f ≠ 0xFFFF) ∨ ∃ n i, U16 d (l + 4) n ∧ i < n ∧ U16 d (l + 6 + 2 * i) f

/-- Feature number `f` has the tag and is at `a`. -/
def FeatureAt (cfg : Cfg) (d : Data) (p f : Nat) (tag : Tag) (a : Nat) : Prop :=
  ∃ b n offset, ListAt cfg d p 1 b ∧ U16 d b n ∧ f < n ∧ U32 d (b + 2 + 6 * f) tag ∧
    U16 d (b + 2 + 6 * f + 4) offset ∧ a = b + offset

/-- The feature at `a` has lookup number `k`. -/
def HasLookup (d : Data) (a k : Nat) : Prop :=
  ∃ n i, U16 d (a + 2) n ∧ i < n ∧ U16 d (a + 4 + 2 * i) k

/-- Lookup number `k` is at `a`. -/
def LookupAt (cfg : Cfg) (d : Data) (p k a : Nat) : Prop :=
  ∃ b n offset, ListAt cfg d p 2 b ∧ U16 d b n ∧ k < n ∧ U16 d (b + 2 + 2 * k) offset ∧ a = b + offset

/-- In the given script and language, the feature with the tag has lookup number `k`, which is at `a`. -/
def LeadsTo (cfg : Cfg) (d : Data) (p : Nat) (script language tag : Tag) (k a : Nat) : Prop :=
  ∃ s l f b, ScriptAt cfg d p script s ∧ LanguageAt d s language l ∧ HasFeature d l f ∧
    FeatureAt cfg d p f tag b ∧ HasLookup d b k ∧ LookupAt cfg d p k a

/-- The numbers of the features of a language: the required one, unless the number says that there is none, and the
others. -/
def featuresOf (l : language.Record) : List Nat :=
  (if l.required_feature_index = 0xFFFF then [] else [l.required_feature_index]) ++ l.feature_indices

/-- The lookups of a feature: the tag of the feature, and the number and the record of the lookup. Numbers that are not
in the lists are passed over. -/
def lookupsOf {T : Type} (t : Directory T) (f : Nat) : List (Tag × Nat × lookup.Record T) :=
  match t.features.headers[f]?, t.features.records[f]? with
  | some header, some feature =>
    feature.lookup_indices.filterMap fun k => t.lookups.records[k]?.map fun record => (header.tag, k, record)
  | _, _ => []

/-- What a user of the crate does with a table in order to find the lookups for a script and a language: they call
`get` of the scripts, then `get` of the script, for which the default language stands in, and look up the numbers they
find there in the other two lists. -/
def lookupsFor {T : Type} (t : Directory T) (script language : Tag) :
    Except Err (List (Tag × Nat × lookup.Record T)) := do
  match ← t.scripts.get script with
  | none => return []
  | some s =>
    match (← s.get language).or s.default_language with
    | none => return []
    | some l => return (featuresOf l).flatMap (lookupsOf t)

end OpenType.Spec
