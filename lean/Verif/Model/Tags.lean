import Verif.Model.TagData
/-!
# The enumerations `Feature`, `Script` and `Language`

`src/layout/feature.rs:74-354`, `src/layout/script.rs:77-267`, `src/layout/language.rs:26-678`. A macro turns each
table into an enumeration with one variant per row and one variant `Other(Tag)`. Rust refuses two variants of the
same name, so a variant is identified by the number of its row.
-/

namespace OpenType

/-- `pub enum Feature`, `Script` and `Language`: `src/layout/feature.rs:78-81`, `src/layout/script.rs:81-84`,
`src/layout/language.rs:33-36`, for a table of `n` rows. -/
inductive Named (n : Nat) where
  | known (row : Fin n)
  | other (tag : Tag)
deriving DecidableEq, Repr

/-- The derived `Ord` of the three enumerations, `src/layout/feature.rs:77`, `src/layout/script.rs:80`,
`src/layout/language.rs:32`: variants are ordered as they are declared, `Other` being the last, and two of `Other` as
their tags. `Ord` of `truetype::Tag` is derived from its four bytes, which is the order of the numbers they form. A
row of the languages that is not part of a build is not there to be compared, and leaving it out changes the order of
no two others. -/
def Named.cmp {n : Nat} : Named n → Named n → Ordering
  | .known a, .known b => compare a.val b.val
  | .known _, .other _ => .lt
  | .other _, .known _ => .gt
  | .other a, .other b => compare a b

/-- The `match` of `from_tag`: `src/layout/feature.rs:85-90`, `src/layout/script.rs:89-94`,
`src/layout/language.rs:40-45`. The arms are tried in order. -/
def firstArm {R : Type} (rows : List R) (arm : R → Bool) (tag : Tag) : Named rows.length :=
  match rows.findFinIdx? arm with
  | some row => .known row
  | none => .other tag

namespace feature

/-- `src/layout/feature.rs:78-81`. -/
abbrev Feature := Named rows.length

/-- `src/layout/feature.rs:85-90`. -/
def Feature.from_tag (tag : Tag) : Feature := firstArm rows (fun row => row.tag == tag) tag

/-- `src/layout/feature.rs:93-98`. -/
def Feature.name : Feature → Option String
  | .known row => some rows[row].name
  | .other _ => none

/-- `impl From<Feature> for Tag`, `src/layout/feature.rs:101-108`. -/
def Feature.tag : Feature → Tag
  | .known row => rows[row].tag
  | .other tag => tag

end feature

namespace script

/-- `src/layout/script.rs:81-84`. -/
abbrev Script := Named rows.length

/-- `src/layout/script.rs:89-94`. -/
def Script.from_tag (tag : Tag) : Script := firstArm rows (fun row => row.tag == tag) tag

/-- `src/layout/script.rs:97-102`. -/
def Script.name : Script → Option String
  | .known row => some rows[row].name
  | .other _ => none

/-- `impl From<Script> for Tag`, `src/layout/script.rs:105-112`. -/
def Script.tag : Script → Tag
  | .known row => rows[row].tag
  | .other tag => tag

end script

namespace language

/-- `src/layout/language.rs:33-36`. A value in a build without `default-language` is one that `Language.exists_`
admits. -/
abbrev Language := Named rows.length

/-- The attribute `#[cfg(feature = "default-language")]` of a row, `src/layout/language.rs:187-188`. -/
def present (cfg : Cfg) (row : LanguageRow) : Bool := cfg.defaultLanguage || !row.gated

/-- The variants that exist in a build, `src/layout/language.rs:33-36`. -/
def Language.exists_ (cfg : Cfg) : Language → Bool
  | .known row => present cfg rows[row]
  | .other _ => true

/-- `src/layout/language.rs:40-45`. -/
def Language.from_tag (cfg : Cfg) (tag : Tag) : Language :=
  firstArm rows (fun row => present cfg row && row.tag == tag) tag

/-- `value.split(", ")`, `src/layout/language.rs:54`: the pieces between the separators, one more than there are
separators. -/
def split : List Char → List (List Char)
  | ',' :: ' ' :: rest => [] :: split rest
  | c :: rest =>
    match split rest with
    | piece :: pieces => (c :: piece) :: pieces
    | [] => [[c]]
  | [] => [[]]

/-- `src/layout/language.rs:48-55`. -/
def Language.codes (language : Language) : List (List Char) :=
  let value :=
    match language with
    | .known row => rows[row].codes
    | .other _ => []
  (split value).filter fun code => !code.isEmpty

/-- `src/layout/language.rs:58-63`. -/
def Language.name : Language → Option String
  | .known row => some rows[row].name
  | .other _ => none

/-- `impl From<Language> for Tag`, `src/layout/language.rs:66-73`. -/
def Language.tag : Language → Tag
  | .known row => rows[row].tag
  | .other tag => tag

end language

end OpenType
