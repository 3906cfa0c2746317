# Formal model of bodoni/opentype

The crate parses OpenType fonts from a seekable byte tape. The model is written in Lean 4 under
`lean/Verif`. It is a function-by-function transcription of the readers in `/repo/src`, plus an
independent byte-level specification, plus theorems that connect the two.

## Layers

* `Verif/Prim.lean`: the tape monad and the external reading primitives (`typeface`, `std::io`).
* `Verif/Model/*.lean`: the code, one Lean definition per Rust reader or method, with `file:lines` comments.
  `Model/TagData.lean` is generated from `/repo/src/layout/{feature,script,language}.rs` by `tools/tags.py`.
* `Verif/Generated/*.lean`: a second, mechanical transcription of every reader, method and enumeration, written by
  `tools/translate.py` from the text of `/repo/src`, each with a theorem that it equals the definition in `Verif/Model`.
* `Verif/Spec/*.lean`: the specification. Predicates such as "the bytes at `p` are a coverage table with
  value `v`", given by random access to bytes at explicit offsets, as the OpenType tables are documented.
  Nothing in it uses the reader monad.
* `Verif/Proof/*.lean`: helper lemmas.
* `Verif/Props/*.lean`: the property theorems (`theorem Cxx_...`) and, beside them, concrete instances
  (`example`) showing that the hypotheses can be met and that the statements are not trivial.

The list of properties is `properties.jsonl`; `MANIFEST.json` maps each property to its theorems.

## The model

A reader is a program over the three operations of a tape: tell the position, seek, read some bytes. Each operation
gives an answer or an error, and the program goes on from either. Run on a tape that works, which is a list of bytes of
any length and a position (`Reader.run`), it gives either a value and the new position, or one of three errors: end of
data, malformed data, panic. `Spec/Device.lean` runs the same programs on tapes that fail. Numbers are natural numbers or integers with the ranges of the Rust types. Panics are explicit: overflow of every addition,
multiplication and subtraction in the readers, indexing out of range, failed assertions. `Cfg` has one field per Cargo feature, one for
overflow checks (debug or release), and one for an assumption about `flags!` that cannot be checked
(see below); theorems are about every configuration unless they say otherwise.

Main proof device: for every reader `r` an instance of `Parses r S` (or `Fixed r S size`) says that on tapes of
fewer than `2^63` bytes `r` succeeds with `v` at `p` exactly when `S d p v`, `S` being the predicate of `Spec`.
A second calculus (`Reloc`) relates the runs of a reader on two tapes one of which contains the other; it
yields the freedom from panics, the independence of what precedes and the stability under appending.

## How each property is modelled and proved

| Property | Model | Proof |
|---|---|---|
| C01-C07 | `File.read`, `Font.*` over a tape; the checksum function and `truetype::accept` are parameters | case analysis, induction on the record list; histories by induction on the call list with arbitrary positions after failures |
| C08 | the tag table, and types with a tag of their own (`TableType.custom`); the names of the tables in ASCII (`tableName`); the bytes of the directory | `decide` over the complete table; numbers of four bytes are equal exactly when the bytes are; from C01 and C03 |
| C09-C11, C13, C14, C16, C17, C19, C20, C23-C25, C28, C30, C33, C36 | readers in the tape monad | `reader succeeds with v <-> specification holds of v`, compositionally: primitives, arrays by induction on the count, offset arrays by induction |
| C12 | `Device.read` | equivalence with the code's word count; negation of the English claim with a witness; `_partial` theorem on the complement |
| C15 | rule readers | corollary of the equivalences |
| C18 | `get` | induction on the header list, using counts = lengths |
| C21, C29 | configuration record `Cfg` | comparison of both configurations |
| C22 | `gsub.Type_.read` | equivalence; negation for the unchecked format word of type 8 |
| C26, C27 | value records, pairs, anchors | reader moves by a fixed size; strides by induction |
| C31 | `GlyphDefinition.read` | negation with a witness, `_partial` for tables where the two offsets agree |
| C32 | `Caret.read` | every well-formed caret is refused; `_partial` for what is accepted |
| C34, C35 | `ColorPalettes.iter` with panics as values | index arithmetic; negation with a witness for C35, `_partial` under the in-range condition |
| C37 | `FontVariations.read` | negation with a witness; `_partial` when two more bytes follow |
| C38, C51 | `item.Store.read` | equivalence with the 16-bit sum; negations with witnesses |
| C39 | panics are explicit error values | relocation calculus, one instance per reader; where the one panic there is (`item.Record`) occurs is told exactly, by `panics_bind` along the readers that hold it (Props/Panics) |
| C40, C41 | same | relational calculus over two tapes, one instance per reader |
| C42 | recursive predicate `counted` (`Spec/Counts.lean`) | consequence of the specification |
| C43-C47 | tag tables generated from the source text | generic lemmas plus `decide +kernel` over the complete finite tables |
| C48, C52 | a writer for every table (`Spec/Encode.lean`), independent of readers and of the predicates on byte positions | field by field: what is stored is what is written; arrays and offset arrays by induction; negation with a witness for C52, `_partial` for tables without carets and stores of their own, and, with the layout the code takes instead of OpenType's, for all tables |
| C49 | the checksum algorithm of the OpenType specification | arithmetic modulo 2^32 |
| C50 | same as C40 and C48 | consequence of C48 and C52: the value is determined by its own encoded bytes |
| C53 | the predicates of `flags!` as masks | bitwise: a mask is a division and a remainder |
| C54 | two configurations; the change of the value is specified apart (`Spec/Lenient.lean`) | monotonicity of the specification predicates |
| C55 | `File.read` and `Font.take` with the checksum of the OpenType specification | composition of C01, C04, C49 and the equivalences of the tables |
| C56 | a writer of font files (`Spec/FontFile.lean`) | the written directory is read, each record leads to its table; then C41 and C48 |
| C57 | same as C55 | the relocation calculus for the directory; case analysis for `take` |
| C58 | a predicate on values alone (`Spec/Bounds.lean`), as for C42 | elements with a byte of their own are no more than the bytes; false where elements have none (`C58_gpos_violated`, `C58_fvar_violated`) |
| C59 | `Font.*` over arbitrary record lists | what is found is the first record with the tag; filters and permutations of lists |
| C60 | same as C40 and C48 | C40 with the rest of the file appended; C48 tells which bytes are needed |
| C61, C62 | readers run on any device that serves some content and may fail at any operation (`Spec/Device.lean`) | every program stops at the first error (`Stops`), one instance per reader; histories by induction on the call list |
| C63 | the list of stretches a program asks a tape for | every seek is to a position at or after the start (`Stays`), one instance per reader |
| C64 | the number of operations a program performs on a tape that works; the number of parts of a value (`Spec/Work.lean`) | a bound through `>>=`, loops and `stay` (`Spends`), one instance per reader |
| C65 | the same number of operations, whatever the outcome | a bound through `>>=` and loops (`Effort`): vectors stop at the end of the data, so loops have as many rounds as there are bytes; one instance per reader |
| C66 | the same; a family of files whose tables refer to the same bytes again and again (`nested`, `nestedCarets`, `nestedInstances`) | partial: the flat readers by C65; refuted for GSUB, GPOS, GDEF and fvar by running the readers on these files symbolically, by induction on the number of elements at each level; the powers reached are those of C65 |
| C67 | the list of stretches a program asks a tape for; the outcome | every failure of a reader other than one of the tape is not the end of the data (`Stops`), one instance per reader; induction on the program; that no complete table is reported as incomplete (`AsksForNoMore`, Props/Complete) follows from C60 on the file cut off after the last byte of the value |
| C68 | the bytes that make up a value (`encode`, `Spec/Encode.lean`); those of a directory | from the round trips of C48: a value is read exactly where its bytes are; the directory from C01 |
| C69 | the same, and the words a checksum is computed from | from C50, C04 and the checksum of the OpenType specification |
| C70 | programs on a tape that fails as a schedule says, in a row | no failing operation within a call: the outcome of a tape that works; the calls' ranges of operations are disjoint, so each spoiled call uses up a failure |
| C71 | sequences of such programs, each going to its own place first (`mixed`) | C61 and C70 for each; where an action starts does not matter to its outcome |
| C72 | `accept` with the tags `truetype` accepts as a parameter | by its definition and C01 |
| C73 | the derived `Ord` of the three enumerations; `get` of the lists | cases; the first arm of `from_tag`; C18 and C43 |
| C74 | `content` of values (Spec/Work), `operations` of readers; partial: matrices of pairs without room | a calculus `Earns K s r h` of credits: each operation gives `K` parts; with C65 for the size |
| C75 | messages with their values, problems and what shows them (Spec/Problem) | a calculus `Says d b S r p` over runs: no message but those of `S`, each justified by words not before `b`; witnesses for every message |
| C76 | the readers as functions of the build | equality of readers, that is, of trees of operations, for builds that agree on the named options; `Agrees` for debug and release builds |
| C77 | `shares` (Spec/Sharing): equal offsets lead to equal parts, at every level | the specifications of C03 and others determine the part at a place, so that two parts at one place are equal; lifted through all tables |
| C78 | `LeavesBehind` and sizes in terms of what was read (Props/Behind) | a successful run is split into the runs of its steps, whose lengths add up; rows of parts by induction |
| C79 | `Unchecked` (Props/Built): a reader that may do anything where another one panics | by induction on the reader, from C39; two readers are transcribed as a release build runs them, to show the relation is met |
| C80 | the `Default` implementations (Model/Defaults) and `NeverRead` | the specifications of C09-C11, C28 and C30 demand a format or version that a default does not have |
| C81 | `ownBytes`, `Confined` and `ConfinedIfComplete` (Props/Confined) | partial: from the relocation calculus of C40 and C41, the own bytes being a part of the file; which bytes are asked for follows from C63 and C67 on the file cut off after them; refuted by a file in which a palette takes its colour from the table that follows |
| C82 | the reader of the subtables is any `Nat → Reader T`; `ForLayout`, `Movable`, `mapDirectory` (Props/Generic) | the layout with `Reads` itself as the layout of the subtables; each transfer by the calculus of its property, with the reader of the subtables as a hypothesis (Proof/Generic) |
| C83 | `ServesGrowing` and `growing` (Spec/Growth); `SurvivesGrowth` (Props/Growth) | induction on the program that a reader is, from the property `Stops` of C61: every error ends the reader; sessions by induction on the calls |
| C84 | `Reader.step`, `Apart`, `handle` (Spec/Threads); `Thread`, `scheduled` (Props/Threads) | invariant of all threads under any turn: what remains of the current action leads to the right result (`OnWay`); progress by induction on the actions and on the program that a reader is |
| C85 | `Source`, `Source.readExact`, `Delivers`, `piecemeal` (Spec/Delivery) | induction on the bytes that are missing and the interruptions to come: `read_exact` on such a source serves the content as in C83 |
| C86 | `Part`, `parts` (Spec/Parts): everything inside a table that has a reader of its own, with its distance from the beginning of the table; `ReadAlone` | the specifications of C03 and others put each part at its place, and a reader accepts exactly what its specification describes; one instance per reader, lifted through all levels |
| C87 | `Window`, `NeedsAll` (Props/Reach) | a symbolic execution `Within` over all contents (Proof/Reach), one instance per reader (Proof/ReachTables), with C63 for the lower bound; the least numbers by endless tapes cut off at that length, described by the specifications of C09 and others |
| C88 | `TableFrom`, `TakesFrom` (Props/Collection), the writer `collectionFile` (Spec/Collection) | as C55 and C56, for a directory anywhere; `checksum_moved` and C50 for fonts inside other files |
| C89 | `Counts` (Props/Damage) over `tableChecksum` | `sumBut_columns`: the sum of words is that of four columns of bytes; at most one changed byte per column changes the sum by less than `2^32` unless none changed |
| C90 | `parts` (C86), `encoding` (C48), `Reader.fetches` | parts are read on their own (C86) and their readers depend on the bytes they ask for (induction on the reader), or on their own bytes (C50, C68) |
| C91 | `Reader.fetches`, `encoding` (C48) | one inclusion by rules for each combinator (`Track`: where a reader ends and what it has asked for), for all readers; the other because a changed byte gives another value (C68), which a reader that does not ask for it cannot notice (C90) |
| C92 | `partly` (a tape that has some of its bytes and remembers the request it could not meet), `Reader.download` (read, download what was asked for, read again) | a reader that stops at errors (C61) either gets all it asks for or ends at a request it makes on the complete tape as well; with each round one more request of the complete tape is met; then C91 |
| C93 | `Answers` (a tape that knows where it stands and gives any bytes of the right number, or fails), `changing` (a file with a content for each time) | the calculus `Calmly` (`Proof/Calm.lean`): through every reader with the answers universally quantified, with bounds for numbers and the lengths of lists as postconditions; a reader that stops at errors (C61) then does on the tape what the calculus says |
| C94 | the model's `get` and `iter`, on arbitrary values | case analysis of the search for the first header and of indexing; for files that change, C93 gives equal lengths |
| C95 | readers on a device whose content is a function of time (`Spec/Changing.lean`) | induction over the program of a reader: each request gets the bytes of the fixed file; C91 for which bytes are asked for |
| C96 | `Formed` (a tape of whose answers only the form is known), `shared` (a file whose position others move), `turns` (threads that perform their operations in any order) (`Spec/Shared.lean`) | the calculus of C93 with a tape that may be anywhere; the other threads and the rest of the schedule together are a tape of this kind |
| C97 | `buffered` (`std::io::BufReader` over any source, `Spec/Buffer.lean`; part of the standard library, not of the crate) | what it delivers is what the source delivers, with the invariant that the bytes in the buffer lie between its position and that of the source; then C85 |
| C98 | `edited` (two tables that differ in their data only), `outline` (the places that a table takes) (`Spec/Edited.lean`) | what is edited stays valid and takes the same places, one instance per table; then the round trips of C48 and C52; in a font, with the new checksum written into the record (C55); negation with a witness for carets, whose coordinates the code takes for a part of the format (C32) |
| C99 | `rearranged` (two tables that differ in their offsets only) (`Spec/Rearranged.lean`) | what is rearranged remains valid, one instance per table with offsets; then the round trips of C48 and C52 |
| C100 | `LeadsTo` (in bytes, which lookups a script and a language have) and `lookupsFor` (the program that finds them with `get`) (`Spec/Walk.lean`) | from the faithfulness of the directory (C20), step by step: tag, language, feature, lookup |
| C101 | `SubtableAt`, `StandsFor` (in bytes) and `subtable` (the program that follows an extension) (`Spec/Follow.lean`) | from the faithfulness of the directory (C20) and of extensions (C23); the circular case by a table whose extension has offset 0 |
| C102 | `CoveredAs`, `ClassedAs`, `ReplacedBy`, `EntryAt`, `GlyphsAt`, `LigatedBy`, `Missing` (in bytes) and the programs `indexOf`, `classOf`, `replace`, `expand`, `alternatives`, `ligate` (`Spec/Apply.lean`) | from the faithfulness of substitutions (C23), by cases on the formats |
| C103 | `PlacedBy`, `AdjustedBy`, `MissingValue`, `MissingPair` (in bytes) and the programs `place`, `adjust` (`Spec/Apply.lean`) | from the faithfulness of positioning (C24, C25), by cases on the formats |
| C104 | `ConnectedBy`, `AttachedBy`, `MissingAnchor`, `AnchorIn`, `ComponentIn` (in bytes) and the programs `connect`, `attachToBase`, `attachToMark`, `attachToLigature` (`Spec/Attach.lean`) | from the faithfulness of positioning (C24, C28, C29); one lemma for marks and one for rows of anchors |
| C105 | `MatchedBy`, `ChainMatchedBy`, `ReversedBy` and what can be missing (in bytes), and the programs `matchContext`, `matchChain`, `matchReverse` (`Spec/Match.lean`) | from the faithfulness of contexts (C13, C14, C22); one lemma for lists of tests, one for the first rule of a set, one for the set of a glyph or a class |
| C106 | `SizeDelta`, `ItemDelta` (in bytes) and the programs `sizeDelta`, `itemDelta`, `storeDelta` (`Spec/Correct.lean`) | from the faithfulness of corrections (C11, C12) and of item variations (C38); a lemma on two's complement |
| C107 | `GlyphClass`, `MarkClass`, `PointsOf`, `InMarkSet` (in bytes) and the programs `classIn`, `pointsOf`, `inMarkSet` (`Spec/Classify.lean`) | from the faithfulness of the GDEF table (C31) and the lookups of C102 |
| C108 | `AtSubtable`, `SubstitutedBy`, `MovedBy` (in bytes) and the programs `perform`, `substitute`, `move` (`Spec/Perform.lean`) | induction on the subtables, from C101 for each of them and C102, C103 for what they do |
| C109 | `ShapedInto` (in bytes) and the program `shape` (`Spec/Shape.lean`) | induction on the glyphs and on the lookups, from C100, C108 and C110 |
| C110 | `Ignores` (in bytes) and the program `ignores` (`Spec/Ignore.lean`) | from the faithfulness of lookups (C17) and C107 |
| C111 | an `Effect` (in bytes) for each of ten kinds of subtables and the programs that ask them (`Spec/Engage.lean`) | from C102, C104 and C105 for one subtable and the induction over the subtables of C108 |
| C112 | `PositionedBy` (in bytes) and the program `positionText` (`Spec/Position.lean`) | by induction over the glyphs and the lookups, from C100, C108 and C110 |
| C113 | `TypesetInto` (in bytes, from the first byte of the file on) and the program `typeset` (`Spec/Typeset.lean`) | from C01, C04, C55, C110, C114 and C115; a mark on a ligature is taken to belong to its first component |
| C114 | the relation `Becomes` (in bytes, by recursion on how deep lookups may call each other) and the program `shapeText` (`Spec/Contextual.lean`) | from C102, C105 and C108 for one subtable, then inductions over the actions of a context, the depth of calls, the text (its length bounds the steps) and the lookups |
| C115 | the relation `SettledInto` (in bytes, by recursion on how deep lookups may call each other) and the program `settleText` (`Spec/Settle.lean`) | from C103, C104, C105, C107, C108 and C110 for one subtable, then the inductions of C114, which are stated for any kind of glyphs and effects |
| C116 | `Client` (Spec/Client): a tree of the things that C71 and C84 do, branching by their results; `Client.exec`, `Client.alone`, `turns` | induction on the program with C71, C83 and C85 for each thing done; for threads the invariant of C84 at every operation |
| C117 | the program `typeset` of C113, on the devices of C61, C83 and C85 and in two builds (`ChecksLess`) | what is looked up in a table is never the end of the data, so that all errors of the tape are passed on; for builds a relation between readers closed under sequencing, with C06 and C76 for what they read |
| C118 | the program `colorOf` (Spec/Ask): `File.read`, `Font.position`, `ColorPalettes.read` and `iter` | C01, C04, C33 and C34 composed; every case of an entry is one of none, a color, or a panic, which exclude each other |
| C119 | the programs `coordinateOf` and `clampOf` (Spec/Ask) | C01, C04 and C36 composed; the first axis with a tag by `findIdx?` |
| C120 | the programs `measure` and `coordinate` (Spec/Distance) on `Single`, `Anchor`, `Correction` and `Store` | from C25, C28 and C106; the sum over regions by induction on their number |
| C121 | the program `setApart` on a tape for each table (Spec/Apart), against `typeset` on the file | a relation between a program on the tape of a table and on that of the file, closed under all parts of the programs; the leaves by C41 and C101; written files by C56 |
| C122 | the program `setValues` on an empty tape (Spec/Values), against `typeset` on the file | a relation between a program on two tapes whatever these are, closed under all parts of the programs; no subtable is read again without extensions; written files by C56 |
| C123 | `CompleteFile` in terms of the bytes, and in terms of the values `WholeSubstitution` and `WholePositioning` (Spec/Lacking), against `typeset` | induction over the depth and the passes: each step gives something, and glyphs of the text stay inside of it; the subtables by C101, their effects by C105, C109 and C112 |
| C124 | `ClosedUnder`, `NoneCovers` and `NoneOf` in terms of the bytes, `Produces` of the values (Spec/Closed), against `typeset` | a preorder between texts that holds for each replacement and is closed under what is before it holds between a text and what becomes of it, by induction over depth, actions and passes; from C113 |
| C125 | `SameWanted` (Spec/Wanted), against `typeset` | the specification of C113 depends on features only by the lookups that are wanted |
| C126 | `Fewer`, `NoCircles`, `Calls` in terms of the bytes, `Asks` of the values (Spec/Nested), against `typeset` | by induction over the number of calls, what a lookup does is the same with all greater limits; without circles lookups on a path are distinct, so their number bounds its length; from C113, C105 and C101 |
| C127 | `Separates` in terms of the bytes, `SubstitutionAvoids` and `PositioningAvoids` of the values (Spec/Separate), against `typeset` | what a lookup does at a glyph is the same with more text from a separator on at either end, by induction over the depth of calls; then over the text and the lookups; from C113, C105 and C101 |
| C128 | `Corresponds` and `Retains` between values of tables (Spec/Renumber), against `typeset` | by C122 text is set by a program without a tape; the programs for the two files agree step by step, by induction over the depth of calls and over both lists of lookups at once |
| C129 | `PutsIn` and `TablePutsIn` (Spec/Longer), against `typeset` | by C113 text becomes what the bytes say; what one glyph may grow to is found by induction over the depth of calls, and then what all do, by induction over the text and over the lookups that are wanted |
| C130 | `CorrespondsBy`, `SubsetSubstitution`, `SubsetPositioning` and their parts (Spec/Subset), against `typeset` | by C122 text is set by the values of the tables; that texts of the same glyphs stay so is proved along the whole program, by induction over the depth of calls, the actions, the text and the lookups (`C130_alike`); subtables that have the same for the kept glyphs do alike by going through the types of subtables and the formats of contexts |
| C131 | `withSubtables`, `StandFor`, `SameContent` (Spec/Resolve), against `typeset` | the program with extensions reads each subtable where C101's `StandsFor` says; that it does as the program on values with these subtables is proved along the whole program, by induction over the depth, the actions, the text and the lookups (`C131_values`); `C131_alike` and `C131_same` then follow from C130's step on values |
| C132 | `assemble`, `PlanFor`, `HasAssembled` (Spec/Assemble), against `GlyphSubstitution.read`, `GlyphPositioning.read` and `typeset` | induction over the subtables of a lookup and over the lookups shows where each extension and each subtable is in the bytes (`C132_table`); a part that reads on its own reads where it was moved; the text then follows from C131 (`C132_text`), and for fonts cut down from C130's correspondence too (`C132_subset`) |
| C133 | `writeSingle`, `writeEach`, `writeGlyphs`, `writeLigatures` (Spec/Rules), against `gsub.Type_.read` and the programs of Spec/Apply | the bytes are taken apart along the writer, with induction over what comes one after another for the offsets; the search of the coverage for a glyph is the search of the rules for it, by induction over the rules |
| C134 | `Stage`, `Stage.through`, `compile` (Spec/Compile), against `typeset` | by C133 each subtable does what its stage says; C132 puts them together and C131 gives the values; induction over the text for a lookup and over the lookups for the table; `C134_stages` shows what the first two kinds of stages come to |
| C135 | `writeKern`, `kerned`, `compileKern` (Spec/Kern), against `gpos.Type_.read` and `typeset` | as C133 and C134: the bytes are taken apart along the writer; the search of the coverage and of the pairs is the search of the rules, by induction over them; induction over the text for the lookup; C131 and C132 for the file |
| C136 | `MarkRules`, `Placing`, `placingsThrough`, `compilePlacings` (Spec/Placing), against `gpos.Type_.read` and `typeset` | as C135, for any number of lookups: the offsets of the anchors of the marks, of the cells of the bases and of the joints by induction over them; a table for marks on marks is one for marks on bases under other names; the nearest base by induction over what comes before; induction over the text for a lookup and over the lookups for the table; `C136_glyphs` shows that places are only added, `C136_order` that the order of two lookups does not matter, and `C136_kinds` what some kinds come to |
| C137 | `Sources`, `Sources.set`, `Sources.file` (Spec/Make), against `gdef.GlyphDefinition.read` and `typeset` | the glyph definition is taken apart along the writer; C56 opens the file that is written, C136 sets the text; the bound on the length of the file follows from those on the rules |
| C138 | `LigatureRules`, `LigatureRules.at`, `LigatureRules.bytes` (Spec/Placing), against `gpos.Type_.read` and `attachToLigature` | the components of a ligature are written as bases, so that the lemmas of C136 read them; the offsets of the ligatures as in C133; `C138_only` from the reader being a function |
| C139 | no new model: `typeset` and the readers, and `Sources.file` (Spec/Make) only as the witness; `joinPairs` (Spec/Make) says what joining from the first glyph on means | the function is tabulated as rules; C137 sets the text, and the rules are looked up by induction over the table; the length of the subtable is a polynomial in the number of glyphs |
| C140 | no new model: `typeset` and the readers, and `Sources.file` (Spec/Make) only as the witness; `anchorAt`, `moveBy` (Spec/Placing) name values | each mark has a class of its own, so the points of a base are a row for all marks; C137 sets the text, what is before a glyph is the reverse of a prefix, and the nearest base is found by induction over it |

## Trusted base

* Lean 4.33.0's kernel, and Lean's elaboration of the *statements*. No axiom is declared. The theorems depend
  on at most `propext`, `Quot.sound` and `Classical.choice`. No `sorry`, `native_decide` or `bv_decide`.
* That the definitions in `Verif/Model` say what the Rust code they cite does. The transcription is by
  hand, except for the three tag tables. Everything is also translated by `tools/translate.py` (readers, flags, defaults and aliases)
  and `tools/methods.py` (`src/file.rs`, `src/font.rs`, `src/table.rs`, `src/lib.rs`, the methods `get` and `iter`, the
  enumerations with the macros that make them), 175 definitions. These parse the Rust source and know of the model only the
  names of its types, the signatures of the methods and the primitives of `Prim.lean`, `Proof/Methods.lean` and
  `Proof/Variants.lean`; the theorems `..._eq` in `Verif/Generated` say that the two transcriptions are equal. What remains to
  be trusted is the translator, or the transcription, and the meaning of the primitives. The translator refuses what it does
  not know. Not translated: the derived traits, `dereference!` of `src/file.rs` and the external functions in `Model/Font.lean`.
  The model was also compared with the assertions in `/repo/tests` by evaluating the model on
  the fonts in `/repo/tests/fixtures` (see "Validation").
* What is assumed of code outside `/repo`, whose source is not in the sandbox:
  * `typeface::table!`: reads the fields in the order written; `name (type) = { value }` refuses any other
    value; a block `|tape, this, ..|` is run at its place; `@position` is the position at the start.
  * `jump_take!(tape, position, offset)` jumps to `position + offset as u64` and reads;
    `jump_take_maybe!` does so when the offset is positive and gives `None` otherwise; `jump_take_given!` passes a
    parameter; the forms with a count do it for each index in order.
  * `flags!`: a predicate is `self.0 & mask > 0`. Whether reading refuses values with bits of `is_invalid` is not
    known, and is the field `rejectInvalidFlags` of `Cfg`; theorems hold for both.
  * `tape::Read`: `position`, `jump`, `peek`, `stay` (both come back, after a success only), `take`, `take_given`, `take_bytes`; seeking past
    the end is allowed; numbers are big endian; `Vec`s are read element by element. Bytes are read with
    `std::io::Read::read_exact`; in C85 it is the default implementation, which calls `read` until it has all bytes and
    ignores interruptions. A thread has its turn at one operation of its tape at a time (C84).
  * `GlyphID` is `u16`; `q32` is kept as its raw `i32`, `NameID` as its number and `Tag` as a 32-bit number, which has the order
    that is derived for four bytes.
  * `truetype::tables::offsets::Offsets`: header of 12 bytes, then `table_count` records of 16 bytes. `truetype::accept` and
    the record's `checksum` are parameters of the theorems of C01-C07; C49 and the theorems with `tableChecksum` in their
    statements fix the checksum algorithm, as OpenType defines it.
* Tapes have fewer than `2^63` bytes (the largest offset a file can have).

### Modelled

All of `src/file.rs`, `src/font.rs`, `src/table.rs`, `src/lib.rs` (`accept`), `src/layout/*.rs`, `src/variations/item.rs`,
`src/tables/color_palettes.rs`, `src/tables/font_variations`, `src/tables/glyph_{definition,positioning,substitution}`.

### Not modelled

* Tables implemented by `truetype`, `postscript` and users of the crate (only their tags, in C08, and, as an arbitrary reader, in C03-C07).
* The position of a tape after a failed operation (C07 and C62 quantify over every such position). The kinds of input/output errors: an error of a device is any error.
* Memory: allocation and its failure; running time, other than as the number of operations on the tape (C64, C65, C66).
* Release builds wrap instead of panicking on overflow. The `u16` addition of `item.rs` is modelled both ways; all other
  arithmetic panics in the model in both builds; C39 shows that it never overflows, and C79 that it does not matter what is
  done when it does. A `usize` has 32 bits in the model.
* `Debug`, `Clone`, `Deref` and `Hash` implementations. The `Default` of structures, which `table!` derives, is taken to be zero
  numbers, empty vectors and `None`.
* The variants of `Feature`, `Script` and `Language` are identified by their row in the source table; Rust
  ensures that the names of variants are distinct. A message is its text and the values put into it.

## Validation

`tools/fixtures.lean.txt` evaluates the model on the nine fonts in `/repo/tests/fixtures` (copy it to a `.lean` file and run it
with `lake env lean --run`; about half an hour). It is a test of the transcription, not part of any proof.

* Every assertion in `/repo/tests` about features, scripts, languages, lookup types and counts, pair and ligature
  counts, glyph classes, variation axes and palettes holds of the model.
* `LondrinaSolid` is refused without `ignore-incomplete-directories` and accepted with it, as the tests say.
* The checksums the model computes are those stored in the fonts, except that of `head` in `KaushanScript`: the one the test
  `ttf_corrupted` expects to fail.
* The disagreements below show in real fonts: the carets of `CrimsonText` and `KalniaGlaze` (2), the variation store of
  `AdobeVFPrototype` (1), the instances of `Gingham` and `KalniaGlaze` (5).
* Both values of `rejectInvalidFlags` give the same results on these fonts. `NotoColorEmoji` is not in the repository.

`tools/typeset.lean.txt` evaluates the programs of C109 and C112 in the same way, on the glyphs of "office AVATo" in four of these
fonts. "ffi" becomes the ligature that the character map of the font has for U+FB03 in `OpenSans` and `KaushanScript`, "fi" the
one for U+FB01 in `SourceSerifPro`, and the pairs "AV", "VA", "AT" and "To" are kerned by negative advances. The program of C114
follows the contexts of three fonts: with `frac` in `SourceSerifPro` "5/123" becomes a numerator, a fraction slash and three
denominators, with `ccmp` in `CrimsonText` and `KalniaGlaze` an "i" or "j" loses its dot before an accent and nowhere else, and
with `ordn` in `KalniaGlaze` an "a" becomes the ordinal indicator behind a digit only. The program of C115 attaches the accents
of `CrimsonText` and `KalniaGlaze` to letters, to the components of a ligature and to each other. The program of C113, on the whole
files of `SourceSerifPro` and `KaushanScript`, does what those of C109 and C112 do on the tables, and fails on `CrimsonText` because
of the carets in GDEF (2). Those of C118 and C119 find the colors of `KalniaGlaze`, and the weights 200, 300 and 600 of instances of
`AdobeVFPrototype`, with 200 and 900 at the ends of the axis, as the tests of the crate have it.

`seeded/LOG.jsonl` records edits to the model that imitate bugs, and the theorems that noticed them.

## Disagreements found between the code and its specification

1. GDEF 1.3: the variation store is read at the mark glyph sets' offset (`C31_violated`, `C31_rejected`, `C31_lost`).
2. A caret value's format is peeked as a `u32`: every well-formed caret is refused (`C32_refused`, `C32_violated`).
3. A device table is read one word too long when its deltas fill the last word (`C12_violated`).
4. Item variation data: `short_delta_count + region_count` is a 16-bit addition, which panics in a debug build
   (`C39_gdef_panics`) and wraps in a release build (`C38_wraps`, `C38_violated`).
5. fvar instances without a PostScript name: the missing word is read anyway (`C37_violated`, `C37_rejected`).
6. `ColorPalettes::iter` panics on indices out of range (`C35_violated`).
7. `Script::Katakana` has the tag `kana`, which is read as Hiragana (`C44_violated`, `C44_katakana`).
8. Reverse chaining substitution (GSUB type 8) does not check its format word (`C22_violated`).
9. The flag `LONG_WORDS` of item variation data is ignored (`C51_violated`, `C51_misread`).
10. Without `ignore-incomplete-directories` a zero offset in a directory decodes the header itself as a list (C21).
11. Feature parameters are recorded as present but never read (C16).
12. Offsets may all lead to the same table, which is read again for each: a GSUB or GPOS table of 36 + 10n bytes takes n^5
    operations to read, a GDEF table of 36 + 6n bytes n^3, an fvar table of 36 + 4n bytes n^2 (`C66_nested`, `C66_violated`).
