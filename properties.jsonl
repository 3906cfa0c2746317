{"id": "C01", "title": "Collections are refused, anything else yields exactly one font", "statement": "File::read on a tape whose next four bytes are 'ttcf' returns an error. Otherwise it succeeds exactly when the table directory at the tape's current position is readable, and then returns exactly one font holding that directory.", "quantifier": "every byte string and every starting tape position", "why_tests_cant": "the outcome is decided by arbitrary leading bytes; fixtures only show a few single-font files and no collection", "anchors": ["src/file.rs: File::read", "src/font.rs: Font::read", "src/lib.rs: accept"]}
{"id": "C02", "title": "The table directory is returned exactly as stored", "statement": "When File::read succeeds, the returned font lists exactly table_count records in file order, record k holding the big-endian tag, checksum, offset and size found 12+16k bytes after the tape's starting position, and nothing is dropped, reordered or added.", "quantifier": "every byte string, starting position and table count", "why_tests_cant": "fixtures cover a handful of directories; the claim is about every record count and content", "anchors": ["src/file.rs: File::read", "src/font.rs: Font::read", "src/font.rs: impl Read for Font"]}
{"id": "C03", "title": "exists agrees with take", "statement": "font.exists::<T>() is false exactly when font.take::<T>(tape) and font.take_given return Ok(None); when it is true they return Ok(Some(..)) or an error, never Ok(None).", "quantifier": "every directory, every table type, every tape content and position, every build configuration", "why_tests_cant": "needs all directories including duplicates, absent tags and damaged tables", "anchors": ["src/font.rs: Font::exists", "src/font.rs: Font::take", "src/font.rs: Font::take_given", "src/font.rs: Font::position"]}
{"id": "C04", "title": "take reads the first matching record at its absolute offset", "statement": "When take::<T> or take_given::<T> gets past the checksum, the result is what reading T at the absolute offset of the first record carrying T's tag gives, whatever other records (including later ones with the same tag) say; position leaves the tape exactly there.", "quantifier": "every directory (duplicates included), table type and tape", "why_tests_cant": "duplicate and overlapping records do not occur in the fixtures", "anchors": ["src/font.rs: Font::position", "src/font.rs: Font::take", "src/font.rs: Font::take_given"]}
{"id": "C05", "title": "A checksum mismatch blocks the table", "statement": "Without the ignore-invalid-checksums feature, take, take_given and position return Ok(Some(..)) only if the stored checksum of the first matching record equals the checksum computed from the tape; on a mismatch or when the checksum cannot be computed they return an error and no table.", "quantifier": "every directory, table type, tape, and every possible checksum function", "why_tests_cant": "one corrupted fixture shows one mismatch; the claim is that no damaged table ever gets through", "anchors": ["src/font.rs: Font::position"]}
{"id": "C06", "title": "ignore-invalid-checksums makes stored checksums irrelevant", "statement": "With the feature on, the outcome of take/take_given/position does not depend on any stored or computed checksum, and whenever the feature-off build returns Ok the feature-on build returns the same Ok.", "quantifier": "every pair of directories that differ only in stored checksums, every tape and table type", "why_tests_cant": "comparing two build configurations over all inputs is not something a test run of one build does", "anchors": ["src/font.rs: Font::position", "Cargo.toml: features"]}
{"id": "C07", "title": "Reading tables from a shared tape is independent of history", "statement": "In any sequence of take/take_given/position calls on one tape, each call returns what it would return on a freshly opened tape, no matter which calls came before, whether they failed, and where a failed call left the tape.", "quantifier": "every sequence of calls of any length, every tape content, every position a failed call may leave", "why_tests_cant": "unbounded histories with failures in between cannot be enumerated", "anchors": ["src/font.rs: Font::position", "src/font.rs: Font::take", "src/font.rs: Font::take_given"]}
{"id": "C08", "title": "Distinct table types never alias", "statement": "The sixteen table types stand for the names OpenType gives them (CFF, CPAL, GDEF, GPOS, GSUB, OS/2, cmap, fvar, glyf, head, hhea, hmtx, loca, maxp, name, post): a font has a table exactly when a record of its directory begins with the four bytes of that name. The names are pairwise distinct, so asking for one type never decodes the record of another. Table is a public trait: a type that somebody else implements it for, with any tag, is found under the four bytes of its tag and shares a table with another type exactly when the tags are equal.", "quantifier": "every pair of table types, the sixteen of the crate and those of others with any tag, and every directory", "why_tests_cant": "the tests request six of the types", "anchors": ["src/table.rs: Table::tag"]}
{"id": "C09", "title": "Glyph coverage is decoded faithfully", "statement": "Reading a Coverage at a position succeeds with a value exactly when the bytes there are a format 1 glyph array or a format 2 range array as laid out by OpenType with that value; any other format number, or missing bytes, is an error.", "quantifier": "every byte string, every position, every glyph or range count from 0 to 65535", "why_tests_cant": "the space of byte strings is unbounded; tests read a few fonts", "anchors": ["src/layout/coverage.rs: Coverage, Coverage1, Coverage2, Record"]}
{"id": "C10", "title": "Glyph classes are decoded faithfully", "statement": "Reading a Class succeeds with a value exactly when the bytes there are a ClassDef format 1 or 2 with that value; everything else is an error.", "quantifier": "every byte string and position", "why_tests_cant": "as for coverage", "anchors": ["src/layout/class.rs: Class, Class1, Class2, Record"]}
{"id": "C11", "title": "Adjustment corrections are told apart by their format word", "statement": "Reading a Correction yields a device table exactly for delta formats 1 to 3 with start size not above end size, a variation index exactly for 0x8000, and an error for every other format; the returned fields are the stored ones.", "quantifier": "every byte string and position, all 65536 format values", "why_tests_cant": "format, sizes and following bytes range over the full 16-bit space", "anchors": ["src/layout/correction.rs: Correction, Device, Variation"]}
{"id": "C12", "title": "A device table holds exactly the packed words its sizes call for", "statement": "A device table covering start_size..=end_size with 2^format bits per delta occupies ceil(count*2^format/16) words, so reading it returns exactly that many words and never looks past them.", "quantifier": "every start size, end size, format and tape", "why_tests_cant": "only the size classes with count*2^format divisible by 16 behave differently; no fixture pins them", "anchors": ["src/layout/correction.rs: impl Read for Device"]}
{"id": "C13", "title": "Contextual lookups are decoded faithfully", "statement": "Reading a Context at a position succeeds with a value exactly when the bytes are a SequenceContext of format 1, 2 or 3 with that value: header fields, offset arrays, coverage and class tables at their offsets, rule sets with absent class rule sets (offset 0) as None; other formats are errors.", "quantifier": "every byte string, position, and all rule-set, rule and sequence lengths", "why_tests_cant": "no test reads a contextual lookup beyond counting subtables", "anchors": ["src/layout/context.rs: Context, Context1, Context2, Context3, Records, Record, ClassRecords, ClassRecord, Action"]}
{"id": "C14", "title": "Chained contextual lookups are decoded faithfully", "statement": "Reading a ChainedContext at a position succeeds with a value exactly when the bytes are a ChainedSequenceContext of format 1, 2 or 3 with that value, the backtrack, input and lookahead parts each coming from their own array; other formats are errors.", "quantifier": "every byte string, position and all sequence lengths", "why_tests_cant": "the three parallel arrays are easy to swap and fixtures rarely distinguish them", "anchors": ["src/layout/context.rs: ChainedContext, ChainedContext1, ChainedContext2, ChainedContext3, ChainedRecords, ChainedRecord, ChainedClassRecords, ChainedClassRecord"]}
{"id": "C15", "title": "Zero component counts are refused and the first component is implied", "statement": "A context rule, class rule, chained rule, chained class rule or ligature whose glyph count is zero is an error; otherwise the number of glyphs returned is the stored count minus one.", "quantifier": "every byte string and position, all 65536 counts", "why_tests_cant": "the zero case does not occur in well-formed fonts and an unguarded subtraction would wrap", "anchors": ["src/layout/context.rs: Record, ClassRecord, ChainedRecord, ChainedClassRecord", "src/tables/glyph_substitution/element.rs: Ligature"]}
{"id": "C16", "title": "The feature list is decoded faithfully", "statement": "Reading Features succeeds with a value exactly when the bytes hold that list: tag and offset of header i in order, record i read at the list's start plus header i's offset with its lookup indices in order, parameters present (with no bytes read) exactly when the parameter offset is nonzero.", "quantifier": "every byte string, position and list length", "why_tests_cant": "list lengths, aliasing offsets and tag orders are unbounded", "anchors": ["src/layout/feature.rs: Features, Header, Record"]}
{"id": "C17", "title": "The script list and its language systems are decoded faithfully", "statement": "Reading Scripts succeeds with a value exactly when the bytes hold that list: headers in order, script i at the list's start plus offset i, its default language present exactly when its offset is nonzero, and language j at the script's own start plus its offset.", "quantifier": "every byte string, position, script count and language count", "why_tests_cant": "two nested levels of relative offsets over unbounded tables", "anchors": ["src/layout/script.rs: Scripts, Header, Record", "src/layout/language.rs: Header, Record"]}
{"id": "C18", "title": "get returns the first record with the tag and never panics", "statement": "On any Features, Scripts or script Record obtained by reading, get(tag) is None exactly when no header has the tag; otherwise it is the record belonging to the first header with that tag; no call panics.", "quantifier": "every table any tape can produce and every tag (named or raw)", "why_tests_cant": "duplicate tags and index agreement between two vectors must hold for every table that can be read", "anchors": ["src/layout/feature.rs: Features::get", "src/layout/script.rs: Scripts::get, Record::get"]}
{"id": "C19", "title": "The lookup list is decoded faithfully and uniformly typed", "statement": "Reading Lookups succeeds with a value exactly when the bytes hold that list; every subtable of a lookup is decoded under that lookup's own type number, and the mark filtering set is present exactly when flag bit 4 is set, being the word after the subtable offsets.", "quantifier": "every byte string, position, subtable type, and all counts", "why_tests_cant": "every combination of type, flag and offsets must agree", "anchors": ["src/layout/lookup.rs: Lookups, Record, Flags"]}
{"id": "C20", "title": "Layout directories check their version and read each part at its offset", "statement": "Reading a GSUB or GPOS directory succeeds only for versions 1.0 and 1.1; scripts, features and lookups are decoded at the table's start plus their offsets; feature variations are present exactly for 1.1 with a nonzero offset, and version 1.0 always reports variation offset 0 and none.", "quantifier": "every byte string and position, all version pairs", "why_tests_cant": "2^32 version pairs and arbitrary offsets", "anchors": ["src/layout/directory.rs: Directory, impl Read for Directory"]}
{"id": "C21", "title": "ignore-incomplete-directories only changes zero offsets", "statement": "With the feature on, a zero script, feature or lookup offset yields an empty list instead of decoding the header itself; when all three offsets are nonzero the two builds return the same result.", "quantifier": "every byte string, position and subtable type", "why_tests_cant": "compares two builds over all inputs", "anchors": ["src/layout/directory.rs: impl Read for Directory", "Cargo.toml: features"]}
{"id": "C22", "title": "Substitution lookups are decoded by type and faithfully", "statement": "A GSUB subtable read under type t is, for t from 1 to 8, the corresponding substitution decoded faithfully from its bytes (header fields, coverage, substitute glyphs, sequence/alternate/ligature sets, backtrack and lookahead coverages), and an error for every other t or format.", "quantifier": "every byte string, position and type number", "why_tests_cant": "tests only check four counts in one font", "anchors": ["src/tables/glyph_substitution/mod.rs: Type, SingleSubstitution1, SingleSubstitution2, MultipleSubstitution, AlternateSubstitution, LigatureSubstitution, ReverseChainedContextualSubstibution", "src/tables/glyph_substitution/element.rs: Alternates, Ligature, Ligatures, Sequence"]}
{"id": "C23", "title": "Extension subtables are reported, not followed", "statement": "A GSUB type 7 or GPOS type 9 subtable is returned as its stored type and 32-bit offset; success depends only on its own eight bytes, never on what the offset points to, so self-referencing or dangling extensions cannot loop or fail.", "quantifier": "every byte string, position, extension type and offset", "why_tests_cant": "cycles and dangling offsets cannot be exhausted by examples", "anchors": ["src/tables/glyph_substitution/mod.rs: ExtensionSubstitution", "src/tables/glyph_positioning/mod.rs: ExtensionPositioning"]}
{"id": "C24", "title": "Positioning lookups are decoded by type and faithfully", "statement": "A GPOS subtable read under type t is, for t from 1 to 9, the corresponding positioning table decoded faithfully from its bytes (device corrections as in C11 and C12), and an error for every other t or format.", "quantifier": "every byte string, position and type number", "why_tests_cant": "nine table kinds with nested offsets over unbounded data", "anchors": ["src/tables/glyph_positioning/mod.rs: Type, SingleAdjustment1, SingleAdjustment2, PairAdjustment1, PairAdjustment2, CursiveAttachment, MarkToBaseAttachment, MarkToLigatureAttachment, MarkToMarkAttachment"]}
{"id": "C25", "title": "A value record has exactly the fields its format bits announce", "statement": "Reading a value record under a format yields field i exactly when bit i is set, the fields being consecutive big-endian words in bit order, and moves the tape by exactly twice the number of set bits among the low eight; a correction is present exactly when its offset field is present and nonzero.", "quantifier": "every format word, byte string, position and base", "why_tests_cant": "256 formats times arbitrary data", "anchors": ["src/tables/glyph_positioning/element.rs: Single, Flags"]}
{"id": "C26", "title": "Out-of-line data never disturbs the records that follow", "statement": "Reading the corrections or anchors of a value record, pair, connection, base, component or mark leaves the tape right after the inline record, so record i of every such array is decoded at its fixed stride whatever the out-of-line data of earlier records look like.", "quantifier": "every array length, every byte string, every placement of out-of-line data including overlapping ones", "why_tests_cant": "depends on every placement of the out-of-line tables", "anchors": ["src/tables/glyph_positioning/element.rs: Single, Pair1, Pair2, Connection, Base, Component, Mark1, Mark2"]}
{"id": "C27", "title": "Pair class matrices keep rows and columns", "statement": "A format 2 pair adjustment has class1_count rows of class2_count cells, and cell (i, j) is decoded at start + 16 + (i*class2_count + j) * (size1 + size2), value k being absent exactly when its format is 0.", "quantifier": "every matrix size, format pair and byte string", "why_tests_cant": "row/column mix-ups show only on non-square matrices with all cells checked", "anchors": ["src/tables/glyph_positioning/mod.rs: PairAdjustment2", "src/tables/glyph_positioning/element.rs: Pair2s, Pair2"]}
{"id": "C28", "title": "Anchors are optional exactly when their offset is zero", "statement": "In cursive connections, bases, ligature components and second marks, an anchor is None exactly when its offset is 0 and otherwise is decoded at the enclosing array's start plus the offset; each record has exactly mark_class_count anchors.", "quantifier": "every byte string, class count and record count", "why_tests_cant": "null and non-null offsets mix arbitrarily", "anchors": ["src/tables/glyph_positioning/element.rs: Anchor, Base, Bases, Component, Ligature, Ligatures, Connection, Mark2, Mark2s"]}
{"id": "C29", "title": "Mark anchors are mandatory unless ignore-incomplete-marks is on", "statement": "Each mark record's anchor is decoded at the mark array's start plus its offset; with ignore-incomplete-marks a zero offset gives the default anchor instead, and with all offsets nonzero both builds agree.", "quantifier": "every byte string, mark count and build", "why_tests_cant": "compares two builds over all inputs", "anchors": ["src/tables/glyph_positioning/element.rs: Mark1, Mark1s", "Cargo.toml: features"]}
{"id": "C30", "title": "The glyph definition follows its version", "statement": "Reading a GlyphDefinition succeeds only for versions 1.0, 1.2 and 1.3; glyph classes, attachments, ligatures, mark classes and (from 1.2) mark sets are present exactly when their offset is nonzero and are decoded at the table's start plus that offset.", "quantifier": "every byte string and position", "why_tests_cant": "one fixture with version 1.0", "anchors": ["src/tables/glyph_definition/mod.rs: GlyphDefinition, Header, Header1, Header12, Header13", "src/tables/glyph_definition/element.rs: Attachments, Attachment, Marks, Ligatures, Ligature"]}
{"id": "C31", "title": "The version 1.3 variation store is read from its own offset", "statement": "In a version 1.3 glyph definition the item variation store is present exactly when itemVarStoreOffset is nonzero and is decoded at the table's start plus that offset.", "quantifier": "every version 1.3 table", "why_tests_cant": "no test reads a version 1.3 table; whether the right header field is used must hold for all of them", "anchors": ["src/tables/glyph_definition/mod.rs: GlyphDefinition.variations", "src/variations/item.rs: Store"]}
{"id": "C32", "title": "Well-formed ligature carets are accepted", "statement": "Reading a caret value whose first word is 1, 2 or 3 and whose fields are present yields the caret of that format with the stored fields.", "quantifier": "every byte string and position holding a well-formed caret", "why_tests_cant": "no fixture with carets is read", "anchors": ["src/tables/glyph_definition/element.rs: Caret, Caret1, Caret2, Caret3"]}
{"id": "C33", "title": "Colour palettes are decoded faithfully", "statement": "Reading ColorPalettes succeeds with a value exactly when the version is 0 or 1, the header words and palette start indices are the stored ones and the color_count colours are the 4-byte BGRA records at the table's start plus the colour offset.", "quantifier": "every byte string, position, palette count and colour count", "why_tests_cant": "tests read two fonts", "anchors": ["src/tables/color_palettes.rs: ColorPalettes, Header, Header0, Header1, Color"]}
{"id": "C34", "title": "Palette iteration has the announced shape and content", "statement": "Iterating a read ColorPalettes gives palette_count palettes of entry_count entries each; entry j of palette i is colour record color_indices[i]+j.", "quantifier": "every table any tape can produce, every palette and entry", "why_tests_cant": "index arithmetic over all palette/entry combinations", "anchors": ["src/tables/color_palettes.rs: ColorPalettes::iter"]}
{"id": "C35", "title": "Iterating an accepted palette table never panics", "statement": "Every ColorPalettes accepted by the reader can be iterated completely without a panic.", "quantifier": "every table any tape can produce", "why_tests_cant": "malformed index/count combinations are unbounded", "anchors": ["src/tables/color_palettes.rs: ColorPalettes::iter, impl Read for ColorPalettes"]}
{"id": "C36", "title": "Font variations honour their declared strides", "statement": "Reading FontVariations succeeds with a value exactly when the reserved word is 2, axis i is the axis record at start + axis_offset + i*axis_size, and instance j is the instance record at start + axis_offset + axis_count*axis_size + j*instance_size with exactly axis_count coordinates.", "quantifier": "every byte string, position, all counts and declared sizes (including 0 and oversized)", "why_tests_cant": "strides other than the usual 20 and 4n+6 bytes do not occur in the fixture", "anchors": ["src/tables/font_variations/mod.rs: FontVariations, Header, AxisRecord, InstanceRecord"]}
{"id": "C37", "title": "Instances without a PostScript name are readable", "statement": "An fvar table whose instance_size is 4 + 4*axis_count (no postScriptNameID) and that ends with its last instance is accepted.", "quantifier": "every such table", "why_tests_cant": "needs the layout variant that fixtures do not have", "anchors": ["src/tables/font_variations/mod.rs: InstanceRecord"]}
{"id": "C38", "title": "Item variation data keeps its declared dimensions", "statement": "Reading an item variation store succeeds with a value exactly when format is 1, record i is decoded at the store's start plus 32-bit offset i, its region indices are the region_count stored words, and its delta bytes are the item_count*(short_delta_count+region_count) bytes that follow.", "quantifier": "every byte string and position, all counts, both overflow-checking and wrapping builds", "why_tests_cant": "sums of two 16-bit counts can exceed 16 bits, which no fixture does", "anchors": ["src/variations/item.rs: Store, Record"]}
{"id": "C39", "title": "No input makes a reader panic", "statement": "Reading GSUB, GPOS, GDEF, CPAL, fvar and all their parts from any tape of at most 2^63-1 bytes at any position returns Ok or Err, never a panic (arithmetic overflow, subtraction underflow or index out of range).", "quantifier": "every byte string up to the addressable size, every position, every build configuration", "why_tests_cant": "fuzzing samples; the claim is about all inputs", "anchors": ["src/layout/*.rs", "src/tables/*", "src/variations/item.rs"]}
{"id": "C40", "title": "Appending bytes never changes a conclusive result", "statement": "If reading any table succeeds, or fails for a reason other than running out of data, then it gives the same outcome after any bytes are appended to the tape.", "quantifier": "every byte string, every suffix, every position, every table type", "why_tests_cant": "ranges over all pairs of inputs", "anchors": ["src/layout/*.rs", "src/tables/*"]}
{"id": "C41", "title": "Tables are relocatable", "statement": "Decoding a table depends only on the bytes from its start: moving it to another place in a file, with arbitrary bytes before and after, decodes to the same value.", "quantifier": "every byte string, every prefix and suffix, every table type", "why_tests_cant": "ranges over all embeddings", "anchors": ["src/layout/*.rs", "src/tables/*"]}
{"id": "C42", "title": "Counts equal lengths", "statement": "In every table returned by a reader each count field equals the length of the vector it governs, at every nesting level, so users may index by the counts.", "quantifier": "every table any tape can produce", "why_tests_cant": "must hold for every field of every table for every input", "anchors": ["src/layout/*.rs", "src/tables/*", "src/variations/item.rs"]}
{"id": "C43", "title": "Tags survive conversion to named features, scripts and languages", "statement": "For every tag t, Tag::from(Feature::from_tag(&t)) == t, and likewise for Script and Language, in both builds of default-language.", "quantifier": "all 2^32 tags", "why_tests_cant": "2^32 tags times three enumerations", "anchors": ["src/layout/feature.rs: Feature", "src/layout/script.rs: Script", "src/layout/language.rs: Language"]}
{"id": "C44", "title": "Named features, scripts and languages survive conversion to tags", "statement": "For every named variant v, from_tag(&Tag::from(v)) == v.", "quantifier": "all 241 features, 150 scripts and 593 or 594 languages", "why_tests_cant": "no test goes over the tables", "anchors": ["src/layout/feature.rs: Feature", "src/layout/script.rs: Script", "src/layout/language.rs: Language"]}
{"id": "C45", "title": "Names exist exactly for recognised tags", "statement": "X::from_tag(&t).name() is Some exactly when t is in X's table, and then is the name on the first row with that tag; it is None for every other tag.", "quantifier": "all 2^32 tags, three enumerations", "why_tests_cant": "2^32 tags", "anchors": ["src/layout/feature.rs: Feature::name", "src/layout/script.rs: Script::name", "src/layout/language.rs: Language::name"]}
{"id": "C46", "title": "Language codes are clean ISO 639 codes", "statement": "Every code yielded by Language::codes is a three-letter lowercase code, no language yields the same code twice, and unrecognised languages yield none.", "quantifier": "every tag and every language", "why_tests_cant": "one test counts the codes of two languages out of 594", "anchors": ["src/layout/language.rs: Language::codes"]}
{"id": "C47", "title": "default-language affects only DFLT", "statement": "The builds with and without default-language agree on from_tag, name and codes for every tag except DFLT, which is Default with the feature and Other without it.", "quantifier": "all 2^32 tags", "why_tests_cant": "compares two builds over all tags", "anchors": ["src/layout/language.rs: Language", "Cargo.toml: features"]}
{"id": "C48", "title": "Reading undoes writing", "statement": "For the substitution, positioning, palette and variation tables, every subtable and every common layout table: the reader returns a value exactly where that value is well formed (numbers fit their fields, counts are the lengths they govern, optional parts are present exactly when announced) and its OpenType encoding is what the file holds from that position on, wherever its parts are and whether or not they share bytes. Hence a well-formed value whose parts do not clash, written anywhere in a file, reads back as that same value, and whatever was read from any file can be written anew and reads back the same. Device tables are taken with the number of words the library reads (C12), item variation records with the number of delta bytes it reads (C38).", "quantifier": "every well-formed value of every size, every arrangement of its parts, every file and position, every build", "why_tests_cant": "round trips over unbounded values and layouts", "anchors": ["src/layout/*.rs", "src/tables/*", "src/variations/item.rs"]}
{"id": "C49", "title": "Damage to a single word of a table is always detected", "statement": "If a table passes the checksum test, then changing exactly one of its 32-bit words (other than the head table's adjustment word) makes take fail in a default build.", "quantifier": "every table, every word, every different replacement value", "why_tests_cant": "2^32 replacements for every word of every table", "anchors": ["src/font.rs: Font::position"]}
{"id": "C50", "title": "Bytes that are not the table's own never influence the result", "statement": "A value that was read from a table is read again, the same, from any other file and position that hold the same bytes in the places the table and the parts its offsets lead to occupy; all other bytes of the file, before, between and after them, and its length may differ. In particular two files that agree from the table's start onward decode it identically.", "quantifier": "every pair of files and positions agreeing on the table's own bytes, every value read", "why_tests_cant": "ranges over all pairs of inputs", "anchors": ["src/layout/*.rs", "src/tables/*"]}
{"id": "C51", "title": "Item variation delta sets have the size OpenType gives them", "statement": "In an item variation record with no more wide deltas than regions, the delta bytes returned are item_count delta sets, each of 2*w + (r - w) bytes, or 4*w + 2*(r - w) bytes when the highest bit of the word count (LONG_WORDS) is set, w being the word count without that bit and r the region count.", "quantifier": "every byte string, position, build and pair of counts", "why_tests_cant": "no fixture has 32-bit deltas; the claim is about every pair of counts", "anchors": ["src/variations/item.rs: Record"]}
{"id": "C52", "title": "Reading undoes writing for glyph definitions", "statement": "The same as C48 for the glyph definition table of every version: it is returned exactly where it is well formed and written as OpenType writes it, and a well-formed one written anywhere reads back the same.", "quantifier": "every well-formed glyph definition table, every arrangement of its parts, every file, position and build", "why_tests_cant": "round trips over unbounded values and layouts", "anchors": ["src/tables/glyph_definition/mod.rs", "src/tables/glyph_definition/element.rs"]}
{"id": "C53", "title": "Flag predicates report exactly their bits", "statement": "Every predicate on the flags of a lookup, an axis, an instance or a value record (is_right_to_left, should_ignore_marks, is_hidden, has_x_placement, is_invalid, ...) is true exactly when its own bit, or one of its reserved bits, is set in the word the file stores; a lookup has a mark filtering set exactly when has_mark_filtering is true; and unless the build ignores invalid flags no lookup, axis, instance or value record that was read has is_invalid flags.", "quantifier": "every value of every flag word, every file, position and build", "why_tests_cant": "65536 words for each of eighteen predicates, and every file", "anchors": ["src/layout/lookup.rs: Flags", "src/tables/font_variations/mod.rs: AxisFlags, InstanceFlags", "src/tables/glyph_positioning/element.rs: Flags"]}
{"id": "C54", "title": "More lenient builds read everything stricter builds read", "statement": "If one build reads a substitution or positioning table, then a build that ignores more (incomplete directories, incomplete marks) or checks less (flags, sums) reads it too, and its value differs only where an offset is zero: those lists are empty, and the anchors of those marks are zero. A table none of whose lists or marks lacks its offset is read alike by all builds that treat invalid flags alike. Glyph definitions, variation axes and item variation stores are read alike.", "quantifier": "every file, position, value and pair of builds one of which is more lenient", "why_tests_cant": "compares two builds over all inputs", "anchors": ["src/layout/directory.rs", "src/tables/glyph_positioning/element.rs: Mark1", "Cargo.toml: features"]}
{"id": "C55", "title": "Opening a file and taking a table gives exactly what the file stores", "statement": "File::read followed by take gives a table exactly when the file is not a collection, it begins with a table directory of an accepted format, the first record with the table's tag gives an offset, the record's checksum is the sum of the words there (unless ignored), and the bytes at the offset are that table; it gives None exactly when the directory has no such record.", "quantifier": "every file, every build, every table type and value, every position of the tape", "why_tests_cant": "a statement about every byte string", "anchors": ["src/file.rs: File::read", "src/font.rs: Font::take", "src/table.rs"]}
{"id": "C56", "title": "A written font file reads back", "statement": "A file written as OpenType writes it (directory, one record per table with checksum, offset and length, tables padded to four bytes) opens; taking each table gives what was written, for every well-formed value whose parts do not clash, whatever the other tables, their number and order, and whatever follows the file; a table that was not written is absent.", "quantifier": "every list of tables, every value, every build and position of the tape", "why_tests_cant": "round trips over unbounded files", "anchors": ["src/file.rs: File::read", "src/font.rs: Font::take"]}
{"id": "C57", "title": "Opening and taking never panic and do not depend on trailing bytes", "statement": "Opening any file, and taking any table whose reader does not panic, returns; appending bytes to a file changes neither what was read nor a refusal.", "quantifier": "every file, appended bytes, build, table and position of the tape", "why_tests_cant": "ranges over all inputs", "anchors": ["src/file.rs: File::read", "src/font.rs: Font::position, Font::take"]}
{"id": "C58", "title": "No vector has more elements than the file has bytes", "statement": "Whatever is read from a file has no vector, at any level of nesting, with more elements than the file has bytes, so that a few bytes cannot make a caller hold millions of elements.", "quantifier": "every file, position, build, table and value read", "why_tests_cant": "ranges over all files; the counts are chosen by whoever wrote the file", "anchors": ["src/tables/glyph_positioning/mod.rs", "src/tables/font_variations/mod.rs", "src/tables/glyph_substitution/mod.rs", "src/tables/glyph_definition/mod.rs", "src/tables/color_palettes.rs", "src/layout"]}
{"id": "C59", "title": "Neither the order of the directory nor the records of other tables matter", "statement": "exists, take and take_given for a table depend only on the first directory record with its tag: they are unaffected by the records of other tables, their number, place and content, by later records with the same tag, by the numbers in the directory header, and, when no two records share a tag, by the order of the records.", "quantifier": "every pair of directories related this way, every table, build, checksum function, tape and position", "why_tests_cant": "ranges over all permutations and all other records", "anchors": ["src/font.rs: Font::exists, Font::position, Font::take, Font::take_given"]}
{"id": "C60", "title": "Truncation is noticed", "statement": "Reading the first k bytes of a file gives either the end of the data or the very result of the whole file; and if the whole file gives a value, then the cut file gives that value when all bytes that make up the value are among the first k, and the end of the data when one of them is not. No cut yields a different value, a refusal for another reason, or a panic.", "quantifier": "every file, every cut, every table, position and build", "why_tests_cant": "every cut of every file", "anchors": ["src/file.rs: File::read", "src/font.rs: Font::take", "src/tables", "src/layout"]}
{"id": "C61", "title": "Failures of the tape surface and never change a value", "statement": "On a tape whose operations (telling the position, seeking, reading) may each fail at any time with any error, every reader either gives the very value it gives on a tape that works, or fails with the error it fails with there or with an error of the tape; no failure is swallowed, replaced by a default or turned into a different value. This holds for opening a file, for taking a table and for every reader of a table or part of one.", "quantifier": "every tape content, every device over it, every schedule of failures and errors, every reader, position and build", "why_tests_cant": "ranges over every point at which an operation can fail", "anchors": ["src/file.rs: File::read", "src/font.rs: Font::take, Font::take_given", "src/tables", "src/layout"]}
{"id": "C62", "title": "A failure of the tape does not spoil later calls", "statement": "In any sequence of calls on one font and one tape whose operations may fail at any time, each call returns what it returns on a freshly opened tape that works, or an error of the tape.", "quantifier": "every sequence of calls, every device, every schedule of failures, wherever a failure leaves the tape", "why_tests_cant": "ranges over histories and crash points", "anchors": ["src/font.rs: Font::take, Font::take_given, Font::position"]}
{"id": "C63", "title": "Nothing before a table is touched", "statement": "Opening a file, and reading a table or a part of one, asks the tape only for bytes at or after the place where the reading starts, whatever the bytes are, and also when it fails: no offset in a file leads backwards. Taking a table asks only for bytes at or after the place the directory gives for it, and for none if there is no such table.", "quantifier": "every content, position, build and reader, whatever the outcome", "why_tests_cant": "ranges over all files, including malicious ones", "anchors": ["src/tables", "src/layout", "src/variations/item.rs"]}
{"id": "C64", "title": "The work is proportional to the result", "statement": "When a reader succeeds, the operations it performed on the tape (telling the position, seeking, reading) are at most three for each number, vector, option and variant of the value it gives. Taking a table adds four operations and, when checksums are computed, one for each word of the table.", "quantifier": "every file, position, build, reader and value read", "why_tests_cant": "ranges over all files, including those written to make a reader slow", "anchors": ["src/file.rs: File::read", "src/font.rs: Font::take", "src/tables", "src/layout"]}
{"id": "C65", "title": "Every reading ends, within a bound that only depends on the length of the file", "statement": "Whatever the bytes are and whether reading succeeds or fails, opening a file, taking a table and each reader of a table or part of one end after at most c times the k-th power of the file's length operations on the tape, for small numbers c and k that depend on the table only: k is 1 for files, directories, palettes and other flat parts, 2 for fvar, 3 for GDEF, and 5 for GSUB and GPOS (65536 is added to the length for fvar and GPOS).", "quantifier": "every file, position, build and reader, whatever the outcome", "why_tests_cant": "ranges over all files, including those written to make a reader slow", "anchors": ["src/file.rs: File::read", "src/font.rs: Font::take", "src/tables", "src/layout"]}
{"id": "C66", "title": "The work is proportional to the length of the file", "statement": "Reading a file or a table takes at most a modest number of operations (a thousand, say) on the tape for each byte of the file, so that a small file cannot keep a reader busy.", "quantifier": "every file, position, build and reader, whatever the outcome", "why_tests_cant": "ranges over all files, including those written to make a reader slow", "anchors": ["src/tables/glyph_substitution/mod.rs", "src/layout/lookup.rs", "src/tables", "src/layout"]}
{"id": "C67", "title": "The end of the data is reported exactly when data is missing", "statement": "Opening a file, taking a table and each reader of a table or part of one report the end of the data exactly when they ask for a byte beyond the last one: no incomplete file is reported as malformed, unsupported or valid by the reader that runs into its end, and no complete one as incomplete.", "quantifier": "every content, position, build and reader; for taking a table also every checksum function and reader that do so themselves", "why_tests_cant": "ranges over all files and all places where they can end", "anchors": ["src/file.rs: File::read", "src/font.rs: Font::take", "src/tables", "src/layout"]}
{"id": "C68", "title": "Every byte of a table matters", "statement": "If two tapes differ in any of the bytes that make up a value that was read from the one, then that value is not read from the other: no byte of a header, record, array or part reached by an offset is skipped over unseen. Likewise for the directory of a file.", "quantifier": "every pair of contents and positions, every table, part of a layout table and value, every build", "why_tests_cant": "ranges over all single and multiple changes of all files", "anchors": ["src/file.rs: File::read", "src/tables", "src/layout", "src/variations/item.rs"]}
{"id": "C69", "title": "Damage elsewhere does not matter", "statement": "A table that can be taken from a file can be taken, with the same result, from every other file with the same directory and the same bytes where the value has its own and, unless checksums are ignored, where its checksum is computed. The bytes of all other tables, and all those between tables, may be different or missing.", "quantifier": "every pair of files related this way, every table, value, build and position of the tape", "why_tests_cant": "ranges over all kinds of damage", "anchors": ["src/file.rs: File::read", "src/font.rs: Font::take", "src/tables"]}
{"id": "C70", "title": "A failure of the tape spoils at most one call", "statement": "In any sequence of calls on one font and one tape that fails at k operations, at most k calls return something else than on a freshly opened tape that works. So when a call is made k + 1 times, at least one of them returns what it should; likewise for opening a file k + 1 times from one place.", "quantifier": "every content, font, sequence of calls, schedule of failures and errors, and positions failures leave the tape at", "why_tests_cant": "ranges over histories and crash points", "anchors": ["src/file.rs: File::read", "src/font.rs: Font::take, Font::position"]}
{"id": "C71", "title": "Everything done with a tape stands alone", "statement": "Files may be opened at any place of a tape, tables looked for and taken from any number of fonts, and tables and parts read at any place, in any order on one tape: each of these gives what it gives alone on a tape that works. If the tape fails, it gives that or an error of the tape; and of all that is done at most k things go wrong when k operations fail.", "quantifier": "every content, every sequence of such actions, every build, device, schedule of failures and errors", "why_tests_cant": "ranges over histories and crash points", "anchors": ["src/file.rs: File::read", "src/font.rs: Font::take, Font::position", "src/tables", "src/layout"]}
{"id": "C72", "title": "accept recognizes exactly the formats of font files", "statement": "opentype::accept says yes to the tag of collections and to the tags truetype accepts, and to no other. Every file that opens begins with a tag it says yes to, and for every such tag other than that of collections there is a file that opens.", "quantifier": "every tag, every choice of the tags truetype accepts, every file", "why_tests_cant": "ranges over all tags and files", "anchors": ["src/lib.rs: accept", "src/file.rs: File::read"]}
{"id": "C73", "title": "Features, scripts and languages work as keys", "statement": "The comparison of features, scripts and languages is a total order that agrees with equality. Recognised ones come in the order of their tables and before all others, which come in the order of the bytes of their tags. Two tags give equal keys exactly when they are the same tag, in both builds of default-language. get with what from_tag gives finds the record of the first header whose tag gives an equal key, and nothing exactly when there is none.", "quantifier": "all pairs and triples of values, all tags, both builds, every list read from any tape", "why_tests_cant": "ranges over all tags and all triples of values", "anchors": ["src/layout/feature.rs: Feature, Features::get", "src/layout/script.rs: Script, Scripts::get, Record::get", "src/layout/language.rs: Language"]}
{"id": "C74", "title": "The result is in proportion to the work", "statement": "When reading succeeds, the value has at most three parts (numbers, vectors, options, variants) for each operation on the tape, and at most eight in GPOS. So a reader that is stopped after some number of operations has not built more than that, and what a file can make the crate keep in memory is bounded by a polynomial of its length.", "quantifier": "every content, position and build, every table and subtable", "why_tests_cant": "ranges over all files", "anchors": ["src/tables", "src/layout", "src/variations", "src/tables/glyph_positioning/element.rs: Pair2, Pair2s"]}
{"id": "C75", "title": "A refusal names what is refused", "statement": "When the content of a table is refused, the message is one of a fixed list for that table, each of which does occur (that about flags not in builds that ignore invalid flags), and the file has, not before the table, what the message says: a message with a number is about a word of the file with that number, which is not one of those that are known; a message about sizes, counts or flags is about words that have this fault. Unknown formats and versions at the start of a table are reported with the very word or words the table starts with, and always so. When a table is taken from a font, the message about a wrong checksum has the tag of that table. Opening a file that starts with the tag of collections fails with the message about collections; other files are refused only for a tag that is not accepted.", "quantifier": "every content, position, build, table and message", "why_tests_cant": "ranges over all malformed files", "anchors": ["src/tables", "src/layout", "src/font.rs: Font::take, Font::position"]}
{"id": "C76", "title": "An option of the build affects only what it is about", "statement": "Two builds that agree on a few options read a table in exactly the same way, with the same operations on the tape, values and errors, whatever the other options are: GSUB depends on what is done about incomplete directories and reserved flags, GPOS also on incomplete marks, fvar on reserved flags, taking a table from a font on checksums, languages on default-language, and GDEF, variation stores and palettes on no Cargo feature. A release build reads what a debug build reads, to the same values, and refuses what it refuses; the two differ only where the debug build panics.", "quantifier": "all pairs of builds, every content and position, every table, font and tag", "why_tests_cant": "ranges over all pairs of builds and all files", "anchors": ["Cargo.toml: features", "src/layout/directory.rs: Directory::read", "src/tables/glyph_positioning/element.rs: Mark1", "src/font.rs: Font::take", "src/layout/language.rs: Language", "src/variations/item.rs: Record"]}
{"id": "C77", "title": "Parts that share their place are read alike", "statement": "Fonts are made smaller by letting several offsets lead to one place. In whatever is read, two equal offsets of a table that lead to parts of the same kind have equal parts, at every level; two lookups of the same type whose offsets lead, by different ways, to the same subtable have equal subtables; and two null offsets have the same absent or default part. So what is at a place does not depend on the way by which, or on how many times, it is reached.", "quantifier": "every table read from any tape at any position, all pairs of offsets in it", "why_tests_cant": "ranges over all files and all pairs of offsets", "anchors": ["src/layout/lookup.rs", "src/layout/script.rs", "src/layout/context.rs", "src/tables"]}
{"id": "C78", "title": "Parts without offsets can be read one after another", "statement": "Reading a part that has no offsets (a coverage, a class definition, a correction, a rule of a context with its actions, the features of a language, the glyphs of a sequence, a set of alternates or a ligature, an extension, attachment points, headers, colors, axes, instances, variation data, the table directory of a font) leaves the tape right behind its last byte, at a distance that follows from what was read. So the caller can read what follows it next, and any number of such parts in a row are read exactly as each would be at its own place.", "quantifier": "every part of these kinds, every content and position, any number of parts in a row", "why_tests_cant": "ranges over all files and lengths", "anchors": ["src/layout/coverage.rs", "src/layout/class.rs", "src/layout/correction.rs", "src/layout/context.rs: Record, ClassRecord, ChainedRecord, ChainedClassRecord", "src/layout/language.rs: Record", "src/tables/glyph_substitution/element.rs", "src/variations/item.rs: Record", "src/font.rs: Font::read"]}
{"id": "C79", "title": "Overflow checks and the width of a usize make no difference", "statement": "No sum, difference, product or index that a reader computes, be it of positions, sizes, counts or formats, ever leaves its type. So a build without overflow checks, in which it would be cut to the width of the type, and a build for a machine of 64 or 32 bits, read every table exactly as a checked build for 32 bits does: the same value or error, the tape at the same place, the same bytes asked for in the same order. The one exception is the sum of two counts in item variation data (C38, C39).", "quantifier": "every content of less than 2^63 bytes and position, every table, and everything that a build might do instead of panicking", "why_tests_cant": "ranges over all files and builds", "anchors": ["src/layout/correction.rs: Device", "src/tables/font_variations/mod.rs: FontVariations", "src/layout/context.rs", "src/variations/item.rs: Record", "src/font.rs"]}
{"id": "C80", "title": "What stands for nothing cannot be taken for what was read", "statement": "The default coverage, class definition, correction, anchor and glyph-definition header, with which the crate represents what is absent, are never the result of reading anything. In a mark array a mark has the default anchor exactly when its own anchor is missing and the crate was built with ignore-incomplete-marks, so that missing anchors can be told from anchors at the origin.", "quantifier": "every content and position, every build, every mark of every attachment", "why_tests_cant": "ranges over all files", "anchors": ["src/layout/coverage.rs: Default for Coverage", "src/layout/class.rs: Default for Class", "src/layout/correction.rs: Default for Correction", "src/tables/glyph_positioning/element.rs: Default for Anchor, Mark1", "src/tables/glyph_definition/mod.rs: Default for Header"]}
{"id": "C81", "title": "A table is read from its own bytes", "statement": "The directory gives the offset and the size of a table. Taking it gives the value, or the failure, that its own bytes give as a file of their own; bytes of other tables have no part in it. So two files that agree in the bytes of a table agree in its value, and a table whose offsets lead beyond its size is refused as incomplete.", "quantifier": "every file and directory, every table of the crate, every build, every position of the tape", "why_tests_cant": "ranges over all files, all places of a table in a file and everything around it", "anchors": ["src/font.rs: Font::position, Font::take", "src/tables"]}
{"id": "C82", "title": "Lookups and directories hold for subtables of any type", "statement": "Lookups, lookup records and layout directories are public and generic in the type of the subtables, so a user may read GSUB or GPOS with subtables of their own. Whatever the reader of those: every subtable is what it gives at the place the offsets lead to, given the type stored in the lookup; everything else is as in C18 to C21 and C53 and is the same whatever the type of the subtables. And if that reader is faithful to a layout, does not panic, can be moved and followed by other bytes, survives failures of the tape, asks for nothing before its start or reports the end of data exactly when bytes are missing, then so do the lookup, the lookup list and the directory.", "quantifier": "every subtable type and reader, every content and position, every build", "why_tests_cant": "ranges over all types a user might supply", "anchors": ["src/layout/lookup.rs: Lookups, Record", "src/layout/directory.rs: Directory"]}
{"id": "C83", "title": "A font can be read while it is being written", "statement": "Bytes may be appended to a file, by a download for instance, while it is open and even in the middle of a call. Whatever a call returns then, it returns for the complete file; any error but the end of the data it reports for the complete file, too; and it reports the end of the data only if what was there when the call began is not enough. So once the bytes that a call needs are there its result is final, and a caller may repeat a call that ran out of data.", "quantifier": "every file, every beginning of it, every way and pace of growth, every failure of the tape in between, every reader and every sequence of calls", "why_tests_cant": "ranges over all interleavings of appending and reading", "anchors": ["src/file.rs: File::read", "src/font.rs: Font::take, Font::take_given, Font::position", "src/tables", "src/layout"]}
{"id": "C84", "title": "Threads do not disturb each other", "statement": "A font can be shared by any number of threads, each of which opens files, looks for tables, takes them and reads parts with a tape of its own, for instance a handle of the same file. Whatever the schedule, even if the file grows or the tapes fail meanwhile, each action gives what it gives alone, in the order of the actions (or the end of the data, as C83 allows, or an error of the tape); and a thread that has its turn again and again gets through all of its actions, whatever the others do.", "quantifier": "any number of threads, every list of actions of each, every schedule, every content, growth and failure of the tapes", "why_tests_cant": "ranges over all interleavings", "anchors": ["src/file.rs: File::read", "src/font.rs: Font::take, Font::take_given, Font::position, Font::exists", "src/tables", "src/layout"]}
{"id": "C85", "title": "How the data is delivered makes no difference", "statement": "A tape is anything that implements Read and Seek. A read may give fewer bytes than it is asked for, down to one at a time, and may be interrupted any number of times. Whatever the sizes of the pieces and wherever the interruptions, every reader and every sequence of actions gives what it gives on a tape that delivers all it is asked for; if reads fail for other reasons, it gives that or the error.", "quantifier": "every content, every source that delivers it, every size of every piece, every pattern of interruptions, every reader and sequence of actions", "why_tests_cant": "ranges over all ways of delivering a file", "anchors": ["src/lib.rs: Read", "src/file.rs: File::read", "src/font.rs: Font::take, Font::take_given, Font::position", "src/tables", "src/layout"]}
{"id": "C86", "title": "Anything inside a table can be read on its own", "statement": "When a table has been read, everything inside it that has a reader of its own — each list, record, subtable, format, coverage, class, anchor, correction, caret, color, axis — is exactly what that reader gives when it is run on the same tape at the place the offsets of the table lead to, at every level of nesting. So reading lazily, part by part, gives what reading the whole table gives; and two parts of the same type at the same place are equal even if they belong to different tables.", "quantifier": "every tape, every place, every table that is accepted, every build configuration, and every part at every depth; for the last sentence every pair of tables", "why_tests_cant": "An offset can be resolved against the wrong base at one level of nesting only, or a part can be read with state left over from its parent; a test sees the particular nesting and the particular offsets of its fonts.", "anchors": ["src/layout/directory.rs: Directory", "src/layout/lookup.rs: Lookups, Record", "src/tables/glyph_substitution/", "src/tables/glyph_positioning/", "src/tables/glyph_definition/", "src/tables/color_palettes.rs", "src/tables/font_variations/"]}
{"id": "C87", "title": "Readers look only so far", "statement": "For each table and each part of a table there is a fixed number of bytes, independent of the data, such that reading it asks for nothing beyond that many bytes from its beginning, whether it succeeds or fails; its outcome depends on those bytes only. A caller who maps, downloads or copies that much of a file from the beginning of the table can read the table with no loss. For the tables, for coverages and for class definitions the number is the least possible. Opening a file and taking a table of it looks no farther than the directory and that number of bytes from the place of the table, or as far as the checksum is computed; no byte behind a fixed number of bytes of a font file ever matters.", "quantifier": "every content, every position, every outcome, every build configuration, and every pair of contents that agree on that many bytes", "why_tests_cant": "The farthest place is reached only by combinations of the largest counts, sizes and offsets at every level of nesting, up to 137 GB from the beginning in GPOS; no test has such a file, let alone all of them.", "anchors": ["src/layout/directory.rs: Directory", "src/tables/", "src/variations/item.rs: Store, Record", "src/file.rs: File::read"]}
{"id": "C88", "title": "The fonts of a collection can be read one by one", "statement": "A font can be read from any position of a file that holds a table directory, and its tables are taken from the offsets its records give, which count from the beginning of the file and not from the font. So although File::read refuses collections, each font of a collection written as OpenType prescribes can be read with Font::read from the position the header of the collection gives, and each of its tables can be taken, also those it shares with other fonts. A font put into another file at any distance gives the same values and errors if the offsets of its records are increased by that distance.", "quantifier": "every file, every position of a directory, every collection with any number of fonts, tables and shared tables, every build", "why_tests_cant": "The number of the fonts, of their tables, and the ways in which they share them are unbounded, and the tests have no collection.", "anchors": ["src/font.rs: Font::read, Font::position, Font::take", "src/file.rs: File::read"]}
{"id": "C89", "title": "Short bursts of damage never go unnoticed", "statement": "In a build that tests checksums, if a table passes the test and then up to four bytes in a row of the file change, wherever they are, and one of them counts (it is in the table or its padding to whole words, and not the adjustment of head), then taking the table fails, as malformed or because the data end. The same holds for any damage that changes no two bytes with the same place in their words. Bytes that do not count can change freely. Five bytes in a row, or two words exchanged, can go unnoticed: the test does not see the order of words.", "quantifier": "every font, table, file and damaged file, every place and content of the damage", "why_tests_cant": "There are more than 2^32 ways to damage four bytes at each position of each file; tests try a few.", "anchors": ["src/font.rs: Font::take, Font::position"]}
{"id": "C90", "title": "Edits are local", "statement": "When two versions of a table, before and after an edit, are both read, every part (list, lookup, subtable, coverage, class, anchor and so on) whose bytes are as they were is read as it was, whatever else has changed around it: other parts, the offsets that lead to it, or how many parts there are. If the part has moved, it is enough that its bytes are found at the new place; and a part of which any byte has changed is not read as it was.", "quantifier": "every pair of tapes and of tables read from them, every part at every depth, every build", "why_tests_cant": "There are as many pairs of versions as there are pairs of fonts; a test compares a font with one edit of it.", "anchors": ["src/layout/", "src/tables/", "src/variations/"]}
{"id": "C91", "title": "The bytes asked for are exactly those of the value", "statement": "When a table or a part of one is read, the bytes that the tape is asked for are exactly those that the value is made of: its own and those that its offsets lead to. No other byte is asked for, not those between the parts nor those after the end; and each of these is, so none can be missing. The value even tells the requests: two tapes that give the same value at the same place are sent the same requests in the same order. So a program that downloads a font by ranges, or keeps one in pieces, knows from the value which pieces it needs to read the same again. Opening a file or reading a font asks for the bytes of the directory only; taking a table asks for the bytes of the table, in this sense, and for the words over which the checksum is computed if the build tests it.", "quantifier": "every content, every position, every value that is read, every address, every build", "why_tests_cant": "A reader can ask for a byte that it throws away, for one combination of formats and counts only; the values that tests compare do not show it.", "anchors": ["src/layout/", "src/tables/", "src/variations/", "src/file.rs: File::read", "src/font.rs: Font::read, Font::take"]}
{"id": "C92", "title": "Fonts can be read while they are downloaded", "statement": "On a tape that has only some of the bytes of a file and answers requests for the others with an error, a table is read just if the bytes it is made of are there, and otherwise that error is returned. A program that after each such error downloads the bytes that were asked for, and reads again, ends after at most as many errors as the reader makes requests, with the very outcome of the complete file, value or error; and what it has downloaded are, besides what it had, the bytes of the value and no others. To open a file and take one table of it, it downloads the directory, the table and, if the build tests checksums, the words over which the checksum is computed; the other tables stay where they are.", "quantifier": "every file, every set of bytes at hand, every position, every reader, every error of the tape, every build", "why_tests_cant": "The sets of bytes that can be at hand are as many as the subsets of the file, and the rounds are as many as the requests; a test tries one order of one file.", "anchors": ["src/file.rs: File::read", "src/font.rs: Font::take, Font::position", "src/layout/", "src/tables/", "src/variations/"]}
{"id": "C93", "title": "Files that others write to are read safely", "statement": "A file may be rewritten, extended or cut while it is read, and a tape may give other bytes each time the same ones are asked for, or fail at any time. Whatever bytes it gives, opening a font, taking a table and reading each of the tables does not panic, except in the one place where a build with overflow checks can (the sum of the counts in an item variation record), and the errors are those of the reader or of the tape. Whatever is returned is coherent: each count in it, at every depth, is the length of the list it belongs to, and the directory of a font has as many records as it says. The tape can be used afterwards. Nothing more can be hoped for: what is read can be a mixture that no file contains, and a checksum that was tested can belong to bytes that are no longer there.", "quantifier": "every sequence of contents of the file, every sequence of answers of the tape, every position, every table, every build", "why_tests_cant": "A test would have to interleave each request of the reader with each change of the file; there is no bound on either.", "anchors": ["src/file.rs: File::read", "src/font.rs: Font::take, Font::position", "src/layout/", "src/tables/", "src/variations/"]}
{"id": "C94", "title": "Methods work on values that were not read", "statement": "The fields of all tables are public, so a value may have been made or changed by hand. On every Features, Scripts and script Record, however many headers and records it has, get(tag) is None exactly when no header has the tag, it is the record with the number of the first such header exactly when there is a record with that number, and it panics exactly when there is none. On every ColorPalettes, iter gives as many palettes as there are color indices, each with the announced number of entries; an entry is the color at its place, and asking for it panics exactly when there is no such color or, in builds with debug assertions, when it lies beyond the announced number of colors. In what is read from a file that others write to meanwhile, get does not panic.", "quantifier": "every value of the types, every tag, every build", "why_tests_cant": "The values that can be made by hand are unlimited and are not produced by any reader, so no file can be a test of them.", "anchors": ["src/layout/feature.rs: Features::get", "src/layout/script.rs: Scripts::get, Record::get", "src/tables/color_palettes.rs: ColorPalettes::iter"]}
{"id": "C95", "title": "Writes elsewhere, or at other times, do not matter", "statement": "A file whose content changes over time, in whatever way: if from the beginning to the end of a call no one changes the bytes that the call asks for, then the call has exactly the outcome it has on a file that nobody changes, be it a value or an error. So a value is read correctly if no one changes the bytes it is made of during the reading, whatever happens to all other bytes and to the length of the file, and whatever happens before and after; for opening a file these are the bytes of the directory, and for taking a table those of the table and, in builds that test checksums, the words of the table. The same holds with table readers that are not of the crate.", "quantifier": "every history of contents of the file, every moment at which the call begins, every file, position, reader and build", "why_tests_cant": "The histories of a file and the ways in which they interleave with the operations of a call are unlimited.", "anchors": ["src/font.rs: Font::take, Font::take_given, Font::position", "src/file.rs: File::read", "src/tables/glyph_substitution: GlyphSubstitution", "src/tables/color_palettes.rs: ColorPalettes"]}
{"id": "C96", "title": "Handles that share their position are read safely", "statement": "Copies of a handle of a file share their position, so that threads which read with them at the same time move the tape under each other. Whatever the number of threads, whatever they read (a file, a table of a font, a table or a part of one), whatever the order of their operations, and whatever happens to the content of the file meanwhile: no call panics, except for item variation stores and glyph definitions in builds with overflow checks, and in every value that is given all counts equal the lengths of the lists they belong to. The value may be wrong, though.", "quantifier": "every number of threads, every schedule of their operations, every history of positions and contents, every reader and build", "why_tests_cant": "The schedules of operations of several threads, and the positions and bytes that a thread sees as a consequence, are unlimited.", "anchors": ["src/font.rs: Font::take, Font::take_given, Font::position", "src/file.rs: File::read", "src/table.rs: jump_take, jump_take_maybe", "src/layout/coverage.rs: Coverage"]}
{"id": "C97", "title": "Buffering makes no difference", "statement": "A tape may be wrapped in a std::io::BufReader of any capacity, and that again. Whatever is done with it (opening files, looking for tables, taking them, reading at positions) gives what it gives on the bare tape, however the bytes are delivered; if operations of the tape fail, and a failed seek leaves it where it was, an action gives that or the error. The position that a reader asks for and later returns to is the right one although bytes have been read ahead.", "quantifier": "every capacity, every source and way of delivering its bytes, every sequence of actions, every pattern of failures", "why_tests_cant": "The ways in which requests, refills, pieces and seeks interleave are unlimited.", "anchors": ["src/lib.rs: Read", "src/file.rs: File::read", "src/font.rs: Font::take, Font::take_given, Font::position", "src/tables", "src/layout"]}
{"id": "C98", "title": "Data are not judged", "statement": "Whether a table is accepted depends on its versions, formats, flags, counts and offsets, and not on its data: the numbers of glyphs, classes, features, lookups, regions, palettes, names and points, tags, coordinates, amounts and colors, in any order, whether or not what they refer to exists. When a table is read, every other table that has the same versions, formats, flags, counts and offsets takes the same places in the file, is read wherever its bytes are, and can be written over the first, with no other byte changed, and is then read in its place. In a font whose table lies behind the directory it takes this and the new checksum in the record of the table for the new table to be taken, and the other tables are taken as before. So fonts can be edited in place and glyphs can be renumbered; and an index in what was read has to be checked before it is used.", "quantifier": "every tape, every table read from it, every other table that differs in its data only, every build", "why_tests_cant": "Tests read fonts with the data they happen to have; the claim is about all replacements of all data at once.", "anchors": ["src/layout", "src/tables", "src/variations"]}
{"id": "C99", "title": "Offsets are not judged", "statement": "Whether a table is accepted does not depend on where its parts are. When a table is read, the same table with other offsets (and, in variable fonts, other distances between axes and between instances) is read as well, wherever the bytes of its parts are: in any order, with anything between them, before or inside what refers to them, overlapping or shared, and the result differs in the offsets only. An offset that may be zero, in which case there is nothing, has to be zero exactly when it was. So fonts can be packed, subset and rearranged by any tool, and parts that are equal can be stored once.", "quantifier": "every tape, every table read from it, every other choice of its offsets, every tape that has the parts at these offsets, every build", "why_tests_cant": "Tests read the arrangements that font tools happen to produce; the claim is about all arrangements.", "anchors": ["src/layout", "src/tables", "src/variations"]}
{"id": "C100", "title": "The lookups of a script and a language are those the file stores", "statement": "A program that shapes text asks the scripts of a GSUB or GPOS table for a script (get), the script for a language (get, with the default language of the script in its place if there is none), takes the required feature and the others from the language, and looks up their numbers in the list of features and the numbers of lookups in the list of lookups, passing over numbers that are not in the lists. Whatever table was read from whatever file, this does not panic and finds exactly the lookups that the bytes of the table lead to: the first script and language with the tags, the tag that is stored with each feature, and each lookup as its own bytes are read.", "quantifier": "every tape and position, every GSUB and GPOS table read, every pair of tags, every build", "why_tests_cant": "Tests look up a few scripts in a few fonts; the claim is about all tables, including those with repeated tags, missing languages and numbers out of range, and about the whole way from the bytes to the lookup.", "anchors": ["src/layout/script.rs", "src/layout/language.rs", "src/layout/feature.rs", "src/layout/lookup.rs", "src/layout/directory.rs"]}
{"id": "C101", "title": "Extensions can be followed", "statement": "The crate reports an extension subtable of GSUB and GPOS as the type and the offset it holds and does not read what is there. A caller can: the subtable an extension stands for begins at the offset of the extension, counted from the extension itself, which begins at the place of the table plus the offset of the lookups, that of the lookup and that of the subtable, and reading it with the type the extension gives yields, from whatever position the tape was left at, the value or the error that reading those bytes gives. There is none exactly when the table has no such lookup or subtable. One step is enough unless the extension gives the type of extensions, which the crate does not refuse: then an extension may stand for itself, and a program that goes on while it finds extensions need not end.", "quantifier": "every tape and position, every GSUB and GPOS table read, every number of a lookup and of a subtable, every build", "why_tests_cant": "Tests see extensions of some fonts that are well made; the places, the chain of offsets and the circular case must be settled for all tables.", "anchors": ["src/layout/lookup.rs", "src/layout/directory.rs", "src/tables/glyph_substitution/mod.rs", "src/tables/glyph_positioning/mod.rs"]}
{"id": "C102", "title": "Substitutions do to glyphs what their bytes say", "statement": "With a substitution read from any file, a program that looks a glyph up in its coverage and takes the entry with that number finds what the bytes of the substitution say about the glyph: the glyph a single substitution puts in its place (adding modulo 65536, or from the list), the sequence of a multiple substitution, the alternates, and the first ligature whose components the following glyphs begin with. It finds nothing exactly when the bytes have nothing for the glyph. Taking the entry panics exactly when the coverage gives a number for which the subtable has no entry, which the crate does not test. The number of a glyph in a coverage and its class are those of the bytes in both formats, the first entry counting where several apply.", "quantifier": "every tape and position, every single, multiple, alternate and ligature substitution read, every coverage and class definition read, every glyph and every sequence of glyphs that follow", "why_tests_cant": "There is one answer for each of the 65536 glyphs and each sequence, in tables of any size; tests ask for a few glyphs of a few fonts, none with ranges that overlap or with entries missing.", "anchors": ["src/layout/coverage.rs", "src/layout/class.rs", "src/tables/glyph_substitution/mod.rs", "src/tables/glyph_substitution/element.rs"]}
{"id": "C103", "title": "Adjustments move glyphs as their bytes say", "statement": "With an adjustment read from any file, a program that looks up a glyph or a pair of glyphs finds the values the bytes have for it: of a single adjustment the common value or the one with the number of the glyph in the coverage; of a pair adjustment the two values of the first pair with the second glyph in the set of the first, or of the cell in the row of the class of the first glyph and the column of the class of the second. It finds nothing exactly when the bytes have nothing, and it panics exactly when the coverage or the classes lead to a value, set, row or column that the table does not have, which the crate does not test.", "quantifier": "every tape and position, every single and pair adjustment read, every pair of glyphs, every build", "why_tests_cant": "Kerning is wanted for all pairs of glyphs; tests look at a few pairs of a few fonts. That a row or a column can be missing although the table was accepted is seen only for particular files.", "anchors": ["src/tables/glyph_positioning/mod.rs", "src/tables/glyph_positioning/element.rs", "src/layout/coverage.rs", "src/layout/class.rs"]}
{"id": "C104", "title": "Attachments join glyphs where their bytes say", "statement": "With a cursive attachment or an attachment of marks to bases, ligatures or other marks read from any file, a program that looks the glyphs up in the coverages, takes the mark with its number, and the anchor in the row of the other glyph (of a component, for ligatures) and the column of the class of the mark, finds the anchors the bytes have for these glyphs, and none where the bytes have none, be it that a glyph is not covered or that an offset is null. It panics exactly when the coverages lead to a mark, a row or a column that the table does not have, which the crate does not test.", "quantifier": "every tape and position, every cursive, base, ligature and mark attachment read, every pair of glyphs, every component, every build", "why_tests_cant": "Each pair of a mark and a letter has its own answer; tests look at single anchors of a few fonts, and none at classes or numbers out of range.", "anchors": ["src/tables/glyph_positioning/mod.rs", "src/tables/glyph_positioning/element.rs", "src/layout/coverage.rs"]}
{"id": "C105", "title": "Contexts match where their bytes say", "statement": "With a context, a chained context or a reverse chained substitution read from any file, a program that tests whether a glyph among others is in the context finds what the bytes say: in format 1 the first rule in the set of the glyph whose glyphs follow (and, if chained, whose glyphs come before, the nearest first, and come after), in format 2 the same by classes, in format 3 by one coverage for each place. It finds how many glyphs that rule is about and its actions, or the substitute, and nothing exactly when no rule of the bytes matches. It panics exactly when a glyph that is covered has a number or a class for which the table has no place, which the crate does not test.", "quantifier": "every tape and position, every context, chained context and reverse chained substitution read, every glyph, every text before and after it, of any length", "why_tests_cant": "The claim ranges over all texts; tests decode a few tables of a few fonts and match no text.", "anchors": ["src/layout/context.rs", "src/layout/coverage.rs", "src/layout/class.rs", "src/tables/glyph_substitution/mod.rs"]}
{"id": "C106", "title": "Corrections correct by what their bytes say", "statement": "With a device read from any file, a program that unpacks the correction for a size finds, for each of the sizes from the first to the last, the two, four or eight bits the bytes have for it, as a number in two's complement, nothing for other sizes, and never panics. With an item variation store read from any file, a program that looks up the deltas for an outer and an inner index finds, for each region of the record, the region and the number the bytes have for it, in two bytes or in one, nothing for indices out of range, and never panics, provided that the record does not have the bit for long words (C51) and not more words than regions.", "quantifier": "every tape and position, every device, every size, every item variation store read, all indices, every build", "why_tests_cant": "Each format packs its numbers in another way, with as many cases as there are sizes and items; tests look at tables in which few of these occur.", "anchors": ["src/layout/correction.rs", "src/variations/item.rs"]}
{"id": "C107", "title": "Glyph definitions tell about glyphs what their bytes say", "statement": "With a GDEF table read from any file, a program that looks up a glyph in the values the API exposes finds the class of the glyph and the class of the mark that the bytes assign, 0 where no definition exists or the glyph is in none of its ranges; the attachment points the bytes list for the glyph, nothing for glyphs that are not covered, and an index out of bounds exactly when the coverage has more glyphs than the list has entries; and that the glyph is in a mark set exactly when the table is of version 1.2 or later, has the set, and the coverage of the set has the glyph.", "quantifier": "every tape and position, every GDEF table read, every glyph and mark set, every build", "why_tests_cant": "Each part is optional, is at an offset of its own, and appears in some versions only; the samples have few of the combinations.", "anchors": ["src/tables/glyph_definition/mod.rs", "src/layout/class.rs", "src/layout/coverage.rs"]}
{"id": "C108", "title": "Lookups do to glyphs what their bytes say", "statement": "With a GSUB or GPOS table read from any file, a program that goes through the subtables of a lookup in order, reads what an extension stands for from the place its offset leads to, applies single, multiple and ligature substitutions or single and pair adjustments to a glyph and those that follow it, and stops at the first subtable that does something, finds what the bytes say: the effect of the first subtable that has one, when those before it are well-formed and have none; nothing, exactly when each subtable is well-formed and has none; and an error exactly when the first subtable that does not keep silent is an extension for something malformed or covers the glyph with a number it has no entry for. It does so wherever the stream was before.", "quantifier": "every tape and position, every GSUB and GPOS table read, every lookup, every glyph and every sequence of glyphs that follow, every build", "why_tests_cant": "The outcome depends on the order and the kind of all subtables, on chains of five offsets from different origins, and on the glyphs; each test is one point of this space.", "anchors": ["src/layout/lookup.rs", "src/tables/glyph_substitution/mod.rs", "src/tables/glyph_positioning/mod.rs"]}
{"id": "C109", "title": "Text becomes what the bytes of the file say", "statement": "With the GSUB table of any font file, a program that finds the lookups of some features for a script and a language (C100), performs these lookups one after another in the order of their numbers (C108), each from the first glyph to the last, going on behind what it has replaced, ends with a sequence of glyphs if and only if the bytes of the table make the given sequence into it. The program knows single, multiple and ligature substitutions, also behind extensions, and each lookup passes over the glyphs that its flags and the GDEF table of the file, if there is one, tell it to ignore (C110); these stay where they are.", "quantifier": "every tape, every font file and every GSUB table read, every script, language and set of features, all sequences of glyphs, every build", "why_tests_cant": "The result for a text is put together from every part of the table, script list, language systems, features, lookups, subtables, coverages and sets; an error in any of them shows in some text only.", "anchors": ["src/layout/script.rs", "src/layout/feature.rs", "src/layout/lookup.rs", "src/layout/directory.rs", "src/tables/glyph_substitution/mod.rs", "src/font.rs"]}
{"id": "C110", "title": "Lookups ignore the glyphs their flags and the glyph definition say", "statement": "With a GDEF table and a GSUB or GPOS table read from the same file, a program that asks the flags of a lookup, its mark filtering set, and the classes and mark sets of the glyph definition whether the lookup ignores a glyph finds that it does exactly when the bytes say so: the glyph is a base, ligature or mark and the bit for these is set; or it is a mark, and the lookup has a mark filtering set the mark is not in; or there is no such set, the high byte of the flags is a class, and the mark has another.", "quantifier": "every tape and every font file, every pair of tables read, every lookup and glyph, every build", "why_tests_cant": "The answer depends on two tables, on eight bits and a byte of flags, and on four optional parts; tests look at few of the combinations.", "anchors": ["src/layout/lookup.rs", "src/tables/glyph_definition/mod.rs", "src/layout/class.rs", "src/layout/coverage.rs"]}
{"id": "C111", "title": "Lookups of alternates, contexts and attachments do what their bytes say", "statement": "For a GSUB or GPOS table read from a file, a program that tries the subtables of a lookup one after another, following extensions to where they lead, until one has an answer finds exactly what the bytes say: the alternates of a glyph; the number of glyphs and the actions of the first rule of a context or chained context, in either table, that the glyphs around a glyph match; the substitute of a reverse chained substitution; the anchors of a cursive attachment; and the anchors by which a mark is attached to a base, a component of a ligature or another mark. It finds nothing exactly when each subtable is well-formed and has nothing to say, and fails exactly when the first that does not keep silent is malformed or lacks the entry it should have.", "quantifier": "every tape, every table read, every lookup, every glyph with all the glyphs before and after it, every component, every build", "why_tests_cant": "The answer depends on the order of the subtables, on the formats and coverages of each, on offsets that may lead anywhere and on the glyphs around; there is no bound on any of them.", "anchors": ["src/layout/lookup.rs", "src/layout/context.rs", "src/tables/glyph_substitution/mod.rs", "src/tables/glyph_positioning/mod.rs"]}
{"id": "C112", "title": "Text is moved as the bytes of the font say", "statement": "For a GPOS table read from a file, with or without a GDEF table read from the same file, a program that looks up the script, the language and the wanted features, and performs their lookups of single and pair adjustments in the order of the table, each from the first glyph to the last, without the glyphs it ignores and without looking again at the second of a pair that has a value of its own, ends exactly with the values for each glyph that the bytes give, and fails exactly when the bytes give none.", "quantifier": "every tape and every font file, every table read, every script, language, set of features and sequence of glyphs, every build", "why_tests_cant": "The outcome depends on all lists of the table at once and on texts of any length; a test looks at one text in one font.", "anchors": ["src/layout/script.rs", "src/layout/feature.rs", "src/layout/lookup.rs", "src/tables/glyph_positioning/mod.rs", "src/tables/glyph_positioning/element.rs", "src/tables/glyph_definition/mod.rs"]}
{"id": "C113", "title": "From a file to glyphs in their places", "statement": "A program that begins with a tape and nothing else, opens the file, takes GDEF, GSUB and GPOS from its font if they are there, shapes the glyphs of a text with the one, contexts calling lookups to any given depth, and places them with the other, by values, cursive joints, attached marks and contexts, each lookup without the glyphs it ignores, ends exactly with the glyphs, values and anchors that the bytes of the file give, and fails exactly when these give none: because there is no directory, a checksum is wrong, a table that is there is malformed, or a lookup lacks what it should have. What a table that is not there would do is not done.", "quantifier": "every tape, every script, language, set of features and sequence of glyphs, every build", "why_tests_cant": "This is what all parts of the crate are for, together: each is right in itself, yet only their composition tells whether what a user sees is what the font says. Tests try a few fonts.", "anchors": ["src/file.rs", "src/font.rs", "src/tables/glyph_definition/mod.rs", "src/tables/glyph_substitution/mod.rs", "src/tables/glyph_positioning/mod.rs", "src/layout/directory.rs"]}
{"id": "C114", "title": "What text becomes when lookups call each other", "statement": "For a GSUB table read from a file, with or without GDEF, a program that performs the lookups of some features in their order, with single, multiple and ligature substitutions, contexts and chained contexts from the first glyph to the last and reverse chained substitutions from the last to the first, makes exactly of any glyphs what the bytes say. Where a context matches, its actions are performed in order, each by calling another lookup at a glyph counted among those that the context does not ignore in what the text has become by then; called lookups may have contexts and call others, to any depth that is given. Afterwards the lookup goes on behind the sequence of the context. If the bytes say nothing, as a subtable is malformed or lacks what it should have, the program fails.", "quantifier": "every tape, every GDEF and GSUB table read, every script, language, set of features and sequence of glyphs, every depth of calls, every build", "why_tests_cant": "Lookups that call each other make one glyph depend on all others, on every lookup of the table and on the order of all actions; neither the depth of the calls nor the length of the text is bounded.", "anchors": ["src/layout/context.rs", "src/layout/lookup.rs", "src/layout/directory.rs", "src/tables/glyph_substitution/mod.rs", "src/tables/glyph_definition/mod.rs"]}
{"id": "C115", "title": "How text is placed with contexts and attachments", "statement": "For a GPOS table read from a file, with or without GDEF, a program that performs the lookups of some features in their order, each from the first glyph to the last, places any glyphs exactly as the bytes say: single and pair values move glyphs; cursive attachments join a glyph to the next by an exit and an entry; marks are attached by anchors to the base, the component of a ligature or the mark before them; and where a context or chained context matches, its actions are performed in order by calling other lookups, to any depth that is given. Glyphs that a lookup ignores are passed over; a base is what is neither ignored nor of the class of marks in GDEF. If the bytes say nothing, as a subtable is malformed or lacks what it should have, the program fails.", "quantifier": "every tape, every GDEF and GPOS table read, every script, language, set of features and sequence of glyphs with components, every depth of calls, every build", "why_tests_cant": "Where a glyph goes depends on glyphs arbitrarily far before and behind it, on the classes and lookups of two tables and on the order of all actions; a test looks at one text in one font.", "anchors": ["src/layout/context.rs", "src/layout/lookup.rs", "src/layout/directory.rs", "src/tables/glyph_positioning/mod.rs", "src/tables/glyph_positioning/element.rs", "src/tables/glyph_definition/mod.rs"]}
{"id": "C116", "title": "Programs get what they would get alone", "statement": "A program opens files, looks for tables, takes them from fonts and reads parts, at places of its choice, and decides what to do next from all results and errors it has had so far: it may skip what is missing, try again or give up. On a tape that works and however the content is delivered, each thing it does gives what it gives alone, and so the program does the same things and ends with the same result as if each were done on a tape of its own. On a tape that may fail and grow, each gives what it gives alone on the final content, or the end of the data as on the first content, or an error of the tape; if k operations fail, at most k of all things done are spoiled. The same holds for any number of programs in threads, each with its own tape, for every schedule; and a program that has its turn again and again comes to its end.", "quantifier": "every program that does such things and decides by their results, every content, growth, delivery and failure of the tape, every number of threads, every schedule, every build", "why_tests_cant": "ranges over programs, histories, crash points and interleavings", "anchors": ["src/file.rs: File::read", "src/font.rs: Font::take, Font::take_given, Font::position, Font::exists", "src/tables", "src/layout"]}
{"id": "C117", "title": "Text is set alike on every tape and in many builds", "statement": "The program of C113, which opens a file, reads its GDEF, GSUB and GPOS tables and the subtables that extensions point to, and sets text by them: on a device that fails it ends with the glyphs it ends with on a tape that works, or with an error of the device; if the file grows meanwhile, it ends as on the final content or with the end of the data as on the first; if bytes are appended to a file, text is set as before; and however a source delivers its bytes, glyphs are set exactly as the bytes say. Two builds that treat incomplete directories, incomplete marks and reserved flags alike set text alike: what one that checks sums of tables or overflows sets, one that does not check them sets, and to the same glyphs in the same places.", "quantifier": "every content, growth, delivery, device and schedule of failures, every script, language, set of features and text, every depth of calls, every two such builds", "why_tests_cant": "ranges over crash points and deliveries of the bytes and over builds, of which a test run has one", "anchors": ["src/file.rs: File::read", "src/font.rs: Font::take, Font::position", "src/layout/context.rs", "src/layout/lookup.rs", "src/layout/directory.rs", "src/tables/glyph_positioning/mod.rs", "src/tables/glyph_substitution/mod.rs", "src/tables/glyph_definition/mod.rs"]}
{"id": "C118", "title": "From a file to its colors", "statement": "A program that opens a file, takes the CPAL table from its font and iterates over its palettes finds, for entry j of palette i, exactly the blue, green, red and alpha that the bytes of the file give: the directory leads to the table, the table to the first color of the palette, and j colors on from there is the color. It finds none exactly if the file has no CPAL table, or the table has no such palette or entry. If the entry lies behind the last color, it panics, and so it does in every build. On a device that fails, or while the file grows, it ends so or with an error of the device or the end of the data.", "quantifier": "every file, every palette and entry, every build, every device, failure and growth", "why_tests_cant": "The way from the first byte to a color goes by five numbers stored in three places, of which any values may occur; fixtures have one or two palettes.", "anchors": ["src/file.rs: File::read", "src/font.rs: Font::take, Font::position", "src/tables/color_palettes.rs: ColorPalettes::iter"]}
{"id": "C119", "title": "From a file to its axes and instances", "statement": "A program that opens a file, takes the fvar table from its font, looks for the first axis with a tag and for instance j, finds exactly the coordinate that the bytes of the file give that instance on that axis; and one that brings a value into the range of the axis finds the value itself if it is between the least and the greatest that the bytes give the axis, the least for values below it and the greatest for others. They find nothing exactly if the file has no fvar table, no axis has the tag, or there is no such instance; and once the table is read they do not panic. On a device that fails, or while the file grows, they end so or with an error of the device or the end of the data.", "quantifier": "every file, every tag, instance and value, every build, every device, failure and growth", "why_tests_cant": "Axes and instances may have any sizes, tags may repeat, and values may have any order; a fixture has one choice of each.", "anchors": ["src/file.rs: File::read", "src/font.rs: Font::take, Font::position", "src/tables/font_variations/mod.rs"]}
{"id": "C120", "title": "Distances at a size and in a variation", "statement": "With a value record or an anchor read from any file, a program that takes a placement, an advance or a coordinate and corrects it, at a size in pixels and with a weight for each region of the variations, finds exactly what the bytes say: the stored number, or 0 if the flags do not have it; plus the bits that the device at the offset has for the size, in pixels; or plus, for the two indices at the offset, the sum over all regions of the record of the delta times the weight of its region, in units. Offsets that are zero, sizes and indices out of range and a font without a store correct by nothing; and the program never panics, provided that the records of the store do not have the bit for long words (C51) and not more words than regions.", "quantifier": "every tape and position, every flags, every value record and anchor, every store read, every size, all weights, every build", "why_tests_cant": "The place of each field depends on all lower bits of the flags, that of each delta on three counts, and the kinds of corrections combine freely; tests look at values without corrections.", "anchors": ["src/tables/glyph_positioning/element.rs: Single, Anchor3", "src/layout/correction.rs", "src/variations/item.rs"]}
{"id": "C121", "title": "Text depends on the tables, wherever they are", "statement": "What a program makes of a text with the glyph definition, substitution and positioning tables, each read from a tape of its own from the first byte on, is what it makes of the text with any file that has these tables: the same glyphs in the same places, or the same failure of malformed data. Nothing else of the file matters: not the other tables, not their order or places, not the format tag, not the numbers of the directory, not what follows the tables. In particular two files with the same tables set text alike.", "quantifier": "every file, all tables, every place of them, every text, script, language, list of features and depth, every build", "why_tests_cant": "Offsets in subtables are relative to places that are themselves found by offsets, and extensions are followed long after the tables were read, so a place that is taken for another shows only in files where the two differ.", "anchors": ["src/font.rs: Font", "src/file.rs: File", "src/layout/directory.rs", "src/layout/lookup.rs", "src/tables/glyph_substitution/mod.rs: Type", "src/tables/glyph_positioning/mod.rs: Type"]}
{"id": "C122", "title": "What is written into a font is what text becomes", "statement": "If the glyph definition, substitution and positioning tables that are taken from a file have no extension subtables, then a program that opens the file and sets a text gives what it gives with the values of the tables alone, without any tape: the same glyphs in the same places, or the same error. Hence files from which the same values are taken set text alike, whatever their bytes; and if the tables of a file were written from valid values whose parts do not clash, with whatever other tables in whatever order, text becomes what these values say.", "quantifier": "every file, all values of the three tables without extensions, every text, script, language, list of features and depth, every build", "why_tests_cant": "A test compiles one font and shapes one text with it; that nothing but the values counts is about all files from which the same values are read.", "anchors": ["src/font.rs: Font", "src/layout/directory.rs", "src/layout/lookup.rs", "src/tables/glyph_definition/mod.rs", "src/tables/glyph_substitution/mod.rs", "src/tables/glyph_positioning/mod.rs"]}
{"id": "C123", "title": "A font that lacks nothing sets every text", "statement": "A program that opens a file and sets a text fails for no text, script, language, list of features or depth if the tables of the file for glyphs are absent or well-formed and lack nothing: whatever the subtables of the substitution and positioning tables stand for, through extensions, is well-formed, and none of them covers a glyph for which it has no entry, rules, row, column, mark or anchor. It is enough that the covered glyphs have numbers and classes less than the numbers of entries, of rows and of columns, and that marks have classes less than the numbers of anchors.", "quantifier": "every file, every text, script, language, list of features and depth, every build", "why_tests_cant": "A test sets some texts in one font; that no text whatever makes the program fail or panic needs a proof over all texts, and over all fonts that meet the condition.", "anchors": ["src/file.rs: File", "src/font.rs: Font", "src/layout/directory.rs", "src/layout/lookup.rs", "src/layout/context.rs", "src/tables/glyph_definition/mod.rs", "src/tables/glyph_substitution/mod.rs", "src/tables/glyph_positioning/mod.rs"]}
{"id": "C124", "title": "Text stays among the glyphs it leads to", "statement": "If the glyphs of a set, among each other, are replaced only by glyphs of the set, by all substitutions of a file, through extensions, then every text in glyphs of the set becomes text in glyphs of the set, whatever the script, the language, the features and the depth; in terms of what is read, it is enough that the set contains the glyphs which the subtables have as substitutes. Text in glyphs that no substitution covers stays what it is, whatever contexts match. Without multiple substitutions text does not get longer, and without ligatures too it has as many glyphs as before. Positioning never changes the glyphs.", "quantifier": "every file, every set of glyphs, every text, script, language, list of features and depth, every build", "why_tests_cant": "Whoever subsets a font drops the glyphs outside of such a set; that no text ever needs one of them is about all texts, and tests can only set some.", "anchors": ["src/file.rs: File", "src/font.rs: Font", "src/layout/lookup.rs", "src/layout/context.rs", "src/tables/glyph_substitution/mod.rs", "src/tables/glyph_positioning/mod.rs"]}
{"id": "C125", "title": "The features that are wanted are a set", "statement": "Text becomes the same, or fails alike, for all scripts, languages and features for which the file has the same lookups. So it matters neither in which order features are named, nor how often, nor whether features are named that the file does not have for the script and the language; and if it has none of those that are named, text stays as it is, and whether this is found out depends only on whether the tables are absent or well-formed.", "quantifier": "every file, every text, all scripts, languages and lists of features, every depth and build", "why_tests_cant": "Tests try some lists of features with one font; that only the set of lookups counts is about all lists and all files.", "anchors": ["src/font.rs: Font", "src/layout/script.rs", "src/layout/feature.rs", "src/layout/lookup.rs", "src/layout/directory.rs"]}
{"id": "C126", "title": "Lookups that do not call each other in circles need no limit", "statement": "A program that sets text limits how deep contexts may call lookups. The limit does not matter if it is greater than the number of calls that can be followed, one from another, beginning with the lookups that are wanted: text becomes the same, or fails alike, with all such limits. If lookups do not ask for each other in circles, any limit greater than the number of lookups of each table will do. In terms of what is read, it is enough to follow the actions of the contexts and chained contexts of the tables, for instance by a rank of lookups that each call lowers.", "quantifier": "every file, every text, script, language and list of features, all limits, every build", "why_tests_cant": "Tests try some limits on some texts; that nothing changes from some limit on is about all texts and all limits, and depends on what every context of the file asks for.", "anchors": ["src/file.rs: File", "src/font.rs: Font", "src/layout/context.rs", "src/layout/lookup.rs", "src/tables/glyph_substitution/mod.rs", "src/tables/glyph_positioning/mod.rs"]}
{"id": "C127", "title": "Words can be set one by one", "statement": "Glyphs separate words in a file if no subtable of its GSUB and GPOS tables has a part in them - they are not covered, are in no ligature, pair, context or joint, and carry no marks - no lookup ignores them, and they are not marks. A text is then set as the words between its separators are set by themselves, in the same script and language with the same features and limit of depth, with the separators as they are between them; and if one of the words cannot be set, neither can the text, and the other way round. This holds through all lookups, forward and backward, and all nested calls. It is decided by what the subtables do next to separators, or by the values that are read, except that pairs by classes have values for any second glyph.", "quantifier": "every file, every set of separators, all words and separators between them, every script, language and list of features, all limits, every build", "why_tests_cant": "Tests set some texts; that nothing reaches across a separator is about all words on its sides, the work of all lookups in turn, and contexts that call each other.", "anchors": ["src/file.rs: File", "src/font.rs: Font", "src/layout/context.rs", "src/layout/lookup.rs", "src/tables/glyph_substitution/mod.rs", "src/tables/glyph_positioning/mod.rs", "src/tables/glyph_definition/mod.rs"]}
{"id": "C128", "title": "Fonts that say the same set text alike", "statement": "Two files, read by two builds that may differ, set every text in a script and a language with some features alike, or fail with the same error, if their lookups correspond: for each that is wanted in the one there is one that is wanted in the other, in the same order; those that correspond pass over the same glyphs and have subtables that do alike, where what the contexts ask for corresponds, too; and the same glyphs are marks. In particular, a file sets text as another does if it retains the lookups that are wanted and those that these ask for, directly or indirectly, under whatever numbers that keep the order of the wanted ones; lookups that are not reached may be left out, be added or be anything. This is about tables without extensions.", "quantifier": "all pairs of files and of builds, all correspondences of lookups and all numberings, every text, script, language and list of features, all limits", "why_tests_cant": "Tests compare a font with a smaller one on some texts; that unreached lookups and the numbers of lookups never matter is about all texts and all chains of nested calls.", "anchors": ["src/file.rs: File", "src/font.rs: Font", "src/layout/directory.rs: Directory", "src/layout/lookup.rs", "src/layout/context.rs", "src/tables/glyph_substitution/mod.rs", "src/tables/glyph_positioning/mod.rs", "src/tables/glyph_definition/mod.rs"]}
{"id": "C129", "title": "Text grows only so much", "statement": "However a text is set, it becomes at most so many times as long: with factor 1 + (k - 1) * max(1, a)^(n - 1) for each of the lookups that are wanted, where k is the most glyphs that any subtable puts in the place of one, a is the most actions that any context asks for at once, and n is how deep contexts may call lookups. For every file there is such a limit, whatever is in it, and it does not depend on the text; for the tables that a user has taken from a file, without extensions, k and a can be read off from the values. The limit is reached by some fonts.", "quantifier": "all files and builds, every text, script, language and list of features, all limits of depth", "why_tests_cant": "A test sets some texts with some fonts; that hostile chains of contexts and multiple substitutions never put in more is about all fonts and all chains of calls.", "anchors": ["src/layout/directory.rs: Directory", "src/layout/lookup.rs", "src/layout/context.rs", "src/tables/glyph_substitution/mod.rs", "src/tables/glyph_positioning/mod.rs"]}
{"id": "C130", "title": "Fonts with some of the glyphs set texts in these alike", "statement": "A font may be cut down to some of its glyphs, and these may get other numbers. Say that a second font has some glyphs of the first, under numbers of its own; that its lookups correspond to those of the first in the same order; that those that correspond pass over the same glyphs and have the same subtables for the glyphs in both fonts, whatever becomes of the other glyphs: rules of contexts and ligatures that name a glyph, or a class of glyphs, that is in only one of the fonts may be missing, and so may subtables that cover no glyph of both; and that what is put in for a glyph is again in both. Then of every text in these glyphs both fonts make the same glyphs in the same places, or fail with the same error, whatever the depth; and nothing but glyphs of both comes up.", "quantifier": "all pairs of files and builds whose tables have no extensions and correspond, every text in the glyphs of both, all scripts, languages, features and limits of depth", "why_tests_cant": "A test sets some texts with some cut-down fonts; that no text tells them from the whole ones is about all texts and all fonts.", "anchors": ["src/layout/directory.rs: Directory", "src/layout/lookup.rs", "src/layout/context.rs", "src/layout/coverage.rs", "src/layout/class.rs", "src/tables/glyph_substitution/mod.rs", "src/tables/glyph_positioning/mod.rs", "src/tables/glyph_definition/mod.rs"]}
{"id": "C131", "title": "Extensions make no difference to text", "statement": "Large fonts have extensions in the place of subtables. Text set with such a font is what the tables give with each extension replaced by the subtable it stands for, the one found where it says with the type it says. So two files whose tables have the same scripts, features and lookups once extensions are replaced set every text alike, down to the errors, wherever the subtables are in the bytes and whichever of them are behind extensions; and fonts cut down or renumbered set texts alike with or without extensions. A file written anew with subtables in the place of extensions sets every text as the first does. What one gets by following an extension to its subtable is what it stands for. The condition is that no extension stands for another.", "quantifier": "all files and builds whose tables read and whose extensions stand for subtables that are no extensions; all pairs of these; every text, all scripts, languages, features and limits of depth", "why_tests_cant": "A test sets some texts with a font before and after its subtables were moved behind extensions; that no text tells is about all texts and all fonts.", "anchors": ["src/layout/lookup.rs: Lookup, Record", "src/layout/directory.rs: Directory", "src/tables/glyph_substitution/mod.rs: Type, ExtensionSubstitution", "src/tables/glyph_positioning/mod.rs: Type, ExtensionPositioning"]}
{"id": "C132", "title": "Tables can be put together from parts", "statement": "A substitution or positioning table can be put together from parts that were each written on their own: a list of scripts, a list of features and any number of subtables of any size. The lists come behind the header, then the lookups, which have nothing but extensions, then the subtables one after another, none of them changed. Wherever such a table is in a file, it is read, and it has exactly the scripts, features, lookups and subtables of its parts once each extension is replaced by the subtable it stands for. So a file whose tables were put together from the parts of the tables of another sets every text as the other does, down to the errors; and one whose tables were put together from the parts of a font cut down or renumbered sets the texts in its glyphs as the whole font does. The conditions are that each part reads on its own, that none of the subtables is an extension, and that the header, the lookups and the table fit the offsets of 16 and 32 bits.", "quantifier": "all lists of scripts and features and all lookups and subtables that read on their own; all places in all files; every text, all scripts, languages, features and limits of depth", "why_tests_cant": "A test puts some tables together and reads them; that the subtables are found for all numbers and sizes of parts, and that no text tells, is about all of them.", "anchors": ["src/layout/directory.rs: Directory", "src/layout/lookup.rs: Lookups, Lookup, Record", "src/tables/glyph_substitution/mod.rs: Type, ExtensionSubstitution", "src/tables/glyph_positioning/mod.rs: Type, ExtensionPositioning"]}
{"id": "C133", "title": "Rules can be written as subtables", "statement": "Rules for glyphs can be written as subtables of a substitution table: rules that replace a glyph by another, rules that replace a glyph by any number of glyphs, rules that give a glyph alternates, and rules that join a glyph with others that follow it. Wherever such a subtable is in a file, the crate reads it with the type that belongs to it, and the value it gives does to each glyph exactly what the rules say: what the first rule for the glyph says, nothing if there is none; of the ligatures of a glyph the first counts whose other glyphs come behind it. It never panics. The conditions are that glyphs are numbers of 16 bits and that the subtable fits offsets of 16 bits.", "quantifier": "all lists of rules that fit a subtable; all places in all files; all glyphs and all texts that follow them", "why_tests_cant": "A test writes some rules and looks some glyphs up; that no rule is lost, shadowed or mixed up for any number of rules, and that no other glyph is touched, is about all of them.", "anchors": ["src/tables/glyph_substitution/mod.rs: SingleSubstitution, MultipleSubstitution, AlternateSubstitution, LigatureSubstitution", "src/tables/glyph_substitution/element.rs: Alternates, Ligature, Ligatures, Sequence", "src/layout/coverage.rs: Coverage"]}
{"id": "C134", "title": "Fonts can be made of rules", "statement": "From any stages of rules, each of which replaces glyphs, writes them as several or joins them, a substitution table can be written so that a program that finds out with the crate what becomes of a text gives exactly what the rules say: the stages go through the text one after another, each from the first glyph to the last, and never see again what they have made. This holds for every text in the script and with the feature of the table, in all languages; in other scripts, and without the feature, nothing becomes of the text. No error and no panic comes up, whatever the glyph definition of the file says. The conditions are that the rules of each stage fit a subtable, that there are no more than 3640 stages, and that the file has no table that places glyphs.", "quantifier": "all lists of stages, all rules in them; all files with the table; every text, all scripts, languages, features and limits of depth but zero", "why_tests_cant": "A test compiles some rules and sets some texts; that the bytes, the offsets, the order of the lookups and the search for them come to what the rules say is about all rules and all texts.", "anchors": ["src/layout/directory.rs: Directory", "src/layout/lookup.rs: Lookups, Lookup, Record", "src/layout/script.rs: Scripts, Record", "src/layout/feature.rs: Features, Record", "src/tables/glyph_substitution/mod.rs: Type", "src/font.rs: Font"]}
{"id": "C135", "title": "Fonts can be made with kerning", "statement": "From any rules for pairs of glyphs, each with a change of the advance of the first, a positioning table can be written so that the crate reads the rules back as they are, wherever the subtable is, and a program that sets a text with the crate changes the advance of exactly those glyphs that have a rule with the glyph behind them, by what the first such rule says, and nothing else. This holds for every text in the script and with the feature of the table, in all languages; elsewhere no glyph is moved. If the file also has a substitution table made of rules, the text is first made into what those say, and the pairs are those of what it was made into. No error and no panic comes up, whatever the glyph definition of the file says. The conditions are that glyphs and values are numbers of 16 bits and that the rules fit a subtable.", "quantifier": "all lists of rules for pairs that fit a subtable and all lists of stages; all files with the tables; every text, all scripts, languages, features and limits of depth but zero", "why_tests_cant": "A test kerns some pairs; that no pair is missed, taken twice or taken with the wrong neighbour, for any rules and any text, is about all of them.", "anchors": ["src/tables/glyph_positioning/mod.rs: PairAdjustment, PairAdjustment1, Type", "src/tables/glyph_positioning/element.rs: Pair1, Pair1s, Single", "src/layout/coverage.rs: Coverage", "src/layout/directory.rs: Directory", "src/layout/lookup.rs: Lookups, Lookup, Record", "src/font.rs: Font"]}
{"id": "C136", "title": "Fonts can be made that place glyphs by rules", "statement": "From any rules for marks, which give each mark a class and the point by which it hangs and each base, component of a ligature or other mark the points where marks of the classes go, any rules that move glyphs, any rules for pairs of glyphs or of classes of glyphs and any rules for joints, which give glyphs the points where they are entered and left, in any number and order, a positioning table can be written so that the crate reads the rules back as they are, wherever the subtables are, and a program that sets a text with the crate places each glyph exactly as the rules say: a mark with a rule hangs on the nearest glyph before it that the glyph definition does not take for a mark, if there is a rule for that one and it has a point for the class, and by the points of the first rules for the two; a mark with a rule for ligatures hangs in the same way on the first component, as the program does not take components apart; a mark with a rule for other marks hangs in the same way on the glyph right before it; a glyph is joined to the next if the first rules for the two have the point where the one is left and the other entered; a glyph with a value is moved by the first one for it; pairs are kerned as before; a glyph with a first class is kerned by the value for it and the second class of the next, which is zero for glyphs that no rule puts in another; and the rules are gone through one after another. No glyph is lost, added or changed, and what earlier rules said stays. In which order two sets of rules come makes no difference but to the order in which their values are added. In other scripts, and without the feature, no glyph is placed. If the file also has a substitution table made of rules, the glyphs are those the text was made into. No error and no panic comes up. The conditions are that numbers are of 16 bits, that classes are of those there are, that each set of rules fits a subtable, and that there are no more than 3640 of them.", "quantifier": "all lists of rules for glyphs, pairs, joints and marks that fit subtables and all lists of stages; all files with the tables and all glyph definitions; every text, all scripts, languages, features and limits of depth but zero", "why_tests_cant": "A test hangs some marks on some bases; that each mark finds its own base past any number of other marks, and its own point among those of all classes, and that lookups do not get in the way of each other, is about all rules and all texts.", "anchors": ["src/tables/glyph_positioning/mod.rs: CursiveAttachment, MarkToBaseAttachment, MarkToLigatureAttachment, MarkToMarkAttachment, PairAdjustment, SingleAdjustment, Type", "src/tables/glyph_positioning/element.rs: Anchor, Base, Bases, Connection, Mark1, Mark1s, Mark2, Mark2s, Pair1s, Pair2s, Single", "src/layout/class.rs: Class", "src/tables/glyph_definition/mod.rs: GlyphDefinition", "src/layout/coverage.rs: Coverage", "src/layout/directory.rs: Directory", "src/layout/lookup.rs: Lookups, Lookup, Record", "src/font.rs: Font"]}
{"id": "C137", "title": "Whole fonts can be made of rules", "statement": "From the classes of glyphs, any stages of rules that make texts into others and any rules that place glyphs, a whole font file can be written, with a glyph definition, a substitution table and a positioning table, that any program that uses the crate and takes files of this format can open. The crate gives each glyph the class that is first said about it, and a program that sets text with the crate gives, for every text in the script and with the feature, in all languages and with all build features, exactly what the rules say: the stages make the text into another, marks are those glyphs that were said to be marks, and the rules place the glyphs. In other scripts, and without the feature, nothing becomes of the text. No error and no panic comes up. Two such fonts set all texts the same if and only if their rules say the same about all texts. The conditions are that numbers are of 16 bits, that each set of rules fits a subtable, and that there are no more than 3640 stages and no more than 3640 sets of rules that place; the file then always fits its offsets.", "quantifier": "all classes, stages and rules; all builds and all programs that take the format; every text, all scripts, languages, features and limits of depth but zero", "why_tests_cant": "A test makes some fonts and sets some texts; that the tables of a font, its directory and its checksums work together so that nothing but the rules shows is about all fonts and all texts.", "anchors": ["src/font.rs: Font", "src/file.rs: File", "src/tables/glyph_definition/mod.rs: GlyphDefinition", "src/tables/glyph_positioning/mod.rs: GlyphPositioning", "src/tables/glyph_substitution/mod.rs: GlyphSubstitution", "src/layout/class.rs: Class", "src/layout/directory.rs: Directory"]}
{"id": "C138", "title": "Marks on ligatures can be made of rules", "statement": "From any rules for marks on ligatures, which give each mark a class and the point by which it hangs and each component of each ligature the points where marks of the classes go, a positioning subtable can be written so that the crate reads it wherever it is in a file and whatever is around it, in all builds, without error or panic, and a program that asks what is read for a mark and a component of a ligature gets the points of the first rules for the two, or nothing if one has no rule or the component has no point for the class. So two sets of rules that are written as the same bytes say the same about all marks and components. The conditions are that numbers are of 16 bits, that classes are of those there are, that components have places for all classes, and that the rules fit a subtable; components that are asked for must be of those the ligature has.", "quantifier": "all rules that fit a subtable; all files, offsets and builds; every mark, ligature and component", "why_tests_cant": "A test hangs some marks on some ligatures; the offsets go through three levels, each counted from another start, and that each cell leads to its own point is about all numbers of ligatures, components and classes.", "anchors": ["src/tables/glyph_positioning/mod.rs: MarkToLigatureAttachment, Type", "src/tables/glyph_positioning/element.rs: Anchor, Component, Ligature, Ligatures, Mark1, Mark1s", "src/layout/coverage.rs: Coverage"]}
{"id": "C139", "title": "There is a font for every replacement and every kerning", "statement": "For every function that gives each of the first glyphs, up to 32764 of them, a glyph, there is a font file by which a program that sets text with the crate makes every text of these glyphs into the text of the glyphs that the function gives, glyph by glyph. For every function that gives each two of the first glyphs, up to 127 of them, a distance of 16 bits, there is a font file by which every text of these glyphs keeps its glyphs and each glyph but the last has its advance changed by exactly the distance for it and the next. The same is so for every function that gives each glyph a word of glyphs, none or many, while all words together fit one table, and for words and distances in one font: then the text is made of the words, and the distances are kept within and between them. For every choice of pairs among up to 90 glyphs, and of what each becomes, there is a font file that joins in every text each such pair, from the first glyph on, and nothing else; and up to 3640 such steps, of words or of pairs in any order, can be done one after another by one font file. All hold in all builds of the crate, for all programs that take files of this format, all languages, and all features that have the one of the font among them; no error and no panic comes up.", "quantifier": "all functions from glyphs, or pairs of glyphs, to numbers of 16 bits; all builds; every text of the glyphs, of any length", "why_tests_cant": "A test tries some functions and some texts; that no function is out of reach, and that each font does nothing else on any text, is about all of them.", "anchors": ["src/font.rs: Font", "src/file.rs: File", "src/tables/glyph_positioning/mod.rs: GlyphPositioning, PairAdjustment", "src/tables/glyph_substitution/mod.rs: GlyphSubstitution, SingleSubstitution", "src/layout/directory.rs: Directory", "src/layout/coverage.rs: Coverage"]}
{"id": "C140", "title": "There is a font for every hanging of marks, every movement and every joint", "statement": "For all points that are given for some marks and for each mark and each of some bases, while they fit one table, there is a font file by which, in every text of these glyphs, each mark hangs on the nearest base before it, by the point of the mark and at the point for the two; bases stay where they are, and so do marks that no base is before. For every movement of each of up to 8190 glyphs there is a font file that moves each glyph of every text by exactly that. For all points at which each of up to 3640 glyphs is entered and left, or is not, there is a font file that joins a glyph to the next in every text if it is left and the next is entered, at these points, and does nothing otherwise. All hold in all builds of the crate, for all programs that take files of this format, all languages, and all features that have the one of the font among them; no error and no panic comes up.", "quantifier": "all functions from marks, pairs of a mark and a base, and glyphs to points of 16 bits; all builds; every text of the glyphs, of any length", "why_tests_cant": "A test tries some points and some texts; that no arrangement is out of reach, however many marks are on a base and wherever the bases are, is about all of them.", "anchors": ["src/font.rs: Font", "src/file.rs: File", "src/tables/glyph_definition/mod.rs: GlyphDefinition", "src/tables/glyph_positioning/mod.rs: GlyphPositioning, MarkToBaseAttachment, CursiveAttachment, SingleAdjustment", "src/tables/glyph_positioning/element.rs: Mark1s, Bases, Connection", "src/layout/directory.rs: Directory", "src/layout/coverage.rs: Coverage"]}
