import Verif.Prim
/-! # The tables of features, scripts and languages

Generated by `tools/tags.py` from the `implement!` invocations of the source, row by row in order. -/

namespace OpenType

/-- A row `$tag => $name => $variant` of the invocations in `src/layout/feature.rs` and `src/layout/script.rs`. -/
structure TagRow where
  tag : Tag
  name : String
  variant : String

/-- A row `$tag => $name => $variant => $codes` of the invocation in `src/layout/language.rs`. The codes are the
characters of the literal. `gated` tells whether the row has `#[cfg(feature = "default-language")]`. -/
structure LanguageRow where
  tag : Tag
  name : String
  variant : String
  codes : List Char
  gated : Bool

/-- `src/layout/feature.rs:112-354`. -/
def feature.rows : List TagRow := [
  ⟨0x61616C74, "Access All Alternates", "AccessAllAlternates"⟩,
  ⟨0x61627666, "Above-base Forms", "AboveBaseForms"⟩,
  ⟨0x6162766D, "Above-base Mark Positioning", "AboveBaseMarkPositioning"⟩,
  ⟨0x61627673, "Above-base Substitutions", "AboveBaseSubstitutions"⟩,
  ⟨0x61667263, "Alternative Fractions", "AlternativeFractions"⟩,
  ⟨0x616B686E, "Akhand", "Akhand"⟩,
  ⟨0x626C7766, "Below-base Forms", "BelowBaseForms"⟩,
  ⟨0x626C776D, "Below-base Mark Positioning", "BelowBaseMarkPositioning"⟩,
  ⟨0x626C7773, "Below-base Substitutions", "BelowBaseSubstitutions"⟩,
  ⟨0x63616C74, "Contextual Alternates", "ContextualAlternates"⟩,
  ⟨0x63617365, "Case-sensitive Forms", "CaseSensitiveForms"⟩,
  ⟨0x63636D70, "Glyph Composition and Decomposition", "GlyphCompositionDecomposition"⟩,
  ⟨0x63666172, "Conjunct Form After Ro", "ConjunctFormAfterRo"⟩,
  ⟨0x63687773, "Contextual Half-width Spacing", "ContextualHalfWidthSpacing"⟩,
  ⟨0x636A6374, "Conjunct Forms", "ConjunctForms"⟩,
  ⟨0x636C6967, "Contextual Ligatures", "ContextualLigatures"⟩,
  ⟨0x63706374, "Centered CJK Punctuation", "CenteredCJKPunctuation"⟩,
  ⟨0x63707370, "Capital Spacing", "CapitalSpacing"⟩,
  ⟨0x63737768, "Contextual Swash", "ContextualSwash"⟩,
  ⟨0x63757273, "Cursive Positioning", "CursivePositioning"⟩,
  ⟨0x63763031, "Character Variants 1", "CharacterVariants1"⟩,
  ⟨0x63763032, "Character Variants 2", "CharacterVariants2"⟩,
  ⟨0x63763033, "Character Variants 3", "CharacterVariants3"⟩,
  ⟨0x63763034, "Character Variants 4", "CharacterVariants4"⟩,
  ⟨0x63763035, "Character Variants 5", "CharacterVariants5"⟩,
  ⟨0x63763036, "Character Variants 6", "CharacterVariants6"⟩,
  ⟨0x63763037, "Character Variants 7", "CharacterVariants7"⟩,
  ⟨0x63763038, "Character Variants 8", "CharacterVariants8"⟩,
  ⟨0x63763039, "Character Variants 9", "CharacterVariants9"⟩,
  ⟨0x63763130, "Character Variants 10", "CharacterVariants10"⟩,
  ⟨0x63763131, "Character Variants 11", "CharacterVariants11"⟩,
  ⟨0x63763132, "Character Variants 12", "CharacterVariants12"⟩,
  ⟨0x63763133, "Character Variants 13", "CharacterVariants13"⟩,
  ⟨0x63763134, "Character Variants 14", "CharacterVariants14"⟩,
  ⟨0x63763135, "Character Variants 15", "CharacterVariants15"⟩,
  ⟨0x63763136, "Character Variants 16", "CharacterVariants16"⟩,
  ⟨0x63763137, "Character Variants 17", "CharacterVariants17"⟩,
  ⟨0x63763138, "Character Variants 18", "CharacterVariants18"⟩,
  ⟨0x63763139, "Character Variants 19", "CharacterVariants19"⟩,
  ⟨0x63763230, "Character Variants 20", "CharacterVariants20"⟩,
  ⟨0x63763231, "Character Variants 21", "CharacterVariants21"⟩,
  ⟨0x63763232, "Character Variants 22", "CharacterVariants22"⟩,
  ⟨0x63763233, "Character Variants 23", "CharacterVariants23"⟩,
  ⟨0x63763234, "Character Variants 24", "CharacterVariants24"⟩,
  ⟨0x63763235, "Character Variants 25", "CharacterVariants25"⟩,
  ⟨0x63763236, "Character Variants 26", "CharacterVariants26"⟩,
  ⟨0x63763237, "Character Variants 27", "CharacterVariants27"⟩,
  ⟨0x63763238, "Character Variants 28", "CharacterVariants28"⟩,
  ⟨0x63763239, "Character Variants 29", "CharacterVariants29"⟩,
  ⟨0x63763330, "Character Variants 30", "CharacterVariants30"⟩,
  ⟨0x63763331, "Character Variants 31", "CharacterVariants31"⟩,
  ⟨0x63763332, "Character Variants 32", "CharacterVariants32"⟩,
  ⟨0x63763333, "Character Variants 33", "CharacterVariants33"⟩,
  ⟨0x63763334, "Character Variants 34", "CharacterVariants34"⟩,
  ⟨0x63763335, "Character Variants 35", "CharacterVariants35"⟩,
  ⟨0x63763336, "Character Variants 36", "CharacterVariants36"⟩,
  ⟨0x63763337, "Character Variants 37", "CharacterVariants37"⟩,
  ⟨0x63763338, "Character Variants 38", "CharacterVariants38"⟩,
  ⟨0x63763339, "Character Variants 39", "CharacterVariants39"⟩,
  ⟨0x63763430, "Character Variants 40", "CharacterVariants40"⟩,
  ⟨0x63763431, "Character Variants 41", "CharacterVariants41"⟩,
  ⟨0x63763432, "Character Variants 42", "CharacterVariants42"⟩,
  ⟨0x63763433, "Character Variants 43", "CharacterVariants43"⟩,
  ⟨0x63763434, "Character Variants 44", "CharacterVariants44"⟩,
  ⟨0x63763435, "Character Variants 45", "CharacterVariants45"⟩,
  ⟨0x63763436, "Character Variants 46", "CharacterVariants46"⟩,
  ⟨0x63763437, "Character Variants 47", "CharacterVariants47"⟩,
  ⟨0x63763438, "Character Variants 48", "CharacterVariants48"⟩,
  ⟨0x63763439, "Character Variants 49", "CharacterVariants49"⟩,
  ⟨0x63763530, "Character Variants 50", "CharacterVariants50"⟩,
  ⟨0x63763531, "Character Variants 51", "CharacterVariants51"⟩,
  ⟨0x63763532, "Character Variants 52", "CharacterVariants52"⟩,
  ⟨0x63763533, "Character Variants 53", "CharacterVariants53"⟩,
  ⟨0x63763534, "Character Variants 54", "CharacterVariants54"⟩,
  ⟨0x63763535, "Character Variants 55", "CharacterVariants55"⟩,
  ⟨0x63763536, "Character Variants 56", "CharacterVariants56"⟩,
  ⟨0x63763537, "Character Variants 57", "CharacterVariants57"⟩,
  ⟨0x63763538, "Character Variants 58", "CharacterVariants58"⟩,
  ⟨0x63763539, "Character Variants 59", "CharacterVariants59"⟩,
  ⟨0x63763630, "Character Variants 60", "CharacterVariants60"⟩,
  ⟨0x63763631, "Character Variants 61", "CharacterVariants61"⟩,
  ⟨0x63763632, "Character Variants 62", "CharacterVariants62"⟩,
  ⟨0x63763633, "Character Variants 63", "CharacterVariants63"⟩,
  ⟨0x63763634, "Character Variants 64", "CharacterVariants64"⟩,
  ⟨0x63763635, "Character Variants 65", "CharacterVariants65"⟩,
  ⟨0x63763636, "Character Variants 66", "CharacterVariants66"⟩,
  ⟨0x63763637, "Character Variants 67", "CharacterVariants67"⟩,
  ⟨0x63763638, "Character Variants 68", "CharacterVariants68"⟩,
  ⟨0x63763639, "Character Variants 69", "CharacterVariants69"⟩,
  ⟨0x63763730, "Character Variants 70", "CharacterVariants70"⟩,
  ⟨0x63763731, "Character Variants 71", "CharacterVariants71"⟩,
  ⟨0x63763732, "Character Variants 72", "CharacterVariants72"⟩,
  ⟨0x63763733, "Character Variants 73", "CharacterVariants73"⟩,
  ⟨0x63763734, "Character Variants 74", "CharacterVariants74"⟩,
  ⟨0x63763735, "Character Variants 75", "CharacterVariants75"⟩,
  ⟨0x63763736, "Character Variants 76", "CharacterVariants76"⟩,
  ⟨0x63763737, "Character Variants 77", "CharacterVariants77"⟩,
  ⟨0x63763738, "Character Variants 78", "CharacterVariants78"⟩,
  ⟨0x63763739, "Character Variants 79", "CharacterVariants79"⟩,
  ⟨0x63763830, "Character Variants 80", "CharacterVariants80"⟩,
  ⟨0x63763831, "Character Variants 81", "CharacterVariants81"⟩,
  ⟨0x63763832, "Character Variants 82", "CharacterVariants82"⟩,
  ⟨0x63763833, "Character Variants 83", "CharacterVariants83"⟩,
  ⟨0x63763834, "Character Variants 84", "CharacterVariants84"⟩,
  ⟨0x63763835, "Character Variants 85", "CharacterVariants85"⟩,
  ⟨0x63763836, "Character Variants 86", "CharacterVariants86"⟩,
  ⟨0x63763837, "Character Variants 87", "CharacterVariants87"⟩,
  ⟨0x63763838, "Character Variants 88", "CharacterVariants88"⟩,
  ⟨0x63763839, "Character Variants 89", "CharacterVariants89"⟩,
  ⟨0x63763930, "Character Variants 90", "CharacterVariants90"⟩,
  ⟨0x63763931, "Character Variants 91", "CharacterVariants91"⟩,
  ⟨0x63763932, "Character Variants 92", "CharacterVariants92"⟩,
  ⟨0x63763933, "Character Variants 93", "CharacterVariants93"⟩,
  ⟨0x63763934, "Character Variants 94", "CharacterVariants94"⟩,
  ⟨0x63763935, "Character Variants 95", "CharacterVariants95"⟩,
  ⟨0x63763936, "Character Variants 96", "CharacterVariants96"⟩,
  ⟨0x63763937, "Character Variants 97", "CharacterVariants97"⟩,
  ⟨0x63763938, "Character Variants 98", "CharacterVariants98"⟩,
  ⟨0x63763939, "Character Variants 99", "CharacterVariants99"⟩,
  ⟨0x63327063, "Petite Capitals from Capitals", "PetiteCapitalsFromCapitals"⟩,
  ⟨0x63327363, "Small Capitals from Capitals", "SmallCapitalsFromCapitals"⟩,
  ⟨0x64697374, "Distances", "Distances"⟩,
  ⟨0x646C6967, "Discretionary Ligatures", "DiscretionaryLigatures"⟩,
  ⟨0x646E6F6D, "Denominators", "Denominators"⟩,
  ⟨0x64746C73, "Dotless Forms", "DotlessForms"⟩,
  ⟨0x65787074, "Expert Forms", "ExpertForms"⟩,
  ⟨0x66616C74, "Final Glyph on Line Alternates", "FinalGlyphonLineAlternates"⟩,
  ⟨0x66696E32, "Terminal Forms 2", "TerminalForms2"⟩,
  ⟨0x66696E33, "Terminal Forms 3", "TerminalForms3"⟩,
  ⟨0x66696E61, "Terminal Forms 1", "TerminalForms1"⟩,
  ⟨0x666C6163, "Flattened Accent Forms", "FlattenedAccentForms"⟩,
  ⟨0x66726163, "Fractions", "Fractions"⟩,
  ⟨0x66776964, "Full Widths", "FullWidths"⟩,
  ⟨0x68616C66, "Half Forms", "HalfForms"⟩,
  ⟨0x68616C6E, "Halant Forms", "HalantForms"⟩,
  ⟨0x68616C74, "Alternate Half Widths", "AlternateHalfWidths"⟩,
  ⟨0x68697374, "Historical Forms", "HistoricalForms"⟩,
  ⟨0x686B6E61, "Horizontal Kana Alternates", "HorizontalKanaAlternates"⟩,
  ⟨0x686C6967, "Historical Ligatures", "HistoricalLigatures"⟩,
  ⟨0x686E676C, "Hangul", "Hangul"⟩,
  ⟨0x686F6A6F, "Hojo Kanji Forms", "HojoKanjiForms"⟩,
  ⟨0x68776964, "Half Widths", "HalfWidths"⟩,
  ⟨0x696E6974, "Initial Forms", "InitialForms"⟩,
  ⟨0x69736F6C, "Isolated Forms", "IsolatedForms"⟩,
  ⟨0x6974616C, "Italics", "Italics"⟩,
  ⟨0x6A616C74, "Justification Alternates", "JustificationAlternates"⟩,
  ⟨0x6A703738, "JIS78 Forms", "JIS78Forms"⟩,
  ⟨0x6A703833, "JIS83 Forms", "JIS83Forms"⟩,
  ⟨0x6A703930, "JIS90 Forms", "JIS90Forms"⟩,
  ⟨0x6A703034, "JIS2004 Forms", "JIS2004Forms"⟩,
  ⟨0x6B65726E, "Kerning", "Kerning"⟩,
  ⟨0x6C666264, "Left Bounds", "LeftBounds"⟩,
  ⟨0x6C696761, "Standard Ligatures", "StandardLigatures"⟩,
  ⟨0x6C6A6D6F, "Leading Jamo Forms", "LeadingJamoForms"⟩,
  ⟨0x6C6E756D, "Lining Figures", "LiningFigures"⟩,
  ⟨0x6C6F636C, "Localized Forms", "LocalizedForms"⟩,
  ⟨0x6C747261, "Left-to-right Alternates", "LeftToRightAlternates"⟩,
  ⟨0x6C74726D, "Left-to-right Mirrored Forms", "LeftToRightMirroredForms"⟩,
  ⟨0x6D61726B, "Mark Positioning", "MarkPositioning"⟩,
  ⟨0x6D656432, "Medial Forms 2", "MedialForms2"⟩,
  ⟨0x6D656469, "Medial Forms 1", "MedialForms1"⟩,
  ⟨0x6D67726B, "Mathematical Greek", "MathematicalGreek"⟩,
  ⟨0x6D6B6D6B, "Mark-to-mark Positioning", "MarkToMarkPositioning"⟩,
  ⟨0x6D736574, "Mark Positioning via Substitution", "MarkPositioningViaSubstitution"⟩,
  ⟨0x6E616C74, "Alternate Annotation Forms", "AlternateAnnotationForms"⟩,
  ⟨0x6E6C636B, "NLC Kanji Forms", "NLCKanjiForms"⟩,
  ⟨0x6E756B74, "Nukta Forms", "NuktaForms"⟩,
  ⟨0x6E756D72, "Numerators", "Numerators"⟩,
  ⟨0x6F6E756D, "Oldstyle Figures", "OldstyleFigures"⟩,
  ⟨0x6F706264, "Optical Bounds", "OpticalBounds"⟩,
  ⟨0x6F72646E, "Ordinals", "Ordinals"⟩,
  ⟨0x6F726E6D, "Ornaments", "Ornaments"⟩,
  ⟨0x70616C74, "Proportional Alternate Widths", "ProportionalAlternateWidths"⟩,
  ⟨0x70636170, "Petite Capitals", "PetiteCapitals"⟩,
  ⟨0x706B6E61, "Proportional Kana", "ProportionalKana"⟩,
  ⟨0x706E756D, "Proportional Figures", "ProportionalFigures"⟩,
  ⟨0x70726566, "Pre-base Forms", "PreBaseForms"⟩,
  ⟨0x70726573, "Pre-base Substitutions", "PreBaseSubstitutions"⟩,
  ⟨0x70737466, "Post-base Forms", "PostBaseForms"⟩,
  ⟨0x70737473, "Post-base Substitutions", "PostBaseSubstitutions"⟩,
  ⟨0x70776964, "Proportional Widths", "ProportionalWidths"⟩,
  ⟨0x71776964, "Quarter Widths", "QuarterWidths"⟩,
  ⟨0x72616E64, "Randomize", "Randomize"⟩,
  ⟨0x72636C74, "Required Contextual Alternates", "RequiredContextualAlternates"⟩,
  ⟨0x726B7266, "Rakar Forms", "RakarForms"⟩,
  ⟨0x726C6967, "Required Ligatures", "RequiredLigatures"⟩,
  ⟨0x72706866, "Reph Forms", "RephForms"⟩,
  ⟨0x72746264, "Right Bounds", "RightBounds"⟩,
  ⟨0x72746C61, "Right-to-left Alternates", "RightToLeftAlternates"⟩,
  ⟨0x72746C6D, "Right-to-left Mirrored Forms", "RightToLeftMirroredForms"⟩,
  ⟨0x72756279, "Ruby Notation Forms", "RubyNotationForms"⟩,
  ⟨0x7276726E, "Required Variation Alternates", "RequiredVariationAlternates"⟩,
  ⟨0x73616C74, "Stylistic Alternates", "StylisticAlternates"⟩,
  ⟨0x73696E66, "Scientific Inferiors", "ScientificInferiors"⟩,
  ⟨0x73697A65, "Optical Size", "OpticalSize"⟩,
  ⟨0x736D6370, "Small Capitals", "SmallCapitals"⟩,
  ⟨0x736D706C, "Simplified Forms", "SimplifiedForms"⟩,
  ⟨0x73733031, "Stylistic Set 1", "StylisticSet1"⟩,
  ⟨0x73733032, "Stylistic Set 2", "StylisticSet2"⟩,
  ⟨0x73733033, "Stylistic Set 3", "StylisticSet3"⟩,
  ⟨0x73733034, "Stylistic Set 4", "StylisticSet4"⟩,
  ⟨0x73733035, "Stylistic Set 5", "StylisticSet5"⟩,
  ⟨0x73733036, "Stylistic Set 6", "StylisticSet6"⟩,
  ⟨0x73733037, "Stylistic Set 7", "StylisticSet7"⟩,
  ⟨0x73733038, "Stylistic Set 8", "StylisticSet8"⟩,
  ⟨0x73733039, "Stylistic Set 9", "StylisticSet9"⟩,
  ⟨0x73733130, "Stylistic Set 10", "StylisticSet10"⟩,
  ⟨0x73733131, "Stylistic Set 11", "StylisticSet11"⟩,
  ⟨0x73733132, "Stylistic Set 12", "StylisticSet12"⟩,
  ⟨0x73733133, "Stylistic Set 13", "StylisticSet13"⟩,
  ⟨0x73733134, "Stylistic Set 14", "StylisticSet14"⟩,
  ⟨0x73733135, "Stylistic Set 15", "StylisticSet15"⟩,
  ⟨0x73733136, "Stylistic Set 16", "StylisticSet16"⟩,
  ⟨0x73733137, "Stylistic Set 17", "StylisticSet17"⟩,
  ⟨0x73733138, "Stylistic Set 18", "StylisticSet18"⟩,
  ⟨0x73733139, "Stylistic Set 19", "StylisticSet19"⟩,
  ⟨0x73733230, "Stylistic Set 20", "StylisticSet20"⟩,
  ⟨0x73737479, "Math Script Style Alternates", "MathScriptStyleAlternates"⟩,
  ⟨0x73746368, "Stretching Glyph Decomposition", "StretchingGlyphDecomposition"⟩,
  ⟨0x73756273, "Subscript", "Subscript"⟩,
  ⟨0x73757073, "Superscript", "Superscript"⟩,
  ⟨0x73777368, "Swash", "Swash"⟩,
  ⟨0x7469746C, "Titling", "Titling"⟩,
  ⟨0x746A6D6F, "Trailing Jamo Forms", "TrailingJamoForms"⟩,
  ⟨0x746E616D, "Traditional Name Forms", "TraditionalNameForms"⟩,
  ⟨0x746E756D, "Tabular Figures", "TabularFigures"⟩,
  ⟨0x74726164, "Traditional Forms", "TraditionalForms"⟩,
  ⟨0x74776964, "Third Widths", "ThirdWidths"⟩,
  ⟨0x756E6963, "Unicase", "Unicase"⟩,
  ⟨0x76616C74, "Alternate Vertical Metrics", "AlternateVerticalMetrics"⟩,
  ⟨0x76617475, "Vattu Variants", "VattuVariants"⟩,
  ⟨0x76636877, "Vertical Contextual Half-width Spacing", "VerticalContextualHalfWidthSpacing"⟩,
  ⟨0x76657274, "Vertical Writing", "VerticalWriting"⟩,
  ⟨0x7668616C, "Alternate Vertical Half Metrics", "AlternateVerticalHalfMetrics"⟩,
  ⟨0x766A6D6F, "Vowel Jamo Forms", "VowelJamoForms"⟩,
  ⟨0x766B6E61, "Vertical Kana Alternates", "VerticalKanaAlternates"⟩,
  ⟨0x766B726E, "Vertical Kerning", "VerticalKerning"⟩,
  ⟨0x7670616C, "Proportional Alternate Vertical Metrics", "ProportionalAlternateVerticalMetrics"⟩,
  ⟨0x76727432, "Vertical Alternates and Rotation", "VerticalAlternatesAndRotation"⟩,
  ⟨0x76727472, "Vertical Alternates for Rotation", "VerticalAlternatesForRotation"⟩,
  ⟨0x7A65726F, "Slashed Zero", "SlashedZero"⟩]

/-- `src/layout/script.rs:116-267`. -/
def script.rows : List TagRow := [
  ⟨0x61646C6D, "Adlam", "Adlam"⟩,
  ⟨0x61686F6D, "Ahom", "Ahom"⟩,
  ⟨0x686C7577, "Anatolian Hieroglyphs", "AnatolianHieroglyphs"⟩,
  ⟨0x61726162, "Arabic", "Arabic"⟩,
  ⟨0x61726D6E, "Armenian", "Armenian"⟩,
  ⟨0x61767374, "Avestan", "Avestan"⟩,
  ⟨0x62616C69, "Balinese", "Balinese"⟩,
  ⟨0x62616D75, "Bamum", "Bamum"⟩,
  ⟨0x62617373, "Bassa Vah", "BassaVah"⟩,
  ⟨0x6261746B, "Batak", "Batak"⟩,
  ⟨0x62656E67, "Bengali", "Bengali"⟩,
  ⟨0x626E6732, "Bengali", "BengaliV2"⟩,
  ⟨0x62686B73, "Bhaiksuki", "Bhaiksuki"⟩,
  ⟨0x626F706F, "Bopomofo", "Bopomofo"⟩,
  ⟨0x62726168, "Brahmi", "Brahmi"⟩,
  ⟨0x62726169, "Braille", "Braille"⟩,
  ⟨0x62756769, "Buginese", "Buginese"⟩,
  ⟨0x62756864, "Buhid", "Buhid"⟩,
  ⟨0x62797A6D, "Byzantine Music", "ByzantineMusic"⟩,
  ⟨0x63616E73, "Canadian Syllabics", "CanadianSyllabics"⟩,
  ⟨0x63617269, "Carian", "Carian"⟩,
  ⟨0x61676862, "Caucasian Albanian", "CaucasianAlbanian"⟩,
  ⟨0x63616B6D, "Chakma", "Chakma"⟩,
  ⟨0x6368616D, "Cham", "Cham"⟩,
  ⟨0x63686572, "Cherokee", "Cherokee"⟩,
  ⟨0x68616E69, "CJK Ideographic", "CJKIdeographic"⟩,
  ⟨0x636F7074, "Coptic", "Coptic"⟩,
  ⟨0x63707274, "Cypriot Syllabary", "CypriotSyllabary"⟩,
  ⟨0x6379726C, "Cyrillic", "Cyrillic"⟩,
  ⟨0x44464C54, "Default", "Default"⟩,
  ⟨0x64737274, "Deseret", "Deseret"⟩,
  ⟨0x64657661, "Devanagari", "Devanagari"⟩,
  ⟨0x64657632, "Devanagari", "DevanagariV2"⟩,
  ⟨0x6475706C, "Duployan", "Duployan"⟩,
  ⟨0x65677970, "Egyptian Hieroglyphs", "EgyptianHieroglyphs"⟩,
  ⟨0x656C6261, "Elbasan", "Elbasan"⟩,
  ⟨0x65746869, "Ethiopic", "Ethiopic"⟩,
  ⟨0x67656F72, "Georgian", "Georgian"⟩,
  ⟨0x676C6167, "Glagolitic", "Glagolitic"⟩,
  ⟨0x676F7468, "Gothic", "Gothic"⟩,
  ⟨0x6772616E, "Grantha", "Grantha"⟩,
  ⟨0x6772656B, "Greek", "Greek"⟩,
  ⟨0x67756A72, "Gujarati", "Gujarati"⟩,
  ⟨0x676A7232, "Gujarati", "GujaratiV2"⟩,
  ⟨0x67757275, "Gurmukhi", "Gurmukhi"⟩,
  ⟨0x67757232, "Gurmukhi", "GurmukhiV2"⟩,
  ⟨0x68616E67, "Hangul", "Hangul"⟩,
  ⟨0x6A616D6F, "Hangul Jamo", "HangulJamo"⟩,
  ⟨0x68616E6F, "Hanunoo", "Hanunoo"⟩,
  ⟨0x68617472, "Hatran", "Hatran"⟩,
  ⟨0x68656272, "Hebrew", "Hebrew"⟩,
  ⟨0x6B616E61, "Hiragana", "Hiragana"⟩,
  ⟨0x61726D69, "Imperial Aramaic", "ImperialAramaic"⟩,
  ⟨0x70686C69, "Inscriptional Pahlavi", "InscriptionalPahlavi"⟩,
  ⟨0x70727469, "Inscriptional Parthian", "InscriptionalParthian"⟩,
  ⟨0x6A617661, "Javanese", "Javanese"⟩,
  ⟨0x6B746869, "Kaithi", "Kaithi"⟩,
  ⟨0x6B6E6461, "Kannada", "Kannada"⟩,
  ⟨0x6B6E6432, "Kannada", "KannadaV2"⟩,
  ⟨0x6B616E61, "Katakana", "Katakana"⟩,
  ⟨0x6B616C69, "Kayah Li", "KayahLi"⟩,
  ⟨0x6B686172, "Kharosthi", "Kharosthi"⟩,
  ⟨0x6B686D72, "Khmer", "Khmer"⟩,
  ⟨0x6B686F6A, "Khojki", "Khojki"⟩,
  ⟨0x73696E64, "Khudawadi", "Khudawadi"⟩,
  ⟨0x6C616F20, "Lao", "Lao"⟩,
  ⟨0x6C61746E, "Latin", "Latin"⟩,
  ⟨0x6C657063, "Lepcha", "Lepcha"⟩,
  ⟨0x6C696D62, "Limbu", "Limbu"⟩,
  ⟨0x6C696E61, "Linear A", "LinearA"⟩,
  ⟨0x6C696E62, "Linear B", "LinearB"⟩,
  ⟨0x6C697375, "Lisu (Fraser)", "Lisu"⟩,
  ⟨0x6C796369, "Lycian", "Lycian"⟩,
  ⟨0x6C796469, "Lydian", "Lydian"⟩,
  ⟨0x6D61686A, "Mahajani", "Mahajani"⟩,
  ⟨0x6D6C796D, "Malayalam", "Malayalam"⟩,
  ⟨0x6D6C6D32, "Malayalam", "MalayalamV2"⟩,
  ⟨0x6D616E64, "Mandaic, Mandaean", "Mandaic"⟩,
  ⟨0x6D616E69, "Manichaean", "Manichaean"⟩,
  ⟨0x6D617263, "Marchen", "Marchen"⟩,
  ⟨0x6D617468, "Mathematical Alphanumeric Symbols", "MathematicalAlphanumericSymbols"⟩,
  ⟨0x6D746569, "Meitei Mayek (Meithei, Meetei)", "MeiteiMayek"⟩,
  ⟨0x6D656E64, "Mende Kikakui", "MendeKikakui"⟩,
  ⟨0x6D657263, "Meroitic Cursive", "MeroiticCursive"⟩,
  ⟨0x6D65726F, "Meroitic Hieroglyphs", "MeroiticHieroglyphs"⟩,
  ⟨0x706C7264, "Miao", "Miao"⟩,
  ⟨0x6D6F6469, "Modi", "Modi"⟩,
  ⟨0x6D6F6E67, "Mongolian", "Mongolian"⟩,
  ⟨0x6D726F6F, "Mro", "Mro"⟩,
  ⟨0x6D756C74, "Multani", "Multani"⟩,
  ⟨0x6D757363, "Musical Symbols", "MusicalSymbols"⟩,
  ⟨0x6D796D72, "Myanmar", "Myanmar"⟩,
  ⟨0x6D796D32, "Myanmar", "MyanmarV2"⟩,
  ⟨0x6E626174, "Nabataean", "Nabataean"⟩,
  ⟨0x6E657761, "Newa", "Newa"⟩,
  ⟨0x74616C75, "New Tai Lue", "NewTaiLue"⟩,
  ⟨0x6E6B6F20, "N’Ko", "NKo"⟩,
  ⟨0x6F727961, "Odia", "Odia"⟩,
  ⟨0x6F727932, "Odia", "OdiaV2"⟩,
  ⟨0x6F67616D, "Ogham", "Ogham"⟩,
  ⟨0x6F6C636B, "Ol Chiki", "OlChiki"⟩,
  ⟨0x6974616C, "Old Italic", "OldItalic"⟩,
  ⟨0x68756E67, "Old Hungarian", "OldHungarian"⟩,
  ⟨0x6E617262, "Old North Arabian", "OldNorthArabian"⟩,
  ⟨0x7065726D, "Old Permic", "OldPermic"⟩,
  ⟨0x7870656F, "Old Persian Cuneiform", "OldPersianCuneiform"⟩,
  ⟨0x73617262, "Old South Arabian", "OldSouthArabian"⟩,
  ⟨0x6F726B68, "Old Turkic, Orkhon Runic", "OldTurkic"⟩,
  ⟨0x6F736765, "Osage", "Osage"⟩,
  ⟨0x6F736D61, "Osmanya", "Osmanya"⟩,
  ⟨0x686D6E67, "Pahawh Hmong", "PahawhHmong"⟩,
  ⟨0x70616C6D, "Palmyrene", "Palmyrene"⟩,
  ⟨0x70617563, "Pau Cin Hau", "PauCinHau"⟩,
  ⟨0x70686167, "Phags-pa", "Phagspa"⟩,
  ⟨0x70686E78, "Phoenician", "Phoenician"⟩,
  ⟨0x70686C70, "Psalter Pahlavi", "PsalterPahlavi"⟩,
  ⟨0x726A6E67, "Rejang", "Rejang"⟩,
  ⟨0x72756E72, "Runic", "Runic"⟩,
  ⟨0x73616D72, "Samaritan", "Samaritan"⟩,
  ⟨0x73617572, "Saurashtra", "Saurashtra"⟩,
  ⟨0x73687264, "Sharada", "Sharada"⟩,
  ⟨0x73686177, "Shavian", "Shavian"⟩,
  ⟨0x73696464, "Siddham", "Siddham"⟩,
  ⟨0x73676E77, "Sign Writing", "SignWriting"⟩,
  ⟨0x73696E68, "Sinhala", "Sinhala"⟩,
  ⟨0x736F7261, "Sora Sompeng", "SoraSompeng"⟩,
  ⟨0x78737578, "Sumero-Akkadian Cuneiform", "SumeroAkkadianCuneiform"⟩,
  ⟨0x73756E64, "Sundanese", "Sundanese"⟩,
  ⟨0x73796C6F, "Syloti Nagri", "SylotiNagri"⟩,
  ⟨0x73797263, "Syriac", "Syriac"⟩,
  ⟨0x74676C67, "Tagalog", "Tagalog"⟩,
  ⟨0x74616762, "Tagbanwa", "Tagbanwa"⟩,
  ⟨0x74616C65, "Tai Le", "TaiLe"⟩,
  ⟨0x6C616E61, "Tai Tham (Lanna)", "TaiTham"⟩,
  ⟨0x74617674, "Tai Viet", "TaiViet"⟩,
  ⟨0x74616B72, "Takri", "Takri"⟩,
  ⟨0x74616D6C, "Tamil", "Tamil"⟩,
  ⟨0x746D6C32, "Tamil", "TamilV2"⟩,
  ⟨0x74616E67, "Tangut", "Tangut"⟩,
  ⟨0x74656C75, "Telugu", "Telugu"⟩,
  ⟨0x74656C32, "Telugu", "TeluguV2"⟩,
  ⟨0x74686161, "Thaana", "Thaana"⟩,
  ⟨0x74686169, "Thai", "Thai"⟩,
  ⟨0x74696274, "Tibetan", "Tibetan"⟩,
  ⟨0x74666E67, "Tifinagh", "Tifinagh"⟩,
  ⟨0x74697268, "Tirhuta", "Tirhuta"⟩,
  ⟨0x75676172, "Ugaritic Cuneiform", "UgariticCuneiform"⟩,
  ⟨0x76616920, "Vai", "Vai"⟩,
  ⟨0x77617261, "Warang Citi", "WarangCiti"⟩,
  ⟨0x79692020, "Yi", "Yi"⟩]

/-- `src/layout/language.rs:77-678`. -/
def language.rows : List LanguageRow := [
  ⟨0x41424120, "Abaza", "Abaza", ['a', 'b', 'q'], false⟩,
  ⟨0x41424B20, "Abkhazian", "Abkhazian", ['a', 'b', 'k'], false⟩,
  ⟨0x41434820, "Acholi", "Acholi", ['a', 'c', 'h'], false⟩,
  ⟨0x41435220, "Achi", "Achi", ['a', 'c', 'r'], false⟩,
  ⟨0x41445920, "Adyghe", "Adyghe", ['a', 'd', 'y'], false⟩,
  ⟨0x41464B20, "Afrikaans", "Afrikaans", ['a', 'f', 'r'], false⟩,
  ⟨0x41465220, "Afar", "Afar", ['a', 'a', 'r'], false⟩,
  ⟨0x41475720, "Agaw", "Agaw", ['a', 'h', 'g'], false⟩,
  ⟨0x41494F20, "Aiton", "Aiton", ['a', 'i', 'o'], false⟩,
  ⟨0x414B4120, "Akan", "Akan", ['a', 'k', 'a'], false⟩,
  ⟨0x414C5320, "Alsatian", "Alsatian", ['g', 's', 'w'], false⟩,
  ⟨0x414C5420, "Altai", "Altai", ['a', 't', 'v', ',', ' ', 'a', 'l', 't'], false⟩,
  ⟨0x414D4820, "Amharic", "Amharic", ['a', 'm', 'h'], false⟩,
  ⟨0x414E4720, "Anglo-Saxon", "AngloSaxon", ['a', 'n', 'g'], false⟩,
  ⟨0x41505048, "Phonetic Transcription, Americanist", "AmericanistPhoneticNotation", [], false⟩,
  ⟨0x41524120, "Arabic", "Arabic", ['a', 'r', 'a'], false⟩,
  ⟨0x41524720, "Aragonese", "Aragonese", ['a', 'r', 'g'], false⟩,
  ⟨0x41524920, "Aari", "Aari", ['a', 'i', 'w'], false⟩,
  ⟨0x41524B20, "Rakhine", "Rakhine", ['m', 'h', 'v', ',', ' ', 'r', 'm', 'z', ',', ' ', 'r', 'k', 'i'], false⟩,
  ⟨0x41534D20, "Assamese", "Assamese", ['a', 's', 'm'], false⟩,
  ⟨0x41535420, "Asturian", "Asturian", ['a', 's', 't'], false⟩,
  ⟨0x41544820, "Athapaskan", "Athapaskan", ['a', 'p', 'k', ',', ' ', 'a', 'p', 'j', ',', ' ', 'a', 'p', 'l', ',', ' ', 'a', 'p', 'm', ',', ' ', 'a', 'p', 'w', ',', ' ', 'n', 'a', 'v', ',', ' ', 'b', 'e', 'a', ',', ' ', 's', 'e', 'k', ',', ' ', 'b', 'c', 'r', ',', ' ', 'c', 'a', 'f', ',', ' ', 'c', 'r', 'x', ',', ' ', 'c', 'l', 'c', ',', ' ', 'g', 'w', 'i', ',', ' ', 'h', 'a', 'a', ',', ' ', 'c', 'h', 'p', ',', ' ', 'd', 'g', 'r', ',', ' ', 's', 'c', 's', ',', ' ', 'x', 's', 'l', ',', ' ', 's', 'r', 's', ',', ' ', 'i', 'n', 'g', ',', ' ', 'h', 'o', 'i', ',', ' ', 'k', 'o', 'y', ',', ' ', 'h', 'u', 'p', ',', ' ', 'k', 't', 'w', ',', ' ', 'm', 'v', 'b', ',', ' ', 'w', 'l', 'k', ',', ' ', 'c', 'o', 'q', ',', ' ', 'c', 't', 'c', ',', ' ', 'g', 'c', 'e', ',', ' ', 't', 'o', 'l', ',', ' ', 't', 'u', 'u', ',', ' ', 'k', 'k', 'z', ',', ' ', 't', 'g', 'x', ',', ' ', 't', 'h', 't', ',', ' ', 'a', 'h', 't', ',', ' ', 't', 'f', 'n', ',', ' ', 't', 'a', 'a', ',', ' ', 't', 'a', 'u', ',', ' ', 't', 'c', 'b', ',', ' ', 'k', 'u', 'u', ',', ' ', 't', 'c', 'e', ',', ' ', 't', 't', 'm', ',', ' ', 't', 'x', 'c'], false⟩,
  ⟨0x41565220, "Avar", "Avar", ['a', 'v', 'a'], false⟩,
  ⟨0x41574120, "Awadhi", "Awadhi", ['a', 'w', 'a'], false⟩,
  ⟨0x41594D20, "Aymara", "Aymara", ['a', 'y', 'm'], false⟩,
  ⟨0x415A4220, "Torki", "Torki", ['a', 'z', 'b'], false⟩,
  ⟨0x415A4520, "Azerbaijani", "Azerbaijani", ['a', 'z', 'e'], false⟩,
  ⟨0x42414420, "Badaga", "Badaga", ['b', 'f', 'q'], false⟩,
  ⟨0x42414430, "Banda", "Banda", ['b', 'a', 'd'], false⟩,
  ⟨0x42414720, "Baghelkhandi", "Baghelkhandi", ['b', 'f', 'y'], false⟩,
  ⟨0x42414C20, "Balkar", "Balkar", ['k', 'r', 'c'], false⟩,
  ⟨0x42414E20, "Balinese", "Balinese", ['b', 'a', 'n'], false⟩,
  ⟨0x42415220, "Bavarian", "Bavarian", ['b', 'a', 'r'], false⟩,
  ⟨0x42415520, "Baulé", "Baule", ['b', 'c', 'i'], false⟩,
  ⟨0x42424320, "Batak Toba", "BatakToba", ['b', 'b', 'c'], false⟩,
  ⟨0x42425220, "Berber", "Berber", [], false⟩,
  ⟨0x42434820, "Bench", "Bench", ['b', 'c', 'q'], false⟩,
  ⟨0x42435220, "Bible Cree", "BibleCree", [], false⟩,
  ⟨0x42445920, "Bandjalang", "Bandjalang", ['b', 'd', 'y'], false⟩,
  ⟨0x42454C20, "Belarussian", "Belarussian", ['b', 'e', 'l'], false⟩,
  ⟨0x42454D20, "Bemba", "Bemba", ['b', 'e', 'm'], false⟩,
  ⟨0x42454E20, "Bengali", "Bengali", ['b', 'e', 'n'], false⟩,
  ⟨0x42474320, "Haryanvi", "Haryanvi", ['b', 'g', 'c'], false⟩,
  ⟨0x42475120, "Bagri", "Bagri", ['b', 'g', 'q'], false⟩,
  ⟨0x42475220, "Bulgarian", "Bulgarian", ['b', 'u', 'l'], false⟩,
  ⟨0x42484920, "Bhili", "Bhili", ['b', 'h', 'i', ',', ' ', 'b', 'h', 'b'], false⟩,
  ⟨0x42484F20, "Bhojpuri", "Bhojpuri", ['b', 'h', 'o'], false⟩,
  ⟨0x42494B20, "Bikol", "Bikol", ['b', 'i', 'k', ',', ' ', 'b', 'h', 'k', ',', ' ', 'b', 'c', 'l', ',', ' ', 'b', 't', 'o', ',', ' ', 'c', 't', 's', ',', ' ', 'b', 'l', 'n'], false⟩,
  ⟨0x42494C20, "Bilen", "Bilen", ['b', 'y', 'n'], false⟩,
  ⟨0x42495320, "Bislama", "Bislama", ['b', 'i', 's'], false⟩,
  ⟨0x424A4A20, "Kanauji", "Kanauji", ['b', 'j', 'j'], false⟩,
  ⟨0x424B4620, "Blackfoot", "Blackfoot", ['b', 'l', 'a'], false⟩,
  ⟨0x424C4920, "Baluchi", "Baluchi", ['b', 'a', 'l'], false⟩,
  ⟨0x424C4B20, "Pa’o Karen", "PaoKaren", ['b', 'l', 'k'], false⟩,
  ⟨0x424C4E20, "Balante", "Balante", ['b', 'j', 't', ',', ' ', 'b', 'l', 'e'], false⟩,
  ⟨0x424C5420, "Balti", "Balti", ['b', 'f', 't'], false⟩,
  ⟨0x424D4220, "Bambara (Bamanankan)", "Bambara", ['b', 'a', 'm'], false⟩,
  ⟨0x424D4C20, "Bamileke", "Bamileke", [], false⟩,
  ⟨0x424F5320, "Bosnian", "Bosnian", ['b', 'o', 's'], false⟩,
  ⟨0x42505920, "Bishnupriya Manipuri", "BishnupriyaManipuri", ['b', 'p', 'y'], false⟩,
  ⟨0x42524520, "Breton", "Breton", ['b', 'r', 'e'], false⟩,
  ⟨0x42524820, "Brahui", "Brahui", ['b', 'r', 'h'], false⟩,
  ⟨0x42524920, "Braj Bhasha", "BrajBhasha", ['b', 'r', 'a'], false⟩,
  ⟨0x42524D20, "Burmese", "Burmese", ['m', 'y', 'a'], false⟩,
  ⟨0x42525820, "Bodo", "Bodo", ['b', 'r', 'x'], false⟩,
  ⟨0x42534820, "Bashkir", "Bashkir", ['b', 'a', 'k'], false⟩,
  ⟨0x42534B20, "Burushaski", "Burushaski", ['b', 's', 'k'], false⟩,
  ⟨0x42544920, "Beti", "Beti", ['b', 't', 'b'], false⟩,
  ⟨0x42545320, "Batak Simalungun", "BatakSimalungun", ['b', 't', 's'], false⟩,
  ⟨0x42554720, "Bugis", "Bugis", ['b', 'u', 'g'], false⟩,
  ⟨0x42595620, "Medumba", "Medumba", ['b', 'y', 'v'], false⟩,
  ⟨0x43414B20, "Kaqchikel", "Kaqchikel", ['c', 'a', 'k'], false⟩,
  ⟨0x43415420, "Catalan", "Catalan", ['c', 'a', 't'], false⟩,
  ⟨0x43424B20, "Zamboanga Chavacano", "ZamboangaChavacano", ['c', 'b', 'k'], false⟩,
  ⟨0x43454220, "Cebuano", "Cebuano", ['c', 'e', 'b'], false⟩,
  ⟨0x43484520, "Chechen", "Chechen", ['c', 'h', 'e'], false⟩,
  ⟨0x43484720, "Chaha Gurage", "ChahaGurage", ['s', 'g', 'w'], false⟩,
  ⟨0x43484820, "Chattisgarhi", "Chattisgarhi", ['h', 'n', 'e'], false⟩,
  ⟨0x43484920, "Chichewa (Chewa, Nyanja)", "Chichewa", ['n', 'y', 'a'], false⟩,
  ⟨0x43484B20, "Chukchi", "Chukchi", ['c', 'k', 't'], false⟩,
  ⟨0x43484B30, "Chuukese", "Chuukese", ['c', 'h', 'k'], false⟩,
  ⟨0x43484F20, "Choctaw", "Choctaw", ['c', 'h', 'o'], false⟩,
  ⟨0x43485020, "Chipewyan", "Chipewyan", ['c', 'h', 'p'], false⟩,
  ⟨0x43485220, "Cherokee", "Cherokee", ['c', 'h', 'r'], false⟩,
  ⟨0x43484120, "Chamorro", "Chamorro", ['c', 'h', 'a'], false⟩,
  ⟨0x43485520, "Chuvash", "Chuvash", ['c', 'h', 'v'], false⟩,
  ⟨0x43485920, "Cheyenne", "Cheyenne", ['c', 'h', 'y'], false⟩,
  ⟨0x43474720, "Chiga", "Chiga", ['c', 'g', 'g'], false⟩,
  ⟨0x434D5220, "Comorian", "Comorian", ['s', 'w', 'b', ',', ' ', 'w', 'l', 'c', ',', ' ', 'w', 'n', 'i', ',', ' ', 'z', 'd', 'j'], false⟩,
  ⟨0x434F5020, "Coptic", "Coptic", ['c', 'o', 'p'], false⟩,
  ⟨0x434F5220, "Cornish", "Cornish", ['c', 'o', 'r'], false⟩,
  ⟨0x434F5320, "Corsican", "Corsican", ['c', 'o', 's'], false⟩,
  ⟨0x43505020, "Creoles", "Creoles", ['c', 'p', 'p'], false⟩,
  ⟨0x43524520, "Cree", "Cree", ['c', 'r', 'e'], false⟩,
  ⟨0x43525220, "Carrier", "Carrier", ['c', 'r', 'x', ',', ' ', 'c', 'a', 'f'], false⟩,
  ⟨0x43525420, "Crimean Tatar", "CrimeanTatar", ['c', 'r', 'h'], false⟩,
  ⟨0x43534220, "Kashubian", "Kashubian", ['c', 's', 'b'], false⟩,
  ⟨0x43534C20, "Church Slavonic", "ChurchSlavonic", ['c', 'h', 'u'], false⟩,
  ⟨0x43535920, "Czech", "Czech", ['c', 'e', 's'], false⟩,
  ⟨0x43544720, "Chittagonian", "Chittagonian", ['c', 't', 'g'], false⟩,
  ⟨0x43554B20, "San Blas Kuna", "SanBlasKuna", ['c', 'u', 'k'], false⟩,
  ⟨0x44414E20, "Danish", "Danish", ['d', 'a', 'n'], false⟩,
  ⟨0x44415220, "Dargwa", "Dargwa", ['d', 'a', 'r'], false⟩,
  ⟨0x44415820, "Dayi", "Dayi", ['d', 'a', 'x'], false⟩,
  ⟨0x44435220, "Woods Cree", "WoodsCree", ['c', 'w', 'd'], false⟩,
  ⟨0x44464C54, "Default", "Default", [], true⟩,
  ⟨0x44455520, "German", "German", ['d', 'e', 'u'], false⟩,
  ⟨0x44474F20, "Dogri", "Dogri", ['d', 'g', 'o'], false⟩,
  ⟨0x44475220, "Dogri", "DogriMacrolanguage", ['d', 'o', 'i'], false⟩,
  ⟨0x44484720, "Dhangu", "Dhangu", ['d', 'h', 'g'], false⟩,
  ⟨0x44485620, "Divehi (Dhivehi, Maldivian)", "DivehiDeprecated", ['d', 'i', 'v'], false⟩,
  ⟨0x44495120, "Dimli", "Dimli", ['d', 'i', 'q'], false⟩,
  ⟨0x44495620, "Divehi (Dhivehi, Maldivian)", "Divehi", ['d', 'i', 'v'], false⟩,
  ⟨0x444A5220, "Zarma", "Zarma", ['d', 'j', 'e'], false⟩,
  ⟨0x444A5230, "Djambarrpuyngu", "Djambarrpuyngu", ['d', 'j', 'r'], false⟩,
  ⟨0x444E4720, "Dangme", "Dangme", ['a', 'd', 'a'], false⟩,
  ⟨0x444E4A20, "Dan", "Dan", ['d', 'n', 'j'], false⟩,
  ⟨0x444E4B20, "Dinka", "Dinka", ['d', 'i', 'n'], false⟩,
  ⟨0x44524920, "Dari", "Dari", ['p', 'r', 's'], false⟩,
  ⟨0x44554A20, "Dhuwal", "Dhuwal", ['d', 'u', 'j'], false⟩,
  ⟨0x44554E20, "Dungan", "Dungan", ['d', 'n', 'g'], false⟩,
  ⟨0x445A4E20, "Dzongkha", "Dzongkha", ['d', 'z', 'o'], false⟩,
  ⟨0x45424920, "Ebira", "Ebira", ['i', 'g', 'b'], false⟩,
  ⟨0x45435220, "Eastern Cree", "EasternCree", ['c', 'r', 'j', ',', ' ', 'c', 'r', 'l'], false⟩,
  ⟨0x45444F20, "Edo", "Edo", ['b', 'i', 'n'], false⟩,
  ⟨0x45464920, "Efik", "Efik", ['e', 'f', 'i'], false⟩,
  ⟨0x454C4C20, "Greek", "Greek", ['e', 'l', 'l'], false⟩,
  ⟨0x454D4B20, "Eastern Maninkakan", "EasternManinkakan", ['e', 'm', 'k'], false⟩,
  ⟨0x454E4720, "English", "English", ['e', 'n', 'g'], false⟩,
  ⟨0x45525A20, "Erzya", "Erzya", ['m', 'y', 'v'], false⟩,
  ⟨0x45535020, "Spanish", "Spanish", ['s', 'p', 'a'], false⟩,
  ⟨0x45535520, "Central Yupik", "CentralYupik", ['e', 's', 'u'], false⟩,
  ⟨0x45544920, "Estonian", "Estonian", ['e', 's', 't'], false⟩,
  ⟨0x45555120, "Basque", "Basque", ['e', 'u', 's'], false⟩,
  ⟨0x45564B20, "Evenki", "Evenki", ['e', 'v', 'n'], false⟩,
  ⟨0x45564E20, "Even", "Even", ['e', 'v', 'e'], false⟩,
  ⟨0x45574520, "Ewe", "Ewe", ['e', 'w', 'e'], false⟩,
  ⟨0x46414E20, "French Antillean", "FrenchAntillean", ['a', 'c', 'f'], false⟩,
  ⟨0x46414E30, "Fang", "Fang", ['f', 'a', 'n'], false⟩,
  ⟨0x46415220, "Persian", "Persian", ['f', 'a', 's'], false⟩,
  ⟨0x46415420, "Fanti", "Fanti", ['f', 'a', 't'], false⟩,
  ⟨0x46494E20, "Finnish", "Finnish", ['f', 'i', 'n'], false⟩,
  ⟨0x464A4920, "Fijian", "Fijian", ['f', 'i', 'j'], false⟩,
  ⟨0x464C4520, "Dutch (Flemish)", "DutchFlemish", ['v', 'l', 's'], false⟩,
  ⟨0x464D5020, "Fe’fe’", "Fefe", ['f', 'm', 'p'], false⟩,
  ⟨0x464E4520, "Forest Nenets", "ForestNenets", ['e', 'n', 'f'], false⟩,
  ⟨0x464F4E20, "Fon", "Fon", ['f', 'o', 'n'], false⟩,
  ⟨0x464F5320, "Faroese", "Faroese", ['f', 'a', 'o'], false⟩,
  ⟨0x46524120, "French", "French", ['f', 'r', 'a'], false⟩,
  ⟨0x46524320, "Cajun French", "CajunFrench", ['f', 'r', 'c'], false⟩,
  ⟨0x46524920, "Frisian", "Frisian", ['f', 'r', 'y'], false⟩,
  ⟨0x46524C20, "Friulian", "Friulian", ['f', 'u', 'r'], false⟩,
  ⟨0x46525020, "Arpitan", "Arpitan", ['f', 'r', 'p'], false⟩,
  ⟨0x46544120, "Futa", "Futa", ['f', 'u', 'f'], false⟩,
  ⟨0x46554C20, "Fulah", "Fulah", ['f', 'u', 'l'], false⟩,
  ⟨0x46555620, "Nigerian Fulfulde", "NigerianFulfulde", ['f', 'u', 'v'], false⟩,
  ⟨0x47414420, "Ga", "Ga", ['g', 'a', 'a'], false⟩,
  ⟨0x47414520, "Scottish Gaelic (Gaelic)", "ScottishGaelic", ['g', 'l', 'a'], false⟩,
  ⟨0x47414720, "Gagauz", "Gagauz", ['g', 'a', 'g'], false⟩,
  ⟨0x47414C20, "Galician", "Galician", ['g', 'l', 'g'], false⟩,
  ⟨0x47415220, "Garshuni", "Garshuni", [], false⟩,
  ⟨0x47415720, "Garhwali", "Garhwali", ['g', 'b', 'm'], false⟩,
  ⟨0x47455A20, "Ge’ez", "Geez", ['g', 'e', 'z'], false⟩,
  ⟨0x47494820, "Githabul", "Githabul", ['g', 'i', 'h'], false⟩,
  ⟨0x47494C20, "Gilyak", "Gilyak", ['n', 'i', 'v'], false⟩,
  ⟨0x47494C30, "Kiribati (Gilbertese)", "Kiribati", ['g', 'i', 'l'], false⟩,
  ⟨0x474B5020, "Kpelle (Guinea)", "KpelleGuinea", ['g', 'k', 'p'], false⟩,
  ⟨0x474C4B20, "Gilaki", "Gilaki", ['g', 'l', 'k'], false⟩,
  ⟨0x474D5A20, "Gumuz", "Gumuz", ['g', 'u', 'k'], false⟩,
  ⟨0x474E4E20, "Gumatj", "Gumatj", ['g', 'n', 'n'], false⟩,
  ⟨0x474F4720, "Gogo", "Gogo", ['g', 'o', 'g'], false⟩,
  ⟨0x474F4E20, "Gondi", "Gondi", ['g', 'o', 'n'], false⟩,
  ⟨0x47524E20, "Greenlandic", "Greenlandic", ['k', 'a', 'l'], false⟩,
  ⟨0x47524F20, "Garo", "Garo", ['g', 'r', 't'], false⟩,
  ⟨0x47554120, "Guarani", "Guarani", ['g', 'r', 'n'], false⟩,
  ⟨0x47554320, "Wayuu", "Wayuu", ['g', 'u', 'c'], false⟩,
  ⟨0x47554620, "Gupapuyngu", "Gupapuyngu", ['g', 'u', 'f'], false⟩,
  ⟨0x47554A20, "Gujarati", "Gujarati", ['g', 'u', 'j'], false⟩,
  ⟨0x47555A20, "Gusii", "Gusii", ['g', 'u', 'z'], false⟩,
  ⟨0x48414920, "Haitian (Haitian Creole)", "Haitian", ['h', 'a', 't'], false⟩,
  ⟨0x48414C20, "Halam", "Halam", ['f', 'l', 'm'], false⟩,
  ⟨0x48415220, "Harauti", "Harauti", ['h', 'o', 'j'], false⟩,
  ⟨0x48415520, "Hausa", "Hausa", ['h', 'a', 'u'], false⟩,
  ⟨0x48415720, "Hawaiian", "Hawaiian", ['h', 'a', 'w'], false⟩,
  ⟨0x48415920, "Haya", "Haya", ['h', 'a', 'y'], false⟩,
  ⟨0x48415A20, "Hazaragi", "Hazaragi", ['h', 'a', 'z'], false⟩,
  ⟨0x48424E20, "Hammer-Banna", "HammerBanna", ['a', 'm', 'f'], false⟩,
  ⟨0x48455220, "Herero", "Herero", ['h', 'e', 'r'], false⟩,
  ⟨0x48494C20, "Hiligaynon", "Hiligaynon", ['h', 'i', 'l'], false⟩,
  ⟨0x48494E20, "Hindi", "Hindi", ['h', 'i', 'n'], false⟩,
  ⟨0x484D4120, "High Mari", "HighMari", ['m', 'r', 'j'], false⟩,
  ⟨0x484D4E20, "Hmong", "Hmong", ['h', 'm', 'n'], false⟩,
  ⟨0x484D4F20, "Hiri Motu", "HiriMotu", ['h', 'm', 'o'], false⟩,
  ⟨0x484E4420, "Hindko", "Hindko", ['h', 'n', 'o', ',', ' ', 'h', 'n', 'd'], false⟩,
  ⟨0x484F2020, "Ho", "Ho", ['h', 'o', 'c'], false⟩,
  ⟨0x48524920, "Harari", "Harari", ['h', 'a', 'r'], false⟩,
  ⟨0x48525620, "Croatian", "Croatian", ['h', 'r', 'v'], false⟩,
  ⟨0x48554E20, "Hungarian", "Hungarian", ['h', 'u', 'n'], false⟩,
  ⟨0x48594520, "Armenian", "Armenian", ['h', 'y', 'e'], false⟩,
  ⟨0x48594530, "Armenian East", "ArmenianEast", ['h', 'y', 'e'], false⟩,
  ⟨0x49424120, "Iban", "Iban", ['i', 'b', 'a'], false⟩,
  ⟨0x49424220, "Ibibio", "Ibibio", ['i', 'b', 'b'], false⟩,
  ⟨0x49424F20, "Igbo", "Igbo", ['i', 'b', 'o'], false⟩,
  ⟨0x494A4F20, "Ijo languages", "Ijolanguages", ['i', 'j', 'c'], false⟩,
  ⟨0x49444F20, "Ido", "Ido", ['i', 'd', 'o'], false⟩,
  ⟨0x494C4520, "Interlingue", "Interlingue", ['i', 'l', 'e'], false⟩,
  ⟨0x494C4F20, "Ilokano", "Ilokano", ['i', 'l', 'o'], false⟩,
  ⟨0x494E4120, "Interlingua", "Interlingua", ['i', 'n', 'a'], false⟩,
  ⟨0x494E4420, "Indonesian", "Indonesian", ['i', 'n', 'd'], false⟩,
  ⟨0x494E4720, "Ingush", "Ingush", ['i', 'n', 'h'], false⟩,
  ⟨0x494E5520, "Inuktitut", "Inuktitut", ['i', 'k', 'u'], false⟩,
  ⟨0x49504B20, "Inupiat", "Inupiat", ['i', 'p', 'k'], false⟩,
  ⟨0x49505048, "Phonetic transcription, IPA", "InternationalPhoneticAlphabet", [], false⟩,
  ⟨0x49524920, "Irish", "Irish", ['g', 'l', 'e'], false⟩,
  ⟨0x49525420, "Irish Traditional", "IrishTraditional", ['g', 'l', 'e'], false⟩,
  ⟨0x49534C20, "Icelandic", "Icelandic", ['i', 's', 'l'], false⟩,
  ⟨0x49534D20, "Inari Sami", "InariSami", ['s', 'm', 'n'], false⟩,
  ⟨0x49544120, "Italian", "Italian", ['i', 't', 'a'], false⟩,
  ⟨0x49575220, "Hebrew", "Hebrew", ['h', 'e', 'b'], false⟩,
  ⟨0x4A414D20, "Jamaican Creole", "JamaicanCreole", ['j', 'a', 'm'], false⟩,
  ⟨0x4A414E20, "Japanese", "Japanese", ['j', 'p', 'n'], false⟩,
  ⟨0x4A415620, "Javanese", "Javanese", ['j', 'a', 'v'], false⟩,
  ⟨0x4A424F20, "Lojban", "Lojban", ['j', 'b', 'o'], false⟩,
  ⟨0x4A435420, "Krymchak", "Krymchak", ['j', 'c', 't'], false⟩,
  ⟨0x4A494920, "Yiddish", "Yiddish", ['y', 'i', 'd'], false⟩,
  ⟨0x4A554420, "Ladino", "Ladino", ['l', 'a', 'd'], false⟩,
  ⟨0x4A554C20, "Jula", "Jula", ['d', 'y', 'u'], false⟩,
  ⟨0x4B414220, "Kabardian", "Kabardian", ['k', 'b', 'd'], false⟩,
  ⟨0x4B414230, "Kabyle", "Kabyle", ['k', 'a', 'b'], false⟩,
  ⟨0x4B414320, "Kachchi", "Kachchi", ['k', 'f', 'r'], false⟩,
  ⟨0x4B414C20, "Kalenjin", "Kalenjin", ['k', 'l', 'n'], false⟩,
  ⟨0x4B414E20, "Kannada", "Kannada", ['k', 'a', 'n'], false⟩,
  ⟨0x4B415220, "Karachay", "Karachay", ['k', 'r', 'c'], false⟩,
  ⟨0x4B415420, "Georgian", "Georgian", ['k', 'a', 't'], false⟩,
  ⟨0x4B415A20, "Kazakh", "Kazakh", ['k', 'a', 'z'], false⟩,
  ⟨0x4B444520, "Makonde", "Makonde", ['k', 'd', 'e'], false⟩,
  ⟨0x4B454120, "Kabuverdianu (Crioulo)", "Kabuverdianu", ['k', 'e', 'a'], false⟩,
  ⟨0x4B454220, "Kebena", "Kebena", ['k', 't', 'b'], false⟩,
  ⟨0x4B454B20, "Kekchi", "Kekchi", ['k', 'e', 'k'], false⟩,
  ⟨0x4B474520, "Khutsuri Georgian", "KhutsuriGeorgian", ['k', 'a', 't'], false⟩,
  ⟨0x4B484120, "Khakass", "Khakass", ['k', 'j', 'h'], false⟩,
  ⟨0x4B484B20, "Khanty-Kazim", "KhantyKazim", ['k', 'c', 'a'], false⟩,
  ⟨0x4B484D20, "Khmer", "Khmer", ['k', 'h', 'm'], false⟩,
  ⟨0x4B485320, "Khanty-Shurishkar", "KhantyShurishkar", ['k', 'c', 'a'], false⟩,
  ⟨0x4B485420, "Khamti Shan", "KhamtiShan", ['k', 'h', 't'], false⟩,
  ⟨0x4B485620, "Khanty-Vakhi", "KhantyVakhi", ['k', 'c', 'a'], false⟩,
  ⟨0x4B485720, "Khowar", "Khowar", ['k', 'h', 'w'], false⟩,
  ⟨0x4B494B20, "Kikuyu (Gikuyu)", "Kikuyu", ['k', 'i', 'k'], false⟩,
  ⟨0x4B495220, "Kirghiz (Kyrgyz)", "Kirghiz", ['k', 'i', 'r'], false⟩,
  ⟨0x4B495320, "Kisii", "Kisii", ['k', 'q', 's', ',', ' ', 'k', 's', 's'], false⟩,
  ⟨0x4B495520, "Kirmanjki", "Kirmanjki", ['k', 'i', 'u'], false⟩,
  ⟨0x4B4A4420, "Southern Kiwai", "SouthernKiwai", ['k', 'j', 'd'], false⟩,
  ⟨0x4B4A5020, "Eastern Pwo Karen", "EasternPwoKaren", ['k', 'j', 'p'], false⟩,
  ⟨0x4B4B4E20, "Kokni", "Kokni", ['k', 'e', 'x'], false⟩,
  ⟨0x4B4C4D20, "Kalmyk", "Kalmyk", ['x', 'a', 'l'], false⟩,
  ⟨0x4B4D4220, "Kamba", "Kamba", ['k', 'a', 'm'], false⟩,
  ⟨0x4B4D4E20, "Kumaoni", "Kumaoni", ['k', 'f', 'y'], false⟩,
  ⟨0x4B4D4F20, "Komo", "Komo", ['k', 'm', 'w'], false⟩,
  ⟨0x4B4D5320, "Komso", "Komso", ['k', 'x', 'c'], false⟩,
  ⟨0x4B4D5A20, "Khorasani Turkic", "KhorasaniTurkic", ['k', 'm', 'z'], false⟩,
  ⟨0x4B4E5220, "Kanuri", "Kanuri", ['k', 'a', 'u'], false⟩,
  ⟨0x4B4F4420, "Kodagu", "Kodagu", ['k', 'f', 'a'], false⟩,
  ⟨0x4B4F4820, "Korean Old Hangul", "KoreanOldHangul", ['o', 'k', 'm'], false⟩,
  ⟨0x4B4F4B20, "Konkani", "Konkani", ['k', 'o', 'k'], false⟩,
  ⟨0x4B4F4E20, "Kikongo", "Kikongo", ['k', 't', 'u'], false⟩,
  ⟨0x4B4F4D20, "Komi", "Komi", ['k', 'o', 'm'], false⟩,
  ⟨0x4B4F4E30, "Kongo", "Kongo", ['k', 'o', 'n'], false⟩,
  ⟨0x4B4F5020, "Komi-Permyak", "KomiPermyak", ['k', 'o', 'i'], false⟩,
  ⟨0x4B4F5220, "Korean", "Korean", ['k', 'o', 'r'], false⟩,
  ⟨0x4B4F5320, "Kosraean", "Kosraean", ['k', 'o', 's'], false⟩,
  ⟨0x4B4F5A20, "Komi-Zyrian", "KomiZyrian", ['k', 'p', 'v'], false⟩,
  ⟨0x4B504C20, "Kpelle", "Kpelle", ['k', 'p', 'e'], false⟩,
  ⟨0x4B524920, "Krio", "Krio", ['k', 'r', 'i'], false⟩,
  ⟨0x4B524B20, "Karakalpak", "Karakalpak", ['k', 'a', 'a'], false⟩,
  ⟨0x4B524C20, "Karelian", "Karelian", ['k', 'r', 'l'], false⟩,
  ⟨0x4B524D20, "Karaim", "Karaim", ['k', 'd', 'r'], false⟩,
  ⟨0x4B524E20, "Karen", "Karen", ['k', 'a', 'r'], false⟩,
  ⟨0x4B525420, "Koorete", "Koorete", ['k', 'q', 'y'], false⟩,
  ⟨0x4B534820, "Kashmiri", "Kashmiri", ['k', 'a', 's'], false⟩,
  ⟨0x4B534830, "Ripuarian", "Ripuarian", ['k', 's', 'h'], false⟩,
  ⟨0x4B534920, "Khasi", "Khasi", ['k', 'h', 'a'], false⟩,
  ⟨0x4B534D20, "Kildin Sami", "KildinSami", ['s', 'j', 'd'], false⟩,
  ⟨0x4B535720, "S’gaw Karen", "SgawKaren", ['k', 's', 'w'], false⟩,
  ⟨0x4B554120, "Kuanyama", "Kuanyama", ['k', 'u', 'a'], false⟩,
  ⟨0x4B554920, "Kui", "Kui", ['k', 'x', 'u'], false⟩,
  ⟨0x4B554C20, "Kulvi", "Kulvi", ['k', 'f', 'x'], false⟩,
  ⟨0x4B554D20, "Kumyk", "Kumyk", ['k', 'u', 'm'], false⟩,
  ⟨0x4B555220, "Kurdish", "Kurdish", ['k', 'u', 'r'], false⟩,
  ⟨0x4B555520, "Kurukh", "Kurukh", ['k', 'r', 'u'], false⟩,
  ⟨0x4B555920, "Kuy", "Kuy", ['k', 'd', 't'], false⟩,
  ⟨0x4B594B20, "Koryak", "Koryak", ['k', 'p', 'y'], false⟩,
  ⟨0x4B595520, "Western Kayah", "WesternKayah", ['k', 'y', 'u'], false⟩,
  ⟨0x4C414420, "Ladin", "Ladin", ['l', 'l', 'd'], false⟩,
  ⟨0x4C414820, "Lahuli", "Lahuli", ['b', 'f', 'u'], false⟩,
  ⟨0x4C414B20, "Lak", "Lak", ['l', 'b', 'e'], false⟩,
  ⟨0x4C414D20, "Lambani", "Lambani", ['l', 'm', 'n'], false⟩,
  ⟨0x4C414F20, "Lao", "Lao", ['l', 'a', 'o'], false⟩,
  ⟨0x4C415420, "Latin", "Latin", ['l', 'a', 't'], false⟩,
  ⟨0x4C415A20, "Laz", "Laz", ['l', 'z', 'z'], false⟩,
  ⟨0x4C435220, "L-Cree", "LCree", ['c', 'r', 'm'], false⟩,
  ⟨0x4C444B20, "Ladakhi", "Ladakhi", ['l', 'b', 'j'], false⟩,
  ⟨0x4C455A20, "Lezgi", "Lezgi", ['l', 'e', 'z'], false⟩,
  ⟨0x4C494A20, "Ligurian", "Ligurian", ['l', 'i', 'j'], false⟩,
  ⟨0x4C494D20, "Limburgish", "Limburgish", ['l', 'i', 'm'], false⟩,
  ⟨0x4C494E20, "Lingala", "Lingala", ['l', 'i', 'n'], false⟩,
  ⟨0x4C495320, "Lisu", "Lisu", ['l', 'i', 's'], false⟩,
  ⟨0x4C4A5020, "Lampung", "Lampung", ['l', 'j', 'p'], false⟩,
  ⟨0x4C4B4920, "Laki", "Laki", ['l', 'k', 'i'], false⟩,
  ⟨0x4C4D4120, "Low Mari", "LowMari", ['m', 'h', 'r'], false⟩,
  ⟨0x4C4D4220, "Limbu", "Limbu", ['l', 'i', 'f'], false⟩,
  ⟨0x4C4D4F20, "Lombard", "Lombard", ['l', 'm', 'o'], false⟩,
  ⟨0x4C4D5720, "Lomwe", "Lomwe", ['n', 'g', 'l'], false⟩,
  ⟨0x4C4F4D20, "Loma", "Loma", ['l', 'o', 'm'], false⟩,
  ⟨0x4C524320, "Luri", "Luri", ['l', 'r', 'c', ',', ' ', 'l', 'u', 'z', ',', ' ', 'b', 'q', 'i', ',', ' ', 'z', 'u', 'm'], false⟩,
  ⟨0x4C534220, "Lower Sorbian", "LowerSorbian", ['d', 's', 'b'], false⟩,
  ⟨0x4C534D20, "Lule Sami", "LuleSami", ['s', 'm', 'j'], false⟩,
  ⟨0x4C544820, "Lithuanian", "Lithuanian", ['l', 'i', 't'], false⟩,
  ⟨0x4C545A20, "Luxembourgish", "Luxembourgish", ['l', 't', 'z'], false⟩,
  ⟨0x4C554120, "Luba-Lulua", "LubaLulua", ['l', 'u', 'a'], false⟩,
  ⟨0x4C554220, "Luba-Katanga", "LubaKatanga", ['l', 'u', 'b'], false⟩,
  ⟨0x4C554720, "Ganda", "Ganda", ['l', 'u', 'g'], false⟩,
  ⟨0x4C554820, "Luyia", "Luyia", ['l', 'u', 'y'], false⟩,
  ⟨0x4C554F20, "Luo", "Luo", ['l', 'u', 'o'], false⟩,
  ⟨0x4C564920, "Latvian", "Latvian", ['l', 'a', 'v'], false⟩,
  ⟨0x4D414420, "Madura", "Madura", ['m', 'a', 'd'], false⟩,
  ⟨0x4D414720, "Magahi", "Magahi", ['m', 'a', 'g'], false⟩,
  ⟨0x4D414820, "Marshallese", "Marshallese", ['m', 'a', 'h'], false⟩,
  ⟨0x4D414A20, "Majang", "Majang", ['m', 'p', 'e'], false⟩,
  ⟨0x4D414B20, "Makhuwa", "Makhuwa", ['v', 'm', 'w'], false⟩,
  ⟨0x4D414C20, "Malayalam", "Malayalam", ['m', 'a', 'l'], false⟩,
  ⟨0x4D414D20, "Mam", "Mam", ['m', 'a', 'm'], false⟩,
  ⟨0x4D414E20, "Mansi", "Mansi", ['m', 'n', 's'], false⟩,
  ⟨0x4D415020, "Mapudungun", "Mapudungun", ['a', 'r', 'n'], false⟩,
  ⟨0x4D415220, "Marathi", "Marathi", ['m', 'a', 'r'], false⟩,
  ⟨0x4D415720, "Marwari", "Marwari", ['m', 'w', 'r', ',', ' ', 'd', 'h', 'd', ',', ' ', 'r', 'w', 'r', ',', ' ', 'm', 'v', 'e', ',', ' ', 'w', 'r', 'y', ',', ' ', 'm', 't', 'r', ',', ' ', 's', 'w', 'v'], false⟩,
  ⟨0x4D424E20, "Mbundu", "Mbundu", ['k', 'm', 'b'], false⟩,
  ⟨0x4D424F20, "Mbo", "Mbo", ['m', 'b', 'o'], false⟩,
  ⟨0x4D434820, "Manchu", "Manchu", ['m', 'n', 'c'], false⟩,
  ⟨0x4D435220, "Moose Cree", "MooseCree", ['c', 'r', 'm'], false⟩,
  ⟨0x4D444520, "Mende", "Mende", ['m', 'e', 'n'], false⟩,
  ⟨0x4D445220, "Mandar", "Mandar", ['m', 'd', 'r'], false⟩,
  ⟨0x4D454E20, "Me’en", "Meen", ['m', 'y', 'm'], false⟩,
  ⟨0x4D455220, "Meru", "Meru", ['m', 'e', 'r'], false⟩,
  ⟨0x4D464520, "Morisyen", "Morisyen", ['m', 'f', 'e'], false⟩,
  ⟨0x4D494E20, "Minangkabau", "Minangkabau", ['m', 'i', 'n'], false⟩,
  ⟨0x4D495A20, "Mizo", "Mizo", ['l', 'u', 's'], false⟩,
  ⟨0x4D4B4420, "Macedonian", "Macedonian", ['m', 'k', 'd'], false⟩,
  ⟨0x4D4B5220, "Makasar", "Makasar", ['m', 'a', 'k'], false⟩,
  ⟨0x4D4B5720, "Kituba", "Kituba", ['m', 'k', 'w'], false⟩,
  ⟨0x4D4C4520, "Male", "Male", ['m', 'd', 'y'], false⟩,
  ⟨0x4D4C4720, "Malagasy", "Malagasy", ['m', 'l', 'g'], false⟩,
  ⟨0x4D4C4E20, "Malinke", "Malinke", ['m', 'l', 'q'], false⟩,
  ⟨0x4D4C5220, "Malayalam Reformed", "MalayalamReformed", ['m', 'a', 'l'], false⟩,
  ⟨0x4D4C5920, "Malay", "Malay", ['m', 's', 'a'], false⟩,
  ⟨0x4D4E4420, "Mandinka", "Mandinka", ['m', 'n', 'k'], false⟩,
  ⟨0x4D4E4720, "Mongolian", "Mongolian", ['m', 'o', 'n'], false⟩,
  ⟨0x4D4E4920, "Manipuri", "Manipuri", ['m', 'n', 'i'], false⟩,
  ⟨0x4D4E4B20, "Maninka", "Maninka", ['m', 'a', 'n', ',', ' ', 'm', 'n', 'k', ',', ' ', 'm', 'y', 'q', ',', ' ', 'm', 'k', 'u', ',', ' ', 'm', 's', 'c', ',', ' ', 'e', 'm', 'k', ',', ' ', 'm', 'w', 'k', ',', ' ', 'm', 'l', 'q'], false⟩,
  ⟨0x4D4E5820, "Manx", "Manx", ['g', 'l', 'v'], false⟩,
  ⟨0x4D4F4820, "Mohawk", "Mohawk", ['m', 'o', 'h'], false⟩,
  ⟨0x4D4F4B20, "Moksha", "Moksha", ['m', 'd', 'f'], false⟩,
  ⟨0x4D4F4C20, "Moldavian", "Moldavian", ['m', 'o', 'l'], false⟩,
  ⟨0x4D4F4E20, "Mon", "Mon", ['m', 'n', 'w'], false⟩,
  ⟨0x4D4F5220, "Moroccan", "Moroccan", [], false⟩,
  ⟨0x4D4F5320, "Mossi", "Mossi", ['m', 'o', 's'], false⟩,
  ⟨0x4D524920, "Maori", "Maori", ['m', 'r', 'i'], false⟩,
  ⟨0x4D544820, "Maithili", "Maithili", ['m', 'a', 'i'], false⟩,
  ⟨0x4D545320, "Maltese", "Maltese", ['m', 'l', 't'], false⟩,
  ⟨0x4D554E20, "Mundari", "Mundari", ['u', 'n', 'r'], false⟩,
  ⟨0x4D555320, "Muscogee", "Muscogee", ['m', 'u', 's'], false⟩,
  ⟨0x4D574C20, "Mirandese", "Mirandese", ['m', 'w', 'l'], false⟩,
  ⟨0x4D575720, "Hmong Daw", "HmongDaw", ['m', 'w', 'w'], false⟩,
  ⟨0x4D594E20, "Mayan", "Mayan", ['m', 'y', 'n'], false⟩,
  ⟨0x4D5A4E20, "Mazanderani", "Mazanderani", ['m', 'z', 'n'], false⟩,
  ⟨0x4E414720, "Naga-Assamese", "NagaAssamese", ['n', 'a', 'g'], false⟩,
  ⟨0x4E414820, "Nahuatl", "Nahuatl", ['n', 'a', 'h'], false⟩,
  ⟨0x4E414E20, "Nanai", "Nanai", ['g', 'l', 'd'], false⟩,
  ⟨0x4E415020, "Neapolitan", "Neapolitan", ['n', 'a', 'p'], false⟩,
  ⟨0x4E415320, "Naskapi", "Naskapi", ['n', 's', 'k'], false⟩,
  ⟨0x4E415520, "Nauruan", "Nauruan", ['n', 'a', 'u'], false⟩,
  ⟨0x4E415620, "Navajo", "Navajo", ['n', 'a', 'v'], false⟩,
  ⟨0x4E435220, "N-Cree", "NCree", ['c', 's', 'w'], false⟩,
  ⟨0x4E444220, "Ndebele", "Ndebele", ['n', 'b', 'l', ',', ' ', 'n', 'd', 'e'], false⟩,
  ⟨0x4E444320, "Ndau", "Ndau", ['n', 'd', 'c'], false⟩,
  ⟨0x4E444720, "Ndonga", "Ndonga", ['n', 'd', 'o'], false⟩,
  ⟨0x4E445320, "Low Saxon", "LowSaxon", ['n', 'd', 's'], false⟩,
  ⟨0x4E455020, "Nepali", "Nepali", ['n', 'e', 'p'], false⟩,
  ⟨0x4E455720, "Newari", "Newari", ['n', 'e', 'w'], false⟩,
  ⟨0x4E474120, "Ngbaka", "Ngbaka", ['n', 'g', 'a'], false⟩,
  ⟨0x4E475220, "Nagari", "Nagari", [], false⟩,
  ⟨0x4E484320, "Norway House Cree", "NorwayHouseCree", ['c', 's', 'w'], false⟩,
  ⟨0x4E495320, "Nisi", "Nisi", ['d', 'a', 'p'], false⟩,
  ⟨0x4E495520, "Niuean", "Niuean", ['n', 'i', 'u'], false⟩,
  ⟨0x4E4B4C20, "Nyankole", "Nyankole", ['n', 'y', 'n'], false⟩,
  ⟨0x4E4B4F20, "N’Ko", "NKo", ['n', 'q', 'o'], false⟩,
  ⟨0x4E4C4420, "Dutch", "Dutch", ['n', 'l', 'd'], false⟩,
  ⟨0x4E4F4520, "Nimadi", "Nimadi", ['n', 'o', 'e'], false⟩,
  ⟨0x4E4F4720, "Nogai", "Nogai", ['n', 'o', 'g'], false⟩,
  ⟨0x4E4F5220, "Norwegian", "Norwegian", ['n', 'o', 'b'], false⟩,
  ⟨0x4E4F5620, "Novial", "Novial", ['n', 'o', 'v'], false⟩,
  ⟨0x4E534D20, "Northern Sami", "NorthernSami", ['s', 'm', 'e'], false⟩,
  ⟨0x4E534F20, "Sotho, Northern", "NorthernSotho", ['n', 's', 'o'], false⟩,
  ⟨0x4E544120, "Northern Tai", "NorthernTai", ['n', 'o', 'd'], false⟩,
  ⟨0x4E544F20, "Esperanto", "Esperanto", ['e', 'p', 'o'], false⟩,
  ⟨0x4E594D20, "Nyamwezi", "Nyamwezi", ['n', 'y', 'm'], false⟩,
  ⟨0x4E594E20, "Norwegian Nynorsk (Nynorsk, Norwegian)", "NorwegianNynorsk", ['n', 'n', 'o'], false⟩,
  ⟨0x4E5A4120, "Mbembe Tigon", "MbembeTigon", ['n', 'z', 'a'], false⟩,
  ⟨0x4F434920, "Occitan", "Occitan", ['o', 'c', 'i'], false⟩,
  ⟨0x4F435220, "Oji-Cree", "OjiCree", ['o', 'j', 's'], false⟩,
  ⟨0x4F4A4220, "Ojibway", "Ojibway", ['o', 'j', 'i'], false⟩,
  ⟨0x4F524920, "Odia", "Odia", ['o', 'r', 'i'], false⟩,
  ⟨0x4F524F20, "Oromo", "Oromo", ['o', 'r', 'm'], false⟩,
  ⟨0x4F535320, "Ossetian", "Ossetian", ['o', 's', 's'], false⟩,
  ⟨0x50414120, "Palestinian Aramaic", "PalestinianAramaic", ['s', 'a', 'm'], false⟩,
  ⟨0x50414720, "Pangasinan", "Pangasinan", ['p', 'a', 'g'], false⟩,
  ⟨0x50414C20, "Pali", "Pali", ['p', 'l', 'i'], false⟩,
  ⟨0x50414D20, "Pampangan", "Pampangan", ['p', 'a', 'm'], false⟩,
  ⟨0x50414E20, "Punjabi", "Punjabi", ['p', 'a', 'n'], false⟩,
  ⟨0x50415020, "Palpa", "Palpa", ['p', 'l', 'p'], false⟩,
  ⟨0x50415030, "Papiamentu", "Papiamentu", ['p', 'a', 'p'], false⟩,
  ⟨0x50415320, "Pashto", "Pashto", ['p', 'u', 's'], false⟩,
  ⟨0x50415520, "Palauan", "Palauan", ['p', 'a', 'u'], false⟩,
  ⟨0x50434320, "Bouyei", "Bouyei", ['p', 'c', 'c'], false⟩,
  ⟨0x50434420, "Picard", "Picard", ['p', 'c', 'd'], false⟩,
  ⟨0x50444320, "Pennsylvania German", "PennsylvaniaGerman", ['p', 'd', 'c'], false⟩,
  ⟨0x50475220, "Polytonic Greek", "PolytonicGreek", ['e', 'l', 'l'], false⟩,
  ⟨0x50484B20, "Phake", "Phake", ['p', 'h', 'k'], false⟩,
  ⟨0x50494820, "Norfolk", "Norfolk", ['p', 'i', 'h'], false⟩,
  ⟨0x50494C20, "Filipino", "Filipino", ['f', 'i', 'l'], false⟩,
  ⟨0x504C4720, "Palaung", "Palaung", ['p', 'c', 'e', ',', ' ', 'r', 'b', 'b', ',', ' ', 'p', 'l', 'l'], false⟩,
  ⟨0x504C4B20, "Polish", "Polish", ['p', 'o', 'l'], false⟩,
  ⟨0x504D5320, "Piemontese", "Piemontese", ['p', 'm', 's'], false⟩,
  ⟨0x504E4220, "Western Panjabi", "WesternPanjabi", ['p', 'n', 'b'], false⟩,
  ⟨0x504F4820, "Pocomchi", "Pocomchi", ['p', 'o', 'h'], false⟩,
  ⟨0x504F4E20, "Pohnpeian", "Pohnpeian", ['p', 'o', 'n'], false⟩,
  ⟨0x50524F20, "Provencal", "Provencal", ['p', 'r', 'o'], false⟩,
  ⟨0x50544720, "Portuguese", "Portuguese", ['p', 'o', 'r'], false⟩,
  ⟨0x50574F20, "Western Pwo Karen", "WesternPwoKaren", ['p', 'w', 'o'], false⟩,
  ⟨0x51494E20, "Chin", "Chin", ['b', 'g', 'r', ',', ' ', 'c', 'n', 'h', ',', ' ', 'c', 'n', 'w', ',', ' ', 'c', 'z', 't', ',', ' ', 's', 'e', 'z', ',', ' ', 't', 'c', 'p', ',', ' ', 'c', 's', 'y', ',', ' ', 'c', 't', 'd', ',', ' ', 'f', 'l', 'm', ',', ' ', 'p', 'c', 'k', ',', ' ', 't', 'c', 'z', ',', ' ', 'z', 'o', 'm', ',', ' ', 'c', 'm', 'r', ',', ' ', 'd', 'a', 'o', ',', ' ', 'h', 'l', 't', ',', ' ', 'c', 'k', 'a', ',', ' ', 'c', 'n', 'k', ',', ' ', 'm', 'r', 'h', ',', ' ', 'm', 'w', 'g', ',', ' ', 'c', 'b', 'l', ',', ' ', 'c', 'n', 'b', ',', ' ', 'c', 's', 'h'], false⟩,
  ⟨0x51554320, "K’iche’", "Kiche", ['q', 'u', 'c'], false⟩,
  ⟨0x51554820, "Quechua (Bolivia)", "QuechuaBolivia", ['q', 'u', 'h'], false⟩,
  ⟨0x51555A20, "Quechua", "Quechua", ['q', 'u', 'z'], false⟩,
  ⟨0x51564920, "Quechua (Ecuador)", "QuechuaEcuador", ['q', 'v', 'i'], false⟩,
  ⟨0x51574820, "Quechua (Peru)", "QuechuaPeru", ['q', 'w', 'h'], false⟩,
  ⟨0x52414A20, "Rajasthani", "Rajasthani", ['r', 'a', 'j'], false⟩,
  ⟨0x52415220, "Rarotongan", "Rarotongan", ['r', 'a', 'r'], false⟩,
  ⟨0x52425520, "Russian Buriat", "RussianBuriat", ['b', 'x', 'r'], false⟩,
  ⟨0x52435220, "R-Cree", "RCree", ['a', 't', 'j'], false⟩,
  ⟨0x52454A20, "Rejang", "Rejang", ['r', 'e', 'j'], false⟩,
  ⟨0x52494120, "Riang", "Riang", ['r', 'i', 'a'], false⟩,
  ⟨0x52494620, "Tarifit", "Tarifit", ['r', 'i', 'f'], false⟩,
  ⟨0x52495420, "Ritarungo", "Ritarungo", ['r', 'i', 't'], false⟩,
  ⟨0x524B5720, "Arakwal", "Arakwal", ['r', 'k', 'w'], false⟩,
  ⟨0x524D5320, "Romansh", "Romansh", ['r', 'o', 'h'], false⟩,
  ⟨0x524D5920, "Vlax Romani", "VlaxRomani", ['r', 'm', 'y'], false⟩,
  ⟨0x524F4D20, "Romanian", "Romanian", ['r', 'o', 'n'], false⟩,
  ⟨0x524F5920, "Romany", "Romany", ['r', 'o', 'm'], false⟩,
  ⟨0x52535920, "Rusyn", "Rusyn", ['r', 'u', 'e'], false⟩,
  ⟨0x52544D20, "Rotuman", "Rotuman", ['r', 't', 'm'], false⟩,
  ⟨0x52554120, "Kinyarwanda", "Kinyarwanda", ['k', 'i', 'n'], false⟩,
  ⟨0x52554E20, "Rundi", "Rundi", ['r', 'u', 'n'], false⟩,
  ⟨0x52555020, "Aromanian", "Aromanian", ['r', 'u', 'p'], false⟩,
  ⟨0x52555320, "Russian", "Russian", ['r', 'u', 's'], false⟩,
  ⟨0x53414420, "Sadri", "Sadri", ['s', 'c', 'k'], false⟩,
  ⟨0x53414E20, "Sanskrit", "Sanskrit", ['s', 'a', 'n'], false⟩,
  ⟨0x53415320, "Sasak", "Sasak", ['s', 'a', 's'], false⟩,
  ⟨0x53415420, "Santali", "Santali", ['s', 'a', 't'], false⟩,
  ⟨0x53415920, "Sayisi", "Sayisi", ['c', 'h', 'p'], false⟩,
  ⟨0x53434E20, "Sicilian", "Sicilian", ['s', 'c', 'n'], false⟩,
  ⟨0x53434F20, "Scots", "Scots", ['s', 'c', 'o'], false⟩,
  ⟨0x53454B20, "Sekota", "Sekota", ['x', 'a', 'n'], false⟩,
  ⟨0x53454C20, "Selkup", "Selkup", ['s', 'e', 'l'], false⟩,
  ⟨0x53474120, "Old Irish", "OldIrish", ['s', 'g', 'a'], false⟩,
  ⟨0x53474F20, "Sango", "Sango", ['s', 'a', 'g'], false⟩,
  ⟨0x53475320, "Samogitian", "Samogitian", ['s', 'g', 's'], false⟩,
  ⟨0x53484920, "Tachelhit", "Tachelhit", ['s', 'h', 'i'], false⟩,
  ⟨0x53484E20, "Shan", "Shan", ['s', 'h', 'n'], false⟩,
  ⟨0x53494220, "Sibe", "Sibe", ['s', 'j', 'o'], false⟩,
  ⟨0x53494420, "Sidamo", "Sidamo", ['s', 'i', 'd'], false⟩,
  ⟨0x53494720, "Silte Gurage", "SilteGurage", ['x', 's', 't'], false⟩,
  ⟨0x534B5320, "Skolt Sami", "SkoltSami", ['s', 'm', 's'], false⟩,
  ⟨0x534B5920, "Slovak", "Slovak", ['s', 'l', 'k'], false⟩,
  ⟨0x53435320, "North Slavey", "NorthSlavey", ['s', 'c', 's'], false⟩,
  ⟨0x534C4120, "Slavey", "Slavey", ['s', 'c', 's', ',', ' ', 'x', 's', 'l'], false⟩,
  ⟨0x534C5620, "Slovenian", "Slovenian", ['s', 'l', 'v'], false⟩,
  ⟨0x534D4C20, "Somali", "Somali", ['s', 'o', 'm'], false⟩,
  ⟨0x534D4F20, "Samoan", "Samoan", ['s', 'm', 'o'], false⟩,
  ⟨0x534E4120, "Sena", "Sena", ['s', 'e', 'h'], false⟩,
  ⟨0x534E4130, "Shona", "Shona", ['s', 'n', 'a'], false⟩,
  ⟨0x534E4420, "Sindhi", "Sindhi", ['s', 'n', 'd'], false⟩,
  ⟨0x534E4820, "Sinhala (Sinhalese)", "Sinhala", ['s', 'i', 'n'], false⟩,
  ⟨0x534E4B20, "Soninke", "Soninke", ['s', 'n', 'k'], false⟩,
  ⟨0x534F4720, "Sodo Gurage", "SodoGurage", ['g', 'r', 'u'], false⟩,
  ⟨0x534F5020, "Songe", "Songe", ['s', 'o', 'p'], false⟩,
  ⟨0x534F5420, "Sotho, Southern", "SouthernSotho", ['s', 'o', 't'], false⟩,
  ⟨0x53514920, "Albanian", "Albanian", ['s', 'q', 'i'], false⟩,
  ⟨0x53524220, "Serbian", "Serbian", ['s', 'r', 'p'], false⟩,
  ⟨0x53524420, "Sardinian", "Sardinian", ['s', 'r', 'd'], false⟩,
  ⟨0x53524B20, "Saraiki", "Saraiki", ['s', 'k', 'r'], false⟩,
  ⟨0x53525220, "Serer", "Serer", ['s', 'r', 'r'], false⟩,
  ⟨0x53534C20, "South Slavey", "SouthSlavey", ['x', 's', 'l'], false⟩,
  ⟨0x53534D20, "Southern Sami", "SouthernSami", ['s', 'm', 'a'], false⟩,
  ⟨0x53545120, "Saterland Frisian", "SaterlandFrisian", ['s', 't', 'q'], false⟩,
  ⟨0x53554B20, "Sukuma", "Sukuma", ['s', 'u', 'k'], false⟩,
  ⟨0x53554E20, "Sundanese", "Sundanese", ['s', 'u', 'n'], false⟩,
  ⟨0x53555220, "Suri", "Suri", ['s', 'u', 'q'], false⟩,
  ⟨0x53564120, "Svan", "Svan", ['s', 'v', 'a'], false⟩,
  ⟨0x53564520, "Swedish", "Swedish", ['s', 'w', 'e'], false⟩,
  ⟨0x53574120, "Swadaya Aramaic", "SwadayaAramaic", ['a', 'i', 'i'], false⟩,
  ⟨0x53574B20, "Swahili", "Swahili", ['s', 'w', 'a'], false⟩,
  ⟨0x53575A20, "Swati", "Swati", ['s', 's', 'w'], false⟩,
  ⟨0x53585420, "Sutu", "Sutu", ['n', 'g', 'o'], false⟩,
  ⟨0x53585520, "Upper Saxon", "UpperSaxon", ['s', 'x', 'u'], false⟩,
  ⟨0x53594C20, "Sylheti", "Sylheti", ['s', 'y', 'l'], false⟩,
  ⟨0x53595220, "Syriac", "Syriac", ['s', 'y', 'r'], false⟩,
  ⟨0x535A4C20, "Silesian", "Silesian", ['s', 'z', 'l'], false⟩,
  ⟨0x54414220, "Tabasaran", "Tabasaran", ['t', 'a', 'b'], false⟩,
  ⟨0x54414A20, "Tajiki", "Tajiki", ['t', 'g', 'k'], false⟩,
  ⟨0x54414D20, "Tamil", "Tamil", ['t', 'a', 'm'], false⟩,
  ⟨0x54415420, "Tatar", "Tatar", ['t', 'a', 't'], false⟩,
  ⟨0x54435220, "TH-Cree", "THCree", ['c', 'w', 'd'], false⟩,
  ⟨0x54444420, "Dehong Dai", "DehongDai", ['t', 'd', 'd'], false⟩,
  ⟨0x54454C20, "Telugu", "Telugu", ['t', 'e', 'l'], false⟩,
  ⟨0x54455420, "Tetum", "Tetum", ['t', 'e', 't'], false⟩,
  ⟨0x54474C20, "Tagalog", "Tagalog", ['t', 'g', 'l'], false⟩,
  ⟨0x54474E20, "Tongan", "Tongan", ['t', 'o', 'n'], false⟩,
  ⟨0x54475220, "Tigre", "Tigre", ['t', 'i', 'g'], false⟩,
  ⟨0x54475920, "Tigrinya", "Tigrinya", ['t', 'i', 'r'], false⟩,
  ⟨0x54484120, "Thai", "Thai", ['t', 'h', 'a'], false⟩,
  ⟨0x54485420, "Tahitian", "Tahitian", ['t', 'a', 'h'], false⟩,
  ⟨0x54494220, "Tibetan", "Tibetan", ['b', 'o', 'd'], false⟩,
  ⟨0x54495620, "Tiv", "Tiv", ['t', 'i', 'v'], false⟩,
  ⟨0x544B4D20, "Turkmen", "Turkmen", ['t', 'u', 'k'], false⟩,
  ⟨0x544D4820, "Tamashek", "Tamashek", ['t', 'm', 'h'], false⟩,
  ⟨0x544D4E20, "Temne", "Temne", ['t', 'e', 'm'], false⟩,
  ⟨0x544E4120, "Tswana", "Tswana", ['t', 's', 'n'], false⟩,
  ⟨0x544E4520, "Tundra Nenets", "TundraNenets", ['e', 'n', 'h'], false⟩,
  ⟨0x544E4720, "Tonga", "Tonga", ['t', 'o', 'i'], false⟩,
  ⟨0x544F4420, "Todo", "Todo", ['x', 'a', 'l'], false⟩,
  ⟨0x544F4430, "Toma", "Toma", ['t', 'o', 'd'], false⟩,
  ⟨0x54504920, "Tok Pisin", "TokPisin", ['t', 'p', 'i'], false⟩,
  ⟨0x54524B20, "Turkish", "Turkish", ['t', 'u', 'r'], false⟩,
  ⟨0x54534720, "Tsonga", "Tsonga", ['t', 's', 'o'], false⟩,
  ⟨0x54554120, "Turoyo Aramaic", "TuroyoAramaic", ['t', 'r', 'u'], false⟩,
  ⟨0x54554D20, "Tulu", "Tulu", ['t', 'u', 'm'], false⟩,
  ⟨0x54554C20, "Tumbuka", "Tumbuka", ['t', 'c', 'y'], false⟩,
  ⟨0x54555620, "Tuvin", "Tuvin", ['t', 'y', 'v'], false⟩,
  ⟨0x54564C20, "Tuvalu", "Tuvalu", ['t', 'v', 'l'], false⟩,
  ⟨0x54574920, "Twi", "Twi", ['a', 'k', 'a'], false⟩,
  ⟨0x54595A20, "Tày", "Tay", ['t', 'y', 'z'], false⟩,
  ⟨0x545A4D20, "Tamazight", "Tamazight", ['t', 'z', 'm'], false⟩,
  ⟨0x545A4F20, "Tzotzil", "Tzotzil", ['t', 'z', 'o'], false⟩,
  ⟨0x55444D20, "Udmurt", "Udmurt", ['u', 'd', 'm'], false⟩,
  ⟨0x554B5220, "Ukrainian", "Ukrainian", ['u', 'k', 'r'], false⟩,
  ⟨0x554D4220, "Umbundu", "Umbundu", ['u', 'm', 'b'], false⟩,
  ⟨0x55524420, "Urdu", "Urdu", ['u', 'r', 'd'], false⟩,
  ⟨0x55534220, "Upper Sorbian", "UpperSorbian", ['h', 's', 'b'], false⟩,
  ⟨0x55594720, "Uyghur", "Uyghur", ['u', 'i', 'g'], false⟩,
  ⟨0x555A4220, "Uzbek", "Uzbek", ['u', 'z', 'b'], false⟩,
  ⟨0x56454320, "Venetian", "Venetian", ['v', 'e', 'c'], false⟩,
  ⟨0x56454E20, "Venda", "Venda", ['v', 'e', 'n'], false⟩,
  ⟨0x56495420, "Vietnamese", "Vietnamese", ['v', 'i', 'e'], false⟩,
  ⟨0x564F4C20, "Volapük", "Volapuk", ['v', 'o', 'l'], false⟩,
  ⟨0x56524F20, "Võro", "Voro", ['v', 'r', 'o'], false⟩,
  ⟨0x57412020, "Wa", "Wa", ['w', 'b', 'm'], false⟩,
  ⟨0x57414720, "Wagdi", "Wagdi", ['w', 'b', 'r'], false⟩,
  ⟨0x57415220, "Waray-Waray", "WarayWaray", ['w', 'a', 'r'], false⟩,
  ⟨0x57435220, "West-Cree", "WestCree", ['c', 'r', 'k'], false⟩,
  ⟨0x57454C20, "Welsh", "Welsh", ['c', 'y', 'm'], false⟩,
  ⟨0x574C4E20, "Walloon", "Walloon", ['w', 'l', 'n'], false⟩,
  ⟨0x574C4620, "Wolof", "Wolof", ['w', 'o', 'l'], false⟩,
  ⟨0x57544D20, "Mewati", "Mewati", ['w', 't', 'm'], false⟩,
  ⟨0x58424420, "Lü", "Lu", ['k', 'h', 'b'], false⟩,
  ⟨0x58485320, "Xhosa", "Xhosa", ['x', 'h', 'o'], false⟩,
  ⟨0x584A4220, "Minjangbal", "Minjangbal", ['x', 'j', 'b'], false⟩,
  ⟨0x584F4720, "Soga", "Soga", ['x', 'o', 'g'], false⟩,
  ⟨0x58504520, "Kpelle (Liberia)", "KpelleLiberia", ['x', 'p', 'e'], false⟩,
  ⟨0x59414B20, "Sakha", "Sakha", ['s', 'a', 'h'], false⟩,
  ⟨0x59414F20, "Yao", "Yao", ['y', 'a', 'o'], false⟩,
  ⟨0x59415020, "Yapese", "Yapese", ['y', 'a', 'p'], false⟩,
  ⟨0x59424120, "Yoruba", "Yoruba", ['y', 'o', 'r'], false⟩,
  ⟨0x59435220, "Y-Cree", "YCree", ['c', 'r', 'e'], false⟩,
  ⟨0x59494320, "Yi Classic", "YiClassic", [], false⟩,
  ⟨0x59494D20, "Yi Modern", "YiModern", ['i', 'i', 'i'], false⟩,
  ⟨0x5A454120, "Zealandic", "Zealandic", ['z', 'e', 'a'], false⟩,
  ⟨0x5A474820, "Standard Morrocan Tamazigh", "StandardMorrocanTamazigh", ['z', 'g', 'h'], false⟩,
  ⟨0x5A484120, "Zhuang", "Zhuang", ['z', 'h', 'a'], false⟩,
  ⟨0x5A484820, "Chinese, Hong Kong SAR", "Chinese", ['z', 'h', 'o'], false⟩,
  ⟨0x5A485020, "Chinese Phonetic", "ChinesePhonetic", ['z', 'h', 'o'], false⟩,
  ⟨0x5A485320, "Chinese Simplified", "ChineseSimplified", ['z', 'h', 'o'], false⟩,
  ⟨0x5A485420, "Chinese Traditional", "ChineseTraditional", ['z', 'h', 'o'], false⟩,
  ⟨0x5A4E4420, "Zande", "Zande", ['z', 'n', 'e'], false⟩,
  ⟨0x5A554C20, "Zulu", "Zulu", ['z', 'u', 'l'], false⟩,
  ⟨0x5A5A4120, "Zazaki", "Zazaki", ['z', 'z', 'a'], false⟩]

end OpenType
