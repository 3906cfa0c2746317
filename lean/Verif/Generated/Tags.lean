import Verif.Proof.Variants
/-!
# Generated by `tools/translate.py` from the source: do not edit

The macro `implement!` of each file is expanded, and each `match` of the methods is listed arm by arm. The theorems say
that the model written by hand, and its tables, are the same.
-/

set_option maxRecDepth 100000

namespace OpenType.Generated

namespace feature

/-- `src/layout/feature.rs:112-354`. -/
def Feature.variants : List (Bool × String) := [
  (false, "AccessAllAlternates"),
  (false, "AboveBaseForms"),
  (false, "AboveBaseMarkPositioning"),
  (false, "AboveBaseSubstitutions"),
  (false, "AlternativeFractions"),
  (false, "Akhand"),
  (false, "BelowBaseForms"),
  (false, "BelowBaseMarkPositioning"),
  (false, "BelowBaseSubstitutions"),
  (false, "ContextualAlternates"),
  (false, "CaseSensitiveForms"),
  (false, "GlyphCompositionDecomposition"),
  (false, "ConjunctFormAfterRo"),
  (false, "ContextualHalfWidthSpacing"),
  (false, "ConjunctForms"),
  (false, "ContextualLigatures"),
  (false, "CenteredCJKPunctuation"),
  (false, "CapitalSpacing"),
  (false, "ContextualSwash"),
  (false, "CursivePositioning"),
  (false, "CharacterVariants1"),
  (false, "CharacterVariants2"),
  (false, "CharacterVariants3"),
  (false, "CharacterVariants4"),
  (false, "CharacterVariants5"),
  (false, "CharacterVariants6"),
  (false, "CharacterVariants7"),
  (false, "CharacterVariants8"),
  (false, "CharacterVariants9"),
  (false, "CharacterVariants10"),
  (false, "CharacterVariants11"),
  (false, "CharacterVariants12"),
  (false, "CharacterVariants13"),
  (false, "CharacterVariants14"),
  (false, "CharacterVariants15"),
  (false, "CharacterVariants16"),
  (false, "CharacterVariants17"),
  (false, "CharacterVariants18"),
  (false, "CharacterVariants19"),
  (false, "CharacterVariants20"),
  (false, "CharacterVariants21"),
  (false, "CharacterVariants22"),
  (false, "CharacterVariants23"),
  (false, "CharacterVariants24"),
  (false, "CharacterVariants25"),
  (false, "CharacterVariants26"),
  (false, "CharacterVariants27"),
  (false, "CharacterVariants28"),
  (false, "CharacterVariants29"),
  (false, "CharacterVariants30"),
  (false, "CharacterVariants31"),
  (false, "CharacterVariants32"),
  (false, "CharacterVariants33"),
  (false, "CharacterVariants34"),
  (false, "CharacterVariants35"),
  (false, "CharacterVariants36"),
  (false, "CharacterVariants37"),
  (false, "CharacterVariants38"),
  (false, "CharacterVariants39"),
  (false, "CharacterVariants40"),
  (false, "CharacterVariants41"),
  (false, "CharacterVariants42"),
  (false, "CharacterVariants43"),
  (false, "CharacterVariants44"),
  (false, "CharacterVariants45"),
  (false, "CharacterVariants46"),
  (false, "CharacterVariants47"),
  (false, "CharacterVariants48"),
  (false, "CharacterVariants49"),
  (false, "CharacterVariants50"),
  (false, "CharacterVariants51"),
  (false, "CharacterVariants52"),
  (false, "CharacterVariants53"),
  (false, "CharacterVariants54"),
  (false, "CharacterVariants55"),
  (false, "CharacterVariants56"),
  (false, "CharacterVariants57"),
  (false, "CharacterVariants58"),
  (false, "CharacterVariants59"),
  (false, "CharacterVariants60"),
  (false, "CharacterVariants61"),
  (false, "CharacterVariants62"),
  (false, "CharacterVariants63"),
  (false, "CharacterVariants64"),
  (false, "CharacterVariants65"),
  (false, "CharacterVariants66"),
  (false, "CharacterVariants67"),
  (false, "CharacterVariants68"),
  (false, "CharacterVariants69"),
  (false, "CharacterVariants70"),
  (false, "CharacterVariants71"),
  (false, "CharacterVariants72"),
  (false, "CharacterVariants73"),
  (false, "CharacterVariants74"),
  (false, "CharacterVariants75"),
  (false, "CharacterVariants76"),
  (false, "CharacterVariants77"),
  (false, "CharacterVariants78"),
  (false, "CharacterVariants79"),
  (false, "CharacterVariants80"),
  (false, "CharacterVariants81"),
  (false, "CharacterVariants82"),
  (false, "CharacterVariants83"),
  (false, "CharacterVariants84"),
  (false, "CharacterVariants85"),
  (false, "CharacterVariants86"),
  (false, "CharacterVariants87"),
  (false, "CharacterVariants88"),
  (false, "CharacterVariants89"),
  (false, "CharacterVariants90"),
  (false, "CharacterVariants91"),
  (false, "CharacterVariants92"),
  (false, "CharacterVariants93"),
  (false, "CharacterVariants94"),
  (false, "CharacterVariants95"),
  (false, "CharacterVariants96"),
  (false, "CharacterVariants97"),
  (false, "CharacterVariants98"),
  (false, "CharacterVariants99"),
  (false, "PetiteCapitalsFromCapitals"),
  (false, "SmallCapitalsFromCapitals"),
  (false, "Distances"),
  (false, "DiscretionaryLigatures"),
  (false, "Denominators"),
  (false, "DotlessForms"),
  (false, "ExpertForms"),
  (false, "FinalGlyphonLineAlternates"),
  (false, "TerminalForms2"),
  (false, "TerminalForms3"),
  (false, "TerminalForms1"),
  (false, "FlattenedAccentForms"),
  (false, "Fractions"),
  (false, "FullWidths"),
  (false, "HalfForms"),
  (false, "HalantForms"),
  (false, "AlternateHalfWidths"),
  (false, "HistoricalForms"),
  (false, "HorizontalKanaAlternates"),
  (false, "HistoricalLigatures"),
  (false, "Hangul"),
  (false, "HojoKanjiForms"),
  (false, "HalfWidths"),
  (false, "InitialForms"),
  (false, "IsolatedForms"),
  (false, "Italics"),
  (false, "JustificationAlternates"),
  (false, "JIS78Forms"),
  (false, "JIS83Forms"),
  (false, "JIS90Forms"),
  (false, "JIS2004Forms"),
  (false, "Kerning"),
  (false, "LeftBounds"),
  (false, "StandardLigatures"),
  (false, "LeadingJamoForms"),
  (false, "LiningFigures"),
  (false, "LocalizedForms"),
  (false, "LeftToRightAlternates"),
  (false, "LeftToRightMirroredForms"),
  (false, "MarkPositioning"),
  (false, "MedialForms2"),
  (false, "MedialForms1"),
  (false, "MathematicalGreek"),
  (false, "MarkToMarkPositioning"),
  (false, "MarkPositioningViaSubstitution"),
  (false, "AlternateAnnotationForms"),
  (false, "NLCKanjiForms"),
  (false, "NuktaForms"),
  (false, "Numerators"),
  (false, "OldstyleFigures"),
  (false, "OpticalBounds"),
  (false, "Ordinals"),
  (false, "Ornaments"),
  (false, "ProportionalAlternateWidths"),
  (false, "PetiteCapitals"),
  (false, "ProportionalKana"),
  (false, "ProportionalFigures"),
  (false, "PreBaseForms"),
  (false, "PreBaseSubstitutions"),
  (false, "PostBaseForms"),
  (false, "PostBaseSubstitutions"),
  (false, "ProportionalWidths"),
  (false, "QuarterWidths"),
  (false, "Randomize"),
  (false, "RequiredContextualAlternates"),
  (false, "RakarForms"),
  (false, "RequiredLigatures"),
  (false, "RephForms"),
  (false, "RightBounds"),
  (false, "RightToLeftAlternates"),
  (false, "RightToLeftMirroredForms"),
  (false, "RubyNotationForms"),
  (false, "RequiredVariationAlternates"),
  (false, "StylisticAlternates"),
  (false, "ScientificInferiors"),
  (false, "OpticalSize"),
  (false, "SmallCapitals"),
  (false, "SimplifiedForms"),
  (false, "StylisticSet1"),
  (false, "StylisticSet2"),
  (false, "StylisticSet3"),
  (false, "StylisticSet4"),
  (false, "StylisticSet5"),
  (false, "StylisticSet6"),
  (false, "StylisticSet7"),
  (false, "StylisticSet8"),
  (false, "StylisticSet9"),
  (false, "StylisticSet10"),
  (false, "StylisticSet11"),
  (false, "StylisticSet12"),
  (false, "StylisticSet13"),
  (false, "StylisticSet14"),
  (false, "StylisticSet15"),
  (false, "StylisticSet16"),
  (false, "StylisticSet17"),
  (false, "StylisticSet18"),
  (false, "StylisticSet19"),
  (false, "StylisticSet20"),
  (false, "MathScriptStyleAlternates"),
  (false, "StretchingGlyphDecomposition"),
  (false, "Subscript"),
  (false, "Superscript"),
  (false, "Swash"),
  (false, "Titling"),
  (false, "TrailingJamoForms"),
  (false, "TraditionalNameForms"),
  (false, "TabularFigures"),
  (false, "TraditionalForms"),
  (false, "ThirdWidths"),
  (false, "Unicase"),
  (false, "AlternateVerticalMetrics"),
  (false, "VattuVariants"),
  (false, "VerticalContextualHalfWidthSpacing"),
  (false, "VerticalWriting"),
  (false, "AlternateVerticalHalfMetrics"),
  (false, "VowelJamoForms"),
  (false, "VerticalKanaAlternates"),
  (false, "VerticalKerning"),
  (false, "ProportionalAlternateVerticalMetrics"),
  (false, "VerticalAlternatesAndRotation"),
  (false, "VerticalAlternatesForRotation"),
  (false, "SlashedZero")]

/-- The model of `src/layout/feature.rs:112-354` is its translation. -/
theorem Feature.variants_eq : Feature.variants = OpenType.feature.rows.map fun row => (false, row.variant) := rfl

/-- No two variants have the same name. -/
theorem Feature.apart : apart (OpenType.feature.rows.map fun row => number row.variant) = true := by decide +kernel

/-- `src/layout/feature.rs:112-354`. -/
def Feature.tag_arms : List (Arm Tag String) := [
  (false, 0x61616C74, "AccessAllAlternates"),
  (false, 0x61627666, "AboveBaseForms"),
  (false, 0x6162766D, "AboveBaseMarkPositioning"),
  (false, 0x61627673, "AboveBaseSubstitutions"),
  (false, 0x61667263, "AlternativeFractions"),
  (false, 0x616B686E, "Akhand"),
  (false, 0x626C7766, "BelowBaseForms"),
  (false, 0x626C776D, "BelowBaseMarkPositioning"),
  (false, 0x626C7773, "BelowBaseSubstitutions"),
  (false, 0x63616C74, "ContextualAlternates"),
  (false, 0x63617365, "CaseSensitiveForms"),
  (false, 0x63636D70, "GlyphCompositionDecomposition"),
  (false, 0x63666172, "ConjunctFormAfterRo"),
  (false, 0x63687773, "ContextualHalfWidthSpacing"),
  (false, 0x636A6374, "ConjunctForms"),
  (false, 0x636C6967, "ContextualLigatures"),
  (false, 0x63706374, "CenteredCJKPunctuation"),
  (false, 0x63707370, "CapitalSpacing"),
  (false, 0x63737768, "ContextualSwash"),
  (false, 0x63757273, "CursivePositioning"),
  (false, 0x63763031, "CharacterVariants1"),
  (false, 0x63763032, "CharacterVariants2"),
  (false, 0x63763033, "CharacterVariants3"),
  (false, 0x63763034, "CharacterVariants4"),
  (false, 0x63763035, "CharacterVariants5"),
  (false, 0x63763036, "CharacterVariants6"),
  (false, 0x63763037, "CharacterVariants7"),
  (false, 0x63763038, "CharacterVariants8"),
  (false, 0x63763039, "CharacterVariants9"),
  (false, 0x63763130, "CharacterVariants10"),
  (false, 0x63763131, "CharacterVariants11"),
  (false, 0x63763132, "CharacterVariants12"),
  (false, 0x63763133, "CharacterVariants13"),
  (false, 0x63763134, "CharacterVariants14"),
  (false, 0x63763135, "CharacterVariants15"),
  (false, 0x63763136, "CharacterVariants16"),
  (false, 0x63763137, "CharacterVariants17"),
  (false, 0x63763138, "CharacterVariants18"),
  (false, 0x63763139, "CharacterVariants19"),
  (false, 0x63763230, "CharacterVariants20"),
  (false, 0x63763231, "CharacterVariants21"),
  (false, 0x63763232, "CharacterVariants22"),
  (false, 0x63763233, "CharacterVariants23"),
  (false, 0x63763234, "CharacterVariants24"),
  (false, 0x63763235, "CharacterVariants25"),
  (false, 0x63763236, "CharacterVariants26"),
  (false, 0x63763237, "CharacterVariants27"),
  (false, 0x63763238, "CharacterVariants28"),
  (false, 0x63763239, "CharacterVariants29"),
  (false, 0x63763330, "CharacterVariants30"),
  (false, 0x63763331, "CharacterVariants31"),
  (false, 0x63763332, "CharacterVariants32"),
  (false, 0x63763333, "CharacterVariants33"),
  (false, 0x63763334, "CharacterVariants34"),
  (false, 0x63763335, "CharacterVariants35"),
  (false, 0x63763336, "CharacterVariants36"),
  (false, 0x63763337, "CharacterVariants37"),
  (false, 0x63763338, "CharacterVariants38"),
  (false, 0x63763339, "CharacterVariants39"),
  (false, 0x63763430, "CharacterVariants40"),
  (false, 0x63763431, "CharacterVariants41"),
  (false, 0x63763432, "CharacterVariants42"),
  (false, 0x63763433, "CharacterVariants43"),
  (false, 0x63763434, "CharacterVariants44"),
  (false, 0x63763435, "CharacterVariants45"),
  (false, 0x63763436, "CharacterVariants46"),
  (false, 0x63763437, "CharacterVariants47"),
  (false, 0x63763438, "CharacterVariants48"),
  (false, 0x63763439, "CharacterVariants49"),
  (false, 0x63763530, "CharacterVariants50"),
  (false, 0x63763531, "CharacterVariants51"),
  (false, 0x63763532, "CharacterVariants52"),
  (false, 0x63763533, "CharacterVariants53"),
  (false, 0x63763534, "CharacterVariants54"),
  (false, 0x63763535, "CharacterVariants55"),
  (false, 0x63763536, "CharacterVariants56"),
  (false, 0x63763537, "CharacterVariants57"),
  (false, 0x63763538, "CharacterVariants58"),
  (false, 0x63763539, "CharacterVariants59"),
  (false, 0x63763630, "CharacterVariants60"),
  (false, 0x63763631, "CharacterVariants61"),
  (false, 0x63763632, "CharacterVariants62"),
  (false, 0x63763633, "CharacterVariants63"),
  (false, 0x63763634, "CharacterVariants64"),
  (false, 0x63763635, "CharacterVariants65"),
  (false, 0x63763636, "CharacterVariants66"),
  (false, 0x63763637, "CharacterVariants67"),
  (false, 0x63763638, "CharacterVariants68"),
  (false, 0x63763639, "CharacterVariants69"),
  (false, 0x63763730, "CharacterVariants70"),
  (false, 0x63763731, "CharacterVariants71"),
  (false, 0x63763732, "CharacterVariants72"),
  (false, 0x63763733, "CharacterVariants73"),
  (false, 0x63763734, "CharacterVariants74"),
  (false, 0x63763735, "CharacterVariants75"),
  (false, 0x63763736, "CharacterVariants76"),
  (false, 0x63763737, "CharacterVariants77"),
  (false, 0x63763738, "CharacterVariants78"),
  (false, 0x63763739, "CharacterVariants79"),
  (false, 0x63763830, "CharacterVariants80"),
  (false, 0x63763831, "CharacterVariants81"),
  (false, 0x63763832, "CharacterVariants82"),
  (false, 0x63763833, "CharacterVariants83"),
  (false, 0x63763834, "CharacterVariants84"),
  (false, 0x63763835, "CharacterVariants85"),
  (false, 0x63763836, "CharacterVariants86"),
  (false, 0x63763837, "CharacterVariants87"),
  (false, 0x63763838, "CharacterVariants88"),
  (false, 0x63763839, "CharacterVariants89"),
  (false, 0x63763930, "CharacterVariants90"),
  (false, 0x63763931, "CharacterVariants91"),
  (false, 0x63763932, "CharacterVariants92"),
  (false, 0x63763933, "CharacterVariants93"),
  (false, 0x63763934, "CharacterVariants94"),
  (false, 0x63763935, "CharacterVariants95"),
  (false, 0x63763936, "CharacterVariants96"),
  (false, 0x63763937, "CharacterVariants97"),
  (false, 0x63763938, "CharacterVariants98"),
  (false, 0x63763939, "CharacterVariants99"),
  (false, 0x63327063, "PetiteCapitalsFromCapitals"),
  (false, 0x63327363, "SmallCapitalsFromCapitals"),
  (false, 0x64697374, "Distances"),
  (false, 0x646C6967, "DiscretionaryLigatures"),
  (false, 0x646E6F6D, "Denominators"),
  (false, 0x64746C73, "DotlessForms"),
  (false, 0x65787074, "ExpertForms"),
  (false, 0x66616C74, "FinalGlyphonLineAlternates"),
  (false, 0x66696E32, "TerminalForms2"),
  (false, 0x66696E33, "TerminalForms3"),
  (false, 0x66696E61, "TerminalForms1"),
  (false, 0x666C6163, "FlattenedAccentForms"),
  (false, 0x66726163, "Fractions"),
  (false, 0x66776964, "FullWidths"),
  (false, 0x68616C66, "HalfForms"),
  (false, 0x68616C6E, "HalantForms"),
  (false, 0x68616C74, "AlternateHalfWidths"),
  (false, 0x68697374, "HistoricalForms"),
  (false, 0x686B6E61, "HorizontalKanaAlternates"),
  (false, 0x686C6967, "HistoricalLigatures"),
  (false, 0x686E676C, "Hangul"),
  (false, 0x686F6A6F, "HojoKanjiForms"),
  (false, 0x68776964, "HalfWidths"),
  (false, 0x696E6974, "InitialForms"),
  (false, 0x69736F6C, "IsolatedForms"),
  (false, 0x6974616C, "Italics"),
  (false, 0x6A616C74, "JustificationAlternates"),
  (false, 0x6A703738, "JIS78Forms"),
  (false, 0x6A703833, "JIS83Forms"),
  (false, 0x6A703930, "JIS90Forms"),
  (false, 0x6A703034, "JIS2004Forms"),
  (false, 0x6B65726E, "Kerning"),
  (false, 0x6C666264, "LeftBounds"),
  (false, 0x6C696761, "StandardLigatures"),
  (false, 0x6C6A6D6F, "LeadingJamoForms"),
  (false, 0x6C6E756D, "LiningFigures"),
  (false, 0x6C6F636C, "LocalizedForms"),
  (false, 0x6C747261, "LeftToRightAlternates"),
  (false, 0x6C74726D, "LeftToRightMirroredForms"),
  (false, 0x6D61726B, "MarkPositioning"),
  (false, 0x6D656432, "MedialForms2"),
  (false, 0x6D656469, "MedialForms1"),
  (false, 0x6D67726B, "MathematicalGreek"),
  (false, 0x6D6B6D6B, "MarkToMarkPositioning"),
  (false, 0x6D736574, "MarkPositioningViaSubstitution"),
  (false, 0x6E616C74, "AlternateAnnotationForms"),
  (false, 0x6E6C636B, "NLCKanjiForms"),
  (false, 0x6E756B74, "NuktaForms"),
  (false, 0x6E756D72, "Numerators"),
  (false, 0x6F6E756D, "OldstyleFigures"),
  (false, 0x6F706264, "OpticalBounds"),
  (false, 0x6F72646E, "Ordinals"),
  (false, 0x6F726E6D, "Ornaments"),
  (false, 0x70616C74, "ProportionalAlternateWidths"),
  (false, 0x70636170, "PetiteCapitals"),
  (false, 0x706B6E61, "ProportionalKana"),
  (false, 0x706E756D, "ProportionalFigures"),
  (false, 0x70726566, "PreBaseForms"),
  (false, 0x70726573, "PreBaseSubstitutions"),
  (false, 0x70737466, "PostBaseForms"),
  (false, 0x70737473, "PostBaseSubstitutions"),
  (false, 0x70776964, "ProportionalWidths"),
  (false, 0x71776964, "QuarterWidths"),
  (false, 0x72616E64, "Randomize"),
  (false, 0x72636C74, "RequiredContextualAlternates"),
  (false, 0x726B7266, "RakarForms"),
  (false, 0x726C6967, "RequiredLigatures"),
  (false, 0x72706866, "RephForms"),
  (false, 0x72746264, "RightBounds"),
  (false, 0x72746C61, "RightToLeftAlternates"),
  (false, 0x72746C6D, "RightToLeftMirroredForms"),
  (false, 0x72756279, "RubyNotationForms"),
  (false, 0x7276726E, "RequiredVariationAlternates"),
  (false, 0x73616C74, "StylisticAlternates"),
  (false, 0x73696E66, "ScientificInferiors"),
  (false, 0x73697A65, "OpticalSize"),
  (false, 0x736D6370, "SmallCapitals"),
  (false, 0x736D706C, "SimplifiedForms"),
  (false, 0x73733031, "StylisticSet1"),
  (false, 0x73733032, "StylisticSet2"),
  (false, 0x73733033, "StylisticSet3"),
  (false, 0x73733034, "StylisticSet4"),
  (false, 0x73733035, "StylisticSet5"),
  (false, 0x73733036, "StylisticSet6"),
  (false, 0x73733037, "StylisticSet7"),
  (false, 0x73733038, "StylisticSet8"),
  (false, 0x73733039, "StylisticSet9"),
  (false, 0x73733130, "StylisticSet10"),
  (false, 0x73733131, "StylisticSet11"),
  (false, 0x73733132, "StylisticSet12"),
  (false, 0x73733133, "StylisticSet13"),
  (false, 0x73733134, "StylisticSet14"),
  (false, 0x73733135, "StylisticSet15"),
  (false, 0x73733136, "StylisticSet16"),
  (false, 0x73733137, "StylisticSet17"),
  (false, 0x73733138, "StylisticSet18"),
  (false, 0x73733139, "StylisticSet19"),
  (false, 0x73733230, "StylisticSet20"),
  (false, 0x73737479, "MathScriptStyleAlternates"),
  (false, 0x73746368, "StretchingGlyphDecomposition"),
  (false, 0x73756273, "Subscript"),
  (false, 0x73757073, "Superscript"),
  (false, 0x73777368, "Swash"),
  (false, 0x7469746C, "Titling"),
  (false, 0x746A6D6F, "TrailingJamoForms"),
  (false, 0x746E616D, "TraditionalNameForms"),
  (false, 0x746E756D, "TabularFigures"),
  (false, 0x74726164, "TraditionalForms"),
  (false, 0x74776964, "ThirdWidths"),
  (false, 0x756E6963, "Unicase"),
  (false, 0x76616C74, "AlternateVerticalMetrics"),
  (false, 0x76617475, "VattuVariants"),
  (false, 0x76636877, "VerticalContextualHalfWidthSpacing"),
  (false, 0x76657274, "VerticalWriting"),
  (false, 0x7668616C, "AlternateVerticalHalfMetrics"),
  (false, 0x766A6D6F, "VowelJamoForms"),
  (false, 0x766B6E61, "VerticalKanaAlternates"),
  (false, 0x766B726E, "VerticalKerning"),
  (false, 0x7670616C, "ProportionalAlternateVerticalMetrics"),
  (false, 0x76727432, "VerticalAlternatesAndRotation"),
  (false, 0x76727472, "VerticalAlternatesForRotation"),
  (false, 0x7A65726F, "SlashedZero")]

/-- The model of `src/layout/feature.rs:112-354` is its translation. -/
theorem Feature.tag_arms_eq : Feature.tag_arms = OpenType.feature.rows.map fun row => (false, row.tag, row.variant) := rfl

/-- `src/layout/feature.rs:112-354`. -/
def Feature.name_arms : List (Arm String String) := [
  (false, "AccessAllAlternates", "Access All Alternates"),
  (false, "AboveBaseForms", "Above-base Forms"),
  (false, "AboveBaseMarkPositioning", "Above-base Mark Positioning"),
  (false, "AboveBaseSubstitutions", "Above-base Substitutions"),
  (false, "AlternativeFractions", "Alternative Fractions"),
  (false, "Akhand", "Akhand"),
  (false, "BelowBaseForms", "Below-base Forms"),
  (false, "BelowBaseMarkPositioning", "Below-base Mark Positioning"),
  (false, "BelowBaseSubstitutions", "Below-base Substitutions"),
  (false, "ContextualAlternates", "Contextual Alternates"),
  (false, "CaseSensitiveForms", "Case-sensitive Forms"),
  (false, "GlyphCompositionDecomposition", "Glyph Composition and Decomposition"),
  (false, "ConjunctFormAfterRo", "Conjunct Form After Ro"),
  (false, "ContextualHalfWidthSpacing", "Contextual Half-width Spacing"),
  (false, "ConjunctForms", "Conjunct Forms"),
  (false, "ContextualLigatures", "Contextual Ligatures"),
  (false, "CenteredCJKPunctuation", "Centered CJK Punctuation"),
  (false, "CapitalSpacing", "Capital Spacing"),
  (false, "ContextualSwash", "Contextual Swash"),
  (false, "CursivePositioning", "Cursive Positioning"),
  (false, "CharacterVariants1", "Character Variants 1"),
  (false, "CharacterVariants2", "Character Variants 2"),
  (false, "CharacterVariants3", "Character Variants 3"),
  (false, "CharacterVariants4", "Character Variants 4"),
  (false, "CharacterVariants5", "Character Variants 5"),
  (false, "CharacterVariants6", "Character Variants 6"),
  (false, "CharacterVariants7", "Character Variants 7"),
  (false, "CharacterVariants8", "Character Variants 8"),
  (false, "CharacterVariants9", "Character Variants 9"),
  (false, "CharacterVariants10", "Character Variants 10"),
  (false, "CharacterVariants11", "Character Variants 11"),
  (false, "CharacterVariants12", "Character Variants 12"),
  (false, "CharacterVariants13", "Character Variants 13"),
  (false, "CharacterVariants14", "Character Variants 14"),
  (false, "CharacterVariants15", "Character Variants 15"),
  (false, "CharacterVariants16", "Character Variants 16"),
  (false, "CharacterVariants17", "Character Variants 17"),
  (false, "CharacterVariants18", "Character Variants 18"),
  (false, "CharacterVariants19", "Character Variants 19"),
  (false, "CharacterVariants20", "Character Variants 20"),
  (false, "CharacterVariants21", "Character Variants 21"),
  (false, "CharacterVariants22", "Character Variants 22"),
  (false, "CharacterVariants23", "Character Variants 23"),
  (false, "CharacterVariants24", "Character Variants 24"),
  (false, "CharacterVariants25", "Character Variants 25"),
  (false, "CharacterVariants26", "Character Variants 26"),
  (false, "CharacterVariants27", "Character Variants 27"),
  (false, "CharacterVariants28", "Character Variants 28"),
  (false, "CharacterVariants29", "Character Variants 29"),
  (false, "CharacterVariants30", "Character Variants 30"),
  (false, "CharacterVariants31", "Character Variants 31"),
  (false, "CharacterVariants32", "Character Variants 32"),
  (false, "CharacterVariants33", "Character Variants 33"),
  (false, "CharacterVariants34", "Character Variants 34"),
  (false, "CharacterVariants35", "Character Variants 35"),
  (false, "CharacterVariants36", "Character Variants 36"),
  (false, "CharacterVariants37", "Character Variants 37"),
  (false, "CharacterVariants38", "Character Variants 38"),
  (false, "CharacterVariants39", "Character Variants 39"),
  (false, "CharacterVariants40", "Character Variants 40"),
  (false, "CharacterVariants41", "Character Variants 41"),
  (false, "CharacterVariants42", "Character Variants 42"),
  (false, "CharacterVariants43", "Character Variants 43"),
  (false, "CharacterVariants44", "Character Variants 44"),
  (false, "CharacterVariants45", "Character Variants 45"),
  (false, "CharacterVariants46", "Character Variants 46"),
  (false, "CharacterVariants47", "Character Variants 47"),
  (false, "CharacterVariants48", "Character Variants 48"),
  (false, "CharacterVariants49", "Character Variants 49"),
  (false, "CharacterVariants50", "Character Variants 50"),
  (false, "CharacterVariants51", "Character Variants 51"),
  (false, "CharacterVariants52", "Character Variants 52"),
  (false, "CharacterVariants53", "Character Variants 53"),
  (false, "CharacterVariants54", "Character Variants 54"),
  (false, "CharacterVariants55", "Character Variants 55"),
  (false, "CharacterVariants56", "Character Variants 56"),
  (false, "CharacterVariants57", "Character Variants 57"),
  (false, "CharacterVariants58", "Character Variants 58"),
  (false, "CharacterVariants59", "Character Variants 59"),
  (false, "CharacterVariants60", "Character Variants 60"),
  (false, "CharacterVariants61", "Character Variants 61"),
  (false, "CharacterVariants62", "Character Variants 62"),
  (false, "CharacterVariants63", "Character Variants 63"),
  (false, "CharacterVariants64", "Character Variants 64"),
  (false, "CharacterVariants65", "Character Variants 65"),
  (false, "CharacterVariants66", "Character Variants 66"),
  (false, "CharacterVariants67", "Character Variants 67"),
  (false, "CharacterVariants68", "Character Variants 68"),
  (false, "CharacterVariants69", "Character Variants 69"),
  (false, "CharacterVariants70", "Character Variants 70"),
  (false, "CharacterVariants71", "Character Variants 71"),
  (false, "CharacterVariants72", "Character Variants 72"),
  (false, "CharacterVariants73", "Character Variants 73"),
  (false, "CharacterVariants74", "Character Variants 74"),
  (false, "CharacterVariants75", "Character Variants 75"),
  (false, "CharacterVariants76", "Character Variants 76"),
  (false, "CharacterVariants77", "Character Variants 77"),
  (false, "CharacterVariants78", "Character Variants 78"),
  (false, "CharacterVariants79", "Character Variants 79"),
  (false, "CharacterVariants80", "Character Variants 80"),
  (false, "CharacterVariants81", "Character Variants 81"),
  (false, "CharacterVariants82", "Character Variants 82"),
  (false, "CharacterVariants83", "Character Variants 83"),
  (false, "CharacterVariants84", "Character Variants 84"),
  (false, "CharacterVariants85", "Character Variants 85"),
  (false, "CharacterVariants86", "Character Variants 86"),
  (false, "CharacterVariants87", "Character Variants 87"),
  (false, "CharacterVariants88", "Character Variants 88"),
  (false, "CharacterVariants89", "Character Variants 89"),
  (false, "CharacterVariants90", "Character Variants 90"),
  (false, "CharacterVariants91", "Character Variants 91"),
  (false, "CharacterVariants92", "Character Variants 92"),
  (false, "CharacterVariants93", "Character Variants 93"),
  (false, "CharacterVariants94", "Character Variants 94"),
  (false, "CharacterVariants95", "Character Variants 95"),
  (false, "CharacterVariants96", "Character Variants 96"),
  (false, "CharacterVariants97", "Character Variants 97"),
  (false, "CharacterVariants98", "Character Variants 98"),
  (false, "CharacterVariants99", "Character Variants 99"),
  (false, "PetiteCapitalsFromCapitals", "Petite Capitals from Capitals"),
  (false, "SmallCapitalsFromCapitals", "Small Capitals from Capitals"),
  (false, "Distances", "Distances"),
  (false, "DiscretionaryLigatures", "Discretionary Ligatures"),
  (false, "Denominators", "Denominators"),
  (false, "DotlessForms", "Dotless Forms"),
  (false, "ExpertForms", "Expert Forms"),
  (false, "FinalGlyphonLineAlternates", "Final Glyph on Line Alternates"),
  (false, "TerminalForms2", "Terminal Forms 2"),
  (false, "TerminalForms3", "Terminal Forms 3"),
  (false, "TerminalForms1", "Terminal Forms 1"),
  (false, "FlattenedAccentForms", "Flattened Accent Forms"),
  (false, "Fractions", "Fractions"),
  (false, "FullWidths", "Full Widths"),
  (false, "HalfForms", "Half Forms"),
  (false, "HalantForms", "Halant Forms"),
  (false, "AlternateHalfWidths", "Alternate Half Widths"),
  (false, "HistoricalForms", "Historical Forms"),
  (false, "HorizontalKanaAlternates", "Horizontal Kana Alternates"),
  (false, "HistoricalLigatures", "Historical Ligatures"),
  (false, "Hangul", "Hangul"),
  (false, "HojoKanjiForms", "Hojo Kanji Forms"),
  (false, "HalfWidths", "Half Widths"),
  (false, "InitialForms", "Initial Forms"),
  (false, "IsolatedForms", "Isolated Forms"),
  (false, "Italics", "Italics"),
  (false, "JustificationAlternates", "Justification Alternates"),
  (false, "JIS78Forms", "JIS78 Forms"),
  (false, "JIS83Forms", "JIS83 Forms"),
  (false, "JIS90Forms", "JIS90 Forms"),
  (false, "JIS2004Forms", "JIS2004 Forms"),
  (false, "Kerning", "Kerning"),
  (false, "LeftBounds", "Left Bounds"),
  (false, "StandardLigatures", "Standard Ligatures"),
  (false, "LeadingJamoForms", "Leading Jamo Forms"),
  (false, "LiningFigures", "Lining Figures"),
  (false, "LocalizedForms", "Localized Forms"),
  (false, "LeftToRightAlternates", "Left-to-right Alternates"),
  (false, "LeftToRightMirroredForms", "Left-to-right Mirrored Forms"),
  (false, "MarkPositioning", "Mark Positioning"),
  (false, "MedialForms2", "Medial Forms 2"),
  (false, "MedialForms1", "Medial Forms 1"),
  (false, "MathematicalGreek", "Mathematical Greek"),
  (false, "MarkToMarkPositioning", "Mark-to-mark Positioning"),
  (false, "MarkPositioningViaSubstitution", "Mark Positioning via Substitution"),
  (false, "AlternateAnnotationForms", "Alternate Annotation Forms"),
  (false, "NLCKanjiForms", "NLC Kanji Forms"),
  (false, "NuktaForms", "Nukta Forms"),
  (false, "Numerators", "Numerators"),
  (false, "OldstyleFigures", "Oldstyle Figures"),
  (false, "OpticalBounds", "Optical Bounds"),
  (false, "Ordinals", "Ordinals"),
  (false, "Ornaments", "Ornaments"),
  (false, "ProportionalAlternateWidths", "Proportional Alternate Widths"),
  (false, "PetiteCapitals", "Petite Capitals"),
  (false, "ProportionalKana", "Proportional Kana"),
  (false, "ProportionalFigures", "Proportional Figures"),
  (false, "PreBaseForms", "Pre-base Forms"),
  (false, "PreBaseSubstitutions", "Pre-base Substitutions"),
  (false, "PostBaseForms", "Post-base Forms"),
  (false, "PostBaseSubstitutions", "Post-base Substitutions"),
  (false, "ProportionalWidths", "Proportional Widths"),
  (false, "QuarterWidths", "Quarter Widths"),
  (false, "Randomize", "Randomize"),
  (false, "RequiredContextualAlternates", "Required Contextual Alternates"),
  (false, "RakarForms", "Rakar Forms"),
  (false, "RequiredLigatures", "Required Ligatures"),
  (false, "RephForms", "Reph Forms"),
  (false, "RightBounds", "Right Bounds"),
  (false, "RightToLeftAlternates", "Right-to-left Alternates"),
  (false, "RightToLeftMirroredForms", "Right-to-left Mirrored Forms"),
  (false, "RubyNotationForms", "Ruby Notation Forms"),
  (false, "RequiredVariationAlternates", "Required Variation Alternates"),
  (false, "StylisticAlternates", "Stylistic Alternates"),
  (false, "ScientificInferiors", "Scientific Inferiors"),
  (false, "OpticalSize", "Optical Size"),
  (false, "SmallCapitals", "Small Capitals"),
  (false, "SimplifiedForms", "Simplified Forms"),
  (false, "StylisticSet1", "Stylistic Set 1"),
  (false, "StylisticSet2", "Stylistic Set 2"),
  (false, "StylisticSet3", "Stylistic Set 3"),
  (false, "StylisticSet4", "Stylistic Set 4"),
  (false, "StylisticSet5", "Stylistic Set 5"),
  (false, "StylisticSet6", "Stylistic Set 6"),
  (false, "StylisticSet7", "Stylistic Set 7"),
  (false, "StylisticSet8", "Stylistic Set 8"),
  (false, "StylisticSet9", "Stylistic Set 9"),
  (false, "StylisticSet10", "Stylistic Set 10"),
  (false, "StylisticSet11", "Stylistic Set 11"),
  (false, "StylisticSet12", "Stylistic Set 12"),
  (false, "StylisticSet13", "Stylistic Set 13"),
  (false, "StylisticSet14", "Stylistic Set 14"),
  (false, "StylisticSet15", "Stylistic Set 15"),
  (false, "StylisticSet16", "Stylistic Set 16"),
  (false, "StylisticSet17", "Stylistic Set 17"),
  (false, "StylisticSet18", "Stylistic Set 18"),
  (false, "StylisticSet19", "Stylistic Set 19"),
  (false, "StylisticSet20", "Stylistic Set 20"),
  (false, "MathScriptStyleAlternates", "Math Script Style Alternates"),
  (false, "StretchingGlyphDecomposition", "Stretching Glyph Decomposition"),
  (false, "Subscript", "Subscript"),
  (false, "Superscript", "Superscript"),
  (false, "Swash", "Swash"),
  (false, "Titling", "Titling"),
  (false, "TrailingJamoForms", "Trailing Jamo Forms"),
  (false, "TraditionalNameForms", "Traditional Name Forms"),
  (false, "TabularFigures", "Tabular Figures"),
  (false, "TraditionalForms", "Traditional Forms"),
  (false, "ThirdWidths", "Third Widths"),
  (false, "Unicase", "Unicase"),
  (false, "AlternateVerticalMetrics", "Alternate Vertical Metrics"),
  (false, "VattuVariants", "Vattu Variants"),
  (false, "VerticalContextualHalfWidthSpacing", "Vertical Contextual Half-width Spacing"),
  (false, "VerticalWriting", "Vertical Writing"),
  (false, "AlternateVerticalHalfMetrics", "Alternate Vertical Half Metrics"),
  (false, "VowelJamoForms", "Vowel Jamo Forms"),
  (false, "VerticalKanaAlternates", "Vertical Kana Alternates"),
  (false, "VerticalKerning", "Vertical Kerning"),
  (false, "ProportionalAlternateVerticalMetrics", "Proportional Alternate Vertical Metrics"),
  (false, "VerticalAlternatesAndRotation", "Vertical Alternates and Rotation"),
  (false, "VerticalAlternatesForRotation", "Vertical Alternates for Rotation"),
  (false, "SlashedZero", "Slashed Zero")]

/-- The model of `src/layout/feature.rs:112-354` is its translation. -/
theorem Feature.name_arms_eq : Feature.name_arms = OpenType.feature.rows.map fun row => (false, row.variant, row.name) := rfl

/-- `src/layout/feature.rs:112-354`. -/
def Feature.into_arms : List (Arm String Tag) := [
  (false, "AccessAllAlternates", 0x61616C74),
  (false, "AboveBaseForms", 0x61627666),
  (false, "AboveBaseMarkPositioning", 0x6162766D),
  (false, "AboveBaseSubstitutions", 0x61627673),
  (false, "AlternativeFractions", 0x61667263),
  (false, "Akhand", 0x616B686E),
  (false, "BelowBaseForms", 0x626C7766),
  (false, "BelowBaseMarkPositioning", 0x626C776D),
  (false, "BelowBaseSubstitutions", 0x626C7773),
  (false, "ContextualAlternates", 0x63616C74),
  (false, "CaseSensitiveForms", 0x63617365),
  (false, "GlyphCompositionDecomposition", 0x63636D70),
  (false, "ConjunctFormAfterRo", 0x63666172),
  (false, "ContextualHalfWidthSpacing", 0x63687773),
  (false, "ConjunctForms", 0x636A6374),
  (false, "ContextualLigatures", 0x636C6967),
  (false, "CenteredCJKPunctuation", 0x63706374),
  (false, "CapitalSpacing", 0x63707370),
  (false, "ContextualSwash", 0x63737768),
  (false, "CursivePositioning", 0x63757273),
  (false, "CharacterVariants1", 0x63763031),
  (false, "CharacterVariants2", 0x63763032),
  (false, "CharacterVariants3", 0x63763033),
  (false, "CharacterVariants4", 0x63763034),
  (false, "CharacterVariants5", 0x63763035),
  (false, "CharacterVariants6", 0x63763036),
  (false, "CharacterVariants7", 0x63763037),
  (false, "CharacterVariants8", 0x63763038),
  (false, "CharacterVariants9", 0x63763039),
  (false, "CharacterVariants10", 0x63763130),
  (false, "CharacterVariants11", 0x63763131),
  (false, "CharacterVariants12", 0x63763132),
  (false, "CharacterVariants13", 0x63763133),
  (false, "CharacterVariants14", 0x63763134),
  (false, "CharacterVariants15", 0x63763135),
  (false, "CharacterVariants16", 0x63763136),
  (false, "CharacterVariants17", 0x63763137),
  (false, "CharacterVariants18", 0x63763138),
  (false, "CharacterVariants19", 0x63763139),
  (false, "CharacterVariants20", 0x63763230),
  (false, "CharacterVariants21", 0x63763231),
  (false, "CharacterVariants22", 0x63763232),
  (false, "CharacterVariants23", 0x63763233),
  (false, "CharacterVariants24", 0x63763234),
  (false, "CharacterVariants25", 0x63763235),
  (false, "CharacterVariants26", 0x63763236),
  (false, "CharacterVariants27", 0x63763237),
  (false, "CharacterVariants28", 0x63763238),
  (false, "CharacterVariants29", 0x63763239),
  (false, "CharacterVariants30", 0x63763330),
  (false, "CharacterVariants31", 0x63763331),
  (false, "CharacterVariants32", 0x63763332),
  (false, "CharacterVariants33", 0x63763333),
  (false, "CharacterVariants34", 0x63763334),
  (false, "CharacterVariants35", 0x63763335),
  (false, "CharacterVariants36", 0x63763336),
  (false, "CharacterVariants37", 0x63763337),
  (false, "CharacterVariants38", 0x63763338),
  (false, "CharacterVariants39", 0x63763339),
  (false, "CharacterVariants40", 0x63763430),
  (false, "CharacterVariants41", 0x63763431),
  (false, "CharacterVariants42", 0x63763432),
  (false, "CharacterVariants43", 0x63763433),
  (false, "CharacterVariants44", 0x63763434),
  (false, "CharacterVariants45", 0x63763435),
  (false, "CharacterVariants46", 0x63763436),
  (false, "CharacterVariants47", 0x63763437),
  (false, "CharacterVariants48", 0x63763438),
  (false, "CharacterVariants49", 0x63763439),
  (false, "CharacterVariants50", 0x63763530),
  (false, "CharacterVariants51", 0x63763531),
  (false, "CharacterVariants52", 0x63763532),
  (false, "CharacterVariants53", 0x63763533),
  (false, "CharacterVariants54", 0x63763534),
  (false, "CharacterVariants55", 0x63763535),
  (false, "CharacterVariants56", 0x63763536),
  (false, "CharacterVariants57", 0x63763537),
  (false, "CharacterVariants58", 0x63763538),
  (false, "CharacterVariants59", 0x63763539),
  (false, "CharacterVariants60", 0x63763630),
  (false, "CharacterVariants61", 0x63763631),
  (false, "CharacterVariants62", 0x63763632),
  (false, "CharacterVariants63", 0x63763633),
  (false, "CharacterVariants64", 0x63763634),
  (false, "CharacterVariants65", 0x63763635),
  (false, "CharacterVariants66", 0x63763636),
  (false, "CharacterVariants67", 0x63763637),
  (false, "CharacterVariants68", 0x63763638),
  (false, "CharacterVariants69", 0x63763639),
  (false, "CharacterVariants70", 0x63763730),
  (false, "CharacterVariants71", 0x63763731),
  (false, "CharacterVariants72", 0x63763732),
  (false, "CharacterVariants73", 0x63763733),
  (false, "CharacterVariants74", 0x63763734),
  (false, "CharacterVariants75", 0x63763735),
  (false, "CharacterVariants76", 0x63763736),
  (false, "CharacterVariants77", 0x63763737),
  (false, "CharacterVariants78", 0x63763738),
  (false, "CharacterVariants79", 0x63763739),
  (false, "CharacterVariants80", 0x63763830),
  (false, "CharacterVariants81", 0x63763831),
  (false, "CharacterVariants82", 0x63763832),
  (false, "CharacterVariants83", 0x63763833),
  (false, "CharacterVariants84", 0x63763834),
  (false, "CharacterVariants85", 0x63763835),
  (false, "CharacterVariants86", 0x63763836),
  (false, "CharacterVariants87", 0x63763837),
  (false, "CharacterVariants88", 0x63763838),
  (false, "CharacterVariants89", 0x63763839),
  (false, "CharacterVariants90", 0x63763930),
  (false, "CharacterVariants91", 0x63763931),
  (false, "CharacterVariants92", 0x63763932),
  (false, "CharacterVariants93", 0x63763933),
  (false, "CharacterVariants94", 0x63763934),
  (false, "CharacterVariants95", 0x63763935),
  (false, "CharacterVariants96", 0x63763936),
  (false, "CharacterVariants97", 0x63763937),
  (false, "CharacterVariants98", 0x63763938),
  (false, "CharacterVariants99", 0x63763939),
  (false, "PetiteCapitalsFromCapitals", 0x63327063),
  (false, "SmallCapitalsFromCapitals", 0x63327363),
  (false, "Distances", 0x64697374),
  (false, "DiscretionaryLigatures", 0x646C6967),
  (false, "Denominators", 0x646E6F6D),
  (false, "DotlessForms", 0x64746C73),
  (false, "ExpertForms", 0x65787074),
  (false, "FinalGlyphonLineAlternates", 0x66616C74),
  (false, "TerminalForms2", 0x66696E32),
  (false, "TerminalForms3", 0x66696E33),
  (false, "TerminalForms1", 0x66696E61),
  (false, "FlattenedAccentForms", 0x666C6163),
  (false, "Fractions", 0x66726163),
  (false, "FullWidths", 0x66776964),
  (false, "HalfForms", 0x68616C66),
  (false, "HalantForms", 0x68616C6E),
  (false, "AlternateHalfWidths", 0x68616C74),
  (false, "HistoricalForms", 0x68697374),
  (false, "HorizontalKanaAlternates", 0x686B6E61),
  (false, "HistoricalLigatures", 0x686C6967),
  (false, "Hangul", 0x686E676C),
  (false, "HojoKanjiForms", 0x686F6A6F),
  (false, "HalfWidths", 0x68776964),
  (false, "InitialForms", 0x696E6974),
  (false, "IsolatedForms", 0x69736F6C),
  (false, "Italics", 0x6974616C),
  (false, "JustificationAlternates", 0x6A616C74),
  (false, "JIS78Forms", 0x6A703738),
  (false, "JIS83Forms", 0x6A703833),
  (false, "JIS90Forms", 0x6A703930),
  (false, "JIS2004Forms", 0x6A703034),
  (false, "Kerning", 0x6B65726E),
  (false, "LeftBounds", 0x6C666264),
  (false, "StandardLigatures", 0x6C696761),
  (false, "LeadingJamoForms", 0x6C6A6D6F),
  (false, "LiningFigures", 0x6C6E756D),
  (false, "LocalizedForms", 0x6C6F636C),
  (false, "LeftToRightAlternates", 0x6C747261),
  (false, "LeftToRightMirroredForms", 0x6C74726D),
  (false, "MarkPositioning", 0x6D61726B),
  (false, "MedialForms2", 0x6D656432),
  (false, "MedialForms1", 0x6D656469),
  (false, "MathematicalGreek", 0x6D67726B),
  (false, "MarkToMarkPositioning", 0x6D6B6D6B),
  (false, "MarkPositioningViaSubstitution", 0x6D736574),
  (false, "AlternateAnnotationForms", 0x6E616C74),
  (false, "NLCKanjiForms", 0x6E6C636B),
  (false, "NuktaForms", 0x6E756B74),
  (false, "Numerators", 0x6E756D72),
  (false, "OldstyleFigures", 0x6F6E756D),
  (false, "OpticalBounds", 0x6F706264),
  (false, "Ordinals", 0x6F72646E),
  (false, "Ornaments", 0x6F726E6D),
  (false, "ProportionalAlternateWidths", 0x70616C74),
  (false, "PetiteCapitals", 0x70636170),
  (false, "ProportionalKana", 0x706B6E61),
  (false, "ProportionalFigures", 0x706E756D),
  (false, "PreBaseForms", 0x70726566),
  (false, "PreBaseSubstitutions", 0x70726573),
  (false, "PostBaseForms", 0x70737466),
  (false, "PostBaseSubstitutions", 0x70737473),
  (false, "ProportionalWidths", 0x70776964),
  (false, "QuarterWidths", 0x71776964),
  (false, "Randomize", 0x72616E64),
  (false, "RequiredContextualAlternates", 0x72636C74),
  (false, "RakarForms", 0x726B7266),
  (false, "RequiredLigatures", 0x726C6967),
  (false, "RephForms", 0x72706866),
  (false, "RightBounds", 0x72746264),
  (false, "RightToLeftAlternates", 0x72746C61),
  (false, "RightToLeftMirroredForms", 0x72746C6D),
  (false, "RubyNotationForms", 0x72756279),
  (false, "RequiredVariationAlternates", 0x7276726E),
  (false, "StylisticAlternates", 0x73616C74),
  (false, "ScientificInferiors", 0x73696E66),
  (false, "OpticalSize", 0x73697A65),
  (false, "SmallCapitals", 0x736D6370),
  (false, "SimplifiedForms", 0x736D706C),
  (false, "StylisticSet1", 0x73733031),
  (false, "StylisticSet2", 0x73733032),
  (false, "StylisticSet3", 0x73733033),
  (false, "StylisticSet4", 0x73733034),
  (false, "StylisticSet5", 0x73733035),
  (false, "StylisticSet6", 0x73733036),
  (false, "StylisticSet7", 0x73733037),
  (false, "StylisticSet8", 0x73733038),
  (false, "StylisticSet9", 0x73733039),
  (false, "StylisticSet10", 0x73733130),
  (false, "StylisticSet11", 0x73733131),
  (false, "StylisticSet12", 0x73733132),
  (false, "StylisticSet13", 0x73733133),
  (false, "StylisticSet14", 0x73733134),
  (false, "StylisticSet15", 0x73733135),
  (false, "StylisticSet16", 0x73733136),
  (false, "StylisticSet17", 0x73733137),
  (false, "StylisticSet18", 0x73733138),
  (false, "StylisticSet19", 0x73733139),
  (false, "StylisticSet20", 0x73733230),
  (false, "MathScriptStyleAlternates", 0x73737479),
  (false, "StretchingGlyphDecomposition", 0x73746368),
  (false, "Subscript", 0x73756273),
  (false, "Superscript", 0x73757073),
  (false, "Swash", 0x73777368),
  (false, "Titling", 0x7469746C),
  (false, "TrailingJamoForms", 0x746A6D6F),
  (false, "TraditionalNameForms", 0x746E616D),
  (false, "TabularFigures", 0x746E756D),
  (false, "TraditionalForms", 0x74726164),
  (false, "ThirdWidths", 0x74776964),
  (false, "Unicase", 0x756E6963),
  (false, "AlternateVerticalMetrics", 0x76616C74),
  (false, "VattuVariants", 0x76617475),
  (false, "VerticalContextualHalfWidthSpacing", 0x76636877),
  (false, "VerticalWriting", 0x76657274),
  (false, "AlternateVerticalHalfMetrics", 0x7668616C),
  (false, "VowelJamoForms", 0x766A6D6F),
  (false, "VerticalKanaAlternates", 0x766B6E61),
  (false, "VerticalKerning", 0x766B726E),
  (false, "ProportionalAlternateVerticalMetrics", 0x7670616C),
  (false, "VerticalAlternatesAndRotation", 0x76727432),
  (false, "VerticalAlternatesForRotation", 0x76727472),
  (false, "SlashedZero", 0x7A65726F)]

/-- The model of `src/layout/feature.rs:112-354` is its translation. -/
theorem Feature.into_arms_eq : Feature.into_arms = OpenType.feature.rows.map fun row => (false, row.variant, row.tag) := rfl

/-- `src/layout/feature.rs:85-90`. -/
def Feature.from_tag (tag : Tag) : Variant :=
  match firstMatch true Feature.tag_arms tag with
  | some variant => .inl variant
  | none => .inr tag

/-- The model of `src/layout/feature.rs:85-90` is its translation. -/
theorem Feature.from_tag_eq (tag : Tag) :
    Feature.from_tag tag = view (rows := OpenType.feature.rows) (fun row => row.variant) (OpenType.feature.Feature.from_tag tag) := by
  unfold Feature.from_tag
  rw [Feature.tag_arms_eq]
  exact first_eq _ _ _ _ _ _

/-- `src/layout/feature.rs:93-98`. -/
def Feature.name : Variant → Option String
  | .inl variant => firstMatch true Feature.name_arms variant
  | .inr _ => none

/-- The model of `src/layout/feature.rs:93-98` is its translation. -/
theorem Feature.name_eq (x : OpenType.feature.Feature) :
    Feature.name (view (rows := OpenType.feature.rows) (fun row => row.variant) x) = OpenType.feature.Feature.name x := by
  cases x with
  | known row =>
    show firstMatch _ _ _ = _
    rw [Feature.name_arms_eq, of_variant_eq _ _ _ _ _ Feature.apart row rfl]
    rfl
  | other tag => rfl

/-- `src/layout/feature.rs:102-107`. -/
def Feature.into : Variant → Tag
  | .inl variant => (firstMatch true Feature.into_arms variant).getD 0
  | .inr tag => tag

/-- The model of `src/layout/feature.rs:102-107` is its translation. -/
theorem Feature.into_eq (x : OpenType.feature.Feature) :
    Feature.into (view (rows := OpenType.feature.rows) (fun row => row.variant) x) = OpenType.feature.Feature.tag x := by
  cases x with
  | known row =>
    show (firstMatch _ _ _).getD 0 = _
    rw [Feature.into_arms_eq, of_variant_eq _ _ _ _ _ Feature.apart row rfl]
    rfl
  | other tag => rfl

end feature

namespace script

/-- `src/layout/script.rs:116-267`. -/
def Script.variants : List (Bool × String) := [
  (false, "Adlam"),
  (false, "Ahom"),
  (false, "AnatolianHieroglyphs"),
  (false, "Arabic"),
  (false, "Armenian"),
  (false, "Avestan"),
  (false, "Balinese"),
  (false, "Bamum"),
  (false, "BassaVah"),
  (false, "Batak"),
  (false, "Bengali"),
  (false, "BengaliV2"),
  (false, "Bhaiksuki"),
  (false, "Bopomofo"),
  (false, "Brahmi"),
  (false, "Braille"),
  (false, "Buginese"),
  (false, "Buhid"),
  (false, "ByzantineMusic"),
  (false, "CanadianSyllabics"),
  (false, "Carian"),
  (false, "CaucasianAlbanian"),
  (false, "Chakma"),
  (false, "Cham"),
  (false, "Cherokee"),
  (false, "CJKIdeographic"),
  (false, "Coptic"),
  (false, "CypriotSyllabary"),
  (false, "Cyrillic"),
  (false, "Default"),
  (false, "Deseret"),
  (false, "Devanagari"),
  (false, "DevanagariV2"),
  (false, "Duployan"),
  (false, "EgyptianHieroglyphs"),
  (false, "Elbasan"),
  (false, "Ethiopic"),
  (false, "Georgian"),
  (false, "Glagolitic"),
  (false, "Gothic"),
  (false, "Grantha"),
  (false, "Greek"),
  (false, "Gujarati"),
  (false, "GujaratiV2"),
  (false, "Gurmukhi"),
  (false, "GurmukhiV2"),
  (false, "Hangul"),
  (false, "HangulJamo"),
  (false, "Hanunoo"),
  (false, "Hatran"),
  (false, "Hebrew"),
  (false, "Hiragana"),
  (false, "ImperialAramaic"),
  (false, "InscriptionalPahlavi"),
  (false, "InscriptionalParthian"),
  (false, "Javanese"),
  (false, "Kaithi"),
  (false, "Kannada"),
  (false, "KannadaV2"),
  (false, "Katakana"),
  (false, "KayahLi"),
  (false, "Kharosthi"),
  (false, "Khmer"),
  (false, "Khojki"),
  (false, "Khudawadi"),
  (false, "Lao"),
  (false, "Latin"),
  (false, "Lepcha"),
  (false, "Limbu"),
  (false, "LinearA"),
  (false, "LinearB"),
  (false, "Lisu"),
  (false, "Lycian"),
  (false, "Lydian"),
  (false, "Mahajani"),
  (false, "Malayalam"),
  (false, "MalayalamV2"),
  (false, "Mandaic"),
  (false, "Manichaean"),
  (false, "Marchen"),
  (false, "MathematicalAlphanumericSymbols"),
  (false, "MeiteiMayek"),
  (false, "MendeKikakui"),
  (false, "MeroiticCursive"),
  (false, "MeroiticHieroglyphs"),
  (false, "Miao"),
  (false, "Modi"),
  (false, "Mongolian"),
  (false, "Mro"),
  (false, "Multani"),
  (false, "MusicalSymbols"),
  (false, "Myanmar"),
  (false, "MyanmarV2"),
  (false, "Nabataean"),
  (false, "Newa"),
  (false, "NewTaiLue"),
  (false, "NKo"),
  (false, "Odia"),
  (false, "OdiaV2"),
  (false, "Ogham"),
  (false, "OlChiki"),
  (false, "OldItalic"),
  (false, "OldHungarian"),
  (false, "OldNorthArabian"),
  (false, "OldPermic"),
  (false, "OldPersianCuneiform"),
  (false, "OldSouthArabian"),
  (false, "OldTurkic"),
  (false, "Osage"),
  (false, "Osmanya"),
  (false, "PahawhHmong"),
  (false, "Palmyrene"),
  (false, "PauCinHau"),
  (false, "Phagspa"),
  (false, "Phoenician"),
  (false, "PsalterPahlavi"),
  (false, "Rejang"),
  (false, "Runic"),
  (false, "Samaritan"),
  (false, "Saurashtra"),
  (false, "Sharada"),
  (false, "Shavian"),
  (false, "Siddham"),
  (false, "SignWriting"),
  (false, "Sinhala"),
  (false, "SoraSompeng"),
  (false, "SumeroAkkadianCuneiform"),
  (false, "Sundanese"),
  (false, "SylotiNagri"),
  (false, "Syriac"),
  (false, "Tagalog"),
  (false, "Tagbanwa"),
  (false, "TaiLe"),
  (false, "TaiTham"),
  (false, "TaiViet"),
  (false, "Takri"),
  (false, "Tamil"),
  (false, "TamilV2"),
  (false, "Tangut"),
  (false, "Telugu"),
  (false, "TeluguV2"),
  (false, "Thaana"),
  (false, "Thai"),
  (false, "Tibetan"),
  (false, "Tifinagh"),
  (false, "Tirhuta"),
  (false, "UgariticCuneiform"),
  (false, "Vai"),
  (false, "WarangCiti"),
  (false, "Yi")]

/-- The model of `src/layout/script.rs:116-267` is its translation. -/
theorem Script.variants_eq : Script.variants = OpenType.script.rows.map fun row => (false, row.variant) := rfl

/-- No two variants have the same name. -/
theorem Script.apart : apart (OpenType.script.rows.map fun row => number row.variant) = true := by decide +kernel

/-- `src/layout/script.rs:116-267`. -/
def Script.tag_arms : List (Arm Tag String) := [
  (false, 0x61646C6D, "Adlam"),
  (false, 0x61686F6D, "Ahom"),
  (false, 0x686C7577, "AnatolianHieroglyphs"),
  (false, 0x61726162, "Arabic"),
  (false, 0x61726D6E, "Armenian"),
  (false, 0x61767374, "Avestan"),
  (false, 0x62616C69, "Balinese"),
  (false, 0x62616D75, "Bamum"),
  (false, 0x62617373, "BassaVah"),
  (false, 0x6261746B, "Batak"),
  (false, 0x62656E67, "Bengali"),
  (false, 0x626E6732, "BengaliV2"),
  (false, 0x62686B73, "Bhaiksuki"),
  (false, 0x626F706F, "Bopomofo"),
  (false, 0x62726168, "Brahmi"),
  (false, 0x62726169, "Braille"),
  (false, 0x62756769, "Buginese"),
  (false, 0x62756864, "Buhid"),
  (false, 0x62797A6D, "ByzantineMusic"),
  (false, 0x63616E73, "CanadianSyllabics"),
  (false, 0x63617269, "Carian"),
  (false, 0x61676862, "CaucasianAlbanian"),
  (false, 0x63616B6D, "Chakma"),
  (false, 0x6368616D, "Cham"),
  (false, 0x63686572, "Cherokee"),
  (false, 0x68616E69, "CJKIdeographic"),
  (false, 0x636F7074, "Coptic"),
  (false, 0x63707274, "CypriotSyllabary"),
  (false, 0x6379726C, "Cyrillic"),
  (false, 0x44464C54, "Default"),
  (false, 0x64737274, "Deseret"),
  (false, 0x64657661, "Devanagari"),
  (false, 0x64657632, "DevanagariV2"),
  (false, 0x6475706C, "Duployan"),
  (false, 0x65677970, "EgyptianHieroglyphs"),
  (false, 0x656C6261, "Elbasan"),
  (false, 0x65746869, "Ethiopic"),
  (false, 0x67656F72, "Georgian"),
  (false, 0x676C6167, "Glagolitic"),
  (false, 0x676F7468, "Gothic"),
  (false, 0x6772616E, "Grantha"),
  (false, 0x6772656B, "Greek"),
  (false, 0x67756A72, "Gujarati"),
  (false, 0x676A7232, "GujaratiV2"),
  (false, 0x67757275, "Gurmukhi"),
  (false, 0x67757232, "GurmukhiV2"),
  (false, 0x68616E67, "Hangul"),
  (false, 0x6A616D6F, "HangulJamo"),
  (false, 0x68616E6F, "Hanunoo"),
  (false, 0x68617472, "Hatran"),
  (false, 0x68656272, "Hebrew"),
  (false, 0x6B616E61, "Hiragana"),
  (false, 0x61726D69, "ImperialAramaic"),
  (false, 0x70686C69, "InscriptionalPahlavi"),
  (false, 0x70727469, "InscriptionalParthian"),
  (false, 0x6A617661, "Javanese"),
  (false, 0x6B746869, "Kaithi"),
  (false, 0x6B6E6461, "Kannada"),
  (false, 0x6B6E6432, "KannadaV2"),
  (false, 0x6B616E61, "Katakana"),
  (false, 0x6B616C69, "KayahLi"),
  (false, 0x6B686172, "Kharosthi"),
  (false, 0x6B686D72, "Khmer"),
  (false, 0x6B686F6A, "Khojki"),
  (false, 0x73696E64, "Khudawadi"),
  (false, 0x6C616F20, "Lao"),
  (false, 0x6C61746E, "Latin"),
  (false, 0x6C657063, "Lepcha"),
  (false, 0x6C696D62, "Limbu"),
  (false, 0x6C696E61, "LinearA"),
  (false, 0x6C696E62, "LinearB"),
  (false, 0x6C697375, "Lisu"),
  (false, 0x6C796369, "Lycian"),
  (false, 0x6C796469, "Lydian"),
  (false, 0x6D61686A, "Mahajani"),
  (false, 0x6D6C796D, "Malayalam"),
  (false, 0x6D6C6D32, "MalayalamV2"),
  (false, 0x6D616E64, "Mandaic"),
  (false, 0x6D616E69, "Manichaean"),
  (false, 0x6D617263, "Marchen"),
  (false, 0x6D617468, "MathematicalAlphanumericSymbols"),
  (false, 0x6D746569, "MeiteiMayek"),
  (false, 0x6D656E64, "MendeKikakui"),
  (false, 0x6D657263, "MeroiticCursive"),
  (false, 0x6D65726F, "MeroiticHieroglyphs"),
  (false, 0x706C7264, "Miao"),
  (false, 0x6D6F6469, "Modi"),
  (false, 0x6D6F6E67, "Mongolian"),
  (false, 0x6D726F6F, "Mro"),
  (false, 0x6D756C74, "Multani"),
  (false, 0x6D757363, "MusicalSymbols"),
  (false, 0x6D796D72, "Myanmar"),
  (false, 0x6D796D32, "MyanmarV2"),
  (false, 0x6E626174, "Nabataean"),
  (false, 0x6E657761, "Newa"),
  (false, 0x74616C75, "NewTaiLue"),
  (false, 0x6E6B6F20, "NKo"),
  (false, 0x6F727961, "Odia"),
  (false, 0x6F727932, "OdiaV2"),
  (false, 0x6F67616D, "Ogham"),
  (false, 0x6F6C636B, "OlChiki"),
  (false, 0x6974616C, "OldItalic"),
  (false, 0x68756E67, "OldHungarian"),
  (false, 0x6E617262, "OldNorthArabian"),
  (false, 0x7065726D, "OldPermic"),
  (false, 0x7870656F, "OldPersianCuneiform"),
  (false, 0x73617262, "OldSouthArabian"),
  (false, 0x6F726B68, "OldTurkic"),
  (false, 0x6F736765, "Osage"),
  (false, 0x6F736D61, "Osmanya"),
  (false, 0x686D6E67, "PahawhHmong"),
  (false, 0x70616C6D, "Palmyrene"),
  (false, 0x70617563, "PauCinHau"),
  (false, 0x70686167, "Phagspa"),
  (false, 0x70686E78, "Phoenician"),
  (false, 0x70686C70, "PsalterPahlavi"),
  (false, 0x726A6E67, "Rejang"),
  (false, 0x72756E72, "Runic"),
  (false, 0x73616D72, "Samaritan"),
  (false, 0x73617572, "Saurashtra"),
  (false, 0x73687264, "Sharada"),
  (false, 0x73686177, "Shavian"),
  (false, 0x73696464, "Siddham"),
  (false, 0x73676E77, "SignWriting"),
  (false, 0x73696E68, "Sinhala"),
  (false, 0x736F7261, "SoraSompeng"),
  (false, 0x78737578, "SumeroAkkadianCuneiform"),
  (false, 0x73756E64, "Sundanese"),
  (false, 0x73796C6F, "SylotiNagri"),
  (false, 0x73797263, "Syriac"),
  (false, 0x74676C67, "Tagalog"),
  (false, 0x74616762, "Tagbanwa"),
  (false, 0x74616C65, "TaiLe"),
  (false, 0x6C616E61, "TaiTham"),
  (false, 0x74617674, "TaiViet"),
  (false, 0x74616B72, "Takri"),
  (false, 0x74616D6C, "Tamil"),
  (false, 0x746D6C32, "TamilV2"),
  (false, 0x74616E67, "Tangut"),
  (false, 0x74656C75, "Telugu"),
  (false, 0x74656C32, "TeluguV2"),
  (false, 0x74686161, "Thaana"),
  (false, 0x74686169, "Thai"),
  (false, 0x74696274, "Tibetan"),
  (false, 0x74666E67, "Tifinagh"),
  (false, 0x74697268, "Tirhuta"),
  (false, 0x75676172, "UgariticCuneiform"),
  (false, 0x76616920, "Vai"),
  (false, 0x77617261, "WarangCiti"),
  (false, 0x79692020, "Yi")]

/-- The model of `src/layout/script.rs:116-267` is its translation. -/
theorem Script.tag_arms_eq : Script.tag_arms = OpenType.script.rows.map fun row => (false, row.tag, row.variant) := rfl

/-- `src/layout/script.rs:116-267`. -/
def Script.name_arms : List (Arm String String) := [
  (false, "Adlam", "Adlam"),
  (false, "Ahom", "Ahom"),
  (false, "AnatolianHieroglyphs", "Anatolian Hieroglyphs"),
  (false, "Arabic", "Arabic"),
  (false, "Armenian", "Armenian"),
  (false, "Avestan", "Avestan"),
  (false, "Balinese", "Balinese"),
  (false, "Bamum", "Bamum"),
  (false, "BassaVah", "Bassa Vah"),
  (false, "Batak", "Batak"),
  (false, "Bengali", "Bengali"),
  (false, "BengaliV2", "Bengali"),
  (false, "Bhaiksuki", "Bhaiksuki"),
  (false, "Bopomofo", "Bopomofo"),
  (false, "Brahmi", "Brahmi"),
  (false, "Braille", "Braille"),
  (false, "Buginese", "Buginese"),
  (false, "Buhid", "Buhid"),
  (false, "ByzantineMusic", "Byzantine Music"),
  (false, "CanadianSyllabics", "Canadian Syllabics"),
  (false, "Carian", "Carian"),
  (false, "CaucasianAlbanian", "Caucasian Albanian"),
  (false, "Chakma", "Chakma"),
  (false, "Cham", "Cham"),
  (false, "Cherokee", "Cherokee"),
  (false, "CJKIdeographic", "CJK Ideographic"),
  (false, "Coptic", "Coptic"),
  (false, "CypriotSyllabary", "Cypriot Syllabary"),
  (false, "Cyrillic", "Cyrillic"),
  (false, "Default", "Default"),
  (false, "Deseret", "Deseret"),
  (false, "Devanagari", "Devanagari"),
  (false, "DevanagariV2", "Devanagari"),
  (false, "Duployan", "Duployan"),
  (false, "EgyptianHieroglyphs", "Egyptian Hieroglyphs"),
  (false, "Elbasan", "Elbasan"),
  (false, "Ethiopic", "Ethiopic"),
  (false, "Georgian", "Georgian"),
  (false, "Glagolitic", "Glagolitic"),
  (false, "Gothic", "Gothic"),
  (false, "Grantha", "Grantha"),
  (false, "Greek", "Greek"),
  (false, "Gujarati", "Gujarati"),
  (false, "GujaratiV2", "Gujarati"),
  (false, "Gurmukhi", "Gurmukhi"),
  (false, "GurmukhiV2", "Gurmukhi"),
  (false, "Hangul", "Hangul"),
  (false, "HangulJamo", "Hangul Jamo"),
  (false, "Hanunoo", "Hanunoo"),
  (false, "Hatran", "Hatran"),
  (false, "Hebrew", "Hebrew"),
  (false, "Hiragana", "Hiragana"),
  (false, "ImperialAramaic", "Imperial Aramaic"),
  (false, "InscriptionalPahlavi", "Inscriptional Pahlavi"),
  (false, "InscriptionalParthian", "Inscriptional Parthian"),
  (false, "Javanese", "Javanese"),
  (false, "Kaithi", "Kaithi"),
  (false, "Kannada", "Kannada"),
  (false, "KannadaV2", "Kannada"),
  (false, "Katakana", "Katakana"),
  (false, "KayahLi", "Kayah Li"),
  (false, "Kharosthi", "Kharosthi"),
  (false, "Khmer", "Khmer"),
  (false, "Khojki", "Khojki"),
  (false, "Khudawadi", "Khudawadi"),
  (false, "Lao", "Lao"),
  (false, "Latin", "Latin"),
  (false, "Lepcha", "Lepcha"),
  (false, "Limbu", "Limbu"),
  (false, "LinearA", "Linear A"),
  (false, "LinearB", "Linear B"),
  (false, "Lisu", "Lisu (Fraser)"),
  (false, "Lycian", "Lycian"),
  (false, "Lydian", "Lydian"),
  (false, "Mahajani", "Mahajani"),
  (false, "Malayalam", "Malayalam"),
  (false, "MalayalamV2", "Malayalam"),
  (false, "Mandaic", "Mandaic, Mandaean"),
  (false, "Manichaean", "Manichaean"),
  (false, "Marchen", "Marchen"),
  (false, "MathematicalAlphanumericSymbols", "Mathematical Alphanumeric Symbols"),
  (false, "MeiteiMayek", "Meitei Mayek (Meithei, Meetei)"),
  (false, "MendeKikakui", "Mende Kikakui"),
  (false, "MeroiticCursive", "Meroitic Cursive"),
  (false, "MeroiticHieroglyphs", "Meroitic Hieroglyphs"),
  (false, "Miao", "Miao"),
  (false, "Modi", "Modi"),
  (false, "Mongolian", "Mongolian"),
  (false, "Mro", "Mro"),
  (false, "Multani", "Multani"),
  (false, "MusicalSymbols", "Musical Symbols"),
  (false, "Myanmar", "Myanmar"),
  (false, "MyanmarV2", "Myanmar"),
  (false, "Nabataean", "Nabataean"),
  (false, "Newa", "Newa"),
  (false, "NewTaiLue", "New Tai Lue"),
  (false, "NKo", "N’Ko"),
  (false, "Odia", "Odia"),
  (false, "OdiaV2", "Odia"),
  (false, "Ogham", "Ogham"),
  (false, "OlChiki", "Ol Chiki"),
  (false, "OldItalic", "Old Italic"),
  (false, "OldHungarian", "Old Hungarian"),
  (false, "OldNorthArabian", "Old North Arabian"),
  (false, "OldPermic", "Old Permic"),
  (false, "OldPersianCuneiform", "Old Persian Cuneiform"),
  (false, "OldSouthArabian", "Old South Arabian"),
  (false, "OldTurkic", "Old Turkic, Orkhon Runic"),
  (false, "Osage", "Osage"),
  (false, "Osmanya", "Osmanya"),
  (false, "PahawhHmong", "Pahawh Hmong"),
  (false, "Palmyrene", "Palmyrene"),
  (false, "PauCinHau", "Pau Cin Hau"),
  (false, "Phagspa", "Phags-pa"),
  (false, "Phoenician", "Phoenician"),
  (false, "PsalterPahlavi", "Psalter Pahlavi"),
  (false, "Rejang", "Rejang"),
  (false, "Runic", "Runic"),
  (false, "Samaritan", "Samaritan"),
  (false, "Saurashtra", "Saurashtra"),
  (false, "Sharada", "Sharada"),
  (false, "Shavian", "Shavian"),
  (false, "Siddham", "Siddham"),
  (false, "SignWriting", "Sign Writing"),
  (false, "Sinhala", "Sinhala"),
  (false, "SoraSompeng", "Sora Sompeng"),
  (false, "SumeroAkkadianCuneiform", "Sumero-Akkadian Cuneiform"),
  (false, "Sundanese", "Sundanese"),
  (false, "SylotiNagri", "Syloti Nagri"),
  (false, "Syriac", "Syriac"),
  (false, "Tagalog", "Tagalog"),
  (false, "Tagbanwa", "Tagbanwa"),
  (false, "TaiLe", "Tai Le"),
  (false, "TaiTham", "Tai Tham (Lanna)"),
  (false, "TaiViet", "Tai Viet"),
  (false, "Takri", "Takri"),
  (false, "Tamil", "Tamil"),
  (false, "TamilV2", "Tamil"),
  (false, "Tangut", "Tangut"),
  (false, "Telugu", "Telugu"),
  (false, "TeluguV2", "Telugu"),
  (false, "Thaana", "Thaana"),
  (false, "Thai", "Thai"),
  (false, "Tibetan", "Tibetan"),
  (false, "Tifinagh", "Tifinagh"),
  (false, "Tirhuta", "Tirhuta"),
  (false, "UgariticCuneiform", "Ugaritic Cuneiform"),
  (false, "Vai", "Vai"),
  (false, "WarangCiti", "Warang Citi"),
  (false, "Yi", "Yi")]

/-- The model of `src/layout/script.rs:116-267` is its translation. -/
theorem Script.name_arms_eq : Script.name_arms = OpenType.script.rows.map fun row => (false, row.variant, row.name) := rfl

/-- `src/layout/script.rs:116-267`. -/
def Script.into_arms : List (Arm String Tag) := [
  (false, "Adlam", 0x61646C6D),
  (false, "Ahom", 0x61686F6D),
  (false, "AnatolianHieroglyphs", 0x686C7577),
  (false, "Arabic", 0x61726162),
  (false, "Armenian", 0x61726D6E),
  (false, "Avestan", 0x61767374),
  (false, "Balinese", 0x62616C69),
  (false, "Bamum", 0x62616D75),
  (false, "BassaVah", 0x62617373),
  (false, "Batak", 0x6261746B),
  (false, "Bengali", 0x62656E67),
  (false, "BengaliV2", 0x626E6732),
  (false, "Bhaiksuki", 0x62686B73),
  (false, "Bopomofo", 0x626F706F),
  (false, "Brahmi", 0x62726168),
  (false, "Braille", 0x62726169),
  (false, "Buginese", 0x62756769),
  (false, "Buhid", 0x62756864),
  (false, "ByzantineMusic", 0x62797A6D),
  (false, "CanadianSyllabics", 0x63616E73),
  (false, "Carian", 0x63617269),
  (false, "CaucasianAlbanian", 0x61676862),
  (false, "Chakma", 0x63616B6D),
  (false, "Cham", 0x6368616D),
  (false, "Cherokee", 0x63686572),
  (false, "CJKIdeographic", 0x68616E69),
  (false, "Coptic", 0x636F7074),
  (false, "CypriotSyllabary", 0x63707274),
  (false, "Cyrillic", 0x6379726C),
  (false, "Default", 0x44464C54),
  (false, "Deseret", 0x64737274),
  (false, "Devanagari", 0x64657661),
  (false, "DevanagariV2", 0x64657632),
  (false, "Duployan", 0x6475706C),
  (false, "EgyptianHieroglyphs", 0x65677970),
  (false, "Elbasan", 0x656C6261),
  (false, "Ethiopic", 0x65746869),
  (false, "Georgian", 0x67656F72),
  (false, "Glagolitic", 0x676C6167),
  (false, "Gothic", 0x676F7468),
  (false, "Grantha", 0x6772616E),
  (false, "Greek", 0x6772656B),
  (false, "Gujarati", 0x67756A72),
  (false, "GujaratiV2", 0x676A7232),
  (false, "Gurmukhi", 0x67757275),
  (false, "GurmukhiV2", 0x67757232),
  (false, "Hangul", 0x68616E67),
  (false, "HangulJamo", 0x6A616D6F),
  (false, "Hanunoo", 0x68616E6F),
  (false, "Hatran", 0x68617472),
  (false, "Hebrew", 0x68656272),
  (false, "Hiragana", 0x6B616E61),
  (false, "ImperialAramaic", 0x61726D69),
  (false, "InscriptionalPahlavi", 0x70686C69),
  (false, "InscriptionalParthian", 0x70727469),
  (false, "Javanese", 0x6A617661),
  (false, "Kaithi", 0x6B746869),
  (false, "Kannada", 0x6B6E6461),
  (false, "KannadaV2", 0x6B6E6432),
  (false, "Katakana", 0x6B616E61),
  (false, "KayahLi", 0x6B616C69),
  (false, "Kharosthi", 0x6B686172),
  (false, "Khmer", 0x6B686D72),
  (false, "Khojki", 0x6B686F6A),
  (false, "Khudawadi", 0x73696E64),
  (false, "Lao", 0x6C616F20),
  (false, "Latin", 0x6C61746E),
  (false, "Lepcha", 0x6C657063),
  (false, "Limbu", 0x6C696D62),
  (false, "LinearA", 0x6C696E61),
  (false, "LinearB", 0x6C696E62),
  (false, "Lisu", 0x6C697375),
  (false, "Lycian", 0x6C796369),
  (false, "Lydian", 0x6C796469),
  (false, "Mahajani", 0x6D61686A),
  (false, "Malayalam", 0x6D6C796D),
  (false, "MalayalamV2", 0x6D6C6D32),
  (false, "Mandaic", 0x6D616E64),
  (false, "Manichaean", 0x6D616E69),
  (false, "Marchen", 0x6D617263),
  (false, "MathematicalAlphanumericSymbols", 0x6D617468),
  (false, "MeiteiMayek", 0x6D746569),
  (false, "MendeKikakui", 0x6D656E64),
  (false, "MeroiticCursive", 0x6D657263),
  (false, "MeroiticHieroglyphs", 0x6D65726F),
  (false, "Miao", 0x706C7264),
  (false, "Modi", 0x6D6F6469),
  (false, "Mongolian", 0x6D6F6E67),
  (false, "Mro", 0x6D726F6F),
  (false, "Multani", 0x6D756C74),
  (false, "MusicalSymbols", 0x6D757363),
  (false, "Myanmar", 0x6D796D72),
  (false, "MyanmarV2", 0x6D796D32),
  (false, "Nabataean", 0x6E626174),
  (false, "Newa", 0x6E657761),
  (false, "NewTaiLue", 0x74616C75),
  (false, "NKo", 0x6E6B6F20),
  (false, "Odia", 0x6F727961),
  (false, "OdiaV2", 0x6F727932),
  (false, "Ogham", 0x6F67616D),
  (false, "OlChiki", 0x6F6C636B),
  (false, "OldItalic", 0x6974616C),
  (false, "OldHungarian", 0x68756E67),
  (false, "OldNorthArabian", 0x6E617262),
  (false, "OldPermic", 0x7065726D),
  (false, "OldPersianCuneiform", 0x7870656F),
  (false, "OldSouthArabian", 0x73617262),
  (false, "OldTurkic", 0x6F726B68),
  (false, "Osage", 0x6F736765),
  (false, "Osmanya", 0x6F736D61),
  (false, "PahawhHmong", 0x686D6E67),
  (false, "Palmyrene", 0x70616C6D),
  (false, "PauCinHau", 0x70617563),
  (false, "Phagspa", 0x70686167),
  (false, "Phoenician", 0x70686E78),
  (false, "PsalterPahlavi", 0x70686C70),
  (false, "Rejang", 0x726A6E67),
  (false, "Runic", 0x72756E72),
  (false, "Samaritan", 0x73616D72),
  (false, "Saurashtra", 0x73617572),
  (false, "Sharada", 0x73687264),
  (false, "Shavian", 0x73686177),
  (false, "Siddham", 0x73696464),
  (false, "SignWriting", 0x73676E77),
  (false, "Sinhala", 0x73696E68),
  (false, "SoraSompeng", 0x736F7261),
  (false, "SumeroAkkadianCuneiform", 0x78737578),
  (false, "Sundanese", 0x73756E64),
  (false, "SylotiNagri", 0x73796C6F),
  (false, "Syriac", 0x73797263),
  (false, "Tagalog", 0x74676C67),
  (false, "Tagbanwa", 0x74616762),
  (false, "TaiLe", 0x74616C65),
  (false, "TaiTham", 0x6C616E61),
  (false, "TaiViet", 0x74617674),
  (false, "Takri", 0x74616B72),
  (false, "Tamil", 0x74616D6C),
  (false, "TamilV2", 0x746D6C32),
  (false, "Tangut", 0x74616E67),
  (false, "Telugu", 0x74656C75),
  (false, "TeluguV2", 0x74656C32),
  (false, "Thaana", 0x74686161),
  (false, "Thai", 0x74686169),
  (false, "Tibetan", 0x74696274),
  (false, "Tifinagh", 0x74666E67),
  (false, "Tirhuta", 0x74697268),
  (false, "UgariticCuneiform", 0x75676172),
  (false, "Vai", 0x76616920),
  (false, "WarangCiti", 0x77617261),
  (false, "Yi", 0x79692020)]

/-- The model of `src/layout/script.rs:116-267` is its translation. -/
theorem Script.into_arms_eq : Script.into_arms = OpenType.script.rows.map fun row => (false, row.variant, row.tag) := rfl

/-- `src/layout/script.rs:89-94`. -/
def Script.from_tag (tag : Tag) : Variant :=
  match firstMatch true Script.tag_arms tag with
  | some variant => .inl variant
  | none => .inr tag

/-- The model of `src/layout/script.rs:89-94` is its translation. -/
theorem Script.from_tag_eq (tag : Tag) :
    Script.from_tag tag = view (rows := OpenType.script.rows) (fun row => row.variant) (OpenType.script.Script.from_tag tag) := by
  unfold Script.from_tag
  rw [Script.tag_arms_eq]
  exact first_eq _ _ _ _ _ _

/-- `src/layout/script.rs:97-102`. -/
def Script.name : Variant → Option String
  | .inl variant => firstMatch true Script.name_arms variant
  | .inr _ => none

/-- The model of `src/layout/script.rs:97-102` is its translation. -/
theorem Script.name_eq (x : OpenType.script.Script) :
    Script.name (view (rows := OpenType.script.rows) (fun row => row.variant) x) = OpenType.script.Script.name x := by
  cases x with
  | known row =>
    show firstMatch _ _ _ = _
    rw [Script.name_arms_eq, of_variant_eq _ _ _ _ _ Script.apart row rfl]
    rfl
  | other tag => rfl

/-- `src/layout/script.rs:106-111`. -/
def Script.into : Variant → Tag
  | .inl variant => (firstMatch true Script.into_arms variant).getD 0
  | .inr tag => tag

/-- The model of `src/layout/script.rs:106-111` is its translation. -/
theorem Script.into_eq (x : OpenType.script.Script) :
    Script.into (view (rows := OpenType.script.rows) (fun row => row.variant) x) = OpenType.script.Script.tag x := by
  cases x with
  | known row =>
    show (firstMatch _ _ _).getD 0 = _
    rw [Script.into_arms_eq, of_variant_eq _ _ _ _ _ Script.apart row rfl]
    rfl
  | other tag => rfl

end script

namespace language

/-- `src/layout/language.rs:77-678`. -/
def Language.variants : List (Bool × String) := [
  (false, "Abaza"),
  (false, "Abkhazian"),
  (false, "Acholi"),
  (false, "Achi"),
  (false, "Adyghe"),
  (false, "Afrikaans"),
  (false, "Afar"),
  (false, "Agaw"),
  (false, "Aiton"),
  (false, "Akan"),
  (false, "Alsatian"),
  (false, "Altai"),
  (false, "Amharic"),
  (false, "AngloSaxon"),
  (false, "AmericanistPhoneticNotation"),
  (false, "Arabic"),
  (false, "Aragonese"),
  (false, "Aari"),
  (false, "Rakhine"),
  (false, "Assamese"),
  (false, "Asturian"),
  (false, "Athapaskan"),
  (false, "Avar"),
  (false, "Awadhi"),
  (false, "Aymara"),
  (false, "Torki"),
  (false, "Azerbaijani"),
  (false, "Badaga"),
  (false, "Banda"),
  (false, "Baghelkhandi"),
  (false, "Balkar"),
  (false, "Balinese"),
  (false, "Bavarian"),
  (false, "Baule"),
  (false, "BatakToba"),
  (false, "Berber"),
  (false, "Bench"),
  (false, "BibleCree"),
  (false, "Bandjalang"),
  (false, "Belarussian"),
  (false, "Bemba"),
  (false, "Bengali"),
  (false, "Haryanvi"),
  (false, "Bagri"),
  (false, "Bulgarian"),
  (false, "Bhili"),
  (false, "Bhojpuri"),
  (false, "Bikol"),
  (false, "Bilen"),
  (false, "Bislama"),
  (false, "Kanauji"),
  (false, "Blackfoot"),
  (false, "Baluchi"),
  (false, "PaoKaren"),
  (false, "Balante"),
  (false, "Balti"),
  (false, "Bambara"),
  (false, "Bamileke"),
  (false, "Bosnian"),
  (false, "BishnupriyaManipuri"),
  (false, "Breton"),
  (false, "Brahui"),
  (false, "BrajBhasha"),
  (false, "Burmese"),
  (false, "Bodo"),
  (false, "Bashkir"),
  (false, "Burushaski"),
  (false, "Beti"),
  (false, "BatakSimalungun"),
  (false, "Bugis"),
  (false, "Medumba"),
  (false, "Kaqchikel"),
  (false, "Catalan"),
  (false, "ZamboangaChavacano"),
  (false, "Cebuano"),
  (false, "Chechen"),
  (false, "ChahaGurage"),
  (false, "Chattisgarhi"),
  (false, "Chichewa"),
  (false, "Chukchi"),
  (false, "Chuukese"),
  (false, "Choctaw"),
  (false, "Chipewyan"),
  (false, "Cherokee"),
  (false, "Chamorro"),
  (false, "Chuvash"),
  (false, "Cheyenne"),
  (false, "Chiga"),
  (false, "Comorian"),
  (false, "Coptic"),
  (false, "Cornish"),
  (false, "Corsican"),
  (false, "Creoles"),
  (false, "Cree"),
  (false, "Carrier"),
  (false, "CrimeanTatar"),
  (false, "Kashubian"),
  (false, "ChurchSlavonic"),
  (false, "Czech"),
  (false, "Chittagonian"),
  (false, "SanBlasKuna"),
  (false, "Danish"),
  (false, "Dargwa"),
  (false, "Dayi"),
  (false, "WoodsCree"),
  (true, "Default"),
  (false, "German"),
  (false, "Dogri"),
  (false, "DogriMacrolanguage"),
  (false, "Dhangu"),
  (false, "DivehiDeprecated"),
  (false, "Dimli"),
  (false, "Divehi"),
  (false, "Zarma"),
  (false, "Djambarrpuyngu"),
  (false, "Dangme"),
  (false, "Dan"),
  (false, "Dinka"),
  (false, "Dari"),
  (false, "Dhuwal"),
  (false, "Dungan"),
  (false, "Dzongkha"),
  (false, "Ebira"),
  (false, "EasternCree"),
  (false, "Edo"),
  (false, "Efik"),
  (false, "Greek"),
  (false, "EasternManinkakan"),
  (false, "English"),
  (false, "Erzya"),
  (false, "Spanish"),
  (false, "CentralYupik"),
  (false, "Estonian"),
  (false, "Basque"),
  (false, "Evenki"),
  (false, "Even"),
  (false, "Ewe"),
  (false, "FrenchAntillean"),
  (false, "Fang"),
  (false, "Persian"),
  (false, "Fanti"),
  (false, "Finnish"),
  (false, "Fijian"),
  (false, "DutchFlemish"),
  (false, "Fefe"),
  (false, "ForestNenets"),
  (false, "Fon"),
  (false, "Faroese"),
  (false, "French"),
  (false, "CajunFrench"),
  (false, "Frisian"),
  (false, "Friulian"),
  (false, "Arpitan"),
  (false, "Futa"),
  (false, "Fulah"),
  (false, "NigerianFulfulde"),
  (false, "Ga"),
  (false, "ScottishGaelic"),
  (false, "Gagauz"),
  (false, "Galician"),
  (false, "Garshuni"),
  (false, "Garhwali"),
  (false, "Geez"),
  (false, "Githabul"),
  (false, "Gilyak"),
  (false, "Kiribati"),
  (false, "KpelleGuinea"),
  (false, "Gilaki"),
  (false, "Gumuz"),
  (false, "Gumatj"),
  (false, "Gogo"),
  (false, "Gondi"),
  (false, "Greenlandic"),
  (false, "Garo"),
  (false, "Guarani"),
  (false, "Wayuu"),
  (false, "Gupapuyngu"),
  (false, "Gujarati"),
  (false, "Gusii"),
  (false, "Haitian"),
  (false, "Halam"),
  (false, "Harauti"),
  (false, "Hausa"),
  (false, "Hawaiian"),
  (false, "Haya"),
  (false, "Hazaragi"),
  (false, "HammerBanna"),
  (false, "Herero"),
  (false, "Hiligaynon"),
  (false, "Hindi"),
  (false, "HighMari"),
  (false, "Hmong"),
  (false, "HiriMotu"),
  (false, "Hindko"),
  (false, "Ho"),
  (false, "Harari"),
  (false, "Croatian"),
  (false, "Hungarian"),
  (false, "Armenian"),
  (false, "ArmenianEast"),
  (false, "Iban"),
  (false, "Ibibio"),
  (false, "Igbo"),
  (false, "Ijolanguages"),
  (false, "Ido"),
  (false, "Interlingue"),
  (false, "Ilokano"),
  (false, "Interlingua"),
  (false, "Indonesian"),
  (false, "Ingush"),
  (false, "Inuktitut"),
  (false, "Inupiat"),
  (false, "InternationalPhoneticAlphabet"),
  (false, "Irish"),
  (false, "IrishTraditional"),
  (false, "Icelandic"),
  (false, "InariSami"),
  (false, "Italian"),
  (false, "Hebrew"),
  (false, "JamaicanCreole"),
  (false, "Japanese"),
  (false, "Javanese"),
  (false, "Lojban"),
  (false, "Krymchak"),
  (false, "Yiddish"),
  (false, "Ladino"),
  (false, "Jula"),
  (false, "Kabardian"),
  (false, "Kabyle"),
  (false, "Kachchi"),
  (false, "Kalenjin"),
  (false, "Kannada"),
  (false, "Karachay"),
  (false, "Georgian"),
  (false, "Kazakh"),
  (false, "Makonde"),
  (false, "Kabuverdianu"),
  (false, "Kebena"),
  (false, "Kekchi"),
  (false, "KhutsuriGeorgian"),
  (false, "Khakass"),
  (false, "KhantyKazim"),
  (false, "Khmer"),
  (false, "KhantyShurishkar"),
  (false, "KhamtiShan"),
  (false, "KhantyVakhi"),
  (false, "Khowar"),
  (false, "Kikuyu"),
  (false, "Kirghiz"),
  (false, "Kisii"),
  (false, "Kirmanjki"),
  (false, "SouthernKiwai"),
  (false, "EasternPwoKaren"),
  (false, "Kokni"),
  (false, "Kalmyk"),
  (false, "Kamba"),
  (false, "Kumaoni"),
  (false, "Komo"),
  (false, "Komso"),
  (false, "KhorasaniTurkic"),
  (false, "Kanuri"),
  (false, "Kodagu"),
  (false, "KoreanOldHangul"),
  (false, "Konkani"),
  (false, "Kikongo"),
  (false, "Komi"),
  (false, "Kongo"),
  (false, "KomiPermyak"),
  (false, "Korean"),
  (false, "Kosraean"),
  (false, "KomiZyrian"),
  (false, "Kpelle"),
  (false, "Krio"),
  (false, "Karakalpak"),
  (false, "Karelian"),
  (false, "Karaim"),
  (false, "Karen"),
  (false, "Koorete"),
  (false, "Kashmiri"),
  (false, "Ripuarian"),
  (false, "Khasi"),
  (false, "KildinSami"),
  (false, "SgawKaren"),
  (false, "Kuanyama"),
  (false, "Kui"),
  (false, "Kulvi"),
  (false, "Kumyk"),
  (false, "Kurdish"),
  (false, "Kurukh"),
  (false, "Kuy"),
  (false, "Koryak"),
  (false, "WesternKayah"),
  (false, "Ladin"),
  (false, "Lahuli"),
  (false, "Lak"),
  (false, "Lambani"),
  (false, "Lao"),
  (false, "Latin"),
  (false, "Laz"),
  (false, "LCree"),
  (false, "Ladakhi"),
  (false, "Lezgi"),
  (false, "Ligurian"),
  (false, "Limburgish"),
  (false, "Lingala"),
  (false, "Lisu"),
  (false, "Lampung"),
  (false, "Laki"),
  (false, "LowMari"),
  (false, "Limbu"),
  (false, "Lombard"),
  (false, "Lomwe"),
  (false, "Loma"),
  (false, "Luri"),
  (false, "LowerSorbian"),
  (false, "LuleSami"),
  (false, "Lithuanian"),
  (false, "Luxembourgish"),
  (false, "LubaLulua"),
  (false, "LubaKatanga"),
  (false, "Ganda"),
  (false, "Luyia"),
  (false, "Luo"),
  (false, "Latvian"),
  (false, "Madura"),
  (false, "Magahi"),
  (false, "Marshallese"),
  (false, "Majang"),
  (false, "Makhuwa"),
  (false, "Malayalam"),
  (false, "Mam"),
  (false, "Mansi"),
  (false, "Mapudungun"),
  (false, "Marathi"),
  (false, "Marwari"),
  (false, "Mbundu"),
  (false, "Mbo"),
  (false, "Manchu"),
  (false, "MooseCree"),
  (false, "Mende"),
  (false, "Mandar"),
  (false, "Meen"),
  (false, "Meru"),
  (false, "Morisyen"),
  (false, "Minangkabau"),
  (false, "Mizo"),
  (false, "Macedonian"),
  (false, "Makasar"),
  (false, "Kituba"),
  (false, "Male"),
  (false, "Malagasy"),
  (false, "Malinke"),
  (false, "MalayalamReformed"),
  (false, "Malay"),
  (false, "Mandinka"),
  (false, "Mongolian"),
  (false, "Manipuri"),
  (false, "Maninka"),
  (false, "Manx"),
  (false, "Mohawk"),
  (false, "Moksha"),
  (false, "Moldavian"),
  (false, "Mon"),
  (false, "Moroccan"),
  (false, "Mossi"),
  (false, "Maori"),
  (false, "Maithili"),
  (false, "Maltese"),
  (false, "Mundari"),
  (false, "Muscogee"),
  (false, "Mirandese"),
  (false, "HmongDaw"),
  (false, "Mayan"),
  (false, "Mazanderani"),
  (false, "NagaAssamese"),
  (false, "Nahuatl"),
  (false, "Nanai"),
  (false, "Neapolitan"),
  (false, "Naskapi"),
  (false, "Nauruan"),
  (false, "Navajo"),
  (false, "NCree"),
  (false, "Ndebele"),
  (false, "Ndau"),
  (false, "Ndonga"),
  (false, "LowSaxon"),
  (false, "Nepali"),
  (false, "Newari"),
  (false, "Ngbaka"),
  (false, "Nagari"),
  (false, "NorwayHouseCree"),
  (false, "Nisi"),
  (false, "Niuean"),
  (false, "Nyankole"),
  (false, "NKo"),
  (false, "Dutch"),
  (false, "Nimadi"),
  (false, "Nogai"),
  (false, "Norwegian"),
  (false, "Novial"),
  (false, "NorthernSami"),
  (false, "NorthernSotho"),
  (false, "NorthernTai"),
  (false, "Esperanto"),
  (false, "Nyamwezi"),
  (false, "NorwegianNynorsk"),
  (false, "MbembeTigon"),
  (false, "Occitan"),
  (false, "OjiCree"),
  (false, "Ojibway"),
  (false, "Odia"),
  (false, "Oromo"),
  (false, "Ossetian"),
  (false, "PalestinianAramaic"),
  (false, "Pangasinan"),
  (false, "Pali"),
  (false, "Pampangan"),
  (false, "Punjabi"),
  (false, "Palpa"),
  (false, "Papiamentu"),
  (false, "Pashto"),
  (false, "Palauan"),
  (false, "Bouyei"),
  (false, "Picard"),
  (false, "PennsylvaniaGerman"),
  (false, "PolytonicGreek"),
  (false, "Phake"),
  (false, "Norfolk"),
  (false, "Filipino"),
  (false, "Palaung"),
  (false, "Polish"),
  (false, "Piemontese"),
  (false, "WesternPanjabi"),
  (false, "Pocomchi"),
  (false, "Pohnpeian"),
  (false, "Provencal"),
  (false, "Portuguese"),
  (false, "WesternPwoKaren"),
  (false, "Chin"),
  (false, "Kiche"),
  (false, "QuechuaBolivia"),
  (false, "Quechua"),
  (false, "QuechuaEcuador"),
  (false, "QuechuaPeru"),
  (false, "Rajasthani"),
  (false, "Rarotongan"),
  (false, "RussianBuriat"),
  (false, "RCree"),
  (false, "Rejang"),
  (false, "Riang"),
  (false, "Tarifit"),
  (false, "Ritarungo"),
  (false, "Arakwal"),
  (false, "Romansh"),
  (false, "VlaxRomani"),
  (false, "Romanian"),
  (false, "Romany"),
  (false, "Rusyn"),
  (false, "Rotuman"),
  (false, "Kinyarwanda"),
  (false, "Rundi"),
  (false, "Aromanian"),
  (false, "Russian"),
  (false, "Sadri"),
  (false, "Sanskrit"),
  (false, "Sasak"),
  (false, "Santali"),
  (false, "Sayisi"),
  (false, "Sicilian"),
  (false, "Scots"),
  (false, "Sekota"),
  (false, "Selkup"),
  (false, "OldIrish"),
  (false, "Sango"),
  (false, "Samogitian"),
  (false, "Tachelhit"),
  (false, "Shan"),
  (false, "Sibe"),
  (false, "Sidamo"),
  (false, "SilteGurage"),
  (false, "SkoltSami"),
  (false, "Slovak"),
  (false, "NorthSlavey"),
  (false, "Slavey"),
  (false, "Slovenian"),
  (false, "Somali"),
  (false, "Samoan"),
  (false, "Sena"),
  (false, "Shona"),
  (false, "Sindhi"),
  (false, "Sinhala"),
  (false, "Soninke"),
  (false, "SodoGurage"),
  (false, "Songe"),
  (false, "SouthernSotho"),
  (false, "Albanian"),
  (false, "Serbian"),
  (false, "Sardinian"),
  (false, "Saraiki"),
  (false, "Serer"),
  (false, "SouthSlavey"),
  (false, "SouthernSami"),
  (false, "SaterlandFrisian"),
  (false, "Sukuma"),
  (false, "Sundanese"),
  (false, "Suri"),
  (false, "Svan"),
  (false, "Swedish"),
  (false, "SwadayaAramaic"),
  (false, "Swahili"),
  (false, "Swati"),
  (false, "Sutu"),
  (false, "UpperSaxon"),
  (false, "Sylheti"),
  (false, "Syriac"),
  (false, "Silesian"),
  (false, "Tabasaran"),
  (false, "Tajiki"),
  (false, "Tamil"),
  (false, "Tatar"),
  (false, "THCree"),
  (false, "DehongDai"),
  (false, "Telugu"),
  (false, "Tetum"),
  (false, "Tagalog"),
  (false, "Tongan"),
  (false, "Tigre"),
  (false, "Tigrinya"),
  (false, "Thai"),
  (false, "Tahitian"),
  (false, "Tibetan"),
  (false, "Tiv"),
  (false, "Turkmen"),
  (false, "Tamashek"),
  (false, "Temne"),
  (false, "Tswana"),
  (false, "TundraNenets"),
  (false, "Tonga"),
  (false, "Todo"),
  (false, "Toma"),
  (false, "TokPisin"),
  (false, "Turkish"),
  (false, "Tsonga"),
  (false, "TuroyoAramaic"),
  (false, "Tulu"),
  (false, "Tumbuka"),
  (false, "Tuvin"),
  (false, "Tuvalu"),
  (false, "Twi"),
  (false, "Tay"),
  (false, "Tamazight"),
  (false, "Tzotzil"),
  (false, "Udmurt"),
  (false, "Ukrainian"),
  (false, "Umbundu"),
  (false, "Urdu"),
  (false, "UpperSorbian"),
  (false, "Uyghur"),
  (false, "Uzbek"),
  (false, "Venetian"),
  (false, "Venda"),
  (false, "Vietnamese"),
  (false, "Volapuk"),
  (false, "Voro"),
  (false, "Wa"),
  (false, "Wagdi"),
  (false, "WarayWaray"),
  (false, "WestCree"),
  (false, "Welsh"),
  (false, "Walloon"),
  (false, "Wolof"),
  (false, "Mewati"),
  (false, "Lu"),
  (false, "Xhosa"),
  (false, "Minjangbal"),
  (false, "Soga"),
  (false, "KpelleLiberia"),
  (false, "Sakha"),
  (false, "Yao"),
  (false, "Yapese"),
  (false, "Yoruba"),
  (false, "YCree"),
  (false, "YiClassic"),
  (false, "YiModern"),
  (false, "Zealandic"),
  (false, "StandardMorrocanTamazigh"),
  (false, "Zhuang"),
  (false, "Chinese"),
  (false, "ChinesePhonetic"),
  (false, "ChineseSimplified"),
  (false, "ChineseTraditional"),
  (false, "Zande"),
  (false, "Zulu"),
  (false, "Zazaki")]

/-- The model of `src/layout/language.rs:77-678` is its translation. -/
theorem Language.variants_eq : Language.variants = OpenType.language.rows.map fun row => (row.gated, row.variant) := rfl

/-- No two variants have the same name. -/
theorem Language.apart : apart (OpenType.language.rows.map fun row => number row.variant) = true := by decide +kernel

/-- `src/layout/language.rs:77-678`. -/
def Language.tag_arms : List (Arm Tag String) := [
  (false, 0x41424120, "Abaza"),
  (false, 0x41424B20, "Abkhazian"),
  (false, 0x41434820, "Acholi"),
  (false, 0x41435220, "Achi"),
  (false, 0x41445920, "Adyghe"),
  (false, 0x41464B20, "Afrikaans"),
  (false, 0x41465220, "Afar"),
  (false, 0x41475720, "Agaw"),
  (false, 0x41494F20, "Aiton"),
  (false, 0x414B4120, "Akan"),
  (false, 0x414C5320, "Alsatian"),
  (false, 0x414C5420, "Altai"),
  (false, 0x414D4820, "Amharic"),
  (false, 0x414E4720, "AngloSaxon"),
  (false, 0x41505048, "AmericanistPhoneticNotation"),
  (false, 0x41524120, "Arabic"),
  (false, 0x41524720, "Aragonese"),
  (false, 0x41524920, "Aari"),
  (false, 0x41524B20, "Rakhine"),
  (false, 0x41534D20, "Assamese"),
  (false, 0x41535420, "Asturian"),
  (false, 0x41544820, "Athapaskan"),
  (false, 0x41565220, "Avar"),
  (false, 0x41574120, "Awadhi"),
  (false, 0x41594D20, "Aymara"),
  (false, 0x415A4220, "Torki"),
  (false, 0x415A4520, "Azerbaijani"),
  (false, 0x42414420, "Badaga"),
  (false, 0x42414430, "Banda"),
  (false, 0x42414720, "Baghelkhandi"),
  (false, 0x42414C20, "Balkar"),
  (false, 0x42414E20, "Balinese"),
  (false, 0x42415220, "Bavarian"),
  (false, 0x42415520, "Baule"),
  (false, 0x42424320, "BatakToba"),
  (false, 0x42425220, "Berber"),
  (false, 0x42434820, "Bench"),
  (false, 0x42435220, "BibleCree"),
  (false, 0x42445920, "Bandjalang"),
  (false, 0x42454C20, "Belarussian"),
  (false, 0x42454D20, "Bemba"),
  (false, 0x42454E20, "Bengali"),
  (false, 0x42474320, "Haryanvi"),
  (false, 0x42475120, "Bagri"),
  (false, 0x42475220, "Bulgarian"),
  (false, 0x42484920, "Bhili"),
  (false, 0x42484F20, "Bhojpuri"),
  (false, 0x42494B20, "Bikol"),
  (false, 0x42494C20, "Bilen"),
  (false, 0x42495320, "Bislama"),
  (false, 0x424A4A20, "Kanauji"),
  (false, 0x424B4620, "Blackfoot"),
  (false, 0x424C4920, "Baluchi"),
  (false, 0x424C4B20, "PaoKaren"),
  (false, 0x424C4E20, "Balante"),
  (false, 0x424C5420, "Balti"),
  (false, 0x424D4220, "Bambara"),
  (false, 0x424D4C20, "Bamileke"),
  (false, 0x424F5320, "Bosnian"),
  (false, 0x42505920, "BishnupriyaManipuri"),
  (false, 0x42524520, "Breton"),
  (false, 0x42524820, "Brahui"),
  (false, 0x42524920, "BrajBhasha"),
  (false, 0x42524D20, "Burmese"),
  (false, 0x42525820, "Bodo"),
  (false, 0x42534820, "Bashkir"),
  (false, 0x42534B20, "Burushaski"),
  (false, 0x42544920, "Beti"),
  (false, 0x42545320, "BatakSimalungun"),
  (false, 0x42554720, "Bugis"),
  (false, 0x42595620, "Medumba"),
  (false, 0x43414B20, "Kaqchikel"),
  (false, 0x43415420, "Catalan"),
  (false, 0x43424B20, "ZamboangaChavacano"),
  (false, 0x43454220, "Cebuano"),
  (false, 0x43484520, "Chechen"),
  (false, 0x43484720, "ChahaGurage"),
  (false, 0x43484820, "Chattisgarhi"),
  (false, 0x43484920, "Chichewa"),
  (false, 0x43484B20, "Chukchi"),
  (false, 0x43484B30, "Chuukese"),
  (false, 0x43484F20, "Choctaw"),
  (false, 0x43485020, "Chipewyan"),
  (false, 0x43485220, "Cherokee"),
  (false, 0x43484120, "Chamorro"),
  (false, 0x43485520, "Chuvash"),
  (false, 0x43485920, "Cheyenne"),
  (false, 0x43474720, "Chiga"),
  (false, 0x434D5220, "Comorian"),
  (false, 0x434F5020, "Coptic"),
  (false, 0x434F5220, "Cornish"),
  (false, 0x434F5320, "Corsican"),
  (false, 0x43505020, "Creoles"),
  (false, 0x43524520, "Cree"),
  (false, 0x43525220, "Carrier"),
  (false, 0x43525420, "CrimeanTatar"),
  (false, 0x43534220, "Kashubian"),
  (false, 0x43534C20, "ChurchSlavonic"),
  (false, 0x43535920, "Czech"),
  (false, 0x43544720, "Chittagonian"),
  (false, 0x43554B20, "SanBlasKuna"),
  (false, 0x44414E20, "Danish"),
  (false, 0x44415220, "Dargwa"),
  (false, 0x44415820, "Dayi"),
  (false, 0x44435220, "WoodsCree"),
  (true, 0x44464C54, "Default"),
  (false, 0x44455520, "German"),
  (false, 0x44474F20, "Dogri"),
  (false, 0x44475220, "DogriMacrolanguage"),
  (false, 0x44484720, "Dhangu"),
  (false, 0x44485620, "DivehiDeprecated"),
  (false, 0x44495120, "Dimli"),
  (false, 0x44495620, "Divehi"),
  (false, 0x444A5220, "Zarma"),
  (false, 0x444A5230, "Djambarrpuyngu"),
  (false, 0x444E4720, "Dangme"),
  (false, 0x444E4A20, "Dan"),
  (false, 0x444E4B20, "Dinka"),
  (false, 0x44524920, "Dari"),
  (false, 0x44554A20, "Dhuwal"),
  (false, 0x44554E20, "Dungan"),
  (false, 0x445A4E20, "Dzongkha"),
  (false, 0x45424920, "Ebira"),
  (false, 0x45435220, "EasternCree"),
  (false, 0x45444F20, "Edo"),
  (false, 0x45464920, "Efik"),
  (false, 0x454C4C20, "Greek"),
  (false, 0x454D4B20, "EasternManinkakan"),
  (false, 0x454E4720, "English"),
  (false, 0x45525A20, "Erzya"),
  (false, 0x45535020, "Spanish"),
  (false, 0x45535520, "CentralYupik"),
  (false, 0x45544920, "Estonian"),
  (false, 0x45555120, "Basque"),
  (false, 0x45564B20, "Evenki"),
  (false, 0x45564E20, "Even"),
  (false, 0x45574520, "Ewe"),
  (false, 0x46414E20, "FrenchAntillean"),
  (false, 0x46414E30, "Fang"),
  (false, 0x46415220, "Persian"),
  (false, 0x46415420, "Fanti"),
  (false, 0x46494E20, "Finnish"),
  (false, 0x464A4920, "Fijian"),
  (false, 0x464C4520, "DutchFlemish"),
  (false, 0x464D5020, "Fefe"),
  (false, 0x464E4520, "ForestNenets"),
  (false, 0x464F4E20, "Fon"),
  (false, 0x464F5320, "Faroese"),
  (false, 0x46524120, "French"),
  (false, 0x46524320, "CajunFrench"),
  (false, 0x46524920, "Frisian"),
  (false, 0x46524C20, "Friulian"),
  (false, 0x46525020, "Arpitan"),
  (false, 0x46544120, "Futa"),
  (false, 0x46554C20, "Fulah"),
  (false, 0x46555620, "NigerianFulfulde"),
  (false, 0x47414420, "Ga"),
  (false, 0x47414520, "ScottishGaelic"),
  (false, 0x47414720, "Gagauz"),
  (false, 0x47414C20, "Galician"),
  (false, 0x47415220, "Garshuni"),
  (false, 0x47415720, "Garhwali"),
  (false, 0x47455A20, "Geez"),
  (false, 0x47494820, "Githabul"),
  (false, 0x47494C20, "Gilyak"),
  (false, 0x47494C30, "Kiribati"),
  (false, 0x474B5020, "KpelleGuinea"),
  (false, 0x474C4B20, "Gilaki"),
  (false, 0x474D5A20, "Gumuz"),
  (false, 0x474E4E20, "Gumatj"),
  (false, 0x474F4720, "Gogo"),
  (false, 0x474F4E20, "Gondi"),
  (false, 0x47524E20, "Greenlandic"),
  (false, 0x47524F20, "Garo"),
  (false, 0x47554120, "Guarani"),
  (false, 0x47554320, "Wayuu"),
  (false, 0x47554620, "Gupapuyngu"),
  (false, 0x47554A20, "Gujarati"),
  (false, 0x47555A20, "Gusii"),
  (false, 0x48414920, "Haitian"),
  (false, 0x48414C20, "Halam"),
  (false, 0x48415220, "Harauti"),
  (false, 0x48415520, "Hausa"),
  (false, 0x48415720, "Hawaiian"),
  (false, 0x48415920, "Haya"),
  (false, 0x48415A20, "Hazaragi"),
  (false, 0x48424E20, "HammerBanna"),
  (false, 0x48455220, "Herero"),
  (false, 0x48494C20, "Hiligaynon"),
  (false, 0x48494E20, "Hindi"),
  (false, 0x484D4120, "HighMari"),
  (false, 0x484D4E20, "Hmong"),
  (false, 0x484D4F20, "HiriMotu"),
  (false, 0x484E4420, "Hindko"),
  (false, 0x484F2020, "Ho"),
  (false, 0x48524920, "Harari"),
  (false, 0x48525620, "Croatian"),
  (false, 0x48554E20, "Hungarian"),
  (false, 0x48594520, "Armenian"),
  (false, 0x48594530, "ArmenianEast"),
  (false, 0x49424120, "Iban"),
  (false, 0x49424220, "Ibibio"),
  (false, 0x49424F20, "Igbo"),
  (false, 0x494A4F20, "Ijolanguages"),
  (false, 0x49444F20, "Ido"),
  (false, 0x494C4520, "Interlingue"),
  (false, 0x494C4F20, "Ilokano"),
  (false, 0x494E4120, "Interlingua"),
  (false, 0x494E4420, "Indonesian"),
  (false, 0x494E4720, "Ingush"),
  (false, 0x494E5520, "Inuktitut"),
  (false, 0x49504B20, "Inupiat"),
  (false, 0x49505048, "InternationalPhoneticAlphabet"),
  (false, 0x49524920, "Irish"),
  (false, 0x49525420, "IrishTraditional"),
  (false, 0x49534C20, "Icelandic"),
  (false, 0x49534D20, "InariSami"),
  (false, 0x49544120, "Italian"),
  (false, 0x49575220, "Hebrew"),
  (false, 0x4A414D20, "JamaicanCreole"),
  (false, 0x4A414E20, "Japanese"),
  (false, 0x4A415620, "Javanese"),
  (false, 0x4A424F20, "Lojban"),
  (false, 0x4A435420, "Krymchak"),
  (false, 0x4A494920, "Yiddish"),
  (false, 0x4A554420, "Ladino"),
  (false, 0x4A554C20, "Jula"),
  (false, 0x4B414220, "Kabardian"),
  (false, 0x4B414230, "Kabyle"),
  (false, 0x4B414320, "Kachchi"),
  (false, 0x4B414C20, "Kalenjin"),
  (false, 0x4B414E20, "Kannada"),
  (false, 0x4B415220, "Karachay"),
  (false, 0x4B415420, "Georgian"),
  (false, 0x4B415A20, "Kazakh"),
  (false, 0x4B444520, "Makonde"),
  (false, 0x4B454120, "Kabuverdianu"),
  (false, 0x4B454220, "Kebena"),
  (false, 0x4B454B20, "Kekchi"),
  (false, 0x4B474520, "KhutsuriGeorgian"),
  (false, 0x4B484120, "Khakass"),
  (false, 0x4B484B20, "KhantyKazim"),
  (false, 0x4B484D20, "Khmer"),
  (false, 0x4B485320, "KhantyShurishkar"),
  (false, 0x4B485420, "KhamtiShan"),
  (false, 0x4B485620, "KhantyVakhi"),
  (false, 0x4B485720, "Khowar"),
  (false, 0x4B494B20, "Kikuyu"),
  (false, 0x4B495220, "Kirghiz"),
  (false, 0x4B495320, "Kisii"),
  (false, 0x4B495520, "Kirmanjki"),
  (false, 0x4B4A4420, "SouthernKiwai"),
  (false, 0x4B4A5020, "EasternPwoKaren"),
  (false, 0x4B4B4E20, "Kokni"),
  (false, 0x4B4C4D20, "Kalmyk"),
  (false, 0x4B4D4220, "Kamba"),
  (false, 0x4B4D4E20, "Kumaoni"),
  (false, 0x4B4D4F20, "Komo"),
  (false, 0x4B4D5320, "Komso"),
  (false, 0x4B4D5A20, "KhorasaniTurkic"),
  (false, 0x4B4E5220, "Kanuri"),
  (false, 0x4B4F4420, "Kodagu"),
  (false, 0x4B4F4820, "KoreanOldHangul"),
  (false, 0x4B4F4B20, "Konkani"),
  (false, 0x4B4F4E20, "Kikongo"),
  (false, 0x4B4F4D20, "Komi"),
  (false, 0x4B4F4E30, "Kongo"),
  (false, 0x4B4F5020, "KomiPermyak"),
  (false, 0x4B4F5220, "Korean"),
  (false, 0x4B4F5320, "Kosraean"),
  (false, 0x4B4F5A20, "KomiZyrian"),
  (false, 0x4B504C20, "Kpelle"),
  (false, 0x4B524920, "Krio"),
  (false, 0x4B524B20, "Karakalpak"),
  (false, 0x4B524C20, "Karelian"),
  (false, 0x4B524D20, "Karaim"),
  (false, 0x4B524E20, "Karen"),
  (false, 0x4B525420, "Koorete"),
  (false, 0x4B534820, "Kashmiri"),
  (false, 0x4B534830, "Ripuarian"),
  (false, 0x4B534920, "Khasi"),
  (false, 0x4B534D20, "KildinSami"),
  (false, 0x4B535720, "SgawKaren"),
  (false, 0x4B554120, "Kuanyama"),
  (false, 0x4B554920, "Kui"),
  (false, 0x4B554C20, "Kulvi"),
  (false, 0x4B554D20, "Kumyk"),
  (false, 0x4B555220, "Kurdish"),
  (false, 0x4B555520, "Kurukh"),
  (false, 0x4B555920, "Kuy"),
  (false, 0x4B594B20, "Koryak"),
  (false, 0x4B595520, "WesternKayah"),
  (false, 0x4C414420, "Ladin"),
  (false, 0x4C414820, "Lahuli"),
  (false, 0x4C414B20, "Lak"),
  (false, 0x4C414D20, "Lambani"),
  (false, 0x4C414F20, "Lao"),
  (false, 0x4C415420, "Latin"),
  (false, 0x4C415A20, "Laz"),
  (false, 0x4C435220, "LCree"),
  (false, 0x4C444B20, "Ladakhi"),
  (false, 0x4C455A20, "Lezgi"),
  (false, 0x4C494A20, "Ligurian"),
  (false, 0x4C494D20, "Limburgish"),
  (false, 0x4C494E20, "Lingala"),
  (false, 0x4C495320, "Lisu"),
  (false, 0x4C4A5020, "Lampung"),
  (false, 0x4C4B4920, "Laki"),
  (false, 0x4C4D4120, "LowMari"),
  (false, 0x4C4D4220, "Limbu"),
  (false, 0x4C4D4F20, "Lombard"),
  (false, 0x4C4D5720, "Lomwe"),
  (false, 0x4C4F4D20, "Loma"),
  (false, 0x4C524320, "Luri"),
  (false, 0x4C534220, "LowerSorbian"),
  (false, 0x4C534D20, "LuleSami"),
  (false, 0x4C544820, "Lithuanian"),
  (false, 0x4C545A20, "Luxembourgish"),
  (false, 0x4C554120, "LubaLulua"),
  (false, 0x4C554220, "LubaKatanga"),
  (false, 0x4C554720, "Ganda"),
  (false, 0x4C554820, "Luyia"),
  (false, 0x4C554F20, "Luo"),
  (false, 0x4C564920, "Latvian"),
  (false, 0x4D414420, "Madura"),
  (false, 0x4D414720, "Magahi"),
  (false, 0x4D414820, "Marshallese"),
  (false, 0x4D414A20, "Majang"),
  (false, 0x4D414B20, "Makhuwa"),
  (false, 0x4D414C20, "Malayalam"),
  (false, 0x4D414D20, "Mam"),
  (false, 0x4D414E20, "Mansi"),
  (false, 0x4D415020, "Mapudungun"),
  (false, 0x4D415220, "Marathi"),
  (false, 0x4D415720, "Marwari"),
  (false, 0x4D424E20, "Mbundu"),
  (false, 0x4D424F20, "Mbo"),
  (false, 0x4D434820, "Manchu"),
  (false, 0x4D435220, "MooseCree"),
  (false, 0x4D444520, "Mende"),
  (false, 0x4D445220, "Mandar"),
  (false, 0x4D454E20, "Meen"),
  (false, 0x4D455220, "Meru"),
  (false, 0x4D464520, "Morisyen"),
  (false, 0x4D494E20, "Minangkabau"),
  (false, 0x4D495A20, "Mizo"),
  (false, 0x4D4B4420, "Macedonian"),
  (false, 0x4D4B5220, "Makasar"),
  (false, 0x4D4B5720, "Kituba"),
  (false, 0x4D4C4520, "Male"),
  (false, 0x4D4C4720, "Malagasy"),
  (false, 0x4D4C4E20, "Malinke"),
  (false, 0x4D4C5220, "MalayalamReformed"),
  (false, 0x4D4C5920, "Malay"),
  (false, 0x4D4E4420, "Mandinka"),
  (false, 0x4D4E4720, "Mongolian"),
  (false, 0x4D4E4920, "Manipuri"),
  (false, 0x4D4E4B20, "Maninka"),
  (false, 0x4D4E5820, "Manx"),
  (false, 0x4D4F4820, "Mohawk"),
  (false, 0x4D4F4B20, "Moksha"),
  (false, 0x4D4F4C20, "Moldavian"),
  (false, 0x4D4F4E20, "Mon"),
  (false, 0x4D4F5220, "Moroccan"),
  (false, 0x4D4F5320, "Mossi"),
  (false, 0x4D524920, "Maori"),
  (false, 0x4D544820, "Maithili"),
  (false, 0x4D545320, "Maltese"),
  (false, 0x4D554E20, "Mundari"),
  (false, 0x4D555320, "Muscogee"),
  (false, 0x4D574C20, "Mirandese"),
  (false, 0x4D575720, "HmongDaw"),
  (false, 0x4D594E20, "Mayan"),
  (false, 0x4D5A4E20, "Mazanderani"),
  (false, 0x4E414720, "NagaAssamese"),
  (false, 0x4E414820, "Nahuatl"),
  (false, 0x4E414E20, "Nanai"),
  (false, 0x4E415020, "Neapolitan"),
  (false, 0x4E415320, "Naskapi"),
  (false, 0x4E415520, "Nauruan"),
  (false, 0x4E415620, "Navajo"),
  (false, 0x4E435220, "NCree"),
  (false, 0x4E444220, "Ndebele"),
  (false, 0x4E444320, "Ndau"),
  (false, 0x4E444720, "Ndonga"),
  (false, 0x4E445320, "LowSaxon"),
  (false, 0x4E455020, "Nepali"),
  (false, 0x4E455720, "Newari"),
  (false, 0x4E474120, "Ngbaka"),
  (false, 0x4E475220, "Nagari"),
  (false, 0x4E484320, "NorwayHouseCree"),
  (false, 0x4E495320, "Nisi"),
  (false, 0x4E495520, "Niuean"),
  (false, 0x4E4B4C20, "Nyankole"),
  (false, 0x4E4B4F20, "NKo"),
  (false, 0x4E4C4420, "Dutch"),
  (false, 0x4E4F4520, "Nimadi"),
  (false, 0x4E4F4720, "Nogai"),
  (false, 0x4E4F5220, "Norwegian"),
  (false, 0x4E4F5620, "Novial"),
  (false, 0x4E534D20, "NorthernSami"),
  (false, 0x4E534F20, "NorthernSotho"),
  (false, 0x4E544120, "NorthernTai"),
  (false, 0x4E544F20, "Esperanto"),
  (false, 0x4E594D20, "Nyamwezi"),
  (false, 0x4E594E20, "NorwegianNynorsk"),
  (false, 0x4E5A4120, "MbembeTigon"),
  (false, 0x4F434920, "Occitan"),
  (false, 0x4F435220, "OjiCree"),
  (false, 0x4F4A4220, "Ojibway"),
  (false, 0x4F524920, "Odia"),
  (false, 0x4F524F20, "Oromo"),
  (false, 0x4F535320, "Ossetian"),
  (false, 0x50414120, "PalestinianAramaic"),
  (false, 0x50414720, "Pangasinan"),
  (false, 0x50414C20, "Pali"),
  (false, 0x50414D20, "Pampangan"),
  (false, 0x50414E20, "Punjabi"),
  (false, 0x50415020, "Palpa"),
  (false, 0x50415030, "Papiamentu"),
  (false, 0x50415320, "Pashto"),
  (false, 0x50415520, "Palauan"),
  (false, 0x50434320, "Bouyei"),
  (false, 0x50434420, "Picard"),
  (false, 0x50444320, "PennsylvaniaGerman"),
  (false, 0x50475220, "PolytonicGreek"),
  (false, 0x50484B20, "Phake"),
  (false, 0x50494820, "Norfolk"),
  (false, 0x50494C20, "Filipino"),
  (false, 0x504C4720, "Palaung"),
  (false, 0x504C4B20, "Polish"),
  (false, 0x504D5320, "Piemontese"),
  (false, 0x504E4220, "WesternPanjabi"),
  (false, 0x504F4820, "Pocomchi"),
  (false, 0x504F4E20, "Pohnpeian"),
  (false, 0x50524F20, "Provencal"),
  (false, 0x50544720, "Portuguese"),
  (false, 0x50574F20, "WesternPwoKaren"),
  (false, 0x51494E20, "Chin"),
  (false, 0x51554320, "Kiche"),
  (false, 0x51554820, "QuechuaBolivia"),
  (false, 0x51555A20, "Quechua"),
  (false, 0x51564920, "QuechuaEcuador"),
  (false, 0x51574820, "QuechuaPeru"),
  (false, 0x52414A20, "Rajasthani"),
  (false, 0x52415220, "Rarotongan"),
  (false, 0x52425520, "RussianBuriat"),
  (false, 0x52435220, "RCree"),
  (false, 0x52454A20, "Rejang"),
  (false, 0x52494120, "Riang"),
  (false, 0x52494620, "Tarifit"),
  (false, 0x52495420, "Ritarungo"),
  (false, 0x524B5720, "Arakwal"),
  (false, 0x524D5320, "Romansh"),
  (false, 0x524D5920, "VlaxRomani"),
  (false, 0x524F4D20, "Romanian"),
  (false, 0x524F5920, "Romany"),
  (false, 0x52535920, "Rusyn"),
  (false, 0x52544D20, "Rotuman"),
  (false, 0x52554120, "Kinyarwanda"),
  (false, 0x52554E20, "Rundi"),
  (false, 0x52555020, "Aromanian"),
  (false, 0x52555320, "Russian"),
  (false, 0x53414420, "Sadri"),
  (false, 0x53414E20, "Sanskrit"),
  (false, 0x53415320, "Sasak"),
  (false, 0x53415420, "Santali"),
  (false, 0x53415920, "Sayisi"),
  (false, 0x53434E20, "Sicilian"),
  (false, 0x53434F20, "Scots"),
  (false, 0x53454B20, "Sekota"),
  (false, 0x53454C20, "Selkup"),
  (false, 0x53474120, "OldIrish"),
  (false, 0x53474F20, "Sango"),
  (false, 0x53475320, "Samogitian"),
  (false, 0x53484920, "Tachelhit"),
  (false, 0x53484E20, "Shan"),
  (false, 0x53494220, "Sibe"),
  (false, 0x53494420, "Sidamo"),
  (false, 0x53494720, "SilteGurage"),
  (false, 0x534B5320, "SkoltSami"),
  (false, 0x534B5920, "Slovak"),
  (false, 0x53435320, "NorthSlavey"),
  (false, 0x534C4120, "Slavey"),
  (false, 0x534C5620, "Slovenian"),
  (false, 0x534D4C20, "Somali"),
  (false, 0x534D4F20, "Samoan"),
  (false, 0x534E4120, "Sena"),
  (false, 0x534E4130, "Shona"),
  (false, 0x534E4420, "Sindhi"),
  (false, 0x534E4820, "Sinhala"),
  (false, 0x534E4B20, "Soninke"),
  (false, 0x534F4720, "SodoGurage"),
  (false, 0x534F5020, "Songe"),
  (false, 0x534F5420, "SouthernSotho"),
  (false, 0x53514920, "Albanian"),
  (false, 0x53524220, "Serbian"),
  (false, 0x53524420, "Sardinian"),
  (false, 0x53524B20, "Saraiki"),
  (false, 0x53525220, "Serer"),
  (false, 0x53534C20, "SouthSlavey"),
  (false, 0x53534D20, "SouthernSami"),
  (false, 0x53545120, "SaterlandFrisian"),
  (false, 0x53554B20, "Sukuma"),
  (false, 0x53554E20, "Sundanese"),
  (false, 0x53555220, "Suri"),
  (false, 0x53564120, "Svan"),
  (false, 0x53564520, "Swedish"),
  (false, 0x53574120, "SwadayaAramaic"),
  (false, 0x53574B20, "Swahili"),
  (false, 0x53575A20, "Swati"),
  (false, 0x53585420, "Sutu"),
  (false, 0x53585520, "UpperSaxon"),
  (false, 0x53594C20, "Sylheti"),
  (false, 0x53595220, "Syriac"),
  (false, 0x535A4C20, "Silesian"),
  (false, 0x54414220, "Tabasaran"),
  (false, 0x54414A20, "Tajiki"),
  (false, 0x54414D20, "Tamil"),
  (false, 0x54415420, "Tatar"),
  (false, 0x54435220, "THCree"),
  (false, 0x54444420, "DehongDai"),
  (false, 0x54454C20, "Telugu"),
  (false, 0x54455420, "Tetum"),
  (false, 0x54474C20, "Tagalog"),
  (false, 0x54474E20, "Tongan"),
  (false, 0x54475220, "Tigre"),
  (false, 0x54475920, "Tigrinya"),
  (false, 0x54484120, "Thai"),
  (false, 0x54485420, "Tahitian"),
  (false, 0x54494220, "Tibetan"),
  (false, 0x54495620, "Tiv"),
  (false, 0x544B4D20, "Turkmen"),
  (false, 0x544D4820, "Tamashek"),
  (false, 0x544D4E20, "Temne"),
  (false, 0x544E4120, "Tswana"),
  (false, 0x544E4520, "TundraNenets"),
  (false, 0x544E4720, "Tonga"),
  (false, 0x544F4420, "Todo"),
  (false, 0x544F4430, "Toma"),
  (false, 0x54504920, "TokPisin"),
  (false, 0x54524B20, "Turkish"),
  (false, 0x54534720, "Tsonga"),
  (false, 0x54554120, "TuroyoAramaic"),
  (false, 0x54554D20, "Tulu"),
  (false, 0x54554C20, "Tumbuka"),
  (false, 0x54555620, "Tuvin"),
  (false, 0x54564C20, "Tuvalu"),
  (false, 0x54574920, "Twi"),
  (false, 0x54595A20, "Tay"),
  (false, 0x545A4D20, "Tamazight"),
  (false, 0x545A4F20, "Tzotzil"),
  (false, 0x55444D20, "Udmurt"),
  (false, 0x554B5220, "Ukrainian"),
  (false, 0x554D4220, "Umbundu"),
  (false, 0x55524420, "Urdu"),
  (false, 0x55534220, "UpperSorbian"),
  (false, 0x55594720, "Uyghur"),
  (false, 0x555A4220, "Uzbek"),
  (false, 0x56454320, "Venetian"),
  (false, 0x56454E20, "Venda"),
  (false, 0x56495420, "Vietnamese"),
  (false, 0x564F4C20, "Volapuk"),
  (false, 0x56524F20, "Voro"),
  (false, 0x57412020, "Wa"),
  (false, 0x57414720, "Wagdi"),
  (false, 0x57415220, "WarayWaray"),
  (false, 0x57435220, "WestCree"),
  (false, 0x57454C20, "Welsh"),
  (false, 0x574C4E20, "Walloon"),
  (false, 0x574C4620, "Wolof"),
  (false, 0x57544D20, "Mewati"),
  (false, 0x58424420, "Lu"),
  (false, 0x58485320, "Xhosa"),
  (false, 0x584A4220, "Minjangbal"),
  (false, 0x584F4720, "Soga"),
  (false, 0x58504520, "KpelleLiberia"),
  (false, 0x59414B20, "Sakha"),
  (false, 0x59414F20, "Yao"),
  (false, 0x59415020, "Yapese"),
  (false, 0x59424120, "Yoruba"),
  (false, 0x59435220, "YCree"),
  (false, 0x59494320, "YiClassic"),
  (false, 0x59494D20, "YiModern"),
  (false, 0x5A454120, "Zealandic"),
  (false, 0x5A474820, "StandardMorrocanTamazigh"),
  (false, 0x5A484120, "Zhuang"),
  (false, 0x5A484820, "Chinese"),
  (false, 0x5A485020, "ChinesePhonetic"),
  (false, 0x5A485320, "ChineseSimplified"),
  (false, 0x5A485420, "ChineseTraditional"),
  (false, 0x5A4E4420, "Zande"),
  (false, 0x5A554C20, "Zulu"),
  (false, 0x5A5A4120, "Zazaki")]

/-- The model of `src/layout/language.rs:77-678` is its translation. -/
theorem Language.tag_arms_eq : Language.tag_arms = OpenType.language.rows.map fun row => (row.gated, row.tag, row.variant) := rfl

/-- `src/layout/language.rs:77-678`. -/
def Language.name_arms : List (Arm String String) := [
  (false, "Abaza", "Abaza"),
  (false, "Abkhazian", "Abkhazian"),
  (false, "Acholi", "Acholi"),
  (false, "Achi", "Achi"),
  (false, "Adyghe", "Adyghe"),
  (false, "Afrikaans", "Afrikaans"),
  (false, "Afar", "Afar"),
  (false, "Agaw", "Agaw"),
  (false, "Aiton", "Aiton"),
  (false, "Akan", "Akan"),
  (false, "Alsatian", "Alsatian"),
  (false, "Altai", "Altai"),
  (false, "Amharic", "Amharic"),
  (false, "AngloSaxon", "Anglo-Saxon"),
  (false, "AmericanistPhoneticNotation", "Phonetic Transcription, Americanist"),
  (false, "Arabic", "Arabic"),
  (false, "Aragonese", "Aragonese"),
  (false, "Aari", "Aari"),
  (false, "Rakhine", "Rakhine"),
  (false, "Assamese", "Assamese"),
  (false, "Asturian", "Asturian"),
  (false, "Athapaskan", "Athapaskan"),
  (false, "Avar", "Avar"),
  (false, "Awadhi", "Awadhi"),
  (false, "Aymara", "Aymara"),
  (false, "Torki", "Torki"),
  (false, "Azerbaijani", "Azerbaijani"),
  (false, "Badaga", "Badaga"),
  (false, "Banda", "Banda"),
  (false, "Baghelkhandi", "Baghelkhandi"),
  (false, "Balkar", "Balkar"),
  (false, "Balinese", "Balinese"),
  (false, "Bavarian", "Bavarian"),
  (false, "Baule", "Baulé"),
  (false, "BatakToba", "Batak Toba"),
  (false, "Berber", "Berber"),
  (false, "Bench", "Bench"),
  (false, "BibleCree", "Bible Cree"),
  (false, "Bandjalang", "Bandjalang"),
  (false, "Belarussian", "Belarussian"),
  (false, "Bemba", "Bemba"),
  (false, "Bengali", "Bengali"),
  (false, "Haryanvi", "Haryanvi"),
  (false, "Bagri", "Bagri"),
  (false, "Bulgarian", "Bulgarian"),
  (false, "Bhili", "Bhili"),
  (false, "Bhojpuri", "Bhojpuri"),
  (false, "Bikol", "Bikol"),
  (false, "Bilen", "Bilen"),
  (false, "Bislama", "Bislama"),
  (false, "Kanauji", "Kanauji"),
  (false, "Blackfoot", "Blackfoot"),
  (false, "Baluchi", "Baluchi"),
  (false, "PaoKaren", "Pa’o Karen"),
  (false, "Balante", "Balante"),
  (false, "Balti", "Balti"),
  (false, "Bambara", "Bambara (Bamanankan)"),
  (false, "Bamileke", "Bamileke"),
  (false, "Bosnian", "Bosnian"),
  (false, "BishnupriyaManipuri", "Bishnupriya Manipuri"),
  (false, "Breton", "Breton"),
  (false, "Brahui", "Brahui"),
  (false, "BrajBhasha", "Braj Bhasha"),
  (false, "Burmese", "Burmese"),
  (false, "Bodo", "Bodo"),
  (false, "Bashkir", "Bashkir"),
  (false, "Burushaski", "Burushaski"),
  (false, "Beti", "Beti"),
  (false, "BatakSimalungun", "Batak Simalungun"),
  (false, "Bugis", "Bugis"),
  (false, "Medumba", "Medumba"),
  (false, "Kaqchikel", "Kaqchikel"),
  (false, "Catalan", "Catalan"),
  (false, "ZamboangaChavacano", "Zamboanga Chavacano"),
  (false, "Cebuano", "Cebuano"),
  (false, "Chechen", "Chechen"),
  (false, "ChahaGurage", "Chaha Gurage"),
  (false, "Chattisgarhi", "Chattisgarhi"),
  (false, "Chichewa", "Chichewa (Chewa, Nyanja)"),
  (false, "Chukchi", "Chukchi"),
  (false, "Chuukese", "Chuukese"),
  (false, "Choctaw", "Choctaw"),
  (false, "Chipewyan", "Chipewyan"),
  (false, "Cherokee", "Cherokee"),
  (false, "Chamorro", "Chamorro"),
  (false, "Chuvash", "Chuvash"),
  (false, "Cheyenne", "Cheyenne"),
  (false, "Chiga", "Chiga"),
  (false, "Comorian", "Comorian"),
  (false, "Coptic", "Coptic"),
  (false, "Cornish", "Cornish"),
  (false, "Corsican", "Corsican"),
  (false, "Creoles", "Creoles"),
  (false, "Cree", "Cree"),
  (false, "Carrier", "Carrier"),
  (false, "CrimeanTatar", "Crimean Tatar"),
  (false, "Kashubian", "Kashubian"),
  (false, "ChurchSlavonic", "Church Slavonic"),
  (false, "Czech", "Czech"),
  (false, "Chittagonian", "Chittagonian"),
  (false, "SanBlasKuna", "San Blas Kuna"),
  (false, "Danish", "Danish"),
  (false, "Dargwa", "Dargwa"),
  (false, "Dayi", "Dayi"),
  (false, "WoodsCree", "Woods Cree"),
  (true, "Default", "Default"),
  (false, "German", "German"),
  (false, "Dogri", "Dogri"),
  (false, "DogriMacrolanguage", "Dogri"),
  (false, "Dhangu", "Dhangu"),
  (false, "DivehiDeprecated", "Divehi (Dhivehi, Maldivian)"),
  (false, "Dimli", "Dimli"),
  (false, "Divehi", "Divehi (Dhivehi, Maldivian)"),
  (false, "Zarma", "Zarma"),
  (false, "Djambarrpuyngu", "Djambarrpuyngu"),
  (false, "Dangme", "Dangme"),
  (false, "Dan", "Dan"),
  (false, "Dinka", "Dinka"),
  (false, "Dari", "Dari"),
  (false, "Dhuwal", "Dhuwal"),
  (false, "Dungan", "Dungan"),
  (false, "Dzongkha", "Dzongkha"),
  (false, "Ebira", "Ebira"),
  (false, "EasternCree", "Eastern Cree"),
  (false, "Edo", "Edo"),
  (false, "Efik", "Efik"),
  (false, "Greek", "Greek"),
  (false, "EasternManinkakan", "Eastern Maninkakan"),
  (false, "English", "English"),
  (false, "Erzya", "Erzya"),
  (false, "Spanish", "Spanish"),
  (false, "CentralYupik", "Central Yupik"),
  (false, "Estonian", "Estonian"),
  (false, "Basque", "Basque"),
  (false, "Evenki", "Evenki"),
  (false, "Even", "Even"),
  (false, "Ewe", "Ewe"),
  (false, "FrenchAntillean", "French Antillean"),
  (false, "Fang", "Fang"),
  (false, "Persian", "Persian"),
  (false, "Fanti", "Fanti"),
  (false, "Finnish", "Finnish"),
  (false, "Fijian", "Fijian"),
  (false, "DutchFlemish", "Dutch (Flemish)"),
  (false, "Fefe", "Fe’fe’"),
  (false, "ForestNenets", "Forest Nenets"),
  (false, "Fon", "Fon"),
  (false, "Faroese", "Faroese"),
  (false, "French", "French"),
  (false, "CajunFrench", "Cajun French"),
  (false, "Frisian", "Frisian"),
  (false, "Friulian", "Friulian"),
  (false, "Arpitan", "Arpitan"),
  (false, "Futa", "Futa"),
  (false, "Fulah", "Fulah"),
  (false, "NigerianFulfulde", "Nigerian Fulfulde"),
  (false, "Ga", "Ga"),
  (false, "ScottishGaelic", "Scottish Gaelic (Gaelic)"),
  (false, "Gagauz", "Gagauz"),
  (false, "Galician", "Galician"),
  (false, "Garshuni", "Garshuni"),
  (false, "Garhwali", "Garhwali"),
  (false, "Geez", "Ge’ez"),
  (false, "Githabul", "Githabul"),
  (false, "Gilyak", "Gilyak"),
  (false, "Kiribati", "Kiribati (Gilbertese)"),
  (false, "KpelleGuinea", "Kpelle (Guinea)"),
  (false, "Gilaki", "Gilaki"),
  (false, "Gumuz", "Gumuz"),
  (false, "Gumatj", "Gumatj"),
  (false, "Gogo", "Gogo"),
  (false, "Gondi", "Gondi"),
  (false, "Greenlandic", "Greenlandic"),
  (false, "Garo", "Garo"),
  (false, "Guarani", "Guarani"),
  (false, "Wayuu", "Wayuu"),
  (false, "Gupapuyngu", "Gupapuyngu"),
  (false, "Gujarati", "Gujarati"),
  (false, "Gusii", "Gusii"),
  (false, "Haitian", "Haitian (Haitian Creole)"),
  (false, "Halam", "Halam"),
  (false, "Harauti", "Harauti"),
  (false, "Hausa", "Hausa"),
  (false, "Hawaiian", "Hawaiian"),
  (false, "Haya", "Haya"),
  (false, "Hazaragi", "Hazaragi"),
  (false, "HammerBanna", "Hammer-Banna"),
  (false, "Herero", "Herero"),
  (false, "Hiligaynon", "Hiligaynon"),
  (false, "Hindi", "Hindi"),
  (false, "HighMari", "High Mari"),
  (false, "Hmong", "Hmong"),
  (false, "HiriMotu", "Hiri Motu"),
  (false, "Hindko", "Hindko"),
  (false, "Ho", "Ho"),
  (false, "Harari", "Harari"),
  (false, "Croatian", "Croatian"),
  (false, "Hungarian", "Hungarian"),
  (false, "Armenian", "Armenian"),
  (false, "ArmenianEast", "Armenian East"),
  (false, "Iban", "Iban"),
  (false, "Ibibio", "Ibibio"),
  (false, "Igbo", "Igbo"),
  (false, "Ijolanguages", "Ijo languages"),
  (false, "Ido", "Ido"),
  (false, "Interlingue", "Interlingue"),
  (false, "Ilokano", "Ilokano"),
  (false, "Interlingua", "Interlingua"),
  (false, "Indonesian", "Indonesian"),
  (false, "Ingush", "Ingush"),
  (false, "Inuktitut", "Inuktitut"),
  (false, "Inupiat", "Inupiat"),
  (false, "InternationalPhoneticAlphabet", "Phonetic transcription, IPA"),
  (false, "Irish", "Irish"),
  (false, "IrishTraditional", "Irish Traditional"),
  (false, "Icelandic", "Icelandic"),
  (false, "InariSami", "Inari Sami"),
  (false, "Italian", "Italian"),
  (false, "Hebrew", "Hebrew"),
  (false, "JamaicanCreole", "Jamaican Creole"),
  (false, "Japanese", "Japanese"),
  (false, "Javanese", "Javanese"),
  (false, "Lojban", "Lojban"),
  (false, "Krymchak", "Krymchak"),
  (false, "Yiddish", "Yiddish"),
  (false, "Ladino", "Ladino"),
  (false, "Jula", "Jula"),
  (false, "Kabardian", "Kabardian"),
  (false, "Kabyle", "Kabyle"),
  (false, "Kachchi", "Kachchi"),
  (false, "Kalenjin", "Kalenjin"),
  (false, "Kannada", "Kannada"),
  (false, "Karachay", "Karachay"),
  (false, "Georgian", "Georgian"),
  (false, "Kazakh", "Kazakh"),
  (false, "Makonde", "Makonde"),
  (false, "Kabuverdianu", "Kabuverdianu (Crioulo)"),
  (false, "Kebena", "Kebena"),
  (false, "Kekchi", "Kekchi"),
  (false, "KhutsuriGeorgian", "Khutsuri Georgian"),
  (false, "Khakass", "Khakass"),
  (false, "KhantyKazim", "Khanty-Kazim"),
  (false, "Khmer", "Khmer"),
  (false, "KhantyShurishkar", "Khanty-Shurishkar"),
  (false, "KhamtiShan", "Khamti Shan"),
  (false, "KhantyVakhi", "Khanty-Vakhi"),
  (false, "Khowar", "Khowar"),
  (false, "Kikuyu", "Kikuyu (Gikuyu)"),
  (false, "Kirghiz", "Kirghiz (Kyrgyz)"),
  (false, "Kisii", "Kisii"),
  (false, "Kirmanjki", "Kirmanjki"),
  (false, "SouthernKiwai", "Southern Kiwai"),
  (false, "EasternPwoKaren", "Eastern Pwo Karen"),
  (false, "Kokni", "Kokni"),
  (false, "Kalmyk", "Kalmyk"),
  (false, "Kamba", "Kamba"),
  (false, "Kumaoni", "Kumaoni"),
  (false, "Komo", "Komo"),
  (false, "Komso", "Komso"),
  (false, "KhorasaniTurkic", "Khorasani Turkic"),
  (false, "Kanuri", "Kanuri"),
  (false, "Kodagu", "Kodagu"),
  (false, "KoreanOldHangul", "Korean Old Hangul"),
  (false, "Konkani", "Konkani"),
  (false, "Kikongo", "Kikongo"),
  (false, "Komi", "Komi"),
  (false, "Kongo", "Kongo"),
  (false, "KomiPermyak", "Komi-Permyak"),
  (false, "Korean", "Korean"),
  (false, "Kosraean", "Kosraean"),
  (false, "KomiZyrian", "Komi-Zyrian"),
  (false, "Kpelle", "Kpelle"),
  (false, "Krio", "Krio"),
  (false, "Karakalpak", "Karakalpak"),
  (false, "Karelian", "Karelian"),
  (false, "Karaim", "Karaim"),
  (false, "Karen", "Karen"),
  (false, "Koorete", "Koorete"),
  (false, "Kashmiri", "Kashmiri"),
  (false, "Ripuarian", "Ripuarian"),
  (false, "Khasi", "Khasi"),
  (false, "KildinSami", "Kildin Sami"),
  (false, "SgawKaren", "S’gaw Karen"),
  (false, "Kuanyama", "Kuanyama"),
  (false, "Kui", "Kui"),
  (false, "Kulvi", "Kulvi"),
  (false, "Kumyk", "Kumyk"),
  (false, "Kurdish", "Kurdish"),
  (false, "Kurukh", "Kurukh"),
  (false, "Kuy", "Kuy"),
  (false, "Koryak", "Koryak"),
  (false, "WesternKayah", "Western Kayah"),
  (false, "Ladin", "Ladin"),
  (false, "Lahuli", "Lahuli"),
  (false, "Lak", "Lak"),
  (false, "Lambani", "Lambani"),
  (false, "Lao", "Lao"),
  (false, "Latin", "Latin"),
  (false, "Laz", "Laz"),
  (false, "LCree", "L-Cree"),
  (false, "Ladakhi", "Ladakhi"),
  (false, "Lezgi", "Lezgi"),
  (false, "Ligurian", "Ligurian"),
  (false, "Limburgish", "Limburgish"),
  (false, "Lingala", "Lingala"),
  (false, "Lisu", "Lisu"),
  (false, "Lampung", "Lampung"),
  (false, "Laki", "Laki"),
  (false, "LowMari", "Low Mari"),
  (false, "Limbu", "Limbu"),
  (false, "Lombard", "Lombard"),
  (false, "Lomwe", "Lomwe"),
  (false, "Loma", "Loma"),
  (false, "Luri", "Luri"),
  (false, "LowerSorbian", "Lower Sorbian"),
  (false, "LuleSami", "Lule Sami"),
  (false, "Lithuanian", "Lithuanian"),
  (false, "Luxembourgish", "Luxembourgish"),
  (false, "LubaLulua", "Luba-Lulua"),
  (false, "LubaKatanga", "Luba-Katanga"),
  (false, "Ganda", "Ganda"),
  (false, "Luyia", "Luyia"),
  (false, "Luo", "Luo"),
  (false, "Latvian", "Latvian"),
  (false, "Madura", "Madura"),
  (false, "Magahi", "Magahi"),
  (false, "Marshallese", "Marshallese"),
  (false, "Majang", "Majang"),
  (false, "Makhuwa", "Makhuwa"),
  (false, "Malayalam", "Malayalam"),
  (false, "Mam", "Mam"),
  (false, "Mansi", "Mansi"),
  (false, "Mapudungun", "Mapudungun"),
  (false, "Marathi", "Marathi"),
  (false, "Marwari", "Marwari"),
  (false, "Mbundu", "Mbundu"),
  (false, "Mbo", "Mbo"),
  (false, "Manchu", "Manchu"),
  (false, "MooseCree", "Moose Cree"),
  (false, "Mende", "Mende"),
  (false, "Mandar", "Mandar"),
  (false, "Meen", "Me’en"),
  (false, "Meru", "Meru"),
  (false, "Morisyen", "Morisyen"),
  (false, "Minangkabau", "Minangkabau"),
  (false, "Mizo", "Mizo"),
  (false, "Macedonian", "Macedonian"),
  (false, "Makasar", "Makasar"),
  (false, "Kituba", "Kituba"),
  (false, "Male", "Male"),
  (false, "Malagasy", "Malagasy"),
  (false, "Malinke", "Malinke"),
  (false, "MalayalamReformed", "Malayalam Reformed"),
  (false, "Malay", "Malay"),
  (false, "Mandinka", "Mandinka"),
  (false, "Mongolian", "Mongolian"),
  (false, "Manipuri", "Manipuri"),
  (false, "Maninka", "Maninka"),
  (false, "Manx", "Manx"),
  (false, "Mohawk", "Mohawk"),
  (false, "Moksha", "Moksha"),
  (false, "Moldavian", "Moldavian"),
  (false, "Mon", "Mon"),
  (false, "Moroccan", "Moroccan"),
  (false, "Mossi", "Mossi"),
  (false, "Maori", "Maori"),
  (false, "Maithili", "Maithili"),
  (false, "Maltese", "Maltese"),
  (false, "Mundari", "Mundari"),
  (false, "Muscogee", "Muscogee"),
  (false, "Mirandese", "Mirandese"),
  (false, "HmongDaw", "Hmong Daw"),
  (false, "Mayan", "Mayan"),
  (false, "Mazanderani", "Mazanderani"),
  (false, "NagaAssamese", "Naga-Assamese"),
  (false, "Nahuatl", "Nahuatl"),
  (false, "Nanai", "Nanai"),
  (false, "Neapolitan", "Neapolitan"),
  (false, "Naskapi", "Naskapi"),
  (false, "Nauruan", "Nauruan"),
  (false, "Navajo", "Navajo"),
  (false, "NCree", "N-Cree"),
  (false, "Ndebele", "Ndebele"),
  (false, "Ndau", "Ndau"),
  (false, "Ndonga", "Ndonga"),
  (false, "LowSaxon", "Low Saxon"),
  (false, "Nepali", "Nepali"),
  (false, "Newari", "Newari"),
  (false, "Ngbaka", "Ngbaka"),
  (false, "Nagari", "Nagari"),
  (false, "NorwayHouseCree", "Norway House Cree"),
  (false, "Nisi", "Nisi"),
  (false, "Niuean", "Niuean"),
  (false, "Nyankole", "Nyankole"),
  (false, "NKo", "N’Ko"),
  (false, "Dutch", "Dutch"),
  (false, "Nimadi", "Nimadi"),
  (false, "Nogai", "Nogai"),
  (false, "Norwegian", "Norwegian"),
  (false, "Novial", "Novial"),
  (false, "NorthernSami", "Northern Sami"),
  (false, "NorthernSotho", "Sotho, Northern"),
  (false, "NorthernTai", "Northern Tai"),
  (false, "Esperanto", "Esperanto"),
  (false, "Nyamwezi", "Nyamwezi"),
  (false, "NorwegianNynorsk", "Norwegian Nynorsk (Nynorsk, Norwegian)"),
  (false, "MbembeTigon", "Mbembe Tigon"),
  (false, "Occitan", "Occitan"),
  (false, "OjiCree", "Oji-Cree"),
  (false, "Ojibway", "Ojibway"),
  (false, "Odia", "Odia"),
  (false, "Oromo", "Oromo"),
  (false, "Ossetian", "Ossetian"),
  (false, "PalestinianAramaic", "Palestinian Aramaic"),
  (false, "Pangasinan", "Pangasinan"),
  (false, "Pali", "Pali"),
  (false, "Pampangan", "Pampangan"),
  (false, "Punjabi", "Punjabi"),
  (false, "Palpa", "Palpa"),
  (false, "Papiamentu", "Papiamentu"),
  (false, "Pashto", "Pashto"),
  (false, "Palauan", "Palauan"),
  (false, "Bouyei", "Bouyei"),
  (false, "Picard", "Picard"),
  (false, "PennsylvaniaGerman", "Pennsylvania German"),
  (false, "PolytonicGreek", "Polytonic Greek"),
  (false, "Phake", "Phake"),
  (false, "Norfolk", "Norfolk"),
  (false, "Filipino", "Filipino"),
  (false, "Palaung", "Palaung"),
  (false, "Polish", "Polish"),
  (false, "Piemontese", "Piemontese"),
  (false, "WesternPanjabi", "Western Panjabi"),
  (false, "Pocomchi", "Pocomchi"),
  (false, "Pohnpeian", "Pohnpeian"),
  (false, "Provencal", "Provencal"),
  (false, "Portuguese", "Portuguese"),
  (false, "WesternPwoKaren", "Western Pwo Karen"),
  (false, "Chin", "Chin"),
  (false, "Kiche", "K’iche’"),
  (false, "QuechuaBolivia", "Quechua (Bolivia)"),
  (false, "Quechua", "Quechua"),
  (false, "QuechuaEcuador", "Quechua (Ecuador)"),
  (false, "QuechuaPeru", "Quechua (Peru)"),
  (false, "Rajasthani", "Rajasthani"),
  (false, "Rarotongan", "Rarotongan"),
  (false, "RussianBuriat", "Russian Buriat"),
  (false, "RCree", "R-Cree"),
  (false, "Rejang", "Rejang"),
  (false, "Riang", "Riang"),
  (false, "Tarifit", "Tarifit"),
  (false, "Ritarungo", "Ritarungo"),
  (false, "Arakwal", "Arakwal"),
  (false, "Romansh", "Romansh"),
  (false, "VlaxRomani", "Vlax Romani"),
  (false, "Romanian", "Romanian"),
  (false, "Romany", "Romany"),
  (false, "Rusyn", "Rusyn"),
  (false, "Rotuman", "Rotuman"),
  (false, "Kinyarwanda", "Kinyarwanda"),
  (false, "Rundi", "Rundi"),
  (false, "Aromanian", "Aromanian"),
  (false, "Russian", "Russian"),
  (false, "Sadri", "Sadri"),
  (false, "Sanskrit", "Sanskrit"),
  (false, "Sasak", "Sasak"),
  (false, "Santali", "Santali"),
  (false, "Sayisi", "Sayisi"),
  (false, "Sicilian", "Sicilian"),
  (false, "Scots", "Scots"),
  (false, "Sekota", "Sekota"),
  (false, "Selkup", "Selkup"),
  (false, "OldIrish", "Old Irish"),
  (false, "Sango", "Sango"),
  (false, "Samogitian", "Samogitian"),
  (false, "Tachelhit", "Tachelhit"),
  (false, "Shan", "Shan"),
  (false, "Sibe", "Sibe"),
  (false, "Sidamo", "Sidamo"),
  (false, "SilteGurage", "Silte Gurage"),
  (false, "SkoltSami", "Skolt Sami"),
  (false, "Slovak", "Slovak"),
  (false, "NorthSlavey", "North Slavey"),
  (false, "Slavey", "Slavey"),
  (false, "Slovenian", "Slovenian"),
  (false, "Somali", "Somali"),
  (false, "Samoan", "Samoan"),
  (false, "Sena", "Sena"),
  (false, "Shona", "Shona"),
  (false, "Sindhi", "Sindhi"),
  (false, "Sinhala", "Sinhala (Sinhalese)"),
  (false, "Soninke", "Soninke"),
  (false, "SodoGurage", "Sodo Gurage"),
  (false, "Songe", "Songe"),
  (false, "SouthernSotho", "Sotho, Southern"),
  (false, "Albanian", "Albanian"),
  (false, "Serbian", "Serbian"),
  (false, "Sardinian", "Sardinian"),
  (false, "Saraiki", "Saraiki"),
  (false, "Serer", "Serer"),
  (false, "SouthSlavey", "South Slavey"),
  (false, "SouthernSami", "Southern Sami"),
  (false, "SaterlandFrisian", "Saterland Frisian"),
  (false, "Sukuma", "Sukuma"),
  (false, "Sundanese", "Sundanese"),
  (false, "Suri", "Suri"),
  (false, "Svan", "Svan"),
  (false, "Swedish", "Swedish"),
  (false, "SwadayaAramaic", "Swadaya Aramaic"),
  (false, "Swahili", "Swahili"),
  (false, "Swati", "Swati"),
  (false, "Sutu", "Sutu"),
  (false, "UpperSaxon", "Upper Saxon"),
  (false, "Sylheti", "Sylheti"),
  (false, "Syriac", "Syriac"),
  (false, "Silesian", "Silesian"),
  (false, "Tabasaran", "Tabasaran"),
  (false, "Tajiki", "Tajiki"),
  (false, "Tamil", "Tamil"),
  (false, "Tatar", "Tatar"),
  (false, "THCree", "TH-Cree"),
  (false, "DehongDai", "Dehong Dai"),
  (false, "Telugu", "Telugu"),
  (false, "Tetum", "Tetum"),
  (false, "Tagalog", "Tagalog"),
  (false, "Tongan", "Tongan"),
  (false, "Tigre", "Tigre"),
  (false, "Tigrinya", "Tigrinya"),
  (false, "Thai", "Thai"),
  (false, "Tahitian", "Tahitian"),
  (false, "Tibetan", "Tibetan"),
  (false, "Tiv", "Tiv"),
  (false, "Turkmen", "Turkmen"),
  (false, "Tamashek", "Tamashek"),
  (false, "Temne", "Temne"),
  (false, "Tswana", "Tswana"),
  (false, "TundraNenets", "Tundra Nenets"),
  (false, "Tonga", "Tonga"),
  (false, "Todo", "Todo"),
  (false, "Toma", "Toma"),
  (false, "TokPisin", "Tok Pisin"),
  (false, "Turkish", "Turkish"),
  (false, "Tsonga", "Tsonga"),
  (false, "TuroyoAramaic", "Turoyo Aramaic"),
  (false, "Tulu", "Tulu"),
  (false, "Tumbuka", "Tumbuka"),
  (false, "Tuvin", "Tuvin"),
  (false, "Tuvalu", "Tuvalu"),
  (false, "Twi", "Twi"),
  (false, "Tay", "Tày"),
  (false, "Tamazight", "Tamazight"),
  (false, "Tzotzil", "Tzotzil"),
  (false, "Udmurt", "Udmurt"),
  (false, "Ukrainian", "Ukrainian"),
  (false, "Umbundu", "Umbundu"),
  (false, "Urdu", "Urdu"),
  (false, "UpperSorbian", "Upper Sorbian"),
  (false, "Uyghur", "Uyghur"),
  (false, "Uzbek", "Uzbek"),
  (false, "Venetian", "Venetian"),
  (false, "Venda", "Venda"),
  (false, "Vietnamese", "Vietnamese"),
  (false, "Volapuk", "Volapük"),
  (false, "Voro", "Võro"),
  (false, "Wa", "Wa"),
  (false, "Wagdi", "Wagdi"),
  (false, "WarayWaray", "Waray-Waray"),
  (false, "WestCree", "West-Cree"),
  (false, "Welsh", "Welsh"),
  (false, "Walloon", "Walloon"),
  (false, "Wolof", "Wolof"),
  (false, "Mewati", "Mewati"),
  (false, "Lu", "Lü"),
  (false, "Xhosa", "Xhosa"),
  (false, "Minjangbal", "Minjangbal"),
  (false, "Soga", "Soga"),
  (false, "KpelleLiberia", "Kpelle (Liberia)"),
  (false, "Sakha", "Sakha"),
  (false, "Yao", "Yao"),
  (false, "Yapese", "Yapese"),
  (false, "Yoruba", "Yoruba"),
  (false, "YCree", "Y-Cree"),
  (false, "YiClassic", "Yi Classic"),
  (false, "YiModern", "Yi Modern"),
  (false, "Zealandic", "Zealandic"),
  (false, "StandardMorrocanTamazigh", "Standard Morrocan Tamazigh"),
  (false, "Zhuang", "Zhuang"),
  (false, "Chinese", "Chinese, Hong Kong SAR"),
  (false, "ChinesePhonetic", "Chinese Phonetic"),
  (false, "ChineseSimplified", "Chinese Simplified"),
  (false, "ChineseTraditional", "Chinese Traditional"),
  (false, "Zande", "Zande"),
  (false, "Zulu", "Zulu"),
  (false, "Zazaki", "Zazaki")]

/-- The model of `src/layout/language.rs:77-678` is its translation. -/
theorem Language.name_arms_eq : Language.name_arms = OpenType.language.rows.map fun row => (row.gated, row.variant, row.name) := rfl

/-- `src/layout/language.rs:77-678`. -/
def Language.into_arms : List (Arm String Tag) := [
  (false, "Abaza", 0x41424120),
  (false, "Abkhazian", 0x41424B20),
  (false, "Acholi", 0x41434820),
  (false, "Achi", 0x41435220),
  (false, "Adyghe", 0x41445920),
  (false, "Afrikaans", 0x41464B20),
  (false, "Afar", 0x41465220),
  (false, "Agaw", 0x41475720),
  (false, "Aiton", 0x41494F20),
  (false, "Akan", 0x414B4120),
  (false, "Alsatian", 0x414C5320),
  (false, "Altai", 0x414C5420),
  (false, "Amharic", 0x414D4820),
  (false, "AngloSaxon", 0x414E4720),
  (false, "AmericanistPhoneticNotation", 0x41505048),
  (false, "Arabic", 0x41524120),
  (false, "Aragonese", 0x41524720),
  (false, "Aari", 0x41524920),
  (false, "Rakhine", 0x41524B20),
  (false, "Assamese", 0x41534D20),
  (false, "Asturian", 0x41535420),
  (false, "Athapaskan", 0x41544820),
  (false, "Avar", 0x41565220),
  (false, "Awadhi", 0x41574120),
  (false, "Aymara", 0x41594D20),
  (false, "Torki", 0x415A4220),
  (false, "Azerbaijani", 0x415A4520),
  (false, "Badaga", 0x42414420),
  (false, "Banda", 0x42414430),
  (false, "Baghelkhandi", 0x42414720),
  (false, "Balkar", 0x42414C20),
  (false, "Balinese", 0x42414E20),
  (false, "Bavarian", 0x42415220),
  (false, "Baule", 0x42415520),
  (false, "BatakToba", 0x42424320),
  (false, "Berber", 0x42425220),
  (false, "Bench", 0x42434820),
  (false, "BibleCree", 0x42435220),
  (false, "Bandjalang", 0x42445920),
  (false, "Belarussian", 0x42454C20),
  (false, "Bemba", 0x42454D20),
  (false, "Bengali", 0x42454E20),
  (false, "Haryanvi", 0x42474320),
  (false, "Bagri", 0x42475120),
  (false, "Bulgarian", 0x42475220),
  (false, "Bhili", 0x42484920),
  (false, "Bhojpuri", 0x42484F20),
  (false, "Bikol", 0x42494B20),
  (false, "Bilen", 0x42494C20),
  (false, "Bislama", 0x42495320),
  (false, "Kanauji", 0x424A4A20),
  (false, "Blackfoot", 0x424B4620),
  (false, "Baluchi", 0x424C4920),
  (false, "PaoKaren", 0x424C4B20),
  (false, "Balante", 0x424C4E20),
  (false, "Balti", 0x424C5420),
  (false, "Bambara", 0x424D4220),
  (false, "Bamileke", 0x424D4C20),
  (false, "Bosnian", 0x424F5320),
  (false, "BishnupriyaManipuri", 0x42505920),
  (false, "Breton", 0x42524520),
  (false, "Brahui", 0x42524820),
  (false, "BrajBhasha", 0x42524920),
  (false, "Burmese", 0x42524D20),
  (false, "Bodo", 0x42525820),
  (false, "Bashkir", 0x42534820),
  (false, "Burushaski", 0x42534B20),
  (false, "Beti", 0x42544920),
  (false, "BatakSimalungun", 0x42545320),
  (false, "Bugis", 0x42554720),
  (false, "Medumba", 0x42595620),
  (false, "Kaqchikel", 0x43414B20),
  (false, "Catalan", 0x43415420),
  (false, "ZamboangaChavacano", 0x43424B20),
  (false, "Cebuano", 0x43454220),
  (false, "Chechen", 0x43484520),
  (false, "ChahaGurage", 0x43484720),
  (false, "Chattisgarhi", 0x43484820),
  (false, "Chichewa", 0x43484920),
  (false, "Chukchi", 0x43484B20),
  (false, "Chuukese", 0x43484B30),
  (false, "Choctaw", 0x43484F20),
  (false, "Chipewyan", 0x43485020),
  (false, "Cherokee", 0x43485220),
  (false, "Chamorro", 0x43484120),
  (false, "Chuvash", 0x43485520),
  (false, "Cheyenne", 0x43485920),
  (false, "Chiga", 0x43474720),
  (false, "Comorian", 0x434D5220),
  (false, "Coptic", 0x434F5020),
  (false, "Cornish", 0x434F5220),
  (false, "Corsican", 0x434F5320),
  (false, "Creoles", 0x43505020),
  (false, "Cree", 0x43524520),
  (false, "Carrier", 0x43525220),
  (false, "CrimeanTatar", 0x43525420),
  (false, "Kashubian", 0x43534220),
  (false, "ChurchSlavonic", 0x43534C20),
  (false, "Czech", 0x43535920),
  (false, "Chittagonian", 0x43544720),
  (false, "SanBlasKuna", 0x43554B20),
  (false, "Danish", 0x44414E20),
  (false, "Dargwa", 0x44415220),
  (false, "Dayi", 0x44415820),
  (false, "WoodsCree", 0x44435220),
  (true, "Default", 0x44464C54),
  (false, "German", 0x44455520),
  (false, "Dogri", 0x44474F20),
  (false, "DogriMacrolanguage", 0x44475220),
  (false, "Dhangu", 0x44484720),
  (false, "DivehiDeprecated", 0x44485620),
  (false, "Dimli", 0x44495120),
  (false, "Divehi", 0x44495620),
  (false, "Zarma", 0x444A5220),
  (false, "Djambarrpuyngu", 0x444A5230),
  (false, "Dangme", 0x444E4720),
  (false, "Dan", 0x444E4A20),
  (false, "Dinka", 0x444E4B20),
  (false, "Dari", 0x44524920),
  (false, "Dhuwal", 0x44554A20),
  (false, "Dungan", 0x44554E20),
  (false, "Dzongkha", 0x445A4E20),
  (false, "Ebira", 0x45424920),
  (false, "EasternCree", 0x45435220),
  (false, "Edo", 0x45444F20),
  (false, "Efik", 0x45464920),
  (false, "Greek", 0x454C4C20),
  (false, "EasternManinkakan", 0x454D4B20),
  (false, "English", 0x454E4720),
  (false, "Erzya", 0x45525A20),
  (false, "Spanish", 0x45535020),
  (false, "CentralYupik", 0x45535520),
  (false, "Estonian", 0x45544920),
  (false, "Basque", 0x45555120),
  (false, "Evenki", 0x45564B20),
  (false, "Even", 0x45564E20),
  (false, "Ewe", 0x45574520),
  (false, "FrenchAntillean", 0x46414E20),
  (false, "Fang", 0x46414E30),
  (false, "Persian", 0x46415220),
  (false, "Fanti", 0x46415420),
  (false, "Finnish", 0x46494E20),
  (false, "Fijian", 0x464A4920),
  (false, "DutchFlemish", 0x464C4520),
  (false, "Fefe", 0x464D5020),
  (false, "ForestNenets", 0x464E4520),
  (false, "Fon", 0x464F4E20),
  (false, "Faroese", 0x464F5320),
  (false, "French", 0x46524120),
  (false, "CajunFrench", 0x46524320),
  (false, "Frisian", 0x46524920),
  (false, "Friulian", 0x46524C20),
  (false, "Arpitan", 0x46525020),
  (false, "Futa", 0x46544120),
  (false, "Fulah", 0x46554C20),
  (false, "NigerianFulfulde", 0x46555620),
  (false, "Ga", 0x47414420),
  (false, "ScottishGaelic", 0x47414520),
  (false, "Gagauz", 0x47414720),
  (false, "Galician", 0x47414C20),
  (false, "Garshuni", 0x47415220),
  (false, "Garhwali", 0x47415720),
  (false, "Geez", 0x47455A20),
  (false, "Githabul", 0x47494820),
  (false, "Gilyak", 0x47494C20),
  (false, "Kiribati", 0x47494C30),
  (false, "KpelleGuinea", 0x474B5020),
  (false, "Gilaki", 0x474C4B20),
  (false, "Gumuz", 0x474D5A20),
  (false, "Gumatj", 0x474E4E20),
  (false, "Gogo", 0x474F4720),
  (false, "Gondi", 0x474F4E20),
  (false, "Greenlandic", 0x47524E20),
  (false, "Garo", 0x47524F20),
  (false, "Guarani", 0x47554120),
  (false, "Wayuu", 0x47554320),
  (false, "Gupapuyngu", 0x47554620),
  (false, "Gujarati", 0x47554A20),
  (false, "Gusii", 0x47555A20),
  (false, "Haitian", 0x48414920),
  (false, "Halam", 0x48414C20),
  (false, "Harauti", 0x48415220),
  (false, "Hausa", 0x48415520),
  (false, "Hawaiian", 0x48415720),
  (false, "Haya", 0x48415920),
  (false, "Hazaragi", 0x48415A20),
  (false, "HammerBanna", 0x48424E20),
  (false, "Herero", 0x48455220),
  (false, "Hiligaynon", 0x48494C20),
  (false, "Hindi", 0x48494E20),
  (false, "HighMari", 0x484D4120),
  (false, "Hmong", 0x484D4E20),
  (false, "HiriMotu", 0x484D4F20),
  (false, "Hindko", 0x484E4420),
  (false, "Ho", 0x484F2020),
  (false, "Harari", 0x48524920),
  (false, "Croatian", 0x48525620),
  (false, "Hungarian", 0x48554E20),
  (false, "Armenian", 0x48594520),
  (false, "ArmenianEast", 0x48594530),
  (false, "Iban", 0x49424120),
  (false, "Ibibio", 0x49424220),
  (false, "Igbo", 0x49424F20),
  (false, "Ijolanguages", 0x494A4F20),
  (false, "Ido", 0x49444F20),
  (false, "Interlingue", 0x494C4520),
  (false, "Ilokano", 0x494C4F20),
  (false, "Interlingua", 0x494E4120),
  (false, "Indonesian", 0x494E4420),
  (false, "Ingush", 0x494E4720),
  (false, "Inuktitut", 0x494E5520),
  (false, "Inupiat", 0x49504B20),
  (false, "InternationalPhoneticAlphabet", 0x49505048),
  (false, "Irish", 0x49524920),
  (false, "IrishTraditional", 0x49525420),
  (false, "Icelandic", 0x49534C20),
  (false, "InariSami", 0x49534D20),
  (false, "Italian", 0x49544120),
  (false, "Hebrew", 0x49575220),
  (false, "JamaicanCreole", 0x4A414D20),
  (false, "Japanese", 0x4A414E20),
  (false, "Javanese", 0x4A415620),
  (false, "Lojban", 0x4A424F20),
  (false, "Krymchak", 0x4A435420),
  (false, "Yiddish", 0x4A494920),
  (false, "Ladino", 0x4A554420),
  (false, "Jula", 0x4A554C20),
  (false, "Kabardian", 0x4B414220),
  (false, "Kabyle", 0x4B414230),
  (false, "Kachchi", 0x4B414320),
  (false, "Kalenjin", 0x4B414C20),
  (false, "Kannada", 0x4B414E20),
  (false, "Karachay", 0x4B415220),
  (false, "Georgian", 0x4B415420),
  (false, "Kazakh", 0x4B415A20),
  (false, "Makonde", 0x4B444520),
  (false, "Kabuverdianu", 0x4B454120),
  (false, "Kebena", 0x4B454220),
  (false, "Kekchi", 0x4B454B20),
  (false, "KhutsuriGeorgian", 0x4B474520),
  (false, "Khakass", 0x4B484120),
  (false, "KhantyKazim", 0x4B484B20),
  (false, "Khmer", 0x4B484D20),
  (false, "KhantyShurishkar", 0x4B485320),
  (false, "KhamtiShan", 0x4B485420),
  (false, "KhantyVakhi", 0x4B485620),
  (false, "Khowar", 0x4B485720),
  (false, "Kikuyu", 0x4B494B20),
  (false, "Kirghiz", 0x4B495220),
  (false, "Kisii", 0x4B495320),
  (false, "Kirmanjki", 0x4B495520),
  (false, "SouthernKiwai", 0x4B4A4420),
  (false, "EasternPwoKaren", 0x4B4A5020),
  (false, "Kokni", 0x4B4B4E20),
  (false, "Kalmyk", 0x4B4C4D20),
  (false, "Kamba", 0x4B4D4220),
  (false, "Kumaoni", 0x4B4D4E20),
  (false, "Komo", 0x4B4D4F20),
  (false, "Komso", 0x4B4D5320),
  (false, "KhorasaniTurkic", 0x4B4D5A20),
  (false, "Kanuri", 0x4B4E5220),
  (false, "Kodagu", 0x4B4F4420),
  (false, "KoreanOldHangul", 0x4B4F4820),
  (false, "Konkani", 0x4B4F4B20),
  (false, "Kikongo", 0x4B4F4E20),
  (false, "Komi", 0x4B4F4D20),
  (false, "Kongo", 0x4B4F4E30),
  (false, "KomiPermyak", 0x4B4F5020),
  (false, "Korean", 0x4B4F5220),
  (false, "Kosraean", 0x4B4F5320),
  (false, "KomiZyrian", 0x4B4F5A20),
  (false, "Kpelle", 0x4B504C20),
  (false, "Krio", 0x4B524920),
  (false, "Karakalpak", 0x4B524B20),
  (false, "Karelian", 0x4B524C20),
  (false, "Karaim", 0x4B524D20),
  (false, "Karen", 0x4B524E20),
  (false, "Koorete", 0x4B525420),
  (false, "Kashmiri", 0x4B534820),
  (false, "Ripuarian", 0x4B534830),
  (false, "Khasi", 0x4B534920),
  (false, "KildinSami", 0x4B534D20),
  (false, "SgawKaren", 0x4B535720),
  (false, "Kuanyama", 0x4B554120),
  (false, "Kui", 0x4B554920),
  (false, "Kulvi", 0x4B554C20),
  (false, "Kumyk", 0x4B554D20),
  (false, "Kurdish", 0x4B555220),
  (false, "Kurukh", 0x4B555520),
  (false, "Kuy", 0x4B555920),
  (false, "Koryak", 0x4B594B20),
  (false, "WesternKayah", 0x4B595520),
  (false, "Ladin", 0x4C414420),
  (false, "Lahuli", 0x4C414820),
  (false, "Lak", 0x4C414B20),
  (false, "Lambani", 0x4C414D20),
  (false, "Lao", 0x4C414F20),
  (false, "Latin", 0x4C415420),
  (false, "Laz", 0x4C415A20),
  (false, "LCree", 0x4C435220),
  (false, "Ladakhi", 0x4C444B20),
  (false, "Lezgi", 0x4C455A20),
  (false, "Ligurian", 0x4C494A20),
  (false, "Limburgish", 0x4C494D20),
  (false, "Lingala", 0x4C494E20),
  (false, "Lisu", 0x4C495320),
  (false, "Lampung", 0x4C4A5020),
  (false, "Laki", 0x4C4B4920),
  (false, "LowMari", 0x4C4D4120),
  (false, "Limbu", 0x4C4D4220),
  (false, "Lombard", 0x4C4D4F20),
  (false, "Lomwe", 0x4C4D5720),
  (false, "Loma", 0x4C4F4D20),
  (false, "Luri", 0x4C524320),
  (false, "LowerSorbian", 0x4C534220),
  (false, "LuleSami", 0x4C534D20),
  (false, "Lithuanian", 0x4C544820),
  (false, "Luxembourgish", 0x4C545A20),
  (false, "LubaLulua", 0x4C554120),
  (false, "LubaKatanga", 0x4C554220),
  (false, "Ganda", 0x4C554720),
  (false, "Luyia", 0x4C554820),
  (false, "Luo", 0x4C554F20),
  (false, "Latvian", 0x4C564920),
  (false, "Madura", 0x4D414420),
  (false, "Magahi", 0x4D414720),
  (false, "Marshallese", 0x4D414820),
  (false, "Majang", 0x4D414A20),
  (false, "Makhuwa", 0x4D414B20),
  (false, "Malayalam", 0x4D414C20),
  (false, "Mam", 0x4D414D20),
  (false, "Mansi", 0x4D414E20),
  (false, "Mapudungun", 0x4D415020),
  (false, "Marathi", 0x4D415220),
  (false, "Marwari", 0x4D415720),
  (false, "Mbundu", 0x4D424E20),
  (false, "Mbo", 0x4D424F20),
  (false, "Manchu", 0x4D434820),
  (false, "MooseCree", 0x4D435220),
  (false, "Mende", 0x4D444520),
  (false, "Mandar", 0x4D445220),
  (false, "Meen", 0x4D454E20),
  (false, "Meru", 0x4D455220),
  (false, "Morisyen", 0x4D464520),
  (false, "Minangkabau", 0x4D494E20),
  (false, "Mizo", 0x4D495A20),
  (false, "Macedonian", 0x4D4B4420),
  (false, "Makasar", 0x4D4B5220),
  (false, "Kituba", 0x4D4B5720),
  (false, "Male", 0x4D4C4520),
  (false, "Malagasy", 0x4D4C4720),
  (false, "Malinke", 0x4D4C4E20),
  (false, "MalayalamReformed", 0x4D4C5220),
  (false, "Malay", 0x4D4C5920),
  (false, "Mandinka", 0x4D4E4420),
  (false, "Mongolian", 0x4D4E4720),
  (false, "Manipuri", 0x4D4E4920),
  (false, "Maninka", 0x4D4E4B20),
  (false, "Manx", 0x4D4E5820),
  (false, "Mohawk", 0x4D4F4820),
  (false, "Moksha", 0x4D4F4B20),
  (false, "Moldavian", 0x4D4F4C20),
  (false, "Mon", 0x4D4F4E20),
  (false, "Moroccan", 0x4D4F5220),
  (false, "Mossi", 0x4D4F5320),
  (false, "Maori", 0x4D524920),
  (false, "Maithili", 0x4D544820),
  (false, "Maltese", 0x4D545320),
  (false, "Mundari", 0x4D554E20),
  (false, "Muscogee", 0x4D555320),
  (false, "Mirandese", 0x4D574C20),
  (false, "HmongDaw", 0x4D575720),
  (false, "Mayan", 0x4D594E20),
  (false, "Mazanderani", 0x4D5A4E20),
  (false, "NagaAssamese", 0x4E414720),
  (false, "Nahuatl", 0x4E414820),
  (false, "Nanai", 0x4E414E20),
  (false, "Neapolitan", 0x4E415020),
  (false, "Naskapi", 0x4E415320),
  (false, "Nauruan", 0x4E415520),
  (false, "Navajo", 0x4E415620),
  (false, "NCree", 0x4E435220),
  (false, "Ndebele", 0x4E444220),
  (false, "Ndau", 0x4E444320),
  (false, "Ndonga", 0x4E444720),
  (false, "LowSaxon", 0x4E445320),
  (false, "Nepali", 0x4E455020),
  (false, "Newari", 0x4E455720),
  (false, "Ngbaka", 0x4E474120),
  (false, "Nagari", 0x4E475220),
  (false, "NorwayHouseCree", 0x4E484320),
  (false, "Nisi", 0x4E495320),
  (false, "Niuean", 0x4E495520),
  (false, "Nyankole", 0x4E4B4C20),
  (false, "NKo", 0x4E4B4F20),
  (false, "Dutch", 0x4E4C4420),
  (false, "Nimadi", 0x4E4F4520),
  (false, "Nogai", 0x4E4F4720),
  (false, "Norwegian", 0x4E4F5220),
  (false, "Novial", 0x4E4F5620),
  (false, "NorthernSami", 0x4E534D20),
  (false, "NorthernSotho", 0x4E534F20),
  (false, "NorthernTai", 0x4E544120),
  (false, "Esperanto", 0x4E544F20),
  (false, "Nyamwezi", 0x4E594D20),
  (false, "NorwegianNynorsk", 0x4E594E20),
  (false, "MbembeTigon", 0x4E5A4120),
  (false, "Occitan", 0x4F434920),
  (false, "OjiCree", 0x4F435220),
  (false, "Ojibway", 0x4F4A4220),
  (false, "Odia", 0x4F524920),
  (false, "Oromo", 0x4F524F20),
  (false, "Ossetian", 0x4F535320),
  (false, "PalestinianAramaic", 0x50414120),
  (false, "Pangasinan", 0x50414720),
  (false, "Pali", 0x50414C20),
  (false, "Pampangan", 0x50414D20),
  (false, "Punjabi", 0x50414E20),
  (false, "Palpa", 0x50415020),
  (false, "Papiamentu", 0x50415030),
  (false, "Pashto", 0x50415320),
  (false, "Palauan", 0x50415520),
  (false, "Bouyei", 0x50434320),
  (false, "Picard", 0x50434420),
  (false, "PennsylvaniaGerman", 0x50444320),
  (false, "PolytonicGreek", 0x50475220),
  (false, "Phake", 0x50484B20),
  (false, "Norfolk", 0x50494820),
  (false, "Filipino", 0x50494C20),
  (false, "Palaung", 0x504C4720),
  (false, "Polish", 0x504C4B20),
  (false, "Piemontese", 0x504D5320),
  (false, "WesternPanjabi", 0x504E4220),
  (false, "Pocomchi", 0x504F4820),
  (false, "Pohnpeian", 0x504F4E20),
  (false, "Provencal", 0x50524F20),
  (false, "Portuguese", 0x50544720),
  (false, "WesternPwoKaren", 0x50574F20),
  (false, "Chin", 0x51494E20),
  (false, "Kiche", 0x51554320),
  (false, "QuechuaBolivia", 0x51554820),
  (false, "Quechua", 0x51555A20),
  (false, "QuechuaEcuador", 0x51564920),
  (false, "QuechuaPeru", 0x51574820),
  (false, "Rajasthani", 0x52414A20),
  (false, "Rarotongan", 0x52415220),
  (false, "RussianBuriat", 0x52425520),
  (false, "RCree", 0x52435220),
  (false, "Rejang", 0x52454A20),
  (false, "Riang", 0x52494120),
  (false, "Tarifit", 0x52494620),
  (false, "Ritarungo", 0x52495420),
  (false, "Arakwal", 0x524B5720),
  (false, "Romansh", 0x524D5320),
  (false, "VlaxRomani", 0x524D5920),
  (false, "Romanian", 0x524F4D20),
  (false, "Romany", 0x524F5920),
  (false, "Rusyn", 0x52535920),
  (false, "Rotuman", 0x52544D20),
  (false, "Kinyarwanda", 0x52554120),
  (false, "Rundi", 0x52554E20),
  (false, "Aromanian", 0x52555020),
  (false, "Russian", 0x52555320),
  (false, "Sadri", 0x53414420),
  (false, "Sanskrit", 0x53414E20),
  (false, "Sasak", 0x53415320),
  (false, "Santali", 0x53415420),
  (false, "Sayisi", 0x53415920),
  (false, "Sicilian", 0x53434E20),
  (false, "Scots", 0x53434F20),
  (false, "Sekota", 0x53454B20),
  (false, "Selkup", 0x53454C20),
  (false, "OldIrish", 0x53474120),
  (false, "Sango", 0x53474F20),
  (false, "Samogitian", 0x53475320),
  (false, "Tachelhit", 0x53484920),
  (false, "Shan", 0x53484E20),
  (false, "Sibe", 0x53494220),
  (false, "Sidamo", 0x53494420),
  (false, "SilteGurage", 0x53494720),
  (false, "SkoltSami", 0x534B5320),
  (false, "Slovak", 0x534B5920),
  (false, "NorthSlavey", 0x53435320),
  (false, "Slavey", 0x534C4120),
  (false, "Slovenian", 0x534C5620),
  (false, "Somali", 0x534D4C20),
  (false, "Samoan", 0x534D4F20),
  (false, "Sena", 0x534E4120),
  (false, "Shona", 0x534E4130),
  (false, "Sindhi", 0x534E4420),
  (false, "Sinhala", 0x534E4820),
  (false, "Soninke", 0x534E4B20),
  (false, "SodoGurage", 0x534F4720),
  (false, "Songe", 0x534F5020),
  (false, "SouthernSotho", 0x534F5420),
  (false, "Albanian", 0x53514920),
  (false, "Serbian", 0x53524220),
  (false, "Sardinian", 0x53524420),
  (false, "Saraiki", 0x53524B20),
  (false, "Serer", 0x53525220),
  (false, "SouthSlavey", 0x53534C20),
  (false, "SouthernSami", 0x53534D20),
  (false, "SaterlandFrisian", 0x53545120),
  (false, "Sukuma", 0x53554B20),
  (false, "Sundanese", 0x53554E20),
  (false, "Suri", 0x53555220),
  (false, "Svan", 0x53564120),
  (false, "Swedish", 0x53564520),
  (false, "SwadayaAramaic", 0x53574120),
  (false, "Swahili", 0x53574B20),
  (false, "Swati", 0x53575A20),
  (false, "Sutu", 0x53585420),
  (false, "UpperSaxon", 0x53585520),
  (false, "Sylheti", 0x53594C20),
  (false, "Syriac", 0x53595220),
  (false, "Silesian", 0x535A4C20),
  (false, "Tabasaran", 0x54414220),
  (false, "Tajiki", 0x54414A20),
  (false, "Tamil", 0x54414D20),
  (false, "Tatar", 0x54415420),
  (false, "THCree", 0x54435220),
  (false, "DehongDai", 0x54444420),
  (false, "Telugu", 0x54454C20),
  (false, "Tetum", 0x54455420),
  (false, "Tagalog", 0x54474C20),
  (false, "Tongan", 0x54474E20),
  (false, "Tigre", 0x54475220),
  (false, "Tigrinya", 0x54475920),
  (false, "Thai", 0x54484120),
  (false, "Tahitian", 0x54485420),
  (false, "Tibetan", 0x54494220),
  (false, "Tiv", 0x54495620),
  (false, "Turkmen", 0x544B4D20),
  (false, "Tamashek", 0x544D4820),
  (false, "Temne", 0x544D4E20),
  (false, "Tswana", 0x544E4120),
  (false, "TundraNenets", 0x544E4520),
  (false, "Tonga", 0x544E4720),
  (false, "Todo", 0x544F4420),
  (false, "Toma", 0x544F4430),
  (false, "TokPisin", 0x54504920),
  (false, "Turkish", 0x54524B20),
  (false, "Tsonga", 0x54534720),
  (false, "TuroyoAramaic", 0x54554120),
  (false, "Tulu", 0x54554D20),
  (false, "Tumbuka", 0x54554C20),
  (false, "Tuvin", 0x54555620),
  (false, "Tuvalu", 0x54564C20),
  (false, "Twi", 0x54574920),
  (false, "Tay", 0x54595A20),
  (false, "Tamazight", 0x545A4D20),
  (false, "Tzotzil", 0x545A4F20),
  (false, "Udmurt", 0x55444D20),
  (false, "Ukrainian", 0x554B5220),
  (false, "Umbundu", 0x554D4220),
  (false, "Urdu", 0x55524420),
  (false, "UpperSorbian", 0x55534220),
  (false, "Uyghur", 0x55594720),
  (false, "Uzbek", 0x555A4220),
  (false, "Venetian", 0x56454320),
  (false, "Venda", 0x56454E20),
  (false, "Vietnamese", 0x56495420),
  (false, "Volapuk", 0x564F4C20),
  (false, "Voro", 0x56524F20),
  (false, "Wa", 0x57412020),
  (false, "Wagdi", 0x57414720),
  (false, "WarayWaray", 0x57415220),
  (false, "WestCree", 0x57435220),
  (false, "Welsh", 0x57454C20),
  (false, "Walloon", 0x574C4E20),
  (false, "Wolof", 0x574C4620),
  (false, "Mewati", 0x57544D20),
  (false, "Lu", 0x58424420),
  (false, "Xhosa", 0x58485320),
  (false, "Minjangbal", 0x584A4220),
  (false, "Soga", 0x584F4720),
  (false, "KpelleLiberia", 0x58504520),
  (false, "Sakha", 0x59414B20),
  (false, "Yao", 0x59414F20),
  (false, "Yapese", 0x59415020),
  (false, "Yoruba", 0x59424120),
  (false, "YCree", 0x59435220),
  (false, "YiClassic", 0x59494320),
  (false, "YiModern", 0x59494D20),
  (false, "Zealandic", 0x5A454120),
  (false, "StandardMorrocanTamazigh", 0x5A474820),
  (false, "Zhuang", 0x5A484120),
  (false, "Chinese", 0x5A484820),
  (false, "ChinesePhonetic", 0x5A485020),
  (false, "ChineseSimplified", 0x5A485320),
  (false, "ChineseTraditional", 0x5A485420),
  (false, "Zande", 0x5A4E4420),
  (false, "Zulu", 0x5A554C20),
  (false, "Zazaki", 0x5A5A4120)]

/-- The model of `src/layout/language.rs:77-678` is its translation. -/
theorem Language.into_arms_eq : Language.into_arms = OpenType.language.rows.map fun row => (row.gated, row.variant, row.tag) := rfl

/-- `src/layout/language.rs:40-45`. -/
def Language.from_tag (cfg : Cfg) (tag : Tag) : Variant :=
  match firstMatch cfg.defaultLanguage Language.tag_arms tag with
  | some variant => .inl variant
  | none => .inr tag

/-- The model of `src/layout/language.rs:40-45` is its translation. -/
theorem Language.from_tag_eq (cfg : Cfg) (tag : Tag) :
    Language.from_tag cfg tag = view (rows := OpenType.language.rows) (fun row => row.variant) (OpenType.language.Language.from_tag cfg tag) := by
  unfold Language.from_tag
  rw [Language.tag_arms_eq]
  exact first_eq _ _ _ _ _ _

/-- `src/layout/language.rs:58-63`. -/
def Language.name (cfg : Cfg) : Variant → Option String
  | .inl variant => firstMatch cfg.defaultLanguage Language.name_arms variant
  | .inr _ => none

/-- The model of `src/layout/language.rs:58-63` is its translation. -/
theorem Language.name_eq (cfg : Cfg) (x : OpenType.language.Language) (h : OpenType.language.Language.exists_ cfg x = true) :
    Language.name cfg (view (rows := OpenType.language.rows) (fun row => row.variant) x) = OpenType.language.Language.name x := by
  cases x with
  | known row =>
    show firstMatch _ _ _ = _
    rw [Language.name_arms_eq, of_variant_eq _ _ _ _ _ Language.apart row h]
    rfl
  | other tag => rfl

/-- `src/layout/language.rs:67-72`. -/
def Language.into (cfg : Cfg) : Variant → Tag
  | .inl variant => (firstMatch cfg.defaultLanguage Language.into_arms variant).getD 0
  | .inr tag => tag

/-- The model of `src/layout/language.rs:67-72` is its translation. -/
theorem Language.into_eq (cfg : Cfg) (x : OpenType.language.Language) (h : OpenType.language.Language.exists_ cfg x = true) :
    Language.into cfg (view (rows := OpenType.language.rows) (fun row => row.variant) x) = OpenType.language.Language.tag x := by
  cases x with
  | known row =>
    show (firstMatch _ _ _).getD 0 = _
    rw [Language.into_arms_eq, of_variant_eq _ _ _ _ _ Language.apart row h]
    rfl
  | other tag => rfl

/-- `src/layout/language.rs:77-678`. -/
def Language.codes_arms : List (Arm String (List Char)) := [
  (false, "Abaza", ['a', 'b', 'q']),
  (false, "Abkhazian", ['a', 'b', 'k']),
  (false, "Acholi", ['a', 'c', 'h']),
  (false, "Achi", ['a', 'c', 'r']),
  (false, "Adyghe", ['a', 'd', 'y']),
  (false, "Afrikaans", ['a', 'f', 'r']),
  (false, "Afar", ['a', 'a', 'r']),
  (false, "Agaw", ['a', 'h', 'g']),
  (false, "Aiton", ['a', 'i', 'o']),
  (false, "Akan", ['a', 'k', 'a']),
  (false, "Alsatian", ['g', 's', 'w']),
  (false, "Altai", ['a', 't', 'v', ',', ' ', 'a', 'l', 't']),
  (false, "Amharic", ['a', 'm', 'h']),
  (false, "AngloSaxon", ['a', 'n', 'g']),
  (false, "AmericanistPhoneticNotation", []),
  (false, "Arabic", ['a', 'r', 'a']),
  (false, "Aragonese", ['a', 'r', 'g']),
  (false, "Aari", ['a', 'i', 'w']),
  (false, "Rakhine", ['m', 'h', 'v', ',', ' ', 'r', 'm', 'z', ',', ' ', 'r', 'k', 'i']),
  (false, "Assamese", ['a', 's', 'm']),
  (false, "Asturian", ['a', 's', 't']),
  (false, "Athapaskan", ['a', 'p', 'k', ',', ' ', 'a', 'p', 'j', ',', ' ', 'a', 'p', 'l', ',', ' ', 'a', 'p', 'm', ',', ' ', 'a', 'p', 'w', ',', ' ', 'n', 'a', 'v', ',', ' ', 'b', 'e', 'a', ',', ' ', 's', 'e', 'k', ',', ' ', 'b', 'c', 'r', ',', ' ', 'c', 'a', 'f', ',', ' ', 'c', 'r', 'x', ',', ' ', 'c', 'l', 'c', ',', ' ', 'g', 'w', 'i', ',', ' ', 'h', 'a', 'a', ',', ' ', 'c', 'h', 'p', ',', ' ', 'd', 'g', 'r', ',', ' ', 's', 'c', 's', ',', ' ', 'x', 's', 'l', ',', ' ', 's', 'r', 's', ',', ' ', 'i', 'n', 'g', ',', ' ', 'h', 'o', 'i', ',', ' ', 'k', 'o', 'y', ',', ' ', 'h', 'u', 'p', ',', ' ', 'k', 't', 'w', ',', ' ', 'm', 'v', 'b', ',', ' ', 'w', 'l', 'k', ',', ' ', 'c', 'o', 'q', ',', ' ', 'c', 't', 'c', ',', ' ', 'g', 'c', 'e', ',', ' ', 't', 'o', 'l', ',', ' ', 't', 'u', 'u', ',', ' ', 'k', 'k', 'z', ',', ' ', 't', 'g', 'x', ',', ' ', 't', 'h', 't', ',', ' ', 'a', 'h', 't', ',', ' ', 't', 'f', 'n', ',', ' ', 't', 'a', 'a', ',', ' ', 't', 'a', 'u', ',', ' ', 't', 'c', 'b', ',', ' ', 'k', 'u', 'u', ',', ' ', 't', 'c', 'e', ',', ' ', 't', 't', 'm', ',', ' ', 't', 'x', 'c']),
  (false, "Avar", ['a', 'v', 'a']),
  (false, "Awadhi", ['a', 'w', 'a']),
  (false, "Aymara", ['a', 'y', 'm']),
  (false, "Torki", ['a', 'z', 'b']),
  (false, "Azerbaijani", ['a', 'z', 'e']),
  (false, "Badaga", ['b', 'f', 'q']),
  (false, "Banda", ['b', 'a', 'd']),
  (false, "Baghelkhandi", ['b', 'f', 'y']),
  (false, "Balkar", ['k', 'r', 'c']),
  (false, "Balinese", ['b', 'a', 'n']),
  (false, "Bavarian", ['b', 'a', 'r']),
  (false, "Baule", ['b', 'c', 'i']),
  (false, "BatakToba", ['b', 'b', 'c']),
  (false, "Berber", []),
  (false, "Bench", ['b', 'c', 'q']),
  (false, "BibleCree", []),
  (false, "Bandjalang", ['b', 'd', 'y']),
  (false, "Belarussian", ['b', 'e', 'l']),
  (false, "Bemba", ['b', 'e', 'm']),
  (false, "Bengali", ['b', 'e', 'n']),
  (false, "Haryanvi", ['b', 'g', 'c']),
  (false, "Bagri", ['b', 'g', 'q']),
  (false, "Bulgarian", ['b', 'u', 'l']),
  (false, "Bhili", ['b', 'h', 'i', ',', ' ', 'b', 'h', 'b']),
  (false, "Bhojpuri", ['b', 'h', 'o']),
  (false, "Bikol", ['b', 'i', 'k', ',', ' ', 'b', 'h', 'k', ',', ' ', 'b', 'c', 'l', ',', ' ', 'b', 't', 'o', ',', ' ', 'c', 't', 's', ',', ' ', 'b', 'l', 'n']),
  (false, "Bilen", ['b', 'y', 'n']),
  (false, "Bislama", ['b', 'i', 's']),
  (false, "Kanauji", ['b', 'j', 'j']),
  (false, "Blackfoot", ['b', 'l', 'a']),
  (false, "Baluchi", ['b', 'a', 'l']),
  (false, "PaoKaren", ['b', 'l', 'k']),
  (false, "Balante", ['b', 'j', 't', ',', ' ', 'b', 'l', 'e']),
  (false, "Balti", ['b', 'f', 't']),
  (false, "Bambara", ['b', 'a', 'm']),
  (false, "Bamileke", []),
  (false, "Bosnian", ['b', 'o', 's']),
  (false, "BishnupriyaManipuri", ['b', 'p', 'y']),
  (false, "Breton", ['b', 'r', 'e']),
  (false, "Brahui", ['b', 'r', 'h']),
  (false, "BrajBhasha", ['b', 'r', 'a']),
  (false, "Burmese", ['m', 'y', 'a']),
  (false, "Bodo", ['b', 'r', 'x']),
  (false, "Bashkir", ['b', 'a', 'k']),
  (false, "Burushaski", ['b', 's', 'k']),
  (false, "Beti", ['b', 't', 'b']),
  (false, "BatakSimalungun", ['b', 't', 's']),
  (false, "Bugis", ['b', 'u', 'g']),
  (false, "Medumba", ['b', 'y', 'v']),
  (false, "Kaqchikel", ['c', 'a', 'k']),
  (false, "Catalan", ['c', 'a', 't']),
  (false, "ZamboangaChavacano", ['c', 'b', 'k']),
  (false, "Cebuano", ['c', 'e', 'b']),
  (false, "Chechen", ['c', 'h', 'e']),
  (false, "ChahaGurage", ['s', 'g', 'w']),
  (false, "Chattisgarhi", ['h', 'n', 'e']),
  (false, "Chichewa", ['n', 'y', 'a']),
  (false, "Chukchi", ['c', 'k', 't']),
  (false, "Chuukese", ['c', 'h', 'k']),
  (false, "Choctaw", ['c', 'h', 'o']),
  (false, "Chipewyan", ['c', 'h', 'p']),
  (false, "Cherokee", ['c', 'h', 'r']),
  (false, "Chamorro", ['c', 'h', 'a']),
  (false, "Chuvash", ['c', 'h', 'v']),
  (false, "Cheyenne", ['c', 'h', 'y']),
  (false, "Chiga", ['c', 'g', 'g']),
  (false, "Comorian", ['s', 'w', 'b', ',', ' ', 'w', 'l', 'c', ',', ' ', 'w', 'n', 'i', ',', ' ', 'z', 'd', 'j']),
  (false, "Coptic", ['c', 'o', 'p']),
  (false, "Cornish", ['c', 'o', 'r']),
  (false, "Corsican", ['c', 'o', 's']),
  (false, "Creoles", ['c', 'p', 'p']),
  (false, "Cree", ['c', 'r', 'e']),
  (false, "Carrier", ['c', 'r', 'x', ',', ' ', 'c', 'a', 'f']),
  (false, "CrimeanTatar", ['c', 'r', 'h']),
  (false, "Kashubian", ['c', 's', 'b']),
  (false, "ChurchSlavonic", ['c', 'h', 'u']),
  (false, "Czech", ['c', 'e', 's']),
  (false, "Chittagonian", ['c', 't', 'g']),
  (false, "SanBlasKuna", ['c', 'u', 'k']),
  (false, "Danish", ['d', 'a', 'n']),
  (false, "Dargwa", ['d', 'a', 'r']),
  (false, "Dayi", ['d', 'a', 'x']),
  (false, "WoodsCree", ['c', 'w', 'd']),
  (true, "Default", []),
  (false, "German", ['d', 'e', 'u']),
  (false, "Dogri", ['d', 'g', 'o']),
  (false, "DogriMacrolanguage", ['d', 'o', 'i']),
  (false, "Dhangu", ['d', 'h', 'g']),
  (false, "DivehiDeprecated", ['d', 'i', 'v']),
  (false, "Dimli", ['d', 'i', 'q']),
  (false, "Divehi", ['d', 'i', 'v']),
  (false, "Zarma", ['d', 'j', 'e']),
  (false, "Djambarrpuyngu", ['d', 'j', 'r']),
  (false, "Dangme", ['a', 'd', 'a']),
  (false, "Dan", ['d', 'n', 'j']),
  (false, "Dinka", ['d', 'i', 'n']),
  (false, "Dari", ['p', 'r', 's']),
  (false, "Dhuwal", ['d', 'u', 'j']),
  (false, "Dungan", ['d', 'n', 'g']),
  (false, "Dzongkha", ['d', 'z', 'o']),
  (false, "Ebira", ['i', 'g', 'b']),
  (false, "EasternCree", ['c', 'r', 'j', ',', ' ', 'c', 'r', 'l']),
  (false, "Edo", ['b', 'i', 'n']),
  (false, "Efik", ['e', 'f', 'i']),
  (false, "Greek", ['e', 'l', 'l']),
  (false, "EasternManinkakan", ['e', 'm', 'k']),
  (false, "English", ['e', 'n', 'g']),
  (false, "Erzya", ['m', 'y', 'v']),
  (false, "Spanish", ['s', 'p', 'a']),
  (false, "CentralYupik", ['e', 's', 'u']),
  (false, "Estonian", ['e', 's', 't']),
  (false, "Basque", ['e', 'u', 's']),
  (false, "Evenki", ['e', 'v', 'n']),
  (false, "Even", ['e', 'v', 'e']),
  (false, "Ewe", ['e', 'w', 'e']),
  (false, "FrenchAntillean", ['a', 'c', 'f']),
  (false, "Fang", ['f', 'a', 'n']),
  (false, "Persian", ['f', 'a', 's']),
  (false, "Fanti", ['f', 'a', 't']),
  (false, "Finnish", ['f', 'i', 'n']),
  (false, "Fijian", ['f', 'i', 'j']),
  (false, "DutchFlemish", ['v', 'l', 's']),
  (false, "Fefe", ['f', 'm', 'p']),
  (false, "ForestNenets", ['e', 'n', 'f']),
  (false, "Fon", ['f', 'o', 'n']),
  (false, "Faroese", ['f', 'a', 'o']),
  (false, "French", ['f', 'r', 'a']),
  (false, "CajunFrench", ['f', 'r', 'c']),
  (false, "Frisian", ['f', 'r', 'y']),
  (false, "Friulian", ['f', 'u', 'r']),
  (false, "Arpitan", ['f', 'r', 'p']),
  (false, "Futa", ['f', 'u', 'f']),
  (false, "Fulah", ['f', 'u', 'l']),
  (false, "NigerianFulfulde", ['f', 'u', 'v']),
  (false, "Ga", ['g', 'a', 'a']),
  (false, "ScottishGaelic", ['g', 'l', 'a']),
  (false, "Gagauz", ['g', 'a', 'g']),
  (false, "Galician", ['g', 'l', 'g']),
  (false, "Garshuni", []),
  (false, "Garhwali", ['g', 'b', 'm']),
  (false, "Geez", ['g', 'e', 'z']),
  (false, "Githabul", ['g', 'i', 'h']),
  (false, "Gilyak", ['n', 'i', 'v']),
  (false, "Kiribati", ['g', 'i', 'l']),
  (false, "KpelleGuinea", ['g', 'k', 'p']),
  (false, "Gilaki", ['g', 'l', 'k']),
  (false, "Gumuz", ['g', 'u', 'k']),
  (false, "Gumatj", ['g', 'n', 'n']),
  (false, "Gogo", ['g', 'o', 'g']),
  (false, "Gondi", ['g', 'o', 'n']),
  (false, "Greenlandic", ['k', 'a', 'l']),
  (false, "Garo", ['g', 'r', 't']),
  (false, "Guarani", ['g', 'r', 'n']),
  (false, "Wayuu", ['g', 'u', 'c']),
  (false, "Gupapuyngu", ['g', 'u', 'f']),
  (false, "Gujarati", ['g', 'u', 'j']),
  (false, "Gusii", ['g', 'u', 'z']),
  (false, "Haitian", ['h', 'a', 't']),
  (false, "Halam", ['f', 'l', 'm']),
  (false, "Harauti", ['h', 'o', 'j']),
  (false, "Hausa", ['h', 'a', 'u']),
  (false, "Hawaiian", ['h', 'a', 'w']),
  (false, "Haya", ['h', 'a', 'y']),
  (false, "Hazaragi", ['h', 'a', 'z']),
  (false, "HammerBanna", ['a', 'm', 'f']),
  (false, "Herero", ['h', 'e', 'r']),
  (false, "Hiligaynon", ['h', 'i', 'l']),
  (false, "Hindi", ['h', 'i', 'n']),
  (false, "HighMari", ['m', 'r', 'j']),
  (false, "Hmong", ['h', 'm', 'n']),
  (false, "HiriMotu", ['h', 'm', 'o']),
  (false, "Hindko", ['h', 'n', 'o', ',', ' ', 'h', 'n', 'd']),
  (false, "Ho", ['h', 'o', 'c']),
  (false, "Harari", ['h', 'a', 'r']),
  (false, "Croatian", ['h', 'r', 'v']),
  (false, "Hungarian", ['h', 'u', 'n']),
  (false, "Armenian", ['h', 'y', 'e']),
  (false, "ArmenianEast", ['h', 'y', 'e']),
  (false, "Iban", ['i', 'b', 'a']),
  (false, "Ibibio", ['i', 'b', 'b']),
  (false, "Igbo", ['i', 'b', 'o']),
  (false, "Ijolanguages", ['i', 'j', 'c']),
  (false, "Ido", ['i', 'd', 'o']),
  (false, "Interlingue", ['i', 'l', 'e']),
  (false, "Ilokano", ['i', 'l', 'o']),
  (false, "Interlingua", ['i', 'n', 'a']),
  (false, "Indonesian", ['i', 'n', 'd']),
  (false, "Ingush", ['i', 'n', 'h']),
  (false, "Inuktitut", ['i', 'k', 'u']),
  (false, "Inupiat", ['i', 'p', 'k']),
  (false, "InternationalPhoneticAlphabet", []),
  (false, "Irish", ['g', 'l', 'e']),
  (false, "IrishTraditional", ['g', 'l', 'e']),
  (false, "Icelandic", ['i', 's', 'l']),
  (false, "InariSami", ['s', 'm', 'n']),
  (false, "Italian", ['i', 't', 'a']),
  (false, "Hebrew", ['h', 'e', 'b']),
  (false, "JamaicanCreole", ['j', 'a', 'm']),
  (false, "Japanese", ['j', 'p', 'n']),
  (false, "Javanese", ['j', 'a', 'v']),
  (false, "Lojban", ['j', 'b', 'o']),
  (false, "Krymchak", ['j', 'c', 't']),
  (false, "Yiddish", ['y', 'i', 'd']),
  (false, "Ladino", ['l', 'a', 'd']),
  (false, "Jula", ['d', 'y', 'u']),
  (false, "Kabardian", ['k', 'b', 'd']),
  (false, "Kabyle", ['k', 'a', 'b']),
  (false, "Kachchi", ['k', 'f', 'r']),
  (false, "Kalenjin", ['k', 'l', 'n']),
  (false, "Kannada", ['k', 'a', 'n']),
  (false, "Karachay", ['k', 'r', 'c']),
  (false, "Georgian", ['k', 'a', 't']),
  (false, "Kazakh", ['k', 'a', 'z']),
  (false, "Makonde", ['k', 'd', 'e']),
  (false, "Kabuverdianu", ['k', 'e', 'a']),
  (false, "Kebena", ['k', 't', 'b']),
  (false, "Kekchi", ['k', 'e', 'k']),
  (false, "KhutsuriGeorgian", ['k', 'a', 't']),
  (false, "Khakass", ['k', 'j', 'h']),
  (false, "KhantyKazim", ['k', 'c', 'a']),
  (false, "Khmer", ['k', 'h', 'm']),
  (false, "KhantyShurishkar", ['k', 'c', 'a']),
  (false, "KhamtiShan", ['k', 'h', 't']),
  (false, "KhantyVakhi", ['k', 'c', 'a']),
  (false, "Khowar", ['k', 'h', 'w']),
  (false, "Kikuyu", ['k', 'i', 'k']),
  (false, "Kirghiz", ['k', 'i', 'r']),
  (false, "Kisii", ['k', 'q', 's', ',', ' ', 'k', 's', 's']),
  (false, "Kirmanjki", ['k', 'i', 'u']),
  (false, "SouthernKiwai", ['k', 'j', 'd']),
  (false, "EasternPwoKaren", ['k', 'j', 'p']),
  (false, "Kokni", ['k', 'e', 'x']),
  (false, "Kalmyk", ['x', 'a', 'l']),
  (false, "Kamba", ['k', 'a', 'm']),
  (false, "Kumaoni", ['k', 'f', 'y']),
  (false, "Komo", ['k', 'm', 'w']),
  (false, "Komso", ['k', 'x', 'c']),
  (false, "KhorasaniTurkic", ['k', 'm', 'z']),
  (false, "Kanuri", ['k', 'a', 'u']),
  (false, "Kodagu", ['k', 'f', 'a']),
  (false, "KoreanOldHangul", ['o', 'k', 'm']),
  (false, "Konkani", ['k', 'o', 'k']),
  (false, "Kikongo", ['k', 't', 'u']),
  (false, "Komi", ['k', 'o', 'm']),
  (false, "Kongo", ['k', 'o', 'n']),
  (false, "KomiPermyak", ['k', 'o', 'i']),
  (false, "Korean", ['k', 'o', 'r']),
  (false, "Kosraean", ['k', 'o', 's']),
  (false, "KomiZyrian", ['k', 'p', 'v']),
  (false, "Kpelle", ['k', 'p', 'e']),
  (false, "Krio", ['k', 'r', 'i']),
  (false, "Karakalpak", ['k', 'a', 'a']),
  (false, "Karelian", ['k', 'r', 'l']),
  (false, "Karaim", ['k', 'd', 'r']),
  (false, "Karen", ['k', 'a', 'r']),
  (false, "Koorete", ['k', 'q', 'y']),
  (false, "Kashmiri", ['k', 'a', 's']),
  (false, "Ripuarian", ['k', 's', 'h']),
  (false, "Khasi", ['k', 'h', 'a']),
  (false, "KildinSami", ['s', 'j', 'd']),
  (false, "SgawKaren", ['k', 's', 'w']),
  (false, "Kuanyama", ['k', 'u', 'a']),
  (false, "Kui", ['k', 'x', 'u']),
  (false, "Kulvi", ['k', 'f', 'x']),
  (false, "Kumyk", ['k', 'u', 'm']),
  (false, "Kurdish", ['k', 'u', 'r']),
  (false, "Kurukh", ['k', 'r', 'u']),
  (false, "Kuy", ['k', 'd', 't']),
  (false, "Koryak", ['k', 'p', 'y']),
  (false, "WesternKayah", ['k', 'y', 'u']),
  (false, "Ladin", ['l', 'l', 'd']),
  (false, "Lahuli", ['b', 'f', 'u']),
  (false, "Lak", ['l', 'b', 'e']),
  (false, "Lambani", ['l', 'm', 'n']),
  (false, "Lao", ['l', 'a', 'o']),
  (false, "Latin", ['l', 'a', 't']),
  (false, "Laz", ['l', 'z', 'z']),
  (false, "LCree", ['c', 'r', 'm']),
  (false, "Ladakhi", ['l', 'b', 'j']),
  (false, "Lezgi", ['l', 'e', 'z']),
  (false, "Ligurian", ['l', 'i', 'j']),
  (false, "Limburgish", ['l', 'i', 'm']),
  (false, "Lingala", ['l', 'i', 'n']),
  (false, "Lisu", ['l', 'i', 's']),
  (false, "Lampung", ['l', 'j', 'p']),
  (false, "Laki", ['l', 'k', 'i']),
  (false, "LowMari", ['m', 'h', 'r']),
  (false, "Limbu", ['l', 'i', 'f']),
  (false, "Lombard", ['l', 'm', 'o']),
  (false, "Lomwe", ['n', 'g', 'l']),
  (false, "Loma", ['l', 'o', 'm']),
  (false, "Luri", ['l', 'r', 'c', ',', ' ', 'l', 'u', 'z', ',', ' ', 'b', 'q', 'i', ',', ' ', 'z', 'u', 'm']),
  (false, "LowerSorbian", ['d', 's', 'b']),
  (false, "LuleSami", ['s', 'm', 'j']),
  (false, "Lithuanian", ['l', 'i', 't']),
  (false, "Luxembourgish", ['l', 't', 'z']),
  (false, "LubaLulua", ['l', 'u', 'a']),
  (false, "LubaKatanga", ['l', 'u', 'b']),
  (false, "Ganda", ['l', 'u', 'g']),
  (false, "Luyia", ['l', 'u', 'y']),
  (false, "Luo", ['l', 'u', 'o']),
  (false, "Latvian", ['l', 'a', 'v']),
  (false, "Madura", ['m', 'a', 'd']),
  (false, "Magahi", ['m', 'a', 'g']),
  (false, "Marshallese", ['m', 'a', 'h']),
  (false, "Majang", ['m', 'p', 'e']),
  (false, "Makhuwa", ['v', 'm', 'w']),
  (false, "Malayalam", ['m', 'a', 'l']),
  (false, "Mam", ['m', 'a', 'm']),
  (false, "Mansi", ['m', 'n', 's']),
  (false, "Mapudungun", ['a', 'r', 'n']),
  (false, "Marathi", ['m', 'a', 'r']),
  (false, "Marwari", ['m', 'w', 'r', ',', ' ', 'd', 'h', 'd', ',', ' ', 'r', 'w', 'r', ',', ' ', 'm', 'v', 'e', ',', ' ', 'w', 'r', 'y', ',', ' ', 'm', 't', 'r', ',', ' ', 's', 'w', 'v']),
  (false, "Mbundu", ['k', 'm', 'b']),
  (false, "Mbo", ['m', 'b', 'o']),
  (false, "Manchu", ['m', 'n', 'c']),
  (false, "MooseCree", ['c', 'r', 'm']),
  (false, "Mende", ['m', 'e', 'n']),
  (false, "Mandar", ['m', 'd', 'r']),
  (false, "Meen", ['m', 'y', 'm']),
  (false, "Meru", ['m', 'e', 'r']),
  (false, "Morisyen", ['m', 'f', 'e']),
  (false, "Minangkabau", ['m', 'i', 'n']),
  (false, "Mizo", ['l', 'u', 's']),
  (false, "Macedonian", ['m', 'k', 'd']),
  (false, "Makasar", ['m', 'a', 'k']),
  (false, "Kituba", ['m', 'k', 'w']),
  (false, "Male", ['m', 'd', 'y']),
  (false, "Malagasy", ['m', 'l', 'g']),
  (false, "Malinke", ['m', 'l', 'q']),
  (false, "MalayalamReformed", ['m', 'a', 'l']),
  (false, "Malay", ['m', 's', 'a']),
  (false, "Mandinka", ['m', 'n', 'k']),
  (false, "Mongolian", ['m', 'o', 'n']),
  (false, "Manipuri", ['m', 'n', 'i']),
  (false, "Maninka", ['m', 'a', 'n', ',', ' ', 'm', 'n', 'k', ',', ' ', 'm', 'y', 'q', ',', ' ', 'm', 'k', 'u', ',', ' ', 'm', 's', 'c', ',', ' ', 'e', 'm', 'k', ',', ' ', 'm', 'w', 'k', ',', ' ', 'm', 'l', 'q']),
  (false, "Manx", ['g', 'l', 'v']),
  (false, "Mohawk", ['m', 'o', 'h']),
  (false, "Moksha", ['m', 'd', 'f']),
  (false, "Moldavian", ['m', 'o', 'l']),
  (false, "Mon", ['m', 'n', 'w']),
  (false, "Moroccan", []),
  (false, "Mossi", ['m', 'o', 's']),
  (false, "Maori", ['m', 'r', 'i']),
  (false, "Maithili", ['m', 'a', 'i']),
  (false, "Maltese", ['m', 'l', 't']),
  (false, "Mundari", ['u', 'n', 'r']),
  (false, "Muscogee", ['m', 'u', 's']),
  (false, "Mirandese", ['m', 'w', 'l']),
  (false, "HmongDaw", ['m', 'w', 'w']),
  (false, "Mayan", ['m', 'y', 'n']),
  (false, "Mazanderani", ['m', 'z', 'n']),
  (false, "NagaAssamese", ['n', 'a', 'g']),
  (false, "Nahuatl", ['n', 'a', 'h']),
  (false, "Nanai", ['g', 'l', 'd']),
  (false, "Neapolitan", ['n', 'a', 'p']),
  (false, "Naskapi", ['n', 's', 'k']),
  (false, "Nauruan", ['n', 'a', 'u']),
  (false, "Navajo", ['n', 'a', 'v']),
  (false, "NCree", ['c', 's', 'w']),
  (false, "Ndebele", ['n', 'b', 'l', ',', ' ', 'n', 'd', 'e']),
  (false, "Ndau", ['n', 'd', 'c']),
  (false, "Ndonga", ['n', 'd', 'o']),
  (false, "LowSaxon", ['n', 'd', 's']),
  (false, "Nepali", ['n', 'e', 'p']),
  (false, "Newari", ['n', 'e', 'w']),
  (false, "Ngbaka", ['n', 'g', 'a']),
  (false, "Nagari", []),
  (false, "NorwayHouseCree", ['c', 's', 'w']),
  (false, "Nisi", ['d', 'a', 'p']),
  (false, "Niuean", ['n', 'i', 'u']),
  (false, "Nyankole", ['n', 'y', 'n']),
  (false, "NKo", ['n', 'q', 'o']),
  (false, "Dutch", ['n', 'l', 'd']),
  (false, "Nimadi", ['n', 'o', 'e']),
  (false, "Nogai", ['n', 'o', 'g']),
  (false, "Norwegian", ['n', 'o', 'b']),
  (false, "Novial", ['n', 'o', 'v']),
  (false, "NorthernSami", ['s', 'm', 'e']),
  (false, "NorthernSotho", ['n', 's', 'o']),
  (false, "NorthernTai", ['n', 'o', 'd']),
  (false, "Esperanto", ['e', 'p', 'o']),
  (false, "Nyamwezi", ['n', 'y', 'm']),
  (false, "NorwegianNynorsk", ['n', 'n', 'o']),
  (false, "MbembeTigon", ['n', 'z', 'a']),
  (false, "Occitan", ['o', 'c', 'i']),
  (false, "OjiCree", ['o', 'j', 's']),
  (false, "Ojibway", ['o', 'j', 'i']),
  (false, "Odia", ['o', 'r', 'i']),
  (false, "Oromo", ['o', 'r', 'm']),
  (false, "Ossetian", ['o', 's', 's']),
  (false, "PalestinianAramaic", ['s', 'a', 'm']),
  (false, "Pangasinan", ['p', 'a', 'g']),
  (false, "Pali", ['p', 'l', 'i']),
  (false, "Pampangan", ['p', 'a', 'm']),
  (false, "Punjabi", ['p', 'a', 'n']),
  (false, "Palpa", ['p', 'l', 'p']),
  (false, "Papiamentu", ['p', 'a', 'p']),
  (false, "Pashto", ['p', 'u', 's']),
  (false, "Palauan", ['p', 'a', 'u']),
  (false, "Bouyei", ['p', 'c', 'c']),
  (false, "Picard", ['p', 'c', 'd']),
  (false, "PennsylvaniaGerman", ['p', 'd', 'c']),
  (false, "PolytonicGreek", ['e', 'l', 'l']),
  (false, "Phake", ['p', 'h', 'k']),
  (false, "Norfolk", ['p', 'i', 'h']),
  (false, "Filipino", ['f', 'i', 'l']),
  (false, "Palaung", ['p', 'c', 'e', ',', ' ', 'r', 'b', 'b', ',', ' ', 'p', 'l', 'l']),
  (false, "Polish", ['p', 'o', 'l']),
  (false, "Piemontese", ['p', 'm', 's']),
  (false, "WesternPanjabi", ['p', 'n', 'b']),
  (false, "Pocomchi", ['p', 'o', 'h']),
  (false, "Pohnpeian", ['p', 'o', 'n']),
  (false, "Provencal", ['p', 'r', 'o']),
  (false, "Portuguese", ['p', 'o', 'r']),
  (false, "WesternPwoKaren", ['p', 'w', 'o']),
  (false, "Chin", ['b', 'g', 'r', ',', ' ', 'c', 'n', 'h', ',', ' ', 'c', 'n', 'w', ',', ' ', 'c', 'z', 't', ',', ' ', 's', 'e', 'z', ',', ' ', 't', 'c', 'p', ',', ' ', 'c', 's', 'y', ',', ' ', 'c', 't', 'd', ',', ' ', 'f', 'l', 'm', ',', ' ', 'p', 'c', 'k', ',', ' ', 't', 'c', 'z', ',', ' ', 'z', 'o', 'm', ',', ' ', 'c', 'm', 'r', ',', ' ', 'd', 'a', 'o', ',', ' ', 'h', 'l', 't', ',', ' ', 'c', 'k', 'a', ',', ' ', 'c', 'n', 'k', ',', ' ', 'm', 'r', 'h', ',', ' ', 'm', 'w', 'g', ',', ' ', 'c', 'b', 'l', ',', ' ', 'c', 'n', 'b', ',', ' ', 'c', 's', 'h']),
  (false, "Kiche", ['q', 'u', 'c']),
  (false, "QuechuaBolivia", ['q', 'u', 'h']),
  (false, "Quechua", ['q', 'u', 'z']),
  (false, "QuechuaEcuador", ['q', 'v', 'i']),
  (false, "QuechuaPeru", ['q', 'w', 'h']),
  (false, "Rajasthani", ['r', 'a', 'j']),
  (false, "Rarotongan", ['r', 'a', 'r']),
  (false, "RussianBuriat", ['b', 'x', 'r']),
  (false, "RCree", ['a', 't', 'j']),
  (false, "Rejang", ['r', 'e', 'j']),
  (false, "Riang", ['r', 'i', 'a']),
  (false, "Tarifit", ['r', 'i', 'f']),
  (false, "Ritarungo", ['r', 'i', 't']),
  (false, "Arakwal", ['r', 'k', 'w']),
  (false, "Romansh", ['r', 'o', 'h']),
  (false, "VlaxRomani", ['r', 'm', 'y']),
  (false, "Romanian", ['r', 'o', 'n']),
  (false, "Romany", ['r', 'o', 'm']),
  (false, "Rusyn", ['r', 'u', 'e']),
  (false, "Rotuman", ['r', 't', 'm']),
  (false, "Kinyarwanda", ['k', 'i', 'n']),
  (false, "Rundi", ['r', 'u', 'n']),
  (false, "Aromanian", ['r', 'u', 'p']),
  (false, "Russian", ['r', 'u', 's']),
  (false, "Sadri", ['s', 'c', 'k']),
  (false, "Sanskrit", ['s', 'a', 'n']),
  (false, "Sasak", ['s', 'a', 's']),
  (false, "Santali", ['s', 'a', 't']),
  (false, "Sayisi", ['c', 'h', 'p']),
  (false, "Sicilian", ['s', 'c', 'n']),
  (false, "Scots", ['s', 'c', 'o']),
  (false, "Sekota", ['x', 'a', 'n']),
  (false, "Selkup", ['s', 'e', 'l']),
  (false, "OldIrish", ['s', 'g', 'a']),
  (false, "Sango", ['s', 'a', 'g']),
  (false, "Samogitian", ['s', 'g', 's']),
  (false, "Tachelhit", ['s', 'h', 'i']),
  (false, "Shan", ['s', 'h', 'n']),
  (false, "Sibe", ['s', 'j', 'o']),
  (false, "Sidamo", ['s', 'i', 'd']),
  (false, "SilteGurage", ['x', 's', 't']),
  (false, "SkoltSami", ['s', 'm', 's']),
  (false, "Slovak", ['s', 'l', 'k']),
  (false, "NorthSlavey", ['s', 'c', 's']),
  (false, "Slavey", ['s', 'c', 's', ',', ' ', 'x', 's', 'l']),
  (false, "Slovenian", ['s', 'l', 'v']),
  (false, "Somali", ['s', 'o', 'm']),
  (false, "Samoan", ['s', 'm', 'o']),
  (false, "Sena", ['s', 'e', 'h']),
  (false, "Shona", ['s', 'n', 'a']),
  (false, "Sindhi", ['s', 'n', 'd']),
  (false, "Sinhala", ['s', 'i', 'n']),
  (false, "Soninke", ['s', 'n', 'k']),
  (false, "SodoGurage", ['g', 'r', 'u']),
  (false, "Songe", ['s', 'o', 'p']),
  (false, "SouthernSotho", ['s', 'o', 't']),
  (false, "Albanian", ['s', 'q', 'i']),
  (false, "Serbian", ['s', 'r', 'p']),
  (false, "Sardinian", ['s', 'r', 'd']),
  (false, "Saraiki", ['s', 'k', 'r']),
  (false, "Serer", ['s', 'r', 'r']),
  (false, "SouthSlavey", ['x', 's', 'l']),
  (false, "SouthernSami", ['s', 'm', 'a']),
  (false, "SaterlandFrisian", ['s', 't', 'q']),
  (false, "Sukuma", ['s', 'u', 'k']),
  (false, "Sundanese", ['s', 'u', 'n']),
  (false, "Suri", ['s', 'u', 'q']),
  (false, "Svan", ['s', 'v', 'a']),
  (false, "Swedish", ['s', 'w', 'e']),
  (false, "SwadayaAramaic", ['a', 'i', 'i']),
  (false, "Swahili", ['s', 'w', 'a']),
  (false, "Swati", ['s', 's', 'w']),
  (false, "Sutu", ['n', 'g', 'o']),
  (false, "UpperSaxon", ['s', 'x', 'u']),
  (false, "Sylheti", ['s', 'y', 'l']),
  (false, "Syriac", ['s', 'y', 'r']),
  (false, "Silesian", ['s', 'z', 'l']),
  (false, "Tabasaran", ['t', 'a', 'b']),
  (false, "Tajiki", ['t', 'g', 'k']),
  (false, "Tamil", ['t', 'a', 'm']),
  (false, "Tatar", ['t', 'a', 't']),
  (false, "THCree", ['c', 'w', 'd']),
  (false, "DehongDai", ['t', 'd', 'd']),
  (false, "Telugu", ['t', 'e', 'l']),
  (false, "Tetum", ['t', 'e', 't']),
  (false, "Tagalog", ['t', 'g', 'l']),
  (false, "Tongan", ['t', 'o', 'n']),
  (false, "Tigre", ['t', 'i', 'g']),
  (false, "Tigrinya", ['t', 'i', 'r']),
  (false, "Thai", ['t', 'h', 'a']),
  (false, "Tahitian", ['t', 'a', 'h']),
  (false, "Tibetan", ['b', 'o', 'd']),
  (false, "Tiv", ['t', 'i', 'v']),
  (false, "Turkmen", ['t', 'u', 'k']),
  (false, "Tamashek", ['t', 'm', 'h']),
  (false, "Temne", ['t', 'e', 'm']),
  (false, "Tswana", ['t', 's', 'n']),
  (false, "TundraNenets", ['e', 'n', 'h']),
  (false, "Tonga", ['t', 'o', 'i']),
  (false, "Todo", ['x', 'a', 'l']),
  (false, "Toma", ['t', 'o', 'd']),
  (false, "TokPisin", ['t', 'p', 'i']),
  (false, "Turkish", ['t', 'u', 'r']),
  (false, "Tsonga", ['t', 's', 'o']),
  (false, "TuroyoAramaic", ['t', 'r', 'u']),
  (false, "Tulu", ['t', 'u', 'm']),
  (false, "Tumbuka", ['t', 'c', 'y']),
  (false, "Tuvin", ['t', 'y', 'v']),
  (false, "Tuvalu", ['t', 'v', 'l']),
  (false, "Twi", ['a', 'k', 'a']),
  (false, "Tay", ['t', 'y', 'z']),
  (false, "Tamazight", ['t', 'z', 'm']),
  (false, "Tzotzil", ['t', 'z', 'o']),
  (false, "Udmurt", ['u', 'd', 'm']),
  (false, "Ukrainian", ['u', 'k', 'r']),
  (false, "Umbundu", ['u', 'm', 'b']),
  (false, "Urdu", ['u', 'r', 'd']),
  (false, "UpperSorbian", ['h', 's', 'b']),
  (false, "Uyghur", ['u', 'i', 'g']),
  (false, "Uzbek", ['u', 'z', 'b']),
  (false, "Venetian", ['v', 'e', 'c']),
  (false, "Venda", ['v', 'e', 'n']),
  (false, "Vietnamese", ['v', 'i', 'e']),
  (false, "Volapuk", ['v', 'o', 'l']),
  (false, "Voro", ['v', 'r', 'o']),
  (false, "Wa", ['w', 'b', 'm']),
  (false, "Wagdi", ['w', 'b', 'r']),
  (false, "WarayWaray", ['w', 'a', 'r']),
  (false, "WestCree", ['c', 'r', 'k']),
  (false, "Welsh", ['c', 'y', 'm']),
  (false, "Walloon", ['w', 'l', 'n']),
  (false, "Wolof", ['w', 'o', 'l']),
  (false, "Mewati", ['w', 't', 'm']),
  (false, "Lu", ['k', 'h', 'b']),
  (false, "Xhosa", ['x', 'h', 'o']),
  (false, "Minjangbal", ['x', 'j', 'b']),
  (false, "Soga", ['x', 'o', 'g']),
  (false, "KpelleLiberia", ['x', 'p', 'e']),
  (false, "Sakha", ['s', 'a', 'h']),
  (false, "Yao", ['y', 'a', 'o']),
  (false, "Yapese", ['y', 'a', 'p']),
  (false, "Yoruba", ['y', 'o', 'r']),
  (false, "YCree", ['c', 'r', 'e']),
  (false, "YiClassic", []),
  (false, "YiModern", ['i', 'i', 'i']),
  (false, "Zealandic", ['z', 'e', 'a']),
  (false, "StandardMorrocanTamazigh", ['z', 'g', 'h']),
  (false, "Zhuang", ['z', 'h', 'a']),
  (false, "Chinese", ['z', 'h', 'o']),
  (false, "ChinesePhonetic", ['z', 'h', 'o']),
  (false, "ChineseSimplified", ['z', 'h', 'o']),
  (false, "ChineseTraditional", ['z', 'h', 'o']),
  (false, "Zande", ['z', 'n', 'e']),
  (false, "Zulu", ['z', 'u', 'l']),
  (false, "Zazaki", ['z', 'z', 'a'])]

/-- The model of `src/layout/language.rs:77-678` is its translation. -/
theorem Language.codes_arms_eq : Language.codes_arms = OpenType.language.rows.map fun row => (row.gated, row.variant, row.codes) := rfl

/-- `src/layout/language.rs:48-55`. -/
def Language.codes (cfg : Cfg) : Variant → List (List Char)
  | .inl variant => (OpenType.language.split ((firstMatch cfg.defaultLanguage Language.codes_arms variant).getD [])).filter (fun code => !code.isEmpty)
  | .inr _ => (OpenType.language.split []).filter (fun code => !code.isEmpty)

/-- The model of `src/layout/language.rs:48-55` is its translation. -/
theorem Language.codes_eq (cfg : Cfg) (x : OpenType.language.Language) (h : OpenType.language.Language.exists_ cfg x = true) :
    Language.codes cfg (view (rows := OpenType.language.rows) (fun row => row.variant) x) = OpenType.language.Language.codes x := by
  cases x with
  | known row =>
    show (OpenType.language.split ((firstMatch _ _ _).getD [])).filter (fun code => !code.isEmpty) = _
    rw [Language.codes_arms_eq, of_variant_eq _ _ _ _ _ Language.apart row h]
    rfl
  | other tag => rfl

end language

end OpenType.Generated
