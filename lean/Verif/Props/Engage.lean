import Verif.Spec.Engage
import Verif.Props.Perform
import Verif.Props.Match
/-! # C111: what the other lookups do -/

namespace OpenType.Props
open OpenType Spec lookup directory

/-- The subtable is of the type. -/
theorem only_same {β : Type} {result : Except Err (Option β)} {P : β → Prop} {Q R : Prop} {type_ k : Nat} (hk : type_ = k)
    (h : (∀ y, result = .ok (some y) ↔ P y) ∧ R ∧ ((∃ e, result = .error e) ↔ Q)) :
    (∀ y, result = .ok (some y) ↔ type_ = k ∧ P y) ∧ ((∃ e, result = .error e) ↔ type_ = k ∧ Q) := by
  obtain ⟨h1, _, h2⟩ := h
  exact ⟨fun y => Iff.trans (h1 y) ⟨fun h => ⟨hk, h⟩, fun h => h.2⟩, Iff.trans h2 ⟨fun h => ⟨hk, h⟩, fun h => h.2⟩⟩

/-- The subtable is of another type. -/
theorem only_other {β : Type} {P : β → Prop} {Q : Prop} {type_ k : Nat} (hk : type_ ≠ k) :
    (∀ y, (.ok none : Except Err (Option β)) = .ok (some y) ↔ type_ = k ∧ P y) ∧
    ((∃ e, (.ok none : Except Err (Option β)) = .error e) ↔ type_ = k ∧ Q) :=
  ⟨fun _ => ⟨fun h => (by cases h), fun h => (hk h.1).elim⟩, ⟨fun ⟨_, h⟩ => (by cases h), fun h => (hk h.1).elim⟩⟩

/-- Lookups of GSUB do something if their subtables do. -/
theorem performs_substitution {β : Type} {cfg : Cfg} {d : Data} {p k : Nat} (hd : Fits d) {t : gsub.GlyphSubstitution}
    (h : Reads (gsub.GlyphSubstitution.read cfg) d p t) {P : Data → Nat → β → Prop} {Q : Data → Nat → Prop}
    {act : gsub.Type_ → Except Err (Option β)}
    (ha : ∀ type_ a x, gsub.IsTable type_ d a x → (∀ y, act x = .ok (some y) ↔ type_ = k ∧ P d a y) ∧
      ((∃ e, act x = .error e) ↔ type_ = k ∧ Q d a)) :
    Performs cfg 7 substitutionExtension gsub.Type_.read (only gsub.IsTable k P Q) act d p t :=
  have : ∀ type_, Parses (gsub.Type_.read type_) ((only gsub.IsTable k P Q).wellFormed type_) :=
    fun type_ => inferInstanceAs (Parses (gsub.Type_.read type_) (Spec.gsub.IsTable type_))
  performs hd h ((C101_follow cfg hd).1 t h) ha

/-- Lookups of GPOS do something if their subtables do. -/
theorem performs_positioning {β : Type} {cfg : Cfg} {d : Data} {p k : Nat} (hd : Fits d) {t : gpos.GlyphPositioning}
    (h : Reads (gpos.GlyphPositioning.read cfg) d p t) {P : Data → Nat → β → Prop} {Q : Data → Nat → Prop}
    {act : gpos.Type_ → Except Err (Option β)}
    (ha : ∀ type_ a x, gpos.IsTable cfg type_ d a x → (∀ y, act x = .ok (some y) ↔ type_ = k ∧ P d a y) ∧
      ((∃ e, act x = .error e) ↔ type_ = k ∧ Q d a)) :
    Performs cfg 9 positioningExtension (gpos.Type_.read cfg) (only (gpos.IsTable cfg) k P Q) act d p t :=
  have : ∀ type_, Parses (gpos.Type_.read cfg type_) ((only (gpos.IsTable cfg) k P Q).wellFormed type_) :=
    fun type_ => inferInstanceAs (Parses (gpos.Type_.read cfg type_) (Spec.gpos.IsTable cfg type_))
  performs hd h ((C101_follow cfg hd).2 t h) ha

section
variable (cfg : Cfg) {d : Data} {p : Nat} (hd : Fits d)
include hd

/-- Alternates: GSUB lookups of type 3. -/
theorem C111_alternate {t : gsub.GlyphSubstitution} (h : Reads (gsub.GlyphSubstitution.read cfg) d p t) (g : Nat) :
    Performs cfg 7 substitutionExtension gsub.Type_.read (alternateEffect g) (alternateAct g) d p t := by
  refine performs_substitution hd h fun type_ a x hx => ?_
  cases x with
  | alternateSubstitution t => exact only_same hx.1 (C102_alternate hd ((reads_parses hd).mpr hx.2) g)
  | _ => exact only_other (by have := hx.1; omega)

/-- Contexts: GSUB lookups of type 5 and GPOS lookups of type 7. -/
theorem C111_context (g : Nat) (after : List Nat) :
    (∀ t, Reads (gsub.GlyphSubstitution.read cfg) d p t →
      Performs cfg 7 substitutionExtension gsub.Type_.read (contextEffect g after) (contextAct g after) d p t) ∧
    (∀ t, Reads (gpos.GlyphPositioning.read cfg) d p t →
      Performs cfg 9 positioningExtension (gpos.Type_.read cfg) (positionEffect cfg g after) (positionAct g after) d p t) := by
  constructor
  · intro t h
    refine performs_substitution hd h fun type_ a x hx => ?_
    cases x with
    | contextualSubstitution t => exact only_same hx.1 (C105_context hd ((reads_parses hd).mpr hx.2) g after)
    | _ => exact only_other (by have := hx.1; omega)
  · intro t h
    refine performs_positioning hd h fun type_ a x hx => ?_
    cases x with
    | contextualPositioning t => exact only_same hx.1 (C105_context hd ((reads_parses hd).mpr hx.2) g after)
    | _ => exact only_other (by have := hx.1; omega)

/-- Chained contexts: GSUB lookups of type 6 and GPOS lookups of type 8. -/
theorem C111_chain (before : List Nat) (g : Nat) (after : List Nat) :
    (∀ t, Reads (gsub.GlyphSubstitution.read cfg) d p t →
      Performs cfg 7 substitutionExtension gsub.Type_.read (chainEffect before g after) (chainAct before g after) d p t) ∧
    (∀ t, Reads (gpos.GlyphPositioning.read cfg) d p t →
      Performs cfg 9 positioningExtension (gpos.Type_.read cfg) (positionChainEffect cfg before g after)
        (positionChainAct before g after) d p t) := by
  constructor
  · intro t h
    refine performs_substitution hd h fun type_ a x hx => ?_
    cases x with
    | chainedContextualSubstitution t => exact only_same hx.1 (C105_chain hd ((reads_parses hd).mpr hx.2) before g after)
    | _ => exact only_other (by have := hx.1; omega)
  · intro t h
    refine performs_positioning hd h fun type_ a x hx => ?_
    cases x with
    | chainedContextualPositioning t => exact only_same hx.1 (C105_chain hd ((reads_parses hd).mpr hx.2) before g after)
    | _ => exact only_other (by have := hx.1; omega)

/-- Reverse chained substitutions: GSUB lookups of type 8. -/
theorem C111_reverse {t : gsub.GlyphSubstitution} (h : Reads (gsub.GlyphSubstitution.read cfg) d p t) (before : List Nat)
    (g : Nat) (after : List Nat) :
    Performs cfg 7 substitutionExtension gsub.Type_.read (reverseEffect before g after) (reverseAct before g after) d p t := by
  refine performs_substitution hd h fun type_ a x hx => ?_
  cases x with
  | reverseChainedContextualSubstibution t => exact only_same hx.1 (C105_reverse hd ((reads_parses hd).mpr hx.2) before g after)
  | _ => exact only_other (by have := hx.1; omega)

/-- Attachments: GPOS lookups of type 3, 4, 5 and 6. -/
theorem C111_attachment {t : gpos.GlyphPositioning} (h : Reads (gpos.GlyphPositioning.read cfg) d p t) (c m b : Nat) :
    Performs cfg 9 positioningExtension (gpos.Type_.read cfg) (cursiveEffect cfg m) (cursiveAct m) d p t ∧
    Performs cfg 9 positioningExtension (gpos.Type_.read cfg) (baseEffect cfg m b) (baseAct m b) d p t ∧
    Performs cfg 9 positioningExtension (gpos.Type_.read cfg) (ligatureEffect cfg c m b) (ligatureAct c m b) d p t ∧
    Performs cfg 9 positioningExtension (gpos.Type_.read cfg) (markEffect cfg m b) (markAct m b) d p t := by
  refine ⟨performs_positioning hd h fun type_ a x hx => ?_, performs_positioning hd h fun type_ a x hx => ?_,
    performs_positioning hd h fun type_ a x hx => ?_, performs_positioning hd h fun type_ a x hx => ?_⟩
  · cases x with
    | cursiveAttachment t => exact only_same hx.1 (C104_cursive hd ((reads_parses hd).mpr hx.2) m)
    | _ => exact only_other (by have := hx.1; omega)
  · cases x with
    | markToBaseAttachment t => exact only_same hx.1 (C104_base hd ((reads_parses hd).mpr hx.2) m b)
    | _ => exact only_other (by have := hx.1; omega)
  · cases x with
    | markToLigatureAttachment t => exact only_same hx.1 (C104_ligature hd ((reads_parses hd).mpr hx.2) c m b)
    | _ => exact only_other (by have := hx.1; omega)
  · cases x with
    | markToMarkAttachment t => exact only_same hx.1 (C104_mark hd ((reads_parses hd).mpr hx.2) m b)
    | _ => exact only_other (by have := hx.1; omega)

end

/-! ## Examples -/

/-- A GSUB table without scripts and features and with four lookups: the two alternates of glyph 3, and the context, the chained
context and the reverse chained substitution of the examples of C105. -/
def engagingTable : Data := bytes <|
  [0, 1,  0, 0,  0, 10,  0, 10,  0, 12] ++ [0, 0] ++ [0, 4,  0, 10,  0, 40,  0, 92,  0, 138] ++
  [0, 3, 0, 0, 0, 1, 0, 8] ++
    [0, 1, 0, 8, 0, 1, 0, 16, 0, 1, 0, 2, 0, 3, 0, 4, 0, 2, 0, 10, 0, 11] ++
  [0, 5, 0, 0, 0, 1, 0, 8] ++
    [0, 1, 0, 8, 0, 1, 0, 16, 0, 1, 0, 2, 0, 3, 0, 9, 0, 2, 0, 6, 0, 18, 0, 3, 0, 1, 0, 4, 0, 5, 0, 1, 0, 7, 0, 2, 0, 1,
     0, 4, 0, 0, 0, 8] ++
  [0, 6, 0, 0, 0, 1, 0, 8] ++
    [0, 3, 0, 1, 0, 20, 0, 1, 0, 26, 0, 1, 0, 32, 0, 1, 0, 0, 0, 8, 0, 1, 0, 1, 0, 1, 0, 1, 0, 1, 0, 3, 0, 1, 0, 1, 0,
     5] ++
  [0, 8, 0, 0, 0, 1, 0, 8] ++
    [0, 1, 0, 14, 0, 0, 0, 1, 0, 22, 0, 1, 0, 6, 0, 1, 0, 2, 0, 3, 0, 4, 0, 1, 0, 1, 0, 5]

/-- What is read from it. -/
def engagingValue : gsub.GlyphSubstitution :=
  ⟨1, 0, 10, 10, 12, 0, ⟨0, [], []⟩, ⟨0, [], []⟩,
    ⟨4, [10, 40, 92, 138],
      [⟨3, 0, 1, [8], none, [.alternateSubstitution ⟨1, 8, 1, [16], .format1 ⟨1, 2, [3, 4]⟩, [⟨2, [10, 11]⟩]⟩]⟩,
      ⟨5, 0, 1, [8], none, [.contextualSubstitution rulesValue]⟩,
      ⟨6, 0, 1, [8], none, [.chainedContextualSubstitution chainValue]⟩,
      ⟨8, 0, 1, [8], none, [.reverseChainedContextualSubstibution reverseValue]⟩]⟩, none⟩

example : Reads (gsub.GlyphSubstitution.read ⟨false, false, false, false, false, false⟩) engagingTable 0 engagingValue ∧
    Reads (perform substitutionExtension gsub.Type_.read (alternateAct 3) 0 engagingValue 0) engagingTable 0 (some [10, 11]) ∧
    Reads (perform substitutionExtension gsub.Type_.read (alternateAct 5) 0 engagingValue 0) engagingTable 0 none ∧
    Reads (perform substitutionExtension gsub.Type_.read (contextAct 3 [4, 6]) 0 engagingValue 1) engagingTable 0
      (some (2, [⟨0, 8⟩])) ∧
    Reads (perform substitutionExtension gsub.Type_.read (chainAct [1, 2] 3 [5]) 0 engagingValue 2) engagingTable 0
      (some (1, [⟨0, 8⟩])) ∧
    Reads (perform substitutionExtension gsub.Type_.read (reverseAct [] 3 [5]) 0 engagingValue 3) engagingTable 0 (some 6) ∧
    ∃ e, perform substitutionExtension gsub.Type_.read (reverseAct [] 4 [5]) 0 engagingValue 3 engagingTable 0 = .error e :=
  ⟨by decide +kernel, by decide +kernel, by decide +kernel, by decide +kernel, by decide +kernel, by decide +kernel, _, rfl⟩

/-- A GPOS table without scripts and features and with six lookups: the attachments of the examples of C104, and the context and
the chained context of those of C105. -/
def engagedTable : Data := bytes <|
  [0, 1,  0, 0,  0, 10,  0, 10,  0, 12] ++ [0, 0] ++ [0, 6,  0, 14,  0, 44,  0, 112,  0, 172,  0, 240,  1, 36] ++
  [0, 3, 0, 0, 0, 1, 0, 8] ++
    [0, 1, 0, 10, 0, 1, 0, 0, 0, 16, 0, 1, 0, 1, 0, 3, 0, 1, 0, 5, 0, 6] ++
  [0, 4, 0, 0, 0, 1, 0, 8] ++
    [0, 1, 0, 12, 0, 20, 0, 2, 0, 28, 0, 44, 0, 1, 0, 2, 0, 3, 0, 4, 0, 1, 0, 2, 0, 7, 0, 8, 0, 2, 0, 1, 0, 10, 0, 2, 0,
     10, 0, 1, 0, 5, 0, 6, 0, 2, 0, 0, 0, 10, 0, 0, 0, 0, 0, 1, 0, 8, 0, 9] ++
  [0, 5, 0, 0, 0, 1, 0, 8] ++
    [0, 1, 0, 12, 0, 18, 0, 1, 0, 24, 0, 36, 0, 1, 0, 1, 0, 3, 0, 1, 0, 1, 0, 7, 0, 1, 0, 0, 0, 6, 0, 1, 0, 5, 0, 6, 0,
     1, 0, 4, 0, 2, 0, 0, 0, 6, 0, 1, 0, 8, 0, 9] ++
  [0, 6, 0, 0, 0, 1, 0, 8] ++
    [0, 1, 0, 12, 0, 20, 0, 2, 0, 28, 0, 44, 0, 1, 0, 2, 0, 3, 0, 4, 0, 1, 0, 2, 0, 7, 0, 8, 0, 2, 0, 1, 0, 10, 0, 2, 0,
     10, 0, 1, 0, 5, 0, 6, 0, 2, 0, 0, 0, 10, 0, 0, 0, 0, 0, 1, 0, 8, 0, 9] ++
  [0, 7, 0, 0, 0, 1, 0, 8] ++
    [0, 1, 0, 8, 0, 1, 0, 16, 0, 1, 0, 2, 0, 3, 0, 9, 0, 2, 0, 6, 0, 18, 0, 3, 0, 1, 0, 4, 0, 5, 0, 1, 0, 7, 0, 2, 0, 1,
     0, 4, 0, 0, 0, 8] ++
  [0, 8, 0, 0, 0, 1, 0, 8] ++
    [0, 3, 0, 1, 0, 20, 0, 1, 0, 26, 0, 1, 0, 32, 0, 1, 0, 0, 0, 8, 0, 1, 0, 1, 0, 1, 0, 1, 0, 1, 0, 3, 0, 1, 0, 1, 0,
     5]

/-- What is read from it. -/
def engagedValue : gpos.GlyphPositioning :=
  ⟨1, 0, 10, 10, 12, 0, ⟨0, [], []⟩, ⟨0, [], []⟩,
    ⟨6, [14, 44, 112, 172, 240, 292],
      [⟨3, 0, 1, [8], none, [.cursiveAttachment cursiveValue]⟩,
      ⟨4, 0, 1, [8], none, [.markToBaseAttachment attachingValue]⟩,
      ⟨5, 0, 1, [8], none, [.markToLigatureAttachment componentsValue]⟩,
      ⟨6, 0, 1, [8], none, [.markToMarkAttachment
        ⟨1, 12, 20, 2, 28, 44, .format1 ⟨1, 2, [3, 4]⟩, .format1 ⟨1, 2, [7, 8]⟩, attachingValue.marks,
          ⟨2, [⟨[0, 10], [none, some (.format1 ⟨1, 8, 9⟩)]⟩, ⟨[0, 0], [none, none]⟩]⟩⟩]⟩,
      ⟨7, 0, 1, [8], none, [.contextualPositioning rulesValue]⟩,
      ⟨8, 0, 1, [8], none, [.chainedContextualPositioning chainValue]⟩]⟩, none⟩

/-- A lookup of the GPOS table, performed. -/
abbrev engaged {β : Type} (act : gpos.Type_ → Except Err (Option β)) (i : Nat) : Reader (Option β) :=
  perform positioningExtension (gpos.Type_.read ⟨false, false, false, false, false, true⟩) act 0 engagedValue i

example : Reads (gpos.GlyphPositioning.read ⟨false, false, false, false, false, true⟩) engagedTable 0 engagedValue ∧
    Reads (engaged (cursiveAct 3) 0) engagedTable 0 (some (none, some (.format1 ⟨1, 5, 6⟩))) ∧
    Reads (engaged (baseAct 3 7) 1) engagedTable 0 (some (.format1 ⟨1, 5, 6⟩, .format1 ⟨1, 8, 9⟩)) ∧
    Reads (engaged (ligatureAct 1 3 7) 2) engagedTable 0 (some (.format1 ⟨1, 5, 6⟩, .format1 ⟨1, 8, 9⟩)) ∧
    Reads (engaged (markAct 3 7) 3) engagedTable 0 (some (.format1 ⟨1, 5, 6⟩, .format1 ⟨1, 8, 9⟩)) ∧
    Reads (engaged (markAct 3 8) 3) engagedTable 0 none ∧
    Reads (engaged (positionAct 3 [4, 6]) 4) engagedTable 0 (some (2, [⟨0, 8⟩])) ∧
    Reads (engaged (positionChainAct [1, 2] 3 [5]) 5) engagedTable 0 (some (1, [⟨0, 8⟩])) ∧
    ∃ e, engaged (baseAct 4 7) 1 engagedTable 0 = .error e :=
  ⟨by decide +kernel, by decide +kernel, by decide +kernel, by decide +kernel, by decide +kernel, by decide +kernel,
    by decide +kernel, by decide +kernel, _, rfl⟩

end OpenType.Props
