import Verif.Spec.Wanted
import Verif.Props.Typeset
/-! # C125: the features that are wanted are a set -/

namespace OpenType.Props
open OpenType Spec lookup directory

section
variable {α : Type} {passed : Nat → List α → List α → Prop}

theorem Below.congr {W W' : Nat → Prop} (h : ∀ k, W k ↔ W' k) {m : Nat} {glyphs out : List α} (hb : Below passed W m glyphs out) :
    Below passed W' m glyphs out := by
  induction hb with
  | zero => exact .zero
  | skip h1 _ ih => exact .skip (mt (h _).mpr h1) ih
  | pass h1 _ h2 ih => exact .pass ((h _).mp h1) ih h2

theorem AllPassed.congr {cfg : Cfg} {d : Data} {p : Nat} {script language script' language' : Tag} {tags tags' : List Tag}
    (h : ∀ k, Wanted cfg d p script language tags k ↔ Wanted cfg d p script' language' tags' k) {glyphs out : List α}
    (ha : AllPassed cfg d p passed script language tags glyphs out) :
    AllPassed cfg d p passed script' language' tags' glyphs out := by
  obtain ⟨m, h1, h2⟩ := ha
  exact ⟨m, fun k hk => h1 k ((h k).mpr hk), Below.congr h h2⟩

theorem AllPassed.nothing {cfg : Cfg} {d : Data} {p : Nat} {script language : Tag} {tags : List Tag}
    (h : ∀ k, ¬Wanted cfg d p script language tags k) {glyphs out : List α} :
    AllPassed cfg d p passed script language tags glyphs out ↔ out = glyphs := by
  constructor
  · rintro ⟨m, hm, hb⟩
    clear hm
    induction hb with
    | zero => rfl
    | skip _ _ ih => exact ih
    | pass h1 => exact (h _ h1).elim
  · rintro rfl
    exact ⟨0, fun k hk => (h k hk).elim, .zero⟩

end

section
variable (accept : Tag → Bool) (cfg : Cfg) {d : Data} (hd : Fits d) (n : Nat)

theorem typesetInto_congr {script language script' language' : Tag} {tags tags' : List Tag}
    (h : SameWanted accept cfg d script language tags script' language' tags') {glyphs : List Nat} {out : List Item}
    (ht : TypesetInto accept cfg d n script language tags glyphs out) :
    TypesetInto accept cfg d n script' language' tags' glyphs out := by
  obtain ⟨h1, middle, h2, h3⟩ := ht
  refine ⟨h1, middle, ?_, ?_⟩
  · rcases h2 with h2 | ⟨p, t, k1, k2, k3⟩
    · exact .inl h2
    · exact .inr ⟨p, t, k1, k2, AllPassed.congr (h p (.inl k1)) k3⟩
  · rcases h3 with h3 | ⟨p, t, k1, k2, k3⟩
    · exact .inl h3
    · exact .inr ⟨p, t, k1, k2, AllPassed.congr (h p (.inr k1)) k3⟩

include hd

/-- Text becomes the same for all scripts, languages and features for which the same lookups are wanted. -/
theorem C125_same {script language script' language' : Tag} {tags tags' : List Tag}
    (h : SameWanted accept cfg d script language tags script' language' tags') (glyphs : List Nat) (out : List Item) :
    Reads (typeset accept cfg n script language tags glyphs) d 0 out ↔
      Reads (typeset accept cfg n script' language' tags' glyphs) d 0 out := by
  rw [C113_typeset accept cfg hd, C113_typeset accept cfg hd]
  exact ⟨typesetInto_congr accept cfg n h, typesetInto_congr accept cfg n fun p hp k => (h p hp k).symm⟩

/-- It matters neither in which order features are named, nor how often, nor whether features are named that the file does not
have for the script and the language. -/
theorem C125_features (script language : Tag) {tags tags' : List Tag}
    (h : ∀ p, TableAt accept cfg d .glyphSubstitution p ∨ TableAt accept cfg d .glyphPositioning p →
      ∀ tag k a, LeadsTo cfg d p script language tag k a → (tag ∈ tags ↔ tag ∈ tags')) (glyphs : List Nat) (out : List Item) :
    Reads (typeset accept cfg n script language tags glyphs) d 0 out ↔
      Reads (typeset accept cfg n script language tags' glyphs) d 0 out := by
  refine C125_same accept cfg hd n (fun p hp k => ⟨?_, ?_⟩) glyphs out
  · rintro ⟨tag, h1, a, h2⟩
    exact ⟨tag, (h p hp tag k a h2).mp h1, a, h2⟩
  · rintro ⟨tag, h1, a, h2⟩
    exact ⟨tag, (h p hp tag k a h2).mpr h1, a, h2⟩

/-- If none of the features that are named is there for the script and the language, the text stays as it is, if anything is given
at all; and something is given if and only if the tables are absent or well-formed. -/
theorem C125_nothing (script language : Tag) {tags : List Tag}
    (h : ∀ p, TableAt accept cfg d .glyphSubstitution p ∨ TableAt accept cfg d .glyphPositioning p →
      ∀ tag ∈ tags, ∀ k a, ¬LeadsTo cfg d p script language tag k a) (glyphs : List Nat) (out : List Item) :
    Reads (typeset accept cfg n script language tags glyphs) d 0 out ↔ out = glyphs.map Item.of ∧
      (Absent accept d .glyphDefinition ∨ ∃ p t, TableAt accept cfg d .glyphDefinition p ∧ gdef.IsGlyphDefinitionTaken cfg d p t) ∧
      (Absent accept d .glyphSubstitution ∨ ∃ p t, TableAt accept cfg d .glyphSubstitution p ∧ gsub.IsGlyphSubstitution cfg d p t) ∧
      (Absent accept d .glyphPositioning ∨ ∃ p t, TableAt accept cfg d .glyphPositioning p ∧ gpos.IsGlyphPositioning cfg d p t) := by
  have h' : ∀ p, TableAt accept cfg d .glyphSubstitution p ∨ TableAt accept cfg d .glyphPositioning p →
      ∀ k, ¬Wanted cfg d p script language tags k := by
    rintro p hp k ⟨tag, h1, a, h2⟩
    exact h p hp tag h1 k a h2
  rw [C113_typeset accept cfg hd]
  constructor
  · rintro ⟨h1, middle, h2, h3⟩
    have e : middle = glyphs := by
      rcases h2 with ⟨_, h2⟩ | ⟨p, t, k1, k2, k3⟩
      · exact h2
      · exact (AllPassed.nothing (h' p (.inl k1))).mp k3
    subst e
    refine ⟨?_, h1, h2.imp And.left fun ⟨p, t, k1, k2, _⟩ => ⟨p, t, k1, k2⟩, h3.imp And.left fun ⟨p, t, k1, k2, _⟩ => ⟨p, t, k1, k2⟩⟩
    rcases h3 with ⟨_, h3⟩ | ⟨p, t, k1, k2, k3⟩
    · exact h3
    · exact (AllPassed.nothing (h' p (.inr k1))).mp k3
  · rintro ⟨rfl, h1, h2, h3⟩
    exact ⟨h1, glyphs, h2.imp (⟨·, rfl⟩) fun ⟨p, t, k1, k2⟩ => ⟨p, t, k1, k2, (AllPassed.nothing (h' p (.inl k1))).mpr rfl⟩,
      h3.imp (⟨·, rfl⟩) fun ⟨p, t, k1, k2⟩ => ⟨p, t, k1, k2, (AllPassed.nothing (h' p (.inr k1))).mpr rfl⟩⟩

end

/-- In the file of the example of C113, the features may be named in the other order, and twice. -/
example : Reads (typeset (· == 0x00010000) ⟨false, false, false, false, false, false⟩ 2 0x6C61746E 0x44455520
    [0x6B65726E, 0x6C696761, 0x6B65726E] [9, 3]) typesettingFile 0 [⟨6, 0, []⟩, ⟨3, 0, [.moved (advance 6)]⟩] :=
  (C125_features _ _ (by decide +kernel) 2 0x6C61746E 0x44455520 (tags := [0x6C696761, 0x6B65726E])
    (tags' := [0x6B65726E, 0x6C696761, 0x6B65726E]) (fun p _ tag k a _ => by
      simp only [List.mem_cons, List.not_mem_nil, or_false]
      constructor
      · rintro (h | h)
        · exact .inr (.inl h)
        · exact .inl h
      · rintro (h | h | h)
        · exact .inr h
        · exact .inl h
        · exact .inr h)
    [9, 3] [⟨6, 0, []⟩, ⟨3, 0, [.moved (advance 6)]⟩]).mp
    (show Reads (typeset (· == 0x00010000) ⟨false, false, false, false, false, false⟩ 2 0x6C61746E 0x44455520
      [0x6C696761, 0x6B65726E] [9, 3]) typesettingFile 0 _ by decide +kernel)

/-- Features it does not have make no difference, and do nothing by themselves. -/
example :
    Reads (typeset (· == 0x00010000) ⟨false, false, false, false, false, false⟩ 2 0x6C61746E 0x44455520
      [0x6B65726E, 0x61616C74, 0x6C696761] [9, 3]) typesettingFile 0 [⟨6, 0, []⟩, ⟨3, 0, [.moved (advance 6)]⟩] ∧
    Reads (typeset (· == 0x00010000) ⟨false, false, false, false, false, false⟩ 2 0x6C61746E 0x44455520
      [0x61616C74] [9, 3]) typesettingFile 0 [⟨9, 0, []⟩, ⟨3, 0, []⟩] := by
  decide +kernel

end OpenType.Props
