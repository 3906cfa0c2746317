import Verif.Spec.Position
import Verif.Props.Shape
/-! # C112: how text is placed -/

namespace OpenType.Props
open OpenType Spec lookup directory

theorem firstSeen_iff {ignored : Nat → Bool} {I : Nat → Prop} (hI : ∀ g, ignored g = true ↔ I g) :
    ∀ (glyphs : List Moved) (next : Option Nat),
      FirstSeen I glyphs next ↔ next = (glyphs.find? fun x => !ignored x.1).map (·.1) := by
  intro glyphs
  induction glyphs with
  | nil => intro next; rfl
  | cons x following ih =>
    intro next
    unfold FirstSeen
    rw [ih next, List.find?_cons]
    by_cases h : I x.1
    · simp [(hI x.1).mpr h, h]
    · simp [Bool.eq_false_iff.mpr (fun hn => h ((hI x.1).mp hn)), h]

theorem lookup_adjusted (cfg : Cfg) {d : Data} {p : Nat} (hd : Fits d) {t : gpos.GlyphPositioning}
    (h : Reads (gpos.GlyphPositioning.read cfg) d p t) {ignored : Nat → Bool} {I : Nat → Prop}
    (hI : ∀ g, ignored g = true ↔ I g) (i : Nat) :
    ∀ (glyphs : List Moved) (second : Option gpos.Single) (q : Nat) (out : List Moved),
      Reads (adjustAll cfg p t ignored i second glyphs) d q out ↔ Adjusted cfg d p I i second glyphs out := by
  intro glyphs
  induction glyphs with
  | nil =>
    intro second q out
    have : adjustAll cfg p t ignored i second [] = pure [] := by cases second <;> rfl
    rw [this, reads_pure]
    constructor
    · rintro rfl; exact .nil
    · intro h; cases h; rfl
  | cons x following ih =>
    obtain ⟨g, values⟩ := x
    intro second q out
    unfold adjustAll
    by_cases hg : ignored g = true
    · rw [if_pos hg, reads_bind_iff]
      constructor
      · rintro ⟨rest, q', e, hr⟩
        rw [reads_pure.mp hr]
        exact .ignore ((hI g).mp hg) ((ih second q rest).mp ⟨q', e⟩)
      · intro hp
        cases hp with
        | ignore _ h2 =>
          obtain ⟨q', e⟩ := (ih second q _).mpr h2
          exact ⟨_, q', e, reads_pure.mpr rfl⟩
        | second h1 _ => exact (h1 ((hI g).mp hg)).elim
        | leave h1 _ _ _ => exact (h1 ((hI g).mp hg)).elim
        | adjust h1 _ _ _ => exact (h1 ((hI g).mp hg)).elim
    · have hn : ¬I g := fun hc => hg ((hI g).mpr hc)
      rw [if_neg hg]
      cases second with
      | some value =>
        dsimp only
        rw [reads_bind_iff]
        constructor
        · rintro ⟨rest, q', e, hr⟩
          rw [reads_pure.mp hr]
          exact .second hn ((ih none q rest).mp ⟨q', e⟩)
        · intro hp
          cases hp with
          | ignore h1 _ => exact (hn h1).elim
          | second _ h2 =>
            obtain ⟨q', e⟩ := (ih none q _).mpr h2
            exact ⟨_, q', e, reads_pure.mpr rfl⟩
      | none =>
        have hs := (firstSeen_iff hI following _).mpr rfl
        obtain ⟨k1, k2, _⟩ := C108_adjustment cfg hd h g ((following.find? fun x => !ignored x.1).map (·.1)) i q
        dsimp only
        rw [reads_bind_iff]
        constructor
        · rintro ⟨r, q', e, hr⟩
          cases r with
          | none =>
            obtain ⟨rest, q'', e', hr⟩ := reads_bind_iff.mp hr
            rw [reads_pure.mp hr]
            exact .leave hn hs (k2.mp ⟨q', e⟩) ((ih none q' rest).mp ⟨q'', e'⟩)
          | some y =>
            obtain ⟨value, second⟩ := y
            obtain ⟨rest, q'', e', hr⟩ := reads_bind_iff.mp hr
            rw [reads_pure.mp hr]
            exact .adjust hn hs ((k1 _).mp ⟨q', e⟩) ((ih second q' rest).mp ⟨q'', e'⟩)
        · intro hp
          cases hp with
          | ignore h1 _ => exact (hn h1).elim
          | leave _ h0 h1 h2 =>
            rw [firstSeen_iff hI] at h0
            rw [h0] at h1
            obtain ⟨q', e⟩ := k2.mpr h1
            obtain ⟨q'', e'⟩ := (ih none q' _).mpr h2
            exact ⟨none, q', e, reads_bind_iff.mpr ⟨_, q'', e', reads_pure.mpr rfl⟩⟩
          | adjust _ h0 h1 h2 =>
            rw [firstSeen_iff hI] at h0
            rw [h0] at h1
            obtain ⟨q', e⟩ := (k1 _).mpr h1
            obtain ⟨q'', e'⟩ := (ih _ q' _).mpr h2
            exact ⟨some _, q', e, reads_bind_iff.mpr ⟨_, q'', e', reads_pure.mpr rfl⟩⟩

theorem lookups_adjusted (cfg : Cfg) {d : Data} {p : Nat} (hd : Fits d) {t : gpos.GlyphPositioning}
    (h : Reads (gpos.GlyphPositioning.read cfg) d p t) {ignored : Nat → Nat → Bool} {I : Nat → Nat → Prop}
    (hI : ∀ i g, ignored i g = true ↔ I i g) {wanted : Nat → Bool} {W : Nat → Prop} (hw : ∀ k, wanted k = true ↔ W k) :
    ∀ (n q : Nat) (glyphs out : List Moved),
      Reads (adjustments cfg p t ignored wanted n glyphs) d q out ↔ PositionedBelow cfg d p I W n glyphs out := by
  intro n
  induction n with
  | zero =>
    intro q glyphs out
    show Reads (pure glyphs) d q out ↔ _
    rw [reads_pure]
    constructor
    · rintro rfl; exact .zero
    · intro h; cases h; rfl
  | succ n ih =>
    intro q glyphs out
    show Reads (adjustments cfg p t ignored wanted n glyphs >>= fun glyphs =>
      if wanted n then adjustAll cfg p t (ignored n) n none glyphs else return glyphs) d q out ↔ _
    rw [reads_bind_iff]
    by_cases hn : wanted n = true
    · simp only [if_pos hn]
      constructor
      · rintro ⟨middle, q', e, hr⟩
        exact .pass ((hw n).mp hn) ((ih q glyphs middle).mp ⟨q', e⟩)
          ((lookup_adjusted cfg hd h (hI n) n middle none q' out).mp hr)
      · intro hs
        cases hs with
        | skip h1 _ => exact (h1 ((hw n).mp hn)).elim
        | pass _ h2 h3 =>
          obtain ⟨q', e⟩ := (ih q glyphs _).mpr h2
          exact ⟨_, q', e, (lookup_adjusted cfg hd h (hI n) n _ none q' out).mpr h3⟩
    · simp only [if_neg hn]
      constructor
      · rintro ⟨middle, q', e, hr⟩
        rw [reads_pure.mp hr]
        exact .skip (fun hc => hn ((hw n).mpr hc)) ((ih q glyphs middle).mp ⟨q', e⟩)
      · intro hs
        cases hs with
        | skip _ h2 =>
          obtain ⟨q', e⟩ := (ih q glyphs _).mpr h2
          exact ⟨_, q', e, reads_pure.mpr rfl⟩
        | pass h1 _ _ => exact (hn ((hw n).mpr h1)).elim

/-- Lookups that are not wanted do not matter. -/
theorem positionedBelow_add {cfg : Cfg} {d : Data} {p : Nat} {I : Nat → Nat → Prop} {W : Nat → Prop} {n : Nat}
    (hn : ∀ k, W k → k < n) (glyphs out : List Moved) (m : Nat) :
    PositionedBelow cfg d p I W (n + m) glyphs out ↔ PositionedBelow cfg d p I W n glyphs out := by
  induction m with
  | zero => rfl
  | succ m ih =>
    rw [← ih]
    constructor
    · intro h
      cases h with
      | skip _ h => exact h
      | pass h _ _ => exact absurd (hn _ h) (Nat.not_lt.mpr (Nat.le_add_right n m))
    · intro h
      exact .skip (fun hc => absurd (hn _ hc) (Nat.not_lt.mpr (Nat.le_add_right n m))) h

/-- What positioning should give, if `ignored` tells the program what `I` says: what the bytes tell, whatever the script, the
language, the features and the glyphs are, and wherever the tape was before. -/
def Positions (cfg : Cfg) (d : Data) (p : Nat) (t : gpos.GlyphPositioning) (ignored : Nat → Nat → Bool) (I : Nat → Nat → Prop) :
    Prop :=
  ∀ script language tags glyphs q out,
    Reads (positionText cfg p t ignored script language tags glyphs) d q out ↔
      PositionedBy cfg d p I script language tags glyphs out

theorem positions (cfg : Cfg) {d : Data} {p : Nat} (hd : Fits d) {t : gpos.GlyphPositioning}
    (h : Reads (gpos.GlyphPositioning.read cfg) d p t) {ignored : Nat → Nat → Bool} {I : Nat → Nat → Prop}
    (hI : ∀ i g, ignored i g = true ↔ I i g) : Positions cfg d p t ignored I := by
  intro script language tags glyphs q out
  obtain ⟨found, e, hw, hm⟩ := wanted_found (isTable := Spec.gpos.IsTable cfg) hd h script language tags
  unfold positionText
  rw [e]
  refine Iff.trans (lookups_adjusted cfg hd h hI hw _ q _ out) ⟨fun hs => ⟨_, hm, hs⟩, ?_⟩
  rintro ⟨n, hn, hs⟩
  rcases Nat.le_total n t.lookups.records.length with hl | hl
  · obtain ⟨m, hm⟩ := Nat.exists_eq_add_of_le hl
    rw [hm]
    exact (positionedBelow_add hn _ out m).mpr hs
  · obtain ⟨m, rfl⟩ := Nat.exists_eq_add_of_le hl
    exact (positionedBelow_add hm _ out m).mp hs

/-- Whatever GPOS table is read from any tape, in every build, text is positioned as its bytes tell, if no glyphs are ignored. -/
theorem C112_position (cfg : Cfg) {d : Data} {p : Nat} (hd : Fits d) {t : gpos.GlyphPositioning}
    (h : Reads (gpos.GlyphPositioning.read cfg) d p t) : Positions cfg d p t (fun _ _ => false) (fun _ _ => False) :=
  positions cfg hd h fun _ _ => by simp

/-- Whatever GDEF table and GPOS table are read from any tape, in every build, text is positioned as their bytes tell. -/
theorem C112_ignoring (cfg : Cfg) {d : Data} {p q : Nat} (hd : Fits d) {definition : gdef.GlyphDefinition}
    (hdef : Reads (gdef.GlyphDefinition.read cfg) d q definition) {t : gpos.GlyphPositioning}
    (h : Reads (gpos.GlyphPositioning.read cfg) d p t) : Positions cfg d p t (passedOver definition t) (Ignores cfg d q p) := by
  refine positions cfg hd h fun i g => ?_
  obtain ⟨h1, h2⟩ := (C110_ignored cfg hd hdef).2 t h
  unfold passedOver
  cases hi : t.lookups.records[i]? with
  | none => exact ⟨fun e => (by cases e), fun hc => (h2 i hi g hc).elim⟩
  | some record => exact h1 i record hi g

/-- The same from the file on. -/
theorem C112_font (accept : Tag → Bool) (cfg : Cfg) {d : Data} (hd : Fits d) (p p' : Nat) {definition : gdef.GlyphDefinition}
    (hdef : Takes accept cfg d p .glyphDefinition (gdef.GlyphDefinition.read cfg) (some definition)) {t : gpos.GlyphPositioning}
    (h : Takes accept cfg d p' .glyphPositioning (gpos.GlyphPositioning.read cfg) (some t)) :
    ∃ a b, TableAt accept cfg d .glyphDefinition a ∧ TableAt accept cfg d .glyphPositioning b ∧
      Positions cfg d b t (passedOver definition t) (Ignores cfg d a b) := by
  obtain ⟨a, h1, h2⟩ := (C55_stored (S := Reads _) accept cfg _ hd (fun _ _ => Iff.rfl) p definition).mp hdef
  obtain ⟨b, h3, h4⟩ := (C55_stored (S := Reads _) accept cfg _ hd (fun _ _ => Iff.rfl) p' t).mp h
  exact ⟨a, b, h1, h3, C112_ignoring cfg hd h2 h4⟩

/-! ## Example -/

/-- A GPOS table with one script, `latn`, one language, the default one, one feature, `kern`, and two lookups, both of which the
feature has. The first has 5 and 7 as the advances of glyph 3 and of glyph 4 behind it, the second has 6 as that of glyph 3. -/
def positioningTable : Data := bytes <|
  [0, 1,  0, 0,  0, 10,  0, 30,  0, 46] ++
  [0, 1,  0x6C, 0x61, 0x74, 0x6E,  0, 8] ++ [0, 4,  0, 0] ++ [0, 0,  0xFF, 0xFF,  0, 1,  0, 0] ++
  [0, 1,  0x6B, 0x65, 0x72, 0x6E,  0, 8] ++ [0, 0,  0, 2,  0, 1,  0, 0] ++
  [0, 2,  0, 6,  0, 40] ++
  [0, 2,  0, 0,  0, 1,  0, 8] ++ [0, 1,  0, 12,  0, 4,  0, 4,  0, 1,  0, 18] ++ [0, 1,  0, 1,  0, 3] ++
    [0, 1,  0, 4,  0, 5,  0, 7] ++
  [0, 1,  0, 0,  0, 1,  0, 8] ++ [0, 1,  0, 8,  0, 4,  0, 6] ++ [0, 1,  0, 1,  0, 3]

/-- What is read from it. -/
def positioningValue : gpos.GlyphPositioning :=
  ⟨1, 0, 10, 30, 46, 0,
    ⟨1, [⟨0x6C61746E, 8⟩], [⟨4, 0, [], some ⟨0, 0xFFFF, 1, [0]⟩, []⟩]⟩,
    ⟨1, [⟨0x6B65726E, 8⟩], [⟨0, 2, [1, 0], none⟩]⟩,
    ⟨2, [6, 40],
      [⟨2, 0, 1, [8], none, [.pairAdjustment (.format1 ⟨1, 12, 4, 4, 1, [18], .format1 ⟨1, 1, [3]⟩,
          [⟨1, [⟨4, some (advance 5), some (advance 7)⟩]⟩]⟩)]⟩,
        ⟨1, 0, 1, [8], none, [.singleAdjustment (.format1 ⟨1, 8, 4, advance 6, .format1 ⟨1, 1, [3]⟩⟩)]⟩]⟩,
    none⟩

/-- In the glyphs 3, 4, 3 the first two are a pair, and the first and the last are moved by the second lookup. -/
example : Reads (gpos.GlyphPositioning.read ⟨false, false, false, false, false, false⟩) positioningTable 0 positioningValue ∧
    Reads (positionText ⟨false, false, false, false, false, false⟩ 0 positioningValue (fun _ _ => false) 0x6C61746E 0x44455520
      [0x6B65726E] [3, 4, 3]) positioningTable 5 [(3, [advance 5, advance 6]), (4, [advance 7]), (3, [advance 6])] ∧
    Reads (positionText ⟨false, false, false, false, false, false⟩ 0 positioningValue (fun _ _ => false) 0x6C61746E 0x44455520
      [0x6D61726B] [3, 4, 3]) positioningTable 5 [(3, []), (4, []), (3, [])] := by
  decide +kernel

/-- If glyph 2 is ignored, glyphs 3 and 4 are a pair even with it between them. -/
example : Reads (positionText ⟨false, false, false, false, false, false⟩ 0 positioningValue (fun _ g => g == 2) 0x6C61746E
    0x44455520 [0x6B65726E] [3, 2, 4]) positioningTable 5 [(3, [advance 5, advance 6]), (2, []), (4, [advance 7])] := by
  decide +kernel

end OpenType.Props
