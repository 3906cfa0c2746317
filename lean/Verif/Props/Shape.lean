import Verif.Spec.Shape
import Verif.Props.Perform
import Verif.Props.Ignore
/-! # C109: what text becomes -/

namespace OpenType.Props
open OpenType Spec lookup directory

theorem reads_bind_iff {α β : Type} {d : Data} {q : Nat} {r : Reader α} {f : α → Reader β} {y : β} :
    Reads (r >>= f) d q y ↔ ∃ x q', r d q = .ok (x, q') ∧ Reads (f x) d q' y := by
  unfold Reads
  rw [run_bind_eq]
  cases r d q with
  | error e => exact ⟨fun ⟨_, h⟩ => (by cases h), fun ⟨_, _, h, _⟩ => (by cases h)⟩
  | ok x =>
    obtain ⟨x, q'⟩ := x
    constructor
    · intro h; exact ⟨x, q', rfl, h⟩
    · rintro ⟨x', q'', h, h'⟩
      injection h with h
      injection h with h1 h2
      rw [← h1, ← h2] at h'
      exact h'

theorem seen_iff {α : Type} {ignored : α → Bool} {I : α → Prop} (hI : ∀ g, ignored g = true ↔ I g) (glyphs : List α) :
    glyphs.filter (!ignored ·) = seen I glyphs := by
  unfold seen
  congr 1
  funext g
  by_cases h : I g
  · simp [(hI g).mpr h, h]
  · simp [Bool.eq_false_iff.mpr (fun hn => h ((hI g).mp hn)), h]

theorem lookup_passed (cfg : Cfg) {d : Data} {p : Nat} (hd : Fits d) {t : gsub.GlyphSubstitution}
    (h : Reads (gsub.GlyphSubstitution.read cfg) d p t) {ignored : Nat → Bool} {I : Nat → Prop}
    (hI : ∀ g, ignored g = true ↔ I g) (i : Nat) :
    ∀ (glyphs : List Nat) (skip q : Nat) (out : List Nat),
      Reads (pass p t ignored i skip glyphs) d q out ↔ Passed cfg d p I i skip glyphs out := by
  intro glyphs
  induction glyphs with
  | nil =>
    intro skip q out
    have : pass p t ignored i skip [] = pure [] := by cases skip <;> rfl
    rw [this, reads_pure]
    constructor
    · rintro rfl; exact .nil
    · intro h; cases h; rfl
  | cons g following ih =>
    intro skip q out
    unfold pass
    by_cases hg : ignored g = true
    · rw [if_pos hg, reads_bind_iff]
      constructor
      · rintro ⟨rest, q', e, hr⟩
        rw [reads_pure.mp hr]
        exact .ignore ((hI g).mp hg) ((ih skip q rest).mp ⟨q', e⟩)
      · intro hp
        cases hp with
        | ignore _ h2 =>
          obtain ⟨q', e⟩ := (ih skip q _).mpr h2
          exact ⟨_, q', e, reads_pure.mpr rfl⟩
        | gone h1 _ => exact (h1 ((hI g).mp hg)).elim
        | keep h1 _ _ => exact (h1 ((hI g).mp hg)).elim
        | replace h1 _ _ => exact (h1 ((hI g).mp hg)).elim
    · have hn : ¬I g := fun hc => hg ((hI g).mpr hc)
      rw [if_neg hg]
      cases skip with
      | succ skip =>
        refine Iff.trans (ih skip q out) ⟨.gone hn, fun hp => ?_⟩
        cases hp with
        | ignore h1 _ => exact (hn h1).elim
        | gone _ h2 => exact h2
      | zero =>
        obtain ⟨k1, k2, _⟩ := C108_substitution cfg hd h g (seen I following) i q
        dsimp only
        rw [reads_bind_iff, seen_iff hI]
        constructor
        · rintro ⟨r, q', e, hr⟩
          cases r with
          | none =>
            obtain ⟨rest, q'', e', hr⟩ := reads_bind_iff.mp hr
            rw [reads_pure.mp hr]
            exact .keep hn (k2.mp ⟨q', e⟩) ((ih 0 q' rest).mp ⟨q'', e'⟩)
          | some y =>
            obtain ⟨glyphs, n⟩ := y
            obtain ⟨rest, q'', e', hr⟩ := reads_bind_iff.mp hr
            rw [reads_pure.mp hr]
            exact .replace hn ((k1 _).mp ⟨q', e⟩) ((ih n q' rest).mp ⟨q'', e'⟩)
        · intro hp
          cases hp with
          | ignore h1 _ => exact (hn h1).elim
          | keep _ h1 h2 =>
            obtain ⟨q', e⟩ := k2.mpr h1
            obtain ⟨q'', e'⟩ := (ih 0 q' _).mpr h2
            exact ⟨none, q', e, reads_bind_iff.mpr ⟨_, q'', e', reads_pure.mpr rfl⟩⟩
          | replace _ h1 h2 =>
            obtain ⟨q', e⟩ := (k1 _).mpr h1
            obtain ⟨q'', e'⟩ := (ih _ q' _).mpr h2
            exact ⟨some _, q', e, reads_bind_iff.mpr ⟨_, q'', e', reads_pure.mpr rfl⟩⟩

theorem lookups_passed (cfg : Cfg) {d : Data} {p : Nat} (hd : Fits d) {t : gsub.GlyphSubstitution}
    (h : Reads (gsub.GlyphSubstitution.read cfg) d p t) {ignored : Nat → Nat → Bool} {I : Nat → Nat → Prop}
    (hI : ∀ i g, ignored i g = true ↔ I i g) {wanted : Nat → Bool} {W : Nat → Prop} (hw : ∀ k, wanted k = true ↔ W k) :
    ∀ (n q : Nat) (glyphs out : List Nat),
      Reads (passes p t ignored wanted n glyphs) d q out ↔ ShapedBelow cfg d p I W n glyphs out := by
  intro n
  induction n with
  | zero =>
    intro q glyphs out
    show Reads (pure glyphs) d q out ↔ _
    rw [reads_pure]
    constructor
    · rintro rfl; exact .zero
    · intro h; cases h; rfl
  | succ n ih =>
    intro q glyphs out
    show Reads (passes p t ignored wanted n glyphs >>= fun glyphs =>
      if wanted n then pass p t (ignored n) n 0 glyphs else return glyphs) d q out ↔ _
    rw [reads_bind_iff]
    by_cases hn : wanted n = true
    · simp only [if_pos hn]
      constructor
      · rintro ⟨middle, q', e, hr⟩
        exact .pass ((hw n).mp hn) ((ih q glyphs middle).mp ⟨q', e⟩) ((lookup_passed cfg hd h (hI n) n middle 0 q' out).mp hr)
      · intro hs
        cases hs with
        | skip h1 _ => exact (h1 ((hw n).mp hn)).elim
        | pass _ h2 h3 =>
          obtain ⟨q', e⟩ := (ih q glyphs _).mpr h2
          exact ⟨_, q', e, (lookup_passed cfg hd h (hI n) n _ 0 q' out).mpr h3⟩
    · simp only [if_neg hn]
      constructor
      · rintro ⟨middle, q', e, hr⟩
        rw [reads_pure.mp hr]
        exact .skip (fun hc => hn ((hw n).mpr hc)) ((ih q glyphs middle).mp ⟨q', e⟩)
      · intro hs
        cases hs with
        | skip _ h2 =>
          obtain ⟨q', e⟩ := (ih q glyphs _).mpr h2
          exact ⟨_, q', e, reads_pure.mpr rfl⟩
        | pass h1 _ _ => exact (hn ((hw n).mpr h1)).elim

/-- Lookups that are not wanted do not matter. -/
theorem shapedBelow_add {cfg : Cfg} {d : Data} {p : Nat} {I : Nat → Nat → Prop} {W : Nat → Prop} {n : Nat} (hn : ∀ k, W k → k < n)
    (glyphs out : List Nat) (m : Nat) :
    ShapedBelow cfg d p I W (n + m) glyphs out ↔ ShapedBelow cfg d p I W n glyphs out := by
  induction m with
  | zero => rfl
  | succ m ih =>
    rw [← ih]
    constructor
    · intro h
      cases h with
      | skip _ h => exact h
      | pass h _ _ => exact absurd (hn _ h) (Nat.not_lt.mpr (Nat.le_add_right n m))
    · intro h
      exact .skip (fun hc => absurd (hn _ hc) (Nat.not_lt.mpr (Nat.le_add_right n m))) h

/-- Lookups that the bytes lead to are among those that are read. -/
theorem lookup_read {T : Type} {cfg : Cfg} {readTable : Nat → Reader T} {isTable : Nat → Data → Nat → T → Prop}
    [∀ t, Parses (readTable t) (isTable t)] {d : Data} {p : Nat} (hd : Fits d) {t : Directory T}
    (h : Reads (Directory.read cfg readTable) d p t) {k a : Nat} (hk : LookupAt cfg d p k a) :
    k < t.lookups.records.length ∧ ∃ record, Reads (lookup.Record.read cfg readTable) d a record := by
  have h := (reads_parses (S := IsDirectory cfg isTable) hd).mp h
  obtain ⟨_, _, _, _, _, _, ho, _, _, _, hp, _⟩ := h
  obtain ⟨b', n, o, k1, k2, k3, k4, rfl⟩ := hk
  rcases IsPart.listAt (k := 2) ho hp with ⟨b, hb, h1, ⟨h2, h3⟩, h4, h5⟩ | ⟨he, hn⟩
  · obtain rfl := k1.unique hb
    rw [k2.unique h1] at k3
    have e1 := List.getElem?_eq_getElem (l := t.lookups.offsets) (i := k) (by omega)
    have e2 := List.getElem?_eq_getElem (l := t.lookups.records) (i := k) (by omega)
    have := h5 k _ _ e1 e2
    rw [(h3 k _ e1).unique k4] at this
    exact ⟨by omega, _, (reads_parses (S := IsLookupRecord cfg isTable) hd).mpr this⟩
  · exact (hn _ k1).elim

/-- What shaping should give, if `ignored` tells the program what `I` says: what the bytes tell, whatever the script, the
language, the features and the glyphs are, and wherever the tape was before. -/
def Shapes (cfg : Cfg) (d : Data) (p : Nat) (t : gsub.GlyphSubstitution) (ignored : Nat → Nat → Bool) (I : Nat → Nat → Prop) :
    Prop :=
  ∀ script language tags glyphs q out,
    Reads (shape p t ignored script language tags glyphs) d q out ↔ ShapedInto cfg d p I script language tags glyphs out

/-- The lookups that the program finds are those that are wanted. -/
theorem wanted_found {T : Type} {cfg : Cfg} {readTable : Nat → Reader T} {isTable : Nat → Data → Nat → T → Prop}
    [∀ t, Parses (readTable t) (isTable t)] {d : Data} {p : Nat} (hd : Fits d) {t : Directory T}
    (h : Reads (Directory.read cfg readTable) d p t) (script language : Tag) (tags : List Tag) :
    ∃ found, lookupsFor t script language = .ok found ∧
      (∀ k, (found.any fun x => tags.contains x.1 && x.2.1 == k) = true ↔ Wanted cfg d p script language tags k) ∧
      ∀ k, Wanted cfg d p script language tags k → k < t.lookups.records.length := by
  obtain ⟨found, e, hf⟩ := finds_lookups (isTable := isTable) hd h script language
  refine ⟨found, e, fun k => ?_, ?_⟩
  · simp only [List.any_eq_true, Bool.and_eq_true, List.contains_iff_mem, beq_iff_eq]
    constructor
    · rintro ⟨⟨tag, k', record⟩, h1, h2, rfl⟩
      obtain ⟨a, h3, _⟩ := (hf tag k' record).mp h1
      exact ⟨tag, h2, a, h3⟩
    · rintro ⟨tag, h1, a, h2⟩
      have h3 := h2
      obtain ⟨_, _, _, _, _, _, _, _, _, h3⟩ := h3
      obtain ⟨_, record, h4⟩ := lookup_read (isTable := isTable) hd h h3
      exact ⟨(tag, k, record), (hf _ _ _).mpr ⟨a, h2, h4⟩, h1, rfl⟩
  · rintro k ⟨tag, h1, a, _, _, _, _, _, _, _, _, _, h3⟩
    exact (lookup_read (isTable := isTable) hd h h3).1

theorem shapes (cfg : Cfg) {d : Data} {p : Nat} (hd : Fits d) {t : gsub.GlyphSubstitution}
    (h : Reads (gsub.GlyphSubstitution.read cfg) d p t) {ignored : Nat → Nat → Bool} {I : Nat → Nat → Prop}
    (hI : ∀ i g, ignored i g = true ↔ I i g) : Shapes cfg d p t ignored I := by
  intro script language tags glyphs q out
  obtain ⟨found, e, hw, hm⟩ := wanted_found (isTable := Spec.gsub.IsTable) hd h script language tags
  unfold shape
  rw [e]
  refine Iff.trans (lookups_passed cfg hd h hI hw _ q glyphs out) ⟨fun hs => ⟨_, hm, hs⟩, ?_⟩
  rintro ⟨n, hn, hs⟩
  rcases Nat.le_total n t.lookups.records.length with hl | hl
  · obtain ⟨m, hm⟩ := Nat.exists_eq_add_of_le hl
    rw [hm]
    exact (shapedBelow_add hn glyphs out m).mpr hs
  · obtain ⟨m, rfl⟩ := Nat.exists_eq_add_of_le hl
    exact (shapedBelow_add hm glyphs out m).mp hs

/-- Whatever GSUB table is read from any tape, in every build, text is shaped as its bytes tell, if no glyphs are ignored. -/
theorem C109_shape (cfg : Cfg) {d : Data} {p : Nat} (hd : Fits d) {t : gsub.GlyphSubstitution}
    (h : Reads (gsub.GlyphSubstitution.read cfg) d p t) : Shapes cfg d p t (fun _ _ => false) (fun _ _ => False) :=
  shapes cfg hd h fun _ _ => by simp

/-- The program finds the glyphs that lookups ignore. -/
theorem ignoredBy_iff (cfg : Cfg) {d : Data} {p q : Nat} (hd : Fits d) {definition : gdef.GlyphDefinition}
    (hdef : Reads (gdef.GlyphDefinition.read cfg) d q definition) {t : gsub.GlyphSubstitution}
    (h : Reads (gsub.GlyphSubstitution.read cfg) d p t) (i g : Nat) :
    ignoredBy definition t i g = true ↔ Ignores cfg d q p i g := by
  obtain ⟨h1, h2⟩ := (C110_ignored cfg hd hdef).1 t h
  unfold ignoredBy
  cases hi : t.lookups.records[i]? with
  | none => exact ⟨fun e => (by cases e), fun hc => (h2 i hi g hc).elim⟩
  | some record => exact h1 i record hi g

/-- Whatever GDEF table and GSUB table are read from any tape, in every build, text is shaped as their bytes tell. -/
theorem C109_ignoring (cfg : Cfg) {d : Data} {p q : Nat} (hd : Fits d) {definition : gdef.GlyphDefinition}
    (hdef : Reads (gdef.GlyphDefinition.read cfg) d q definition) {t : gsub.GlyphSubstitution}
    (h : Reads (gsub.GlyphSubstitution.read cfg) d p t) : Shapes cfg d p t (ignoredBy definition t) (Ignores cfg d q p) :=
  shapes cfg hd h (ignoredBy_iff cfg hd hdef h)

/-- The same from the file on. -/
theorem C109_font (accept : Tag → Bool) (cfg : Cfg) {d : Data} (hd : Fits d) (p p' : Nat) {definition : gdef.GlyphDefinition}
    (hdef : Takes accept cfg d p .glyphDefinition (gdef.GlyphDefinition.read cfg) (some definition)) {t : gsub.GlyphSubstitution}
    (h : Takes accept cfg d p' .glyphSubstitution (gsub.GlyphSubstitution.read cfg) (some t)) :
    ∃ a b, TableAt accept cfg d .glyphDefinition a ∧ TableAt accept cfg d .glyphSubstitution b ∧
      Shapes cfg d b t (ignoredBy definition t) (Ignores cfg d a b) := by
  obtain ⟨a, h1, h2⟩ := (C55_stored (S := Reads _) accept cfg _ hd (fun _ _ => Iff.rfl) p definition).mp hdef
  obtain ⟨b, h3, h4⟩ := (C55_stored (S := Reads _) accept cfg _ hd (fun _ _ => Iff.rfl) p' t).mp h
  exact ⟨a, b, h1, h3, C109_ignoring cfg hd h2 h4⟩

/-! ## Example -/

/-- A GSUB table with one script, `latn`, one language, the default one, one feature, `liga`, and two lookups. The feature has
both, the second first. The first makes glyph 9 into glyphs 3 and 4, the second makes glyphs 3 and 4 into glyph 6. -/
def shapingTable : Data := bytes <|
  [0, 1,  0, 0,  0, 10,  0, 30,  0, 46] ++
  [0, 1,  0x6C, 0x61, 0x74, 0x6E,  0, 8] ++ [0, 4,  0, 0] ++ [0, 0,  0xFF, 0xFF,  0, 1,  0, 0] ++
  [0, 1,  0x6C, 0x69, 0x67, 0x61,  0, 8] ++ [0, 0,  0, 2,  0, 1,  0, 0] ++
  [0, 2,  0, 6,  0, 34] ++
  [0, 2,  0, 0,  0, 1,  0, 8] ++ [0, 1,  0, 8,  0, 1,  0, 14] ++ [0, 1,  0, 1,  0, 9] ++ [0, 2,  0, 3,  0, 4] ++
  [0, 4,  0, 0,  0, 1,  0, 8] ++ [0, 1,  0, 8,  0, 1,  0, 14] ++ [0, 1,  0, 1,  0, 3] ++ [0, 1,  0, 4] ++ [0, 6,  0, 2,  0, 4]

/-- What is read from it. -/
def shapingValue : gsub.GlyphSubstitution :=
  ⟨1, 0, 10, 30, 46, 0,
    ⟨1, [⟨0x6C61746E, 8⟩], [⟨4, 0, [], some ⟨0, 0xFFFF, 1, [0]⟩, []⟩]⟩,
    ⟨1, [⟨0x6C696761, 8⟩], [⟨0, 2, [1, 0], none⟩]⟩,
    ⟨2, [6, 34],
      [⟨2, 0, 1, [8], none, [.multipleSubstitution ⟨1, 8, 1, [14], .format1 ⟨1, 1, [9]⟩, [⟨2, [3, 4]⟩]⟩]⟩,
        ⟨4, 0, 1, [8], none, [.ligatureSubstitution ⟨1, 8, 1, [14], .format1 ⟨1, 1, [3]⟩, [⟨1, [4], [⟨6, 2, [4]⟩]⟩]⟩]⟩]⟩,
    none⟩

/-- Glyphs 1, 9, 2, 3, 4 become 1, 3, 4, 2, 3, 4 by the first lookup and 1, 6, 2, 6 by the second. -/
example : Reads (gsub.GlyphSubstitution.read ⟨false, false, false, false, false, false⟩) shapingTable 0 shapingValue ∧
    Reads (shape 0 shapingValue (fun _ _ => false) 0x6C61746E 0x44455520 [0x6C696761] [1, 9, 2, 3, 4]) shapingTable 5 [1, 6, 2, 6] ∧
    Reads (shape 0 shapingValue (fun _ _ => false) 0x6C61746E 0x44455520 [0x6C6F636C] [1, 9, 2, 3, 4]) shapingTable 5 [1, 9, 2, 3, 4] := by
  decide +kernel

/-- If glyph 2 is ignored by the second lookup, glyphs 3, 2, 4 become 6, 2. -/
example : Reads (shape 0 shapingValue (fun i g => i == 1 && g == 2) 0x6C61746E 0x44455520 [0x6C696761] [3, 2, 4]) shapingTable 5
    [6, 2] := by decide +kernel

end OpenType.Props
