import Verif.Props.Fvar
import Verif.Props.Cpal
import Verif.Props.Safety
import Verif.Props.Font
import Verif.Props.Tags
import Verif.Spec.Encode
/-! # C76: an option of the build affects only what it is about -/

namespace OpenType.Props
open OpenType Spec

/-! ## The Cargo features, and what is done about reserved flags -/

/-- Two builds that treat incomplete directories and reserved flags alike have the same reader of substitution tables:
the same operations on the tape, the same values and the same errors. -/
theorem C76_gsub (cfg cfg' : Cfg) (hi : cfg.ignoreIncompleteDirectories = cfg'.ignoreIncompleteDirectories)
    (hf : cfg.rejectInvalidFlags = cfg'.rejectInvalidFlags) :
    gsub.GlyphSubstitution.read cfg = gsub.GlyphSubstitution.read cfg' := by
  obtain ⟨a, b, c, d, e, f⟩ := cfg
  obtain ⟨a', b', c', d', e', f'⟩ := cfg'
  cases hi
  cases hf
  rfl

/-- The same for positioning tables, where incomplete marks matter too. -/
theorem C76_gpos (cfg cfg' : Cfg) (hi : cfg.ignoreIncompleteDirectories = cfg'.ignoreIncompleteDirectories)
    (hm : cfg.ignoreIncompleteMarks = cfg'.ignoreIncompleteMarks)
    (hf : cfg.rejectInvalidFlags = cfg'.rejectInvalidFlags) :
    gpos.GlyphPositioning.read cfg = gpos.GlyphPositioning.read cfg' := by
  obtain ⟨a, b, c, d, e, f⟩ := cfg
  obtain ⟨a', b', c', d', e', f'⟩ := cfg'
  cases hi
  cases hm
  cases hf
  rfl

/-- Of all options, font variations depend only on what is done about reserved flags. -/
theorem C76_fvar (cfg cfg' : Cfg) (hf : cfg.rejectInvalidFlags = cfg'.rejectInvalidFlags) :
    fvar.FontVariations.read cfg = fvar.FontVariations.read cfg' := by
  obtain ⟨a, b, c, d, e, f⟩ := cfg
  obtain ⟨a', b', c', d', e', f'⟩ := cfg'
  cases hf
  rfl

/-- No Cargo feature changes how glyph definitions, variation stores and palettes are read or walked. -/
theorem C76_gdef (cfg cfg' : Cfg) (ho : cfg.overflowChecks = cfg'.overflowChecks) :
    gdef.GlyphDefinition.read cfg = gdef.GlyphDefinition.read cfg' ∧
      item.Store.read cfg = item.Store.read cfg' ∧
      ∀ t : cpal.ColorPalettes, t.iter cfg = t.iter cfg' := by
  obtain ⟨a, b, c, d, e, f⟩ := cfg
  obtain ⟨a', b', c', d', e', f'⟩ := cfg'
  cases ho
  exact ⟨rfl, rfl, fun _ => rfl⟩

/-- Taking a table from a font depends on what is done about checksums, and on the reader of the table. -/
theorem C76_font {α P : Type} (cfg cfg' : Cfg) (hs : cfg.ignoreInvalidChecksums = cfg'.ignoreInvalidChecksums)
    (checksum : offsets.Record → Reader Nat) (font : Font) (table : TableType) (r : Reader α) (g : P → Reader α)
    (parameter : P) :
    font.take cfg checksum table r = font.take cfg' checksum table r ∧
      font.take_given cfg checksum table g parameter = font.take_given cfg' checksum table g parameter := by
  have h : ∀ records, Font.positionIn cfg checksum table.tag records = Font.positionIn cfg' checksum table.tag records := by
    intro records
    induction records with
    | nil => rfl
    | cons x xs ih =>
      unfold Font.positionIn
      rw [hs, ih]
  constructor
  · unfold Font.take Font.position
    rw [h]
  · unfold Font.take_given Font.position
    rw [h]

/-- The languages depend on `default-language` only. -/
theorem C76_language (cfg cfg' : Cfg) (hl : cfg.defaultLanguage = cfg'.defaultLanguage) :
    (∀ tag, language.Language.from_tag cfg tag = language.Language.from_tag cfg' tag) ∧
      ∀ x, language.Language.exists_ cfg x = language.Language.exists_ cfg' x := by
  obtain ⟨a, b, c, d, e, f⟩ := cfg
  obtain ⟨a', b', c', d', e', f'⟩ := cfg'
  cases hl
  exact ⟨fun _ => rfl, fun x => by cases x <;> rfl⟩

/-- Each of the options matters to what it is about: a directory without its lists, a mark without its anchor, reserved
bits of an axis, a wrong checksum and the tag `DFLT`. -/
example :
    gsub.GlyphSubstitution.read ⟨true, true, false, false, true, true⟩ (enc16s [1, 0, 0, 0, 0]) 0 ≠
      gsub.GlyphSubstitution.read ⟨true, false, false, false, true, true⟩ (enc16s [1, 0, 0, 0, 0]) 0 ∧
    gpos.Mark1s.read ⟨true, true, true, false, true, true⟩ (enc16s [1, 5, 0]) 0 ≠
      gpos.Mark1s.read ⟨true, true, false, false, true, true⟩ (enc16s [1, 5, 0]) 0 ∧
    fvar.AxisRecord.read ⟨true, true, true, false, true, true⟩ (enc16s [0, 0, 0, 0, 0, 0, 0, 0, 2, 0]) 0 ≠
      fvar.AxisRecord.read ⟨true, true, true, false, true, false⟩ (enc16s [0, 0, 0, 0, 0, 0, 0, 0, 2, 0]) 0 ∧
    language.Language.from_tag ⟨true, true, true, false, true, true⟩ (tag4 'D' 'F' 'L' 'T') ≠
      language.Language.from_tag ⟨false, true, true, false, true, true⟩ (tag4 'D' 'F' 'L' 'T') := by
  refine ⟨by decide +kernel, by decide +kernel, by decide +kernel, by decide +kernel⟩

/-! ## Debug and release builds -/

/-- The second reader does what the first does, unless the first panics. -/
def Agrees {α : Type} (r r' : Reader α) : Prop := ∀ d p, (∃ m, r d p = .error (.panic m)) ∨ r' d p = r d p

theorem Agrees.rfl {α : Type} {r : Reader α} : Agrees r r := fun _ _ => .inr (Eq.refl _)

theorem Agrees.bind {α β : Type} {r r' : Reader α} {f f' : α → Reader β} (h : Agrees r r') (hf : ∀ a, Agrees (f a) (f' a)) :
    Agrees (r >>= f) (r' >>= f') := by
  intro d p
  rcases h d p with ⟨m, h⟩ | h
  · exact .inl ⟨m, bind_error h⟩
  · rcases e : r d p with e' | ⟨a, q⟩
    · rw [e] at h
      exact .inr ((bind_error h).trans (bind_error e).symm)
    · rw [e] at h
      rw [bind_ok h, bind_ok e]
      exact hf a d q

theorem Agrees.forFrom {α : Type} {body body' : Nat → Reader α} (h : ∀ i, Agrees (body i) (body' i)) :
    ∀ n i, Agrees (forFrom body i n) (forFrom body' i n)
  | 0, _ => .rfl
  | n + 1, i => (h i).bind fun _ => (Agrees.forFrom h n (i + 1)).bind fun _ => .rfl

theorem agrees_add (cfg : Cfg) (a b : Nat) :
    Agrees (item.addU16 { cfg with overflowChecks := true } a b) (item.addU16 { cfg with overflowChecks := false } a b) := by
  unfold item.addU16
  split
  · exact .rfl
  · exact fun d p => .inl ⟨_, rfl⟩

theorem agrees_store (cfg : Cfg) :
    Agrees (item.Store.read { cfg with overflowChecks := true }) (item.Store.read { cfg with overflowChecks := false }) := by
  unfold item.Store.read
  refine .bind .rfl fun _ => .bind .rfl fun _ => .bind .rfl fun _ => .bind .rfl fun _ => .bind .rfl fun _ =>
    .bind (.forFrom (fun _ => .bind .rfl fun _ => .bind .rfl fun _ => .bind .rfl fun _ => ?_) _ _) fun _ => .rfl
  unfold item.Record.read
  exact .bind .rfl fun _ => .bind .rfl fun _ => .bind .rfl fun _ => .bind .rfl fun _ => .bind (agrees_add cfg _ _) fun _ =>
    .rfl

/-- A release build reads the glyph definitions and the variation stores that a debug build reads, to the same values, and
refuses those that it refuses, with the same errors. -/
theorem C76_release (cfg : Cfg) (d : Data) (p : Nat) :
    ((∃ m, gdef.GlyphDefinition.read { cfg with overflowChecks := true } d p = .error (.panic m)) ∨
      gdef.GlyphDefinition.read { cfg with overflowChecks := false } d p =
        gdef.GlyphDefinition.read { cfg with overflowChecks := true } d p) ∧
    ((∃ m, item.Store.read { cfg with overflowChecks := true } d p = .error (.panic m)) ∨
      item.Store.read { cfg with overflowChecks := false } d p =
        item.Store.read { cfg with overflowChecks := true } d p) := by
  refine ⟨?_, agrees_store cfg d p⟩
  refine (?_ : Agrees _ _) d p
  unfold gdef.GlyphDefinition.read
  refine .bind .rfl fun _ => .bind .rfl fun _ => .bind .rfl fun _ => .bind .rfl fun _ => .bind .rfl fun _ => .bind .rfl fun _ =>
    .bind .rfl fun _ => .bind ?_ fun _ => .rfl
  unfold jumpTakeMaybe
  split
  · exact .bind (.bind .rfl fun _ => .bind .rfl fun _ => agrees_store cfg) fun _ => .rfl
  · exact .rfl

/-- Walking the palettes of a table gives the same colors in a debug build and in a release build, and panics at the same
entries. -/
theorem C76_palettes (cfg : Cfg) (d : Data) (p : Nat) (hd : Fits d) (t : cpal.ColorPalettes)
    (h : Reads cpal.ColorPalettes.read d p t) :
    (t.iter { cfg with overflowChecks := false }).map (·.map Except.toOption) =
      (t.iter { cfg with overflowChecks := true }).map (·.map Except.toOption) := by
  have key : ∀ (colors : List cpal.Color) (i j : Nat),
      (cpal.entry { cfg with overflowChecks := false } colors colors.length i j).toOption =
        (cpal.entry { cfg with overflowChecks := true } colors colors.length i j).toOption := by
    intro colors i j
    by_cases h : i + j < colors.length
    · simp [cpal.entry, h]
    · unfold cpal.entry
      dsimp only
      rw [List.getElem?_eq_none (by omega)]
      split <;> simp [h, Except.toOption]
  obtain ⟨h1, h2⟩ := (reads_parses hd).mp h
  obtain ⟨header, colors⟩ := t
  unfold cpal.ColorPalettes.iter
  cases header with
  | version0 x =>
    have hl : colors.length = x.color_count := h2.1
    dsimp only
    simp only [List.map_map]
    refine List.map_congr_left fun i _ => ?_
    simp only [Function.comp_def, List.map_map]
    refine List.map_congr_left fun j _ => ?_
    exact hl ▸ key colors i j
  | version1 x =>
    have hl : colors.length = x.color_count := h2.1
    dsimp only
    simp only [List.map_map]
    refine List.map_congr_left fun i _ => ?_
    simp only [Function.comp_def, List.map_map]
    refine List.map_congr_left fun j _ => ?_
    exact hl ▸ key colors i j

/-- In a debug build the walk of a table with an entry past its colors trips the assertion, in a release build the index;
the other entry is given by both. -/
example (cfg : Cfg) : ∃ t, Reads cpal.ColorPalettes.read (enc16s [0, 2, 1, 1, 0, 14, 0, 0x102, 0x304]) 0 t ∧
    (t.iter { cfg with overflowChecks := false }).map (·.map Except.toOption) = [[some ⟨1, 2, 3, 4⟩, none]] :=
  ⟨⟨.version0 ⟨0, 2, 1, 1, 14, [0]⟩, [⟨1, 2, 3, 4⟩]⟩, by decide +kernel, rfl⟩

/-- A store whose reading does not panic in a debug build, and one where only the release build gets through. -/
example (cfg : Cfg) :
    (∃ t, Reads (item.Store.read { cfg with overflowChecks := true }) sampleStore 0 t) ∧
    (∃ m, item.Store.read { cfg with overflowChecks := true } oddStore 0 = .error (.panic m)) ∧
    ∃ t, Reads (item.Store.read { cfg with overflowChecks := false }) oddStore 0 t := by
  refine ⟨?_, ?_, _, C38_wraps _ rfl⟩
  · rw [(C76_gdef { cfg with overflowChecks := true } ⟨false, false, false, false, true, true⟩ rfl).2.1]
    exact ⟨⟨1, 99, 2, [16, 16], [⟨2, 1, 2, [5, 6], [1, 2, 3, 4, 5, 6]⟩, ⟨2, 1, 2, [5, 6], [1, 2, 3, 4, 5, 6]⟩]⟩,
      by decide +kernel⟩
  · exact ⟨_, rfl⟩

end OpenType.Props
