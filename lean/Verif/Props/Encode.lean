import Verif.Proof.EncodeTaken
import Verif.Proof.Gsub
import Verif.Proof.Gpos
import Verif.Proof.Gdef
import Verif.Proof.Cpal
import Verif.Proof.Fvar
import Verif.Props.Sample
/-! # C48 and C52: writing tables and reading them back -/

namespace OpenType.Props
open OpenType Spec coverage class_ correction context script feature directory

/-- A reader undoes a writer that writes the `valid` values, `encode t` being what it takes to write `t`. -/
structure RoundTrip {α : Type} (r : Reader α) (valid : α → Prop) (encode : α → List Chunk) : Prop where
  /-- The reader returns a value exactly where that value is valid and written. -/
  accepts : ∀ (d : Data) (p : Nat) (t : α), Fits d → (Reads r d p t ↔ valid t ∧ Holds d p (encode t))
  /-- A valid value whose parts do not clash, written anywhere in a file, is read back. -/
  writes : ∀ (t : α) (pre suf : Data), valid t → Consistent (encode t) →
    Fits (pre ++ render (encode t) ++ suf) → Reads r (pre ++ render (encode t) ++ suf) pre.length t
  /-- Whatever was read from any file can be written anew and is read back the same, in no more bytes
  than that file has. -/
  rewrites : ∀ (d : Data) (p : Nat) (t : α), Fits d → Reads r d p t →
    Reads r (render (encode t)) 0 t ∧ (render (encode t)).length ≤ d.length

theorem RoundTrip.of {α : Type} {r : Reader α} {valid : α → Prop} {encode : α → List Chunk}
    (h : ∀ (d : Data) (p : Nat) (t : α), Fits d → (Reads r d p t ↔ valid t ∧ Holds d p (encode t))) :
    RoundTrip r valid encode where
  accepts := h
  writes := by
    intro t pre suf hv hc hd
    refine (h _ _ _ hd).mpr ⟨hv, ?_⟩
    exact (holds_render hc).ext (k := pre.length) (ext_mid _ _ _)
  rewrites := by
    intro d p t hd hr
    obtain ⟨hv, hh⟩ := (h _ _ _ hd).mp hr
    have hl : (render (encode t)).length ≤ d.length := by rw [render_length]; exact hh.extent_le
    exact ⟨(h _ _ _ (Nat.lt_of_le_of_lt hl hd)).mpr ⟨hv, holds_render hh.consistent⟩, hl⟩

theorem round_trip {α : Type} [Encode α] {r : Reader α} {S : Data → Nat → α → Prop} [h : Parses r S]
    {V : α → Prop} [w : Written S V] : RoundTrip r V encoding :=
  .of fun _ _ _ hd => by rw [h.reads hd, w.iff, holds_encoding]

/-! ## C48 -/

/-- The glyph substitution table. -/
theorem C48_gsub (cfg : Cfg) : RoundTrip (gsub.GlyphSubstitution.read cfg)
    (validDirectory cfg gsub.validTable) (directoryEncoding cfg) :=
  .of fun _ _ _ hd => (Parses.reads (S := Spec.gsub.IsGlyphSubstitution cfg) hd).trans at_directory

/-- The glyph positioning table. -/
theorem C48_gpos (cfg : Cfg) : RoundTrip (gpos.GlyphPositioning.read cfg)
    (validDirectory cfg (gpos.validTable cfg)) (directoryEncoding cfg) :=
  .of fun _ _ _ hd => (Parses.reads (S := Spec.gpos.IsGlyphPositioning cfg) hd).trans at_directory

/-- The color palettes. -/
theorem C48_cpal : RoundTrip cpal.ColorPalettes.read valid encoding := round_trip

/-- The font variations. -/
theorem C48_fvar (cfg : Cfg) : RoundTrip (fvar.FontVariations.read cfg) (validFontVariations cfg)
    encoding := round_trip

/-- The item variation store. -/
theorem C48_store (cfg : Cfg) : RoundTrip (item.Store.read cfg) (validStore cfg) encoding := round_trip

/-- The tables of the layout module, taken on their own. -/
theorem C48_layout :
    RoundTrip Coverage.read valid encoding ∧ RoundTrip Class.read valid encoding ∧
    RoundTrip Correction.read valid encoding ∧ RoundTrip Context.read valid encoding ∧
    RoundTrip ChainedContext.read valid encoding ∧ RoundTrip Scripts.read valid encoding ∧
    RoundTrip Features.read valid encoding :=
  ⟨round_trip, round_trip, round_trip, round_trip, round_trip, round_trip, round_trip⟩

/-- A substitution subtable and a positioning subtable of every type, taken on their own. -/
theorem C48_lookup (cfg : Cfg) (type_ : Nat) :
    RoundTrip (gsub.Type_.read type_) (gsub.validTable type_) encoding ∧
    RoundTrip (gpos.Type_.read cfg type_) (gpos.validTable cfg type_) encoding :=
  ⟨round_trip, round_trip⟩

/-- A device table with as many words as OpenType gives it is valid, unless its deltas fill the last word
(property C12). -/
theorem C48_device (t : Device) (h1 : t.start_size ≤ t.end_size) (h2 : t.end_size < 65536)
    (h3 : 1 ≤ t.format) (h4 : t.format ≤ 3) (hd : All16 t.deltas)
    (hl : t.deltas.length = deviceWords t.start_size t.end_size t.format) :
    valid t ↔ ¬16 ∣ 2 ^ t.format * (t.end_size - t.start_size + 1) := by
  have e : valid t ↔ (t.start_size < 65536 ∧ t.end_size < 65536 ∧ t.start_size ≤ t.end_size ∧
    1 ≤ t.format ∧ t.format ≤ 3 ∧
    t.deltas.length = deviceWordsTaken t.start_size t.end_size t.format ∧ All16 t.deltas) := Iff.rfl
  rw [e, hl]
  simp only [deviceWords, deviceWordsTaken, hd, and_true]
  generalize 2 ^ t.format * (t.end_size - t.start_size + 1) = n
  omega

/-- A substitution table: one script with a default language, one feature, one lookup with a single
substitution. -/
def sampleGsub : gsub.GlyphSubstitution where
  major_version := 1
  minor_version := 0
  script_offset := 10
  feature_offset := 30
  lookup_offset := 44
  variation_offset := 0
  scripts := ⟨1, [⟨0x6C61746E, 8⟩], [⟨4, 0, [], some ⟨0, 65535, 1, [0]⟩, []⟩]⟩
  features := ⟨1, [⟨0x6C696761, 8⟩], [⟨0, 1, [0], none⟩]⟩
  lookups := ⟨1, [4], [⟨1, 0, 1, [8], none,
    [.singleSubstitution (.format1 ⟨1, 6, -3, .format1 ⟨1, 1, [9]⟩⟩)]⟩]⟩
  variations := none

instance {cs : List Chunk} : Decidable (Consistent cs) :=
  decidable_of_iff (∀ c ∈ cs, ∀ c' ∈ cs, ∀ i < c.2.length, ∀ j < c'.2.length,
      c.1 + i = c'.1 + j → c.2[i]? = c'.2[j]?) (by
    constructor
    · intro h c hc c' hc' i j x y hx hy e
      have hi := (List.getElem?_eq_some_iff.mp hx).1
      have hj := (List.getElem?_eq_some_iff.mp hy).1
      have := h c hc c' hc' i hi j hj e
      rw [hx, hy] at this
      exact Option.some.inj this
    · intro h c hc c' hc' i hi j hj e
      rw [List.getElem?_eq_getElem hi, List.getElem?_eq_getElem hj]
      exact congrArg some (h c hc c' hc' i j _ _ (List.getElem?_eq_getElem hi)
        (List.getElem?_eq_getElem hj) e))

/-- Its parts do not clash, and it is what is read from the bytes written. -/
example : Consistent (directoryEncoding ⟨true, false, false, false, true, false⟩ sampleGsub) ∧
    Reads (gsub.GlyphSubstitution.read ⟨true, false, false, false, true, false⟩)
      ([1, 2, 3] ++ render (directoryEncoding ⟨true, false, false, false, true, false⟩ sampleGsub) ++ [4])
      3 sampleGsub := by
  decide +kernel

/-- It is valid. -/
example : validDirectory ⟨true, false, false, false, true, false⟩ gsub.validTable sampleGsub :=
  (((C48_gsub _).accepts (render (directoryEncoding ⟨true, false, false, false, true, false⟩ sampleGsub))
    0 sampleGsub (by decide +kernel)).mp (by decide +kernel)).1

/-! ## C52 -/

/-- The glyph definition table, as OpenType writes it, is returned exactly where it is written. What is
missing from the property: ligature carets, which are refused (property C32), and variation stores at an
offset of their own (property C31), see `C52_violated`. -/
theorem C52_gdef_partial (cfg : Cfg) (d : Data) (p : Nat) (t : gdef.GlyphDefinition) (hd : Fits d)
    (hc : ∀ l, t.ligatures = some l → ∀ record ∈ l.records, record.carets = [])
    (hs : ∀ h, t.header = .version13 h → h.mark_offset = h.variation_offset) :
    Reads (gdef.GlyphDefinition.read cfg) d p t ↔
      validGlyphDefinition cfg t ∧ Holds d p (encoding t) := by
  rw [Parses.reads (S := Spec.gdef.IsGlyphDefinitionTaken cfg) hd, holds_encoding,
    ← Written.iff (S := Spec.gdef.IsGlyphDefinition cfg)]
  unfold Spec.gdef.IsGlyphDefinitionTaken Spec.gdef.IsGlyphDefinition
    Spec.gdef.IsGlyphDefinitionBut
  have e1 : Spec.gdef.storeOffsetTaken t.header = (Spec.gdef.offsets t.header).2.2.2.2.2 := by
    cases h : t.header with
    | version1 => rfl
    | version12 => rfl
    | version13 h' => exact hs h' h
  have e2 : Optional (Spec.gdef.IsLigatures Spec.gdef.IsCaretTaken d) p
        (Spec.gdef.offsets t.header).2.2.1 t.ligatures ↔
      Optional (Spec.gdef.IsLigatures Spec.gdef.IsCaret d) p
        (Spec.gdef.offsets t.header).2.2.1 t.ligatures := by
    cases hl : t.ligatures with
    | none => rfl
    | some l =>
      simp only [Optional, Spec.gdef.IsLigatures, Spec.gdef.IsLigature, AtOffsets]
      have key : ∀ (i : Nat) x, l.records[i]? = some x → x.carets = [] :=
        fun i x h => hc l hl x (List.mem_of_getElem? h)
      constructor
      all_goals
        rintro ⟨h0, h1, h2, h3, h4, h5, h6⟩
        refine ⟨h0, h1, h2, h3, h4, h5, fun i o x ho hx => ?_⟩
        obtain ⟨h7, h8, h9, h10⟩ := h6 i o x ho hx
        refine ⟨h7, h8, h9, fun j o' y _ hy => ?_⟩
        rw [key i x hx] at hy
        cases hy
  rw [e1, e2]

/-- With carets and the place of the store as the code takes them instead of as OpenType writes them, the
property holds of all glyph definition tables. -/
theorem C52_gdef_taken_partial (cfg : Cfg) :
    RoundTrip (gdef.GlyphDefinition.read cfg) (validGlyphDefinitionTaken cfg) gdefEncodingTaken :=
  .of fun _ _ _ hd => (Parses.reads (S := Spec.gdef.IsGlyphDefinitionTaken cfg) hd).trans at_gdef_taken

/-- The property for all glyph definition tables. -/
def GdefRoundTrip (cfg : Cfg) : Prop :=
  RoundTrip (gdef.GlyphDefinition.read cfg) (validGlyphDefinition cfg) encoding

/-- A glyph definition table of version 1.0 with one ligature with one caret. -/
def caretGdef : gdef.GlyphDefinition :=
  ⟨.version1 ⟨1, 0, 0, 0, 12, 0⟩, none, none,
    some ⟨6, 1, [12], .format1 ⟨1, 1, [9]⟩, [⟨1, [4], [.format1 ⟨1, 500⟩]⟩]⟩, none, none, none⟩

theorem caretGdef_valid (cfg : Cfg) : validGlyphDefinition cfg caretGdef := by
  refine ⟨⟨rfl, rfl, ?_⟩, ?_, nofun, ?_, nofun, ?_, ?_, ?_, nofun, ?_, nofun, ?_, nofun⟩
  · decide
  all_goals first
    | exact ⟨fun _ => rfl, fun _ => rfl⟩
    | exact ⟨nofun, nofun⟩
    | skip
  rintro _ ⟨⟩
  refine ⟨by decide, by decide, rfl, ?_, ⟨rfl, by decide, by decide, rfl, ?_⟩, rfl, ?_⟩
  · simp [All16]
  · simp [All16]
  · rintro _ (_ | ⟨_, ⟨⟩⟩)
    refine ⟨by decide, rfl, ?_, rfl, ?_⟩
    · simp [All16]
    · rintro _ (_ | ⟨_, ⟨⟩⟩)
      exact ⟨rfl, by decide, by decide, by decide⟩

/-- Carets are written and not read back. -/
theorem C52_violated (cfg : Cfg) : ¬GdefRoundTrip cfg := by
  intro h
  have h1 := h.writes caretGdef [] [] (caretGdef_valid cfg) (by decide +kernel) (by decide +kernel)
  revert h1
  obtain ⟨a, b, c, d, e, f⟩ := cfg
  cases a <;> cases b <;> cases c <;> cases d <;> cases e <;> cases f <;> decide +kernel

/-- A table with classes, attachments and a ligature without carets meets the hypotheses. -/
def sampleGdefValue : gdef.GlyphDefinition :=
  ⟨.version12 ⟨1, 2, 14, 22, 36, 0, 0⟩, some (.format1 ⟨1, 9, 1, [2]⟩),
    some ⟨6, 1, [10], .format1 ⟨1, 0, []⟩, [⟨1, [3]⟩]⟩, some ⟨6, 1, [12], .format1 ⟨1, 1, [9]⟩, [⟨0, [], []⟩]⟩,
    none, none, none⟩

example : (∀ l, sampleGdefValue.ligatures = some l → ∀ record ∈ l.records, record.carets = []) ∧
    (∀ h, sampleGdefValue.header = .version13 h → h.mark_offset = h.variation_offset) ∧
    Reads (gdef.GlyphDefinition.read ⟨true, false, false, false, true, false⟩)
      (render (encoding sampleGdefValue)) 0 sampleGdefValue := by
  refine ⟨?_, nofun, by decide +kernel⟩
  rintro _ ⟨⟩ _ (_ | ⟨_, ⟨⟩⟩)
  rfl

end OpenType.Props
