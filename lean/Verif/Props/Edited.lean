import Verif.Proof.Level
import Verif.Props.Encode
/-!
# C98: data are not judged

Whether a table is read depends on its versions, formats, flags, counts and offsets, and not on its data (`edited`,
`Spec/Edited.lean`): not on which glyphs, classes, features, lookups, regions and names it refers to, on whether these
exist, on order, tags, coordinates, amounts and colors. So data can be edited in place.
-/

namespace OpenType.Props
open OpenType Spec coverage class_ correction context script feature directory

/-- Data can be edited in place. Let a table have been read, and let another table have the same versions, formats,
flags, counts and offsets. -/
def TakesOtherData {α : Type} [Edited α] (r : Reader α) (encode : α → List Chunk) : Prop :=
  ∀ (d : Data) (p : Nat) (t t' : α), Fits d → Reads r d p t → edited t t' →
    -- The other one takes the same places,
    outline (encode t') = outline (encode t) ∧
    -- is read wherever its bytes are,
    (∀ (d' : Data) (p' : Nat), Fits d' → Holds d' p' (encode t') → Reads r d' p' t') ∧
    -- and, if parts that share bytes have not become different, can be put in the place of the first, with nothing
    -- else changed.
    (Consistent (encode t') → ∃ d' : Data, d'.length = d.length ∧
      (∀ i, (∀ c ∈ encode t, ¬(p + c.1 ≤ i ∧ i < p + c.1 + c.2.length)) → d'[i]? = d[i]?) ∧ Reads r d' p t')

/-- The byte that the first chunk to have one at `i` has there. -/
def found (cs : List Chunk) (i : Nat) : Option UInt8 :=
  cs.findSome? fun c => if c.1 ≤ i then c.2[i - c.1]? else none

theorem found_eq {cs : List Chunk} (hc : Consistent cs) {c : Chunk} (h : c ∈ cs) {i : Nat} {x : UInt8}
    (hx : c.2[i]? = some x) : found cs (c.1 + i) = some x := by
  unfold found
  cases hf : cs.findSome? fun c' => if c'.1 ≤ c.1 + i then c'.2[c.1 + i - c'.1]? else none with
  | none =>
    have := List.findSome?_eq_none_iff.mp hf c h
    simp [hx] at this
  | some y =>
    obtain ⟨c', hm, hy⟩ := List.exists_of_findSome?_eq_some hf
    split at hy
    · exact congrArg some (hc c' hm c h _ _ _ _ hy hx (by omega))
    · cases hy

theorem found_none {cs : List Chunk} {i : Nat} (h : ∀ c ∈ cs, ¬(c.1 ≤ i ∧ i < c.1 + c.2.length)) :
    found cs i = none := by
  refine List.findSome?_eq_none_iff.mpr fun c hc => ?_
  split
  · next hle => exact List.getElem?_eq_none (by have := h c hc; omega)
  · rfl

/-- A tape over which chunks have been written. -/
def overwritten (d : Data) (p : Nat) (cs : List Chunk) : Data :=
  d.mapIdx fun i b => if p ≤ i then (found cs (i - p)).getD b else b

theorem overwritten_get (d : Data) (p : Nat) (cs : List Chunk) (i : Nat) :
    (overwritten d p cs)[i]? = d[i]?.map fun b => if p ≤ i then (found cs (i - p)).getD b else b := by
  simp [overwritten]

/-- The chunks are there. -/
theorem holds_overwritten {d : Data} {p : Nat} {cs cs' : List Chunk} (h : Holds d p cs)
    (ho : outline cs' = outline cs) (hc : Consistent cs') : Holds (overwritten d p cs') p cs' := by
  intro c hm i x hx
  have hi := (List.getElem?_eq_some_iff.mp hx).1
  have hl : p + c.1 + i < d.length := by
    have : (c.1, c.2.length) ∈ outline cs := ho ▸ List.mem_map.mpr ⟨c, hm, rfl⟩
    obtain ⟨c', hm', e⟩ := List.mem_map.mp this
    obtain ⟨e1, e2⟩ := Prod.mk.inj e
    have := h c' hm' i _ (List.getElem?_eq_getElem (by omega))
    have := (List.getElem?_eq_some_iff.mp this).1
    omega
  rw [overwritten_get, List.getElem?_eq_getElem hl, Option.map_some, if_pos (by omega),
    show p + c.1 + i - p = c.1 + i by omega, found_eq hc hm hx]
  rfl

/-- Nothing else has changed. -/
theorem overwritten_else {d : Data} {p : Nat} {cs cs' : List Chunk} (ho : outline cs' = outline cs) {i : Nat}
    (hi : ∀ c ∈ cs, ¬(p + c.1 ≤ i ∧ i < p + c.1 + c.2.length)) : (overwritten d p cs')[i]? = d[i]? := by
  have key : ∀ b, (if p ≤ i then (found cs' (i - p)).getD b else b) = b := by
    intro b
    split
    · rw [found_none]
      · rfl
      · intro c hm
        have : (c.1, c.2.length) ∈ outline cs := ho ▸ List.mem_map.mpr ⟨c, hm, rfl⟩
        obtain ⟨c', hm', e⟩ := List.mem_map.mp this
        obtain ⟨e1, e2⟩ := Prod.mk.inj e
        have := hi c' hm'
        omega
    · rfl
  rw [overwritten_get]
  cases d[i]? with
  | none => rfl
  | some b => exact congrArg some (key b)

theorem RoundTrip.takesOtherData {α : Type} [Edited α] {r : Reader α} {valid : α → Prop} {encode : α → List Chunk}
    (h : RoundTrip r valid encode) (hk : ∀ x y, edited x y → valid x → valid y)
    (hl : ∀ x y, edited x y → outline (encode y) = outline (encode x)) : TakesOtherData r encode := by
  intro d p t t' hd hr ha
  obtain ⟨hv, hh⟩ := (h.accepts d p t hd).mp hr
  have hv' := hk t t' ha hv
  refine ⟨hl t t' ha, fun d' p' hd' hh' => (h.accepts d' p' t' hd').mpr ⟨hv', hh'⟩, fun hc => ?_⟩
  have e : (overwritten d p (encode t')).length = d.length := by simp [overwritten]
  exact ⟨overwritten d p (encode t'), e, fun i hi => overwritten_else (hl t t' ha) hi,
    (h.accepts _ p t' (by unfold Fits; rw [e]; exact hd)).mpr ⟨hv', holds_overwritten hh (hl t t' ha) hc⟩⟩

/-- All tables but the glyph definition. -/
theorem C98_tables (cfg : Cfg) :
    TakesOtherData (gsub.GlyphSubstitution.read cfg) (directoryEncoding cfg) ∧
    TakesOtherData (gpos.GlyphPositioning.read cfg) (directoryEncoding cfg) ∧
    TakesOtherData cpal.ColorPalettes.read encoding ∧
    TakesOtherData (fvar.FontVariations.read cfg) encoding ∧
    TakesOtherData (item.Store.read cfg) encoding :=
  ⟨(C48_gsub cfg).takesOtherData stays fun _ _ => level_directory,
    (C48_gpos cfg).takesOtherData stays fun _ _ => level_directory,
    C48_cpal.takesOtherData stays fun _ _ => level_encoding,
    (C48_fvar cfg).takesOtherData stays fun _ _ => level_encoding,
    (C48_store cfg).takesOtherData stays fun _ _ => level_encoding⟩

/-- The parts of the layout tables, taken on their own. -/
theorem C98_layout (cfg : Cfg) (type_ : Nat) :
    TakesOtherData Coverage.read encoding ∧ TakesOtherData Class.read encoding ∧
    TakesOtherData Correction.read encoding ∧ TakesOtherData Context.read encoding ∧
    TakesOtherData ChainedContext.read encoding ∧ TakesOtherData Scripts.read encoding ∧
    TakesOtherData Features.read encoding ∧
    TakesOtherData (gsub.Type_.read type_) encoding ∧
    TakesOtherData (gpos.Type_.read cfg type_) encoding :=
  have ⟨h1, h2, h3, h4, h5, h6, h7⟩ := C48_layout
  have ⟨h8, h9⟩ := C48_lookup cfg type_
  ⟨h1.takesOtherData stays fun _ _ => level_encoding, h2.takesOtherData stays fun _ _ => level_encoding,
    h3.takesOtherData stays fun _ _ => level_encoding, h4.takesOtherData stays fun _ _ => level_encoding,
    h5.takesOtherData stays fun _ _ => level_encoding, h6.takesOtherData stays fun _ _ => level_encoding,
    h7.takesOtherData stays fun _ _ => level_encoding, h8.takesOtherData stays fun _ _ => level_encoding,
    h9.takesOtherData stays fun _ _ => level_encoding⟩

/-- The glyph definition, as long as the ligatures and their carets stay as they are. What is missing: carets, whose
coordinates the code takes for a part of the format (property C32), so that they are judged, see `C98_violated`. -/
theorem C98_gdef_partial (cfg : Cfg) (d : Data) (p : Nat) (t t' : gdef.GlyphDefinition) (hd : Fits d)
    (hr : Reads (gdef.GlyphDefinition.read cfg) d p t) (ha : edited t t') (hl : t'.ligatures = t.ligatures) :
    outline (gdefEncodingTaken t') = outline (gdefEncodingTaken t) ∧
    (∀ (d' : Data) (p' : Nat), Fits d' → Holds d' p' (gdefEncodingTaken t') →
      Reads (gdef.GlyphDefinition.read cfg) d' p' t') ∧
    (Consistent (gdefEncodingTaken t') → ∃ d' : Data, d'.length = d.length ∧
      (∀ i, (∀ c ∈ gdefEncodingTaken t, ¬(p + c.1 ≤ i ∧ i < p + c.1 + c.2.length)) → d'[i]? = d[i]?) ∧
      Reads (gdef.GlyphDefinition.read cfg) d' p t') := by
  have h := C52_gdef_taken_partial cfg
  obtain ⟨hv, hh⟩ := (h.accepts d p t hd).mp hr
  have hv' := edited_gdef ha hl hv
  refine ⟨level_gdef ha, fun d' p' hd' hh' => (h.accepts d' p' t' hd').mpr ⟨hv', hh'⟩, fun hc => ?_⟩
  have e : (overwritten d p (gdefEncodingTaken t')).length = d.length := by simp [overwritten]
  exact ⟨overwritten d p (gdefEncodingTaken t'), e, fun i hi => overwritten_else (level_gdef ha) hi,
    (h.accepts _ p t' (by unfold Fits; rw [e]; exact hd)).mpr ⟨hv', holds_overwritten hh (level_gdef ha) hc⟩⟩

/-- The property for the glyph definition. -/
def GdefTakesOtherData (cfg : Cfg) : Prop := TakesOtherData (gdef.GlyphDefinition.read cfg) gdefEncodingTaken

/-- A glyph definition with one caret, at the given coordinate. -/
def oneCaret (coordinate : Int) : gdef.GlyphDefinition :=
  ⟨.version1 ⟨1, 0, 0, 0, 12, 0⟩, none, none,
    some ⟨6, 1, [12], .format1 ⟨1, 1, [9]⟩, [⟨1, [4], [.format1 ⟨0, coordinate⟩]⟩]⟩, none, none, none⟩

/-- A caret can be at 1 but not at 2. -/
theorem C98_violated (cfg : Cfg) : ¬GdefTakesOtherData cfg := by
  intro h
  have h1 : ∀ cfg, Reads (gdef.GlyphDefinition.read cfg) (render (gdefEncodingTaken (oneCaret 1))) 0 (oneCaret 1) := by
    rintro ⟨a, b, c, d, e, f⟩
    revert a b c d e f
    decide +kernel
  have h0 : ∀ cfg, ¬Reads (gdef.GlyphDefinition.read cfg) (render (gdefEncodingTaken (oneCaret 2))) 0 (oneCaret 2) := by
    rintro ⟨a, b, c, d, e, f⟩
    revert a b c d e f
    decide +kernel
  have h2 : edited (oneCaret 1) (oneCaret 2) := by
    refine ⟨rfl, trivial, trivial, ⟨rfl, ⟨rfl, rfl, by simp [All16]⟩, rfl, ?_⟩, trivial, trivial, trivial⟩
    rintro (_ | i) x y hx hy
    · cases hx
      cases hy
      refine ⟨rfl, rfl, ?_⟩
      rintro (_ | i) x y hx hy
      · cases hx
        cases hy
        exact ⟨rfl, by simp [InI16]⟩
      · cases hx
    · cases hx
  exact h0 cfg ((h _ 0 _ _ (by decide +kernel) (h1 cfg) h2).2.1 _ 0 (by decide +kernel)
    (holds_render (by decide +kernel)))

/-- For instance `sampleGsub` with another tag, another feature and lookup, which do not exist, and other glyphs. -/
def otherGsub : gsub.GlyphSubstitution :=
  { sampleGsub with
    scripts := ⟨1, [⟨0x6379726C, 8⟩], [⟨4, 0, [], some ⟨0, 7, 1, [999]⟩, []⟩]⟩
    features := ⟨1, [⟨0x6B65726E, 8⟩], [⟨0, 1, [123], none⟩]⟩
    lookups := ⟨1, [4], [⟨1, 0, 1, [8], none,
      [.singleSubstitution (.format1 ⟨1, 6, 30000, .format1 ⟨1, 1, [65535]⟩⟩)]⟩]⟩ }

theorem edited_single {α : Type} [Edited α] {x y : α} (h : edited x y) : edited [x] [y] := by
  refine ⟨rfl, ?_⟩
  rintro (_ | i) a b ha hb
  · cases ha
    cases hb
    exact h
  · cases ha

theorem edited_empty {α : Type} [Edited α] : edited ([] : List α) [] := ⟨rfl, fun _ _ _ h => by cases h⟩

example : edited sampleGsub otherGsub :=
  ⟨rfl,
    ⟨rfl, edited_single ⟨rfl, by decide⟩, edited_single ⟨rfl, edited_empty, ⟨rfl, by decide, rfl, by simp [All16]⟩, edited_empty⟩⟩,
    ⟨rfl, edited_single ⟨rfl, by decide⟩, edited_single ⟨rfl, rfl, by simp [All16]⟩⟩,
    ⟨rfl, edited_single ⟨rfl, trivial, edited_single ⟨rfl, by simp [InI16], rfl, rfl, by simp [All16]⟩⟩⟩⟩

example : Consistent (directoryEncoding ⟨true, false, false, false, true, false⟩ otherGsub) := by decide +kernel

/-- The file with `sampleGsub`, over which `otherGsub` has been written. -/
example :
    Reads (gsub.GlyphSubstitution.read ⟨true, false, false, false, true, false⟩)
      (overwritten
        ([1, 2, 3] ++ render (directoryEncoding ⟨true, false, false, false, true, false⟩ sampleGsub) ++ [4]) 3
        (directoryEncoding ⟨true, false, false, false, true, false⟩ otherGsub)) 3 otherGsub := by
  decide +kernel

/-- A glyph definition with the class of one glyph. -/
def oneClass (glyph_id class_id : Nat) : gdef.GlyphDefinition :=
  ⟨.version1 ⟨1, 0, 12, 0, 0, 0⟩, some (.format1 ⟨1, glyph_id, 1, [class_id]⟩), none, none, none, none, none⟩

example : edited (oneClass 3 1) (oneClass 70 65535) ∧ (oneClass 70 65535).ligatures = (oneClass 3 1).ligatures ∧
    Reads (gdef.GlyphDefinition.read ⟨true, false, false, false, true, false⟩)
      (render (gdefEncodingTaken (oneClass 3 1))) 0 (oneClass 3 1) ∧
    Consistent (gdefEncodingTaken (oneClass 70 65535)) :=
  ⟨⟨rfl, ⟨rfl, by decide, rfl, by simp [All16]⟩, trivial, trivial, trivial, trivial, trivial⟩, rfl,
    by decide +kernel, by decide +kernel⟩

/-- Versions, formats, flags, counts and offsets are not data: with another format the same bytes are refused. -/
example : ¬edited (oneClass 3 1) { oneClass 3 1 with glyph_class := some (.format1 ⟨3, 3, 1, [1]⟩) } ∧
    ¬Reads (gdef.GlyphDefinition.read ⟨true, false, false, false, true, false⟩)
      (render (gdefEncodingTaken { oneClass 3 1 with glyph_class := some (.format1 ⟨3, 3, 1, [1]⟩) })) 0
      { oneClass 3 1 with glyph_class := some (.format1 ⟨3, 3, 1, [1]⟩) } := by
  refine ⟨fun h => ?_, by decide +kernel⟩
  have := congrArg class_.Class1.format h.2.1.1
  exact absurd this (by decide)

end OpenType.Props
