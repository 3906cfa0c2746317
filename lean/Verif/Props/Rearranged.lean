import Verif.Proof.Rearranged
import Verif.Props.Encode
/-!
# C99: offsets are not judged

Whether a table is read does not depend on where its parts are (`rearranged`, `Spec/Rearranged.lean`): parts can come in any order,
with anything between them, before what refers to them, inside one another, and shared.
-/

namespace OpenType.Props
open OpenType Spec coverage class_ correction context script feature directory

/-- The parts of a table can be elsewhere. Let a table have been read, and let another one have other offsets but be the
same otherwise, in its parts as well. -/
def CanBeRearranged {α : Type} [Rearranged α] (r : Reader α) (encode : α → List Chunk) : Prop :=
  ∀ (d : Data) (p : Nat) (t t' : α), Fits d → Reads r d p t → rearranged t t' →
    -- The other one is read wherever its bytes are, in whatever order, and whatever is between them,
    (∀ (d' : Data) (p' : Nat), Fits d' → Holds d' p' (encode t') → Reads r d' p' t') ∧
    -- and can be written unless parts that differ overlap.
    (Consistent (encode t') → ∀ pre suf : Data, Fits (pre ++ render (encode t') ++ suf) →
      Reads r (pre ++ render (encode t') ++ suf) pre.length t')

theorem RoundTrip.canBeRearranged {α : Type} [Rearranged α] {r : Reader α} {valid : α → Prop} {encode : α → List Chunk}
    (h : RoundTrip r valid encode) (hk : ∀ x y, rearranged x y → valid x → valid y) : CanBeRearranged r encode := by
  intro d p t t' hd hr hm
  have hv := hk t t' hm ((h.accepts d p t hd).mp hr).1
  exact ⟨fun d' p' hd' hh => (h.accepts d' p' t' hd').mpr ⟨hv, hh⟩, fun hc pre suf hd' => h.writes t' pre suf hv hc hd'⟩

/-- All tables but the glyph definition. -/
theorem C99_tables (cfg : Cfg) :
    CanBeRearranged (gsub.GlyphSubstitution.read cfg) (directoryEncoding cfg) ∧
    CanBeRearranged (gpos.GlyphPositioning.read cfg) (directoryEncoding cfg) ∧
    CanBeRearranged cpal.ColorPalettes.read encoding ∧
    CanBeRearranged (fvar.FontVariations.read cfg) encoding ∧
    CanBeRearranged (item.Store.read cfg) encoding :=
  ⟨(C48_gsub cfg).canBeRearranged remains, (C48_gpos cfg).canBeRearranged remains,
    C48_cpal.canBeRearranged remains, (C48_fvar cfg).canBeRearranged remains, (C48_store cfg).canBeRearranged remains⟩

/-- The parts of the layout tables that have offsets, taken on their own. -/
theorem C99_layout (cfg : Cfg) (type_ : Nat) :
    CanBeRearranged Context.read encoding ∧ CanBeRearranged ChainedContext.read encoding ∧
    CanBeRearranged Scripts.read encoding ∧ CanBeRearranged Features.read encoding ∧
    CanBeRearranged (gsub.Type_.read type_) encoding ∧
    CanBeRearranged (gpos.Type_.read cfg type_) encoding :=
  have ⟨_, _, _, h4, h5, h6, h7⟩ := C48_layout
  have ⟨h8, h9⟩ := C48_lookup cfg type_
  ⟨h4.canBeRearranged remains, h5.canBeRearranged remains, h6.canBeRearranged remains, h7.canBeRearranged remains,
    h8.canBeRearranged remains, h9.canBeRearranged remains⟩

/-- The glyph definition, whose parts are where the code looks for them: in version 1.3 that is, for the variation
store, at the offset of the mark glyph sets (property C31). -/
theorem C99_gdef (cfg : Cfg) : CanBeRearranged (gdef.GlyphDefinition.read cfg) gdefEncodingTaken :=
  (C52_gdef_taken_partial cfg).canBeRearranged remains

/-- For instance `sampleGsub` with its lists in the opposite order, gaps between them, and the default language in front
of the script: nothing is where it was, and the scripts come last. -/
def backwardGsub : gsub.GlyphSubstitution :=
  { sampleGsub with
    script_offset := 60
    feature_offset := 46
    lookup_offset := 10
    scripts := ⟨1, [⟨0x6C61746E, 20⟩], [⟨8, 0, [], some ⟨0, 65535, 1, [0]⟩, []⟩]⟩
    features := ⟨1, [⟨0x6C696761, 8⟩], [⟨0, 1, [0], none⟩]⟩
    lookups := ⟨1, [6], [⟨1, 0, 1, [16], none,
      [.singleSubstitution (.format1 ⟨1, 7, -3, .format1 ⟨1, 1, [9]⟩⟩)]⟩]⟩ }

theorem rearranged_single {α : Type} [Rearranged α] {x y : α} (h : rearranged x y) : rearranged [x] [y] := by
  refine ⟨rfl, ?_⟩
  rintro (_ | i) a b ha hb
  · cases ha
    cases hb
    exact h
  · cases ha

theorem rearranged_empty {α : Type} [Rearranged α] : rearranged ([] : List α) [] := ⟨rfl, fun _ _ _ h => by cases h⟩

example : rearranged sampleGsub backwardGsub :=
  ⟨rfl, ⟨by decide, by decide⟩, ⟨by decide, by decide⟩, ⟨by decide, by decide⟩, ⟨by decide, by decide⟩,
    ⟨rfl, rearranged_single ⟨rfl, by decide⟩, rearranged_single ⟨rfl, ⟨by decide, by decide⟩, rearranged_empty⟩⟩,
    ⟨rfl, rearranged_single ⟨rfl, by decide⟩⟩,
    ⟨rfl, ⟨rfl, by simp [All16, backwardGsub]⟩,
      rearranged_single ⟨rfl, ⟨rfl, by simp [All16]⟩, rearranged_single ⟨rfl, by decide⟩⟩⟩⟩

/-- The hypotheses are met, and both are read. -/
example :
    Reads (gsub.GlyphSubstitution.read ⟨true, false, false, false, true, false⟩)
      (render (directoryEncoding ⟨true, false, false, false, true, false⟩ sampleGsub)) 0 sampleGsub ∧
    Consistent (directoryEncoding ⟨true, false, false, false, true, false⟩ backwardGsub) ∧
    Reads (gsub.GlyphSubstitution.read ⟨true, false, false, false, true, false⟩)
      ([7] ++ render (directoryEncoding ⟨true, false, false, false, true, false⟩ backwardGsub) ++ [8, 9]) 1
      backwardGsub := by
  decide +kernel

/-- A coverage that begins inside the table itself: its format is the delta, and the number of glyphs follows. -/
example :
    Reads (gsub.Type_.read 1) [0, 1, 0, 4, 0, 1, 0, 1, 0, 9] 0
      (.singleSubstitution (.format1 ⟨1, 4, 1, .format1 ⟨1, 1, [9]⟩⟩)) ∧
    Consistent (encoding (gsub.Type_.singleSubstitution (.format1 ⟨1, 4, 1, .format1 ⟨1, 1, [9]⟩⟩))) ∧
    rearranged (gsub.Type_.singleSubstitution (.format1 ⟨1, 6, 1, .format1 ⟨1, 1, [9]⟩⟩))
      (.singleSubstitution (.format1 ⟨1, 4, 1, .format1 ⟨1, 1, [9]⟩⟩)) :=
  ⟨by decide +kernel, by decide +kernel, rfl, by decide⟩

/-- An offset that is zero when there is nothing, and that is not, is more than a place. -/
example : ¬rearranged (gpos.Anchor.format3 ⟨3, 1, 2, 10, 0, some (.variation ⟨1, 2, 0x8000⟩), none⟩)
    (.format3 ⟨3, 1, 2, 0, 0, some (.variation ⟨1, 2, 0x8000⟩), none⟩) := by
  rintro ⟨_, ⟨_, h⟩, _⟩
  exact absurd (h.mp rfl) (by decide)

/-- Two classes in one: a glyph definition of which both classes become the same bytes. -/
example :
    let two : gdef.GlyphDefinition := ⟨.version1 ⟨1, 0, 12, 0, 0, 20⟩, some (.format1 ⟨1, 9, 1, [2]⟩), none, none,
      some (.format1 ⟨1, 9, 1, [2]⟩), none, none⟩
    let one : gdef.GlyphDefinition := ⟨.version1 ⟨1, 0, 12, 0, 0, 12⟩, some (.format1 ⟨1, 9, 1, [2]⟩), none, none,
      some (.format1 ⟨1, 9, 1, [2]⟩), none, none⟩
    rearranged two one ∧ Consistent (gdefEncodingTaken one) ∧
      Reads (gdef.GlyphDefinition.read ⟨true, false, false, false, true, false⟩) (render (gdefEncodingTaken two)) 0 two ∧
      Reads (gdef.GlyphDefinition.read ⟨true, false, false, false, true, false⟩) (render (gdefEncodingTaken one)) 0 one ∧
      (render (gdefEncodingTaken one)).length + 8 = (render (gdefEncodingTaken two)).length := by
  refine ⟨⟨rfl, ⟨rfl, ⟨by decide, by decide⟩, ⟨by decide, by decide⟩, ⟨by decide, by decide⟩, by decide, by decide⟩,
    trivial, trivial, trivial, trivial⟩, by decide +kernel, by decide +kernel, by decide +kernel, by decide +kernel⟩

end OpenType.Props
