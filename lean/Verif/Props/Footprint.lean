import Verif.Props.Encode
/-! # C50: only the bytes of a table and of what its offsets lead to matter -/

namespace OpenType.Props
open OpenType Spec coverage class_ correction context script feature directory

/-- A value that was read is read again wherever its own bytes are found again: those of the table itself
and those of the parts its offsets lead to, `encode t` being where they are and what they are
(`Spec/Encode.lean`). All other bytes of the two tapes may differ, and so may their lengths. -/
def DependsOnOwnBytes {α : Type} (r : Reader α) (encode : α → List Chunk) : Prop :=
  ∀ (d d' : Data) (p p' : Nat) (t : α), Fits d → Fits d' → Reads r d p t →
    (∀ c ∈ encode t, ∀ i < c.2.length, d'[p' + c.1 + i]? = d[p + c.1 + i]?) → Reads r d' p' t

theorem RoundTrip.dependsOnOwnBytes {α : Type} {r : Reader α} {valid : α → Prop}
    {encode : α → List Chunk} (h : RoundTrip r valid encode) : DependsOnOwnBytes r encode := by
  intro d d' p p' t hd hd' hr hs
  obtain ⟨hv, hh⟩ := (h.accepts d p t hd).mp hr
  refine (h.accepts d' p' t hd').mpr ⟨hv, fun c hc i x hi => ?_⟩
  rw [hs c hc i (List.getElem?_eq_some_iff.mp hi).1]
  exact hh c hc i x hi

/-- For the tables. -/
theorem C50_own_bytes (cfg : Cfg) :
    DependsOnOwnBytes (gsub.GlyphSubstitution.read cfg) (directoryEncoding cfg) ∧
    DependsOnOwnBytes (gpos.GlyphPositioning.read cfg) (directoryEncoding cfg) ∧
    DependsOnOwnBytes (gdef.GlyphDefinition.read cfg) gdefEncodingTaken ∧
    DependsOnOwnBytes cpal.ColorPalettes.read encoding ∧
    DependsOnOwnBytes (fvar.FontVariations.read cfg) encoding ∧
    DependsOnOwnBytes (item.Store.read cfg) encoding :=
  ⟨(C48_gsub cfg).dependsOnOwnBytes, (C48_gpos cfg).dependsOnOwnBytes,
    (C52_gdef_taken_partial cfg).dependsOnOwnBytes, C48_cpal.dependsOnOwnBytes,
    (C48_fvar cfg).dependsOnOwnBytes, (C48_store cfg).dependsOnOwnBytes⟩

/-- For the parts of the layout tables, taken on their own. -/
theorem C50_own_bytes_layout (cfg : Cfg) (type_ : Nat) :
    DependsOnOwnBytes Coverage.read encoding ∧ DependsOnOwnBytes Class.read encoding ∧
    DependsOnOwnBytes Correction.read encoding ∧ DependsOnOwnBytes Context.read encoding ∧
    DependsOnOwnBytes ChainedContext.read encoding ∧ DependsOnOwnBytes Scripts.read encoding ∧
    DependsOnOwnBytes Features.read encoding ∧
    DependsOnOwnBytes (gsub.Type_.read type_) encoding ∧
    DependsOnOwnBytes (gpos.Type_.read cfg type_) encoding :=
  have ⟨h1, h2, h3, h4, h5, h6, h7⟩ := C48_layout
  have ⟨h8, h9⟩ := C48_lookup cfg type_
  ⟨h1.dependsOnOwnBytes, h2.dependsOnOwnBytes, h3.dependsOnOwnBytes, h4.dependsOnOwnBytes,
    h5.dependsOnOwnBytes, h6.dependsOnOwnBytes, h7.dependsOnOwnBytes, h8.dependsOnOwnBytes,
    h9.dependsOnOwnBytes⟩

/-- Two palette tables with the same palette and different bytes between the header and the colours, and of
different lengths. -/
example :
    let d := bytes [7,  0, 0,  0, 1,  0, 1,  0, 1,  0, 0, 0, 16,  0, 0,  1, 2,  9, 8, 7, 6]
    let d' := bytes [0, 0,  0, 1,  0, 1,  0, 1,  0, 0, 0, 16,  0, 0,  3, 4,  9, 8, 7, 6,  5, 5]
    let t : cpal.ColorPalettes := ⟨.version0 ⟨0, 1, 1, 1, 16, [0]⟩, [⟨9, 8, 7, 6⟩]⟩
    Reads cpal.ColorPalettes.read d 1 t ∧ Reads cpal.ColorPalettes.read d' 0 t ∧
      (∀ c ∈ encoding t, ∀ i < c.2.length, d'[0 + c.1 + i]? = d[1 + c.1 + i]?) ∧ d.drop 1 ≠ d' := by
  decide +kernel

end OpenType.Props
