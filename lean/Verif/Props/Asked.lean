import Verif.Proof.AskedMore
import Verif.Props.Local
/-! # C91: the bytes asked for are those of the value -/

namespace OpenType.Props
open OpenType Spec coverage class_ correction context script feature lookup directory

/-- When a value is read, the addresses of the bytes that the tape is asked for, in requests `(q, n)` for `n` bytes at
`q`, are exactly those of the bytes the value is made of, `encode t` (`Spec/Encode.lean`). -/
def AsksForOwnBytes {α : Type} (r : Reader α) (encode : α → List Chunk) : Prop :=
  ∀ (d : Data) (p : Nat) (t : α), Fits d → Reads r d p t → ∀ x,
    (∃ q n, (q, n) ∈ r.fetches d p ∧ q ≤ x ∧ x < q + n) ↔ ∃ c ∈ encode t, p + c.1 ≤ x ∧ x < p + c.1 + c.2.length

/-- A byte that makes a difference has to be asked for. -/
theorem RoundTrip.asks {α : Type} {r : Reader α} {valid : α → Prop} {encode : α → List Chunk}
    (h : RoundTrip r valid encode) (hr : ∀ d p, Fits d → Track d (fun _ => False) r p (fun _ _ => True)
      fun t _ x => Covered (encode t) p x) : AsksForOwnBytes r encode := by
  intro d p t hd ht x
  constructor
  · obtain ⟨q, ht⟩ := ht
    exact fun hx => (hr d p hd t q ht).2 x (.inr hx)
  · rintro ⟨c, hc, h1, h2⟩
    refine Classical.byContradiction fun hn => ?_
    have hb := ((h.accepts d p t hd).mp ht).2 c hc (x - (p + c.1)) _ (List.getElem?_eq_getElem (by omega))
    rw [show p + c.1 + (x - (p + c.1)) = x by omega] at hb
    have hx : x < d.length := (List.getElem?_eq_some_iff.mp hb).1
    have hd' : Fits (d.set x (d[x] + 1)) := by unfold Fits; rw [List.length_set]; exact hd
    have same := (C90_asked r d (d.set x (d[x] + 1)) p fun q n hq i hi =>
      List.getElem?_set_ne fun e => hn ⟨q, n, hq, by omega, by omega⟩).1
    refine h.noticesChange d (d.set x (d[x] + 1)) p p t hd hd' ht ⟨c, hc, x - (p + c.1), by omega, ?_⟩ ?_
    · rw [show p + c.1 + (x - (p + c.1)) = x by omega, List.getElem?_set_self hx, List.getElem?_eq_getElem hx]
      intro e
      have e : d[x] + 1 = d[x] := Option.some.inj e
      have e := congrArg UInt8.toNat e
      rw [UInt8.toNat_add] at e
      have := d[x].toNat_lt
      have : (1 : UInt8).toNat = 1 := rfl
      omega
    · obtain ⟨q, ht⟩ := ht
      exact ⟨q, same.trans ht⟩

/-- The tables. -/
theorem C91_tables (cfg : Cfg) :
    AsksForOwnBytes (gsub.GlyphSubstitution.read cfg) (directoryEncoding cfg) ∧
    AsksForOwnBytes (gpos.GlyphPositioning.read cfg) (directoryEncoding cfg) ∧
    AsksForOwnBytes (gdef.GlyphDefinition.read cfg) gdefEncodingTaken ∧
    AsksForOwnBytes cpal.ColorPalettes.read encoding ∧
    AsksForOwnBytes (fvar.FontVariations.read cfg) encoding ∧
    AsksForOwnBytes (item.Store.read cfg) encoding :=
  ⟨(C48_gsub cfg).asks fun _ _ hd => track_directory hd, (C48_gpos cfg).asks fun _ _ hd => track_directory hd,
    (C52_gdef_taken_partial cfg).asks fun _ _ hd => track_gdef hd, C48_cpal.asks fun _ _ hd => Covers.track hd,
    (C48_fvar cfg).asks fun _ _ hd => Covers.track hd, (C48_store cfg).asks fun _ _ hd => Covers.track hd⟩

/-- The parts of the layout tables, taken on their own. -/
theorem C91_layout (cfg : Cfg) (type_ : Nat) :
    AsksForOwnBytes Coverage.read encoding ∧ AsksForOwnBytes Class.read encoding ∧
    AsksForOwnBytes Correction.read encoding ∧ AsksForOwnBytes Context.read encoding ∧
    AsksForOwnBytes ChainedContext.read encoding ∧ AsksForOwnBytes Scripts.read encoding ∧
    AsksForOwnBytes Features.read encoding ∧
    AsksForOwnBytes (gsub.Type_.read type_) encoding ∧
    AsksForOwnBytes (gpos.Type_.read cfg type_) encoding :=
  have ⟨h1, h2, h3, h4, h5, h6, h7⟩ := C48_layout
  have ⟨h8, h9⟩ := C48_lookup cfg type_
  ⟨h1.asks fun _ _ hd => Covers.track hd, h2.asks fun _ _ hd => Covers.track hd,
    h3.asks fun _ _ hd => Covers.track hd, h4.asks fun _ _ hd => Covers.track hd,
    h5.asks fun _ _ hd => Covers.track hd, h6.asks fun _ _ hd => Covers.track hd,
    h7.asks fun _ _ hd => Covers.track hd, h8.asks fun _ _ hd => Covers.track hd,
    h9.asks fun _ _ hd => Covers.track hd⟩

/-- A value tells which requests it was read with, in which order: two tapes that give the same value at the same
place get the same ones. The readers are those of the two theorems above, by C48, C52 and C91. -/
theorem C91_same_requests {α : Type} {r : Reader α} {valid : α → Prop} {encode : α → List Chunk}
    (h : RoundTrip r valid encode) (ha : AsksForOwnBytes r encode) {d d' : Data} (hd : Fits d) (hd' : Fits d') {p : Nat}
    {t : α} (ht : Reads r d p t) (ht' : Reads r d' p t) : r.fetches d' p = r.fetches d p := by
  refine (C90_asked r d d' p fun q n hq i hi => ?_).2
  obtain ⟨c, hc, h1, h2⟩ := (ha d p t hd ht (q + i)).mp ⟨q, n, hq, by omega, by omega⟩
  have e1 := ((h.accepts d p t hd).mp ht).2 c hc (q + i - (p + c.1)) _ (List.getElem?_eq_getElem (by omega))
  have e2 := ((h.accepts d' p t hd').mp ht').2 c hc (q + i - (p + c.1)) _ (List.getElem?_eq_getElem (by omega))
  rw [show p + c.1 + (q + i - (p + c.1)) = q + i by omega] at e1 e2
  rw [e1, e2]

/-- A color-palette table: 14 bytes of header, 4 that nothing refers to, and the 8 bytes of two colors. What is asked
for are the header, of which the version twice, and the colors. -/
def gappedPalettes : Data := bytes [0, 0, 0, 2, 0, 1, 0, 2, 0, 0, 0, 18, 0, 0, 9, 9, 9, 9, 1, 2, 3, 4, 5, 6, 7, 8]

example : Reads cpal.ColorPalettes.read gappedPalettes 0
      ⟨.version0 ⟨0, 2, 1, 2, 18, [0]⟩, [⟨1, 2, 3, 4⟩, ⟨5, 6, 7, 8⟩]⟩ ∧
    cpal.ColorPalettes.read.fetches gappedPalettes 0 = [(0, 2), (0, 2), (2, 2), (4, 2), (6, 2), (8, 4), (12, 2),
      (18, 1), (19, 1), (20, 1), (21, 1), (22, 1), (23, 1), (24, 1), (25, 1)] ∧
    (encoding (⟨.version0 ⟨0, 2, 1, 2, 18, [0]⟩, [⟨1, 2, 3, 4⟩, ⟨5, 6, 7, 8⟩]⟩ : cpal.ColorPalettes)).map
      (fun c => (c.1, c.2.length)) = [(0, 14), (18, 8)] := by
  decide +kernel

/-- The glyph substitution table of C86, whose two lookups share a subtable. -/
example : AsksForOwnBytes (gsub.GlyphSubstitution.read ⟨false, false, false, false, true, true⟩)
      (directoryEncoding ⟨false, false, false, false, true, true⟩) ∧
    Reads (gsub.GlyphSubstitution.read ⟨false, false, false, false, true, true⟩) partsGsub 0 partsTable :=
  ⟨(C91_tables _).1, parts_edited.1⟩

end OpenType.Props
