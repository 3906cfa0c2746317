import Verif.Props.FontFile
import Verif.Props.Footprint
/-! # C60: truncation is noticed -/

namespace OpenType.Props
open OpenType Spec coverage class_ correction context script feature directory offsets

/-- What a reader does on the first `k` bytes of a file is either to run out of data or what it does on the
whole file, be it success or refusal. -/
def Truncates {α : Type} (r : Reader α) : Prop :=
  ∀ (d : Data) (p k : Nat), Fits d → r (d.take k) p = .error .eof ∨ r (d.take k) p = r d p

theorem AppendStable.truncates {α : Type} {r : Reader α} (h : AppendStable r) : Truncates r := by
  intro d p k hd
  have e : d.take k ++ d.drop k = d := List.take_append_drop k d
  obtain ⟨h1, h2, h3⟩ := h (d.take k) (d.drop k) p (e.symm ▸ hd)
  rw [e] at h1 h2 h3
  cases hr : r (d.take k) p with
  | ok x => exact .inr (h1 _ _ hr).symm
  | error x =>
    cases x with
    | eof => exact .inl rfl
    | malformed m => exact .inr (h2 _ hr).symm
    | panic m => exact .inr (h3 _ hr).symm

/-- A file cut short is refused as such when one of the bytes that make up the value, `encode t` being where
they are and what they are, is missing; otherwise the value is read all the same. -/
def NoticesLoss {α : Type} (r : Reader α) (encode : α → List Chunk) : Prop :=
  ∀ (d : Data) (p : Nat) (t : α) (q k : Nat), Fits d → r d p = .ok (t, q) →
    ((∀ c ∈ encode t, ∀ i < c.2.length, p + c.1 + i < k) → r (d.take k) p = .ok (t, q)) ∧
    ((∃ c ∈ encode t, ∃ i < c.2.length, k ≤ p + c.1 + i) → r (d.take k) p = .error .eof)

theorem RoundTrip.noticesLoss {α : Type} {r : Reader α} {valid : α → Prop} {encode : α → List Chunk}
    (h : RoundTrip r valid encode) (ht : Truncates r) : NoticesLoss r encode := by
  intro d p t q k hd hr
  have hd' : Fits (d.take k) := by
    unfold Fits at hd ⊢
    rw [List.length_take]
    omega
  have hs := h.accepts d p t hd |>.mp ⟨q, hr⟩
  constructor
  · intro hk
    have : Reads r (d.take k) p t := by
      refine (h.accepts _ p t hd').mpr ⟨hs.1, fun c hc i x hi => ?_⟩
      rw [List.getElem?_take_of_lt (hk c hc i (List.getElem?_eq_some_iff.mp hi).1)]
      exact hs.2 c hc i x hi
    obtain ⟨q', hq⟩ := this
    rcases ht d p k hd with h' | h'
    · rw [h'] at hq
      cases hq
    · rw [h', hr]
  · rintro ⟨c, hc, i, hi, hk⟩
    rcases ht d p k hd with h' | h'
    · exact h'
    · have := ((h.accepts _ p t hd').mp ⟨q, h'.trans hr⟩).2 c hc i _ (List.getElem?_eq_getElem hi)
      rw [List.getElem?_take_eq_none hk] at this
      cases this

/-- The tables: a prefix of a file gives the end of the data or the very result of the whole file. -/
theorem C60_truncated (cfg : Cfg) (accept : Tag → Bool) :
    Truncates (File.read accept) ∧ Truncates (gsub.GlyphSubstitution.read cfg) ∧
    Truncates (gpos.GlyphPositioning.read cfg) ∧ Truncates (gdef.GlyphDefinition.read cfg) ∧
    Truncates cpal.ColorPalettes.read ∧ Truncates (fvar.FontVariations.read cfg) ∧
    Truncates (item.Store.read cfg) :=
  ⟨(appendStable (e := False)).truncates, (appendStable (e := False)).truncates,
    (appendStable (e := False)).truncates, (appendStable (e := cfg.overflowChecks = true)).truncates,
    (appendStable (e := False)).truncates, (appendStable (e := False)).truncates,
    (appendStable (e := cfg.overflowChecks = true)).truncates⟩

/-- Taking tables from a font. -/
theorem C60_take (cfg : Cfg) (font : Font) :
    Truncates (font.take cfg tableChecksum .glyphSubstitution (gsub.GlyphSubstitution.read cfg)) ∧
    Truncates (font.take cfg tableChecksum .glyphPositioning (gpos.GlyphPositioning.read cfg)) ∧
    Truncates (font.take cfg tableChecksum .glyphDefinition (gdef.GlyphDefinition.read cfg)) ∧
    Truncates (font.take cfg tableChecksum .colorPalettes cpal.ColorPalettes.read) ∧
    Truncates (font.take cfg tableChecksum .fontVariations (fvar.FontVariations.read cfg)) :=
  have ⟨_, _, _, _, h1, h2, h3, h4, h5⟩ := C57_tables cfg font
  ⟨h1.truncates, h2.truncates, h3.truncates, h4.truncates, h5.truncates⟩

/-- The tables: exactly the loss of a byte of the value is reported, as the end of the data. -/
theorem C60_loss (cfg : Cfg) :
    NoticesLoss (gsub.GlyphSubstitution.read cfg) (directoryEncoding cfg) ∧
    NoticesLoss (gpos.GlyphPositioning.read cfg) (directoryEncoding cfg) ∧
    NoticesLoss (gdef.GlyphDefinition.read cfg) gdefEncodingTaken ∧
    NoticesLoss cpal.ColorPalettes.read encoding ∧
    NoticesLoss (fvar.FontVariations.read cfg) encoding ∧
    NoticesLoss (item.Store.read cfg) encoding :=
  have ⟨_, h1, h2, h3, h4, h5, h6⟩ := C60_truncated cfg fun _ => true
  ⟨(C48_gsub cfg).noticesLoss h1, (C48_gpos cfg).noticesLoss h2,
    (C52_gdef_taken_partial cfg).noticesLoss h3, C48_cpal.noticesLoss h4, (C48_fvar cfg).noticesLoss h5,
    (C48_store cfg).noticesLoss h6⟩

/-- The parts of the layout tables, taken on their own. -/
theorem C60_loss_layout (cfg : Cfg) (type_ : Nat) :
    NoticesLoss Coverage.read encoding ∧ NoticesLoss Class.read encoding ∧
    NoticesLoss Correction.read encoding ∧ NoticesLoss Context.read encoding ∧
    NoticesLoss ChainedContext.read encoding ∧ NoticesLoss Scripts.read encoding ∧
    NoticesLoss Features.read encoding ∧ NoticesLoss (gsub.Type_.read type_) encoding ∧
    NoticesLoss (gpos.Type_.read cfg type_) encoding :=
  have ⟨h1, h2, h3, h4, h5, h6, h7⟩ := C48_layout
  have ⟨h8, h9⟩ := C48_lookup cfg type_
  ⟨h1.noticesLoss (appendStable (e := False)).truncates, h2.noticesLoss (appendStable (e := False)).truncates,
    h3.noticesLoss (appendStable (e := False)).truncates, h4.noticesLoss (appendStable (e := False)).truncates,
    h5.noticesLoss (appendStable (e := False)).truncates, h6.noticesLoss (appendStable (e := False)).truncates,
    h7.noticesLoss (appendStable (e := False)).truncates, h8.noticesLoss (appendStable (e := False)).truncates,
    h9.noticesLoss (appendStable (e := False)).truncates⟩

/-- A palette table whose last four bytes are not part of it: it survives their loss, but not the loss of one
byte more. -/
example :
    let d := bytes [0, 0,  0, 1,  0, 1,  0, 1,  0, 0, 0, 14,  0, 0,  9, 8, 7, 6,  5, 5, 5, 5]
    let t : cpal.ColorPalettes := ⟨.version0 ⟨0, 1, 1, 1, 14, [0]⟩, [⟨9, 8, 7, 6⟩]⟩
    cpal.ColorPalettes.read d 0 = .ok (t, 18) ∧
      (∀ c ∈ encoding t, ∀ i < c.2.length, 0 + c.1 + i < 18) ∧
      (∃ c ∈ encoding t, ∃ i < c.2.length, 17 ≤ 0 + c.1 + i) ∧
      cpal.ColorPalettes.read (d.take 17) 0 = .error .eof := by
  decide +kernel

end OpenType.Props
