import Verif.Props.Faithful
import Verif.Proof.Gdef
/-! # C30, C31, C32: the glyph definition -/

namespace OpenType.Props
open OpenType Spec gdef

/-! ## C30 -/

/-- A glyph definition is read exactly as it is stored. The six parts of the conjunction are the header, which
begins with version 1.0, 1.2 or 1.3, and five parts that are absent exactly when their offset is zero and
otherwise are at that offset from the start of the table. The carets inside ligatures are C32's subject, and so
the ligatures are described by their reader; the variation store is C31's. -/
theorem C30_glyph_definition (cfg : Cfg) {d : Data} {p : Nat} (hd : Fits d) (t : GlyphDefinition) :
    Reads (GlyphDefinition.read cfg) d p t ↔
      Spec.gdef.IsHeader d p t.header ∧
      Optional (IsClass d) p (Spec.gdef.offsets t.header).1 t.glyph_class ∧
      Optional (Spec.gdef.IsAttachments d) p (Spec.gdef.offsets t.header).2.1 t.attachments ∧
      Optional (Reads Ligatures.read d) p (Spec.gdef.offsets t.header).2.2.1 t.ligatures ∧
      Optional (IsClass d) p (Spec.gdef.offsets t.header).2.2.2.1 t.mark_class ∧
      Optional (Spec.gdef.IsMarks d) p (Spec.gdef.offsets t.header).2.2.2.2.1 t.marks ∧
      Optional (IsStore cfg d) p (Spec.gdef.storeOffsetTaken t.header) t.variations := by
  rw [reads_parses hd]
  have e : Optional (Reads Ligatures.read d) p (Spec.gdef.offsets t.header).2.2.1 t.ligatures ↔
      Optional (Spec.gdef.IsLigatures Spec.gdef.IsCaretTaken d) p (Spec.gdef.offsets t.header).2.2.1
        t.ligatures := by
    cases t.ligatures with
    | none => exact Iff.rfl
    | some x => exact and_congr_right fun _ => reads_parses hd
  rw [e]
  unfold Spec.gdef.IsGlyphDefinitionTaken Spec.gdef.IsGlyphDefinitionBut
  simp only [and_assoc]

/-- Ligatures are read as the list of caret lists they store, each caret by its own reader. -/
theorem C30_ligatures {d : Data} {p : Nat} (hd : Fits d) (t : Ligatures) :
    Reads Ligatures.read d p t ↔ Spec.gdef.IsLigatures (Reads Caret.read) d p t := by
  have e : (Reads Caret.read d) = Spec.gdef.IsCaretTaken d := by
    funext q x
    exact propext (reads_parses hd)
  rw [reads_parses hd]
  unfold Spec.gdef.IsLigatures Spec.gdef.IsLigature
  rw [e]

/-- Any other version is refused. -/
theorem C30_other_version (cfg : Cfg) {d : Data} {p major minor : Nat} (hd : Fits d) (h : U16 d p major)
    (h' : U16 d (p + 2) minor) (hv : major ≠ 1 ∨ minor ∉ [0, 2, 3]) :
    Refuses (GlyphDefinition.read cfg d p) := by
  have := h.lt
  have := h'.lt
  have hr : Refuses (Header.read d p) := by
    have hm : minor ≠ 0 ∨ major ≠ 1 := by
      rcases hv with hv | hv
      · exact .inr hv
      · exact .inl fun e => hv (by simp [e])
    have hm' : minor ≠ 2 ∨ major ≠ 1 := by
      rcases hv with hv | hv
      · exact .inr hv
      · exact .inl fun e => hv (by simp [e])
    have hm'' : minor ≠ 3 ∨ major ≠ 1 := by
      rcases hv with hv | hv
      · exact .inr hv
      · exact .inl fun e => hv (by simp [e])
    have hu := u32_of h h'
    generalize hn : 65536 * major + minor = n at hu
    refuses_format Header.read hd hu
  obtain ⟨m, hm⟩ := hr
  exact ⟨m, (bind_ok (show position d p = .ok (p, p) from rfl)).trans (bind_error hm)⟩

/-- Version 1.2 with a glyph class, an attachment list, a ligature without carets and one set of marks. -/
def sampleGdef : Data := bytes <|
  [0, 1, 0, 2,  0, 14,  0, 18,  0, 34,  0, 0,  0, 48] ++ [0, 2, 0, 0] ++
  [0, 6,  0, 1,  0, 12] ++ [0, 1, 0, 1, 0, 7] ++ [0, 1, 0, 3] ++
  [0, 6,  0, 1,  0, 12] ++ [0, 1, 0, 1, 0, 8] ++ [0, 0] ++
  [0, 1,  0, 1,  0, 0, 0, 8,  0, 1, 0, 1, 0, 9]

example : Reads (GlyphDefinition.read ⟨false, false, false, false, true, true⟩) sampleGdef 0
    ⟨.version12 ⟨1, 2, 14, 18, 34, 0, 48⟩, some (.format2 ⟨2, 0, []⟩),
      some ⟨6, 1, [12], .format1 ⟨1, 1, [7]⟩, [⟨1, [3]⟩]⟩, some ⟨6, 1, [12], .format1 ⟨1, 1, [8]⟩, [⟨0, [], []⟩]⟩,
      none, some ⟨1, 1, [8], [.format1 ⟨1, 1, [9]⟩]⟩, none⟩ := by decide +kernel

/-- A version of 1.1. -/
example : Refuses (GlyphDefinition.read ⟨false, false, false, false, true, true⟩
    (bytes [0, 1, 0, 1, 0, 0, 0, 0, 0, 0, 0, 0]) 0) :=
  C30_other_version _ (major := 1) (minor := 1) (by decide +kernel) (by decide +kernel) (by decide +kernel)
    (by decide)

/-! ## C31 -/

/-- The property: in every accepted table of version 1.3 the store is the one at the offset for it. -/
def StoreAtItsOffset (cfg : Cfg) : Prop :=
  ∀ d p t h, Fits d → Reads (GlyphDefinition.read cfg) d p t → t.header = .version13 h →
    Optional (IsStore cfg d) p h.variation_offset t.variations

/-- What holds instead: the store is the one at the offset for the mark sets. -/
theorem C31_taken_partial (cfg : Cfg) {d : Data} {p : Nat} (hd : Fits d) {t : GlyphDefinition} {h : Header13}
    (ht : Reads (GlyphDefinition.read cfg) d p t) (hh : t.header = .version13 h) :
    U16 d (p + 12) h.mark_offset ∧ Optional (IsStore cfg d) p h.mark_offset t.variations := by
  obtain ⟨h1, _, _, _, _, _, h2⟩ := (C30_glyph_definition cfg hd t).mp ht
  rw [hh] at h1 h2
  exact ⟨h1.2.2.2.2.2.2.2.2.1, h2⟩

/-- The property holds of the tables where the two offsets agree, such as both zero. -/
theorem C31_equal_offsets_partial (cfg : Cfg) {d : Data} {p : Nat} (hd : Fits d) {t : GlyphDefinition}
    {h : Header13} (ht : Reads (GlyphDefinition.read cfg) d p t) (hh : t.header = .version13 h)
    (he : h.mark_offset = h.variation_offset) :
    Optional (IsStore cfg d) p h.variation_offset t.variations :=
  he ▸ (C31_taken_partial cfg hd ht hh).2

/-- A table with a store and without mark sets loses its store. -/
theorem C31_lost (cfg : Cfg) {d : Data} {p : Nat} (hd : Fits d) {t : GlyphDefinition} {h : Header13}
    (ht : Reads (GlyphDefinition.read cfg) d p t) (hh : t.header = .version13 h) (hm : h.mark_offset = 0) :
    t.variations = none := by
  have := (C31_taken_partial cfg hd ht hh).2
  unfold Optional at this
  cases hv : t.variations with
  | none => rfl
  | some v => rw [hv] at this; exact (this.1 hm).elim

/-- A table with mark sets that are not also a store, as in a font with both, is not accepted. -/
theorem C31_rejected (cfg : Cfg) {d : Data} {p : Nat} (hd : Fits d) {h : Header13}
    (hh : Spec.gdef.IsHeader d p (.version13 h)) (hm : h.mark_offset ≠ 0)
    (hs : ∀ s, ¬IsStore cfg d (p + h.mark_offset) s) (t : GlyphDefinition) :
    ¬Reads (GlyphDefinition.read cfg) d p t := by
  intro ht
  obtain ⟨h1, _, _, _, _, _, h2⟩ := (C30_glyph_definition cfg hd t).mp ht
  have e : t.header = .version13 h := by
    obtain ⟨q, hq⟩ := (reads_parses (r := Header.read) hd).mpr h1
    obtain ⟨q', hq'⟩ := (reads_parses (r := Header.read) hd).mpr hh
    rw [hq] at hq'
    exact (Prod.mk.inj (Except.ok.inj hq')).1
  rw [e] at h2
  unfold Optional Spec.gdef.storeOffsetTaken at h2
  cases hv : t.variations with
  | none => rw [hv] at h2; exact hm h2
  | some s => rw [hv] at h2; exact hs s h2.2

/-- Version 1.3 without mark sets and with an empty variation store. -/
def storeGdef : Data := bytes <|
  [0, 1, 0, 3,  0, 0,  0, 0,  0, 0,  0, 0,  0, 0,  0, 0, 0, 18] ++ [0, 1,  0, 0, 0, 0,  0, 0]

theorem C31_violated (cfg : Cfg) : ¬StoreAtItsOffset cfg := by
  intro h
  have h1 : Reads (GlyphDefinition.read cfg) storeGdef 0
      ⟨.version13 ⟨1, 3, 0, 0, 0, 0, 0, 18⟩, none, none, none, none, none, none⟩ := by
    obtain ⟨a, b, c, d, e, f⟩ := cfg
    cases a <;> cases b <;> cases c <;> cases d <;> cases e <;> cases f <;> decide +kernel
  have h2 := h _ _ _ _ (by decide +kernel) h1 rfl
  have h3 : (18 : Nat) = 0 := h2
  omega

/-- The table does hold a store at its offset. -/
example : Reads (item.Store.read ⟨false, false, false, false, true, true⟩) storeGdef 18 ⟨1, 0, 0, [], []⟩ := by
  decide +kernel

/-- Version 1.3 with one set of marks and an empty variation store. -/
def marksGdef : Data := bytes <|
  [0, 1, 0, 3,  0, 0,  0, 0,  0, 0,  0, 0,  0, 26,  0, 0, 0, 18] ++ [0, 1,  0, 0, 0, 0,  0, 0] ++
  [0, 1,  0, 1,  0, 0, 0, 8,  0, 1, 0, 1, 0, 9]

/-- It is well formed, meets the hypotheses of `C31_rejected`, and is rejected. -/
example : Reads Header.read marksGdef 0 (.version13 ⟨1, 3, 0, 0, 0, 0, 26, 18⟩) ∧
    Reads (item.Store.read ⟨false, false, false, false, true, true⟩) marksGdef 18 ⟨1, 0, 0, [], []⟩ ∧
    Reads Marks.read marksGdef 26 ⟨1, 1, [8], [.format1 ⟨1, 1, [9]⟩]⟩ ∧
    item.Store.read ⟨false, false, false, false, true, true⟩ marksGdef 26 = .error .eof ∧
    GlyphDefinition.read ⟨false, false, false, false, true, true⟩ marksGdef 0 = .error .eof := by
  decide +kernel

/-! ## C32 -/

/-- The property: a caret the OpenType specification calls well formed is returned. -/
def CaretsAccepted : Prop :=
  ∀ d p c, Fits d → Spec.gdef.IsCaret d p c → Reads Caret.read d p c

/-- What the reader accepts instead: a zero word before the format, the two of them being taken for the format
and the first field. -/
theorem C32_accepted_partial : Faithful Caret.read Spec.gdef.IsCaretTaken := faithful

/-- Every well-formed caret is refused. -/
theorem C32_refused {d : Data} {p : Nat} (hd : Fits d) {c : Caret} (h : Spec.gdef.IsCaret d p c) :
    Refuses (Caret.read d p) := by
  obtain ⟨k, f, hk, h1, h2⟩ : ∃ k f, k ≠ 0 ∧ U16 d p k ∧ U16 d (p + 2) f := by
    cases c with
    | format1 t => exact ⟨_, _, by rw [h.1]; decide, h.2.1, h.2.2.2.2⟩
    | format2 t => exact ⟨_, _, by rw [h.1]; decide, h.2.1, h.2.2⟩
    | format3 t => exact ⟨_, _, by rw [h.1]; decide, h.2.1, h.2.2.1.2.2⟩
  have hu := u32_of h1 h2
  generalize hn : 65536 * k + f = n at hu
  refuses_format Caret.read hd hu

/-- A caret of format 1 at 300. -/
def sampleCaret : Data := bytes [0, 1, 1, 44]

theorem sampleCaret_ok : Spec.gdef.IsCaret sampleCaret 0 (.format1 ⟨1, 300⟩) :=
  ⟨rfl, by decide +kernel, by decide, by decide, by decide +kernel⟩

theorem C32_violated : ¬CaretsAccepted := by
  intro h
  obtain ⟨q, hq⟩ := h sampleCaret 0 _ (by decide +kernel) sampleCaret_ok
  obtain ⟨m, hm⟩ := C32_refused (by decide +kernel) sampleCaret_ok
  rw [hq] at hm
  cases hm

/-- Consequently no ligature with a well-formed caret is accepted. -/
theorem C32_ligature_refused {d : Data} {p : Nat} (hd : Fits d) {t : Ligature}
    (h : Spec.gdef.IsLigature Spec.gdef.IsCaret d p t) (hn : t.carets ≠ []) (v : Ligature) :
    ¬Reads Ligature.read d p v := by
  intro hv
  obtain ⟨h1, h2, h3⟩ := (reads_parses hd).mp hv
  obtain ⟨h4, h5, h6⟩ := h
  have e : v.caret_offsets = t.caret_offsets := by
    have e1 := h1.unique h4
    rw [e1] at h2
    apply List.ext_getElem?
    intro i
    by_cases hi : i < t.caret_count
    · have a := List.getElem?_eq_getElem (l := v.caret_offsets) (i := i) (by have := h2.1; omega)
      have b := List.getElem?_eq_getElem (l := t.caret_offsets) (i := i) (by have := h5.1; omega)
      rw [a, b, (h2.2 i _ a).unique (h5.2 i _ b)]
    · rw [List.getElem?_eq_none (by have := h2.1; omega), List.getElem?_eq_none (by have := h5.1; omega)]
  cases hc : t.carets with
  | nil => exact hn hc
  | cons c cs =>
    have hl := h6.1
    rw [hc, List.length_cons] at hl
    have b := List.getElem?_eq_getElem (l := t.caret_offsets) (i := 0) (by omega)
    have hb := h6.2 0 _ c b (by rw [hc]; rfl)
    have hl' := h3.1
    rw [e] at hl' h3
    have a := List.getElem?_eq_getElem (l := v.carets) (i := 0) (by omega)
    have ha := h3.2 0 _ _ b a
    obtain ⟨q, hq⟩ := (reads_parses (r := Caret.read) hd).mpr ha
    obtain ⟨m, hm⟩ := C32_refused hd hb
    rw [hq] at hm
    cases hm

/-- A ligature with one caret, refused; and what is accepted as a caret instead. -/
example : Ligature.read (bytes [0, 1, 0, 4, 0, 1, 1, 44]) 0 =
      .error (.malformed "found an unknown format of the caret-value table") ∧
    Reads Caret.read (bytes [0, 0, 0, 1]) 0 (.format1 ⟨0, 1⟩) := by decide +kernel

end OpenType.Props
