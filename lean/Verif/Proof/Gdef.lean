import Verif.Proof.Layout
import Verif.Proof.Item
import Verif.Spec.Gdef
/-! # The glyph definition table against its layout -/
namespace OpenType.gdef
open Spec Spec.gdef

instance : Parses Attachment.read IsAttachment where
  reads := by
    intro d p v hd
    layout Attachment.read IsAttachment hd
  bound h := h.1.bound

instance : Parses Attachments.read IsAttachments where
  reads := by
    intro d p v hd
    layout Attachments.read IsAttachments hd
  bound h := h.1.bound

instance : Parses Caret1.read IsCaret1 where
  reads := by
    intro d p v hd
    layout Caret1.read IsCaret1 hd
  bound h := h.1.bound

instance : Parses Caret2.read IsCaret2 where
  reads := by
    intro d p v hd
    layout Caret2.read IsCaret2 hd
  bound h := h.1.bound

instance : Parses Caret3.read IsCaret3 where
  reads := by
    intro d p v hd
    layout Caret3.read IsCaret3 hd
  bound h := h.1.bound

instance : Parses Caret.read IsCaretTaken where
  reads := by
    intro d p v hd
    unfold Caret.read
    rw [reads_bind_peek hd]
    constructor
    · rintro ⟨n, hn, h⟩
      split at h <;> reads_simp hd at h <;> first
        | exact h.elim
        | (obtain ⟨t, ht, rfl⟩ := h; exact ⟨hn, ht⟩)
    · intro h
      cases v <;>
        (refine ⟨_, h.1, ?_⟩
         reads_simp hd
         exact ⟨_, h.2, rfl⟩)
  bound {d p v} h := by cases v <;> exact h.1.bound

instance : Parses Ligature.read (IsLigature IsCaretTaken) where
  reads := by
    intro d p v hd
    layout Ligature.read IsLigature hd
  bound h := h.1.bound

instance : Parses Ligatures.read (IsLigatures IsCaretTaken) where
  reads := by
    intro d p v hd
    layout Ligatures.read IsLigatures hd
  bound h := h.1.bound

instance : Parses Marks.read IsMarks where
  reads := by
    intro d p v hd
    layout Marks.read IsMarks hd
  bound h := h.1.bound

instance : Parses Header1.read IsHeader1 where
  reads := by
    intro d p v hd
    layout Header1.read IsHeader1 hd
  bound h := h.1.bound

instance : Parses Header12.read IsHeader12 where
  reads := by
    intro d p v hd
    layout Header12.read IsHeader12 hd
  bound h := h.1.bound

instance : Parses Header13.read IsHeader13 where
  reads := by
    intro d p v hd
    layout Header13.read IsHeader13 hd
  bound h := h.1.bound

theorem u32_of {d : Data} {p a b : Nat} (h : U16 d p a) (h' : U16 d (p + 2) b) :
    U32 d p (65536 * a + b) := ⟨a, b, h, h', rfl⟩

instance : Parses Header.read IsHeader where
  reads := by
    intro d p v hd
    unfold Header.read
    rw [reads_bind_peek hd]
    constructor
    · rintro ⟨n, hn, h⟩
      split at h <;> reads_simp hd at h <;> first
        | exact h.elim
        | (obtain ⟨t, ht, rfl⟩ := h; exact ht)
    · intro h
      cases v with
      | version1 t =>
        have h : IsHeader1 d p t := h
        have h' := u32_of h.1 h.2.2.1
        rw [h.2.1, h.2.2.2.1] at h'
        refine ⟨_, h', ?_⟩
        reads_simp hd
        exact ⟨_, h, rfl⟩
      | version12 t =>
        have h : IsHeader12 d p t := h
        have h' := u32_of h.1 h.2.2.1
        rw [h.2.1, h.2.2.2.1] at h'
        refine ⟨_, h', ?_⟩
        reads_simp hd
        exact ⟨_, h, rfl⟩
      | version13 t =>
        have h : IsHeader13 d p t := h
        have h' := u32_of h.1 h.2.2.1
        rw [h.2.1, h.2.2.2.1] at h'
        refine ⟨_, h', ?_⟩
        reads_simp hd
        exact ⟨_, h, rfl⟩
  bound {d p v} h := by cases v <;> exact h.1.bound

instance {cfg : Cfg} : Parses (GlyphDefinition.read cfg) (IsGlyphDefinitionTaken cfg) where
  reads := by
    intro d p v hd
    unfold GlyphDefinition.read IsGlyphDefinitionTaken IsGlyphDefinitionBut
    reads_simp hd
    have e1 (h : Header) : h.glyph_class_offset = (offsets h).1 := by cases h <;> rfl
    have e2 (h : Header) : h.attachment_offset = (offsets h).2.1 := by cases h <;> rfl
    have e3 (h : Header) : h.ligature_offset = (offsets h).2.2.1 := by cases h <;> rfl
    have e4 (h : Header) : h.mark_class_offset = (offsets h).2.2.2.1 := by cases h <;> rfl
    have e5 (h : Header) : h.mark_offset = (offsets h).2.2.2.2.1 := by cases h <;> rfl
    have e6 (h : Header) : h.variations_offset = storeOffsetTaken h := by cases h <;> rfl
    simp only [e1, e2, e3, e4, e5, e6]
    constructor
    · rintro ⟨h, hh, a, ha, b, hb, c, hc, e, he, f, hf, g, hg, rfl⟩
      exact ⟨⟨hh, ha, hb, hc, he, hf⟩, hg⟩
    · rintro ⟨⟨hh, ha, hb, hc, he, hf⟩, hg⟩
      exact ⟨_, hh, _, ha, _, hb, _, hc, _, he, _, hf, _, hg, rfl⟩
  bound h := Parses.bound (r := Header.read) h.1.1

end OpenType.gdef
