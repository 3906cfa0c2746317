import Verif.Proof.EncodeTables
import Verif.Spec.EncodeTaken
/-! # Bytes written and fields stored: the glyph definition as the code takes it -/

namespace OpenType
open Spec OpenType.gdef Spec.gdef

theorem at_caret_format {d : Data} {p a b n : Nat} (ha : U16 d p a) (hb : U16 d (p + 2) b) :
    U32 d p n ↔ n = 65536 * a + b := by
  constructor
  · rintro ⟨a', b', ha', hb', rfl⟩
    rw [U16.unique ha ha', U16.unique hb hb']
  · rintro rfl
    exact ⟨a, b, ha, hb, rfl⟩

instance : Written IsCaretTaken validCaretTaken where
  iff := by
    rintro d p (t | t | t)
    · have h : IsCaretTaken d p (.format1 t) ↔ (t.format = 0 ∧ t.coordinate = 1) ∧ IsCaret1 d p t := by
        simp only [IsCaretTaken, IsCaret1, I16]
        refine ⟨fun ⟨h1, h2, h3, h4⟩ => ⟨?_, h2, h3, h4⟩, fun ⟨h1, h2, h3, h4⟩ => ⟨?_, h2, h3, h4⟩⟩
        · rw [at_caret_format h2 h4.2] at h1; omega
        · rw [at_caret_format h2 h4.2]; omega
      rw [h]
      written [IsCaret1, validCaretTaken, InI16] [instEncodeCaret, instEncodeCaret1]
    · have h : IsCaretTaken d p (.format2 t) ↔ (t.format = 0 ∧ t.index = 2) ∧ IsCaret2 d p t := by
        simp only [IsCaretTaken, IsCaret2]
        refine ⟨fun ⟨h1, h2, h3⟩ => ⟨?_, h2, h3⟩, fun ⟨h1, h2, h3⟩ => ⟨?_, h2, h3⟩⟩
        · rw [at_caret_format h2 h3] at h1
          have := h3.lt
          omega
        · rw [at_caret_format h2 h3]; omega
      rw [h]
      written [IsCaret2, validCaretTaken] [instEncodeCaret, instEncodeCaret2]
    · have h : IsCaretTaken d p (.format3 t) ↔ (t.format = 0 ∧ t.coordinate = 3) ∧ IsCaret3 d p t := by
        simp only [IsCaretTaken, IsCaret3, I16]
        refine ⟨fun ⟨h1, h2, h3, h4⟩ => ⟨?_, h2, h3, h4⟩, fun ⟨h1, h2, h3, h4⟩ => ⟨?_, h2, h3, h4⟩⟩
        · rw [at_caret_format h2 h3.2.2] at h1; omega
        · rw [at_caret_format h2 h3.2.2]; omega
      rw [h]
      written [IsCaret3, validCaretTaken, InI16] [instEncodeCaret, instEncodeCaret3]

instance : Written (gdef.IsLigature IsCaretTaken) validLigatureTaken where
  iff := by intros; written [gdef.IsLigature, validLigatureTaken] [instEncodeLigature_2]

instance : Written (gdef.IsLigatures IsCaretTaken) validLigaturesTaken where
  iff := by intros; written [gdef.IsLigatures, validLigaturesTaken] [instEncodeLigatures_2]

theorem at_gdef_taken {cfg : Cfg} {d : Data} {p : Nat} {t : GlyphDefinition} :
    IsGlyphDefinitionTaken cfg d p t ↔
      validGlyphDefinitionTaken cfg t ∧ Holds d p (gdefEncodingTaken t) := by
  have e : parts t.header = [] := by cases t.header <;> rfl
  have e' : storeOffsetTaken t.header = storePlace t.header := by cases t.header <;> rfl
  unfold IsGlyphDefinitionTaken IsGlyphDefinitionBut validGlyphDefinitionTaken gdefEncodingTaken
  simp only [e, e', at_table, at_optional, holds_cons, holds_append, holds_nil, valid_option, and_true,
    Nat.add_zero]
  grind

end OpenType
