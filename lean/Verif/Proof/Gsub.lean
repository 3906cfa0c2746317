import Verif.Proof.Layout
import Verif.Proof.Lists
import Verif.Spec.Gsub
/-! # The glyph substitution table against its layout -/
namespace OpenType.gsub
open Spec Spec.gsub

instance : Parses Alternates.read IsAlternates where
  reads := by
    intro d p v hd
    layout Alternates.read IsAlternates hd
  bound h := h.1.bound

instance : Parses Ligature.read IsLigature where
  reads := by
    intro d p v hd
    layout Ligature.read IsLigature hd
  bound h := h.1.bound

instance : Parses Ligatures.read IsLigatures where
  reads := by
    intro d p v hd
    layout Ligatures.read IsLigatures hd
  bound h := h.1.bound

instance : Parses Sequence.read IsSequence where
  reads := by
    intro d p v hd
    layout Sequence.read IsSequence hd
  bound h := h.1.bound

instance : Parses SingleSubstitution1.read IsSingle1 where
  reads := by
    intro d p v hd
    layout SingleSubstitution1.read IsSingle1 hd
  bound h := h.1.bound

instance : Parses SingleSubstitution2.read IsSingle2 where
  reads := by
    intro d p v hd
    layout SingleSubstitution2.read IsSingle2 hd
  bound h := h.1.bound

instance : Parses SingleSubstitution.read IsSingle where
  reads := by
    intro d p v hd
    layout_enum SingleSubstitution.read IsSingle hd
  bound {d p v} h := by cases v <;> exact h.2.1.bound

instance : Parses MultipleSubstitution.read IsMultiple where
  reads := by
    intro d p v hd
    layout MultipleSubstitution.read IsMultiple hd
  bound h := h.1.bound

instance : Parses AlternateSubstitution.read IsAlternate where
  reads := by
    intro d p v hd
    layout AlternateSubstitution.read IsAlternate hd
  bound h := h.1.bound

instance : Parses LigatureSubstitution.read IsLigatureSubstitution where
  reads := by
    intro d p v hd
    layout LigatureSubstitution.read IsLigatureSubstitution hd
  bound h := h.1.bound

instance : Parses ExtensionSubstitution.read IsExtension where
  reads := by
    intro d p v hd
    layout ExtensionSubstitution.read IsExtension hd
  bound h := h.1.bound

instance : Parses ReverseChainedContextualSubstibution.read IsReverse where
  reads := by
    intro d p v hd
    layout ReverseChainedContextualSubstibution.read IsReverse hd
  bound h := h.1.bound

instance {type_ : Nat} : Parses (Type_.read type_) (IsTable type_) where
  reads := by
    intro d p v hd
    unfold Type_.read
    constructor
    · intro h
      split at h <;> reads_simp hd at h <;> first
        | exact h.elim
        | (obtain ⟨t, ht, rfl⟩ := h; exact ⟨rfl, ht⟩)
    · intro h
      cases v <;>
        (obtain ⟨rfl, h⟩ := h
         reads_simp hd
         exact ⟨_, h, rfl⟩)
  bound {d p v} h := by
    cases v <;> first
      | exact Parses.bound (r := SingleSubstitution.read) h.2
      | exact Parses.bound (r := context.Context.read) h.2
      | exact Parses.bound (r := context.ChainedContext.read) h.2
      | exact h.2.1.bound

instance {cfg : Cfg} : Parses (GlyphSubstitution.read cfg) (IsGlyphSubstitution cfg) :=
  inferInstanceAs (Parses (directory.Directory.read cfg Type_.read) (IsDirectory cfg IsTable))

end OpenType.gsub
