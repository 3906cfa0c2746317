import Verif.Proof.EncodeLayout
/-! # Bytes written and fields stored: the lists and the directory -/

namespace OpenType
open Spec script feature lookup directory

instance : WrittenFlat IsLanguageHeader valid 6 where
  iff := by intros; written [IsLanguageHeader] [instEncodeHeader, instValidHeader]
  size := by sized [instEncodeHeader]

instance : Written IsLanguageRecord valid where
  iff := by intros; written [IsLanguageRecord] [instEncodeRecord_3, instValidRecord_3]

instance : WrittenFlat IsScriptHeader valid 6 where
  iff := by intros; written [IsScriptHeader] [instEncodeHeader_1, instValidHeader_1]
  size := by sized [instEncodeHeader_1]

instance : Written IsScriptRecord valid where
  iff := by intros; written [IsScriptRecord] [instEncodeRecord_4, instValidRecord_4]

instance : Written IsScripts valid where
  iff := by intros; written [IsScripts] [instEncodeScripts, instValidScripts]

instance : WrittenFlat IsFeatureHeader valid 6 where
  iff := by intros; written [IsFeatureHeader] [instEncodeHeader_2, instValidHeader_2]
  size := by sized [instEncodeHeader_2]

instance : Written IsFeatureRecord valid where
  iff := by intros; written [IsFeatureRecord] [instEncodeRecord_5, instValidRecord_5]

instance : Written IsVariations valid where
  iff := by intros; written [IsVariations] [instEncodeVariations, instValidVariations]

instance : Written IsFeatures valid where
  iff := by intros; written [IsFeatures] [instEncodeFeatures, instValidFeatures]

section
variable {T : Type} [Encode T] {cfg : Cfg} {isTable : Nat → Data → Nat → T → Prop}
  {V : Nat → T → Prop}

instance [∀ n, Written (isTable n) (V n)] :
    Written (IsLookupRecord cfg isTable) (validLookup cfg V) where
  iff := by
    rintro d p ⟨type_, flags, count, os, m, ts⟩
    cases m <;>
      written [IsLookupRecord, validLookup, IsMarkFilteringSet] [instEncodeRecord_6]

instance [∀ n, Written (isTable n) (V n)] :
    Written (IsLookups cfg isTable) (validLookups cfg V) where
  iff := by intros; written [IsLookups, validLookups] [instEncodeLookups]

theorem at_part {α : Type} [Encode α] {S : Data → Nat → α → Prop} {V : α → Prop} [h : Written S V]
    {d : Data} {p o : Nat} {e x : α} :
    IsPart cfg (S d) p o e x ↔ validPart cfg V o e x ∧ Holds d p (placedPart cfg o x) := by
  unfold IsPart validPart placedPart
  split
  · simp [holds_nil]
  · simp [holds_placed, h.iff]

theorem at_directory [∀ n, Written (isTable n) (V n)] {d : Data} {p : Nat} {t : Directory T} :
    IsDirectory cfg isTable d p t ↔
      validDirectory cfg V t ∧ Holds d p (directoryEncoding cfg t) := by
  unfold IsDirectory validDirectory directoryEncoding directoryBytes
  by_cases h : t.minor_version = 1 <;>
  · simp only [h, if_true, if_false, at16, at32, at_part, at_optional, holds_cons, holds_append,
      valid_option, stored_append, List.length_append, enc16_length, stored_nil,
      Nat.add_zero]
    grind
end

end OpenType
