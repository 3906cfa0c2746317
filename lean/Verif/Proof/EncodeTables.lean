import Verif.Proof.EncodeLists
/-! # Bytes written and fields stored: the substitution, positioning, palette, variation and definition
tables -/

namespace OpenType
open Spec context

section
open OpenType.gsub Spec.gsub

instance : Written IsAlternates valid where
  iff := by intros; written [IsAlternates] [instEncodeAlternates, instValidAlternates]

instance : Written gsub.IsLigature valid where
  iff := by intros; written [gsub.IsLigature] [instEncodeLigature, instValidLigature]

instance : Written gsub.IsLigatures valid where
  iff := by intros; written [gsub.IsLigatures] [instEncodeLigatures, instValidLigatures]

instance : Written IsSequence valid where
  iff := by intros; written [IsSequence] [instEncodeSequence, instValidSequence]

instance : Written IsSingle1 valid where
  iff := by intros; written [IsSingle1] [instEncodeSingleSubstitution1, instValidSingleSubstitution1]

instance : Written IsSingle2 valid where
  iff := by intros; written [IsSingle2] [instEncodeSingleSubstitution2, instValidSingleSubstitution2]

instance : Written gsub.IsSingle valid where
  iff := by
    rintro d p (t | t) <;>
      written [gsub.IsSingle] [instEncodeSingleSubstitution, instValidSingleSubstitution]

instance : Written IsMultiple valid where
  iff := by
    intros; written [IsMultiple] [instEncodeMultipleSubstitution, instValidMultipleSubstitution]

instance : Written IsAlternate valid where
  iff := by
    intros; written [IsAlternate] [instEncodeAlternateSubstitution, instValidAlternateSubstitution]

instance : Written IsLigatureSubstitution valid where
  iff := by
    intros
    written [IsLigatureSubstitution] [instEncodeLigatureSubstitution, instValidLigatureSubstitution]

instance : Written gsub.IsExtension valid where
  iff := by
    intros
    written [gsub.IsExtension] [instEncodeExtensionSubstitution, instValidExtensionSubstitution]

instance : Written IsReverse valid where
  iff := by
    intros
    written [IsReverse] [instEncodeReverseChainedContextualSubstibution,
      instValidReverseChainedContextualSubstibution]

instance (n : Nat) : Written (gsub.IsTable n) (gsub.validTable n) where
  iff := by
    rintro d p (t | t | t | t | t | t | t | t) <;>
      written [gsub.IsTable, gsub.validTable] [instEncodeType_]

end

section
open OpenType.gpos Spec.gpos

instance : Written IsAnchor1 valid where
  iff := by intros; written [IsAnchor1] [instEncodeAnchor1, instValidAnchor1]

instance : Written IsAnchor2 valid where
  iff := by intros; written [IsAnchor2] [instEncodeAnchor2, instValidAnchor2]

instance : Written IsAnchor3 valid where
  iff := by intros; written [IsAnchor3] [instEncodeAnchor3, instValidAnchor3]

instance : Written IsAnchor valid where
  iff := by rintro d p (t | t | t) <;> written [IsAnchor] [instEncodeAnchor, instValidAnchor]

theorem at_field16 {d : Data} {p flags k : Nat} {x : Option Nat} :
    IsField (U16 d) flags p k x ↔
      validField flags k (· < 65536) x ∧ Stored d (p + 2 * bitsBelow flags k) (field16 x) := by
  cases x <;> simp [IsField, validField, field16, stored_nil, at16, and_assoc]

theorem at_fieldI16 {d : Data} {p flags k : Nat} {x : Option Int} :
    IsField (I16 d) flags p k x ↔
      validField flags k InI16 x ∧ Stored d (p + 2 * bitsBelow flags k) (fieldI16 x) := by
  cases x <;> simp [IsField, validField, fieldI16, stored_nil, atI16, and_assoc]

theorem field16_length {flags k : Nat} {P : Nat → Prop} {x : Option Nat}
    (h : validField flags k P x) :
    (field16 x).length = 2 * if flags.testBit k = true then 1 else 0 := by
  cases x <;> simp_all [validField, field16, enc16_length]

theorem fieldI16_length {flags k : Nat} {P : Int → Prop} {x : Option Int}
    (h : validField flags k P x) :
    (fieldI16 x).length = 2 * if flags.testBit k = true then 1 else 0 := by
  cases x <;> simp_all [validField, fieldI16, encI16_length]

theorem at_correction {d : Data} {p : Nat} {o : Option Nat} {x : Option correction.Correction} :
    IsCorrectionOf d p o x ↔ validCorrection o x ∧ Holds d p (placedField o x) := by
  cases o with
  | none => simp [IsCorrectionOf, validCorrection, placedField, holds_nil]
  | some o =>
    simp only [IsCorrectionOf, validCorrection, placedField, at_optional, valid_option, and_assoc]

instance (flags : Nat) :
    WrittenIn (fun base => gpos.IsSingle base flags) (validSingle flags) (valueSize flags) where
  iff := by
    intro base d p t
    delta instEncodeSingle
    dsimp only
    simp only [gpos.IsSingle, validSingle, at_field16, at_fieldI16, at_correction, stored_append,
      holds_append, List.length_append]
    constructor
    · rintro ⟨⟨h0, s0⟩, ⟨h1, s1⟩, ⟨h2, s2⟩, ⟨h3, s3⟩, ⟨h4, s4⟩, ⟨h5, s5⟩, ⟨h6, s6⟩, ⟨h7, s7⟩,
        ⟨c0, k0⟩, ⟨c1, k1⟩, ⟨c2, k2⟩, ⟨c3, k3⟩⟩
      refine ⟨⟨h0, h1, h2, h3, h4, h5, h6, h7, c0, c1, c2, c3⟩, ?_, ⟨⟨k0, k1⟩, k2⟩, k3⟩
      simp only [fieldI16_length h0, fieldI16_length h1, fieldI16_length h2, fieldI16_length h3,
        field16_length h4, field16_length h5, field16_length h6]
      simp only [bitsBelow, Nat.mul_add, Nat.mul_zero, Nat.zero_add, Nat.add_zero] at *
      exact ⟨⟨⟨⟨⟨⟨⟨s0, s1⟩, s2⟩, s3⟩, s4⟩, s5⟩, s6⟩, s7⟩
    · rintro ⟨⟨h0, h1, h2, h3, h4, h5, h6, h7, c0, c1, c2, c3⟩, s, ⟨⟨k0, k1⟩, k2⟩, k3⟩
      simp only [fieldI16_length h0, fieldI16_length h1, fieldI16_length h2, fieldI16_length h3,
        field16_length h4, field16_length h5, field16_length h6] at s
      obtain ⟨⟨⟨⟨⟨⟨⟨s0, s1⟩, s2⟩, s3⟩, s4⟩, s5⟩, s6⟩, s7⟩ := s
      simp only [bitsBelow, Nat.mul_add, Nat.mul_zero, Nat.zero_add, Nat.add_zero]
      exact ⟨⟨h0, s0⟩, ⟨h1, s1⟩, ⟨h2, s2⟩, ⟨h3, s3⟩, ⟨h4, s4⟩, ⟨h5, s5⟩, ⟨h6, s6⟩, ⟨h7, s7⟩,
        ⟨c0, k0⟩, ⟨c1, k1⟩, ⟨c2, k2⟩, ⟨c3, k3⟩⟩
  size := by
    rintro t ⟨h0, h1, h2, h3, h4, h5, h6, h7, -⟩
    delta instEncodeSingle
    dsimp only
    simp only [List.length_append, fieldI16_length h0, fieldI16_length h1, fieldI16_length h2,
      fieldI16_length h3, field16_length h4, field16_length h5, field16_length h6, field16_length h7,
      valueSize, bitsBelow, Nat.mul_add, Nat.zero_add]

theorem at_single {base d p flags} {t : Single} :
    gpos.IsSingle base flags d p t ↔
      validSingle flags t ∧ Stored d p (bytes t) ∧ Holds d base (parts t) :=
  WrittenIn.iff (S := fun base => gpos.IsSingle base flags)

theorem bitsBelow_zero (k : Nat) : bitsBelow 0 k = 0 := by
  induction k <;> simp_all [bitsBelow]

theorem at_value {base d p flags} {t : Option Single} :
    IsValue base flags d p t ↔
      validValue flags t ∧ Stored d p (bytes t) ∧ Holds d base (parts t) := by
  cases t with
  | none => delta instEncodeOptionSingle; simp [IsValue, validValue, stored_nil, holds_nil]
  | some t =>
    delta instEncodeOptionSingle
    simp [IsValue, validValue, at_single, and_assoc]

theorem value_length {flags} {t : Option Single} (h : validValue flags t) :
    (bytes t).length = valueSize flags := by
  cases t with
  | none => cases h; delta instEncodeOptionSingle; simp [valueSize, bitsBelow_zero]
  | some t =>
    exact WrittenIn.size (S := fun base => gpos.IsSingle base flags) h.2

instance (f1 f2 : Nat) : WrittenIn (fun base => IsPair1 base f1 f2) (validPair1 f1 f2)
    (2 + valueSize f1 + valueSize f2) where
  iff := by
    intro base d p t
    have h1 : validValue f1 t.value1 → _ := value_length
    written [IsPair1, validPair1, at_value] [instEncodePair1]
  size := by
    rintro t ⟨_, h1, h2⟩
    delta instEncodePair1
    simp only [List.length_append, value_length h1, value_length h2, enc16_length]

instance (f1 f2 : Nat) : Written (IsPair1s f1 f2) (validPair1s f1 f2) where
  iff := by
    intros
    written [IsPair1s, validPair1s, at_items (S := fun base => IsPair1 base f1 f2)] [instEncodePair1s]

instance (f1 f2 : Nat) : WrittenIn (fun base => IsPair2 base f1 f2) (validPair2 f1 f2)
    (valueSize f1 + valueSize f2) where
  iff := by
    intro base d p t
    have h1 : validValue f1 t.value1 → _ := value_length
    written [IsPair2, validPair2, at_value] [instEncodePair2]
  size := by
    rintro t ⟨h1, h2⟩
    delta instEncodePair2
    simp only [List.length_append, value_length h1, value_length h2]

instance (n f1 f2 : Nat) : WrittenIn (fun base => IsPair2s base n f1 f2) (validPair2s n f1 f2)
    ((valueSize f1 + valueSize f2) * n) where
  iff := by
    intros
    written [IsPair2s, validPair2s, at_items (S := fun base => IsPair2 base f1 f2)] [instEncodePair2s]
  size := by
    rintro t ⟨h1, h2⟩
    rw [← h1]
    exact bytesAll_length (S := fun base => IsPair2 base f1 f2) inferInstance h2

instance (n : Nat) : WrittenIn (fun base => IsBase base n) (validBase n) (2 * n) where
  iff := by intros; written [IsBase, validBase] [instEncodeBase]
  size := by
    rintro t ⟨h, -⟩
    rw [← h]
    exact enc16s_length _

instance (n : Nat) : Written (IsBases n) (validBases n) where
  iff := by
    intros; written [IsBases, validBases, at_items (S := fun base => IsBase base n)] [instEncodeBases]

instance (n : Nat) : WrittenIn (fun base => IsComponent base n) (validComponent n) (2 * n) where
  iff := by intros; written [IsComponent, validComponent] [instEncodeComponent]
  size := by
    rintro t ⟨h, -⟩
    rw [← h]
    exact enc16s_length _

instance : WrittenIn IsConnection valid 4 where
  iff := by intros; written [IsConnection] [instEncodeConnection, instValidConnection]
  size := by sized [instEncodeConnection]

instance (n : Nat) : Written (gpos.IsLigature n) (validLigature n) where
  iff := by
    intros
    written [gpos.IsLigature, validLigature, at_items (S := fun base => IsComponent base n)]
      [instEncodeLigature_1]

instance (n : Nat) : Written (gpos.IsLigatures n) (validLigatures n) where
  iff := by intros; written [gpos.IsLigatures, validLigatures] [instEncodeLigatures_1]

instance (cfg : Cfg) : WrittenIn (IsMark1 cfg) (validMark1 cfg) 4 where
  iff := by
    intro base d p t
    have h : valid t.anchor → t.anchor ≠ .format1 ⟨0, 0, 0⟩ := by
      intro h e
      rw [e] at h
      exact absurd h.1 (by decide)
    delta instEncodeMark1
    dsimp only
    simp only [IsMark1, validMark1, IsMarkAnchor]
    split <;> split <;>
    · simp only [at16, at_table, stored_append, holds_nil, holds_placed, enc16_length]
      grind
  size := by sized [instEncodeMark1]

instance (cfg : Cfg) : Written (IsMark1s cfg) (validMark1s cfg) where
  iff := by
    intros; written [IsMark1s, validMark1s, at_items (S := IsMark1 cfg)] [instEncodeMark1s]

instance (n : Nat) : WrittenIn (fun base => IsMark2 base n) (validMark2 n) (2 * n) where
  iff := by intros; written [IsMark2, validMark2] [instEncodeMark2]
  size := by
    rintro t ⟨h, -⟩
    rw [← h]
    exact enc16s_length _

instance (n : Nat) : Written (IsMark2s n) (validMark2s n) where
  iff := by
    intros; written [IsMark2s, validMark2s, at_items (S := fun base => IsMark2 base n)] [instEncodeMark2s]

instance (cfg : Cfg) : Written (IsSingleAdjustment1 cfg) (validSingleAdjustment1 cfg) where
  iff := by
    intros
    written [IsSingleAdjustment1, validSingleAdjustment1, at_single] [instEncodeSingleAdjustment1]

instance (cfg : Cfg) : Written (IsSingleAdjustment2 cfg) (validSingleAdjustment2 cfg) where
  iff := by
    intro d p t
    written [IsSingleAdjustment2, validSingleAdjustment2,
      at_items (S := fun base => gpos.IsSingle base t.value_flags)] [instEncodeSingleAdjustment2]

instance (cfg : Cfg) : Written (IsSingleAdjustment cfg) (validSingleAdjustment cfg) where
  iff := by
    rintro d p (t | t) <;>
      written [IsSingleAdjustment, validSingleAdjustment] [instEncodeSingleAdjustment]

instance (cfg : Cfg) : Written (IsPairAdjustment1 cfg) (validPairAdjustment1 cfg) where
  iff := by
    intros
    written [IsPairAdjustment1, validPairAdjustment1] [instEncodePairAdjustment1]

instance (cfg : Cfg) : Written (IsPairAdjustment2 cfg) (validPairAdjustment2 cfg) where
  iff := by
    intro d p t
    written [IsPairAdjustment2, validPairAdjustment2,
      at_items (S := fun base => IsPair2s base t.class2_count t.value1_flags t.value2_flags)]
      [instEncodePairAdjustment2]

instance (cfg : Cfg) : Written (IsPairAdjustment cfg) (validPairAdjustment cfg) where
  iff := by
    rintro d p (t | t) <;> written [IsPairAdjustment, validPairAdjustment] [instEncodePairAdjustment]

instance : Written IsCursive valid where
  iff := by
    intros
    written [IsCursive, at_items (S := IsConnection)]
      [instEncodeCursiveAttachment, instValidCursiveAttachment]

instance (cfg : Cfg) : Written (IsMarkToBase cfg) (validMarkToBase cfg) where
  iff := by intros; written [IsMarkToBase, validMarkToBase] [instEncodeMarkToBaseAttachment]

instance (cfg : Cfg) : Written (IsMarkToLigature cfg) (validMarkToLigature cfg) where
  iff := by
    intros; written [IsMarkToLigature, validMarkToLigature] [instEncodeMarkToLigatureAttachment]

instance (cfg : Cfg) : Written (IsMarkToMark cfg) (validMarkToMark cfg) where
  iff := by intros; written [IsMarkToMark, validMarkToMark] [instEncodeMarkToMarkAttachment]

instance : Written gpos.IsExtension valid where
  iff := by
    intros
    written [gpos.IsExtension] [instEncodeExtensionPositioning, instValidExtensionPositioning]

instance (cfg : Cfg) (n : Nat) : Written (gpos.IsTable cfg n) (gpos.validTable cfg n) where
  iff := by
    rintro d p (t | t | t | t | t | t | t | t | t) <;>
      written [gpos.IsTable, gpos.validTable] [instEncodeType__1]

end

section
open OpenType.cpal

instance : WrittenFlat IsColor valid 4 where
  iff := by intros; written [IsColor] [instEncodeColor, instValidColor]
  size := by sized [instEncodeColor]

instance : Written IsCpalHeader0 valid where
  iff := by intros; written [IsCpalHeader0] [instEncodeHeader0, instValidHeader0]

instance : Written IsCpalHeader1 valid where
  iff := by intros; written [IsCpalHeader1] [instEncodeHeader1, instValidHeader1]

instance : Written IsColorPalettes valid where
  iff := by
    rintro d p ⟨(h | h), cs⟩
    · have e : parts h = [] := rfl
      written [IsColorPalettes, IsCpalHeader, holds_cons, e]
        [instEncodeColorPalettes, instValidColorPalettes]
    · have e : parts h = [] := rfl
      written [IsColorPalettes, IsCpalHeader, holds_cons, e]
        [instEncodeColorPalettes, instValidColorPalettes]

end

section
open OpenType.fvar

instance (cfg : Cfg) : Written (IsAxis cfg) (validAxis cfg) where
  iff := by intros; written [IsAxis, validAxis] [instEncodeAxisRecord]

theorem coordinates_length (xs : List Int) : (xs.flatMap encI32).length = 4 * xs.length :=
  flatMap_length fun _ _ => rfl

instance (cfg : Cfg) (n : Nat) : Written (IsInstance cfg n) (validInstance cfg n) where
  iff := by
    intros; written [IsInstance, validInstance, coordinates_length] [instEncodeInstanceRecord]

theorem at_every {α : Type} [Encode α] {S : Data → Nat → α → Prop} {V : α → Prop} [h : Written S V]
    {d : Data} {p o stride n : Nat} {xs : List α} :
    ArrayOf (S d) stride (p + o) n xs ↔
      xs.length = n ∧ (∀ x ∈ xs, V x) ∧ Holds d p (placedEvery o stride xs) := by
  unfold ArrayOf
  refine and_congr_right fun hl => ?_
  rw [placedEvery, holds_flatMap]
  simp only [h.iff, holds_placed, Prod.forall, List.mem_zipIdx_iff_getElem?, Nat.add_assoc]
  constructor
  · intro hx
    refine ⟨fun x hm => ?_, fun x i hi => (hx i x hi).2⟩
    obtain ⟨i, hi⟩ := List.mem_iff_getElem?.mp hm
    exact (hx i x hi).1
  · rintro ⟨h1, h2⟩ i x hi
    exact ⟨h1 x (List.mem_of_getElem? hi), h2 x i hi⟩

instance (cfg : Cfg) : Written (IsFontVariations cfg) (validFontVariations cfg) where
  iff := by
    intros
    written [IsFontVariations, validFontVariations, IsFvarHeader, at_every, Nat.add_assoc]
      [instEncodeFontVariations]

end

section
open OpenType.gdef Spec.gdef

instance : Written IsAttachment valid where
  iff := by intros; written [IsAttachment] [instEncodeAttachment, instValidAttachment]

instance : Written IsAttachments valid where
  iff := by intros; written [IsAttachments] [instEncodeAttachments, instValidAttachments]

instance : Written IsCaret1 valid where
  iff := by intros; written [IsCaret1] [instEncodeCaret1, instValidCaret1]

instance : Written IsCaret2 valid where
  iff := by intros; written [IsCaret2] [instEncodeCaret2, instValidCaret2]

instance : Written IsCaret3 valid where
  iff := by intros; written [IsCaret3] [instEncodeCaret3, instValidCaret3]

instance : Written IsCaret valid where
  iff := by rintro d p (t | t | t) <;> written [IsCaret] [instEncodeCaret, instValidCaret]

instance : Written (gdef.IsLigature IsCaret) valid where
  iff := by intros; written [gdef.IsLigature] [instEncodeLigature_2, instValidLigature_1]

instance : Written (gdef.IsLigatures IsCaret) valid where
  iff := by intros; written [gdef.IsLigatures] [instEncodeLigatures_2, instValidLigatures_1]

instance : Written IsMarks valid where
  iff := by intros; written [IsMarks] [instEncodeMarks, instValidMarks]

instance (cfg : Cfg) : Written (IsItemRecord cfg) (validItemRecord cfg) where
  iff := by
    intros; written [IsItemRecord, validItemRecord, deltasPerItem] [instEncodeRecord_7]

instance (cfg : Cfg) : Written (IsStore cfg) (validStore cfg) where
  iff := by intros; written [IsStore, validStore] [instEncodeStore]

instance : Written IsHeader valid where
  iff := by
    rintro d p (t | t | t) <;>
      written [IsHeader, IsHeader1, IsHeader12, IsHeader13] [instEncodeHeader_3, instValidHeader_3]

instance (cfg : Cfg) : Written (IsGlyphDefinition cfg) (validGlyphDefinition cfg) where
  iff := by
    intro d p t
    have e : parts t.header = [] := by cases t.header <;> rfl
    written [IsGlyphDefinition, IsGlyphDefinitionBut, validGlyphDefinition, e]
      [instEncodeGlyphDefinition]

end
end OpenType
