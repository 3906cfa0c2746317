import Verif.Spec.Counts
/-! # What is stored has the counted lengths -/

namespace OpenType
open Spec

/-- Whatever is stored has the counted lengths. -/
class Counts {α : Type} [Counted α] (S : Nat → α → Prop) : Prop where
  of : ∀ {p t}, S p t → counted t

section
variable {α : Type} [Counted α] {S : Nat → α → Prop} [Counts S] {p k n : Nat} {xs : List α}

theorem counted_array (h : ArrayOf S k p n xs) : counted xs := fun x hx => by
  obtain ⟨i, hi, rfl⟩ := List.getElem_of_mem hx
  exact Counts.of (h.2 i _ (List.getElem?_eq_getElem hi))

theorem counted_offsets {os : List Nat} (h : AtOffsets S p os xs) : counted xs := fun x hx => by
  obtain ⟨i, hi, rfl⟩ := List.getElem_of_mem hx
  exact Counts.of (h.2 i _ _ (List.getElem?_eq_getElem (h.1 ▸ hi)) (List.getElem?_eq_getElem hi))

theorem counted_optional {o : Nat} {x : Option α} (h : Optional S p o x) : counted x := by
  rintro y rfl
  exact Counts.of h.2

theorem counted_optionals {os : List Nat} {ys : List (Option α)} (h : AtOptionalOffsets S p os ys) :
    counted ys := fun x hx => by
  obtain ⟨i, hi, rfl⟩ := List.getElem_of_mem hx
  exact counted_optional
    (h.2 i _ _ (List.getElem?_eq_getElem (h.1 ▸ hi)) (List.getElem?_eq_getElem hi))

end

/-- A property of all elements of an array. -/
theorem Spec.ArrayOf.all {α : Type} {S : Nat → α → Prop} {C : α → Prop} {p k n : Nat} {xs : List α}
    (h : ArrayOf S k p n xs) (hs : ∀ q x, S q x → C x) : ∀ x ∈ xs, C x := fun x hx => by
  obtain ⟨i, hi, rfl⟩ := List.getElem_of_mem hx
  exact hs _ _ (h.2 i _ (List.getElem?_eq_getElem hi))

/-- A property of all elements at offsets. -/
theorem Spec.AtOffsets.all {α : Type} {S : Nat → α → Prop} {C : α → Prop} {p : Nat} {os : List Nat}
    {xs : List α} (h : AtOffsets S p os xs) (hs : ∀ q x, S q x → C x) : ∀ x ∈ xs, C x := fun x hx => by
  obtain ⟨i, hi, rfl⟩ := List.getElem_of_mem hx
  exact hs _ _ (h.2 i _ _ (List.getElem?_eq_getElem (h.1 ▸ hi)) (List.getElem?_eq_getElem hi))

/-- One field. -/
macro "counts_field" : tactic => `(tactic| first
  | exact counted_array ‹_›
  | exact counted_offsets ‹_›
  | exact counted_optional ‹_›
  | exact counted_optionals ‹_›
  | exact Counts.of ‹_›
  | (change _ = _; simp only [ArrayOf, AtOffsets, AtOptionalOffsets, List.length_map] at *; omega)
  | refine And.intro ?_ ?_
  | (have := Counts.of ‹IsCoverage _ _ _›; exact this))

/-- A table. -/
macro "counts" d:ident : tactic => `(tactic| (
  refine ⟨fun {p t} h => ?_⟩
  revert h
  simp only [$d:ident, and_imp]
  intros
  repeat' counts_field))

/-- A choice of tables. -/
macro "counts_choice" d:ident : tactic => `(tactic| (
  refine ⟨fun {p t} h => ?_⟩
  cases t
  all_goals (
    revert h
    simp only [$d:ident, and_imp]
    intros
    rename_i h
    first | trivial | (have := Counts.of h; exact this))))

variable (d : Data) (cfg : Cfg)

section
open OpenType.Spec

instance : Counts (IsCoverage1 d) := by counts IsCoverage1
instance : Counts (IsCoverage2 d) := by counts IsCoverage2
instance : Counts (IsCoverage d) := by counts_choice IsCoverage
instance : Counts (IsClass1 d) := by counts IsClass1
instance : Counts (IsClass2 d) := by counts IsClass2
instance : Counts (IsClass d) := by counts_choice IsClass
instance : Counts (IsRecord d) := by counts IsRecord
instance : Counts (IsRecords d) := by counts IsRecords
instance : Counts (IsContextClassRecord d) := by counts IsContextClassRecord
instance : Counts (IsClassRecords d) := by counts IsClassRecords
instance : Counts (IsChainedRecord d) := by counts IsChainedRecord
instance : Counts (IsChainedRecords d) := by counts IsChainedRecords
instance : Counts (IsChainedClassRecord d) := by counts IsChainedClassRecord
instance : Counts (IsChainedClassRecords d) := by counts IsChainedClassRecords
instance : Counts (IsContext1 d) := by counts IsContext1
instance : Counts (IsContext2 d) := by counts IsContext2
instance : Counts (IsContext3 d) := by counts IsContext3
instance : Counts (IsContext d) := by counts_choice IsContext
instance : Counts (IsChainedContext1 d) := by counts IsChainedContext1
instance : Counts (IsChainedContext2 d) := by counts IsChainedContext2
instance : Counts (IsChainedContext3 d) := by counts IsChainedContext3
instance : Counts (IsChainedContext d) := by counts_choice IsChainedContext
instance : Counts (IsLanguageRecord d) := by counts IsLanguageRecord
instance : Counts (IsScriptRecord d) := by counts IsScriptRecord
instance : Counts (IsScripts d) := by counts IsScripts
instance : Counts (IsFeatureRecord d) := by counts IsFeatureRecord
instance : Counts (IsFeatures d) := by counts IsFeatures

instance {T : Type} [Counted T] (S : Nat → Data → Nat → T → Prop) [∀ n, Counts (S n d)] :
    Counts (IsLookupRecord cfg S d) := by counts IsLookupRecord
instance {T : Type} [Counted T] (S : Nat → Data → Nat → T → Prop) [∀ n, Counts (S n d)] :
    Counts (IsLookups cfg S d) := by counts IsLookups

theorem counted_part {α : Type} [Counted α] {S : Nat → α → Prop} [Counts S] {p o : Nat} {e x : α}
    (he : counted e) (h : IsPart cfg S p o e x) : counted x := by
  unfold IsPart at h
  split at h
  · exact h ▸ he
  · exact Counts.of h

instance {T : Type} [Counted T] (S : Nat → Data → Nat → T → Prop) [∀ n, Counts (S n d)] :
    Counts (IsDirectory cfg S d) := ⟨by
  intro p t h
  obtain ⟨_, _, _, _, _, _, _, _, hs, hf, hl, _⟩ := h
  exact ⟨counted_part cfg ⟨rfl, rfl, fun _ h => absurd h List.not_mem_nil⟩ hs, counted_part cfg ⟨rfl, rfl, fun _ h => absurd h List.not_mem_nil⟩ hf,
    counted_part cfg ⟨rfl, rfl, fun _ h => absurd h List.not_mem_nil⟩ hl⟩⟩

instance : Counts (IsItemRecord cfg d) := by counts IsItemRecord
instance : Counts (IsStore cfg d) := by counts IsStore

end

section
open OpenType.Spec.gsub

instance : Counts (IsAlternates d) := by counts IsAlternates
instance : Counts (IsLigature d) := by counts IsLigature
instance : Counts (IsLigatures d) := by counts IsLigatures
instance : Counts (IsSequence d) := by counts IsSequence
instance : Counts (IsSingle1 d) := by counts IsSingle1
instance : Counts (IsSingle2 d) := by counts IsSingle2
instance : Counts (IsSingle d) := by counts_choice IsSingle
instance : Counts (IsMultiple d) := by counts IsMultiple
instance : Counts (IsAlternate d) := by counts IsAlternate
instance : Counts (IsLigatureSubstitution d) := by counts IsLigatureSubstitution
instance : Counts (IsReverse d) := by counts IsReverse
instance (n : Nat) : Counts (IsTable n d) := by counts_choice IsTable

end

section
open OpenType.Spec.gpos

variable (n a b : Nat)
instance : Counts (IsPair1s a b d) := by counts IsPair1s
instance : Counts (IsBases n d) := by counts IsBases
instance : Counts (IsLigature n d) := by counts IsLigature
instance : Counts (IsLigatures n d) := by counts IsLigatures
instance : Counts (IsMark1s cfg d) := by counts IsMark1s
instance : Counts (IsMark2s n d) := by counts IsMark2s
instance : Counts (IsSingleAdjustment1 cfg d) := by counts IsSingleAdjustment1
instance : Counts (IsSingleAdjustment2 cfg d) := by counts IsSingleAdjustment2
instance : Counts (IsSingleAdjustment cfg d) := by counts_choice IsSingleAdjustment
instance : Counts (IsPairAdjustment1 cfg d) := by counts IsPairAdjustment1
instance : Counts (IsPairAdjustment2 cfg d) := ⟨by
  intro p t h
  obtain ⟨_, _, _, _, _, _, _, _, _, _, hr, h1, h2, h3⟩ := h
  exact ⟨hr.1, hr.all fun _ _ h => h.1, Counts.of h1, Counts.of h2, Counts.of h3⟩⟩
instance : Counts (IsPairAdjustment cfg d) := by counts_choice IsPairAdjustment
instance : Counts (IsCursive d) := by counts IsCursive
instance : Counts (IsMarkToBase cfg d) := ⟨by
  intro p t h
  obtain ⟨_, _, _, _, _, _, _, h1, h2, h3, h4⟩ := h
  exact ⟨Counts.of h1, Counts.of h2, Counts.of h3, Counts.of h4,
    h4.2.all fun _ _ h => ⟨h.1.1, h.2.1.trans h.1.1⟩⟩⟩
instance : Counts (IsMarkToLigature cfg d) := ⟨by
  intro p t h
  obtain ⟨_, _, _, _, _, _, _, h1, h2, h3, h4⟩ := h
  exact ⟨Counts.of h1, Counts.of h2, Counts.of h3, Counts.of h4,
    h4.2.2.all fun _ _ h => h.2.all fun _ _ h => ⟨h.1.1, h.2.1.trans h.1.1⟩⟩⟩
instance : Counts (IsMarkToMark cfg d) := ⟨by
  intro p t h
  obtain ⟨_, _, _, _, _, _, _, h1, h2, h3, h4⟩ := h
  exact ⟨Counts.of h1, Counts.of h2, Counts.of h3, Counts.of h4,
    h4.2.all fun _ _ h => ⟨h.1.1, h.2.1.trans h.1.1⟩⟩⟩
instance : Counts (IsTable cfg n d) := by counts_choice IsTable

end

section
open OpenType.Spec.gdef

instance : Counts (IsAttachment d) := by counts IsAttachment
instance : Counts (IsAttachments d) := by counts IsAttachments
instance (C : Data → Nat → gdef.Caret → Prop) : Counts (IsLigature C d) := by counts IsLigature
instance (C : Data → Nat → gdef.Caret → Prop) : Counts (IsLigatures C d) := by counts IsLigatures
instance : Counts (IsMarks d) := by counts IsMarks
instance : Counts (IsGlyphDefinitionTaken cfg d) := ⟨by
  intro p t h
  obtain ⟨⟨_, h1, h2, h3, h4, h5⟩, h6⟩ := h
  exact ⟨counted_optional h1, counted_optional h2, counted_optional h3, counted_optional h4,
    counted_optional h5, counted_optional h6⟩⟩

instance : Counts (IsColorPalettes d) := ⟨by
  intro p t h
  obtain ⟨header, colors⟩ := t
  cases header
  all_goals (
    obtain ⟨⟨_, _, _, _, _, _, hi⟩, hc⟩ := h
    exact ⟨hi.1, hc.1⟩)⟩

instance : Counts (IsFontVariations cfg d) := ⟨by
  intro p t h
  obtain ⟨_, ha, hi⟩ := h
  exact ⟨ha.1, hi.1, hi.all fun _ _ h => h.2.2.2.1.1⟩⟩

end
end OpenType
