import Verif.Spec.Bounds
/-! # What is stored has vectors no longer than the file -/

namespace OpenType
open Spec

/-- Whatever is stored has at least its first byte in the file. -/
class Occupies {α : Type} (d : outParam Data) (S : Nat → α → Prop) : Prop where
  of : ∀ {p t}, S p t → p < d.length

/-- Whatever is stored has no vector longer than the file. -/
class Bounds {α : Type} [Bounded α] (d : outParam Data) (S : Nat → α → Prop) : Prop where
  of : ∀ {p t}, S p t → within d.length t

section
variable {d : Data} {p n : Nat}

theorem Spec.U8.start_lt (h : U8 d p n) : p < d.length := by
  obtain ⟨a, h, -⟩ := h
  exact (List.getElem?_eq_some_iff.mp h).1

theorem Spec.U16.start_lt (h : U16 d p n) : p < d.length := by
  obtain ⟨a, b, h, -, -⟩ := h
  exact h.start_lt

theorem Spec.U32.start_lt (h : U32 d p n) : p < d.length := by
  obtain ⟨a, b, h, -, -⟩ := h
  exact h.start_lt

end

instance (d : Data) : Occupies d (U8 d) := ⟨U8.start_lt⟩
instance (d : Data) : Occupies d (U16 d) := ⟨U16.start_lt⟩
instance (d : Data) : Occupies d (U32 d) := ⟨U32.start_lt⟩
instance (d : Data) : Occupies d (I16 d) := ⟨fun h => h.2.2.start_lt⟩
instance (d : Data) : Occupies d (I32 d) := ⟨fun h => h.2.2.start_lt⟩
instance (d : Data) : Bounds d (U8 d) := ⟨fun _ => trivial⟩
instance (d : Data) : Bounds d (U16 d) := ⟨fun _ => trivial⟩
instance (d : Data) : Bounds d (U32 d) := ⟨fun _ => trivial⟩
instance (d : Data) : Bounds d (I16 d) := ⟨fun _ => trivial⟩
instance (d : Data) : Bounds d (I32 d) := ⟨fun _ => trivial⟩

section
variable {α : Type} {d : Data} {S : Nat → α → Prop} {p k n : Nat} {xs : List α}

/-- Elements with bytes of their own: no more than there are bytes. -/
theorem length_le [Occupies d S] (h : ArrayOf S k p n xs) (hk : 0 < k) : xs.length ≤ d.length := by
  rcases Nat.eq_zero_or_pos xs.length with h0 | h0
  · omega
  have hi : xs.length - 1 < xs.length := by omega
  have := Occupies.of (d := d) (h.2 _ _ (List.getElem?_eq_getElem hi))
  have : xs.length - 1 ≤ k * (xs.length - 1) := Nat.le_mul_of_pos_left _ hk
  omega

variable [Bounded α] [Bounds d S]

theorem within_array [Occupies d S] (h : ArrayOf S k p n xs) (hk : 0 < k) : within d.length xs := by
  refine ⟨length_le h hk, fun x hx => ?_⟩
  obtain ⟨i, hi, rfl⟩ := List.getElem_of_mem hx
  exact Bounds.of (h.2 i _ (List.getElem?_eq_getElem hi))

theorem within_offsets {os : List Nat} (h : AtOffsets S p os xs) (ho : os.length ≤ d.length) :
    within d.length xs := by
  refine ⟨h.1 ▸ ho, fun x hx => ?_⟩
  obtain ⟨i, hi, rfl⟩ := List.getElem_of_mem hx
  exact Bounds.of (h.2 i _ _ (List.getElem?_eq_getElem (h.1 ▸ hi)) (List.getElem?_eq_getElem hi))

theorem within_optional {o : Nat} {x : Option α} (h : Optional S p o x) : within d.length x := by
  rintro y rfl
  exact Bounds.of h.2

theorem within_optionals {os : List Nat} {ys : List (Option α)} (h : AtOptionalOffsets S p os ys)
    (ho : os.length ≤ d.length) : within d.length ys := by
  refine ⟨h.1 ▸ ho, fun x hx => ?_⟩
  obtain ⟨i, hi, rfl⟩ := List.getElem_of_mem hx
  exact within_optional
    (h.2 i _ _ (List.getElem?_eq_getElem (h.1 ▸ hi)) (List.getElem?_eq_getElem hi))

end

/-- The number of offsets. -/
macro "bounds_length" : tactic => `(tactic| (
  try rw [List.length_map]
  exact length_le ‹_› (by omega)))

/-- One field. -/
macro "bounds_field" : tactic => `(tactic| first
  | exact within_array ‹_› (by omega)
  | (refine within_offsets ‹_› ?_; bounds_length)
  | (refine within_optionals ‹_› ?_; bounds_length)
  | exact within_optional ‹_›
  | exact Bounds.of ‹_›
  | refine And.intro ?_ ?_
  | (have := Bounds.of ‹IsCoverage _ _ _›; exact this)
  | (have := Bounds.of ‹IsCorrection _ _ _›; exact this))

/-- A table. -/
macro "bounds" d:ident : tactic => `(tactic| (
  refine ⟨fun {p t} h => ?_⟩
  revert h
  simp only [$d:ident, and_imp]
  intros
  first | trivial | repeat' bounds_field))

/-- A choice of tables. -/
macro "bounds_choice" d:ident : tactic => `(tactic| (
  refine ⟨fun {p t} h => ?_⟩
  cases t
  all_goals (
    revert h
    simp only [$d:ident, and_imp]
    intros
    rename_i h
    first | trivial | (have := Bounds.of h; exact this))))

/-- A table that begins with a number. -/
macro "occupies" d:ident : tactic => `(tactic| (
  refine ⟨fun {p t} h => ?_⟩
  revert h
  simp only [$d:ident, and_imp]
  intro h
  intros
  exact Occupies.of h))

variable (d : Data) (cfg : Cfg)

section
open OpenType.Spec

instance : Occupies d (IsCoverageRecord d) := by occupies IsCoverageRecord
instance : Occupies d (IsClassRecord d) := by occupies IsClassRecord
instance : Occupies d (IsAction d) := by occupies IsAction
instance : Occupies d (IsLanguageHeader d) := by occupies IsLanguageHeader
instance : Occupies d (IsScriptHeader d) := by occupies IsScriptHeader
instance : Occupies d (IsFeatureHeader d) := by occupies IsFeatureHeader
instance : Occupies d (IsColor d) := by occupies IsColor
instance : Occupies d (IsAxis cfg d) := by occupies IsAxis
instance (n : Nat) : Occupies d (IsInstance cfg n d) := by occupies IsInstance

instance : Bounds d (IsCoverageRecord d) := by bounds IsCoverageRecord
instance : Bounds d (IsClassRecord d) := by bounds IsClassRecord
instance : Bounds d (IsAction d) := by bounds IsAction
instance : Bounds d (IsLanguageHeader d) := by bounds IsLanguageHeader
instance : Bounds d (IsScriptHeader d) := by bounds IsScriptHeader
instance : Bounds d (IsFeatureHeader d) := by bounds IsFeatureHeader
instance : Bounds d (IsColor d) := by bounds IsColor
instance : Bounds d (IsAxis cfg d) := by bounds IsAxis

instance : Bounds d (IsCoverage1 d) := by bounds IsCoverage1
instance : Bounds d (IsCoverage2 d) := by bounds IsCoverage2
instance : Bounds d (IsCoverage d) := by bounds_choice IsCoverage
instance : Bounds d (IsClass1 d) := by bounds IsClass1
instance : Bounds d (IsClass2 d) := by bounds IsClass2
instance : Bounds d (IsClass d) := by bounds_choice IsClass
instance : Bounds d (IsDevice d) := by bounds IsDevice
instance : Bounds d (IsVariation d) := by bounds IsVariation
instance : Bounds d (IsCorrection d) := by bounds_choice IsCorrection
instance : Bounds d (IsRecord d) := by bounds IsRecord
instance : Bounds d (IsRecords d) := by bounds IsRecords
instance : Bounds d (IsContextClassRecord d) := by bounds IsContextClassRecord
instance : Bounds d (IsClassRecords d) := by bounds IsClassRecords
instance : Bounds d (IsChainedRecord d) := by bounds IsChainedRecord
instance : Bounds d (IsChainedRecords d) := by bounds IsChainedRecords
instance : Bounds d (IsChainedClassRecord d) := by bounds IsChainedClassRecord
instance : Bounds d (IsChainedClassRecords d) := by bounds IsChainedClassRecords
instance : Bounds d (IsContext1 d) := by bounds IsContext1
instance : Bounds d (IsContext2 d) := by bounds IsContext2
instance : Bounds d (IsContext3 d) := by bounds IsContext3
instance : Bounds d (IsContext d) := by bounds_choice IsContext
instance : Bounds d (IsChainedContext1 d) := by bounds IsChainedContext1
instance : Bounds d (IsChainedContext2 d) := by bounds IsChainedContext2
instance : Bounds d (IsChainedContext3 d) := by bounds IsChainedContext3
instance : Bounds d (IsChainedContext d) := by bounds_choice IsChainedContext
instance : Bounds d (IsLanguageRecord d) := by bounds IsLanguageRecord
instance : Bounds d (IsScriptRecord d) := by bounds IsScriptRecord
instance : Bounds d (IsScripts d) := by bounds IsScripts
instance : Bounds d (IsFeatureRecord d) := ⟨by
  intro p t h
  obtain ⟨_, _, h1, h2⟩ := h
  refine ⟨within_array h1 (by omega), ?_⟩
  intro x hx
  rw [h2] at hx
  split at hx
  · cases hx
  · cases hx
    exact ⟨Nat.zero_le _, fun _ h => absurd h List.not_mem_nil⟩⟩
instance : Bounds d (IsFeatures d) := by bounds IsFeatures

instance {T : Type} [Bounded T] (S : Nat → Data → Nat → T → Prop) [∀ n, Bounds d (S n d)] :
    Bounds d (IsLookupRecord cfg S d) := by bounds IsLookupRecord
instance {T : Type} [Bounded T] (S : Nat → Data → Nat → T → Prop) [∀ n, Bounds d (S n d)] :
    Bounds d (IsLookups cfg S d) := by bounds IsLookups

theorem within_nil {α : Type} [Bounded α] (n : Nat) : within n ([] : List α) :=
  ⟨Nat.zero_le _, fun _ h => absurd h List.not_mem_nil⟩

theorem within_part {α : Type} [Bounded α] {S : Nat → α → Prop} [Bounds d S] {p o : Nat} {e x : α}
    (he : within d.length e) (h : IsPart cfg S p o e x) : within d.length x := by
  unfold IsPart at h
  split at h
  · exact h ▸ he
  · exact Bounds.of h

instance {T : Type} [Bounded T] (S : Nat → Data → Nat → T → Prop) [∀ n, Bounds d (S n d)] :
    Bounds d (IsDirectory cfg S d) := ⟨by
  intro p t h
  obtain ⟨_, _, _, _, _, _, _, _, hs, hf, hl, _⟩ := h
  exact ⟨within_part d cfg ⟨within_nil _, within_nil _⟩ hs,
    within_part d cfg ⟨within_nil _, within_nil _⟩ hf,
    within_part d cfg ⟨within_nil _, within_nil _⟩ hl⟩⟩

instance : Bounds d (IsItemRecord cfg d) := ⟨by
  intro p t h
  obtain ⟨_, _, _, h1, _, _, h2⟩ := h
  exact ⟨within_array h1 (by omega), within_array h2 (by omega)⟩⟩
instance : Bounds d (IsStore cfg d) := by bounds IsStore

end

section
open OpenType.Spec.gsub

instance : Bounds d (IsAlternates d) := by bounds IsAlternates
instance : Bounds d (IsLigature d) := by bounds IsLigature
instance : Bounds d (IsLigatures d) := by bounds IsLigatures
instance : Bounds d (IsSequence d) := by bounds IsSequence
instance : Bounds d (IsSingle1 d) := by bounds IsSingle1
instance : Bounds d (IsSingle2 d) := by bounds IsSingle2
instance : Bounds d (IsSingle d) := by bounds_choice IsSingle
instance : Bounds d (IsMultiple d) := by bounds IsMultiple
instance : Bounds d (IsAlternate d) := by bounds IsAlternate
instance : Bounds d (IsLigatureSubstitution d) := by bounds IsLigatureSubstitution
instance : Bounds d (IsReverse d) := by bounds IsReverse
instance (n : Nat) : Bounds d (IsTable n d) := by bounds_choice IsTable

end

section
open OpenType.Spec.gdef

instance : Bounds d (IsAttachment d) := by bounds IsAttachment
instance : Bounds d (IsAttachments d) := by bounds IsAttachments
instance : Bounds d (IsCaret1 d) := by bounds IsCaret1
instance : Bounds d (IsCaret2 d) := by bounds IsCaret2
instance : Bounds d (IsCaret3 d) := by bounds IsCaret3
instance : Bounds d (IsCaretTaken d) := by bounds_choice IsCaretTaken
instance : Bounds d (IsLigature IsCaretTaken d) := by bounds IsLigature
instance : Bounds d (IsLigatures IsCaretTaken d) := by bounds IsLigatures
instance : Bounds d (IsMarks d) := by bounds IsMarks
instance : Bounds d (IsGlyphDefinitionTaken cfg d) := ⟨by
  intro p t h
  obtain ⟨⟨_, h1, h2, h3, h4, h5⟩, h6⟩ := h
  exact ⟨within_optional h1, within_optional h2, within_optional h3, within_optional h4,
    within_optional h5, within_optional h6⟩⟩

instance : Bounds d (IsColorPalettes d) := ⟨by
  intro p t h
  obtain ⟨header, colors⟩ := t
  cases header
  all_goals (
    obtain ⟨⟨_, _, _, _, _, _, hi⟩, hc⟩ := h
    exact ⟨within_array hi (by omega), within_array hc (by omega)⟩)⟩

instance (n : Nat) : Bounds d (IsInstance cfg n d) := by bounds IsInstance

end

section
open OpenType.Spec.gpos

instance : Bounds d (IsAnchor1 d) := by bounds IsAnchor1
instance : Bounds d (IsAnchor2 d) := by bounds IsAnchor2
instance : Bounds d (IsAnchor3 d) := by bounds IsAnchor3
instance : Bounds d (IsAnchor d) := by bounds_choice IsAnchor

theorem within_correction {base : Nat} {o : Option Nat} {x : Option correction.Correction}
    (h : IsCorrectionOf d base o x) : within d.length x := by
  unfold IsCorrectionOf at h
  split at h
  · subst h
    exact fun _ h => absurd h (by simp)
  · exact within_optional h

variable (base n a b : Nat)

instance : Bounds d (IsSingle base a d) := ⟨by
  intro p t h
  obtain ⟨_, _, _, _, _, _, _, _, h1, h2, h3, h4⟩ := h
  exact ⟨within_correction d h1, within_correction d h2, within_correction d h3,
    within_correction d h4⟩⟩

theorem within_value {p : Nat} {x : Option gpos.Single} (h : IsValue base a d p x) :
    within d.length x := by
  rintro y rfl
  exact Bounds.of h.2

instance : Bounds d (IsPair1 base a b d) :=
  ⟨fun h => ⟨within_value d base a h.2.1, within_value d base b h.2.2⟩⟩
instance : Occupies d (IsPair1 base a b d) := by occupies IsPair1
instance : Bounds d (IsPair1s a b d) := by bounds IsPair1s
instance : Bounds d (IsPair2 base a b d) :=
  ⟨fun h => ⟨within_value d base a h.1, within_value d base b h.2⟩⟩

instance : Bounds d (IsBase base n d) := by bounds IsBase
instance : Bounds d (IsComponent base n d) := by bounds IsComponent
instance : Bounds d (IsConnection base d) := by bounds IsConnection
instance : Occupies d (IsConnection base d) := by occupies IsConnection
instance : Bounds d (IsMark1 cfg base d) := ⟨by
  intro p t h
  obtain ⟨_, _, h⟩ := h
  unfold IsMarkAnchor at h
  change within d.length t.anchor
  split at h
  · rw [h]
    trivial
  · exact Bounds.of h⟩
instance : Occupies d (IsMark1 cfg base d) := by occupies IsMark1
instance : Bounds d (IsMark1s cfg d) := by bounds IsMark1s
instance : Bounds d (IsMark2 base n d) := by bounds IsMark2
instance : Bounds d (IsSingleAdjustment1 cfg d) := by bounds IsSingleAdjustment1
instance : Bounds d (IsPairAdjustment1 cfg d) := by bounds IsPairAdjustment1
instance : Bounds d (IsCursive d) := by bounds IsCursive

end

/-! ## Subtables that take up room -/

section
open OpenType.Spec.gpos

variable {d : Data} {cfg : Cfg}

theorem lowBits {flags : Nat} : flags % 256 = 0 ↔ ∀ k < 8, flags.testBit k = false := by
  constructor
  · intro h k hk
    have : (flags % 2 ^ 8).testBit k = false := by
      rw [show (2 : Nat) ^ 8 = 256 from rfl, h, Nat.zero_testBit]
    rw [Nat.testBit_mod_two_pow] at this
    simpa [hk] using this
  · intro h
    refine Nat.eq_of_testBit_eq fun i => ?_
    rw [show (256 : Nat) = 2 ^ 8 from rfl, Nat.testBit_mod_two_pow, Nat.zero_testBit]
    by_cases hi : i < 8
    · simp [h i hi]
    · simp [hi]

/-- A value record with a field has its first field at its beginning. -/
theorem single_lt {base flags p : Nat} {t : gpos.Single} (h : IsSingle base flags d p t)
    (hf : flags % 256 ≠ 0) : p < d.length := by
  obtain ⟨h0, h1, h2, h3, h4, h5, h6, h7, -⟩ := h
  have key {α : Type} {S : Nat → α → Prop} [Occupies d S] {k : Nat} {x : Option α}
      (h : IsField S flags p k x) (hk : flags.testBit k = true) (hb : bitsBelow flags k = 0) :
      p < d.length := by
    unfold IsField at h
    split at h
    · rw [h] at hk
      cases hk
    · have := Occupies.of h.2
      rwa [hb] at this
  cases b0 : flags.testBit 0
  case true => exact key h0 b0 rfl
  cases b1 : flags.testBit 1
  case true => exact key h1 b1 (by simp [bitsBelow, b0])
  cases b2 : flags.testBit 2
  case true => exact key h2 b2 (by simp [bitsBelow, b0, b1])
  cases b3 : flags.testBit 3
  case true => exact key h3 b3 (by simp [bitsBelow, b0, b1, b2])
  cases b4 : flags.testBit 4
  case true => exact key h4 b4 (by simp [bitsBelow, b0, b1, b2, b3])
  cases b5 : flags.testBit 5
  case true => exact key h5 b5 (by simp [bitsBelow, b0, b1, b2, b3, b4])
  cases b6 : flags.testBit 6
  case true => exact key h6 b6 (by simp [bitsBelow, b0, b1, b2, b3, b4, b5])
  cases b7 : flags.testBit 7
  case true => exact key h7 b7 (by simp [bitsBelow, b0, b1, b2, b3, b4, b5, b6])
  refine absurd (lowBits.mpr fun k hk => ?_) hf
  have : k = 0 ∨ k = 1 ∨ k = 2 ∨ k = 3 ∨ k = 4 ∨ k = 5 ∨ k = 6 ∨ k = 7 := by omega
  rcases this with rfl | rfl | rfl | rfl | rfl | rfl | rfl | rfl <;> assumption

theorem valueSize_pos {flags : Nat} (h : flags % 256 ≠ 0) : 0 < valueSize flags := by
  rcases Nat.eq_zero_or_pos (valueSize flags) with h0 | h0
  · refine absurd (lowBits.mpr fun k hk => ?_) h
    simp only [valueSize, bitsBelow] at h0
    have : k = 0 ∨ k = 1 ∨ k = 2 ∨ k = 3 ∨ k = 4 ∨ k = 5 ∨ k = 6 ∨ k = 7 := by omega
    rw [← Bool.not_eq_true]
    intro hb
    rcases this with rfl | rfl | rfl | rfl | rfl | rfl | rfl | rfl <;>
    · rw [if_pos hb] at h0
      omega
  · exact h0

theorem valueSize_zero {flags : Nat} (h : flags % 256 = 0) : valueSize flags = 0 := by
  simp [valueSize, bitsBelow, lowBits.mp h]

theorem value_lt {base flags p : Nat} {x : Option gpos.Single} (h : IsValue base flags d p x)
    (hf : flags % 256 ≠ 0) : p < d.length := by
  unfold IsValue at h
  split at h
  · omega
  · exact single_lt h.2 hf

theorem pair2_lt {base a b p : Nat} {t : gpos.Pair2} (h : IsPair2 base a b d p t)
    (hf : a % 256 ≠ 0 ∨ b % 256 ≠ 0) : p < d.length := by
  by_cases ha : a % 256 = 0
  · have := value_lt h.2 (by omega)
    rwa [valueSize_zero ha] at this
  · exact value_lt h.1 ha

/-- An array that is not empty has its first element where it begins. -/
theorem array_lt {α : Type} {S : Nat → α → Prop} [Occupies d S] {k p n : Nat} {xs : List α}
    (h : ArrayOf S k p n xs) (hn : n ≠ 0) : p < d.length := by
  have hi : 0 < xs.length := by
    have := h.1
    omega
  exact Occupies.of (h.2 0 _ (List.getElem?_eq_getElem hi))

theorem within_table {type_ p : Nat} {t : gpos.Type_} (h : IsTable cfg type_ d p t)
    (hr : TakesRoom t) : within d.length t := by
  cases t
  case singleAdjustment t =>
    cases t
    case format1 t => exact (Bounds.of h.2.2 : within d.length t)
    case format2 t =>
      obtain ⟨-, -, -, -, -, -, -, h1, h2⟩ := h
      have : Occupies d (IsSingle p t.value_flags d) := ⟨fun h => single_lt h hr⟩
      exact ⟨within_array h1 (valueSize_pos hr), Bounds.of h2⟩
  case pairAdjustment t =>
    cases t
    case format1 t => exact (Bounds.of h.2.2 : within d.length t)
    case format2 t =>
      obtain ⟨-, -, -, -, -, -, -, -, -, -, -, -, h1, h2, h3, h4⟩ := h
      obtain ⟨hf, hc⟩ := hr
      have hk : 0 < valueSize t.value1_flags + valueSize t.value2_flags := by
        rcases hf with hf | hf
        · have := valueSize_pos hf
          omega
        · have := valueSize_pos hf
          omega
      have : Occupies d (IsPair2 p t.value1_flags t.value2_flags d) := ⟨fun h => pair2_lt h hf⟩
      have : Occupies d (IsPair2s p t.class2_count t.value1_flags t.value2_flags d) :=
        ⟨fun h => array_lt h hc⟩
      have : Bounds d (IsPair2s p t.class2_count t.value1_flags t.value2_flags d) :=
        ⟨fun h => within_array h hk⟩
      exact ⟨within_array h1 (Nat.mul_pos hk (Nat.pos_of_ne_zero hc)), Bounds.of h2, Bounds.of h3,
        Bounds.of h4⟩
  case cursiveAttachment t => exact (Bounds.of h.2 : within d.length t)
  case markToBaseAttachment t =>
    obtain ⟨-, -, -, -, -, -, -, -, h1, h2, h3, -, h4⟩ := h
    have hr : t.mark_class_count ≠ 0 := hr
    have : Occupies d (IsBase (p + t.bases_offset) t.mark_class_count d) :=
      ⟨fun h => array_lt h.1 hr⟩
    exact ⟨Bounds.of h1, Bounds.of h2, Bounds.of h3, within_array h4 (by omega)⟩
  case markToLigatureAttachment t =>
    obtain ⟨-, -, -, -, -, -, -, -, h1, h2, h3, -, h4, h5⟩ := h
    have hr : t.mark_class_count ≠ 0 := hr
    have (base : Nat) : Occupies d (IsComponent base t.mark_class_count d) :=
      ⟨fun h => array_lt h.1 hr⟩
    have : Bounds d (gpos.IsLigature t.mark_class_count d) :=
      ⟨fun h => within_array h.2 (by omega)⟩
    exact ⟨Bounds.of h1, Bounds.of h2, Bounds.of h3, within_array h4 (by omega),
      within_offsets h5 (length_le h4 (by omega))⟩
  case markToMarkAttachment t =>
    obtain ⟨-, -, -, -, -, -, -, -, h1, h2, h3, -, h4⟩ := h
    have hr : t.mark_class_count ≠ 0 := hr
    have : Occupies d (IsMark2 (p + t.mark2s_offset) t.mark_class_count d) :=
      ⟨fun h => array_lt h.1 hr⟩
    exact ⟨Bounds.of h1, Bounds.of h2, Bounds.of h3, within_array h4 (by omega)⟩
  case contextualPositioning t => exact (Bounds.of h.2 : within d.length t)
  case chainedContextualPositioning t => exact (Bounds.of h.2 : within d.length t)
  case extensionPositioning t => trivial

instance (type_ : Nat) :
    Bounds d (fun p (t : gpos.Type_) => IsTable cfg type_ d p t ∧ TakesRoom t) :=
  ⟨fun h => within_table h.1 h.2⟩

/-- A directory all whose subtables satisfy `P`. -/
theorem directory_and {T : Type} {S : Nat → Data → Nat → T → Prop} {P : T → Prop} {p : Nat}
    {t : directory.Directory T} (h : IsDirectory cfg S d p t)
    (hp : ∀ r ∈ t.lookups.records, ∀ s ∈ r.tables, P s) :
    IsDirectory cfg (fun n d p s => S n d p s ∧ P s) d p t := by
  obtain ⟨h1, h2, h3, h4, h5, h6, h7, h8, h9, h10, hl, h12⟩ := h
  refine ⟨h1, h2, h3, h4, h5, h6, h7, h8, h9, h10, ?_, h12⟩
  unfold IsPart at hl ⊢
  split at hl
  case isTrue hc => rwa [if_pos hc]
  case isFalse hc =>
    rw [if_neg hc]
    obtain ⟨a1, a2, a3, a4⟩ := hl
    refine ⟨a1, a2, a3, fun i o r ho hr => ?_⟩
    obtain ⟨b1, b2, b3, b4, b5, b6, b7, b8⟩ := a4 i o r ho hr
    exact ⟨b1, b2, b3, b4, b5, b6, b7, fun j o' s ho' hs =>
      ⟨b8 j o' s ho' hs, hp r (List.mem_of_getElem? hr) s (List.mem_of_getElem? hs)⟩⟩

end
end OpenType
