import Verif.Spec.Sharing
import Verif.Proof.Counts
import Verif.Proof.Gsub
import Verif.Proof.Gpos
import Verif.Proof.Gdef
/-! # What is stored shares what has the same place -/

namespace OpenType
open Spec

/-! ## Equal places -/

section
variable {α : Type} {r : Reader α} {S : Data → Nat → α → Prop} [Parses r S] {d : Data} {p : Nat}

theorem parsed_unique (r : Reader α) [Parses r S] (hd : Fits d) {x y : α} (hx : S d p x) (hy : S d p y) : x = y := by
  obtain ⟨_, h1⟩ := (reads_parses (r := r) hd).mpr hx
  obtain ⟨_, h2⟩ := (reads_parses (r := r) hd).mpr hy
  rw [h1] at h2
  cases h2
  rfl

theorem optional_unique (r : Reader α) [Parses r S] (hd : Fits d) {o : Nat} {x y : Option α} (hx : Optional (S d) p o x)
    (hy : Optional (S d) p o y) : x = y := by
  cases x with
  | none =>
    cases y with
    | none => rfl
    | some y => exact absurd hx hy.1
  | some x =>
    cases y with
    | none => exact absurd hy hx.1
    | some y => rw [parsed_unique r hd hx.2 hy.2]

theorem alike {κ : Type} {T : κ → α → Prop} (hu : ∀ o x y, T o x → T o y → x = y) {ps : List (κ × α)}
    (h : ∀ a ∈ ps, T a.1 a.2) : Alike ps :=
  fun a ha b hb e => hu _ _ _ (h a ha) (e ▸ h b hb)

theorem alike_parsed (r : Reader α) [Parses r S] (hd : Fits d) {ps : List (Nat × α)} (h : ∀ a ∈ ps, S d (p + a.1) a.2) :
    Alike ps :=
  alike (T := fun o x => S d (p + o) x) (fun _ _ _ => parsed_unique r hd) h

theorem alike_optional (r : Reader α) [Parses r S] (hd : Fits d) {ps : List (Nat × Option α)}
    (h : ∀ a ∈ ps, Optional (S d) p a.1 a.2) : Alike ps :=
  alike (T := fun o x => Optional (S d) p o x) (fun _ _ _ => optional_unique r hd) h

theorem Spec.AtOffsets.zip {S : Nat → α → Prop} {os : List Nat} {xs : List α} (h : AtOffsets S p os xs) :
    ∀ a ∈ os.zip xs, S (p + a.1) a.2 := fun a ha => by
  obtain ⟨i, hi, rfl⟩ := List.getElem_of_mem ha
  rw [List.length_zip] at hi
  rw [List.getElem_zip]
  exact h.2 i _ _ (List.getElem?_eq_getElem (by omega)) (List.getElem?_eq_getElem (by omega))

theorem Spec.AtOptionalOffsets.zip {S : Nat → α → Prop} {os : List Nat} {xs : List (Option α)}
    (h : AtOptionalOffsets S p os xs) : ∀ a ∈ os.zip xs, Optional S p a.1 a.2 := fun a ha => by
  obtain ⟨i, hi, rfl⟩ := List.getElem_of_mem ha
  rw [List.length_zip] at hi
  rw [List.getElem_zip]
  exact h.2 i _ _ (List.getElem?_eq_getElem (by omega)) (List.getElem?_eq_getElem (by omega))

end

theorem alike_nil {κ α : Type} : Alike ([] : List (κ × α)) := nofun

theorem all_nil {α : Type} {P : α → Prop} : ∀ a ∈ ([] : List α), P a := nofun

theorem all_cons {α : Type} {P : α → Prop} {x : α} {xs : List α} (h : P x) (hs : ∀ a ∈ xs, P a) : ∀ a ∈ x :: xs, P a :=
  List.forall_mem_cons.mpr ⟨h, hs⟩

theorem all_append {α : Type} {P : α → Prop} {xs ys : List α} (h : ∀ a ∈ xs, P a) (h' : ∀ a ∈ ys, P a) :
    ∀ a ∈ xs ++ ys, P a := fun a ha => (List.mem_append.mp ha).elim (h a) (h' a)

theorem all_flatMap {α β : Type} {P : β → Prop} {f : α → List β} {xs : List α} (h : ∀ x ∈ xs, ∀ a ∈ f x, P a) :
    ∀ a ∈ xs.flatMap f, P a := fun a ha => by
  obtain ⟨x, hx, ha⟩ := List.mem_flatMap.mp ha
  exact h x hx a ha

/-! ## Tables -/

/-- Whatever is stored shares what has the same place. -/
class Shares {α : Type} [Sharing α] (S : Data → Nat → α → Prop) : Prop where
  of : ∀ {d p t}, Fits d → S d p t → shares t

section
variable {α : Type} [Sharing α] {S : Data → Nat → α → Prop} [Shares S] {d : Data} (hd : Fits d) {p k n : Nat} {xs : List α}
include hd

theorem shares_array (h : ArrayOf (S d) k p n xs) : shares xs := h.all fun _ _ => Shares.of hd

theorem shares_offsets {os : List Nat} (h : AtOffsets (S d) p os xs) : shares xs := h.all fun _ _ => Shares.of hd

theorem shares_optional {o : Nat} {x : Option α} (h : Optional (S d) p o x) : shares x := by
  rintro y rfl
  exact Shares.of hd h.2

theorem shares_optionals {os : List Nat} {ys : List (Option α)} (h : AtOptionalOffsets (S d) p os ys) :
    shares ys := fun x hx => by
  obtain ⟨i, hi, rfl⟩ := List.getElem_of_mem hx
  exact shares_optional hd
    (h.2 i _ _ (List.getElem?_eq_getElem (h.1 ▸ hi)) (List.getElem?_eq_getElem hi))

end

section
open OpenType.context

instance : Shares IsRecords := ⟨fun hd h => alike_parsed context.Record.read hd h.2.2.zip⟩
instance : Shares IsClassRecords := ⟨fun hd h => alike_parsed ClassRecord.read hd h.2.2.zip⟩
instance : Shares IsChainedRecords := ⟨fun hd h => alike_parsed ChainedRecord.read hd h.2.2.zip⟩
instance : Shares IsChainedClassRecords := ⟨fun hd h => alike_parsed ChainedClassRecord.read hd h.2.2.zip⟩

instance : Shares IsContext1 := ⟨fun hd ⟨_, _, _, _, _, h⟩ => ⟨alike_parsed Records.read hd h.zip, shares_offsets hd h⟩⟩
instance : Shares IsContext2 := ⟨fun hd ⟨_, _, _, _, _, _, _, h⟩ =>
  ⟨alike_optional ClassRecords.read hd h.zip, shares_optionals hd h⟩⟩
instance : Shares IsContext3 := ⟨fun hd ⟨_, _, _, _, _, h⟩ => alike_parsed coverage.Coverage.read hd h.zip⟩
instance : Shares IsContext := ⟨fun {_ _ t} hd h => by
  cases t with
  | format1 t => exact (Shares.of hd h.2 : shares t)
  | format2 t => exact (Shares.of hd h.2 : shares t)
  | format3 t => exact (Shares.of hd h.2 : shares t)⟩

instance : Shares IsChainedContext1 := ⟨fun hd ⟨_, _, _, _, _, h⟩ =>
  ⟨alike_parsed ChainedRecords.read hd h.zip, shares_offsets hd h⟩⟩
instance : Shares IsChainedContext2 := ⟨fun hd ⟨_, _, _, _, _, _, _, _, h1, h2, h3, h⟩ =>
  ⟨alike_parsed class_.Class.read hd (all_cons h1 (all_cons h2 (all_cons h3 all_nil))),
    alike_optional ChainedClassRecords.read hd h.zip, shares_optionals hd h⟩⟩
instance : Shares IsChainedContext3 := ⟨fun hd ⟨_, _, _, _, _, _, _, _, _, h1, h2, h3⟩ =>
  alike_parsed coverage.Coverage.read hd (all_append (all_append h1.zip h2.zip) h3.zip)⟩
instance : Shares IsChainedContext := ⟨fun {_ _ t} hd h => by
  cases t with
  | format1 t => exact (Shares.of hd h.2 : shares t)
  | format2 t => exact (Shares.of hd h.2 : shares t)
  | format3 t => exact (Shares.of hd h.2 : shares t)⟩

end

section
open script feature lookup directory

instance : Shares IsScriptRecord := ⟨fun {_ _ t} hd ⟨_, _, _, h1, h2⟩ => by
  refine alike_parsed language.Record.read hd (all_append ?_ h2.zip)
  intro a ha
  obtain ⟨x, hx, rfl⟩ := List.mem_map.mp ha
  rw [Option.mem_toList] at hx
  rw [show t.default_language = some x from hx] at h1
  exact h1.2⟩
instance : Shares IsScripts := ⟨fun hd ⟨_, _, h⟩ => ⟨alike_parsed script.Record.read hd h.zip, shares_offsets hd h⟩⟩
instance : Shares IsFeatures := ⟨fun hd ⟨_, _, h⟩ => alike_parsed feature.Record.read hd h.zip⟩

variable {T : Type} [Sharing T] {cfg : Cfg} {readTable : Nat → Reader T} {S : Nat → Data → Nat → T → Prop}

theorem shares_lookup [∀ n, Parses (readTable n) (S n)] [∀ n, Shares (S n)] {d : Data} (hd : Fits d) {p : Nat}
    {t : lookup.Record T} (h : IsLookupRecord cfg S d p t) : shares t := by
  obtain ⟨_, _, _, _, _, _, h⟩ := h
  exact ⟨alike_parsed (readTable t.type_) hd h.zip, shares_offsets hd h⟩

theorem shares_lookups [∀ n, Parses (readTable n) (S n)] [∀ n, Shares (S n)] {d : Data} (hd : Fits d) {p : Nat}
    {t : Lookups T} (h : IsLookups cfg S d p t) : shares t := by
  obtain ⟨_, _, h⟩ := h
  refine ⟨alike_parsed (lookup.Record.read cfg readTable) hd h.zip, ?_, h.all fun _ _ => shares_lookup (readTable := readTable) hd⟩
  refine alike (T := fun k x => S k.1 d (p + k.2) x) (fun k _ _ => parsed_unique (readTable k.1) hd) ?_
  refine all_flatMap fun x hx => ?_
  obtain ⟨_, _, _, _, _, _, ht⟩ := h.zip x hx
  intro a ha
  obtain ⟨y, hy, rfl⟩ := List.mem_map.mp ha
  have := ht.zip y hy
  rw [Nat.add_assoc] at this
  exact this

theorem shares_part {α : Type} [Sharing α] {d : Data} {S : Data → Nat → α → Prop} (hs : ∀ q x, S d q x → shares x)
    {p o : Nat} {e x : α} (he : shares e) (h : IsPart cfg (S d) p o e x) : shares x := by
  unfold IsPart at h
  split at h
  · exact h ▸ he
  · exact hs _ _ h

theorem shares_directory [∀ n, Parses (readTable n) (S n)] [∀ n, Shares (S n)] {d : Data} (hd : Fits d) {p : Nat}
    {t : Directory T} (h : IsDirectory cfg S d p t) : shares t := by
  obtain ⟨_, _, _, _, _, _, _, _, hs, hf, hl, _⟩ := h
  refine ⟨shares_part (S := IsScripts) (fun _ _ => Shares.of hd) ?_ hs,
    shares_part (S := IsFeatures) (fun _ _ => Shares.of hd) ?_ hf,
    shares_part (S := IsLookups cfg S) (fun _ _ => shares_lookups (readTable := readTable) hd) ?_ hl⟩
  · exact ⟨alike_nil, nofun⟩
  · exact alike_nil
  · exact ⟨alike_nil, alike_nil, nofun⟩

end

section
open OpenType.Spec.gsub OpenType.gsub

instance : Shares gsub.IsLigatures := ⟨fun hd h => alike_parsed gsub.Ligature.read hd h.2.2.zip⟩
instance : Shares IsMultiple := ⟨fun hd ⟨_, _, _, _, _, _, h⟩ => alike_parsed Sequence.read hd h.zip⟩
instance : Shares IsAlternate := ⟨fun hd ⟨_, _, _, _, _, _, h⟩ => alike_parsed Alternates.read hd h.zip⟩
instance : Shares IsLigatureSubstitution := ⟨fun hd ⟨_, _, _, _, _, _, h⟩ =>
  ⟨alike_parsed gsub.Ligatures.read hd h.zip, shares_offsets hd h⟩⟩
instance : Shares IsReverse := ⟨fun hd ⟨_, _, _, _, _, _, _, _, h, h1, h2⟩ =>
  alike_parsed coverage.Coverage.read hd (all_cons h (all_append h1.zip h2.zip))⟩
instance (n : Nat) : Shares (gsub.IsTable n) := ⟨fun {_ _ t} hd h => by
  cases t with
  | singleSubstitution t => trivial
  | multipleSubstitution t => exact (Shares.of hd h.2 : shares t)
  | alternateSubstitution t => exact (Shares.of hd h.2 : shares t)
  | ligatureSubstitution t => exact (Shares.of hd h.2 : shares t)
  | contextualSubstitution t => exact (Shares.of hd h.2 : shares t)
  | chainedContextualSubstitution t => exact (Shares.of hd h.2 : shares t)
  | extensionSubstitution t => trivial
  | reverseChainedContextualSubstibution t => exact (Shares.of hd h.2 : shares t)⟩

end

section
open OpenType.Spec.gpos OpenType.gpos

instance : Shares IsAnchor := ⟨fun {_ _ t} hd h => by
  cases t with
  | format1 t => trivial
  | format2 t => trivial
  | format3 t =>
    obtain ⟨_, _, _, _, _, _, h1, h2⟩ := h
    exact alike_optional correction.Correction.read hd (all_cons h1 (all_cons h2 all_nil))⟩

theorem alike_corrections {d : Data} (hd : Fits d) {p : Nat} {ps : List (Option Nat × Option correction.Correction)}
    (h : ∀ a ∈ ps, IsCorrectionOf d p a.1 a.2) : Alike ps := by
  refine alike (fun o x y hx hy => ?_) h
  cases o with
  | none => exact hx.trans hy.symm
  | some o => exact optional_unique correction.Correction.read hd hx hy

theorem all_corrections {d : Data} {base flags p : Nat} {t : Single} (h : IsSingle base flags d p t) :
    ∀ a ∈ corrections t, IsCorrectionOf d base a.1 a.2 := by
  obtain ⟨_, _, _, _, _, _, _, _, h1, h2, h3, h4⟩ := h
  exact all_cons h1 (all_cons h2 (all_cons h3 (all_cons h4 all_nil)))

theorem all_corrections2 {d : Data} {base flags1 flags2 p1 p2 : Nat} {x y : Option Single} (h1 : IsValue base flags1 d p1 x)
    (h2 : IsValue base flags2 d p2 y) : ∀ a ∈ corrections2 x y, IsCorrectionOf d base a.1 a.2 := by
  refine all_flatMap fun z hz => ?_
  rcases List.mem_append.mp hz with hz | hz
  · rw [Option.mem_toList] at hz
    rw [show x = some z from hz] at h1
    exact all_corrections h1.2
  · rw [Option.mem_toList] at hz
    rw [show y = some z from hz] at h2
    exact all_corrections h2.2

instance (a b : Nat) : Shares (IsPair1s a b) := ⟨fun hd ⟨_, h⟩ =>
  alike_corrections hd (all_flatMap (h.all fun _ _ h => all_corrections2 h.2.1 h.2.2))⟩
instance (n : Nat) : Shares (IsBases n) := ⟨fun hd ⟨_, h⟩ =>
  ⟨alike_optional Anchor.read hd (all_flatMap (h.all fun _ _ h => h.2.zip)), h.all fun _ _ h => shares_optionals hd h.2⟩⟩
instance (n : Nat) : Shares (gpos.IsLigature n) := ⟨fun hd ⟨_, h⟩ =>
  ⟨alike_optional Anchor.read hd (all_flatMap (h.all fun _ _ h => h.2.zip)), h.all fun _ _ h => shares_optionals hd h.2⟩⟩
instance (n : Nat) : Shares (gpos.IsLigatures n) := ⟨fun hd ⟨_, _, h⟩ =>
  ⟨alike_parsed (gpos.Ligature.read n) hd h.zip, shares_offsets hd h⟩⟩
instance (cfg : Cfg) : Shares (IsMark1s cfg) := ⟨fun {d p t} hd ⟨_, h⟩ => by
  constructor
  · refine alike (T := fun o x => IsMarkAnchor cfg d p o x) (fun o x y hx hy => ?_) ?_
    · unfold IsMarkAnchor at hx hy
      split at hx
      · next hc =>
        rw [if_pos hc] at hy
        exact hx.trans hy.symm
      · next hc =>
        rw [if_neg hc] at hy
        exact parsed_unique Anchor.read hd hx hy
    · intro a ha
      obtain ⟨r, hr, rfl⟩ := List.mem_map.mp ha
      exact h.all (C := fun r => IsMarkAnchor cfg d p r.anchor_offset r.anchor) (fun _ _ h => h.2.2) r hr
  · refine h.all fun _ x h => ?_
    obtain ⟨_, _, h⟩ := h
    unfold IsMarkAnchor at h
    split at h
    · rw [h]
      trivial
    · exact Shares.of hd h⟩
instance (n : Nat) : Shares (IsMark2s n) := ⟨fun hd ⟨_, h⟩ =>
  ⟨alike_optional Anchor.read hd (all_flatMap (h.all fun _ _ h => h.2.zip)), h.all fun _ _ h => shares_optionals hd h.2⟩⟩
instance (cfg : Cfg) : Shares (IsSingleAdjustment cfg) := ⟨fun {_ _ t} hd h => by
  cases t with
  | format1 t =>
    obtain ⟨_, _, _, _, _, h, _⟩ := h
    exact alike_corrections hd (all_corrections h)
  | format2 t =>
    obtain ⟨_, _, _, _, _, _, h, _⟩ := h
    exact alike_corrections hd (all_flatMap (h.all fun _ _ h => all_corrections h))⟩
instance (cfg : Cfg) : Shares (IsPairAdjustment cfg) := ⟨fun {_ _ t} hd h => by
  cases t with
  | format1 t =>
    obtain ⟨_, _, _, _, _, _, _, _, _, _, h⟩ := h
    exact ⟨alike_parsed (Pair1s.read t.value1_flags t.value2_flags) hd h.zip, shares_offsets hd h⟩
  | format2 t =>
    obtain ⟨_, _, _, _, _, _, _, _, _, _, _, h, _, h1, h2⟩ := h
    exact ⟨alike_parsed class_.Class.read hd (all_cons h1 (all_cons h2 all_nil)),
      alike_corrections hd (all_flatMap (h.all fun _ _ h => all_flatMap (h.all fun _ _ h => all_corrections2 h.1 h.2)))⟩⟩
instance : Shares IsCursive := ⟨fun hd ⟨_, _, _, _, h, _⟩ =>
  ⟨alike_optional Anchor.read hd (all_flatMap (h.all fun _ _ h => all_cons h.2.2.1 (all_cons h.2.2.2 all_nil))),
    h.all fun _ _ h => ⟨shares_optional hd h.2.2.1, shares_optional hd h.2.2.2⟩⟩⟩
instance (cfg : Cfg) : Shares (IsMarkToBase cfg) := ⟨fun hd ⟨_, _, _, _, _, _, _, h1, h2, h3, h4⟩ =>
  ⟨alike_parsed coverage.Coverage.read hd (all_cons h1 (all_cons h2 all_nil)), Shares.of hd h3, Shares.of hd h4⟩⟩
instance (cfg : Cfg) : Shares (IsMarkToLigature cfg) := ⟨fun hd ⟨_, _, _, _, _, _, _, h1, h2, h3, h4⟩ =>
  ⟨alike_parsed coverage.Coverage.read hd (all_cons h1 (all_cons h2 all_nil)), Shares.of hd h3, Shares.of hd h4⟩⟩
instance (cfg : Cfg) : Shares (IsMarkToMark cfg) := ⟨fun hd ⟨_, _, _, _, _, _, _, h1, h2, h3, h4⟩ =>
  ⟨alike_parsed coverage.Coverage.read hd (all_cons h1 (all_cons h2 all_nil)), Shares.of hd h3, Shares.of hd h4⟩⟩
instance (cfg : Cfg) (n : Nat) : Shares (gpos.IsTable cfg n) := ⟨fun {_ _ t} hd h => by
  cases t with
  | singleAdjustment t => exact (Shares.of hd h.2 : shares t)
  | pairAdjustment t => exact (Shares.of hd h.2 : shares t)
  | cursiveAttachment t => exact (Shares.of hd h.2 : shares t)
  | markToBaseAttachment t => exact (Shares.of hd h.2 : shares t)
  | markToLigatureAttachment t => exact (Shares.of hd h.2 : shares t)
  | markToMarkAttachment t => exact (Shares.of hd h.2 : shares t)
  | contextualPositioning t => exact (Shares.of hd h.2 : shares t)
  | chainedContextualPositioning t => exact (Shares.of hd h.2 : shares t)
  | extensionPositioning t => trivial⟩

end

section
open OpenType.Spec.gdef OpenType.gdef

instance (cfg : Cfg) : Shares (IsStore cfg) := ⟨fun hd ⟨_, _, _, _, _, h⟩ => alike_parsed (item.Record.read cfg) hd h.zip⟩
instance : Shares IsAttachments := ⟨fun hd ⟨_, _, _, _, h⟩ => alike_parsed Attachment.read hd h.zip⟩
instance : Shares (gdef.IsLigature IsCaretTaken) := ⟨fun hd ⟨_, _, h⟩ => alike_parsed Caret.read hd h.zip⟩
instance : Shares (gdef.IsLigatures IsCaretTaken) := ⟨fun hd ⟨_, _, _, _, h⟩ =>
  ⟨alike_parsed gdef.Ligature.read hd h.zip, shares_offsets hd h⟩⟩
instance : Shares IsMarks := ⟨fun hd ⟨_, _, _, _, h⟩ => alike_parsed coverage.Coverage.read hd h.zip⟩
instance (cfg : Cfg) : Shares (IsGlyphDefinitionTaken cfg) := ⟨fun hd ⟨⟨_, h1, h2, h3, h4, h5⟩, h6⟩ =>
  ⟨alike_optional class_.Class.read hd (all_cons h1 (all_cons h4 all_nil)), shares_optional hd h2, shares_optional hd h3,
    shares_optional hd h5, shares_optional hd h6⟩⟩

end
end OpenType
