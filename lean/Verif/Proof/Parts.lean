import Verif.Spec.Parts
import Verif.Proof.Sharing
import Verif.Proof.Cpal
import Verif.Proof.Fvar
/-! # What a table holds is what its parts read on their own -/

namespace OpenType
open Spec

/-- What `r` reads holds what its parts read on their own. -/
class Tells {α : Type} (r : Reader α) [Parts r] : Prop where
  told : ∀ {d p t}, Fits d → Reads r d p t → ReadAlone d p (parts r t)

section
variable {α : Type} {r : Reader α} {S : Data → Nat → α → Prop} [Parts r] [Tells r] {d : Data} (hd : Fits d) {p : Nat}

theorem alone_nil {d : Data} {p : Nat} : ReadAlone d p [] := nofun

theorem alone_append {d : Data} {p : Nat} {xs ys : List Part} (h : ReadAlone d p xs) (h' : ReadAlone d p ys) :
    ReadAlone d p (xs ++ ys) := fun a ha => (List.mem_append.mp ha).elim (h a) (h' a)

theorem alone_flatMap {β : Type} {d : Data} {p : Nat} {f : β → List Part} {xs : List β}
    (h : ∀ x ∈ xs, ReadAlone d p (f x)) : ReadAlone d p (xs.flatMap f) := fun a ha => by
  obtain ⟨x, hx, ha⟩ := List.mem_flatMap.mp ha
  exact h x hx a ha

theorem alone_shift {d : Data} {p n : Nat} {xs : List Part} (h : ReadAlone d (p + n) xs) :
    ReadAlone d p (xs.map (Part.shift n)) := fun a ha => by
  obtain ⟨x, hx, rfl⟩ := List.mem_map.mp ha
  have := h x hx
  rw [Nat.add_assoc] at this
  exact this

include hd

theorem alone_read {o : Nat} {x : α} (h : Reads r d (p + o) x) : ReadAlone d p (one r o x) := by
  intro a ha
  rcases List.mem_cons.mp ha with rfl | ha
  · exact h
  · exact alone_shift (Tells.told hd h) a ha

theorem alone_one [Parses r S] {o : Nat} {x : α} (h : S d (p + o) x) : ReadAlone d p (one r o x) :=
  alone_read hd ((reads_parses hd).mpr h)

theorem alone_many [Parses r S] {os : List Nat} {xs : List α} (h : AtOffsets (S d) p os xs) :
    ReadAlone d p (many r os xs) :=
  alone_flatMap fun a ha => alone_one hd (h.zip a ha)

theorem alone_maybe [Parses r S] {o : Nat} {x : Option α} (h : Optional (S d) p o x) : ReadAlone d p (maybe r o x) := by
  cases x with
  | none => exact alone_nil
  | some x =>
    refine alone_flatMap fun y hy => ?_
    rcases List.mem_singleton.mp hy with rfl
    exact alone_one hd h.2

theorem alone_maybes [Parses r S] {os : List Nat} {xs : List (Option α)} (h : AtOptionalOffsets (S d) p os xs) :
    ReadAlone d p (maybes r os xs) :=
  alone_flatMap fun a ha => alone_maybe hd (h.zip a ha)

theorem alone_row {size : Nat} [Fixed r S size] {k o n : Nat} {xs : List α} (h : ArrayOf (S d) k (p + o) n xs) :
    ReadAlone d p (row r k o xs) :=
  alone_flatMap fun a ha => by
    refine alone_read hd ((reads_fixed hd).mpr ?_)
    rw [← Nat.add_assoc]
    refine h.2 _ _ ?_
    obtain ⟨i, hi, rfl⟩ := List.getElem_of_mem ha
    rw [List.length_zipIdx] at hi
    simp [hi]

theorem alone_part [Parses r S] {cfg : Cfg} {o : Nat} {e x : α} (h : IsPart cfg (S d) p o e x) :
    ReadAlone d p (lenient r cfg.ignoreIncompleteDirectories o x) := by
  unfold lenient
  unfold IsPart at h
  split
  · exact alone_nil
  · next hc =>
    rw [if_neg hc] at h
    exact alone_one hd h

end

/-- From what is stored to what is read alone. -/
theorem tells {α : Type} {r : Reader α} {S : Data → Nat → α → Prop} [Parts r] [Parses r S]
    (h : ∀ {d p t}, Fits d → S d p t → ReadAlone d p (parts r t)) : Tells r :=
  ⟨fun hd hr => h hd ((reads_parses hd).mp hr)⟩

section
open coverage class_ correction context

instance : Tells Coverage1.read := ⟨fun _ _ => alone_nil⟩
instance : Tells Coverage2.read := ⟨fun _ _ => alone_nil⟩
instance : Tells Coverage.read := tells fun {_ _ t} hd h => by
  cases t with
  | format1 t => exact alone_one hd (r := Coverage1.read) h.2
  | format2 t => exact alone_one hd (r := Coverage2.read) h.2
instance : Tells Class1.read := ⟨fun _ _ => alone_nil⟩
instance : Tells Class2.read := ⟨fun _ _ => alone_nil⟩
instance : Tells Class.read := tells fun {_ _ t} hd h => by
  cases t with
  | format1 t => exact alone_one hd (r := Class1.read) h.2
  | format2 t => exact alone_one hd (r := Class2.read) h.2
instance : Tells Device.read := ⟨fun _ _ => alone_nil⟩
instance : Tells Variation.read := ⟨fun _ _ => alone_nil⟩
instance : Tells Correction.read := tells fun {_ _ t} hd h => by
  cases t with
  | device t => exact alone_one hd (r := Device.read) h
  | variation t => exact alone_read hd (r := Variation.read) ((reads_fixed hd).mpr h.2)

instance : Tells context.Record.read := ⟨fun _ _ => alone_nil⟩
instance : Tells ClassRecord.read := ⟨fun _ _ => alone_nil⟩
instance : Tells ChainedRecord.read := ⟨fun _ _ => alone_nil⟩
instance : Tells ChainedClassRecord.read := ⟨fun _ _ => alone_nil⟩
instance : Tells Records.read := tells fun hd h => alone_many hd h.2.2
instance : Tells ClassRecords.read := tells fun hd h => alone_many hd h.2.2
instance : Tells ChainedRecords.read := tells fun hd h => alone_many hd h.2.2
instance : Tells ChainedClassRecords.read := tells fun hd h => alone_many hd h.2.2

instance : Tells Context1.read := tells fun hd ⟨_, _, _, _, h1, h2⟩ => alone_append (alone_one hd h1) (alone_many hd h2)
instance : Tells Context2.read := tells fun hd ⟨_, _, _, _, _, h1, h2, h3⟩ =>
  alone_append (alone_append (alone_one hd h1) (alone_one hd h2)) (alone_maybes hd h3)
instance : Tells Context3.read := tells fun hd ⟨_, _, _, _, _, h⟩ => alone_many hd h
instance : Tells Context.read := tells fun {_ _ t} hd h => by
  cases t with
  | format1 t => exact alone_one hd (r := Context1.read) h.2
  | format2 t => exact alone_one hd (r := Context2.read) h.2
  | format3 t => exact alone_one hd (r := Context3.read) h.2

instance : Tells ChainedContext1.read := tells fun hd ⟨_, _, _, _, h1, h2⟩ =>
  alone_append (alone_one hd h1) (alone_many hd h2)
instance : Tells ChainedContext2.read := tells fun hd ⟨_, _, _, _, _, _, _, h0, h1, h2, h3, h⟩ =>
  alone_append (alone_append (alone_append (alone_append (alone_one hd h0) (alone_one hd h1)) (alone_one hd h2))
    (alone_one hd h3)) (alone_maybes hd h)
instance : Tells ChainedContext3.read := tells fun hd ⟨_, _, _, _, _, _, _, _, _, h1, h2, h3⟩ =>
  alone_append (alone_append (alone_many hd h1) (alone_many hd h2)) (alone_many hd h3)
instance : Tells ChainedContext.read := tells fun {_ _ t} hd h => by
  cases t with
  | format1 t => exact alone_one hd (r := ChainedContext1.read) h.2
  | format2 t => exact alone_one hd (r := ChainedContext2.read) h.2
  | format3 t => exact alone_one hd (r := ChainedContext3.read) h.2

end

section
open script feature lookup directory

instance : Tells language.Record.read := ⟨fun _ _ => alone_nil⟩
instance : Tells script.Record.read := tells fun hd ⟨_, _, _, h1, h2⟩ => alone_append (alone_maybe hd h1) (alone_many hd h2)
instance : Tells Scripts.read := tells fun hd ⟨_, _, h⟩ => alone_many hd h
instance : Tells feature.Record.read := ⟨fun _ _ => alone_nil⟩
instance : Tells Features.read := tells fun hd ⟨_, _, h⟩ => alone_many hd h
instance : Tells Variations.read := ⟨fun _ _ => alone_nil⟩

variable {T : Type} {cfg : Cfg} {readTable : Nat → Reader T} {S : Nat → Data → Nat → T → Prop} [∀ n, Parts (readTable n)]
  [∀ n, Parses (readTable n) (S n)] [∀ n, Tells (readTable n)]

instance : Tells (lookup.Record.read cfg readTable) := tells fun {_ _ t} hd ⟨_, _, _, _, _, _, h⟩ =>
  alone_many hd (r := readTable t.type_) h
instance : Tells (Lookups.read cfg readTable) := tells fun hd ⟨_, _, h⟩ =>
  alone_many hd (r := lookup.Record.read cfg readTable) h
instance : Tells (Directory.read cfg readTable) := tells fun hd ⟨_, _, _, _, _, _, _, _, hs, hf, hl, hv⟩ =>
  alone_append (alone_append (alone_append (alone_part hd hs) (alone_part hd hf))
    (alone_part hd (r := Lookups.read cfg readTable) hl)) (alone_maybe hd hv)

end

section
open OpenType.gsub

instance : Tells Alternates.read := ⟨fun _ _ => alone_nil⟩
instance : Tells Sequence.read := ⟨fun _ _ => alone_nil⟩
instance : Tells gsub.Ligature.read := ⟨fun _ _ => alone_nil⟩
instance : Tells gsub.Ligatures.read := tells fun hd h => alone_many hd h.2.2
instance : Tells SingleSubstitution1.read := tells fun hd ⟨_, _, _, h⟩ => alone_one hd h
instance : Tells SingleSubstitution2.read := tells fun hd ⟨_, _, _, _, h⟩ => alone_one hd h
instance : Tells SingleSubstitution.read := tells fun {_ _ t} hd h => by
  cases t with
  | format1 t => exact alone_one hd (r := SingleSubstitution1.read) h.2
  | format2 t => exact alone_one hd (r := SingleSubstitution2.read) h.2
instance : Tells MultipleSubstitution.read := tells fun hd ⟨_, _, _, _, _, h1, h2⟩ =>
  alone_append (alone_one hd h1) (alone_many hd h2)
instance : Tells AlternateSubstitution.read := tells fun hd ⟨_, _, _, _, _, h1, h2⟩ =>
  alone_append (alone_one hd h1) (alone_many hd h2)
instance : Tells LigatureSubstitution.read := tells fun hd ⟨_, _, _, _, _, h1, h2⟩ =>
  alone_append (alone_one hd h1) (alone_many hd h2)
instance : Tells ExtensionSubstitution.read := ⟨fun _ _ => alone_nil⟩
instance : Tells ReverseChainedContextualSubstibution.read := tells fun hd ⟨_, _, _, _, _, _, _, _, h, h1, h2⟩ =>
  alone_append (alone_append (alone_one hd h) (alone_many hd h1)) (alone_many hd h2)
instance (n : Nat) : Tells (gsub.Type_.read n) := tells fun {_ _ t} hd h => by
  cases t with
  | singleSubstitution t => exact alone_one hd (r := SingleSubstitution.read) h.2
  | multipleSubstitution t => exact alone_one hd (r := MultipleSubstitution.read) h.2
  | alternateSubstitution t => exact alone_one hd (r := AlternateSubstitution.read) h.2
  | ligatureSubstitution t => exact alone_one hd (r := LigatureSubstitution.read) h.2
  | contextualSubstitution t => exact alone_one hd (r := context.Context.read) h.2
  | chainedContextualSubstitution t => exact alone_one hd (r := context.ChainedContext.read) h.2
  | extensionSubstitution t => exact alone_one hd (r := ExtensionSubstitution.read) h.2
  | reverseChainedContextualSubstibution t => exact alone_one hd (r := ReverseChainedContextualSubstibution.read) h.2
instance (cfg : Cfg) : Tells (GlyphSubstitution.read cfg) :=
  inferInstanceAs (Tells (directory.Directory.read cfg gsub.Type_.read))

end

section
open OpenType.gpos OpenType.Spec.gpos correction

instance : Tells Anchor1.read := ⟨fun _ _ => alone_nil⟩
instance : Tells Anchor2.read := ⟨fun _ _ => alone_nil⟩
instance : Tells Anchor3.read := tells fun hd ⟨_, _, _, _, _, h1, h2⟩ => alone_append (alone_maybe hd h1) (alone_maybe hd h2)
instance : Tells Anchor.read := tells fun {_ _ t} hd h => by
  cases t with
  | format1 t => exact alone_one hd (r := Anchor1.read) h.2
  | format2 t => exact alone_one hd (r := Anchor2.read) h.2
  | format3 t => exact alone_one hd (r := Anchor3.read) h.2

section
variable {d : Data} (hd : Fits d) {base : Nat}
include hd

theorem alone_correction {o : Option Nat} {x : Option Correction} (h : IsCorrectionOf d base o x) :
    ReadAlone d base (correctionPart o x) := by
  cases o with
  | none => exact alone_nil
  | some o => exact alone_maybe hd h

theorem alone_value {flags p : Nat} {t : Single} (h : gpos.IsSingle base flags d p t) : ReadAlone d base (valueParts t) := by
  obtain ⟨_, _, _, _, _, _, _, _, h1, h2, h3, h4⟩ := h
  exact alone_append (alone_append (alone_append (alone_correction hd h1) (alone_correction hd h2))
    (alone_correction hd h3)) (alone_correction hd h4)

theorem alone_values {flags p : Nat} {x : Option Single} (h : IsValue base flags d p x) :
    ReadAlone d base (x.toList.flatMap valueParts) := by
  cases x with
  | none => exact alone_nil
  | some x =>
    refine alone_flatMap fun y hy => ?_
    rcases List.mem_singleton.mp hy with rfl
    exact alone_value hd h.2

theorem alone_pair {f g p q : Nat} {x y : Option Single} (h : IsValue base f d p x) (h' : IsValue base g d q y) :
    ReadAlone d base (pairParts x y) :=
  alone_append (alone_values hd h) (alone_values hd h')

end

instance (f g : Nat) : Tells (Pair1s.read f g) := tells fun hd ⟨_, h⟩ =>
  alone_flatMap (h.all fun _ _ h => alone_pair hd h.2.1 h.2.2)
instance (n : Nat) : Tells (Bases.read n) := tells fun hd ⟨_, h⟩ => alone_flatMap (h.all fun _ _ h => alone_maybes hd h.2)
instance (n : Nat) : Tells (gpos.Ligature.read n) := tells fun hd ⟨_, h⟩ =>
  alone_flatMap (h.all fun _ _ h => alone_maybes hd h.2)
instance (n : Nat) : Tells (gpos.Ligatures.read n) := tells fun hd ⟨_, _, h⟩ => alone_many hd h
instance (cfg : Cfg) : Tells (Mark1s.read cfg) := tells fun hd ⟨_, h⟩ => by
  refine alone_flatMap (h.all fun _ x ⟨_, _, h⟩ => ?_)
  unfold lenient
  unfold IsMarkAnchor at h
  split
  · exact alone_nil
  · next hc =>
    rw [if_neg hc] at h
    exact alone_one hd h
instance (n : Nat) : Tells (Mark2s.read n) := tells fun hd ⟨_, h⟩ => alone_flatMap (h.all fun _ _ h => alone_maybes hd h.2)

instance (cfg : Cfg) : Tells (SingleAdjustment1.read cfg) := tells fun hd ⟨_, _, _, _, h1, h2⟩ =>
  alone_append (alone_one hd h2) (alone_value hd h1)
instance (cfg : Cfg) : Tells (SingleAdjustment2.read cfg) := tells fun hd ⟨_, _, _, _, _, h1, h2⟩ =>
  alone_append (alone_one hd h2) (alone_flatMap (h1.all fun _ _ h => alone_value hd h))
instance (cfg : Cfg) : Tells (SingleAdjustment.read cfg) := tells fun {_ _ t} hd h => by
  cases t with
  | format1 t => exact alone_one hd (r := SingleAdjustment1.read cfg) h.2
  | format2 t => exact alone_one hd (r := SingleAdjustment2.read cfg) h.2
instance (cfg : Cfg) : Tells (PairAdjustment1.read cfg) := tells fun {_ _ t} hd ⟨_, _, _, _, _, _, _, _, h1, h2⟩ =>
  alone_append (alone_one hd h1) (alone_many hd (r := Pair1s.read t.value1_flags t.value2_flags) h2)
instance (cfg : Cfg) : Tells (PairAdjustment2.read cfg) := tells fun hd ⟨_, _, _, _, _, _, _, _, _, _, h, h0, h1, h2⟩ =>
  alone_append (alone_append (alone_append (alone_one hd h0) (alone_one hd h1)) (alone_one hd h2))
    (alone_flatMap (h.all fun _ _ h => alone_flatMap (h.all fun _ _ h => alone_pair hd h.1 h.2)))
instance (cfg : Cfg) : Tells (PairAdjustment.read cfg) := tells fun {_ _ t} hd h => by
  cases t with
  | format1 t => exact alone_one hd (r := PairAdjustment1.read cfg) h.2
  | format2 t => exact alone_one hd (r := PairAdjustment2.read cfg) h.2
instance : Tells CursiveAttachment.read := tells fun hd ⟨_, _, _, _, h, h0⟩ =>
  alone_append (alone_one hd h0)
    (alone_flatMap (h.all fun _ _ h => alone_append (alone_maybe hd h.2.2.1) (alone_maybe hd h.2.2.2)))
instance (cfg : Cfg) : Tells (MarkToBaseAttachment.read cfg) := tells fun {_ _ t} hd ⟨_, _, _, _, _, _, _, h1, h2, h3, h4⟩ =>
  alone_append (alone_append (alone_append (alone_one hd h1) (alone_one hd h2)) (alone_one hd (r := Mark1s.read cfg) h3))
    (alone_one hd (r := Bases.read t.mark_class_count) h4)
instance (cfg : Cfg) : Tells (MarkToLigatureAttachment.read cfg) :=
  tells fun {_ _ t} hd ⟨_, _, _, _, _, _, _, h1, h2, h3, h4⟩ =>
  alone_append (alone_append (alone_append (alone_one hd h1) (alone_one hd h2)) (alone_one hd (r := Mark1s.read cfg) h3))
    (alone_one hd (r := gpos.Ligatures.read t.mark_class_count) h4)
instance (cfg : Cfg) : Tells (MarkToMarkAttachment.read cfg) := tells fun {_ _ t} hd ⟨_, _, _, _, _, _, _, h1, h2, h3, h4⟩ =>
  alone_append (alone_append (alone_append (alone_one hd h1) (alone_one hd h2)) (alone_one hd (r := Mark1s.read cfg) h3))
    (alone_one hd (r := Mark2s.read t.mark_class_count) h4)
instance : Tells ExtensionPositioning.read := ⟨fun _ _ => alone_nil⟩
instance (cfg : Cfg) (n : Nat) : Tells (gpos.Type_.read cfg n) := tells fun {_ _ t} hd h => by
  cases t with
  | singleAdjustment t => exact alone_one hd (r := SingleAdjustment.read cfg) h.2
  | pairAdjustment t => exact alone_one hd (r := PairAdjustment.read cfg) h.2
  | cursiveAttachment t => exact alone_one hd (r := CursiveAttachment.read) h.2
  | markToBaseAttachment t => exact alone_one hd (r := MarkToBaseAttachment.read cfg) h.2
  | markToLigatureAttachment t => exact alone_one hd (r := MarkToLigatureAttachment.read cfg) h.2
  | markToMarkAttachment t => exact alone_one hd (r := MarkToMarkAttachment.read cfg) h.2
  | contextualPositioning t => exact alone_one hd (r := context.Context.read) h.2
  | chainedContextualPositioning t => exact alone_one hd (r := context.ChainedContext.read) h.2
  | extensionPositioning t => exact alone_one hd (r := ExtensionPositioning.read) h.2
instance (cfg : Cfg) : Tells (GlyphPositioning.read cfg) :=
  inferInstanceAs (Tells (directory.Directory.read cfg (gpos.Type_.read cfg)))

end

section
open OpenType.gdef

instance (cfg : Cfg) : Tells (item.Record.read cfg) := ⟨fun _ _ => alone_nil⟩
instance (cfg : Cfg) : Tells (item.Store.read cfg) := tells fun hd ⟨_, _, _, _, _, h⟩ =>
  alone_many hd (r := item.Record.read cfg) h
instance : Tells Attachment.read := ⟨fun _ _ => alone_nil⟩
instance : Tells Attachments.read := tells fun hd ⟨_, _, _, h1, h2⟩ => alone_append (alone_one hd h1) (alone_many hd h2)
instance : Tells Caret1.read := ⟨fun _ _ => alone_nil⟩
instance : Tells Caret2.read := ⟨fun _ _ => alone_nil⟩
instance : Tells Caret3.read := tells fun hd ⟨_, _, _, h⟩ => alone_one hd h
instance : Tells Caret.read := tells fun {_ _ t} hd h => by
  cases t with
  | format1 t => exact alone_one hd (r := Caret1.read) h.2
  | format2 t => exact alone_one hd (r := Caret2.read) h.2
  | format3 t => exact alone_one hd (r := Caret3.read) h.2
instance : Tells gdef.Ligature.read := tells fun hd ⟨_, _, h⟩ => alone_many hd h
instance : Tells gdef.Ligatures.read := tells fun hd ⟨_, _, _, h1, h2⟩ => alone_append (alone_one hd h1) (alone_many hd h2)
instance : Tells Marks.read := tells fun hd ⟨_, _, _, _, h⟩ => alone_many hd h
instance : Tells gdef.Header1.read := ⟨fun _ _ => alone_nil⟩
instance : Tells Header12.read := ⟨fun _ _ => alone_nil⟩
instance : Tells Header13.read := ⟨fun _ _ => alone_nil⟩
instance : Tells gdef.Header.read := tells fun {_ _ t} hd h => by
  cases t with
  | version1 t => exact alone_one hd (r := gdef.Header1.read) h
  | version12 t => exact alone_one hd (r := Header12.read) h
  | version13 t => exact alone_one hd (r := Header13.read) h
instance (cfg : Cfg) : Tells (GlyphDefinition.read cfg) := tells fun hd ⟨⟨h0, h1, h2, h3, h4, h5⟩, h6⟩ =>
  alone_append (alone_append (alone_append (alone_append (alone_append (alone_append
    (alone_one hd (r := gdef.Header.read) h0) (alone_maybe hd h1)) (alone_maybe hd h2)) (alone_maybe hd h3))
    (alone_maybe hd h4)) (alone_maybe hd h5)) (alone_maybe hd (r := item.Store.read cfg) h6)

end

section
open cpal fvar

instance : Tells Color.read := ⟨fun _ _ => alone_nil⟩
instance : Tells Header0.read := ⟨fun _ _ => alone_nil⟩
instance : Tells cpal.Header1.read := ⟨fun _ _ => alone_nil⟩
instance : Tells cpal.Header.read := tells fun {_ _ t} hd h => by
  cases t with
  | version0 t => exact alone_one hd (r := Header0.read) h
  | version1 t => exact alone_one hd (r := cpal.Header1.read) h
instance : Tells ColorPalettes.read := tells fun {_ _ t} hd ⟨h0, h⟩ => by
  refine alone_append (alone_one hd (r := cpal.Header.read) h0) ?_
  cases t with
  | mk header colors =>
    cases header with
    | version0 _ => exact alone_row hd h
    | version1 _ => exact alone_row hd h

instance : Tells fvar.Header.read := ⟨fun _ _ => alone_nil⟩
instance (cfg : Cfg) : Tells (AxisRecord.read cfg) := ⟨fun _ _ => alone_nil⟩
instance (cfg : Cfg) (n : Nat) : Tells (InstanceRecord.read cfg n) := ⟨fun _ _ => alone_nil⟩
instance (cfg : Cfg) : Tells (FontVariations.read cfg) := tells fun {_ _ t} hd ⟨h0, h1, h2⟩ => by
  refine alone_append (alone_append (alone_read hd (r := fvar.Header.read) ((reads_fixed hd).mpr h0))
    (alone_row hd (r := AxisRecord.read cfg) h1)) ?_
  rw [Nat.add_assoc] at h2
  exact alone_row hd (r := InstanceRecord.read cfg t.header.axis_count) h2

end

end OpenType
