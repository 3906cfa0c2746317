import Verif.Spec.Edited
/-!
# Tables that differ in their data only

What is edited stays valid (`StaysValid`), and is written to the same places (`Level`).
-/

namespace OpenType.Spec
open OpenType

/-- Other data do not make a table invalid. -/
class StaysValid {α : Type} [Edited α] (V : α → Prop) : Prop where
  stays : ∀ x y, edited x y → V x → V y

export StaysValid (stays)

section
variable {α : Type} [Edited α]

theorem edited_all {V : α → Prop} [StaysValid V] {xs ys : List α} (h : edited xs ys) (hv : ∀ x ∈ xs, V x) :
    ∀ y ∈ ys, V y := by
  intro y hy
  obtain ⟨i, hi⟩ := List.mem_iff_getElem?.mp hy
  have hl := (List.getElem?_eq_some_iff.mp hi).1
  have hl' : i < xs.length := by rw [← h.1]; exact hl
  exact stays _ _ (h.2 i _ y (List.getElem?_eq_getElem hl') hi) (hv _ (List.getElem_mem hl'))

theorem edited_opt {V : α → Prop} [StaysValid V] {x y : Option α} (h : edited x y) (hv : ∀ a, x = some a → V a) :
    ∀ a, y = some a → V a := by
  rintro b rfl
  cases x with
  | none => exact h.elim
  | some a => exact stays _ _ h (hv a rfl)

theorem edited_none {x y : Option α} (h : edited x y) : y = none ↔ x = none := by
  cases x <;> cases y <;> simp_all [edited]

theorem edited_presence {o : Nat} {x y : Option α} (h : edited x y) (hp : Presence o x) : Presence o y :=
  (edited_none h).trans hp

theorem edited_presences {os : List Nat} {xs ys : List (Option α)} (h : edited xs ys) (hp : Presences os xs) :
    Presences os ys := by
  intro i o y ho hy
  have hl : i < xs.length := by rw [← h.1]; exact (List.getElem?_eq_some_iff.mp hy).1
  exact edited_presence (h.2 i _ y (List.getElem?_eq_getElem hl) hy)
    (hp i o _ ho (List.getElem?_eq_getElem hl))

instance [Valid α] [StaysValid (valid : α → Prop)] : StaysValid (valid : List α → Prop) := ⟨fun _ _ h hv => edited_all h hv⟩
instance [Valid α] [StaysValid (valid : α → Prop)] : StaysValid (valid : Option α → Prop) := ⟨fun _ _ h hv => edited_opt h hv⟩

end

section layout
open coverage class_ correction context

instance : StaysValid (valid : coverage.Record → Prop) := ⟨fun _ _ h _ => h⟩
instance : StaysValid (valid : Coverage1 → Prop) := ⟨fun x y ⟨e, h⟩ ⟨v1, v2, v3, _⟩ => by
  rw [e]; exact ⟨v1, v2, h.1.trans v3, h.2⟩⟩
instance : StaysValid (valid : Coverage2 → Prop) := ⟨fun x y ⟨e, h⟩ ⟨v1, v2, v3, v4⟩ => by
  rw [e]; exact ⟨v1, v2, h.1.trans v3, stays _ _ h v4⟩⟩
instance : StaysValid (valid : Coverage → Prop) := ⟨fun x y h v => by
  cases x <;> cases y <;> first | exact h.elim | skip
  · exact ⟨(congrArg _ h.1).trans v.1, stays _ _ h v.2⟩
  · exact ⟨(congrArg _ h.1).trans v.1, stays _ _ h v.2⟩⟩

instance : StaysValid (valid : class_.Record → Prop) := ⟨fun _ _ h _ => h⟩
instance : StaysValid (valid : Class1 → Prop) := ⟨fun x y ⟨e, h1, h2⟩ ⟨v1, _, v3, v4, _⟩ => by
  rw [e]; exact ⟨v1, h1, v3, h2.1.trans v4, h2.2⟩⟩
instance : StaysValid (valid : Class2 → Prop) := ⟨fun x y ⟨e, h⟩ ⟨v1, v2, v3, v4⟩ => by
  rw [e]; exact ⟨v1, v2, h.1.trans v3, stays _ _ h v4⟩⟩
instance : StaysValid (valid : Class → Prop) := ⟨fun x y h v => by
  cases x <;> cases y <;> first | exact h.elim | skip
  · exact ⟨(congrArg _ h.1).trans v.1, stays _ _ h v.2⟩
  · exact ⟨(congrArg _ h.1).trans v.1, stays _ _ h v.2⟩⟩
instance : StaysValid (valid : Device → Prop) := ⟨fun x y ⟨e, h⟩ ⟨v1, v2, v3, v4, v5, v6, _⟩ => by
  rw [e]; exact ⟨v1, v2, v3, v4, v5, h.1.trans v6, h.2⟩⟩
instance : StaysValid (valid : Variation → Prop) := ⟨fun x y ⟨e, h1, h2⟩ ⟨_, _, v3⟩ => by
  rw [e]; exact ⟨h1, h2, v3⟩⟩
instance : StaysValid (valid : Correction → Prop) := ⟨fun x y h v => by
  cases x <;> cases y <;> first | exact h.elim | skip
  · exact stays (V := (valid : Device → Prop)) _ _ h v
  · exact ⟨(congrArg _ h.1).trans v.1, stays _ _ h v.2⟩⟩

instance : StaysValid (valid : Action → Prop) := ⟨fun _ _ h _ => h⟩
instance : StaysValid (valid : context.Record → Prop) := ⟨fun x y ⟨e, h1, h2⟩ ⟨v1, v2, v3, _, v5, v6⟩ => by
  rw [e]; exact ⟨v1, v2, (congrArg (· + 1) h1.1).trans v3, h1.2, h2.1.trans v5, stays _ _ h2 v6⟩⟩
instance : StaysValid (valid : Records → Prop) := ⟨fun x y ⟨e, h⟩ ⟨v1, v2, v3, v4, v5⟩ => by
  rw [e]; exact ⟨v1, v2, v3, h.1.trans v4, stays _ _ h v5⟩⟩
instance : StaysValid (valid : ClassRecord → Prop) := ⟨fun x y ⟨e, h1, h2⟩ ⟨v1, v2, v3, _, v5, v6⟩ => by
  rw [e]; exact ⟨v1, v2, (congrArg (· + 1) h1.1).trans v3, h1.2, h2.1.trans v5, stays _ _ h2 v6⟩⟩
instance : StaysValid (valid : ClassRecords → Prop) := ⟨fun x y ⟨e, h⟩ ⟨v1, v2, v3, v4, v5⟩ => by
  rw [e]; exact ⟨v1, v2, v3, h.1.trans v4, stays _ _ h v5⟩⟩
instance : StaysValid (valid : ChainedRecord → Prop) := ⟨fun x y ⟨e, h1, h2, h3, h4⟩ ⟨v1, v2, _, v4, v5, _, v7, v8, _, v10, v11, v12⟩ => by
  rw [e]; exact ⟨v1, h1.1.trans v2, h1.2, v4, (congrArg (· + 1) h2.1).trans v5, h2.2, v7, h3.1.trans v8, h3.2, v10,
    h4.1.trans v11, stays _ _ h4 v12⟩⟩
instance : StaysValid (valid : ChainedRecords → Prop) := ⟨fun x y ⟨e, h⟩ ⟨v1, v2, v3, v4, v5⟩ => by
  rw [e]; exact ⟨v1, v2, v3, h.1.trans v4, stays _ _ h v5⟩⟩
instance : StaysValid (valid : ChainedClassRecord → Prop) := ⟨fun x y ⟨e, h1, h2, h3, h4⟩ ⟨v1, v2, _, v4, v5, _, v7, v8, _, v10, v11, v12⟩ => by
  rw [e]; exact ⟨v1, h1.1.trans v2, h1.2, v4, (congrArg (· + 1) h2.1).trans v5, h2.2, v7, h3.1.trans v8, h3.2, v10,
    h4.1.trans v11, stays _ _ h4 v12⟩⟩
instance : StaysValid (valid : ChainedClassRecords → Prop) := ⟨fun x y ⟨e, h⟩ ⟨v1, v2, v3, v4, v5⟩ => by
  rw [e]; exact ⟨v1, v2, v3, h.1.trans v4, stays _ _ h v5⟩⟩

instance : StaysValid (valid : Context1 → Prop) := ⟨fun x y ⟨e, h1, h2⟩ ⟨v1, v2, v3, v4, v5, v6, v7, v8⟩ => by
  rw [e]; exact ⟨v1, v2, v3, v4, v5, stays _ _ h1 v6, h2.1.trans v7, stays _ _ h2 v8⟩⟩
instance : StaysValid (valid : Context2 → Prop) := ⟨fun x y ⟨e, h1, h2, h3⟩ ⟨v1, v2, v3, v4, v5, v6, v7, v8, v9, v10, v11⟩ => by
  rw [e]; exact ⟨v1, v2, v3, v4, v5, v6, stays _ _ h1 v7, stays _ _ h2 v8, h3.1.trans v9, edited_presences h3 v10, stays _ _ h3 v11⟩⟩
instance : StaysValid (valid : Context3 → Prop) := ⟨fun x y ⟨e, h1, h2⟩ ⟨v1, v2, v3, v4, v5, v6, v7, v8, v9⟩ => by
  rw [e]; exact ⟨v1, v2, v3, v4, v5, h1.1.trans v6, stays _ _ h1 v7, h2.1.trans v8, stays _ _ h2 v9⟩⟩
instance : StaysValid (valid : Context → Prop) := ⟨fun x y h v => by
  cases x <;> cases y <;> first | exact h.elim | skip
  · exact ⟨(congrArg _ h.1).trans v.1, stays _ _ h v.2⟩
  · exact ⟨(congrArg _ h.1).trans v.1, stays _ _ h v.2⟩
  · exact ⟨(congrArg _ h.1).trans v.1, stays _ _ h v.2⟩⟩

instance : StaysValid (valid : ChainedContext1 → Prop) := ⟨fun x y ⟨e, h1, h2⟩ ⟨v1, v2, v3, v4, v5, v6, v7, v8⟩ => by
  rw [e]; exact ⟨v1, v2, v3, v4, v5, stays _ _ h1 v6, h2.1.trans v7, stays _ _ h2 v8⟩⟩
instance : StaysValid (valid : ChainedContext2 → Prop) := ⟨fun x y ⟨e, h1, h2, h3, h4, h5⟩ ⟨v1, v2, v3, v4, v5, v6, v7, v8, v9, v10, v11, v12, v13, v14, v15⟩ => by
  rw [e]; exact ⟨v1, v2, v3, v4, v5, v6, v7, v8, stays _ _ h1 v9, stays _ _ h2 v10, stays _ _ h3 v11, stays _ _ h4 v12,
    h5.1.trans v13, edited_presences h5 v14, stays _ _ h5 v15⟩⟩
instance : StaysValid (valid : ChainedContext3 → Prop) := ⟨fun x y ⟨e, h1, h2, h3, h4⟩ ⟨v1, v2, v3, v4, v5, v6, v7, v8, v9, v10, v11, v12, v13, v14, v15, v16,
    v17, v18, v19⟩ => by
  rw [e]; exact ⟨v1, v2, v3, v4, v5, v6, v7, v8, v9, v10, v11, h1.1.trans v12, stays _ _ h1 v13,
    h2.1.trans v14, stays _ _ h2 v15, h3.1.trans v16, stays _ _ h3 v17, h4.1.trans v18, stays _ _ h4 v19⟩⟩
instance : StaysValid (valid : ChainedContext → Prop) := ⟨fun x y h v => by
  cases x <;> cases y <;> first | exact h.elim | skip
  · exact ⟨(congrArg _ h.1).trans v.1, stays _ _ h v.2⟩
  · exact ⟨(congrArg _ h.1).trans v.1, stays _ _ h v.2⟩
  · exact ⟨(congrArg _ h.1).trans v.1, stays _ _ h v.2⟩⟩

end layout

section lists
open script feature lookup directory

instance : StaysValid (valid : language.Header → Prop) := ⟨fun x y ⟨e, h⟩ ⟨_, v2⟩ => by
  rw [e]; exact ⟨h, v2⟩⟩
instance : StaysValid (valid : language.Record → Prop) := ⟨fun x y ⟨e, h1, h2⟩ ⟨v1, _, v3, v4, _⟩ => by
  rw [e]; exact ⟨v1, h1, v3, h2.1.trans v4, h2.2⟩⟩
instance : StaysValid (valid : script.Header → Prop) := ⟨fun x y ⟨e, h⟩ ⟨_, v2⟩ => by
  rw [e]; exact ⟨h, v2⟩⟩
instance : StaysValid (valid : script.Record → Prop) := ⟨fun x y ⟨e, h1, h2, h3⟩ ⟨v1, v2, v3, v4, v5, v6, v7, v8⟩ => by
  rw [e]; exact ⟨v1, v2, h1.1.trans v3, stays _ _ h1 v4, edited_presence h2 v5, stays _ _ h2 v6, h3.1.trans v7, stays _ _ h3 v8⟩⟩
instance : StaysValid (valid : Scripts → Prop) := ⟨fun x y ⟨e, h1, h2⟩ ⟨v1, v2, v3, v4, v5⟩ => by
  rw [e]; exact ⟨v1, h1.1.trans v2, stays _ _ h1 v3, h2.1.trans v4, stays _ _ h2 v5⟩⟩
instance : StaysValid (valid : feature.Header → Prop) := ⟨fun x y ⟨e, h⟩ ⟨_, v2⟩ => by
  rw [e]; exact ⟨h, v2⟩⟩
instance : StaysValid (valid : feature.Record → Prop) := ⟨fun x y ⟨e, h⟩ ⟨v1, v2, v3, _, v5⟩ => by
  rw [e]; exact ⟨v1, v2, h.1.trans v3, h.2, v5⟩⟩
instance : StaysValid (valid : Features → Prop) := ⟨fun x y ⟨e, h1, h2⟩ ⟨v1, v2, v3, v4, v5⟩ => by
  rw [e]; exact ⟨v1, h1.1.trans v2, stays _ _ h1 v3, h2.1.trans v4, stays _ _ h2 v5⟩⟩

instance {T : Type} [Edited T] {cfg : Cfg} {V : Nat → T → Prop} [∀ n, StaysValid (V n)] : StaysValid (validLookup cfg V) :=
  ⟨fun x y ⟨e, h1, h2⟩ ⟨v1, v2, v3, v4, v5, v6, v7, v8, v9⟩ => by
    rw [e]
    refine ⟨v1, v2, v3, v4, v5, v6, ?_, h2.1.trans v8, edited_all h2 v9⟩
    revert h1 v7
    show Replaced _ x.mark_filtering_set y.mark_filtering_set → _
    cases x.mark_filtering_set <;> cases y.mark_filtering_set
    · exact fun _ v => v
    · exact fun h => h.elim
    · exact fun h => h.elim
    · exact fun h v => ⟨v.1, h⟩⟩
instance {T : Type} [Edited T] {cfg : Cfg} {V : Nat → T → Prop} [∀ n, StaysValid (V n)] : StaysValid (validLookups cfg V) :=
  ⟨fun x y ⟨e, h⟩ ⟨v1, v2, v3, v4, v5⟩ => by rw [e]; exact ⟨v1, v2, v3, h.1.trans v4, edited_all h v5⟩⟩

theorem edited_part {α : Type} [Edited α] {cfg : Cfg} {V : α → Prop} [StaysValid V] {o : Nat} {empty x y : α}
    (he : ∀ y, edited empty y → y = empty) (h : edited x y) (hv : validPart cfg V o empty x) :
    validPart cfg V o empty y := by
  unfold validPart at hv ⊢
  split at hv
  · next c => rw [if_pos c]; subst hv; exact he y h
  · next c => rw [if_neg c]; exact stays _ _ h hv

instance {T : Type} [Edited T] {cfg : Cfg} {V : Nat → T → Prop} [∀ n, StaysValid (V n)] : StaysValid (validDirectory cfg V) :=
  ⟨fun x y ⟨e, h1, h2, h3⟩ ⟨v1, v2, v3, v4, v5, v6, v7, v8, v9, v10, v11⟩ => by
    rw [e]
    refine ⟨v1, v2, v3, v4, v5, v6, v7, edited_part ?_ h1 v8, edited_part ?_ h2 v9, edited_part ?_ h3 v10, v11⟩
    · rintro ⟨_, _, _⟩ ⟨e, a, b⟩
      cases e; cases List.length_eq_zero_iff.mp a.1; cases List.length_eq_zero_iff.mp b.1; rfl
    · rintro ⟨_, _, _⟩ ⟨e, a, b⟩
      cases e; cases List.length_eq_zero_iff.mp a.1; cases List.length_eq_zero_iff.mp b.1; rfl
    · rintro ⟨_, _, _⟩ ⟨e, b⟩
      cases e; cases List.length_eq_zero_iff.mp b.1; rfl⟩

end lists

section gsub
open OpenType.gsub

instance : StaysValid (valid : Alternates → Prop) := ⟨fun x y ⟨e, h⟩ ⟨v1, v2, _⟩ => by
  rw [e]; exact ⟨v1, h.1.trans v2, h.2⟩⟩
instance : StaysValid (valid : gsub.Ligature → Prop) := ⟨fun x y ⟨e, h1, h2⟩ ⟨_, v2, v3, _⟩ => by
  rw [e]; exact ⟨h1, v2, (congrArg (· + 1) h2.1).trans v3, h2.2⟩⟩
instance : StaysValid (valid : gsub.Ligatures → Prop) := ⟨fun x y ⟨e, h⟩ ⟨v1, v2, v3, v4, v5⟩ => by
  rw [e]; exact ⟨v1, v2, v3, h.1.trans v4, stays _ _ h v5⟩⟩
instance : StaysValid (valid : Sequence → Prop) := ⟨fun x y ⟨e, h⟩ ⟨v1, v2, _⟩ => by
  rw [e]; exact ⟨v1, h.1.trans v2, h.2⟩⟩
instance : StaysValid (valid : SingleSubstitution1 → Prop) := ⟨fun x y ⟨e, h1, h2⟩ ⟨v1, v2, _, v4⟩ => by
  rw [e]; exact ⟨v1, v2, h1, stays _ _ h2 v4⟩⟩
instance : StaysValid (valid : SingleSubstitution2 → Prop) := ⟨fun x y ⟨e, h1, h2⟩ ⟨v1, v2, v3, v4, _, v6⟩ => by
  rw [e]; exact ⟨v1, v2, v3, h1.1.trans v4, h1.2, stays _ _ h2 v6⟩⟩
instance : StaysValid (valid : SingleSubstitution → Prop) := ⟨fun x y h v => by
  cases x <;> cases y <;> first | exact h.elim | skip
  · exact ⟨(congrArg _ h.1).trans v.1, stays _ _ h v.2⟩
  · exact ⟨(congrArg _ h.1).trans v.1, stays _ _ h v.2⟩⟩

instance : StaysValid (valid : MultipleSubstitution → Prop) := ⟨fun x y ⟨e, h1, h2⟩ ⟨v1, v2, v3, v4, v5, v6, v7, v8⟩ => by
  rw [e]; exact ⟨v1, v2, v3, v4, v5, stays _ _ h1 v6, h2.1.trans v7, stays _ _ h2 v8⟩⟩
instance : StaysValid (valid : AlternateSubstitution → Prop) := ⟨fun x y ⟨e, h1, h2⟩ ⟨v1, v2, v3, v4, v5, v6, v7, v8⟩ => by
  rw [e]; exact ⟨v1, v2, v3, v4, v5, stays _ _ h1 v6, h2.1.trans v7, stays _ _ h2 v8⟩⟩
instance : StaysValid (valid : LigatureSubstitution → Prop) := ⟨fun x y ⟨e, h1, h2⟩ ⟨v1, v2, v3, v4, v5, v6, v7, v8⟩ => by
  rw [e]; exact ⟨v1, v2, v3, v4, v5, stays _ _ h1 v6, h2.1.trans v7, stays _ _ h2 v8⟩⟩
instance : StaysValid (valid : ExtensionSubstitution → Prop) := ⟨fun _ _ h v => h ▸ v⟩
instance : StaysValid (valid : ReverseChainedContextualSubstibution → Prop) := ⟨fun x y ⟨e, h1, h2, h3, h4⟩ ⟨v1, v2, v3, v4, v5, v6, v7, v8, v9, v10, _, v12, v13, v14, v15, v16⟩ => by
  rw [e]; exact ⟨v1, v2, v3, v4, v5, v6, v7, v8, v9, h1.1.trans v10, h1.2, stays _ _ h2 v12, h3.1.trans v13, stays _ _ h3 v14,
    h4.1.trans v15, stays _ _ h4 v16⟩⟩
instance {n : Nat} : StaysValid (gsub.validTable n) := ⟨fun x y h v => by
  cases x <;> cases y <;> first | exact h.elim | skip
  · exact ⟨v.1, stays _ _ h v.2⟩
  · exact ⟨v.1, stays _ _ h v.2⟩
  · exact ⟨v.1, stays _ _ h v.2⟩
  · exact ⟨v.1, stays _ _ h v.2⟩
  · exact ⟨v.1, stays _ _ h v.2⟩
  · exact ⟨v.1, stays _ _ h v.2⟩
  · exact ⟨v.1, stays _ _ h v.2⟩
  · exact ⟨v.1, stays _ _ h v.2⟩⟩

end gsub

section gpos
open OpenType.gpos

instance : StaysValid (valid : Anchor1 → Prop) := ⟨fun x y ⟨e, h1, h2⟩ ⟨v1, _⟩ => by
  rw [e]; exact ⟨v1, h1, h2⟩⟩
instance : StaysValid (valid : Anchor2 → Prop) := ⟨fun x y ⟨e, h1, h2, h3⟩ ⟨v1, _⟩ => by
  rw [e]; exact ⟨v1, h1, h2, h3⟩⟩
instance : StaysValid (valid : Anchor3 → Prop) := ⟨fun x y ⟨e, h1, h2, h3, h4⟩ ⟨v1, _, _, v4, v5, v6, v7, v8, v9⟩ => by
  rw [e]; exact ⟨v1, h1, h2, v4, v5, edited_presence h3 v6, stays _ _ h3 v7, edited_presence h4 v8, stays _ _ h4 v9⟩⟩
instance : StaysValid (valid : Anchor → Prop) := ⟨fun x y h v => by
  cases x <;> cases y <;> first | exact h.elim | skip
  · exact ⟨(congrArg _ h.1).trans v.1, stays _ _ h v.2⟩
  · exact ⟨(congrArg _ h.1).trans v.1, stays _ _ h v.2⟩
  · exact ⟨(congrArg _ h.1).trans v.1, stays _ _ h v.2⟩⟩

theorem replaced_field {α : Type} {flags k : Nat} {fits : α → Prop} {x y : Option α} (h : Replaced fits x y)
    (v : validField flags k fits x) : validField flags k fits y := by
  cases x <;> cases y
  · exact v
  · exact h.elim
  · exact h.elim
  · exact ⟨v.1, h⟩

theorem edited_correction {o : Option Nat} {x y : Option correction.Correction} (h : edited x y)
    (v : validCorrection o x) : validCorrection o y := by
  cases o with
  | none => exact (edited_none h).mpr v
  | some o => exact ⟨edited_presence h v.1, stays _ _ h v.2⟩

instance {flags : Nat} : StaysValid (validSingle flags) :=
  ⟨fun x y ⟨e, h1, h2, h3, h4, h5, h6, h7, h8⟩ ⟨v1, v2, v3, v4, v5, v6, v7, v8, v9, v10, v11, v12⟩ => by
    rw [e]
    exact ⟨replaced_field h1 v1, replaced_field h2 v2, replaced_field h3 v3, replaced_field h4 v4, v5, v6, v7, v8,
      edited_correction h5 v9, edited_correction h6 v10, edited_correction h7 v11, edited_correction h8 v12⟩⟩
instance {flags : Nat} : StaysValid (validValue flags) :=
  ⟨fun x y h v => by
    cases x <;> cases y
    · exact v
    · exact h.elim
    · exact h.elim
    · exact ⟨v.1, stays (V := validSingle flags) _ _ h v.2⟩⟩
instance {f1 f2 : Nat} : StaysValid (validPair1 f1 f2) :=
  ⟨fun _ _ ⟨h1, h2, h3⟩ ⟨_, v2, v3⟩ => ⟨h1, stays _ _ h2 v2, stays _ _ h3 v3⟩⟩
instance {f1 f2 : Nat} : StaysValid (validPair1s f1 f2) :=
  ⟨fun x y ⟨e, h⟩ ⟨v1, v2, v3⟩ => by rw [e]; exact ⟨v1, h.1.trans v2, edited_all h v3⟩⟩
instance {f1 f2 : Nat} : StaysValid (validPair2 f1 f2) := ⟨fun _ _ ⟨h1, h2⟩ ⟨v1, v2⟩ => ⟨stays _ _ h1 v1, stays _ _ h2 v2⟩⟩
instance {n f1 f2 : Nat} : StaysValid (validPair2s n f1 f2) := ⟨fun _ _ h ⟨v1, v2⟩ => ⟨h.1.trans v1, edited_all h v2⟩⟩
instance {n : Nat} : StaysValid (validBase n) := ⟨fun x y ⟨e, h⟩ ⟨v1, v2, v3, v4, v5⟩ => by
  rw [e]; exact ⟨v1, v2, h.1.trans v3, edited_presences h v4, stays _ _ h v5⟩⟩
instance {n : Nat} : StaysValid (validComponent n) := ⟨fun x y ⟨e, h⟩ ⟨v1, v2, v3, v4, v5⟩ => by
  rw [e]; exact ⟨v1, v2, h.1.trans v3, edited_presences h v4, stays _ _ h v5⟩⟩
instance {n : Nat} : StaysValid (validMark2 n) := ⟨fun x y ⟨e, h⟩ ⟨v1, v2, v3, v4, v5⟩ => by
  rw [e]; exact ⟨v1, v2, h.1.trans v3, edited_presences h v4, stays _ _ h v5⟩⟩
instance {n : Nat} : StaysValid (validBases n) :=
  ⟨fun x y ⟨e, h⟩ ⟨v1, v2, v3⟩ => by rw [e]; exact ⟨v1, h.1.trans v2, edited_all h v3⟩⟩
instance {n : Nat} : StaysValid (validMark2s n) :=
  ⟨fun x y ⟨e, h⟩ ⟨v1, v2, v3⟩ => by rw [e]; exact ⟨v1, h.1.trans v2, edited_all h v3⟩⟩
instance {n : Nat} : StaysValid (validLigature n) :=
  ⟨fun x y ⟨e, h⟩ ⟨v1, v2, v3⟩ => by rw [e]; exact ⟨v1, h.1.trans v2, edited_all h v3⟩⟩
instance : StaysValid (valid : Connection → Prop) := ⟨fun x y ⟨e, h1, h2⟩ ⟨v1, v2, v3, v4, v5, v6⟩ => by
  rw [e]; exact ⟨v1, v2, edited_presence h1 v3, stays _ _ h1 v4, edited_presence h2 v5, stays _ _ h2 v6⟩⟩
instance {n : Nat} : StaysValid (validLigatures n) :=
  ⟨fun x y ⟨e, h⟩ ⟨v1, v2, v3, v4, v5⟩ => by rw [e]; exact ⟨v1, v2, v3, h.1.trans v4, edited_all h v5⟩⟩
instance {cfg : Cfg} : StaysValid (validMark1 cfg) := ⟨fun x y ⟨e, h1, h2⟩ ⟨_, v2, v3⟩ => by
  rw [e]
  refine ⟨h1, v2, ?_⟩
  show if cfg.ignoreIncompleteMarks = true ∧ x.anchor_offset = 0 then y.anchor = _ else valid y.anchor
  split at h2
  · rw [h2]; exact v3
  · next c =>
    split at v3
    · exact absurd v3 c
    · next c' => rw [if_neg c']; exact stays _ _ h2.1 v3⟩
instance {cfg : Cfg} : StaysValid (validMark1s cfg) :=
  ⟨fun x y ⟨e, h⟩ ⟨v1, v2, v3⟩ => by rw [e]; exact ⟨v1, h.1.trans v2, edited_all h v3⟩⟩
instance {cfg : Cfg} : StaysValid (validSingleAdjustment1 cfg) := ⟨fun x y ⟨e, h1, h2⟩ ⟨v1, v2, v3, v4, v5, v6⟩ => by
  rw [e]; exact ⟨v1, v2, v3, v4, stays (V := validSingle x.value_flags) _ _ h1 v5, stays _ _ h2 v6⟩⟩
instance {cfg : Cfg} : StaysValid (validSingleAdjustment2 cfg) :=
  ⟨fun x y ⟨e, h1, h2⟩ ⟨v1, v2, v3, v4, v5, v6, v7, v8⟩ => by
    rw [e]; exact ⟨v1, v2, v3, v4, v5, h1.1.trans v6, edited_all h1 v7, stays _ _ h2 v8⟩⟩
instance {cfg : Cfg} : StaysValid (validSingleAdjustment cfg) := ⟨fun x y h v => by
  cases x <;> cases y <;> first | exact h.elim | skip
  · exact ⟨(congrArg _ h.1).trans v.1, stays _ _ h v.2⟩
  · exact ⟨(congrArg _ h.1).trans v.1, stays _ _ h v.2⟩⟩
instance {cfg : Cfg} : StaysValid (validPairAdjustment1 cfg) :=
  ⟨fun x y ⟨e, h1, h2⟩ ⟨v1, v2, v3, v4, v5, v6, v7, v8, v9, v10, v11, v12⟩ => by
    rw [e]
    exact ⟨v1, v2, v3, v4, v5, v6, v7, v8, v9, stays _ _ h1 v10, h2.1.trans v11, edited_all h2 v12⟩⟩
instance {cfg : Cfg} : StaysValid (validPairAdjustment2 cfg) :=
  ⟨fun x y ⟨e, h1, h2, h3, h4⟩ ⟨v1, v2, v3, v4, v5, v6, v7, v8, v9, v10, v11, v12, v13, v14, v15⟩ => by
    rw [e]
    exact ⟨v1, v2, v3, v4, v5, v6, v7, v8, v9, v10, h1.1.trans v11, edited_all h1 v12, stays _ _ h2 v13,
      stays _ _ h3 v14, stays _ _ h4 v15⟩⟩
instance {cfg : Cfg} : StaysValid (validPairAdjustment cfg) := ⟨fun x y h v => by
  cases x <;> cases y <;> first | exact h.elim | skip
  · exact ⟨(congrArg _ h.1).trans v.1, stays _ _ h v.2⟩
  · exact ⟨(congrArg _ h.1).trans v.1, stays _ _ h v.2⟩⟩
instance : StaysValid (valid : CursiveAttachment → Prop) := ⟨fun x y ⟨e, h1, h2⟩ ⟨v1, v2, v3, v4, v5, v6⟩ => by
  rw [e]; exact ⟨v1, v2, v3, h1.1.trans v4, stays _ _ h1 v5, stays _ _ h2 v6⟩⟩
instance {cfg : Cfg} : StaysValid (validMarkToBase cfg) :=
  ⟨fun x y ⟨e, h1, h2, h3, h4⟩ ⟨v1, v2, v3, v4, v5, v6, v7, v8, v9, v10⟩ => by
    rw [e]
    exact ⟨v1, v2, v3, v4, v5, v6, stays _ _ h1 v7, stays _ _ h2 v8, stays (V := validMark1s cfg) _ _ h3 v9,
      stays (V := validBases x.mark_class_count) _ _ h4 v10⟩⟩
instance {cfg : Cfg} : StaysValid (validMarkToLigature cfg) :=
  ⟨fun x y ⟨e, h1, h2, h3, h4⟩ ⟨v1, v2, v3, v4, v5, v6, v7, v8, v9, v10⟩ => by
    rw [e]
    exact ⟨v1, v2, v3, v4, v5, v6, stays _ _ h1 v7, stays _ _ h2 v8, stays (V := validMark1s cfg) _ _ h3 v9,
      stays (V := validLigatures x.mark_class_count) _ _ h4 v10⟩⟩
instance {cfg : Cfg} : StaysValid (validMarkToMark cfg) :=
  ⟨fun x y ⟨e, h1, h2, h3, h4⟩ ⟨v1, v2, v3, v4, v5, v6, v7, v8, v9, v10⟩ => by
    rw [e]
    exact ⟨v1, v2, v3, v4, v5, v6, stays _ _ h1 v7, stays _ _ h2 v8, stays (V := validMark1s cfg) _ _ h3 v9,
      stays (V := validMark2s x.mark_class_count) _ _ h4 v10⟩⟩
instance : StaysValid (valid : ExtensionPositioning → Prop) := ⟨fun _ _ h v => h ▸ v⟩
instance {cfg : Cfg} {n : Nat} : StaysValid (gpos.validTable cfg n) := ⟨fun x y h v => by
  cases x <;> cases y <;> first | exact h.elim | skip
  · exact ⟨v.1, stays _ _ h v.2⟩
  · exact ⟨v.1, stays _ _ h v.2⟩
  · exact ⟨v.1, stays _ _ h v.2⟩
  · exact ⟨v.1, stays _ _ h v.2⟩
  · exact ⟨v.1, stays _ _ h v.2⟩
  · exact ⟨v.1, stays _ _ h v.2⟩
  · exact ⟨v.1, stays _ _ h v.2⟩
  · exact ⟨v.1, stays _ _ h v.2⟩
  · exact ⟨v.1, stays _ _ h v.2⟩⟩

end gpos

section others
open OpenType.cpal OpenType.fvar OpenType.gdef

instance : StaysValid (valid : Color → Prop) := ⟨fun _ _ h _ => h⟩
instance : StaysValid (valid : cpal.Header0 → Prop) := ⟨fun x y ⟨e, h⟩ ⟨v1, v2, v3, v4, v5, v6, _⟩ => by
  rw [e]; exact ⟨v1, v2, v3, v4, v5, h.1.trans v6, h.2⟩⟩
instance : StaysValid (valid : cpal.Header1 → Prop) := ⟨fun x y ⟨e, h⟩ ⟨v1, v2, v3, v4, v5, v6, _⟩ => by
  rw [e]; exact ⟨v1, v2, v3, v4, v5, h.1.trans v6, h.2⟩⟩
instance : StaysValid (valid : ColorPalettes → Prop) := ⟨fun
  | ⟨.version0 _, _⟩, ⟨.version0 _, _⟩, ⟨h1, h2⟩, ⟨v1, v2, v3⟩ =>
    ⟨stays _ _ h2 v1, stays _ _ h1 v2, h2.1.trans (v3.trans (congrArg cpal.Header0.color_count h1.1).symm)⟩
  | ⟨.version1 _, _⟩, ⟨.version1 _, _⟩, ⟨h1, h2⟩, ⟨v1, v2, v3⟩ =>
    ⟨stays _ _ h2 v1, stays _ _ h1 v2, h2.1.trans (v3.trans (congrArg cpal.Header1.color_count h1.1).symm)⟩⟩

instance {cfg : Cfg} : StaysValid (validAxis cfg) :=
  ⟨fun x y ⟨e, h1, h2, h3, h4, h5⟩ ⟨_, _, _, _, v5, v6, _⟩ => by rw [e]; exact ⟨h1, h2, h3, h4, v5, v6, h5⟩⟩
instance {cfg : Cfg} {n : Nat} : StaysValid (validInstance cfg n) :=
  ⟨fun x y ⟨e, h1, h2, h3, h4⟩ ⟨_, v2, v3, v4, _, _⟩ => by rw [e]; exact ⟨h1, v2, v3, h2.trans v4, h3, h4⟩⟩
instance {cfg : Cfg} : StaysValid (validFontVariations cfg) :=
  ⟨fun x y ⟨e, h1, h2⟩ ⟨v1, v2, v3, v4, v5, v6, v7, v8, v9, v10, v11, v12⟩ => by
    rw [e]
    exact ⟨v1, v2, v3, v4, v5, v6, v7, v8, h1.1.trans v9, edited_all h1 v10, h2.1.trans v11, edited_all h2 v12⟩⟩

instance {cfg : Cfg} : StaysValid (validItemRecord cfg) :=
  ⟨fun x y ⟨e, h1, h2, h3⟩ ⟨v1, v2, v3, v4, _, v6, v7, _⟩ => by
    rw [e]; exact ⟨v1, v2, v3, h1.1.trans v4, h1.2, v6, h2.trans v7, h3⟩⟩
instance {cfg : Cfg} : StaysValid (validStore cfg) :=
  ⟨fun x y ⟨e, h⟩ ⟨v1, v2, v3, v4, v5, v6, v7⟩ => by
    rw [e]; exact ⟨v1, v2, v3, v4, v5, h.1.trans v6, edited_all h v7⟩⟩

instance : StaysValid (valid : Attachment → Prop) := ⟨fun x y ⟨e, h⟩ ⟨v1, v2, _⟩ => by
  rw [e]; exact ⟨v1, h.1.trans v2, h.2⟩⟩
instance : StaysValid (valid : Attachments → Prop) := ⟨fun x y ⟨e, h1, h2⟩ ⟨v1, v2, v3, v4, v5, v6, v7⟩ => by
  rw [e]; exact ⟨v1, v2, v3, v4, stays _ _ h1 v5, h2.1.trans v6, stays _ _ h2 v7⟩⟩
instance : StaysValid (valid : Marks → Prop) := ⟨fun x y ⟨e, h⟩ ⟨v1, v2, v3, v4, v5, v6⟩ => by
  rw [e]; exact ⟨v1, v2, v3, v4, h.1.trans v5, stays _ _ h v6⟩⟩

/-- For glyph definitions, as long as the carets stay as they are. -/
theorem edited_gdef {cfg : Cfg} {x y : GlyphDefinition} (h : edited x y) (hl : y.ligatures = x.ligatures)
    (v : validGlyphDefinitionTaken cfg x) : validGlyphDefinitionTaken cfg y := by
  obtain ⟨e, h1, h2, _, h4, h5, h6⟩ := h
  obtain ⟨v1, v2, v3, v4, v5, v6, v7, v8, v9, v10, v11, v12, v13⟩ := v
  rw [e, hl]
  exact ⟨v1, edited_presence h1 v2, stays _ _ h1 v3, edited_presence h2 v4, stays _ _ h2 v5, v6, v7,
    edited_presence h4 v8, stays _ _ h4 v9, edited_presence h5 v10, stays _ _ h5 v11, edited_presence h6 v12,
    edited_opt h6 v13⟩

end others
end OpenType.Spec
