import Verif.Spec.Rearranged
/-!
# Tables that differ in where their parts are

What is rearranged remains valid (`MovesValid`).
-/

namespace OpenType.Spec
open OpenType

/-- Other offsets do not make a table invalid. -/
class MovesValid {α : Type} [Rearranged α] (V : α → Prop) : Prop where
  remains : ∀ x y, rearranged x y → V x → V y

export MovesValid (remains)

section
variable {α : Type} [Rearranged α]

theorem rearranged_all {V : α → Prop} [MovesValid V] {xs ys : List α} (h : rearranged xs ys) (hv : ∀ x ∈ xs, V x) :
    ∀ y ∈ ys, V y := by
  intro y hy
  obtain ⟨i, hi⟩ := List.mem_iff_getElem?.mp hy
  have hl := (List.getElem?_eq_some_iff.mp hi).1
  have hl' : i < xs.length := by rw [← h.1]; exact hl
  exact remains _ _ (h.2 i _ y (List.getElem?_eq_getElem hl') hi) (hv _ (List.getElem_mem hl'))

theorem rearranged_opt {V : α → Prop} [MovesValid V] {x y : Option α} (h : rearranged x y) (hv : ∀ a, x = some a → V a) :
    ∀ a, y = some a → V a := by
  rintro b rfl
  cases x with
  | none => exact h.elim
  | some a => exact remains _ _ h (hv a rfl)

theorem rearranged_none {x y : Option α} (h : rearranged x y) : y = none ↔ x = none := by
  cases x <;> cases y <;> simp_all [rearranged]

theorem rearranged_presence {o o' : Nat} {x y : Option α} (ho : o' = 0 ↔ o = 0) (h : rearranged x y) (hp : Presence o x) :
    Presence o' y := (rearranged_none h).trans (hp.trans ho.symm)

theorem rearranged_presences {os os' : List Nat} {xs ys : List (Option α)} (ho : ShiftedAll os os') (h : rearranged xs ys)
    (hp : Presences os xs) : Presences os' ys := by
  intro i o y hi hy
  have hl : i < xs.length := by rw [← h.1]; exact (List.getElem?_eq_some_iff.mp hy).1
  have hl' : i < os.length := by rw [← ho.1.1]; exact (List.getElem?_eq_some_iff.mp hi).1
  exact rearranged_presence (ho.2 i _ o (List.getElem?_eq_getElem hl') hi)
    (h.2 i _ y (List.getElem?_eq_getElem hl) hy)
    (hp i _ _ (List.getElem?_eq_getElem hl') (List.getElem?_eq_getElem hl))

instance [Valid α] [MovesValid (valid : α → Prop)] : MovesValid (valid : List α → Prop) :=
  ⟨fun _ _ h hv => rearranged_all h hv⟩
instance [Valid α] [MovesValid (valid : α → Prop)] : MovesValid (valid : Option α → Prop) :=
  ⟨fun _ _ h hv => rearranged_opt h hv⟩

end

theorem shifted_presence {α : Type} {o o' : Nat} {x : Option α} (ho : o' = 0 ↔ o = 0) (hp : Presence o x) :
    Presence o' x := Iff.trans hp ho.symm

section layout
open context

instance : MovesValid (valid : Records → Prop) := ⟨fun x y ⟨e, h⟩ ⟨v1, v2, _, v4, v5⟩ => by
  rw [e]; exact ⟨v1, h.1.trans v2, h.2, v4, v5⟩⟩
instance : MovesValid (valid : ClassRecords → Prop) := ⟨fun x y ⟨e, h⟩ ⟨v1, v2, _, v4, v5⟩ => by
  rw [e]; exact ⟨v1, h.1.trans v2, h.2, v4, v5⟩⟩
instance : MovesValid (valid : ChainedRecords → Prop) := ⟨fun x y ⟨e, h⟩ ⟨v1, v2, _, v4, v5⟩ => by
  rw [e]; exact ⟨v1, h.1.trans v2, h.2, v4, v5⟩⟩
instance : MovesValid (valid : ChainedClassRecords → Prop) := ⟨fun x y ⟨e, h⟩ ⟨v1, v2, _, v4, v5⟩ => by
  rw [e]; exact ⟨v1, h.1.trans v2, h.2, v4, v5⟩⟩

instance : MovesValid (valid : Context1 → Prop) := ⟨fun x y ⟨e, h1, h2, h3⟩ ⟨v1, _, v3, v4, _, v6, v7, v8⟩ => by
  rw [e]; exact ⟨v1, h1, v3, h2.1.trans v4, h2.2, v6, h3.1.trans v7, remains _ _ h3 v8⟩⟩
instance : MovesValid (valid : Context2 → Prop) :=
  ⟨fun x y ⟨e, h1, h2, h3, h4⟩ ⟨v1, _, _, v4, v5, _, v7, v8, v9, v10, v11⟩ => by
    rw [e]
    exact ⟨v1, h1, h2, v4, h3.1.1.trans v5, h3.1.2, v7, v8, h4.1.trans v9, rearranged_presences h3 h4 v10,
      remains _ _ h4 v11⟩⟩
instance : MovesValid (valid : Context3 → Prop) := ⟨fun x y ⟨e, h⟩ ⟨v1, v2, v3, v4, _, v6, v7, v8, v9⟩ => by
  rw [e]; exact ⟨v1, v2, v3, h.1.trans v4, h.2, v6, v7, v8, v9⟩⟩
instance : MovesValid (valid : Context → Prop) := ⟨fun x y h v => by
  cases x <;> cases y <;> first | exact h.elim | skip
  · exact ⟨(congrArg _ h.1).trans v.1, remains _ _ h v.2⟩
  · exact ⟨(congrArg _ h.1).trans v.1, remains _ _ h v.2⟩
  · exact ⟨(congrArg _ h.1).trans v.1, remains _ _ h v.2⟩⟩

instance : MovesValid (valid : ChainedContext1 → Prop) :=
  ⟨fun x y ⟨e, h1, h2, h3⟩ ⟨v1, _, v3, v4, _, v6, v7, v8⟩ => by
    rw [e]; exact ⟨v1, h1, v3, h2.1.trans v4, h2.2, v6, h3.1.trans v7, remains _ _ h3 v8⟩⟩
instance : MovesValid (valid : ChainedContext2 → Prop) :=
  ⟨fun x y ⟨e, h1, h2, h3, h4, h5, h6⟩ ⟨v1, _, _, _, _, v6, v7, _, v9, v10, v11, v12, v13, v14, v15⟩ => by
    rw [e]
    exact ⟨v1, h1, h2, h3, h4, v6, h5.1.1.trans v7, h5.1.2, v9, v10, v11, v12, h6.1.trans v13,
      rearranged_presences h5 h6 v14, remains _ _ h6 v15⟩⟩
instance : MovesValid (valid : ChainedContext3 → Prop) :=
  ⟨fun x y ⟨e, h1, h2, h3⟩ ⟨v1, v2, v3, _, v5, v6, _, v8, v9, _, v11, v12, v13, v14, v15, v16, v17, v18, v19⟩ => by
    rw [e]
    exact ⟨v1, v2, h1.1.trans v3, h1.2, v5, h2.1.trans v6, h2.2, v8, h3.1.trans v9, h3.2, v11, v12, v13, v14, v15,
      v16, v17, v18, v19⟩⟩
instance : MovesValid (valid : ChainedContext → Prop) := ⟨fun x y h v => by
  cases x <;> cases y <;> first | exact h.elim | skip
  · exact ⟨(congrArg _ h.1).trans v.1, remains _ _ h v.2⟩
  · exact ⟨(congrArg _ h.1).trans v.1, remains _ _ h v.2⟩
  · exact ⟨(congrArg _ h.1).trans v.1, remains _ _ h v.2⟩⟩

end layout

section lists
open script feature lookup directory

instance : MovesValid (valid : language.Header → Prop) := ⟨fun x y ⟨e, h⟩ ⟨v1, _⟩ => by
  rw [e]; exact ⟨v1, h⟩⟩
instance : MovesValid (valid : script.Header → Prop) := ⟨fun x y ⟨e, h⟩ ⟨v1, _⟩ => by
  rw [e]; exact ⟨v1, h⟩⟩
instance : MovesValid (valid : feature.Header → Prop) := ⟨fun x y ⟨e, h⟩ ⟨v1, _⟩ => by
  rw [e]; exact ⟨v1, h⟩⟩
instance : MovesValid (valid : script.Record → Prop) :=
  ⟨fun x y ⟨e, h1, h2⟩ ⟨_, v2, v3, v4, v5, v6, v7, v8⟩ => by
    rw [e]; exact ⟨h1.1, v2, h2.1.trans v3, remains _ _ h2 v4, shifted_presence h1.2 v5, v6, v7, v8⟩⟩
instance : MovesValid (valid : Scripts → Prop) := ⟨fun x y ⟨e, h1, h2⟩ ⟨v1, v2, v3, v4, v5⟩ => by
  rw [e]; exact ⟨v1, h1.1.trans v2, remains _ _ h1 v3, h2.1.trans v4, remains _ _ h2 v5⟩⟩
instance : MovesValid (valid : Features → Prop) := ⟨fun x y ⟨e, h⟩ ⟨v1, v2, v3, v4, v5⟩ => by
  rw [e]; exact ⟨v1, h.1.trans v2, remains _ _ h v3, v4, v5⟩⟩

instance {T : Type} [Rearranged T] {cfg : Cfg} {V : Nat → T → Prop} [∀ n, MovesValid (V n)] :
    MovesValid (validLookup cfg V) :=
  ⟨fun x y ⟨e, h1, h2⟩ ⟨v1, v2, v3, v4, v5, _, v7, v8, v9⟩ => by
    rw [e]
    exact ⟨v1, v2, v3, v4, h1.1.trans v5, h1.2, v7, h2.1.trans v8, rearranged_all h2 v9⟩⟩
instance {T : Type} [Rearranged T] {cfg : Cfg} {V : Nat → T → Prop} [∀ n, MovesValid (V n)] :
    MovesValid (validLookups cfg V) :=
  ⟨fun x y ⟨e, h1, h2⟩ ⟨v1, v2, _, v4, v5⟩ => by
    rw [e]; exact ⟨v1, h1.1.trans v2, h1.2, h2.1.trans v4, rearranged_all h2 v5⟩⟩

theorem rearranged_part {α : Type} [Rearranged α] {cfg : Cfg} {V : α → Prop} [MovesValid V] {o o' : Nat} {empty x y : α}
    (ho : o' = 0 ↔ o = 0) (he : ∀ y, rearranged empty y → y = empty) (h : rearranged x y) (hv : validPart cfg V o empty x) :
    validPart cfg V o' empty y := by
  unfold validPart at hv ⊢
  simp only [ho]
  split at hv
  · next c => rw [if_pos c]; subst hv; exact he y h
  · next c => rw [if_neg c]; exact remains _ _ h hv

instance {T : Type} [Rearranged T] {cfg : Cfg} {V : Nat → T → Prop} [∀ n, MovesValid (V n)] :
    MovesValid (validDirectory cfg V) :=
  ⟨fun x y ⟨e, h1, h2, h3, h4, h5, h6, h7⟩ ⟨v1, v2, _, _, _, _, v7, v8, v9, v10, v11, v12⟩ => by
    rw [e]
    refine ⟨v1, v2, h1.1, h2.1, h3.1, h4.1, fun h => h4.2.mpr (v7 h), rearranged_part h1.2 ?_ h5 v8,
      rearranged_part h2.2 ?_ h6 v9, rearranged_part h3.2 ?_ h7 v10, shifted_presence h4.2 v11, v12⟩
    · rintro ⟨_, _, _⟩ ⟨e, a, b⟩
      cases e; cases List.length_eq_zero_iff.mp a.1; cases List.length_eq_zero_iff.mp b.1; rfl
    · rintro ⟨_, _, _⟩ ⟨e, a⟩
      cases e; cases List.length_eq_zero_iff.mp a.1; rfl
    · rintro ⟨_, _, _⟩ ⟨e, a, b⟩
      cases e; cases List.length_eq_zero_iff.mp a.1; cases List.length_eq_zero_iff.mp b.1; rfl⟩

end lists

section gsub
open OpenType.gsub

instance : MovesValid (valid : gsub.Ligatures → Prop) := ⟨fun x y ⟨e, h⟩ ⟨v1, v2, _, v4, v5⟩ => by
  rw [e]; exact ⟨v1, h.1.trans v2, h.2, v4, v5⟩⟩
instance : MovesValid (valid : SingleSubstitution1 → Prop) := ⟨fun x y ⟨e, h⟩ ⟨v1, _, v3, v4⟩ => by
  rw [e]; exact ⟨v1, h, v3, v4⟩⟩
instance : MovesValid (valid : SingleSubstitution2 → Prop) := ⟨fun x y ⟨e, h⟩ ⟨v1, _, v3⟩ => by
  rw [e]; exact ⟨v1, h, v3⟩⟩
instance : MovesValid (valid : SingleSubstitution → Prop) := ⟨fun x y h v => by
  cases x <;> cases y <;> first | exact h.elim | skip
  · exact ⟨(congrArg _ h.1).trans v.1, remains _ _ h v.2⟩
  · exact ⟨(congrArg _ h.1).trans v.1, remains _ _ h v.2⟩⟩
instance : MovesValid (valid : MultipleSubstitution → Prop) := ⟨fun x y ⟨e, h1, h2⟩ ⟨v1, _, v3, v4, _, v6⟩ => by
  rw [e]; exact ⟨v1, h1, v3, h2.1.trans v4, h2.2, v6⟩⟩
instance : MovesValid (valid : AlternateSubstitution → Prop) := ⟨fun x y ⟨e, h1, h2⟩ ⟨v1, _, v3, v4, _, v6⟩ => by
  rw [e]; exact ⟨v1, h1, v3, h2.1.trans v4, h2.2, v6⟩⟩
instance : MovesValid (valid : LigatureSubstitution → Prop) :=
  ⟨fun x y ⟨e, h1, h2, h3⟩ ⟨v1, _, v3, v4, _, v6, v7, v8⟩ => by
    rw [e]; exact ⟨v1, h1, v3, h2.1.trans v4, h2.2, v6, h3.1.trans v7, remains _ _ h3 v8⟩⟩
instance : MovesValid (valid : ExtensionSubstitution → Prop) := ⟨fun _ _ h v => h ▸ v⟩
instance : MovesValid (valid : ReverseChainedContextualSubstibution → Prop) :=
  ⟨fun x y ⟨e, h1, h2, h3⟩ ⟨v1, _, v3, v4, _, v6, v7, _, v9⟩ => by
    rw [e]; exact ⟨v1, h1, v3, h2.1.trans v4, h2.2, v6, h3.1.trans v7, h3.2, v9⟩⟩
instance {n : Nat} : MovesValid (gsub.validTable n) := ⟨fun x y h v => by
  cases x <;> cases y <;> first | exact h.elim | skip
  · exact ⟨v.1, remains _ _ h v.2⟩
  · exact ⟨v.1, remains _ _ h v.2⟩
  · exact ⟨v.1, remains _ _ h v.2⟩
  · exact ⟨v.1, remains _ _ h v.2⟩
  · exact ⟨v.1, remains _ _ h v.2⟩
  · exact ⟨v.1, remains _ _ h v.2⟩
  · exact ⟨v.1, remains _ _ h v.2⟩
  · exact ⟨v.1, remains _ _ h v.2⟩⟩

end gsub

section gpos
open OpenType.gpos

instance : MovesValid (valid : Anchor3 → Prop) := ⟨fun x y ⟨e, h1, h2⟩ ⟨v1, v2, v3, _, _, v6, v7, v8, v9⟩ => by
  rw [e]; exact ⟨v1, v2, v3, h1.1, h2.1, shifted_presence h1.2 v6, v7, shifted_presence h2.2 v8, v9⟩⟩
instance : MovesValid (valid : Anchor → Prop) := ⟨fun x y h v => by
  cases x <;> cases y <;> first | exact h.elim | skip
  · cases h; exact v
  · cases h; exact v
  · exact ⟨(congrArg _ h.1).trans v.1, remains _ _ h v.2⟩⟩

theorem shifted_field {flags k : Nat} {o o' : Option Nat} (h : ShiftedField o o')
    (v : validField flags k (· < 65536) o) : validField flags k (· < 65536) o' := by
  cases o <;> cases o'
  · exact v
  · exact h.elim
  · exact h.elim
  · exact ⟨v.1, h.1⟩

theorem shifted_correction {o o' : Option Nat} {x : Option correction.Correction} (h : ShiftedField o o')
    (v : validCorrection o x) : validCorrection o' x := by
  cases o <;> cases o'
  · exact v
  · exact h.elim
  · exact h.elim
  · exact ⟨shifted_presence h.2 v.1, v.2⟩

instance {flags : Nat} : MovesValid (validSingle flags) :=
  ⟨fun x y ⟨e, h1, h2, h3, h4⟩ ⟨v1, v2, v3, v4, v5, v6, v7, v8, v9, v10, v11, v12⟩ => by
    rw [e]
    exact ⟨v1, v2, v3, v4, shifted_field h1 v5, shifted_field h2 v6, shifted_field h3 v7, shifted_field h4 v8,
      shifted_correction h1 v9, shifted_correction h2 v10, shifted_correction h3 v11, shifted_correction h4 v12⟩⟩
instance {flags : Nat} : MovesValid (validValue flags) :=
  ⟨fun x y h v => by
    cases x <;> cases y
    · exact v
    · exact h.elim
    · exact h.elim
    · exact ⟨v.1, remains (V := validSingle flags) _ _ h v.2⟩⟩
instance {f1 f2 : Nat} : MovesValid (validPair1 f1 f2) :=
  ⟨fun _ _ ⟨h1, h2, h3⟩ ⟨v1, v2, v3⟩ => ⟨h1 ▸ v1, remains _ _ h2 v2, remains _ _ h3 v3⟩⟩
instance {f1 f2 : Nat} : MovesValid (validPair1s f1 f2) :=
  ⟨fun x y ⟨e, h⟩ ⟨v1, v2, v3⟩ => by rw [e]; exact ⟨v1, h.1.trans v2, rearranged_all h v3⟩⟩
instance {f1 f2 : Nat} : MovesValid (validPair2 f1 f2) :=
  ⟨fun _ _ ⟨h1, h2⟩ ⟨v1, v2⟩ => ⟨remains _ _ h1 v1, remains _ _ h2 v2⟩⟩
instance {n f1 f2 : Nat} : MovesValid (validPair2s n f1 f2) :=
  ⟨fun _ _ h ⟨v1, v2⟩ => ⟨h.1.trans v1, rearranged_all h v2⟩⟩
instance {n : Nat} : MovesValid (validBase n) := ⟨fun _ _ ⟨h1, h2⟩ ⟨v1, _, v3, v4, v5⟩ =>
  ⟨h1.1.1.trans v1, h1.1.2, h2.1.trans v3, rearranged_presences h1 h2 v4, remains _ _ h2 v5⟩⟩
instance {n : Nat} : MovesValid (validComponent n) := ⟨fun _ _ ⟨h1, h2⟩ ⟨v1, _, v3, v4, v5⟩ =>
  ⟨h1.1.1.trans v1, h1.1.2, h2.1.trans v3, rearranged_presences h1 h2 v4, remains _ _ h2 v5⟩⟩
instance {n : Nat} : MovesValid (validMark2 n) := ⟨fun _ _ ⟨h1, h2⟩ ⟨v1, _, v3, v4, v5⟩ =>
  ⟨h1.1.1.trans v1, h1.1.2, h2.1.trans v3, rearranged_presences h1 h2 v4, remains _ _ h2 v5⟩⟩
instance {n : Nat} : MovesValid (validBases n) :=
  ⟨fun x y ⟨e, h⟩ ⟨v1, v2, v3⟩ => by rw [e]; exact ⟨v1, h.1.trans v2, rearranged_all h v3⟩⟩
instance {n : Nat} : MovesValid (validMark2s n) :=
  ⟨fun x y ⟨e, h⟩ ⟨v1, v2, v3⟩ => by rw [e]; exact ⟨v1, h.1.trans v2, rearranged_all h v3⟩⟩
instance {n : Nat} : MovesValid (validLigature n) :=
  ⟨fun x y ⟨e, h⟩ ⟨v1, v2, v3⟩ => by rw [e]; exact ⟨v1, h.1.trans v2, rearranged_all h v3⟩⟩
instance : MovesValid (valid : Connection → Prop) := ⟨fun _ _ ⟨h1, h2, h3, h4⟩ ⟨_, _, v3, v4, v5, v6⟩ =>
  ⟨h1.1, h2.1, rearranged_presence h1.2 h3 v3, remains _ _ h3 v4, rearranged_presence h2.2 h4 v5, remains _ _ h4 v6⟩⟩
instance {n : Nat} : MovesValid (validLigatures n) :=
  ⟨fun x y ⟨e, h1, h2⟩ ⟨v1, v2, _, v4, v5⟩ => by
    rw [e]; exact ⟨v1, h1.1.trans v2, h1.2, h2.1.trans v4, rearranged_all h2 v5⟩⟩
instance {cfg : Cfg} : MovesValid (validMark1 cfg) := ⟨fun x y ⟨e, h1, h2⟩ ⟨v1, _, v3⟩ => by
  rw [e]
  refine ⟨v1, h1.1, ?_⟩
  show if cfg.ignoreIncompleteMarks = true ∧ y.anchor_offset = 0 then y.anchor = _ else valid y.anchor
  simp only [h1.2]
  split at v3
  · next c =>
    rw [if_pos c]
    revert h2
    rw [v3]
    cases y.anchor with
    | format1 a => exact fun h => congrArg _ h
    | format2 a => exact fun h => h.elim
    | format3 a => exact fun h => h.elim
  · next c => rw [if_neg c]; exact remains _ _ h2 v3⟩
instance {cfg : Cfg} : MovesValid (validMark1s cfg) :=
  ⟨fun x y ⟨e, h⟩ ⟨v1, v2, v3⟩ => by rw [e]; exact ⟨v1, h.1.trans v2, rearranged_all h v3⟩⟩
instance {cfg : Cfg} : MovesValid (validSingleAdjustment1 cfg) := ⟨fun x y ⟨e, h1, h2⟩ ⟨v1, _, v3, v4, v5, v6⟩ => by
  rw [e]; exact ⟨v1, h1, v3, v4, remains (V := validSingle x.value_flags) _ _ h2 v5, v6⟩⟩
instance {cfg : Cfg} : MovesValid (validSingleAdjustment2 cfg) :=
  ⟨fun x y ⟨e, h1, h2⟩ ⟨v1, _, v3, v4, v5, v6, v7, v8⟩ => by
    rw [e]; exact ⟨v1, h1, v3, v4, v5, h2.1.trans v6, rearranged_all h2 v7, v8⟩⟩
instance {cfg : Cfg} : MovesValid (validSingleAdjustment cfg) := ⟨fun x y h v => by
  cases x <;> cases y <;> first | exact h.elim | skip
  · exact ⟨(congrArg _ h.1).trans v.1, remains _ _ h v.2⟩
  · exact ⟨(congrArg _ h.1).trans v.1, remains _ _ h v.2⟩⟩
instance {cfg : Cfg} : MovesValid (validPairAdjustment1 cfg) :=
  ⟨fun x y ⟨e, h1, h2, h3⟩ ⟨v1, _, v3, v4, v5, v6, v7, v8, _, v10, v11, v12⟩ => by
    rw [e]
    exact ⟨v1, h1, v3, v4, v5, v6, v7, h2.1.trans v8, h2.2, v10, h3.1.trans v11, rearranged_all h3 v12⟩⟩
instance {cfg : Cfg} : MovesValid (validPairAdjustment2 cfg) :=
  ⟨fun x y ⟨e, h1, h2, h3, h4⟩ ⟨v1, _, v3, v4, v5, v6, _, _, v9, v10, v11, v12, v13⟩ => by
    rw [e]
    exact ⟨v1, h1, v3, v4, v5, v6, h2, h3, v9, v10, h4.1.trans v11, rearranged_all h4 v12, v13⟩⟩
instance {cfg : Cfg} : MovesValid (validPairAdjustment cfg) := ⟨fun x y h v => by
  cases x <;> cases y <;> first | exact h.elim | skip
  · exact ⟨(congrArg _ h.1).trans v.1, remains _ _ h v.2⟩
  · exact ⟨(congrArg _ h.1).trans v.1, remains _ _ h v.2⟩⟩
instance : MovesValid (valid : CursiveAttachment → Prop) := ⟨fun x y ⟨e, h1, h2⟩ ⟨v1, _, v3, v4, v5, v6⟩ => by
  rw [e]; exact ⟨v1, h1, v3, h2.1.trans v4, remains _ _ h2 v5, v6⟩⟩
instance {cfg : Cfg} : MovesValid (validMarkToBase cfg) :=
  ⟨fun x y ⟨e, h1, h2, h3, h4, h5, h6⟩ ⟨v1, _, _, v4, _, _, v7, v8, v9, v10⟩ => by
    rw [e]
    exact ⟨v1, h1, h2, v4, h3, h4, v7, v8, remains (V := validMark1s cfg) _ _ h5 v9,
      remains (V := validBases x.mark_class_count) _ _ h6 v10⟩⟩
instance {cfg : Cfg} : MovesValid (validMarkToLigature cfg) :=
  ⟨fun x y ⟨e, h1, h2, h3, h4, h5, h6⟩ ⟨v1, _, _, v4, _, _, v7, v8, v9, v10⟩ => by
    rw [e]
    exact ⟨v1, h1, h2, v4, h3, h4, v7, v8, remains (V := validMark1s cfg) _ _ h5 v9,
      remains (V := validLigatures x.mark_class_count) _ _ h6 v10⟩⟩
instance {cfg : Cfg} : MovesValid (validMarkToMark cfg) :=
  ⟨fun x y ⟨e, h1, h2, h3, h4, h5, h6⟩ ⟨v1, _, _, v4, _, _, v7, v8, v9, v10⟩ => by
    rw [e]
    exact ⟨v1, h1, h2, v4, h3, h4, v7, v8, remains (V := validMark1s cfg) _ _ h5 v9,
      remains (V := validMark2s x.mark_class_count) _ _ h6 v10⟩⟩
instance : MovesValid (valid : ExtensionPositioning → Prop) := ⟨fun _ _ h v => h ▸ v⟩
instance {cfg : Cfg} {n : Nat} : MovesValid (gpos.validTable cfg n) := ⟨fun x y h v => by
  cases x <;> cases y <;> first | exact h.elim | skip
  · exact ⟨v.1, remains _ _ h v.2⟩
  · exact ⟨v.1, remains _ _ h v.2⟩
  · exact ⟨v.1, remains _ _ h v.2⟩
  · exact ⟨v.1, remains _ _ h v.2⟩
  · exact ⟨v.1, remains _ _ h v.2⟩
  · exact ⟨v.1, remains _ _ h v.2⟩
  · exact ⟨v.1, remains _ _ h v.2⟩
  · exact ⟨v.1, remains _ _ h v.2⟩
  · exact ⟨v.1, remains _ _ h v.2⟩⟩

end gpos

section others
open OpenType.cpal OpenType.fvar OpenType.gdef

instance : MovesValid (valid : cpal.Header0 → Prop) := ⟨fun x y ⟨e, h⟩ ⟨v1, v2, v3, v4, _, v6⟩ => by
  rw [e]; exact ⟨v1, v2, v3, v4, h, v6⟩⟩
instance : MovesValid (valid : cpal.Header1 → Prop) := ⟨fun x y ⟨e, h⟩ ⟨v1, v2, v3, v4, _, v6⟩ => by
  rw [e]; exact ⟨v1, v2, v3, v4, h, v6⟩⟩
instance : MovesValid (valid : ColorPalettes → Prop) := ⟨fun
  | ⟨.version0 _, _⟩, ⟨.version0 _, _⟩, ⟨h1, h2⟩, ⟨v1, v2, v3⟩ => by
    cases h2
    exact ⟨v1, remains _ _ h1 v2, v3.trans (congrArg cpal.Header0.color_count h1.1).symm⟩
  | ⟨.version1 _, _⟩, ⟨.version1 _, _⟩, ⟨h1, h2⟩, ⟨v1, v2, v3⟩ => by
    cases h2
    exact ⟨v1, remains _ _ h1 v2, v3.trans (congrArg cpal.Header1.color_count h1.1).symm⟩⟩

instance {cfg : Cfg} : MovesValid (validFontVariations cfg) :=
  ⟨fun x y ⟨e, h0, h1, h2, h3⟩ ⟨v1, v2, _, v4, v5, _, v7, _, v9, v10, v11, v12⟩ => by
    rw [e, h0]; exact ⟨v1, v2, h1, v4, v5, h2, v7, h3, v9, v10, v11, v12⟩⟩

instance {cfg : Cfg} : MovesValid (validStore cfg) :=
  ⟨fun x y ⟨e, h1, h2⟩ ⟨v1, v2, v3, v4, _, v6, v7⟩ => by
    rw [e]; exact ⟨v1, v2, v3, h1.trans v4, h2, v6, v7⟩⟩

instance : MovesValid (valid : Attachments → Prop) := ⟨fun x y ⟨e, h1, h2⟩ ⟨_, v2, v3, _, v5, v6, v7⟩ => by
  rw [e]; exact ⟨h1, v2, h2.1.trans v3, h2.2, v5, v6, v7⟩⟩
instance : MovesValid validCaretTaken := ⟨fun x y h v => by
  cases x <;> cases y <;> first | exact h.elim | skip
  · cases h; exact v
  · cases h; exact v
  · obtain ⟨e, h⟩ := h
    obtain ⟨v1, v2, _, v4⟩ := v
    rw [e]; exact ⟨v1, v2, h, v4⟩⟩
instance : MovesValid validLigatureTaken := ⟨fun x y ⟨e, h1, h2⟩ ⟨v1, v2, _, v4, v5⟩ => by
  rw [e]; exact ⟨v1, h1.1.trans v2, h1.2, h2.1.trans v4, rearranged_all h2 v5⟩⟩
instance : MovesValid validLigaturesTaken := ⟨fun x y ⟨e, h1, h2, h3⟩ ⟨_, v2, v3, _, v5, v6, v7⟩ => by
  rw [e]; exact ⟨h1, v2, h2.1.trans v3, h2.2, v5, h3.1.trans v6, rearranged_all h3 v7⟩⟩
instance : MovesValid (valid : Marks → Prop) := ⟨fun x y ⟨e, h1, h2⟩ ⟨v1, v2, v3, _, v5, v6⟩ => by
  rw [e]; exact ⟨v1, v2, h1.trans v3, h2, v5, v6⟩⟩
instance : MovesValid (valid : gdef.Header → Prop) := ⟨fun x y h v => by
  cases x <;> cases y <;> first | exact h.elim | skip
  · obtain ⟨e, h1, h2, h3, h4⟩ := h
    rw [e]; exact ⟨v.1, v.2.1, h1.1, h2.1, h3.1, h4.1⟩
  · obtain ⟨e, h1, h2, h3, h4, h5⟩ := h
    rw [e]; exact ⟨v.1, v.2.1, h1.1, h2.1, h3.1, h4.1, h5.1⟩
  · obtain ⟨e, h1, h2, h3, h4, h5, h6⟩ := h
    rw [e]; exact ⟨v.1, v.2.1, h1.1, h2.1, h3.1, h4.1, h5.1, h6.1⟩⟩

/-- All offsets of the header are zero when they were. -/
theorem rearranged_header {x y : gdef.Header} (h : rearranged x y) :
    ((gdef.offsets y).1 = 0 ↔ (gdef.offsets x).1 = 0) ∧ ((gdef.offsets y).2.1 = 0 ↔ (gdef.offsets x).2.1 = 0) ∧
    ((gdef.offsets y).2.2.1 = 0 ↔ (gdef.offsets x).2.2.1 = 0) ∧
    ((gdef.offsets y).2.2.2.1 = 0 ↔ (gdef.offsets x).2.2.2.1 = 0) ∧
    ((gdef.offsets y).2.2.2.2.1 = 0 ↔ (gdef.offsets x).2.2.2.2.1 = 0) ∧ (storePlace y = 0 ↔ storePlace x = 0) := by
  cases x <;> cases y <;> first | exact h.elim | skip
  · obtain ⟨_, h1, h2, h3, h4⟩ := h
    exact ⟨h1.2, h2.2, h3.2, h4.2, Iff.rfl, Iff.rfl⟩
  · obtain ⟨_, h1, h2, h3, h4, h5⟩ := h
    exact ⟨h1.2, h2.2, h3.2, h4.2, h5.2, Iff.rfl⟩
  · obtain ⟨_, h1, h2, h3, h4, h5, _⟩ := h
    exact ⟨h1.2, h2.2, h3.2, h4.2, h5.2, h5.2⟩

instance {cfg : Cfg} : MovesValid (validGlyphDefinitionTaken cfg) :=
  ⟨fun x y ⟨e, h1, h2, h3, h4, h5⟩ ⟨v1, v2, v3, v4, v5, v6, v7, v8, v9, v10, v11, v12, v13⟩ => by
    obtain ⟨g1, g2, g3, g4, g5, g6⟩ := rearranged_header h1
    rw [e]
    exact ⟨remains _ _ h1 v1, shifted_presence g1 v2, v3, rearranged_presence g2 h2 v4, remains _ _ h2 v5,
      rearranged_presence g3 h3 v6, rearranged_opt h3 v7, shifted_presence g4 v8, v9, rearranged_presence g5 h4 v10,
      remains _ _ h4 v11, rearranged_presence g6 h5 v12, rearranged_opt h5 v13⟩⟩

end others
end OpenType.Spec
