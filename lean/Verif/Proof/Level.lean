import Verif.Proof.Edited
/-!
# Tables that differ in their data only take the same places
-/

set_option linter.unusedSimpArgs false

namespace OpenType.Spec
open OpenType

/-- Other data take the same places. -/
class Level (α : Type) [Edited α] [Encode α] : Prop where
  bytes_length : ∀ x y : α, edited x y → (bytes y).length = (bytes x).length
  parts_outline : ∀ x y : α, edited x y → outline (parts y) = outline (parts x)

export Level (bytes_length parts_outline)

theorem outline_append (a b : List Chunk) : outline (a ++ b) = outline a ++ outline b := by simp [outline]

@[simp] theorem outline_nil : outline [] = [] := rfl

theorem len_enc8 (n : Nat) : (enc8 n).length = 1 := rfl
theorem len_enc16 (n : Nat) : (enc16 n).length = 2 := rfl
theorem len_enc32 (n : Nat) : (enc32 n).length = 4 := rfl
theorem len_encI16 (n : Int) : (encI16 n).length = 2 := rfl
theorem len_encI32 (n : Int) : (encI32 n).length = 4 := rfl

theorem length_flatMap {α : Type} {f : α → Data} {n : Nat} (h : ∀ x, (f x).length = n) :
    ∀ xs : List α, (xs.flatMap f).length = n * xs.length
  | [] => rfl
  | x :: xs => by
    rw [List.flatMap_cons, List.length_append, h, length_flatMap h xs, List.length_cons, Nat.mul_add]
    omega

theorem len_enc16s (xs : List Nat) : (enc16s xs).length = 2 * xs.length := length_flatMap len_enc16 xs
theorem len_enc32s (xs : List Nat) : (enc32s xs).length = 4 * xs.length := length_flatMap len_enc32 xs

section
variable {α : Type} [Edited α] [Encode α] [Level α]

omit [Encode α] [Level α] in
theorem edited_cons {x : α} {xs ys : List α} (h : edited (x :: xs) ys) :
    ∃ y ys', ys = y :: ys' ∧ edited x y ∧ edited xs ys' := by
  cases ys with
  | nil => exact absurd h.1 (by simp)
  | cons y ys' =>
    exact ⟨y, ys', rfl, h.2 0 _ _ rfl rfl, by simpa using h.1, fun i a b ha hb => h.2 (i + 1) a b (by simpa) (by simpa)⟩

omit [Encode α] [Level α] in
theorem edited_nil {ys : List α} (h : edited [] ys) : ys = [] := List.length_eq_zero_iff.mp h.1

theorem level_encoding {x y : α} (h : edited x y) : outline (encoding y) = outline (encoding x) := by
  show (_, _) :: outline (parts y) = (_, _) :: outline (parts x)
  rw [bytes_length x y h, parts_outline x y h]

omit [Edited α] [Level α] in
theorem outline_placed (o : Nat) (x : α) :
    outline (placed o x) = (outline (encoding x)).map fun c => (o + c.1, c.2) := by
  simp [outline, placed]

theorem level_placed {o : Nat} {x y : α} (h : edited x y) : outline (placed o y) = outline (placed o x) := by
  rw [outline_placed, outline_placed, level_encoding h]

theorem level_placedAll {os : List Nat} {xs ys : List α} (h : edited xs ys) :
    outline (placedAll os ys) = outline (placedAll os xs) := by
  induction os generalizing xs ys with
  | nil => rfl
  | cons o os ih =>
    cases xs with
    | nil => rw [edited_nil h]
    | cons x xs =>
      obtain ⟨y, ys', rfl, h1, h2⟩ := edited_cons h
      show outline (placed o y ++ placedAll os ys') = outline (placed o x ++ placedAll os xs)
      rw [outline_append, outline_append, level_placed h1, ih h2]

theorem level_placedOpt {o : Nat} {x y : Option α} (h : edited x y) :
    outline (placedOpt o y) = outline (placedOpt o x) := by
  cases x <;> cases y
  · rfl
  · exact h.elim
  · exact h.elim
  · exact level_placed h

theorem level_placedOpts {os : List Nat} {xs ys : List (Option α)} (h : edited xs ys) :
    outline (placedOpts os ys) = outline (placedOpts os xs) := by
  induction os generalizing xs ys with
  | nil => rfl
  | cons o os ih =>
    cases xs with
    | nil => rw [show ys = [] from List.length_eq_zero_iff.mp h.1]
    | cons x xs =>
      cases ys with
      | nil => exact absurd h.1 (by simp)
      | cons y ys =>
        show outline (placedOpt o y ++ placedOpts os ys) = outline (placedOpt o x ++ placedOpts os xs)
        rw [outline_append, outline_append, level_placedOpt (h.2 0 x y rfl rfl),
          ih ⟨by simpa using h.1, fun i a b ha hb => h.2 (i + 1) a b (by simpa) (by simpa)⟩]

theorem level_bytesAll {xs ys : List α} (h : edited xs ys) : (bytesAll ys).length = (bytesAll xs).length := by
  induction xs generalizing ys with
  | nil => rw [edited_nil h]
  | cons x xs ih =>
    obtain ⟨y, ys', rfl, h1, h2⟩ := edited_cons h
    show (bytes y ++ bytesAll ys').length = (bytes x ++ bytesAll xs).length
    rw [List.length_append, List.length_append, bytes_length _ _ h1, ih h2]

theorem level_partsAll {xs ys : List α} (h : edited xs ys) : outline (partsAll ys) = outline (partsAll xs) := by
  induction xs generalizing ys with
  | nil => rw [edited_nil h]
  | cons x xs ih =>
    obtain ⟨y, ys', rfl, h1, h2⟩ := edited_cons h
    show outline (parts y ++ partsAll ys') = outline (parts x ++ partsAll xs)
    rw [outline_append, outline_append, parts_outline _ _ h1, ih h2]

end

section layout
open coverage class_ correction context

instance : Level coverage.Record := ⟨fun _ _ _ => rfl, fun _ _ _ => rfl⟩
instance : Level Coverage1 :=
  ⟨fun x y ⟨e, h⟩ => by rw [e]; simp only [bytes, List.length_append, len_enc16, len_enc16s, h.1],
   fun _ _ _ => rfl⟩
instance : Level Coverage2 :=
  ⟨fun x y ⟨e, h⟩ => by rw [e]; simp only [bytes, List.length_append, len_enc16, level_bytesAll h],
   fun _ _ _ => rfl⟩
instance : Level Coverage where
  bytes_length x y h := by
    cases x <;> cases y <;> first | exact h.elim | skip
    · exact bytes_length (α := Coverage1) _ _ h
    · exact bytes_length (α := Coverage2) _ _ h
  parts_outline x y h := by
    cases x <;> cases y <;> first | exact h.elim | skip
    · exact parts_outline (α := Coverage1) _ _ h
    · exact parts_outline (α := Coverage2) _ _ h

instance : Level class_.Record := ⟨fun _ _ _ => rfl, fun _ _ _ => rfl⟩
instance : Level Class1 where
  bytes_length := fun x y ⟨e, _, h⟩ => by
    rw [e]; simp only [bytes, List.length_append, len_enc16, len_enc32, len_encI16, len_encI32, len_enc16s, h.1]
  parts_outline := fun _ _ _ => rfl
instance : Level Class2 where
  bytes_length := fun x y ⟨e, h⟩ => by
    rw [e]; simp only [bytes, List.length_append, len_enc16, len_enc32, len_encI16, len_encI32, len_enc16s, level_bytesAll h]
  parts_outline := fun _ _ _ => rfl
instance : Level Class where
  bytes_length x y h := by
    cases x <;> cases y <;> first | exact h.elim | skip
    · exact bytes_length (α := Class1) _ _ h
    · exact bytes_length (α := Class2) _ _ h
  parts_outline x y h := by
    cases x <;> cases y <;> first | exact h.elim | skip
    · exact parts_outline (α := Class1) _ _ h
    · exact parts_outline (α := Class2) _ _ h

instance : Level Device where
  bytes_length := fun x y ⟨e, h⟩ => by
    rw [e]; simp only [bytes, List.length_append, len_enc16, len_enc32, len_encI16, len_encI32, len_enc16s, h.1]
  parts_outline := fun _ _ _ => rfl
instance : Level Variation := ⟨fun _ _ _ => rfl, fun _ _ _ => rfl⟩
instance : Level Correction where
  bytes_length x y h := by
    cases x <;> cases y <;> first | exact h.elim | skip
    · exact bytes_length (α := Device) _ _ h
    · exact bytes_length (α := Variation) _ _ h
  parts_outline x y h := by
    cases x <;> cases y <;> first | exact h.elim | skip
    · exact parts_outline (α := Device) _ _ h
    · exact parts_outline (α := Variation) _ _ h

instance : Level Action := ⟨fun _ _ _ => rfl, fun _ _ _ => rfl⟩
instance : Level context.Record where
  bytes_length := fun x y ⟨e, h1, h2⟩ => by
    rw [e]; simp only [bytes, List.length_append, len_enc16, len_enc32, len_encI16, len_encI32, len_enc16s, h1.1, level_bytesAll h2]
  parts_outline := fun _ _ _ => rfl
instance : Level ClassRecord where
  bytes_length := fun x y ⟨e, h1, h2⟩ => by
    rw [e]; simp only [bytes, List.length_append, len_enc16, len_enc32, len_encI16, len_encI32, len_enc16s, h1.1, level_bytesAll h2]
  parts_outline := fun _ _ _ => rfl
instance : Level ChainedRecord where
  bytes_length := fun x y ⟨e, h1, h2, h3, h4⟩ => by
    rw [e]; simp only [bytes, List.length_append, len_enc16, len_enc32, len_encI16, len_encI32, len_enc16s, h1.1, h2.1, h3.1, level_bytesAll h4]
  parts_outline := fun _ _ _ => rfl
instance : Level ChainedClassRecord where
  bytes_length := fun x y ⟨e, h1, h2, h3, h4⟩ => by
    rw [e]; simp only [bytes, List.length_append, len_enc16, len_enc32, len_encI16, len_encI32, len_enc16s, h1.1, h2.1, h3.1, level_bytesAll h4]
  parts_outline := fun _ _ _ => rfl
instance : Level Records where
  bytes_length := fun x y ⟨e, h⟩ => by
    rw [e]; simp only [bytes, List.length_append, len_enc16, len_enc32, len_encI16, len_encI32, len_enc16s]
  parts_outline := fun x y ⟨e, h⟩ => by rw [e]; exact level_placedAll h
instance : Level ClassRecords where
  bytes_length := fun x y ⟨e, h⟩ => by
    rw [e]; simp only [bytes, List.length_append, len_enc16, len_enc32, len_encI16, len_encI32, len_enc16s]
  parts_outline := fun x y ⟨e, h⟩ => by rw [e]; exact level_placedAll h
instance : Level ChainedRecords where
  bytes_length := fun x y ⟨e, h⟩ => by
    rw [e]; simp only [bytes, List.length_append, len_enc16, len_enc32, len_encI16, len_encI32, len_enc16s]
  parts_outline := fun x y ⟨e, h⟩ => by rw [e]; exact level_placedAll h
instance : Level ChainedClassRecords where
  bytes_length := fun x y ⟨e, h⟩ => by
    rw [e]; simp only [bytes, List.length_append, len_enc16, len_enc32, len_encI16, len_encI32, len_enc16s]
  parts_outline := fun x y ⟨e, h⟩ => by rw [e]; exact level_placedAll h
instance : Level Context1 where
  bytes_length := fun x y ⟨e, h1, h2⟩ => by
    rw [e]; simp only [bytes, List.length_append, len_enc16, len_enc32, len_encI16, len_encI32, len_enc16s]
  parts_outline := fun x y ⟨e, h1, h2⟩ => by
    rw [e]; simp only [parts, outline_append, level_placed h1, level_placedAll h2]
instance : Level ChainedContext1 where
  bytes_length := fun x y ⟨e, h1, h2⟩ => by
    rw [e]; simp only [bytes, List.length_append, len_enc16, len_enc32, len_encI16, len_encI32, len_enc16s]
  parts_outline := fun x y ⟨e, h1, h2⟩ => by
    rw [e]; simp only [parts, outline_append, level_placed h1, level_placedAll h2]
instance : Level Context2 where
  bytes_length := fun x y ⟨e, h1, h2, h3⟩ => by
    rw [e]; simp only [bytes, List.length_append, len_enc16, len_enc32, len_encI16, len_encI32, len_enc16s]
  parts_outline := fun x y ⟨e, h1, h2, h3⟩ => by
    rw [e]; simp only [parts, outline_append, level_placed h1, level_placed h2, level_placedOpts h3]
instance : Level ChainedContext2 where
  bytes_length := fun x y ⟨e, h1, h2, h3, h4, h5⟩ => by
    rw [e]; simp only [bytes, List.length_append, len_enc16, len_enc32, len_encI16, len_encI32, len_enc16s]
  parts_outline := fun x y ⟨e, h1, h2, h3, h4, h5⟩ => by
    rw [e]; simp only [parts, outline_append, level_placed h1, level_placed h2, level_placed h3, level_placed h4, level_placedOpts h5]
instance : Level Context3 where
  bytes_length := fun x y ⟨e, h1, h2⟩ => by
    rw [e]; simp only [bytes, List.length_append, len_enc16, len_enc32, len_encI16, len_encI32, len_enc16s, level_bytesAll h1]
  parts_outline := fun x y ⟨e, h1, h2⟩ => by rw [e]; exact level_placedAll h2
instance : Level ChainedContext3 where
  bytes_length := fun x y ⟨e, h1, h2, h3, h4⟩ => by
    rw [e]; simp only [bytes, List.length_append, len_enc16, len_enc32, len_encI16, len_encI32, len_enc16s, level_bytesAll h1]
  parts_outline := fun x y ⟨e, h1, h2, h3, h4⟩ => by
    rw [e]; simp only [parts, outline_append, level_placedAll h2, level_placedAll h3, level_placedAll h4]
instance : Level Context where
  bytes_length x y h := by
    cases x <;> cases y <;> first | exact h.elim | skip
    · exact bytes_length (α := Context1) _ _ h
    · exact bytes_length (α := Context2) _ _ h
    · exact bytes_length (α := Context3) _ _ h
  parts_outline x y h := by
    cases x <;> cases y <;> first | exact h.elim | skip
    · exact parts_outline (α := Context1) _ _ h
    · exact parts_outline (α := Context2) _ _ h
    · exact parts_outline (α := Context3) _ _ h
instance : Level ChainedContext where
  bytes_length x y h := by
    cases x <;> cases y <;> first | exact h.elim | skip
    · exact bytes_length (α := ChainedContext1) _ _ h
    · exact bytes_length (α := ChainedContext2) _ _ h
    · exact bytes_length (α := ChainedContext3) _ _ h
  parts_outline x y h := by
    cases x <;> cases y <;> first | exact h.elim | skip
    · exact parts_outline (α := ChainedContext1) _ _ h
    · exact parts_outline (α := ChainedContext2) _ _ h
    · exact parts_outline (α := ChainedContext3) _ _ h

end layout

section lists
open script feature lookup directory

theorem edited_script_offsets {xs ys : List script.Header} (h : edited xs ys) :
    ys.map (·.offset) = xs.map (·.offset) := by
  induction xs generalizing ys with
  | nil => rw [edited_nil h]
  | cons x xs ih =>
    obtain ⟨y, ys', rfl, h1, h2⟩ := edited_cons h
    rw [List.map_cons, List.map_cons, ih h2, h1.1]
theorem edited_language_offsets {xs ys : List language.Header} (h : edited xs ys) :
    ys.map (·.offset) = xs.map (·.offset) := by
  induction xs generalizing ys with
  | nil => rw [edited_nil h]
  | cons x xs ih =>
    obtain ⟨y, ys', rfl, h1, h2⟩ := edited_cons h
    rw [List.map_cons, List.map_cons, ih h2, h1.1]
theorem edited_feature_offsets {xs ys : List feature.Header} (h : edited xs ys) :
    ys.map (·.offset) = xs.map (·.offset) := by
  induction xs generalizing ys with
  | nil => rw [edited_nil h]
  | cons x xs ih =>
    obtain ⟨y, ys', rfl, h1, h2⟩ := edited_cons h
    rw [List.map_cons, List.map_cons, ih h2, h1.1]

instance : Level language.Header := ⟨fun _ _ _ => rfl, fun _ _ _ => rfl⟩
instance : Level script.Header := ⟨fun _ _ _ => rfl, fun _ _ _ => rfl⟩
instance : Level feature.Header := ⟨fun _ _ _ => rfl, fun _ _ _ => rfl⟩
instance : Level language.Record where
  bytes_length := fun x y ⟨e, _, h⟩ => by
    rw [e]; simp only [bytes, List.length_append, len_enc16, len_enc32, len_encI16, len_encI32, len_enc16s, h.1]
  parts_outline := fun _ _ _ => rfl
instance : Level feature.Record where
  bytes_length := fun x y ⟨e, h⟩ => by
    rw [e]; simp only [bytes, List.length_append, len_enc16, len_enc32, len_encI16, len_encI32, len_enc16s, h.1]
  parts_outline := fun _ _ _ => rfl
instance : Level script.Record where
  bytes_length := fun x y ⟨e, h1, h2, h3⟩ => by
    rw [e]; simp only [bytes, List.length_append, len_enc16, len_enc32, len_encI16, len_encI32, len_enc16s, level_bytesAll h1]
  parts_outline := fun x y ⟨e, h1, h2, h3⟩ => by
    rw [e]; simp only [parts, outline_append, edited_language_offsets h1, level_placedOpt h2, level_placedAll h3]
instance : Level Scripts where
  bytes_length := fun x y ⟨e, h1, h2⟩ => by
    rw [e]; simp only [bytes, List.length_append, len_enc16, len_enc32, len_encI16, len_encI32, len_enc16s, level_bytesAll h1]
  parts_outline := fun x y ⟨e, h1, h2⟩ => by
    rw [e]; simp only [parts, outline_append, edited_script_offsets h1, level_placedAll h2]
instance : Level Features where
  bytes_length := fun x y ⟨e, h1, h2⟩ => by
    rw [e]; simp only [bytes, List.length_append, len_enc16, len_enc32, len_encI16, len_encI32, len_enc16s, level_bytesAll h1]
  parts_outline := fun x y ⟨e, h1, h2⟩ => by
    rw [e]; simp only [parts, outline_append, edited_feature_offsets h1, level_placedAll h2]
instance {T : Type} [Edited T] [Encode T] [Level T] : Level (lookup.Record T) where
  bytes_length := fun x y ⟨e, h, _⟩ => by
    rw [e]
    simp only [bytes, List.length_append, len_enc16, len_enc16s]
    congr 1
    revert h
    cases x.mark_filtering_set <;> cases y.mark_filtering_set
    · exact fun _ => rfl
    · exact fun h => h.elim
    · exact fun h => h.elim
    · exact fun _ => rfl
  parts_outline := fun x y ⟨e, _, h⟩ => by rw [e]; exact level_placedAll h
instance {T : Type} [Edited T] [Encode T] [Level T] : Level (Lookups T) where
  bytes_length := fun x y ⟨e, _⟩ => by rw [e]; rfl
  parts_outline := fun x y ⟨e, h⟩ => by rw [e]; exact level_placedAll h

theorem level_placedPart {α : Type} [Edited α] [Encode α] [Level α] {cfg : Cfg} {o : Nat} {x y : α} (h : edited x y) :
    outline (placedPart cfg o y) = outline (placedPart cfg o x) := by
  unfold placedPart
  split
  · rfl
  · exact level_placed h

theorem level_directory {T : Type} [Edited T] [Encode T] [Level T] {cfg : Cfg} {x y : Directory T} (h : edited x y) :
    outline (directoryEncoding cfg y) = outline (directoryEncoding cfg x) := by
  obtain ⟨e, h1, h2, h3⟩ := h
  rw [e]
  show (_, _) :: outline (_ ++ _ ++ _ ++ _) = (_, _) :: outline (_ ++ _ ++ _ ++ _)
  simp only [outline_append, level_placedPart h1, level_placedPart h2, level_placedPart h3]
  rfl

end lists

section gsub
open OpenType.gsub

instance : Level Alternates where
  bytes_length := fun x y ⟨e, h⟩ => by
    rw [e]; simp only [bytes, List.length_append, len_enc16, len_enc32, len_encI16, len_encI32, len_enc16s, h.1]
  parts_outline := fun _ _ _ => rfl
instance : Level gsub.Ligature where
  bytes_length := fun x y ⟨e, _, h⟩ => by
    rw [e]; simp only [bytes, List.length_append, len_enc16, len_enc32, len_encI16, len_encI32, len_enc16s, h.1]
  parts_outline := fun _ _ _ => rfl
instance : Level gsub.Ligatures where
  bytes_length := fun x y ⟨e, h⟩ => by
    rw [e]; simp only [bytes, List.length_append, len_enc16, len_enc32, len_encI16, len_encI32, len_enc16s]
  parts_outline := fun x y ⟨e, h⟩ => by rw [e]; exact level_placedAll h
instance : Level Sequence where
  bytes_length := fun x y ⟨e, h⟩ => by
    rw [e]; simp only [bytes, List.length_append, len_enc16, len_enc32, len_encI16, len_encI32, len_enc16s, h.1]
  parts_outline := fun _ _ _ => rfl
instance : Level SingleSubstitution1 where
  bytes_length := fun x y ⟨e, _, h⟩ => by
    rw [e]; simp only [bytes, List.length_append, len_enc16, len_enc32, len_encI16, len_encI32, len_enc16s]
  parts_outline := fun x y ⟨e, _, h⟩ => by rw [e]; exact level_placed h
instance : Level SingleSubstitution2 where
  bytes_length := fun x y ⟨e, h1, h2⟩ => by
    rw [e]; simp only [bytes, List.length_append, len_enc16, len_enc32, len_encI16, len_encI32, len_enc16s, h1.1]
  parts_outline := fun x y ⟨e, h1, h2⟩ => by rw [e]; exact level_placed h2
instance : Level SingleSubstitution where
  bytes_length x y h := by
    cases x <;> cases y <;> first | exact h.elim | skip
    · exact bytes_length (α := SingleSubstitution1) _ _ h
    · exact bytes_length (α := SingleSubstitution2) _ _ h
  parts_outline x y h := by
    cases x <;> cases y <;> first | exact h.elim | skip
    · exact parts_outline (α := SingleSubstitution1) _ _ h
    · exact parts_outline (α := SingleSubstitution2) _ _ h
instance : Level MultipleSubstitution where
  bytes_length := fun x y ⟨e, h1, h2⟩ => by
    rw [e]; simp only [bytes, List.length_append, len_enc16, len_enc32, len_encI16, len_encI32, len_enc16s]
  parts_outline := fun x y ⟨e, h1, h2⟩ => by
    rw [e]; simp only [parts, outline_append, level_placed h1, level_placedAll h2]
instance : Level AlternateSubstitution where
  bytes_length := fun x y ⟨e, h1, h2⟩ => by
    rw [e]; simp only [bytes, List.length_append, len_enc16, len_enc32, len_encI16, len_encI32, len_enc16s]
  parts_outline := fun x y ⟨e, h1, h2⟩ => by
    rw [e]; simp only [parts, outline_append, level_placed h1, level_placedAll h2]
instance : Level LigatureSubstitution where
  bytes_length := fun x y ⟨e, h1, h2⟩ => by
    rw [e]; simp only [bytes, List.length_append, len_enc16, len_enc32, len_encI16, len_encI32, len_enc16s]
  parts_outline := fun x y ⟨e, h1, h2⟩ => by
    rw [e]; simp only [parts, outline_append, level_placed h1, level_placedAll h2]
instance : Level ExtensionSubstitution := ⟨fun _ _ _ => rfl, fun _ _ _ => rfl⟩
instance : Level ReverseChainedContextualSubstibution where
  bytes_length := fun x y ⟨e, h1, h2, h3, h4⟩ => by
    rw [e]; simp only [bytes, List.length_append, len_enc16, len_enc32, len_encI16, len_encI32, len_enc16s, h1.1]
  parts_outline := fun x y ⟨e, h1, h2, h3, h4⟩ => by
    rw [e]; simp only [parts, outline_append, level_placed h2, level_placedAll h3, level_placedAll h4]
instance : Level gsub.Type_ where
  bytes_length x y h := by
    cases x <;> cases y <;> first | exact h.elim | skip
    · exact bytes_length (α := SingleSubstitution) _ _ h
    · exact bytes_length (α := MultipleSubstitution) _ _ h
    · exact bytes_length (α := AlternateSubstitution) _ _ h
    · exact bytes_length (α := LigatureSubstitution) _ _ h
    · exact bytes_length (α := context.Context) _ _ h
    · exact bytes_length (α := context.ChainedContext) _ _ h
    · exact bytes_length (α := ExtensionSubstitution) _ _ h
    · exact bytes_length (α := ReverseChainedContextualSubstibution) _ _ h
  parts_outline x y h := by
    cases x <;> cases y <;> first | exact h.elim | skip
    · exact parts_outline (α := SingleSubstitution) _ _ h
    · exact parts_outline (α := MultipleSubstitution) _ _ h
    · exact parts_outline (α := AlternateSubstitution) _ _ h
    · exact parts_outline (α := LigatureSubstitution) _ _ h
    · exact parts_outline (α := context.Context) _ _ h
    · exact parts_outline (α := context.ChainedContext) _ _ h
    · exact parts_outline (α := ExtensionSubstitution) _ _ h
    · exact parts_outline (α := ReverseChainedContextualSubstibution) _ _ h

end gsub

section gpos
open OpenType.gpos

instance : Level Anchor1 := ⟨fun _ _ _ => rfl, fun _ _ _ => rfl⟩
instance : Level Anchor2 := ⟨fun _ _ _ => rfl, fun _ _ _ => rfl⟩
instance : Level Anchor3 where
  bytes_length := fun x y ⟨e, _, _, h1, h2⟩ => by
    rw [e]; simp only [bytes, List.length_append, len_enc16, len_enc32, len_encI16, len_encI32, len_enc16s]
  parts_outline := fun x y ⟨e, _, _, h1, h2⟩ => by
    rw [e]; simp only [parts, outline_append, level_placedOpt h1, level_placedOpt h2]
instance : Level Anchor where
  bytes_length x y h := by
    cases x <;> cases y <;> first | exact h.elim | skip
    · exact bytes_length (α := Anchor1) _ _ h
    · exact bytes_length (α := Anchor2) _ _ h
    · exact bytes_length (α := Anchor3) _ _ h
  parts_outline x y h := by
    cases x <;> cases y <;> first | exact h.elim | skip
    · exact parts_outline (α := Anchor1) _ _ h
    · exact parts_outline (α := Anchor2) _ _ h
    · exact parts_outline (α := Anchor3) _ _ h

theorem length_fieldI16 {x y : Option Int} (h : Replaced InI16 x y) : (fieldI16 y).length = (fieldI16 x).length := by
  cases x <;> cases y
  · rfl
  · exact h.elim
  · exact h.elim
  · rfl

theorem level_placedField {o : Option Nat} {x y : Option correction.Correction} (h : edited x y) :
    outline (placedField o y) = outline (placedField o x) := by
  cases o with
  | none => rfl
  | some o => exact level_placedOpt h

instance : Level Single where
  bytes_length := fun x y ⟨e, h1, h2, h3, h4, _⟩ => by
    rw [e]
    simp only [bytes, List.length_append, length_fieldI16 h1, length_fieldI16 h2, length_fieldI16 h3,
      length_fieldI16 h4]
  parts_outline := fun x y ⟨e, _, _, _, _, h1, h2, h3, h4⟩ => by
    rw [e]
    simp only [parts, outline_append, level_placedField h1, level_placedField h2, level_placedField h3,
      level_placedField h4]
instance : Level (Option Single) where
  bytes_length x y h := by
    cases x <;> cases y <;> first | exact h.elim | skip
    · rfl
    · exact bytes_length (α := Single) _ _ h
  parts_outline x y h := by
    cases x <;> cases y <;> first | exact h.elim | skip
    · rfl
    · exact parts_outline (α := Single) _ _ h
instance : Level Pair1 where
  bytes_length := fun x y ⟨_, h1, h2⟩ => by
    show (enc16 _ ++ bytes y.value1 ++ bytes y.value2).length = (enc16 _ ++ bytes x.value1 ++ bytes x.value2).length
    simp only [List.length_append, len_enc16, bytes_length _ _ h1, bytes_length _ _ h2]
  parts_outline := fun x y ⟨_, h1, h2⟩ => by
    show outline (parts y.value1 ++ parts y.value2) = outline (parts x.value1 ++ parts x.value2)
    rw [outline_append, outline_append, parts_outline _ _ h1, parts_outline _ _ h2]
instance : Level Pair1s where
  bytes_length := fun x y ⟨e, h⟩ => by rw [e]; simp only [bytes, List.length_append, len_enc16, level_bytesAll h]
  parts_outline := fun x y ⟨e, h⟩ => by rw [e]; exact level_partsAll h
instance : Level Pair2 where
  bytes_length := fun x y ⟨h1, h2⟩ => by
    show (bytes y.value1 ++ bytes y.value2).length = (bytes x.value1 ++ bytes x.value2).length
    rw [List.length_append, List.length_append, bytes_length _ _ h1, bytes_length _ _ h2]
  parts_outline := fun x y ⟨h1, h2⟩ => by
    show outline (parts y.value1 ++ parts y.value2) = outline (parts x.value1 ++ parts x.value2)
    rw [outline_append, outline_append, parts_outline _ _ h1, parts_outline _ _ h2]
instance : Level Pair2s := ⟨fun _ _ h => level_bytesAll h, fun _ _ h => level_partsAll h⟩
instance : Level Base where
  bytes_length := fun x y ⟨e, h⟩ => by
    rw [e]; simp only [bytes, List.length_append, len_enc16, len_enc32, len_encI16, len_encI32, len_enc16s]
  parts_outline := fun x y ⟨e, h⟩ => by rw [e]; exact level_placedOpts h
instance : Level Component where
  bytes_length := fun x y ⟨e, h⟩ => by
    rw [e]; simp only [bytes, List.length_append, len_enc16, len_enc32, len_encI16, len_encI32, len_enc16s]
  parts_outline := fun x y ⟨e, h⟩ => by rw [e]; exact level_placedOpts h
instance : Level Mark2 where
  bytes_length := fun x y ⟨e, h⟩ => by
    rw [e]; simp only [bytes, List.length_append, len_enc16, len_enc32, len_encI16, len_encI32, len_enc16s]
  parts_outline := fun x y ⟨e, h⟩ => by rw [e]; exact level_placedOpts h
instance : Level Bases where
  bytes_length := fun x y ⟨e, h⟩ => by
    rw [e]; simp only [bytes, List.length_append, len_enc16, len_enc32, len_encI16, len_encI32, len_enc16s, level_bytesAll h]
  parts_outline := fun x y ⟨e, h⟩ => by rw [e]; exact level_partsAll h
instance : Level Mark2s where
  bytes_length := fun x y ⟨e, h⟩ => by
    rw [e]; simp only [bytes, List.length_append, len_enc16, len_enc32, len_encI16, len_encI32, len_enc16s, level_bytesAll h]
  parts_outline := fun x y ⟨e, h⟩ => by rw [e]; exact level_partsAll h
instance : Level gpos.Ligature where
  bytes_length := fun x y ⟨e, h⟩ => by
    rw [e]; simp only [bytes, List.length_append, len_enc16, len_enc32, len_encI16, len_encI32, len_enc16s, level_bytesAll h]
  parts_outline := fun x y ⟨e, h⟩ => by rw [e]; exact level_partsAll h
instance : Level Connection where
  bytes_length := fun x y ⟨e, h1, h2⟩ => by
    rw [e]; simp only [bytes, List.length_append, len_enc16, len_enc32, len_encI16, len_encI32, len_enc16s]
  parts_outline := fun x y ⟨e, h1, h2⟩ => by
    rw [e]; simp only [parts, outline_append, level_placedOpt h1, level_placedOpt h2]
instance : Level gpos.Ligatures where
  bytes_length := fun x y ⟨e, h⟩ => by
    rw [e]; simp only [bytes, List.length_append, len_enc16, len_enc32, len_encI16, len_encI32, len_enc16s]
  parts_outline := fun x y ⟨e, h⟩ => by rw [e]; exact level_placedAll h
instance : Level Mark1 where
  bytes_length := fun _ _ _ => rfl
  parts_outline := fun x y ⟨e, _, h⟩ => by
    rw [e]
    show outline (if x.anchor_offset = 0 ∧ y.anchor = _ then _ else placed x.anchor_offset y.anchor) =
      outline (if x.anchor_offset = 0 ∧ x.anchor = _ then _ else placed x.anchor_offset x.anchor)
    split at h
    · rw [h]
    · next c => rw [if_neg (fun c' => h.2 c'.2), if_neg (fun c' => c c'.2)]; exact level_placed h.1
instance : Level Mark1s where
  bytes_length := fun x y ⟨e, h⟩ => by
    rw [e]; simp only [bytes, List.length_append, len_enc16, len_enc32, len_encI16, len_encI32, len_enc16s, level_bytesAll h]
  parts_outline := fun x y ⟨e, h⟩ => by rw [e]; exact level_partsAll h
instance : Level SingleAdjustment1 where
  bytes_length := fun x y ⟨e, h, _⟩ => by
    rw [e]
    show (enc16 x.format ++ enc16 x.coverage_offset ++ enc16 x.value_flags ++ bytes y.value).length =
      (enc16 x.format ++ enc16 x.coverage_offset ++ enc16 x.value_flags ++ bytes x.value).length
    simp only [List.length_append, bytes_length _ _ h]
  parts_outline := fun x y ⟨e, h1, h2⟩ => by
    rw [e]
    show outline (parts y.value ++ placed _ _) = outline (parts x.value ++ placed _ _)
    rw [outline_append, outline_append, parts_outline _ _ h1, level_placed h2]
instance : Level SingleAdjustment2 where
  bytes_length := fun x y ⟨e, h1, h2⟩ => by
    rw [e]; simp only [bytes, List.length_append, len_enc16, len_enc32, len_encI16, len_encI32, len_enc16s, level_bytesAll h1]
  parts_outline := fun x y ⟨e, h1, h2⟩ => by
    rw [e]; simp only [parts, outline_append, level_partsAll h1, level_placed h2]
instance : Level SingleAdjustment where
  bytes_length x y h := by
    cases x <;> cases y <;> first | exact h.elim | skip
    · exact bytes_length (α := SingleAdjustment1) _ _ h
    · exact bytes_length (α := SingleAdjustment2) _ _ h
  parts_outline x y h := by
    cases x <;> cases y <;> first | exact h.elim | skip
    · exact parts_outline (α := SingleAdjustment1) _ _ h
    · exact parts_outline (α := SingleAdjustment2) _ _ h
instance : Level PairAdjustment1 where
  bytes_length := fun x y ⟨e, h1, h2⟩ => by
    rw [e]; simp only [bytes, List.length_append, len_enc16, len_enc32, len_encI16, len_encI32, len_enc16s]
  parts_outline := fun x y ⟨e, h1, h2⟩ => by
    rw [e]; simp only [parts, outline_append, level_placed h1, level_placedAll h2]
instance : Level PairAdjustment2 where
  bytes_length := fun x y ⟨e, h1, h2, h3, h4⟩ => by
    rw [e]; simp only [bytes, List.length_append, len_enc16, len_enc32, len_encI16, len_encI32, len_enc16s, level_bytesAll h1]
  parts_outline := fun x y ⟨e, h1, h2, h3, h4⟩ => by
    rw [e]; simp only [parts, outline_append, level_partsAll h1, level_placed h2, level_placed h3, level_placed h4]
instance : Level PairAdjustment where
  bytes_length x y h := by
    cases x <;> cases y <;> first | exact h.elim | skip
    · exact bytes_length (α := PairAdjustment1) _ _ h
    · exact bytes_length (α := PairAdjustment2) _ _ h
  parts_outline x y h := by
    cases x <;> cases y <;> first | exact h.elim | skip
    · exact parts_outline (α := PairAdjustment1) _ _ h
    · exact parts_outline (α := PairAdjustment2) _ _ h
instance : Level CursiveAttachment where
  bytes_length := fun x y ⟨e, h1, h2⟩ => by
    rw [e]; simp only [bytes, List.length_append, len_enc16, len_enc32, len_encI16, len_encI32, len_enc16s, level_bytesAll h1]
  parts_outline := fun x y ⟨e, h1, h2⟩ => by
    rw [e]; simp only [parts, outline_append, level_partsAll h1, level_placed h2]
instance : Level MarkToBaseAttachment where
  bytes_length := fun x y ⟨e, h1, h2, h3, h4⟩ => by
    rw [e]; simp only [bytes, List.length_append, len_enc16, len_enc32, len_encI16, len_encI32, len_enc16s]
  parts_outline := fun x y ⟨e, h1, h2, h3, h4⟩ => by
    rw [e]; simp only [parts, outline_append, level_placed h1, level_placed h2, level_placed h3, level_placed h4]
instance : Level MarkToLigatureAttachment where
  bytes_length := fun x y ⟨e, h1, h2, h3, h4⟩ => by
    rw [e]; simp only [bytes, List.length_append, len_enc16, len_enc32, len_encI16, len_encI32, len_enc16s]
  parts_outline := fun x y ⟨e, h1, h2, h3, h4⟩ => by
    rw [e]; simp only [parts, outline_append, level_placed h1, level_placed h2, level_placed h3, level_placed h4]
instance : Level MarkToMarkAttachment where
  bytes_length := fun x y ⟨e, h1, h2, h3, h4⟩ => by
    rw [e]; simp only [bytes, List.length_append, len_enc16, len_enc32, len_encI16, len_encI32, len_enc16s]
  parts_outline := fun x y ⟨e, h1, h2, h3, h4⟩ => by
    rw [e]; simp only [parts, outline_append, level_placed h1, level_placed h2, level_placed h3, level_placed h4]
instance : Level ExtensionPositioning := ⟨fun _ _ _ => rfl, fun _ _ _ => rfl⟩
instance : Level gpos.Type_ where
  bytes_length x y h := by
    cases x <;> cases y <;> first | exact h.elim | skip
    · exact bytes_length (α := SingleAdjustment) _ _ h
    · exact bytes_length (α := PairAdjustment) _ _ h
    · exact bytes_length (α := CursiveAttachment) _ _ h
    · exact bytes_length (α := MarkToBaseAttachment) _ _ h
    · exact bytes_length (α := MarkToLigatureAttachment) _ _ h
    · exact bytes_length (α := MarkToMarkAttachment) _ _ h
    · exact bytes_length (α := context.Context) _ _ h
    · exact bytes_length (α := context.ChainedContext) _ _ h
    · exact bytes_length (α := ExtensionPositioning) _ _ h
  parts_outline x y h := by
    cases x <;> cases y <;> first | exact h.elim | skip
    · exact parts_outline (α := SingleAdjustment) _ _ h
    · exact parts_outline (α := PairAdjustment) _ _ h
    · exact parts_outline (α := CursiveAttachment) _ _ h
    · exact parts_outline (α := MarkToBaseAttachment) _ _ h
    · exact parts_outline (α := MarkToLigatureAttachment) _ _ h
    · exact parts_outline (α := MarkToMarkAttachment) _ _ h
    · exact parts_outline (α := context.Context) _ _ h
    · exact parts_outline (α := context.ChainedContext) _ _ h
    · exact parts_outline (α := ExtensionPositioning) _ _ h

end gpos

section others
open OpenType.cpal OpenType.fvar OpenType.gdef

instance : Level Color := ⟨fun _ _ _ => rfl, fun _ _ _ => rfl⟩
instance : Level cpal.Header0 where
  bytes_length := fun x y ⟨e, h⟩ => by
    rw [e]; simp only [bytes, List.length_append, len_enc16, len_enc32, len_encI16, len_encI32, len_enc16s, h.1]
  parts_outline := fun _ _ _ => rfl
instance : Level cpal.Header1 where
  bytes_length := fun x y ⟨e, h⟩ => by
    rw [e]; simp only [bytes, List.length_append, len_enc16, len_enc32, len_encI16, len_encI32, len_enc16s, h.1]
  parts_outline := fun _ _ _ => rfl
instance : Level ColorPalettes where
  bytes_length := fun x y ⟨h, _⟩ => by
    obtain ⟨a, _⟩ := x
    obtain ⟨b, _⟩ := y
    cases a <;> cases b <;> first | exact h.elim | skip
    · exact bytes_length (α := cpal.Header0) _ _ h
    · exact bytes_length (α := cpal.Header1) _ _ h
  parts_outline := fun x y ⟨h, h'⟩ => by
    obtain ⟨a, _⟩ := x
    obtain ⟨b, _⟩ := y
    cases a <;> cases b <;> first | exact h.elim | skip
    · show [(_, _)] = [(_, _)]
      rw [level_bytesAll h', h.1]
    · show [(_, _)] = [(_, _)]
      rw [level_bytesAll h', h.1]

instance : Level AxisRecord := ⟨fun _ _ _ => rfl, fun _ _ _ => rfl⟩
instance : Level InstanceRecord where
  bytes_length := fun x y ⟨e, _, h, _⟩ => by
    rw [e]; simp only [bytes, List.length_append, len_enc16, length_flatMap len_encI32, h]
  parts_outline := fun _ _ _ => rfl

theorem level_placedEvery {α : Type} [Edited α] [Encode α] [Level α] {start stride : Nat} {xs ys : List α}
    (h : edited xs ys) : outline (placedEvery start stride ys) = outline (placedEvery start stride xs) := by
  suffices ∀ k, outline ((ys.zipIdx k).flatMap fun x => placed (start + stride * x.2) x.1) =
      outline ((xs.zipIdx k).flatMap fun x => placed (start + stride * x.2) x.1) from this 0
  induction xs generalizing ys with
  | nil => rw [edited_nil h]; exact fun _ => rfl
  | cons x xs ih =>
    obtain ⟨y, ys', rfl, h1, h2⟩ := edited_cons h
    intro k
    rw [List.zipIdx_cons, List.zipIdx_cons, List.flatMap_cons, List.flatMap_cons, outline_append, outline_append,
      level_placed h1, ih h2]

instance : Level FontVariations where
  bytes_length := fun x y ⟨e, h1, h2⟩ => by
    rw [e]; simp only [bytes, List.length_append, len_enc16, len_enc32, len_encI16, len_encI32, len_enc16s]
  parts_outline := fun x y ⟨e, h1, h2⟩ => by
    rw [e]; simp only [parts, outline_append, level_placedEvery h1, level_placedEvery h2]

instance : Level item.Record where
  bytes_length := fun x y ⟨e, h1, h2, _⟩ => by
    rw [e]; simp only [bytes, List.length_append, len_enc16, len_enc16s, h1.1, length_flatMap len_enc8, h2]
  parts_outline := fun _ _ _ => rfl
instance : Level item.Store where
  bytes_length := fun x y ⟨e, h⟩ => by
    rw [e]; simp only [bytes, List.length_append, len_enc16, len_enc32, len_encI16, len_encI32, len_enc16s]
  parts_outline := fun x y ⟨e, h⟩ => by rw [e]; exact level_placedAll h

instance : Level Attachment where
  bytes_length := fun x y ⟨e, h⟩ => by
    rw [e]; simp only [bytes, List.length_append, len_enc16, len_enc32, len_encI16, len_encI32, len_enc16s, h.1]
  parts_outline := fun _ _ _ => rfl
instance : Level Attachments where
  bytes_length := fun x y ⟨e, h1, h2⟩ => by
    rw [e]; simp only [bytes, List.length_append, len_enc16, len_enc32, len_encI16, len_encI32, len_enc16s]
  parts_outline := fun x y ⟨e, h1, h2⟩ => by
    rw [e]; simp only [parts, outline_append, level_placed h1, level_placedAll h2]
instance : Level Caret1 := ⟨fun _ _ _ => rfl, fun _ _ _ => rfl⟩
instance : Level Caret2 := ⟨fun _ _ _ => rfl, fun _ _ _ => rfl⟩
instance : Level Caret3 where
  bytes_length := fun x y ⟨e, _, h⟩ => by
    rw [e]; simp only [bytes, List.length_append, len_enc16, len_enc32, len_encI16, len_encI32, len_enc16s]
  parts_outline := fun x y ⟨e, _, h⟩ => by rw [e]; exact level_placed h
instance : Level Caret where
  bytes_length x y h := by
    cases x <;> cases y <;> first | exact h.elim | skip
    · exact bytes_length (α := Caret1) _ _ h
    · exact bytes_length (α := Caret2) _ _ h
    · exact bytes_length (α := Caret3) _ _ h
  parts_outline x y h := by
    cases x <;> cases y <;> first | exact h.elim | skip
    · exact parts_outline (α := Caret1) _ _ h
    · exact parts_outline (α := Caret2) _ _ h
    · exact parts_outline (α := Caret3) _ _ h
instance : Level gdef.Ligature where
  bytes_length := fun x y ⟨e, h⟩ => by
    rw [e]; simp only [bytes, List.length_append, len_enc16, len_enc32, len_encI16, len_encI32, len_enc16s]
  parts_outline := fun x y ⟨e, h⟩ => by rw [e]; exact level_placedAll h
instance : Level gdef.Ligatures where
  bytes_length := fun x y ⟨e, h1, h2⟩ => by
    rw [e]; simp only [bytes, List.length_append, len_enc16, len_enc32, len_encI16, len_encI32, len_enc16s]
  parts_outline := fun x y ⟨e, h1, h2⟩ => by
    rw [e]; simp only [parts, outline_append, level_placed h1, level_placedAll h2]
instance : Level Marks where
  bytes_length := fun x y ⟨e, h⟩ => by
    rw [e]; simp only [bytes, List.length_append, len_enc16, len_enc32, len_encI16, len_encI32, len_enc16s]
  parts_outline := fun x y ⟨e, h⟩ => by rw [e]; exact level_placedAll h

theorem level_gdef {x y : GlyphDefinition} (h : edited x y) :
    outline (gdefEncodingTaken y) = outline (gdefEncodingTaken x) := by
  obtain ⟨e, h1, h2, h3, h4, h5, h6⟩ := h
  rw [e]
  show (_, _) :: outline (_ ++ _ ++ _ ++ _ ++ _ ++ _) = (_, _) :: outline (_ ++ _ ++ _ ++ _ ++ _ ++ _)
  simp only [outline_append, level_placedOpt h1, level_placedOpt h2, level_placedOpt h3, level_placedOpt h4,
    level_placedOpt h5, level_placedOpt h6]

end others
end OpenType.Spec
