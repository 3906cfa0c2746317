import Verif.Model.Tags
/-!
# What the enumerations of the source are translated to

The module `Verif/Generated/Tags.lean` is translated from the source by `tools/methods.py`. A value of `Feature`, `Script` or
`Language` is there the name of its variant or the tag of the variant `Other`, and a `match` is the list of its arms.
-/

namespace OpenType.Generated

/-- A value of one of the three enumerations. -/
abbrev Variant := String ⊕ Tag

/-- An arm of a `match`: whether `#[cfg(feature = "default-language")]` is before it, the pattern and the value. -/
abbrev Arm (α β : Type) := Bool × α × β

/-- The value of the first arm that is present and whose pattern is `x`. -/
def firstMatch {α β : Type} [DecidableEq α] (defaultLanguage : Bool) (arms : List (Arm α β)) (x : α) : Option β :=
  match arms with
  | [] => none
  | (gated, pattern, value) :: arms =>
    if (gated = true → defaultLanguage = true) ∧ pattern = x then some value else firstMatch defaultLanguage arms x

/-- A value of the model's enumeration by the name of its variant. -/
def view {R : Type} {rows : List R} (variantOf : R → String) : Named rows.length → Variant
  | .known row => .inl (variantOf rows[row])
  | .other tag => .inr tag

theorem firstMatch_map {R α β : Type} [DecidableEq α] (on : Bool) (rows : List R) (gated : R → Bool) (key : R → α)
    (value : R → β) (x : α) :
    firstMatch on (rows.map fun row => (gated row, key row, value row)) x =
      (rows.find? fun row => (on || !gated row) && decide (key row = x)).map value := by
  induction rows with
  | nil => rfl
  | cons row rows ih =>
    rw [List.map_cons, firstMatch, List.find?_cons]
    by_cases h : (gated row = true → on = true) ∧ key row = x
    · rw [if_pos h]
      have h' : ((on || !gated row) && decide (key row = x)) = true := by
        rw [decide_eq_true h.2, Bool.and_true]
        cases hg : gated row with
        | true => rw [h.1 hg]; rfl
        | false => cases on <;> rfl
      rw [h']
      rfl
    · rw [if_neg h, ih]
      have h' : ((on || !gated row) && decide (key row = x)) = false := by
        cases on <;> cases hg : gated row <;> simp_all
      rw [h']

theorem find_fin {R : Type} (rows : List R) (p : R → Bool) :
    rows.find? p = (rows.findFinIdx? p).map (fun i => rows[i]) := by
  cases h : rows.findFinIdx? p with
  | none =>
    have := List.findFinIdx?_eq_none_iff.mp h
    exact List.find?_eq_none.mpr fun x hx => this x hx
  | some i =>
    obtain ⟨h1, h2⟩ := List.findFinIdx?_eq_some_iff.mp h
    refine List.find?_eq_some_iff_getElem.mpr ⟨h1, i.val, i.isLt, rfl, fun j hj => ?_⟩
    have := h2 ⟨j, by omega⟩ hj
    simpa using this

/-- The `match` of `from_tag`. -/
theorem first_eq {R : Type} (rows : List R) (on : Bool) (gated : R → Bool) (tagOf : R → Tag)
    (variantOf : R → String) (tag : Tag) :
    (match firstMatch on (rows.map fun row => (gated row, tagOf row, variantOf row)) tag with
      | some variant => .inl variant
      | none => .inr tag : Variant) =
      view (rows := rows) variantOf (firstArm rows (fun row => (on || !gated row) && tagOf row == tag) tag) := by
  rw [firstMatch_map, find_fin]
  have e : (fun row => (on || !gated row) && decide (tagOf row = tag)) =
      fun row => (on || !gated row) && tagOf row == tag := by
    funext row
    by_cases h : tagOf row = tag <;> simp [h]
  rw [e, firstArm]
  cases rows.findFinIdx? (fun row => (on || !gated row) && tagOf row == tag) <;> rfl

/-- A number made of the characters of a name. -/
def number (name : String) : Nat := name.toList.foldl (fun n c => n * 1114112 + c.toNat) 1

/-- No two numbers are equal. -/
def apart : List Nat → Bool
  | [] => true
  | x :: xs => xs.all (fun y => !Nat.beq y x) && apart xs

theorem apart_nodup {xs : List Nat} (h : apart xs = true) : xs.Nodup := by
  induction xs with
  | nil => exact List.nodup_nil
  | cons y ys ih =>
    rw [apart, Bool.and_eq_true] at h
    refine List.nodup_cons.mpr ⟨fun hy => ?_, ih h.2⟩
    have := List.all_eq_true.mp h.1 _ hy
    simp at this

/-- The `match` of a method on the named variants, which are distinct. -/
theorem of_variant_eq {R β : Type} (rows : List R) (on : Bool) (gated : R → Bool) (variantOf : R → String) (value : R → β)
    (h : apart (rows.map fun row => number (variantOf row)) = true) (i : Fin rows.length)
    (hi : (on || !gated rows[i]) = true) :
    firstMatch on (rows.map fun row => (gated row, variantOf row, value row)) (variantOf rows[i]) =
      some (value rows[i]) := by
  rw [firstMatch_map]
  have nodup := apart_nodup h
  have found : (rows.find? fun row => (on || !gated row) && decide (variantOf row = variantOf rows[i])) =
      some rows[i] := by
    refine List.find?_eq_some_iff_getElem.mpr ⟨by simpa using hi, i.val, i.isLt, rfl, fun j hj => ?_⟩
    have ne : variantOf rows[j] ≠ variantOf rows[i] := fun e => by
      refine List.pairwise_iff_getElem.mp nodup j i.val (by rw [List.length_map]; omega)
        (by rw [List.length_map]; exact i.isLt) hj ?_
      simpa using congrArg number e
    have ne' : decide (variantOf rows[j] = variantOf rows[i]) = false := decide_eq_false ne
    rw [ne', Bool.and_false]
    rfl
  rw [found]
  rfl

end OpenType.Generated
