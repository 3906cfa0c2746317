import Verif.Proof.Safety
/-! # Numbers stored in a tape stay stored in a longer tape -/

namespace OpenType
open Spec

variable {d D : Data} {k p : Nat}

theorem Spec.U8.ext {n : Nat} (h : U8 d p n) (hx : Ext d D k) : U8 D (k + p) n := by
  obtain ⟨a, ha, rfl⟩ := h
  exact ⟨a, hx _ _ ha, rfl⟩

theorem Spec.U16.ext {n : Nat} (h : U16 d p n) (hx : Ext d D k) : U16 D (k + p) n := by
  obtain ⟨a, b, ha, hb, rfl⟩ := h
  exact ⟨a, b, ha.ext hx, hb.ext hx, rfl⟩

theorem Spec.U32.ext {n : Nat} (h : U32 d p n) (hx : Ext d D k) : U32 D (k + p) n := by
  obtain ⟨a, b, ha, hb, rfl⟩ := h
  exact ⟨a, b, ha.ext hx, hb.ext hx, rfl⟩

theorem Spec.I16.ext {n : Int} (h : I16 d p n) (hx : Ext d D k) : I16 D (k + p) n :=
  ⟨h.1, h.2.1, h.2.2.ext hx⟩

theorem Spec.I32.ext {n : Int} (h : I32 d p n) (hx : Ext d D k) : I32 D (k + p) n :=
  ⟨h.1, h.2.1, h.2.2.ext hx⟩

theorem Spec.ArrayOf.imp {α : Type} {S T : Nat → α → Prop} {stride p q n : Nat} {xs : List α}
    (h : ArrayOf S stride p n xs) (hs : ∀ i x, xs[i]? = some x → S (p + stride * i) x → T (q + stride * i) x) :
    ArrayOf T stride q n xs := ⟨h.1, fun i x hi => hs i x hi (h.2 i x hi)⟩

theorem Spec.ArrayOf.ext {α : Type} {S : Data → Nat → α → Prop} {stride p n : Nat} {xs : List α}
    (h : ArrayOf (S d) stride p n xs) (hs : ∀ q x, S d q x → S D (k + q) x) :
    ArrayOf (S D) stride (k + p) n xs :=
  h.imp fun i x _ hx => by rw [Nat.add_assoc]; exact hs _ _ hx

theorem Spec.U8.exists (h : p < d.length) : ∃ n, U8 d p n := ⟨_, _, List.getElem?_eq_getElem h, rfl⟩

theorem Spec.U16.exists (h : p + 1 < d.length) : ∃ n, U16 d p n := by
  obtain ⟨a, ha⟩ := U8.exists (d := d) (p := p) (by omega)
  obtain ⟨b, hb⟩ := U8.exists h
  exact ⟨_, a, b, ha, hb, rfl⟩

/-- The rest of a tape starts at its beginning. -/
theorem ext_append (d s : Data) : Ext d (d ++ s) 0 := ext_mid [] d s

/-- A list from its elements. -/
theorem exists_list {α : Type} {n : Nat} {P : Nat → α → Prop} (h : ∀ j < n, ∃ x, P j x) :
    ∃ xs : List α, xs.length = n ∧ ∀ j x, xs[j]? = some x → P j x := by
  induction n with
  | zero => exact ⟨[], rfl, fun j x hj => by cases hj⟩
  | succ n ih =>
    obtain ⟨xs, hl, hx⟩ := ih fun j hj => h j (by omega)
    obtain ⟨y, hy⟩ := h n (by omega)
    refine ⟨xs ++ [y], by simp [hl], fun j x hj => ?_⟩
    by_cases hlt : j < n
    · rw [List.getElem?_append_left (by omega)] at hj
      exact hx j x hj
    · rw [List.getElem?_append_right (by omega)] at hj
      obtain ⟨hj', e⟩ := List.getElem?_eq_some_iff.mp hj
      have : j = n := by simp at hj'; omega
      subst this
      simp [hl] at e
      exact e ▸ hy

end OpenType
