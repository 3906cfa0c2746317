import Verif.Proof.Mono
import Verif.Spec.Encode
/-! # Bytes written and fields stored -/

namespace OpenType
open Spec

variable {d : Data} {p : Nat}

/-! ## Bytes at places -/

theorem stored_nil : Stored d p [] ↔ True := by simp [Stored]

theorem stored_append {a b : Data} :
    Stored d p (a ++ b) ↔ Stored d p a ∧ Stored d (p + a.length) b := by
  constructor
  · intro h
    refine ⟨fun i x hi => h i x ?_, fun i x hi => ?_⟩
    · rw [List.getElem?_append_left]
      · exact hi
      · exact (List.getElem?_eq_some_iff.mp hi).1
    · rw [Nat.add_assoc]; apply h
      rw [List.getElem?_append_right (by omega)]
      simpa using hi
  · rintro ⟨h1, h2⟩ i x hi
    by_cases hlt : i < a.length
    · rw [List.getElem?_append_left hlt] at hi; exact h1 i x hi
    · rw [List.getElem?_append_right (by omega)] at hi
      have := h2 _ _ hi
      rwa [Nat.add_assoc, Nat.add_sub_cancel' (by omega)] at this

theorem stored_one {a : UInt8} : Stored d p [a] ↔ d[p]? = some a := by
  constructor
  · intro h; exact h 0 a rfl
  · intro h i x hi
    match i with
    | 0 => simp at hi; subst hi; exact h
    | i + 1 => simp at hi

theorem holds_nil : Holds d p [] ↔ True := by simp [Holds]

theorem holds_cons {c : Chunk} {cs : List Chunk} :
    Holds d p (c :: cs) ↔ Stored d (p + c.1) c.2 ∧ Holds d p cs := by simp [Holds]

theorem holds_append {a b : List Chunk} : Holds d p (a ++ b) ↔ Holds d p a ∧ Holds d p b := by
  simp [Holds, or_imp, forall_and]

theorem holds_flatMap {α : Type} {xs : List α} {f : α → List Chunk} :
    Holds d p (xs.flatMap f) ↔ ∀ x ∈ xs, Holds d p (f x) := by
  simp only [Holds, List.mem_flatMap]
  constructor
  · intro h x hx c hc; exact h c ⟨x, hx, hc⟩
  · rintro h c ⟨x, hx, hc⟩; exact h x hx c hc

theorem le_extent {cs : List Chunk} {c : Chunk} (h : c ∈ cs) (hn : c.2 ≠ []) :
    c.1 + c.2.length ≤ extent cs := by
  induction cs with
  | nil => cases h
  | cons a cs ih =>
    simp only [extent, List.map_cons, List.foldr_cons]
    rcases List.mem_cons.mp h with rfl | h
    · simp only [hn, if_false]; omega
    · have := ih h; simp only [extent] at this; omega

theorem extent_le {cs : List Chunk} {n : Nat} (h : ∀ c ∈ cs, c.2 ≠ [] → c.1 + c.2.length ≤ n) :
    extent cs ≤ n := by
  induction cs with
  | nil => exact Nat.zero_le _
  | cons a cs ih =>
    have h1 := ih fun c hc => h c (List.mem_cons_of_mem _ hc)
    have h2 := h a List.mem_cons_self
    simp only [extent, List.map_cons, List.foldr_cons] at *
    split
    · omega
    · rename_i hn; have := h2 hn; omega

theorem byteAt_eq {cs : List Chunk} (hc : Consistent cs) {c : Chunk} (h : c ∈ cs) {i : Nat} {x : UInt8}
    (hx : c.2[i]? = some x) : byteAt cs (c.1 + i) = x := by
  unfold byteAt
  cases hf : cs.findSome? fun c' => if c'.1 ≤ c.1 + i then c'.2[c.1 + i - c'.1]? else none with
  | none =>
    have := List.findSome?_eq_none_iff.mp hf c h
    simp [hx] at this
  | some y =>
    obtain ⟨c', hm, hy⟩ := List.exists_of_findSome?_eq_some hf
    split at hy
    · exact hc c' hm c h _ _ _ _ hy hx (by omega)
    · cases hy

/-- What is written is there. -/
theorem holds_render {cs : List Chunk} (hc : Consistent cs) : Holds (render cs) 0 cs := by
  intro c h i x hx
  have hi := (List.getElem?_eq_some_iff.mp hx).1
  have := le_extent h (by rintro e; rw [e] at hi; cases hi)
  simp only [render, Nat.zero_add, List.getElem?_map]
  rw [List.getElem?_range (by omega)]
  simp [byteAt_eq hc h hx]

/-- Only consistent chunks are in a tape. -/
theorem Spec.Holds.consistent {cs : List Chunk} (h : Holds d p cs) : Consistent cs := by
  intro c hc c' hc' i j x y hx hy e
  have h1 := h c hc i x hx
  have h2 := h c' hc' j y hy
  rw [Nat.add_assoc, e, ← Nat.add_assoc, h2] at h1
  exact (Option.some.inj h1).symm

theorem Spec.Holds.extent_le {cs : List Chunk} (h : Holds d p cs) : extent cs ≤ d.length := by
  apply OpenType.extent_le
  intro c hc hn
  have hl : 0 < c.2.length := List.length_pos_iff.mpr hn
  have := h c hc (c.2.length - 1) _ (List.getElem?_eq_getElem (by omega))
  have := (List.getElem?_eq_some_iff.mp this).1
  omega

theorem render_length (cs : List Chunk) : (render cs).length = extent cs := by simp [render]

theorem Spec.Holds.ext {cs : List Chunk} {D : Data} {k : Nat} (h : Holds d p cs) (hx : Ext d D k) :
    Holds D (k + p) cs := by
  intro c hc i x hi
  rw [Nat.add_assoc, Nat.add_assoc]
  have := h c hc i x hi
  rw [Nat.add_assoc] at this
  exact hx _ _ this

section
variable {α : Type} [Encode α]

theorem holds_encoding {t : α} :
    Holds d p (encoding t) ↔ Stored d p (bytes t) ∧ Holds d p (parts t) := by
  simp [encoding, holds_cons]

theorem holds_placed {o : Nat} {t : α} :
    Holds d p (placed o t) ↔ Stored d (p + o) (bytes t) ∧ Holds d (p + o) (parts t) := by
  rw [← holds_encoding]
  simp only [Holds, placed, List.forall_mem_map, Nat.add_assoc]

end

/-! ## Numbers -/

theorem at8 {n : Nat} : U8 d p n ↔ n < 256 ∧ Stored d p (enc8 n) := by
  simp only [enc8, stored_one]
  constructor
  · rintro ⟨a, ha, rfl⟩
    exact ⟨a.toNat_lt, by simpa using ha⟩
  · rintro ⟨hn, h⟩
    exact ⟨_, h, (UInt8.toNat_ofNat_of_lt' hn).symm⟩

theorem at16 {n : Nat} : U16 d p n ↔ n < 65536 ∧ Stored d p (enc16 n) := by
  have e : enc16 n = enc8 (n / 256) ++ enc8 (n % 256) := rfl
  rw [e, stored_append]
  constructor
  · rintro ⟨a, b, ha, hb, rfl⟩
    obtain ⟨h1, h2⟩ := at8.mp ha
    obtain ⟨h3, h4⟩ := at8.mp hb
    refine ⟨by omega, ?_, ?_⟩
    · rwa [show (256 * a + b) / 256 = a by omega]
    · rwa [show (256 * a + b) % 256 = b by omega]
  · rintro ⟨hn, h1, h2⟩
    exact ⟨n / 256, n % 256, at8.mpr ⟨by omega, h1⟩, at8.mpr ⟨by omega, h2⟩, by omega⟩

theorem at32 {n : Nat} : U32 d p n ↔ n < 4294967296 ∧ Stored d p (enc32 n) := by
  rw [enc32, stored_append]
  constructor
  · rintro ⟨a, b, ha, hb, rfl⟩
    obtain ⟨h1, h2⟩ := at16.mp ha
    obtain ⟨h3, h4⟩ := at16.mp hb
    refine ⟨by omega, ?_, ?_⟩
    · rwa [show (65536 * a + b) / 65536 = a by omega]
    · rwa [show (65536 * a + b) % 65536 = b by omega]
  · rintro ⟨hn, h1, h2⟩
    exact ⟨n / 65536, n % 65536, at16.mpr ⟨by omega, h1⟩, at16.mpr ⟨by omega, h2⟩, by omega⟩

theorem atI16 {x : Int} : I16 d p x ↔ InI16 x ∧ Stored d p (encI16 x) := by
  have : (x % 65536).toNat < 65536 := by omega
  simp only [I16, InI16, encI16, at16, this]
  grind

theorem atI32 {x : Int} : I32 d p x ↔ InI32 x ∧ Stored d p (encI32 x) := by
  have : (x % 4294967296).toNat < 4294967296 := by omega
  simp only [I32, InI32, encI32, at32, this]
  grind

theorem enc8_length (n : Nat) : (enc8 n).length = 1 := rfl
theorem enc16_length (n : Nat) : (enc16 n).length = 2 := rfl
theorem enc32_length (n : Nat) : (enc32 n).length = 4 := rfl
theorem encI16_length (n : Int) : (encI16 n).length = 2 := rfl
theorem encI32_length (n : Int) : (encI32 n).length = 4 := rfl

/-! ## Arrays -/

theorem flatMap_length {α : Type} {f : α → Data} {size : Nat} {xs : List α}
    (h : ∀ x ∈ xs, (f x).length = size) : (xs.flatMap f).length = size * xs.length := by
  induction xs with
  | nil => rfl
  | cons x xs ih =>
    rw [List.flatMap_cons, List.length_append, h x (by simp), ih fun y hy => h y (by simp [hy])]
    simp [Nat.mul_add, Nat.add_comm]

theorem enc16s_length (xs : List Nat) : (enc16s xs).length = 2 * xs.length :=
  flatMap_length fun _ _ => rfl

theorem enc32s_length (xs : List Nat) : (enc32s xs).length = 4 * xs.length :=
  flatMap_length fun _ _ => rfl

/-- Items of equal size one after another. -/
theorem at_array {α : Type} {S : Nat → α → Prop} {V H : α → Prop} {f : α → Data} {size : Nat}
    (hS : ∀ p x, S p x ↔ V x ∧ Stored d p (f x) ∧ H x) (hf : ∀ x, V x → (f x).length = size)
    {n : Nat} {xs : List α} :
    ArrayOf S size p n xs ↔
      xs.length = n ∧ (∀ x ∈ xs, V x) ∧ Stored d p (xs.flatMap f) ∧ ∀ x ∈ xs, H x := by
  unfold ArrayOf
  refine and_congr_right fun hn => ?_
  clear hn n
  induction xs generalizing p with
  | nil => simp [stored_nil]
  | cons x xs ih =>
    have key : (∀ (i : Nat) y, (x :: xs)[i]? = some y → S (p + size * i) y) ↔
        S p x ∧ ∀ (i : Nat) y, xs[i]? = some y → S (p + size + size * i) y := by
      constructor
      · intro h
        refine ⟨h 0 x rfl, fun i y hi => ?_⟩
        have := h (i + 1) y hi
        rwa [show p + size * (i + 1) = p + size + size * i by grind] at this
      · rintro ⟨h1, h2⟩ i y hi
        match i with
        | 0 => simp at hi; subst hi; exact h1
        | i + 1 => rw [show p + size * (i + 1) = p + size + size * i by grind]; exact h2 i y hi
    rw [key, ih, hS, List.flatMap_cons, stored_append, List.forall_mem_cons, List.forall_mem_cons]
    constructor
    · rintro ⟨⟨h1, h2, h3⟩, h4, h5, h6⟩
      rw [hf x h1]; exact ⟨⟨h1, h4⟩, ⟨h2, h5⟩, h3, h6⟩
    · rintro ⟨⟨h1, h4⟩, ⟨h2, h5⟩, h3, h6⟩
      rw [hf x h1] at h5
      exact ⟨⟨h1, h2, h3⟩, h4, h5, h6⟩

theorem at16s {n : Nat} {xs : List Nat} :
    U16s d p n xs ↔ xs.length = n ∧ All16 xs ∧ Stored d p (enc16s xs) := by
  rw [U16s, at_array (d := d) (V := (· < 65536)) (H := fun _ => True) (f := enc16) (by simp [at16])
    fun _ _ => rfl]
  simp [All16, enc16s]

theorem at32s {n : Nat} {xs : List Nat} :
    U32s d p n xs ↔ xs.length = n ∧ All32 xs ∧ Stored d p (enc32s xs) := by
  rw [U32s, at_array (d := d) (V := (· < 4294967296)) (H := fun _ => True) (f := enc32) (by simp [at32])
    fun _ _ => rfl]
  simp [All32, enc32s]

theorem at8s {n : Nat} {xs : List Nat} :
    ArrayOf (U8 d) 1 p n xs ↔
      xs.length = n ∧ (∀ x ∈ xs, x < 256) ∧ Stored d p (xs.flatMap enc8) := by
  rw [at_array (d := d) (V := (· < 256)) (H := fun _ => True) (f := enc8) (by simp [at8]) fun _ _ => rfl]
  simp

theorem atI32s {n : Nat} {xs : List Int} :
    ArrayOf (I32 d) 4 p n xs ↔
      xs.length = n ∧ (∀ x ∈ xs, InI32 x) ∧ Stored d p (xs.flatMap encI32) := by
  rw [at_array (d := d) (V := InI32) (H := fun _ => True) (f := encI32) (by simp [atI32]) fun _ _ => rfl]
  simp

/-! ## Tables -/

/-- `S d p t` says that a valid `t` is written from `p` on. -/
class Written {α : Type} [Encode α] (S : Data → Nat → α → Prop) (V : outParam (α → Prop)) : Prop where
  iff : ∀ {d : Data} {p : Nat} {t : α},
    S d p t ↔ V t ∧ Stored d p (bytes t) ∧ Holds d p (parts t)

/-- `S base d p t` says that a valid `t` of `size` bytes is written at `p`, its offsets counting from
`base`. -/
class WrittenIn {α : Type} [Encode α] (S : Nat → Data → Nat → α → Prop) (V : outParam (α → Prop))
    (size : outParam Nat) : Prop where
  iff : ∀ {base : Nat} {d : Data} {p : Nat} {t : α},
    S base d p t ↔ V t ∧ Stored d p (bytes t) ∧ Holds d base (parts t)
  size : ∀ {t : α}, V t → (bytes t).length = size

/-- The same for items without offsets. -/
class WrittenFlat {α : Type} [Encode α] (S : Data → Nat → α → Prop) (V : outParam (α → Prop))
    (size : outParam Nat) : Prop where
  iff : ∀ {d : Data} {p : Nat} {t : α}, S d p t ↔ V t ∧ Stored d p (bytes t)
  size : ∀ {t : α}, V t → (bytes t).length = size

section
variable {α : Type} [Encode α]

theorem at_table {S : Data → Nat → α → Prop} {V : α → Prop} [h : Written S V] {t : α} :
    S d p t ↔ V t ∧ Stored d p (bytes t) ∧ Holds d p (parts t) := h.iff

theorem at_items {base : Nat} {S : Nat → Data → Nat → α → Prop} {V : α → Prop} {size : Nat}
    [h : WrittenIn S V size] {n : Nat} {xs : List α} :
    ArrayOf (S base d) size p n xs ↔ xs.length = n ∧ (∀ x ∈ xs, V x) ∧
      Stored d p (bytesAll xs) ∧ Holds d base (partsAll xs) := by
  rw [at_array (d := d) (S := S base d) (f := bytes) (V := V) (H := fun x => Holds d base (parts x))
    (fun _ _ => h.iff) fun _ => h.size, bytesAll, partsAll, holds_flatMap]

theorem at_flats {S : Data → Nat → α → Prop} {V : α → Prop} {size : Nat} [h : WrittenFlat S V size]
    {n : Nat} {xs : List α} :
    ArrayOf (S d) size p n xs ↔
      xs.length = n ∧ (∀ x ∈ xs, V x) ∧ Stored d p (bytesAll xs) := by
  rw [at_array (d := d) (S := S d) (f := bytes) (V := V) (H := fun x => True)
    (fun _ _ => by simp [h.iff]) fun _ => h.size, bytesAll]
  simp

theorem bytesAll_length {S : Nat → Data → Nat → α → Prop} {V : α → Prop} {size : Nat}
    (h : WrittenIn S V size) {xs : List α} (hv : ∀ x ∈ xs, V x) :
    (bytesAll xs).length = size * xs.length := flatMap_length fun x hx => h.size (hv x hx)

theorem at_offsets {S : Data → Nat → α → Prop} {V : α → Prop} [h : Written S V] {os : List Nat}
    {xs : List α} :
    AtOffsets (S d) p os xs ↔ xs.length = os.length ∧ (∀ x ∈ xs, V x) ∧
      Holds d p (placedAll os xs) := by
  unfold AtOffsets
  refine and_congr_right fun hl => ?_
  rw [placedAll, holds_flatMap]
  simp only [h.iff, holds_placed]
  constructor
  · intro hx
    refine ⟨fun x hx' => ?_, fun c hc => ?_⟩
    · obtain ⟨i, hi, rfl⟩ := List.mem_iff_getElem.mp hx'
      exact (hx i _ _ (List.getElem?_eq_getElem (hl ▸ hi)) (List.getElem?_eq_getElem hi)).1
    · obtain ⟨i, hi⟩ := List.mem_iff_getElem?.mp hc
      rw [List.getElem?_zip_eq_some] at hi
      exact (hx i _ _ hi.1 hi.2).2
  · rintro ⟨h1, h2⟩ i o x ho hx
    refine ⟨h1 x (List.mem_of_getElem? hx), h2 (o, x) ?_⟩
    exact List.mem_iff_getElem?.mpr ⟨i, List.getElem?_zip_eq_some.mpr ⟨ho, hx⟩⟩

theorem at_optional {S : Data → Nat → α → Prop} {V : α → Prop} [h : Written S V] {o : Nat}
    {x : Option α} :
    Optional (S d) p o x ↔ Presence o x ∧ (∀ y, x = some y → V y) ∧ Holds d p (placedOpt o x) := by
  cases x with
  | none => simp [Optional, Presence, placedOpt, holds_nil]
  | some x => simp [Optional, Presence, placedOpt, holds_placed, h.iff]

theorem at_optionals {S : Data → Nat → α → Prop} {V : α → Prop} [h : Written S V] {os : List Nat}
    {xs : List (Option α)} :
    AtOptionalOffsets (S d) p os xs ↔ xs.length = os.length ∧ Presences os xs ∧
      (∀ x ∈ xs, ∀ y, x = some y → V y) ∧ Holds d p (placedOpts os xs) := by
  unfold AtOptionalOffsets
  refine and_congr_right fun hl => ?_
  rw [placedOpts, holds_flatMap]
  simp only [at_optional, Presences]
  constructor
  · intro hx
    refine ⟨fun i o x ho hx' => (hx i o x ho hx').1, fun x hx' => ?_, fun c hc => ?_⟩
    · obtain ⟨i, hi, rfl⟩ := List.mem_iff_getElem.mp hx'
      exact (hx i _ _ (List.getElem?_eq_getElem (hl ▸ hi)) (List.getElem?_eq_getElem hi)).2.1
    · obtain ⟨i, hi⟩ := List.mem_iff_getElem?.mp hc
      rw [List.getElem?_zip_eq_some] at hi
      exact (hx i _ _ hi.1 hi.2).2.2
  · rintro ⟨h1, h2, h3⟩ i o x ho hx
    refine ⟨h1 i o x ho hx, h2 x (List.mem_of_getElem? hx), h3 (o, x) ?_⟩
    exact List.mem_iff_getElem?.mpr ⟨i, List.getElem?_zip_eq_some.mpr ⟨ho, hx⟩⟩

end

theorem valid_list {α : Type} [Valid α] {xs : List α} : valid xs ↔ ∀ x ∈ xs, valid x := Iff.rfl

theorem valid_option {α : Type} [Valid α] {x : Option α} : valid x ↔ ∀ y, x = some y → valid y := Iff.rfl

/-- Prove that what is stored is what is written: unfold the given predicates and instances, turn every
field into bytes and compare. -/
syntax "written" "[" Lean.Parser.Tactic.simpLemma,* "]" "[" ident,* "]" : tactic

macro_rules
  | `(tactic| written [$ls,*] [$is,*]) => `(tactic|
    (delta $[$is]*
     dsimp only
     simp only [$ls,*, at8, at16, at32, atI16, atI32, at8s, at16s, at32s, atI32s, at_table, at_items,
      at_flats, at_offsets, at_optional, at_optionals, valid_list, valid_option, holds_append,
      holds_placed, holds_nil, stored_append, stored_nil, List.length_append, enc8_length,
      enc16_length, enc32_length, encI16_length, encI32_length, enc16s_length, enc32s_length,
      List.length_map, and_true]
     try grind))

/-- The size of an item without optional fields. -/
macro "sized" "[" is:ident,* "]" : tactic => `(tactic|
  (intros
   delta $[$is]*
   simp only [List.length_append, enc8_length, enc16_length, enc32_length, encI16_length,
      encI32_length]))

end OpenType
