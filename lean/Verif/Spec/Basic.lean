import Verif.Prim
/-!
# Specification: big-endian numbers and arrays at byte offsets

These predicates talk about bytes at absolute offsets only. They do not mention readers.
-/

namespace OpenType.Spec
open OpenType

/-- The byte at `p` is `n`. -/
def U8 (d : Data) (p n : Nat) : Prop := ∃ a : UInt8, d[p]? = some a ∧ n = a.toNat

/-- The two bytes at `p` are the big-endian number `n`. -/
def U16 (d : Data) (p n : Nat) : Prop := ∃ a b, U8 d p a ∧ U8 d (p + 1) b ∧ n = 256 * a + b

/-- The four bytes at `p` are the big-endian number `n`. -/
def U32 (d : Data) (p n : Nat) : Prop := ∃ a b, U16 d p a ∧ U16 d (p + 2) b ∧ n = 65536 * a + b

/-- The two bytes at `p` are the two's-complement number `x`. -/
def I16 (d : Data) (p : Nat) (x : Int) : Prop :=
  -32768 ≤ x ∧ x < 32768 ∧ U16 d p (x % 65536).toNat

/-- The four bytes at `p` are the two's-complement number `x`. -/
def I32 (d : Data) (p : Nat) (x : Int) : Prop :=
  -2147483648 ≤ x ∧ x < 2147483648 ∧ U32 d p (x % 4294967296).toNat

/-- `xs` has `n` elements, element `i` being stored at `p + stride * i`. -/
def ArrayOf {α : Type} (S : Nat → α → Prop) (stride p n : Nat) (xs : List α) : Prop :=
  xs.length = n ∧ ∀ i x, xs[i]? = some x → S (p + stride * i) x

/-- `n` consecutive 16-bit words at `p`. -/
abbrev U16s (d : Data) (p n : Nat) (xs : List Nat) : Prop := ArrayOf (U16 d) 2 p n xs

/-- `n` consecutive 32-bit words at `p`. -/
abbrev U32s (d : Data) (p n : Nat) (xs : List Nat) : Prop := ArrayOf (U32 d) 4 p n xs

/-- `xs` has one element per offset, element `i` being stored at `base + offsets[i]`. -/
def AtOffsets {α : Type} (S : Nat → α → Prop) (base : Nat) (offsets : List Nat) (xs : List α) : Prop :=
  xs.length = offsets.length ∧
    ∀ (i : Nat) o x, offsets[i]? = some o → xs[i]? = some x → S (base + o) x

/-- A value that is absent exactly when its offset is zero, and otherwise stored at `base + offset`. -/
def Optional {α : Type} (S : Nat → α → Prop) (base offset : Nat) (x : Option α) : Prop :=
  match x with
  | none => offset = 0
  | some v => offset ≠ 0 ∧ S (base + offset) v

/-- One optional value per offset. -/
def AtOptionalOffsets {α : Type} (S : Nat → α → Prop) (base : Nat) (offsets : List Nat)
    (xs : List (Option α)) : Prop :=
  xs.length = offsets.length ∧
    ∀ (i : Nat) o x, offsets[i]? = some o → xs[i]? = some x → Optional S base o x

/-- `x` has none of the `invalid` bits, in case the build refuses them. -/
def FlagsOk (cfg : Cfg) (invalid x : Nat) : Prop := cfg.rejectInvalidFlags = true → x &&& invalid = 0

end OpenType.Spec
