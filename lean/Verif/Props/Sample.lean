import Verif.Prim
import Verif.Proof.Basic
/-! # Concrete tapes for the examples, and decision procedures to evaluate them -/

namespace OpenType
open Spec

deriving instance DecidableEq for Except

/-- A tape from byte values. Only used in examples and witnesses. -/
def bytes (ns : List Nat) : Data := ns.map UInt8.ofNat

instance {α : Type} [DecidableEq α] {r : Reader α} {d : Data} {p : Nat} {v : α} :
    Decidable (Reads r d p v) :=
  match h : r d p with
  | .ok (a, q) =>
    if e : a = v then isTrue ⟨q, by rw [h, e]⟩
    else isFalse (by rintro ⟨q', h'⟩; rw [h] at h'; cases h'; exact e rfl)
  | .error e => isFalse (by rintro ⟨q', h'⟩; rw [h] at h'; cases h')

instance {d : Data} : Decidable (Fits d) := inferInstanceAs (Decidable (_ < _))

instance {d : Data} {p n : Nat} : Decidable (U8 d p n) :=
  decidable_of_iff (d[p]?.map UInt8.toNat = some n) (by unfold U8; cases d[p]? <;> simp [eq_comm])

instance {d : Data} {p n : Nat} : Decidable (U16 d p n) :=
  match h : d[p]?, h' : d[p + 1]? with
  | some a, some b =>
    decidable_of_iff (n = 256 * a.toNat + b.toNat)
      (by unfold U16 U8; simp [h, h'])
  | none, _ => isFalse (by unfold U16 U8; simp [h])
  | _, none => isFalse (by unfold U16 U8; simp [h'])

instance {d : Data} {p n : Nat} : Decidable (U32 d p n) :=
  decidable_of_iff (U16 d p (n / 65536) ∧ U16 d (p + 2) (n % 65536))
    (by
      constructor
      · rintro ⟨h, h'⟩; exact ⟨_, _, h, h', by omega⟩
      · rintro ⟨a, b, h, h', rfl⟩
        have := h'.lt
        rw [show (65536 * a + b) / 65536 = a by omega, show (65536 * a + b) % 65536 = b by omega]
        exact ⟨h, h'⟩)

end OpenType
