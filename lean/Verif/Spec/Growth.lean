import Verif.Spec.Device
/-!
# Tapes whose content grows while they are read

A file may be appended to, by a download for instance, while it is read. The device then answers each operation by
what the file holds at that time.
-/

namespace OpenType

/-- The device gives access to a content that is `first` when the reading begins, `last` when it ends, and in between
something between: the bytes it gives are those of `last`, and it reports the end of the data only for bytes of which
`first` lacks some. Otherwise it fails only with errors `e` such that `E e`. -/
structure ServesGrowing {σ : Type} (device : Device σ) (first last : Data) (E : Err → Prop)
    (stands : σ → Nat → Prop) : Prop where
  tell : ∀ s p, stands s p → Obeys E stands p p (device.tell s)
  seek : ∀ s p q, stands s p → Obeys E stands () q (device.seek s q)
  fetch : ∀ s p n, stands s p →
    (∃ bytes, BytesAt last p n bytes ∧ Obeys E stands bytes (p + n) (device.fetch s n)) ∨
    (∃ e, (device.fetch s n).1 = .error e ∧ (E e ∨ e = .eof ∧ ¬∃ bytes, BytesAt first p n bytes) ∧
      ∃ q, stands (device.fetch s n).2 q)

/-- A device that works and whose content grows: the state is the position and the number of operations so far, and
the first `size i` bytes of `last` are there when operation `i` comes. -/
def growing (last : Data) (size : Nat → Nat) : Device (Nat × Nat) where
  tell s := (.ok s.1, (s.1, s.2 + 1))
  seek s q := (.ok (), (q, s.2 + 1))
  fetch s n := if n = 0 ∨ s.1 + n ≤ min (size s.2) last.length then (.ok ((last.drop s.1).take n), (s.1 + n, s.2 + 1))
    else (.error .eof, (s.1, s.2 + 1))

end OpenType
