import Verif.Spec.Device
/-!
# Files that others write to while they are read

Nothing is known about the bytes that such a tape gives: two requests for the same bytes may get different ones, and the
file may become longer or shorter at any time. A tape still knows where it stands.
-/

namespace OpenType

/-- The tape answers requests, with any bytes that are of the right number and lie before the address `2^63`, or it
fails with an error `e` such that `E e`. `stands s p` says that in the state `s` it is at the position `p`. -/
structure Answers {σ : Type} (device : Device σ) (E : Err → Prop) (stands : σ → Nat → Prop) : Prop where
  tell : ∀ s p, stands s p → match (device.tell s).1 with
    | .ok q => q = p ∧ stands (device.tell s).2 p
    | .error e => E e ∧ ∃ q, stands (device.tell s).2 q
  seek : ∀ s p q, stands s p → match (device.seek s q).1 with
    | .ok _ => stands (device.seek s q).2 q
    | .error e => E e ∧ ∃ q', stands (device.seek s q).2 q'
  fetch : ∀ s p n, stands s p → match (device.fetch s n).1 with
    | .ok bytes => bytes.length = n ∧ (n = 0 ∨ p + n < 2 ^ 63) ∧ stands (device.fetch s n).2 (p + n)
    | .error e => E e ∧ ∃ q, stands (device.fetch s n).2 q

/-- A file whose content at the time `t` is `content t`. Each operation on the tape takes time. The state is the
position and the time. -/
def changing (content : Nat → Data) : Device (Nat × Nat) where
  tell s := (.ok s.1, (s.1, s.2 + 1))
  seek s q := (.ok (), (q, s.2 + 1))
  fetch s n :=
    if n = 0 ∨ s.1 + n ≤ (content s.2).length then
      (.ok (((content s.2).drop s.1).take n), (s.1 + n, s.2 + 1))
    else (.error .eof, (s.1, s.2 + 1))

end OpenType
