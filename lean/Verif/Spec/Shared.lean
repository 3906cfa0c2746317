import Verif.Spec.Threads
import Verif.Spec.Changing
/-!
# Handles that share their position

Copies of a handle of a file (`File::try_clone` in Rust, `dup` in Unix) share their position: whatever one of them reads
moves the others as well. To someone who reads with one of them, it seems to be anywhere at any time.
-/

namespace OpenType

/-- The answers of the tape are of the right form, and nothing else is known about it: it tells positions below `2^63`, and
gives as many bytes as requested; or it fails with an error `e` such that `E e`. `I` holds of its state all the time. -/
structure Formed {σ : Type} (device : Device σ) (E : Err → Prop) (I : σ → Prop) : Prop where
  tell : ∀ s, I s → I (device.tell s).2 ∧ match (device.tell s).1 with
    | .ok q => q < 2 ^ 63
    | .error e => E e
  seek : ∀ s q, I s → I (device.seek s q).2 ∧ ∀ e, (device.seek s q).1 = .error e → E e
  fetch : ∀ s n, I s → I (device.fetch s n).2 ∧ match (device.fetch s n).1 with
    | .ok bytes => bytes.length = n
    | .error e => E e

/-- A file whose content at the time `t` is `content t`, and whose position others move: what was `p` is `moved t p` when an
operation is performed at the time `t`. The state is the position and the time. Positions have 63 bits. -/
def shared (content : Nat → Data) (moved : Nat → Nat → Nat) : Device (Nat × Nat) where
  tell s := (.ok (moved s.2 s.1), (moved s.2 s.1, s.2 + 1))
  seek s q := if q < 2 ^ 63 then (.ok (), (q, s.2 + 1)) else (.error (.malformed "invalid argument"), (s.1, s.2 + 1))
  fetch s n :=
    if n = 0 ∨ moved s.2 s.1 + n ≤ (content s.2).length then
      (.ok (((content s.2).drop (moved s.2 s.1)).take n), (moved s.2 s.1 + n, s.2 + 1))
    else (.error .eof, (moved s.2 s.1, s.2 + 1))

section
variable {W : Type} {α : Nat → Type}

/-- Thread `i` performs one operation of what it has left to do. -/
def turn (device : Nat → Device W) (i : Nat) (x : (∀ j, Reader (α j)) × W) : (∀ j, Reader (α j)) × W :=
  (fun j => if h : j = i then h ▸ ((x.1 i).step (device i) x.2).1 else x.1 j, ((x.1 i).step (device i) x.2).2)

/-- What the threads have left to do, and the world, after they have had their turns as scheduled. -/
def turns (device : Nat → Device W) : List Nat → (∀ j, Reader (α j)) × W → (∀ j, Reader (α j)) × W
  | [], x => x
  | i :: schedule, x => turns device schedule (turn device i x)

end
end OpenType
