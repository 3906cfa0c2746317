import Verif.Spec.Growth
/-!
# Several tapes at once

Each thread has a tape of its own, a handle of the same file for instance, and all tapes are parts of one world. A
scheduler lets one thread after another perform an operation, in any order.
-/

namespace OpenType

/-- One operation of a reader on a device: what remains to be done, and the state the device is left in. -/
def Reader.step {σ α : Type} (device : Device σ) : Reader α → σ → Reader α × σ
  | .done a, s => (.done a, s)
  | .fail e, s => (.fail e, s)
  | .tell next, s => (next (device.tell s).1, (device.tell s).2)
  | .seek q next, s => (next (device.seek s q).1, (device.seek s q).2)
  | .fetch n next, s => (next (device.fetch s n).1, (device.fetch s n).2)

/-- The result of a reader that has nothing left to do. -/
def Reader.result {α : Type} : Reader α → Option (Except Err α)
  | .done a => some (.ok a)
  | .fail e => some (.error e)
  | _ => none

/-- Whatever is done with one tape leaves the others where they are. `stands i w p` says that in the world `w` the
tape of thread `i` is at the position `p`. -/
structure Apart {W : Type} (device : Nat → Device W) (stands : Nat → W → Nat → Prop) : Prop where
  tell : ∀ i j w p, i ≠ j → stands i w p → stands i ((device j).tell w).2 p
  seek : ∀ i j w p q, i ≠ j → stands i w p → stands i ((device j).seek w q).2 p
  fetch : ∀ i j w p n, i ≠ j → stands i w p → stands i ((device j).fetch w n).2 p

/-- `f` with the value at `i` replaced. -/
def replaced.{u} {α : Type u} (f : Nat → α) (i : Nat) (a : α) : Nat → α := fun j => if j = i then a else f j

/-- Handles of one file, each with a position of its own: the world is the positions, and the content that is there. The
file may grow: it has `size t` bytes of `last` when `t` operations have been performed on the handles. -/
def handle (last : Data) (size : Nat → Nat) (i : Nat) : Device ((Nat → Nat) × Nat) where
  tell w := (.ok (w.1 i), (w.1, w.2 + 1))
  seek w q := (.ok (), (replaced w.1 i q, w.2 + 1))
  fetch w n := if n = 0 ∨ w.1 i + n ≤ min (size w.2) last.length then
      (.ok ((last.drop (w.1 i)).take n), (replaced w.1 i (w.1 i + n), w.2 + 1))
    else (.error .eof, (w.1, w.2 + 1))

end OpenType
