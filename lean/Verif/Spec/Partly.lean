import Verif.Spec.Device
/-!
# Tapes that are not complete yet

A file of which some bytes are at hand and the others are not: a download in progress, or a file that is fetched by
ranges over a network. The length of the file is known.
-/

namespace OpenType

/-- A tape with content `d` of which the bytes at the addresses `x` with `here x` are at hand. A request for bytes that
are not is answered by the error `pending`, and the device remembers it: the state is the position and the request,
first byte and number, that could not be met. -/
def partly (d : Data) (here : Nat → Bool) (pending : Err) : Device (Nat × Option (Nat × Nat)) where
  tell s := (.ok s.1, s)
  seek s q := (.ok (), (q, s.2))
  fetch s n :=
    if n = 0 ∨ s.1 + n ≤ d.length then
      if (List.range n).all fun i => here (s.1 + i) then (.ok ((d.drop s.1).take n), (s.1 + n, s.2))
      else (.error pending, (s.1, some (s.1, n)))
    else (.error .eof, s)

/-- The addresses at hand once the `n` bytes from `q` on have been downloaded. -/
def downloaded (here : Nat → Bool) (q n : Nat) : Nat → Bool := fun x => here x || (decide (q ≤ x) && decide (x < q + n))

/-- Reading at `p` while downloading: the reader is run; if a request of its could not be met, those bytes are
downloaded, and it is run from the start. Gives the outcome and the addresses at hand in the end, or nothing if so many
rounds are not enough. -/
def Reader.download {α : Type} (r : Reader α) (d : Data) (pending : Err) (p : Nat) :
    Nat → (Nat → Bool) → Option (Except Err α × (Nat → Bool))
  | 0, _ => none
  | rounds + 1, here => match r.exec (partly d here pending) (p, none) with
    | (result, (_, none)) => some (result, here)
    | (_, (_, some (q, n))) => r.download d pending p rounds (downloaded here q n)

end OpenType
