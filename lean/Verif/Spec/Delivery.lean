import Verif.Spec.Growth
/-!
# Tapes that deliver bytes in pieces

`Read::read` may give fewer bytes than it is asked for, and may be interrupted. `Read::read_exact`, through which all
bytes are read, asks again until it has what it needs.
-/

namespace OpenType

/-- What `Read::read` gives: some bytes, none at the end of the data; or `ErrorKind::Interrupted`; or another error. -/
inductive Piece where
  | bytes (bytes : List UInt8)
  | interrupted
  | failed (error : Err)
deriving DecidableEq, Repr

/-- A value that implements `std::io::{Read, Seek}`. How often in a row it is interrupted is limited by its `patience`,
which may differ from state to state, and be anything after bytes have been delivered. -/
structure Source (σ : Type) where
  tell : σ → Except Err Nat × σ
  seek : σ → Nat → Except Err Unit × σ
  read : σ → Nat → Piece × σ
  patience : σ → Nat
  calms : ∀ s n, (read s n).1 = .interrupted → patience (read s n).2 < patience s

/-- The default implementation of `std::io::Read::read_exact`: reads until all bytes are there, ignores interruptions,
reports the end of the data when nothing is delivered. -/
def Source.readExact {σ : Type} (source : Source σ) (s : σ) (n : Nat) : Except Err (List UInt8) × σ :=
  if n = 0 then (.ok [], s) else
  match _h : (source.read s n).1 with
  | .bytes [] => (.error .eof, (source.read s n).2)
  | .bytes (b :: bytes) =>
    let rest := source.readExact (source.read s n).2 (n - (bytes.length + 1))
    (rest.1.map fun more => b :: bytes ++ more, rest.2)
  | .interrupted => source.readExact (source.read s n).2 n
  | .failed e => (.error e, (source.read s n).2)
termination_by (n, source.patience s)
decreasing_by
  · exact .left _ _ (by omega)
  · exact .right _ (source.calms s n (by assumption))

/-- The tape that readers get to see. -/
def Source.device {σ : Type} (source : Source σ) : Device σ := ⟨source.tell, source.seek, source.readExact⟩

/-- The source delivers a content that is `first` when the reading begins and `last` when it ends: the bytes are those
of `last`, at least one and at most as many as it is asked for, and none only behind the end of `first`. An interruption
leaves it where it is. It fails only with errors `e` such that `E e`. -/
structure Delivers {σ : Type} (source : Source σ) (first last : Data) (E : Err → Prop) (stands : σ → Nat → Prop) :
    Prop where
  tell : ∀ s p, stands s p → Obeys E stands p p (source.tell s)
  seek : ∀ s p q, stands s p → Obeys E stands () q (source.seek s q)
  read : ∀ s p n, stands s p → 0 < n →
    match (source.read s n).1 with
    | .bytes bytes => bytes.length ≤ n ∧ (bytes = [] → first.length ≤ p) ∧ BytesAt last p bytes.length bytes ∧
        stands (source.read s n).2 (p + bytes.length)
    | .interrupted => stands (source.read s n).2 p
    | .failed e => E e ∧ ∃ q, stands (source.read s n).2 q

/-- A source that delivers `d` in pieces: at most `size i + 1` bytes the `i`-th time, after `pauses i` interruptions. The
state is the position, the number of pieces so far and that of the interruptions still to come. -/
def piecemeal (d : Data) (size pauses : Nat → Nat) : Source (Nat × Nat × Nat) where
  tell s := (.ok s.1, s)
  seek s q := (.ok (), (q, s.2))
  read s n := if s.2.2 = 0 then
      let bytes := (d.drop s.1).take (min n (size s.2.1 + 1))
      (.bytes bytes, (s.1 + bytes.length, s.2.1 + 1, pauses (s.2.1 + 1)))
    else (.interrupted, (s.1, s.2.1, s.2.2 - 1))
  patience s := s.2.2
  calms s n h := by
    split at h
    · cases h
    · rename_i hs
      rw [if_neg hs]
      show s.2.2 - 1 < s.2.2
      omega

end OpenType
