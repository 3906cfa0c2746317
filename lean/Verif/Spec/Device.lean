import Verif.Prim
/-!
# Tapes that may fail

A reader (`Verif/Prim.lean`) is a program over three operations. `Reader.run` runs it on a tape that works. Here it
runs on any device: each operation gives its answer, or an error, and changes the state of the device. When, how
often and with which error a device fails is up to the device.
-/

namespace OpenType

/-- The three operations of a tape: `Seek::stream_position`, `Seek::seek(SeekFrom::Start(..))` and
`Read::read_exact`. -/
structure Device (σ : Type) where
  tell : σ → Except Err Nat × σ
  seek : σ → Nat → Except Err Unit × σ
  fetch : σ → Nat → Except Err (List UInt8) × σ

/-- Running a reader on a device: the outcome and the state the device is left in. -/
def Reader.exec {σ α : Type} (device : Device σ) : Reader α → σ → Except Err α × σ
  | .done a, s => (.ok a, s)
  | .fail e, s => (.error e, s)
  | .tell next, s => (next (device.tell s).1).exec device (device.tell s).2
  | .seek q next, s => (next (device.seek s q).1).exec device (device.seek s q).2
  | .fetch n next, s => (next (device.fetch s n).1).exec device (device.fetch s n).2

/-- The stretches of bytes (first position and number) a reader asks for on a tape with content `d` that works and
stands at `p`, in order, up to the end of the reading, whether it succeeds or fails. -/
def Reader.fetches {α : Type} : Reader α → Data → Nat → List (Nat × Nat)
  | .done _, _, _ => []
  | .fail _, _, _ => []
  | .tell next, d, p => (next (.ok p)).fetches d p
  | .seek q next, d, _ => (next (.ok ())).fetches d q
  | .fetch n next, d, p => (p, n) :: (next (slice d p n)).fetches d (p + n)

/-- The number of operations a reader performs on a tape with content `d` that works and stands at `p`, up to the end
of the reading, whether it succeeds or fails. -/
def Reader.operations {α : Type} : Reader α → Data → Nat → Nat
  | .done _, _, _ => 0
  | .fail _, _, _ => 0
  | .tell next, d, p => 1 + (next (.ok p)).operations d p
  | .seek q next, d, _ => 1 + (next (.ok ())).operations d q
  | .fetch n next, d, p => 1 + (next (slice d p n)).operations d (p + n)

/-- What an operation of a device may do: give the right answer and leave the device where it should be, or report
an error `e` such that `E e`, and leave the device anywhere. -/
def Obeys {σ α : Type} (E : Err → Prop) (stands : σ → Nat → Prop) (answer : α) (goes : Nat)
    (result : Except Err α × σ) : Prop :=
  match result.1 with
  | .ok a => a = answer ∧ stands result.2 goes
  | .error e => E e ∧ ∃ q, stands result.2 q

/-- The bytes `d[p], ..., d[p + n - 1]` exist and are `bytes`. -/
def BytesAt (d : Data) (p n : Nat) (bytes : List UInt8) : Prop :=
  bytes.length = n ∧ ∀ i b, bytes[i]? = some b → d[p + i]? = some b

/-- The device gives access to the content `d`, and fails only with errors `e` such that `E e`. `stands s p` says
that in the state `s` the device is at the position `p`. Bytes that do not exist are an error. -/
structure Serves {σ : Type} (device : Device σ) (d : Data) (E : Err → Prop) (stands : σ → Nat → Prop) : Prop where
  tell : ∀ s p, stands s p → Obeys E stands p p (device.tell s)
  seek : ∀ s p q, stands s p → Obeys E stands () q (device.seek s q)
  fetch : ∀ s p n, stands s p →
    (∃ bytes, BytesAt d p n bytes ∧ Obeys E stands bytes (p + n) (device.fetch s n)) ∨
    (∃ e, (device.fetch s n).1 = .error e ∧ E e ∧ ∃ q, stands (device.fetch s n).2 q)

/-- A device that works: the state is the position. A failed read leaves it where it was. -/
def working (d : Data) : Device Nat where
  tell p := (.ok p, p)
  seek _ q := (.ok (), q)
  fetch p n := if n = 0 ∨ p + n ≤ d.length then (.ok ((d.drop p).take n), p + n) else (.error .eof, p)

/-- A device that fails as it is told by a schedule: the state is the position and the number of operations so far;
operation `i` fails if `schedule i` is an error, and then the device is left at a position of its own choice. -/
def flaky (d : Data) (schedule : Nat → Option (Err × Nat)) : Device (Nat × Nat) where
  tell s := match schedule s.2 with
    | some (e, q) => (.error e, (q, s.2 + 1))
    | none => (.ok s.1, (s.1, s.2 + 1))
  seek s q := match schedule s.2 with
    | some (e, q') => (.error e, (q', s.2 + 1))
    | none => (.ok (), (q, s.2 + 1))
  fetch s n := match schedule s.2 with
    | some (e, q) => (.error e, (q, s.2 + 1))
    | none => if n = 0 ∨ s.1 + n ≤ d.length then (.ok ((d.drop s.1).take n), (s.1 + n, s.2 + 1))
      else (.error .eof, (s.1, s.2 + 1))

end OpenType
