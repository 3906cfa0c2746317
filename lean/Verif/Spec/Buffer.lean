import Verif.Spec.Delivery
/-!
# Tapes with a buffer

`std::io::BufReader` reads more bytes than it is asked for, and keeps them for later.
-/

namespace OpenType

/-- `BufReader::with_capacity(capacity, source)`. The state is that of the source and the bytes that have been read and not
been given yet.
* `stream_position` is that of the source minus the number of these bytes, and panics if this is negative.
* `seek(SeekFrom::Start(..))` lets the source seek, and forgets the bytes if that succeeds.
* `read` gives bytes from the buffer. If it is empty, it is filled before; if as many bytes are asked for as fit into it, the
  source is asked directly. -/
def buffered {σ : Type} (source : Source σ) (capacity : Nat) : Source (σ × List UInt8) where
  tell x := (match (source.tell x.1).1 with
    | .ok q => if x.2.length ≤ q then .ok (q - x.2.length) else
      .error (.panic "overflow when subtracting remaining buffer size from inner stream position")
    | .error e => .error e, ((source.tell x.1).2, x.2))
  seek x q := ((source.seek x.1 q).1, ((source.seek x.1 q).2, match (source.seek x.1 q).1 with
    | .ok _ => []
    | .error _ => x.2))
  read x n :=
    if x.2 = [] then
      if capacity ≤ n then ((source.read x.1 n).1, ((source.read x.1 n).2, []))
      else match (source.read x.1 capacity).1 with
        | .bytes bytes => (.bytes (bytes.take n), ((source.read x.1 capacity).2, bytes.drop n))
        | .interrupted => (.interrupted, ((source.read x.1 capacity).2, []))
        | .failed e => (.failed e, ((source.read x.1 capacity).2, []))
    else (.bytes (x.2.take n), (x.1, x.2.drop n))
  patience x := source.patience x.1
  calms x n h := by
    split at h <;> rename_i h1
    · rw [if_pos h1]
      split at h <;> rename_i h2
      · rw [if_pos h2]
        exact source.calms _ _ h
      · rw [if_neg h2]
        split at h <;> rename_i h3
        · cases h
        · exact source.calms _ _ h3
        · cases h
    · cases h

/-- When telling the position or seeking fails, the source is left where it was. -/
def Steady {σ : Type} (source : Source σ) (stands : σ → Nat → Prop) : Prop :=
  ∀ s p, stands s p → (∀ e, (source.tell s).1 = .error e → stands (source.tell s).2 p) ∧
    ∀ q e, (source.seek s q).1 = .error e → stands (source.seek s q).2 p

end OpenType
