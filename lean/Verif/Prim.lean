/-!
# The tape and the reading primitives

Everything in this file models code that lives *outside* `/repo`: the `typeface` crate (the traits
`tape::Read`, `value::Read`, `walue::Read` and the macros `table!`, `flags!`, `jump_take!`,
`jump_take_maybe!`, `jump_take_given!`, `raise!`, all imported in `/repo/src/lib.rs:35-44`) and
`std::io::{Read, Seek}`. Their source is not available in the sandbox; what is assumed about them is
recorded in `DESIGN.md` under "Trusted base".
-/

namespace OpenType

/-- The content of a tape (a file or an in-memory cursor). -/
abbrev Data := List UInt8

/-- A message of `raise!`: its text, and the values that are put into it. -/
structure Message where
  text : String
  values : List Nat
deriving DecidableEq, Repr

/-- A message without values. -/
instance : Coe String Message := ⟨fun text => ⟨text, []⟩⟩

/-- How a reader can fail.
* `eof`: the tape ends before the requested bytes (`std::io::ErrorKind::UnexpectedEof`).
* `malformed`: a `raise!` in the code, with its message.
* `panic`: a Rust panic (arithmetic overflow, index out of range). -/
inductive Err where
  | eof
  | malformed (message : Message)
  | panic (message : String)
deriving DecidableEq, Repr

/-- A reader: a program over the three operations of a tape, `tape::Read` of `typeface`. Each operation can fail;
what the program does then is up to it, as in Rust, where an operation returns a `Result`.
* `tell`: the current position, `Seek::stream_position`;
* `seek`: go to a position, `Seek::seek(SeekFrom::Start(..))`;
* `fetch`: the next so many bytes, `Read::read_exact`. -/
inductive Reader (α : Type) : Type where
  | done (value : α)
  | fail (error : Err)
  | tell (next : Except Err Nat → Reader α)
  | seek (position : Nat) (next : Except Err Unit → Reader α)
  | fetch (count : Nat) (next : Except Err (List UInt8) → Reader α)

namespace Reader

/-- What a tape with content `d` gives for the `n` bytes from position `p` on. -/
def slice (d : Data) (p n : Nat) : Except Err (List UInt8) :=
  if n = 0 ∨ p + n ≤ d.length then .ok ((d.drop p).take n) else .error .eof

/-- Running a reader on a tape that works: a file or an in-memory cursor, here the pair of its content and its
position. The content never changes. Seeking past the end is allowed by files and cursors alike; only the read
that follows fails. The position after a failure is not part of the outcome. -/
def run {α : Type} : Reader α → Data → Nat → Except Err (α × Nat)
  | done a, _, p => .ok (a, p)
  | fail e, _, _ => .error e
  | tell next, d, p => run (next (.ok p)) d p
  | seek q next, d, _ => run (next (.ok ())) d q
  | fetch n next, d, p => run (next (slice d p n)) d (p + n)

/-- `r d p` is the outcome of running `r` on the content `d` at the position `p`. -/
instance {α : Type} : CoeFun (Reader α) (fun _ => Data → Nat → Except Err (α × Nat)) where
  coe := run

/-- Sequencing with Rust's `?`: the first error ends the computation. -/
protected def bind {α β : Type} : Reader α → (α → Reader β) → Reader β
  | done a, f => f a
  | fail e, _ => fail e
  | tell next, f => tell fun x => (next x).bind f
  | seek q next, f => seek q fun x => (next x).bind f
  | fetch n next, f => fetch n fun x => (next x).bind f

instance : Monad Reader where
  pure := done
  bind := Reader.bind

/-- Rust's `?` on the result of an operation. -/
def ofResult {α : Type} : Except Err α → Reader α
  | .ok a => done a
  | .error e => fail e

end Reader

/-- `raise!` of `typeface`. -/
def raise {α : Type} (message : Message) : Reader α := .fail (.malformed message)

/-- `if condition { raise!(..) }`. -/
def raiseIf (condition : Prop) [Decidable condition] (message : Message) : Reader Unit :=
  if condition then raise message else pure ()

/-- A Rust panic. -/
def panicked {α : Type} (message : String) : Reader α := .fail (.panic message)

/-- `tape::Read::position`. -/
def position : Reader Nat := .tell .ofResult

/-- `tape::Read::jump`. -/
def jump (q : Nat) : Reader Unit := .seek q .ofResult

/-- `tape::Read::stay`: run the body and come back. The body's error, if any, comes first. -/
def stay {α : Type} (r : Reader α) : Reader α := do
  let p ← position
  let x ← r
  jump p
  return x

/-- `tape::Read::peek`. -/
def peek {α : Type} (r : Reader α) : Reader α := stay r

/-- Big-endian bytes. -/
def bigEndian (bytes : List UInt8) : Nat := bytes.foldl (fun n b => n * 256 + b.toNat) 0

/-- `value::Read for u8`. -/
def u8 : Reader Nat := .fetch 1 fun bytes => .ofResult (bytes.map bigEndian)

/-- `value::Read for u16`: big endian. Also `GlyphID` (an alias of `u16`) and `NameID` (kept as its number). -/
def u16 : Reader Nat := .fetch 2 fun bytes => .ofResult (bytes.map bigEndian)

/-- `value::Read for u32`: big endian. -/
def u32 : Reader Nat := .fetch 4 fun bytes => .ofResult (bytes.map bigEndian)

/-- Reinterpretation of `bits` bits as a two's-complement number. -/
def signed (bits n : Nat) : Int := if n < 2 ^ (bits - 1) then (n : Int) else (n : Int) - 2 ^ bits

/-- `value::Read for i16`. -/
def i16 : Reader Int := do
  let n ← u16
  return signed 16 n

/-- `value::Read for q32` of `truetype`: a 16.16 fixed-point number, kept as its raw `i32`. -/
def q32 : Reader Int := do
  let n ← u32
  return signed 32 n

/-- A four-byte tag, kept as the big-endian number of its bytes; equality of `[u8; 4]` is equality of
these numbers. -/
abbrev Tag := Nat

/-- `value::Read for Tag` of `truetype`. -/
def takeTag : Reader Tag := u32

/-- `walue::Read for Vec<T>` with the count as the parameter, and equally
`(0..count).map(|_| tape.take_given(..)).collect::<Result<Vec<_>>>()`: elements one after another. -/
def takeVec {α : Type} (r : Reader α) : Nat → Reader (List α)
  | 0 => return []
  | n + 1 => do
    let x ← r
    let xs ← takeVec r n
    return x :: xs

/-- `tape::Read::take_bytes`. -/
def takeBytes (n : Nat) : Reader (List Nat) := takeVec u8 n

/-- A field `name (u16) = { value }` of `table!`: any other value is an error. -/
def expectU16 (value : Nat) : Reader Nat := do
  let x ← u16
  raiseIf (x ≠ value) "found a malformed or unknown table"
  return x

/-- `if present { Some(tape.take()?) } else { None }`, as in the outer local macro `take!` of
`/repo/src/tables/glyph_positioning/element.rs:480-482` and in `/repo/src/layout/lookup.rs:78-82`. -/
def takeIf {α : Type} (present : Bool) (r : Reader α) : Reader (Option α) :=
  if present then do
    let x ← r
    return some x
  else
    return none

/-- Addition of `u64`. In a build with overflow checks it panics when the sum does not fit. A release
build wraps instead; this is modelled as a panic too, which only matters if it can happen, and
`Props/Safety.lean` shows that it cannot. -/
def addU64 (a b : Nat) : Reader Nat :=
  if a + b < 2 ^ 64 then return a + b else panicked "attempt to add with overflow"

/-- Multiplication of `u64`, as for `addU64`. -/
def mulU64 (a b : Nat) : Reader Nat :=
  if a * b < 2 ^ 64 then return a * b else panicked "attempt to multiply with overflow"

/-- Addition of `usize`, as for `addU64`. A `usize` has 32 or 64 bits; a sum that needs more than 32 is a panic
here, so that what is proved holds for both. -/
def addUsize (a b : Nat) : Reader Nat :=
  if a + b < 2 ^ 32 then return a + b else panicked "attempt to add with overflow"

/-- Multiplication of `usize`, as for `addUsize`. -/
def mulUsize (a b : Nat) : Reader Nat :=
  if a * b < 2 ^ 32 then return a * b else panicked "attempt to multiply with overflow"

/-- Subtraction of unsigned integers of any width, as for `addU64`: a negative difference is a panic. -/
def subUint (a b : Nat) : Reader Nat :=
  if b ≤ a then return a - b else panicked "attempt to subtract with overflow"

/-- Indexing of a `Vec`. -/
def index {α : Type} (xs : List α) (i : Nat) : Reader α :=
  match xs[i]? with
  | some x => return x
  | none => panicked "index out of bounds"

/-- `jump_take!(tape, position, offset)` and `jump_take_given!(tape, position, offset, parameter)`:
jump to `position + offset as u64` and read. -/
def jumpTake {α : Type} (base offset : Nat) (r : Reader α) : Reader α := do
  let q ← addU64 base offset
  jump q
  r

/-- `jump_take_maybe!(tape, position, offset)`: nothing if the offset is zero. -/
def jumpTakeMaybe {α : Type} (base offset : Nat) (r : Reader α) : Reader (Option α) :=
  if offset > 0 then do
    let x ← jumpTake base offset r
    return some x
  else
    return none

/-- The loop `for i in start..start + n` collecting results. -/
def forFrom {α : Type} (body : Nat → Reader α) : Nat → Nat → Reader (List α)
  | _, 0 => return []
  | i, n + 1 => do
    let x ← body i
    let xs ← forFrom body (i + 1) n
    return x :: xs

/-- `jump_take!(tape, position, count, offsets)` (also `i => headers[i].offset`) and
`jump_take_given!(tape, position, count, offsets, parameter)`: for each `i` in `0..count` jump to
`position + offsets[i] as u64` and read. -/
def jumpTakeN {α : Type} (base count : Nat) (offsets : List Nat) (r : Reader α) : Reader (List α) :=
  forFrom (fun i => do
    let offset ← index offsets i
    jumpTake base offset r) 0 count

/-- `jump_take_maybe!(tape, position, count, offsets)`. -/
def jumpTakeMaybeN {α : Type} (base count : Nat) (offsets : List Nat) (r : Reader α) :
    Reader (List (Option α)) :=
  forFrom (fun i => do
    let offset ← index offsets i
    jumpTakeMaybe base offset r) 0 count

/-- The build configuration.

The first four fields are the Cargo features of `/repo/Cargo.toml:20-28`; `overflowChecks` tells a debug
build from a release build; `rejectInvalidFlags` is whether the reader generated by the external `flags!`
macro refuses values with bits of the `is_invalid` mask. All theorems hold for both values of every field
unless they say otherwise. -/
structure Cfg where
  defaultLanguage : Bool
  ignoreIncompleteDirectories : Bool
  ignoreIncompleteMarks : Bool
  ignoreInvalidChecksums : Bool
  overflowChecks : Bool
  rejectInvalidFlags : Bool
deriving DecidableEq, Repr

/-- A predicate generated by `flags!`: `self.0 & mask > 0`. -/
def flag (value mask : Nat) : Bool := decide (value &&& mask > 0)

/-- The reader generated by `flags!` for a `u16` with the given `is_invalid` mask. -/
def flagsU16 (cfg : Cfg) (invalid : Nat) : Reader Nat := do
  let x ← u16
  raiseIf (cfg.rejectInvalidFlags ∧ flag x invalid) "found malformed flags"
  return x

end OpenType
