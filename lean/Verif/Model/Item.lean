import Verif.Prim
/-! # `src/variations/item.rs` -/

namespace OpenType.item

/-- `src/variations/item.rs:21-37`. -/
structure Record where
  item_count : Nat
  short_delta_count : Nat
  region_count : Nat
  region_indices : List Nat
  deltas : List Nat
deriving DecidableEq, Repr

/-- The addition of two `u16` in `src/variations/item.rs:33`: it panics in a build with overflow checks
and wraps otherwise. -/
def addU16 (cfg : Cfg) (a b : Nat) : Reader Nat :=
  if a + b < 65536 then return a + b
  else if cfg.overflowChecks then panicked "attempt to add with overflow"
  else return (a + b) % 65536

/-- `src/variations/item.rs:21-37`. -/
def Record.read (cfg : Cfg) : Reader Record := do
  let item_count ← u16
  let short_delta_count ← u16
  let region_count ← u16
  let region_indices ← takeVec u16 region_count
  let per_item_count ← addU16 cfg short_delta_count region_count
  let delta_count ← mulUsize item_count per_item_count
  let deltas ← takeVec u8 delta_count
  return { item_count, short_delta_count, region_count, region_indices, deltas }

/-- `src/variations/item.rs:3-19`. -/
structure Store where
  format : Nat
  region_offset : Nat
  count : Nat
  offsets : List Nat
  records : List Record
deriving DecidableEq, Repr

/-- `src/variations/item.rs:3-19`. -/
def Store.read (cfg : Cfg) : Reader Store := do
  let position ← position
  let format ← expectU16 1
  let region_offset ← u32
  let count ← u16
  let offsets ← takeVec u32 count
  let records ← jumpTakeN position count offsets (Record.read cfg)
  return { format, region_offset, count, offsets, records }

end OpenType.item
