import Verif.Model.Font
import Verif.Spec.Font
import Verif.Proof.Tactic
import Verif.Proof.Reloc
/-! # Files and fonts -/

namespace OpenType
open Spec offsets

instance : Fixed offsets.Record.read IsOffsetsRecord 16 where
  run := by intro d p v q hd; layout_fixed offsets.Record.read IsOffsetsRecord hd

/-- The twelve bytes before the records. -/
def IsOffsetsHeader (accept : Tag → Bool) (d : Data) (p : Nat) (t : offsets.Header) : Prop :=
  U32 d p t.version ∧ accept t.version = true ∧ U16 d (p + 4) t.table_count ∧
    U16 d (p + 6) t.search_range ∧ U16 d (p + 8) t.entry_selector ∧ U16 d (p + 10) t.range_shift

instance {accept : Tag → Bool} : Fixed (offsets.Header.read accept) (IsOffsetsHeader accept) 12 where
  run := by
    intro d p v q hd
    unfold offsets.Header.read IsOffsetsHeader
    simp only [run_bind, Fixed.run hd, run_pure, run_raiseIf]
    constructor
    · rintro ⟨a, _, ⟨h1, rfl⟩, _, _, ⟨h2, rfl⟩, b, _, ⟨h3, rfl⟩, c, _, ⟨h4, rfl⟩, e, _, ⟨h5, rfl⟩, f, _,
        ⟨h6, rfl⟩, rfl, rfl⟩
      exact ⟨⟨h1, by simpa using h2, h3, h4, h5, h6⟩, rfl⟩
    · rintro ⟨⟨h1, h2, h3, h4, h5, h6⟩, rfl⟩
      exact ⟨_, _, ⟨h1, rfl⟩, (), _, ⟨by simpa using h2, rfl⟩, _, _, ⟨h3, rfl⟩, _, _, ⟨h4, rfl⟩, _, _,
        ⟨h5, rfl⟩, _, _, ⟨h6, rfl⟩, rfl, rfl⟩

theorem reads_offsets {accept : Tag → Bool} {d : Data} {p : Nat} {t : Offsets} (hd : Fits d) :
    Reads (Offsets.read accept) d p t ↔ IsOffsets accept d p t := by
  unfold Offsets.read IsOffsets
  simp only [reads_bind_fixed hd, reads_pure]
  constructor
  · rintro ⟨h, ⟨h1, h2, h3, h4, h5, h6⟩, r, h7, rfl⟩
    exact ⟨h1, h2, h3, h4, h5, h6, h7⟩
  · rintro ⟨h1, h2, h3, h4, h5, h6, h7⟩
    exact ⟨_, ⟨h1, h2, h3, h4, h5, h6⟩, _, h7, rfl⟩

namespace Font
variable {cfg : Cfg} {checksum : offsets.Record → Reader Nat} {tag : Tag} {records : List offsets.Record}

/-- What happens once the record is found. -/
def found (cfg : Cfg) (checksum : offsets.Record → Reader Nat) (record : offsets.Record) :
    Reader (Option Unit) := do
  if cfg.ignoreInvalidChecksums = false then
    let computed ← checksum record
    raiseIf (record.checksum ≠ computed) ⟨"found a malformed font table with", [record.tag]⟩
  jump record.offset
  return some ()

theorem positionIn_first {record : offsets.Record} (h : FirstWith tag records record) :
    positionIn cfg checksum tag records = found cfg checksum record := by
  obtain ⟨before, after, rfl, ht, hb⟩ := h
  induction before with
  | nil => simp only [List.nil_append, positionIn, if_pos ht]; rfl
  | cons x xs ih =>
    simp only [List.cons_append, positionIn]
    rw [if_neg (hb x (by simp))]
    exact ih fun y hy => hb y (by simp [hy])

theorem positionIn_none (h : NoneWith tag records) :
    positionIn cfg checksum tag records = pure none := by
  induction records with
  | nil => rfl
  | cons x xs ih =>
    simp only [positionIn]
    rw [if_neg (h x (by simp))]
    exact ih fun y hy => h y (by simp [hy])

theorem first_or_none (tag : Tag) (records : List offsets.Record) :
    (∃ record, FirstWith tag records record) ∨ NoneWith tag records := by
  induction records with
  | nil => exact .inr (by simp [NoneWith])
  | cons x xs ih =>
    by_cases h : x.tag = tag
    · exact .inl ⟨x, [], xs, rfl, h, by simp⟩
    · rcases ih with ⟨r, b, a, rfl, ht, hb⟩ | hn
      · refine .inl ⟨r, x :: b, a, rfl, ht, ?_⟩
        intro y hy
        cases hy with
        | head => exact h
        | tail _ hy => exact hb y hy
      · refine .inr ?_
        intro y hy
        cases hy with
        | head => exact h
        | tail _ hy => exact hn y hy

theorem found_ignore (h : cfg.ignoreInvalidChecksums = true) (record : offsets.Record) (d : Data)
    (p : Nat) : found cfg checksum record d p = .ok (some (), record.offset) := by
  unfold found; simp only [h]; rfl

/-- The three ways of `found` in a build that checks. -/
theorem found_check (h : cfg.ignoreInvalidChecksums = false) (record : offsets.Record) (d : Data)
    (p : Nat) :
    found cfg checksum record d p =
      match checksum record d p with
      | .ok (n, _) =>
        if record.checksum = n then .ok (some (), record.offset)
        else .error (.malformed ⟨"found a malformed font table with", [record.tag]⟩)
      | .error e => .error e := by
  unfold found
  rw [if_pos h]
  cases hc : checksum record d p with
  | error e => exact bind_error hc
  | ok x =>
    obtain ⟨n, q⟩ := x
    refine (bind_ok hc).trans ?_
    by_cases hn : record.checksum = n
    · have : raiseIf (record.checksum ≠ n) ⟨"found a malformed font table with", [record.tag]⟩ d q = .ok ((), q) := by
        unfold raiseIf; rw [if_neg (by simpa using hn)]; rfl
      refine (bind_ok this).trans ?_
      exact (if_pos hn).symm
    · have : raiseIf (record.checksum ≠ n) ⟨"found a malformed font table with", [record.tag]⟩ d q =
          .error (.malformed ⟨"found a malformed font table with", [record.tag]⟩) := by
        unfold raiseIf; rw [if_pos hn]; rfl
      refine (bind_error this).trans ?_
      exact (if_neg hn).symm

/-- `take` in terms of `position`. -/
theorem take_eq {α : Type} {font : Font} {table : TableType} {r : Reader α} {d : Data} {p : Nat} :
    take cfg checksum font table r d p =
      match position cfg checksum font table d p with
      | .ok (some _, q) =>
        (match r d q with
        | .ok (x, q') => .ok (some x, q')
        | .error e => .error e)
      | .ok (none, q) => .ok (none, q)
      | .error e => .error e := by
  unfold take
  cases h : position cfg checksum font table d p with
  | error e => exact bind_error h
  | ok x =>
    obtain ⟨a, q⟩ := x
    rw [bind_ok h]
    cases a with
    | none => rfl
    | some u =>
      dsimp only
      cases h' : r d q with
      | error e => exact bind_error h'
      | ok y => obtain ⟨x, q'⟩ := y; rw [bind_ok h']; rfl

theorem take_given_eq {α P : Type} {font : Font} {table : TableType} {r : P → Reader α} {parameter : P} :
    take_given cfg checksum font table r parameter = take cfg checksum font table (r parameter) := rfl

end Font
end OpenType
