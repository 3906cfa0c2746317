import Verif.Model.Cpal
import Verif.Model.Font
import Verif.Model.Lists
import Verif.Proof.Run
/-!
# What the methods of the source are translated to

The modules `Verif/Generated/Methods.lean` and `Verif/Generated/Font.lean` are translated from the source by
`tools/methods.py`. Below are the operations of the standard library they use and the equations with which their theorems
are proved.
-/

namespace OpenType.Generated

/-! ## The standard library -/

/-- `Iterator::enumerate`. -/
def enumerate {α : Type} (xs : List α) : List (Nat × α) := (List.range xs.length).zip xs

/-- `Option::map` with a closure that can fail or panic, and `Option::transpose` of what `Option::map` gives. -/
def mapOption {m : Type → Type} [Monad m] {α β : Type} (f : α → m β) : Option α → m (Option β)
  | none => pure none
  | some x => do
    let y ← f x
    pure (some y)

/-- Indexing of a `Vec`, which panics out of bounds. -/
def indexed {α : Type} (xs : List α) (i : Nat) : Except Err α :=
  if h : i < xs.length then .ok xs[i] else .error (.panic "index out of bounds")

/-- Addition of `usize`, see `addUsize`. -/
def addIndex (a b : Nat) : Except Err Nat :=
  if a + b < 2 ^ 32 then .ok (a + b) else .error (.panic "attempt to add with overflow")

/-- `debug_assert!`, which is there in a build with overflow checks. -/
def debugAssert (cfg : Cfg) (condition : Bool) (message : String) : Except Err Unit :=
  if cfg.overflowChecks = true then
    if condition = true then .ok () else .error (.panic message)
  else .ok ()

/-- `for x in xs { body }; rest`: the body gives `none` unless it leaves the function by `return`. -/
def forReturn {α β : Type} (xs : List α) (body : α → Reader (Option β)) (rest : Reader β) : Reader β :=
  match xs with
  | [] => rest
  | x :: xs => do
    match ← body x with
    | some y => pure y
    | none => forReturn xs body rest

/-- `return` out of the body of a loop. -/
def returning {β : Type} (r : Reader β) : Reader (Option β) := do
  let y ← r
  pure (some y)

/-! ## The equations -/

theorem indexed_eq {α : Type} (xs : List α) (i : Nat) :
    indexed xs i = match xs[i]? with
      | some x => .ok x
      | none => .error (.panic "index out of bounds") := by
  unfold indexed
  split
  · rename_i h
    rw [List.getElem?_eq_getElem h]
  · rename_i h
    rw [List.getElem?_eq_none (by omega)]

theorem find_from {α : Type} (p : α → Bool) (xs : List α) (n : Nat) :
    ((List.range' n xs.length).zip xs).find? (fun (_, x) => p x)
      = match xs.findIdx? p with
        | some i => (xs[i]?).map fun x => (n + i, x)
        | none => none := by
  induction xs generalizing n with
  | nil => rfl
  | cons x xs ih =>
    rw [List.length_cons, List.range'_succ, List.zip_cons_cons, List.find?_cons, List.findIdx?_cons]
    by_cases h : p x = true
    · simp [h]
    · simp only [h, Bool.false_eq_true, if_false]
      rw [ih (n + 1)]
      cases xs.findIdx? p with
      | none => rfl
      | some i =>
        simp only [Option.map_some, List.getElem?_cons_succ]
        congr 1
        funext y
        simp only [Prod.mk.injEq, and_true]
        omega

theorem decide_beq (a b : Tag) : decide (a = b) = (a == b) := by
  by_cases h : a = b <;> simp [h]

theorem found_eq {H R : Type} (tagOf : H → Tag) (headers : List H) (records : List R) (tag : Tag) :
    (mapOption (fun (i, _) => indexed records i)
      ((enumerate headers).find? (fun (_, header) => decide (tagOf header = tag))) : Except Err (Option R))
      = getByTag tagOf headers records tag := by
  unfold enumerate getByTag
  rw [List.range_eq_range', find_from (fun header => decide (tagOf header = tag)) headers 0]
  have h : (fun header => decide (tagOf header = tag)) = fun header => tagOf header == tag := by
    funext header
    exact decide_beq _ _
  rw [h]
  cases hf : headers.findIdx? (fun header => tagOf header == tag) with
  | none => rfl
  | some i =>
    have hi := (List.findIdx?_eq_some_iff_getElem.mp hf).1
    simp only [List.getElem?_eq_getElem hi, Option.map_some, mapOption, Nat.zero_add, indexed_eq]
    cases records[i]? <;> rfl

theorem entry_eq (cfg : Cfg) (colors : List cpal.Color) (count i j : Nat) :
    (do
      let k ← addIndex i j
      debugAssert cfg (decide (k < count)) "assertion failed: color_index < color_count as usize"
      indexed colors k) = cpal.entry cfg colors count i j := by
  unfold addIndex debugAssert cpal.entry
  simp only [indexed_eq]
  by_cases h : i + j < 2 ^ 32
  · simp only [if_pos h, Nat.not_le.mpr h, if_false, bind, Except.bind]
    cases cfg.overflowChecks <;> by_cases hk : i + j < count <;>
      cases colors[i + j]? <;> simp [hk]
  · simp only [if_neg h, Nat.not_lt.mp h, if_true, bind, Except.bind]

theorem any_eq (records : List offsets.Record) (tag : Tag) :
    records.any (fun record => decide (record.tag = tag)) = records.any (fun record => record.tag == tag) := by
  simp only [decide_beq]

theorem accepts_eq (f : Tag → Bool) (tag other : Tag) : (decide (tag = other) || f tag) = (tag == other || f tag) := by
  rw [decide_beq]

theorem loop_eq (cfg : Cfg) (checksum : offsets.Record → Reader Nat) (tag : Tag) (records : List offsets.Record) :
    forReturn records
      (fun record => do
        if record.tag = tag then do
          (if cfg.ignoreInvalidChecksums = false then do
            let t1 ← checksum record
            raiseIf (record.checksum ≠ t1) ⟨"found a malformed font table with", [record.tag]⟩
          else pure ())
          jump record.offset
          returning (pure (some ()))
        else
          pure none)
      (do
        pure none) = Font.positionIn cfg checksum tag records := by
  have lawful := Reader.lawful
  induction records with
  | nil => rfl
  | cons record records ih =>
    unfold forReturn Font.positionIn
    by_cases h : record.tag = tag
    · simp only [h, if_true, bind_assoc, returning, pure_bind]
      cases cfg.ignoreInvalidChecksums <;> simp only [Bool.true_eq_false, if_true, if_false, bind_assoc, pure_bind]
    · simp only [h, if_false, pure_bind]
      exact ih

end OpenType.Generated
