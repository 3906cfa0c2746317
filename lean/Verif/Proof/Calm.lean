import Verif.Spec.Changing
import Verif.Spec.Counts
import Verif.Proof.Device
import Verif.Proof.Reach
import Mathlib.Tactic.CasesM
/-!
# Readers whose requests are answered in any way

`Calmly e r p Q`: the tape stands at `p` and answers requests for bytes with any bytes; then `r` panics only if `e.panics`,
and if it succeeds then `Q` holds of the result. If `e.moved = 0` then the tape tells truly where it is and goes where it is
told. If `e.moved = 1` then it may be anywhere at any time, and all that is known is that what it tells is below `2^63`.
-/

namespace OpenType
open Spec

/-- What may happen: see above. -/
structure Mood where
  panics : Prop
  moved : Nat

def Calmly (e : Mood) {α : Type} : Reader α → Nat → (α → Prop) → Prop
  | .done a, _, Q => Q a
  | .fail x, _, _ => ∀ m, x = .panic m → e.panics
  | .tell next, p, Q => ∀ q, e.moved = 0 ∨ q < 2 ^ 63 → e.moved = 1 ∨ q = p → Calmly e (next (.ok q)) q Q
  | .seek q next, _, Q => Calmly e (next (.ok ())) q Q
  | .fetch n next, p, Q => ∀ bytes, bytes.length = n → e.moved = 1 ∨ n = 0 ∨ p + n < 2 ^ 63 → Calmly e (next (.ok bytes)) (p + n) Q

/-- What this means on a device. -/
theorem exec_calmly {e : Mood} {α σ : Type} {device : Device σ} {E : Err → Prop} {stands : σ → Nat → Prop}
    (h : Answers device E stands) {r : Reader α} (hr : r.Stops) {s : σ} {p : Nat} (hs : stands s p) {Q : α → Prop}
    (hm : e.moved = 0) (hc : Calmly e r p Q) :
    match r.exec device s with
    | (.ok a, s') => Q a ∧ ∃ q, stands s' q
    | (.error x, s') => (E x ∨ ∀ m, x = .panic m → e.panics) ∧ ∃ q, stands s' q := by
  induction r generalizing s p with
  | done a => exact ⟨hc, p, hs⟩
  | fail x => exact ⟨.inr hc, p, hs⟩
  | tell next ih =>
    have := h.tell s p hs
    unfold Reader.exec
    cases hx : (device.tell s).1 with
    | ok a =>
      rw [hx] at this
      obtain ⟨rfl, hs'⟩ := this
      exact ih _ (hr.2 _) hs' (hc _ (.inl hm) (.inr rfl))
    | error x =>
      rw [hx] at this
      rw [hr.1 x]
      exact ⟨.inl this.1, this.2⟩
  | seek q next ih =>
    have := h.seek s p q hs
    unfold Reader.exec
    cases hx : (device.seek s q).1 with
    | ok a =>
      rw [hx] at this
      exact ih _ (hr.2 _) this hc
    | error x =>
      rw [hx] at this
      rw [hr.1 x]
      exact ⟨.inl this.1, this.2⟩
  | fetch n next ih =>
    have := h.fetch s p n hs
    unfold Reader.exec
    cases hx : (device.fetch s n).1 with
    | ok bytes =>
      rw [hx] at this
      exact ih _ (hr.2 _) this.2.2 (hc bytes this.1 (.inr this.2.1))
    | error x =>
      rw [hx] at this
      rw [hr.1 x]
      exact ⟨.inl this.1, this.2⟩

section
variable {e : Mood} {α β : Type}

theorem Calmly.mono {r : Reader α} {p : Nat} {Q Q' : α → Prop} (h : Calmly e r p Q) (hQ : ∀ a, Q a → Q' a) :
    Calmly e r p Q' := by
  induction r generalizing p with
  | done a => exact hQ a h
  | fail x => exact h
  | tell next ih => exact fun q h1 h2 => ih _ (h q h1 h2)
  | seek q next ih => exact ih _ h
  | fetch n next ih => exact fun bytes hl hp => ih _ (h bytes hl hp)

theorem calm_pure {a : α} {p : Nat} {Q : α → Prop} (h : Q a) : Calmly e (pure a) p Q := h

theorem calm_bind {r : Reader α} {f : α → Reader β} {p : Nat} {Q : α → Prop} {Q' : β → Prop}
    (h : Calmly e r p Q) (hf : ∀ a q, Q a → Calmly e (f a) q Q') : Calmly e (r >>= f) p Q' := by
  show Calmly e (Reader.bind r f) p Q'
  induction r generalizing p with
  | done a => exact hf a p h
  | fail x => exact h
  | tell next ih => exact fun q h1 h2 => ih _ (h q h1 h2)
  | seek q next ih => exact ih _ h
  | fetch n next ih => exact fun bytes hl hp => ih _ (h bytes hl hp)

theorem calm_position {f : Nat → Reader β} {p : Nat} {Q : β → Prop} (h : ∀ q, e.moved = 0 ∨ q < 2 ^ 63 → Calmly e (f q) q Q) :
    Calmly e (position >>= f) p Q := fun q h1 _ => h q h1

theorem calm_told {f : Nat → Reader β} {p : Nat} {Q : β → Prop} (h : ∀ q, e.moved = 1 ∨ q = p → Calmly e (f q) q Q) :
    Calmly e (position >>= f) p Q := fun q _ h1 => h q h1

theorem calm_raise {m : Message} {p : Nat} {Q : α → Prop} : Calmly e (raise m) p Q := nofun

theorem calm_raiseIf {c : Prop} [Decidable c] {m : Message} {p : Nat} :
    Calmly e (raiseIf c m) p (fun _ => ¬c) := by
  unfold raiseIf
  split
  · exact nofun
  · next hc => exact hc

theorem calm_bind_jump {q p : Nat} {f : Unit → Reader β} {Q : β → Prop} (hf : Calmly e (f ()) q Q) :
    Calmly e (jump q >>= f) p Q := hf

theorem calm_stay {r : Reader α} {p : Nat} {Q : α → Prop} (h : ∀ p, Calmly e r p Q) : Calmly e (stay r) p Q :=
  calm_position fun q _ => calm_bind (h q) fun _ _ ha => calm_bind_jump (calm_pure ha)

/-- A number that was read at `p`. -/
def ReadAt (e : Mood) (p bound n : Nat) : Prop := n < bound ∧ (e.moved = 1 ∨ p < 2 ^ 63)

theorem calm_fetch {n p : Nat} {f : List UInt8 → α} {Q : α → Prop}
    (h : ∀ bytes, bytes.length = n → e.moved = 1 ∨ n = 0 ∨ p + n < 2 ^ 63 → Q (f bytes)) :
    Calmly e (Reader.fetch n fun bytes => .ofResult (bytes.map f)) p Q := fun bytes hl hp => h bytes hl hp

theorem calm_u8 {p : Nat} : Calmly e u8 p (ReadAt e p 256) :=
  calm_fetch fun bytes hl hp => ⟨by have := bigEndian_lt bytes; rw [hl] at this; exact this, by omega⟩

theorem calm_u16 {p : Nat} : Calmly e u16 p (ReadAt e p 65536) :=
  calm_fetch fun bytes hl hp => ⟨by have := bigEndian_lt bytes; rw [hl] at this; exact this, by omega⟩

theorem calm_u32 {p : Nat} : Calmly e u32 p (ReadAt e p 4294967296) :=
  calm_fetch fun bytes hl hp => ⟨by have := bigEndian_lt bytes; rw [hl] at this; exact this, by omega⟩

theorem calm_peek16 {p : Nat} : Calmly e (peek u16) p (ReadAt e p 65536) :=
  calm_told fun q h => calm_bind (calm_u16 (p := q)) fun _ _ ha =>
    calm_bind_jump (calm_pure ⟨ha.1, by have := ha.2; omega⟩)

theorem calm_peek32 {p : Nat} : Calmly e (peek u32) p (ReadAt e p 4294967296) :=
  calm_told fun q h => calm_bind (calm_u32 (p := q)) fun _ _ ha =>
    calm_bind_jump (calm_pure ⟨ha.1, by have := ha.2; omega⟩)

theorem calm_takeTag {p : Nat} : Calmly e takeTag p (ReadAt e p 4294967296) := calm_u32

theorem calm_i16 {p : Nat} : Calmly e i16 p (fun _ => True) := calm_bind calm_u16 fun _ _ _ => calm_pure trivial

theorem calm_q32 {p : Nat} : Calmly e q32 p (fun _ => True) := calm_bind calm_u32 fun _ _ _ => calm_pure trivial

theorem calm_expectU16 {p n : Nat} : Calmly e (expectU16 n) p (ReadAt e p 65536) :=
  calm_bind calm_u16 fun _ _ h => calm_bind calm_raiseIf fun _ _ _ => calm_pure h

theorem calm_flagsU16 {cfg : Cfg} {p n : Nat} : Calmly e (flagsU16 cfg n) p (ReadAt e p 65536) :=
  calm_bind calm_u16 fun _ _ h => calm_bind calm_raiseIf fun _ _ _ => calm_pure h

theorem calm_takeIf {b : Bool} {r : Reader α} {p : Nat} {Q : α → Prop} (h : Calmly e r p Q) :
    Calmly e (takeIf b r) p (fun x => ∀ y, x = some y → Q y) := by
  unfold takeIf
  cases b
  · exact calm_pure (by simp)
  · exact calm_bind h fun a _ ha => calm_pure (by rintro _ ⟨⟩; exact ha)

theorem calm_takeVec {r : Reader α} {n p : Nat} {Q : α → Prop} (h : ∀ p, Calmly e r p Q) :
    Calmly e (takeVec r n) p (fun xs => xs.length = n ∧ ∀ x ∈ xs, Q x) := by
  induction n generalizing p with
  | zero => exact calm_pure (by simp)
  | succ n ih =>
    refine calm_bind (h p) fun a q ha => calm_bind ih fun xs q' hxs => calm_pure ?_
    refine ⟨by simp [hxs.1], ?_⟩
    intro x hx
    cases hx with
    | head => exact ha
    | tail _ hx => exact hxs.2 x hx

theorem calm_addU64 {a b p : Nat} (h : a + b < 2 ^ 64) {f : Nat → Reader β} {Q : β → Prop}
    (hf : Calmly e (f (a + b)) p Q) : Calmly e (addU64 a b >>= f) p Q := by
  have e : addU64 a b = pure (a + b) := if_pos h
  rw [e]
  exact hf

theorem calm_subUint {a b p : Nat} (h : b ≤ a) {f : Nat → Reader β} {Q : β → Prop}
    (hf : Calmly e (f (a - b)) p Q) : Calmly e (subUint a b >>= f) p Q := by
  have e : subUint a b = pure (a - b) := if_pos h
  rw [e]
  exact hf

theorem calm_addUsize {a b p : Nat} (h : a + b < 2 ^ 32) {f : Nat → Reader β} {Q : β → Prop}
    (hf : Calmly e (f (a + b)) p Q) : Calmly e (addUsize a b >>= f) p Q := by
  have e : addUsize a b = pure (a + b) := if_pos h
  rw [e]
  exact hf

theorem calm_mulUsize {a b p : Nat} (h : a * b < 2 ^ 32) {f : Nat → Reader β} {Q : β → Prop}
    (hf : Calmly e (f (a * b)) p Q) : Calmly e (mulUsize a b >>= f) p Q := by
  have e : mulUsize a b = pure (a * b) := if_pos h
  rw [e]
  exact hf

theorem calm_mulU64 {a b p : Nat} (h : a * b < 2 ^ 64) {f : Nat → Reader β} {Q : β → Prop}
    (hf : Calmly e (f (a * b)) p Q) : Calmly e (mulU64 a b >>= f) p Q := by
  have e : mulU64 a b = pure (a * b) := if_pos h
  rw [e]
  exact hf

theorem calm_jumpTake {r : Reader α} {b o p : Nat} {Q : α → Prop} (hb : b < 2 ^ 63) (ho : o < 2 ^ 33)
    (h : ∀ p, Calmly e r p Q) : Calmly e (jumpTake b o r) p Q :=
  calm_addU64 (by omega) (calm_bind_jump (h _))

theorem calm_jumpTakeMaybe {r : Reader α} {b o p : Nat} {Q : α → Prop} (hb : b < 2 ^ 63) (ho : o < 2 ^ 33)
    (h : ∀ p, Calmly e r p Q) : Calmly e (jumpTakeMaybe b o r) p (fun x => ∀ y, x = some y → Q y) := by
  unfold jumpTakeMaybe
  split
  · exact calm_bind (calm_jumpTake hb ho h) fun _ _ ha => calm_pure (by rintro _ ⟨⟩; exact ha)
  · exact calm_pure (by simp)

theorem calm_forFrom {body : Nat → Reader α} {i n p : Nat} {Q : α → Prop}
    (h : ∀ j, i ≤ j → j < i + n → ∀ p, Calmly e (body j) p Q) :
    Calmly e (forFrom body i n) p (fun xs => xs.length = n ∧ ∀ x ∈ xs, Q x) := by
  induction n generalizing i p with
  | zero => exact calm_pure (by simp)
  | succ n ih =>
    refine calm_bind (h i (by omega) (by omega) p) fun a q ha => ?_
    refine calm_bind (ih fun j h1 h2 => h j (by omega) (by omega)) fun xs q' hxs => calm_pure ?_
    refine ⟨by simp [hxs.1], ?_⟩
    intro x hx
    cases hx with
    | head => exact ha
    | tail _ hx => exact hxs.2 x hx

theorem calm_index {xs : List α} {i p : Nat} (h : i < xs.length) {f : α → Reader β} {Q : β → Prop}
    (hf : ∀ x ∈ xs, Calmly e (f x) p Q) : Calmly e (index xs i >>= f) p Q := by
  have : index xs i = pure xs[i] := by unfold index; rw [List.getElem?_eq_getElem h]
  rw [this]
  exact hf _ (List.getElem_mem h)

theorem calm_jumpTakeN {r : Reader α} {b n p : Nat} {os : List Nat} {Q : α → Prop} (hb : b < 2 ^ 63) {B : Nat}
    (hn : os.length = n ∧ ∀ o ∈ os, o < B) (hB : B ≤ 2 ^ 33) (h : ∀ p, Calmly e r p Q) :
    Calmly e (jumpTakeN b n os r) p (fun xs => xs.length = n ∧ ∀ x ∈ xs, Q x) :=
  calm_forFrom fun j _ hj p =>
    calm_index (by omega) fun o hm => calm_jumpTake hb (by have := hn.2 o hm; omega) h

theorem calm_jumpTakeMaybeN {r : Reader α} {b n p : Nat} {os : List Nat} {Q : α → Prop} (hb : b < 2 ^ 63) {B : Nat}
    (hn : os.length = n ∧ ∀ o ∈ os, o < B) (hB : B ≤ 2 ^ 33) (h : ∀ p, Calmly e r p Q) :
    Calmly e (jumpTakeMaybeN b n os r) p (fun xs => xs.length = n ∧ ∀ x ∈ xs, ∀ y, x = some y → Q y) :=
  calm_forFrom fun j _ hj p =>
    calm_index (by omega) fun o hm => calm_jumpTakeMaybe hb (by have := hn.2 o hm; omega) h

end

/-- A reader that does not panic, with something known about its results. -/
class Calm (e : Mood) {α : Type} (r : Reader α) (P : outParam (α → Prop)) : Prop where
  calm : ∀ p, Calmly e r p P

/-- A reader that is given the position its offsets count from. -/
class CalmFrom (e : Mood) {α : Type} (r : Nat → Reader α) (P : outParam (α → Prop)) : Prop where
  calm : ∀ {b : Nat}, b < 2 ^ 63 → ∀ p, Calmly e (r b) p P

variable {e : Mood}

instance : Calm e u8 (fun n => n < 256) := ⟨fun _ => calm_u8.mono fun _ x => x.1⟩
instance : Calm e u16 (fun n => n < 65536) := ⟨fun _ => calm_u16.mono fun _ x => x.1⟩
instance : Calm e u32 (fun n => n < 4294967296) := ⟨fun _ => calm_u32.mono fun _ x => x.1⟩
instance : Calm e i16 (fun _ => True) := ⟨fun _ => calm_i16⟩
instance : Calm e q32 (fun _ => True) := ⟨fun _ => calm_q32⟩
instance : Calm e takeTag (fun n => n < 4294967296) := ⟨fun _ => calm_u32.mono fun _ x => x.1⟩
instance {cfg : Cfg} {n : Nat} : Calm e (flagsU16 cfg n) (fun n => n < 65536) :=
  ⟨fun _ => calm_flagsU16.mono fun _ x => x.1⟩
instance {n : Nat} : Calm e (expectU16 n) (fun n => n < 65536) := ⟨fun _ => calm_expectU16.mono fun _ x => x.1⟩
instance {α : Type} {r : Reader α} {n : Nat} {P} [h : Calm e r P] :
    Calm e (takeVec r n) (fun xs => xs.length = n ∧ ∀ x ∈ xs, P x) := ⟨fun _ => calm_takeVec h.calm⟩
instance {α : Type} {r : Reader α} {b : Bool} {P} [h : Calm e r P] :
    Calm e (takeIf b r) (fun x => ∀ y, x = some y → P y) := ⟨fun _ => calm_takeIf (h.calm _)⟩

/-- The result has what is known about it. -/
macro "calm_done" : tactic => `(tactic| (
  try casesm* _ ∧ _
  repeat' first
    | exact True.intro
    | assumption
    | refine And.intro ?_ ?_
    | (change (_ : Nat) = _; dsimp only at *; omega)))

/-- One step of the analysis of a reader. -/
macro "calm_step" : tactic => `(tactic| first
  | refine calm_position fun _ _ => ?_
  | refine calm_bind calm_u16 fun _ _ ⟨_, _⟩ => ?_
  | refine calm_bind calm_u32 fun _ _ ⟨_, _⟩ => ?_
  | refine calm_bind calm_expectU16 fun _ _ ⟨_, _⟩ => ?_
  | refine calm_bind calm_flagsU16 fun _ _ ⟨_, _⟩ => ?_
  | refine calm_bind calm_peek16 fun _ _ ⟨_, _⟩ => ?_
  | refine calm_bind calm_peek32 fun _ _ ⟨_, _⟩ => ?_
  | refine calm_bind calm_raiseIf fun _ _ _ => ?_
  | refine calm_subUint (by omega) ?_
  | refine calm_addUsize (by omega) ?_
  | refine calm_bind (Calm.calm _) fun _ _ _ => ?_
  | refine calm_bind (calm_jumpTake (by omega) (by omega) Calm.calm) fun _ _ _ => ?_
  | refine calm_bind (calm_jumpTakeMaybe (by omega) (by omega) Calm.calm) fun _ _ _ => ?_
  | refine calm_bind (calm_stay fun _ => (calm_jumpTakeMaybe (by omega) (by omega) Calm.calm)) fun _ _ _ => ?_
  | refine calm_bind (calm_jumpTakeN (by omega) (by assumption) (by decide) Calm.calm) fun _ _ _ => ?_
  | refine calm_bind (calm_jumpTakeMaybeN (by omega) (by assumption) (by decide) Calm.calm) fun _ _ _ => ?_
  | refine calm_bind (calm_stay fun _ => (calm_jumpTakeN (by omega) (by assumption) (by decide) Calm.calm)) fun _ _ _ => ?_
  | refine calm_bind (calm_stay fun _ => (calm_jumpTakeMaybeN (by omega) (by assumption) (by decide) Calm.calm)) fun _ _ _ => ?_
  | exact calm_raise
  | exact calm_pure (by calm_done))

/-- Prove `Calm e r P` for a sequential reader. -/
macro "calm" r:ident : tactic => `(tactic| (
  constructor
  intro p
  unfold $r:ident
  repeat calm_step))

/-- Prove `CalmFrom e r P`. -/
macro "calm_from" r:ident : tactic => `(tactic| (
  constructor
  intro b hb p
  unfold $r:ident
  repeat calm_step))

/-- Prove `Calm e r P` for a reader that peeks at a number and dispatches. -/
macro "calm_enum" r:ident : tactic => `(tactic| (
  constructor
  intro p
  unfold $r:ident
  calm_step
  split <;> repeat calm_step))

end OpenType
