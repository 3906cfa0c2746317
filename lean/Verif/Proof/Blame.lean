import Verif.Spec.Problem
import Verif.Proof.Basic
import Verif.Model.Gsub
import Verif.Model.Gpos
import Verif.Model.Gdef
import Verif.Model.Cpal
import Verif.Model.Fvar
/-!
# Why readers refuse

`Says d b S r p`: run at `p`, the reader `r` does not go before `b`, and if it refuses what it finds, the message is that
of one of the problems `S`, and is justified by what stands in the file, not before `b`.
-/

namespace OpenType
open Spec

/-- See above. -/
def Says {α : Type} (d : Data) (b : Nat) (S : List Problem) (r : Reader α) (p : Nat) : Prop :=
  match r d p with
  | .ok (_, q) => b ≤ q
  | .error (.malformed m) => Justified d b S m
  | .error _ => True

/-- Wherever the reader starts, it refuses only because of the problems `S`, found there or further on. -/
class Blames {α : Type} (r : Reader α) (S : outParam (List Problem)) : Prop where
  says : ∀ d b p, b ≤ p → Says d b S r p

/-- The same for a reader that is given the position its offsets count from. -/
class BlamesFrom {α : Type} (base : outParam Nat) (r : Reader α) (S : outParam (List Problem)) : Prop where
  says : ∀ d b p, b ≤ base → b ≤ p → Says d b S r p

/-- The same for a reader that is given a word of the file. -/
class BlamesGiven {α : Type} (r : Nat → Reader α) (S : outParam (List Problem)) : Prop where
  says : ∀ d b p n, b ≤ p → (∃ q, b ≤ q ∧ U16 d q n) → Says d b S (r n) p

section
variable {α β : Type} {d : Data} {b p : Nat} {S S' : List Problem}

theorem u16_word {a q : Nat} (h : u16 d p = .ok (a, q)) : U16 d p a ∧ q = p + 2 := by
  rw [run_u16] at h
  unfold U16 U8
  cases h0 : d[p]? with
  | none => simp [h0] at h
  | some x =>
    cases h1 : d[p + 1]? with
    | none => simp [h0, h1] at h
    | some y =>
      simp [h0, h1] at h
      exact ⟨⟨_, _, ⟨x, rfl, rfl⟩, ⟨y, rfl, rfl⟩, by omega⟩, by omega⟩

theorem u32_word {a q : Nat} (h : u32 d p = .ok (a, q)) : U32 d p a ∧ q = p + 4 := by
  rw [run_u32] at h
  unfold U32 U16 U8
  cases h0 : d[p]? with
  | none => simp [h0] at h
  | some x =>
    cases h1 : d[p + 1]? with
    | none => simp [h0, h1] at h
    | some y =>
      cases h2 : d[p + 2]? with
      | none => simp [h0, h1, h2] at h
      | some z =>
        cases h3 : d[p + 3]? with
        | none => simp [h0, h1, h2, h3] at h
        | some w =>
          simp [h0, h1, h2, h3] at h
          exact ⟨⟨_, _, ⟨_, _, ⟨x, rfl, rfl⟩, ⟨y, rfl, rfl⟩, rfl⟩,
            ⟨_, _, ⟨z, by simp, rfl⟩, ⟨w, by simp, rfl⟩, rfl⟩, by omega⟩, by omega⟩

theorem Says.mono {r : Reader α} (h : Says d b S r p) (hS : S.all (S'.contains ·) = true) : Says d b S' r p := by
  unfold Says at h ⊢
  split at h
  · exact h
  · obtain ⟨k, hk, rest⟩ := h
    exact ⟨k, by simpa using List.all_eq_true.1 hS k hk, rest⟩
  · trivial

theorem says_of {r : Reader α} [h : Blames r S'] (hp : b ≤ p) (hS : S'.all (S.contains ·) = true) : Says d b S r p :=
  (h.says d b p hp).mono hS

theorem says_from {base : Nat} {r : Reader α} [h : BlamesFrom base r S'] (hb : b ≤ base) (hp : b ≤ p)
    (hS : S'.all (S.contains ·) = true) : Says d b S r p :=
  (h.says d b p hb hp).mono hS

theorem says_pure {a : α} (hp : b ≤ p) : Says d b S (pure a) p := hp

theorem says_raise {m : Message} (h : Justified d b S m) : Says d b S (raise m : Reader α) p := h

theorem says_panicked {m : String} : Says d b S (panicked m : Reader α) p := trivial

theorem says_bind {r : Reader α} {f : α → Reader β} (h : Says d b S r p)
    (hf : ∀ a q, r d p = .ok (a, q) → b ≤ q → Says d b S (f a) q) : Says d b S (r >>= f) p := by
  unfold Says at h ⊢
  rw [run_bind_eq]
  cases e : r d p with
  | ok x =>
    obtain ⟨a, q⟩ := x
    rw [e] at h
    exact hf a q e h
  | error x =>
    rw [e] at h
    cases x <;> exact h

theorem says_position {f : Nat → Reader β} (hf : Says d b S (f p) p) : Says d b S (position >>= f) p := hf

theorem says_jump {q : Nat} {f : Unit → Reader β} (hf : Says d b S (f ()) q) : Says d b S (jump q >>= f) p := hf

theorem says_addU64 {x y : Nat} {f : Nat → Reader β} (hf : Says d b S (f (x + y)) p) :
    Says d b S (addU64 x y >>= f) p := by
  unfold addU64; split
  · exact hf
  · exact trivial

theorem says_u16 {f : Nat → Reader β} (hf : ∀ a, U16 d p a → Says d b S (f a) (p + 2)) :
    Says d b S (u16 >>= f) p := by
  unfold Says
  rw [run_bind_eq]
  cases e : u16 d p with
  | ok x =>
    obtain ⟨a, q⟩ := x
    obtain ⟨h, rfl⟩ := u16_word e
    exact hf a h
  | error x =>
    rw [run_u16] at e
    split at e
    · cases e
    · cases e; trivial

theorem says_peek_u16 {f : Nat → Reader β} (hf : ∀ a, U16 d p a → Says d b S (f a) p) :
    Says d b S (peek u16 >>= f) p := by
  show Says d b S (stay u16 >>= f) p
  unfold Says
  rw [run_bind_eq, run_stay_eq]
  cases e : u16 d p with
  | ok x =>
    obtain ⟨a, q⟩ := x
    exact hf a (u16_word e).1
  | error x =>
    rw [run_u16] at e
    split at e
    · cases e
    · cases e; trivial

theorem says_peek_u32 {f : Nat → Reader β} (hf : ∀ a, U32 d p a → Says d b S (f a) p) :
    Says d b S (peek u32 >>= f) p := by
  show Says d b S (stay u32 >>= f) p
  unfold Says
  rw [run_bind_eq, run_stay_eq]
  cases e : u32 d p with
  | ok x =>
    obtain ⟨a, q⟩ := x
    exact hf a (u32_word e).1
  | error x =>
    rw [run_u32] at e
    split at e
    · cases e
    · cases e; trivial

theorem says_raiseIf {c : Prop} [Decidable c] {m : Message} {f : Unit → Reader β} (h : c → Justified d b S m)
    (hf : ¬c → Says d b S (f ()) p) : Says d b S (raiseIf c m >>= f) p := by
  unfold raiseIf; split
  · rename_i hc; exact h hc
  · rename_i hc; exact hf hc

theorem says_stay {r : Reader α} (hp : b ≤ p) (h : Says d b S r p) : Says d b S (stay r) p := by
  unfold Says at h ⊢
  rw [run_stay_eq]
  cases e : r d p with
  | ok x => exact hp
  | error x => rw [e] at h; exact h

theorem says_jumpTake {base o : Nat} {r : Reader α} (hb : b ≤ base) (h : ∀ q, b ≤ q → Says d b S r q) :
    Says d b S (jumpTake base o r) p :=
  says_addU64 (says_jump (h _ (by omega)))

theorem says_jumpTakeMaybe {base o : Nat} {r : Reader α} (hb : b ≤ base) (hp : b ≤ p)
    (h : ∀ q, b ≤ q → Says d b S r q) : Says d b S (jumpTakeMaybe base o r) p := by
  unfold jumpTakeMaybe; split
  · exact says_bind (says_jumpTake hb h) fun _ _ _ hq => says_pure hq
  · exact says_pure hp

theorem says_forFrom {body : Nat → Reader α} {i n : Nat} (hp : b ≤ p) (h : ∀ i q, b ≤ q → Says d b S (body i) q) :
    Says d b S (forFrom body i n) p := by
  induction n generalizing i p with
  | zero => exact says_pure hp
  | succ n ih => exact says_bind (h i p hp) fun _ _ _ hq => says_bind (ih hq) fun _ _ _ hq => says_pure hq

theorem says_takeVec {r : Reader α} {n : Nat} (hp : b ≤ p) (h : ∀ q, b ≤ q → Says d b S r q) :
    Says d b S (takeVec r n) p := by
  induction n generalizing p with
  | zero => exact says_pure hp
  | succ n ih => exact says_bind (h p hp) fun _ _ _ hq => says_bind (ih hq) fun _ _ _ hq => says_pure hq

theorem says_index {xs : List α} {i : Nat} (hp : b ≤ p) : Says d b S (index xs i) p := by
  unfold index; split
  · exact says_pure hp
  · trivial

theorem says_jumpTakeN {base n : Nat} {os : List Nat} {r : Reader α} (hb : b ≤ base) (hp : b ≤ p)
    (h : ∀ q, b ≤ q → Says d b S r q) : Says d b S (jumpTakeN base n os r) p :=
  says_forFrom hp fun _ _ hq => says_bind (says_index hq) fun _ _ _ _ => says_jumpTake hb h

theorem says_jumpTakeMaybeN {base n : Nat} {os : List Nat} {r : Reader α} (hb : b ≤ base) (hp : b ≤ p)
    (h : ∀ q, b ≤ q → Says d b S r q) : Says d b S (jumpTakeMaybeN base n os r) p :=
  says_forFrom hp fun _ _ hq => says_bind (says_index hq) fun _ _ _ hq => says_jumpTakeMaybe hb hq h

theorem says_fetch {n : Nat} {f : List UInt8 → α} (hp : b ≤ p) :
    Says d b S (Reader.fetch n fun bytes => .ofResult (bytes.map f)) p := by
  unfold Says
  rw [run_fetch]
  split
  · rename_i h; split at h
    · cases h; omega
    · cases h
  · rename_i h; split at h
    · cases h
    · cases h
  · trivial

instance : Blames u8 [] := ⟨fun _ _ _ hp => says_fetch hp⟩
instance : Blames u16 [] := ⟨fun _ _ _ hp => says_fetch hp⟩
instance : Blames u32 [] := ⟨fun _ _ _ hp => says_fetch hp⟩
instance : Blames i16 [] := ⟨fun _ _ _ hp => says_bind (says_of hp rfl) fun _ _ _ hq => says_pure hq⟩
instance : Blames q32 [] := ⟨fun _ _ _ hp => says_bind (says_of hp rfl) fun _ _ _ hq => says_pure hq⟩
instance : Blames takeTag [] := inferInstanceAs (Blames u32 [])
instance {x y : Nat} : Blames (mulU64 x y) [] := ⟨fun _ _ _ hp => by
  unfold mulU64; split
  · exact says_pure hp
  · exact says_panicked⟩
instance {x y : Nat} : Blames (addUsize x y) [] := ⟨fun _ _ _ hp => by
  unfold addUsize; split
  · exact says_pure hp
  · exact says_panicked⟩
instance {x y : Nat} : Blames (mulUsize x y) [] := ⟨fun _ _ _ hp => by
  unfold mulUsize; split
  · exact says_pure hp
  · exact says_panicked⟩
instance {x y : Nat} : Blames (subUint x y) [] := ⟨fun _ _ _ hp => by
  unfold subUint; split
  · exact says_pure hp
  · exact says_panicked⟩
instance {r : Reader α} {n : Nat} [h : Blames r S] : Blames (takeVec r n) S :=
  ⟨fun _ _ _ hp => says_takeVec hp fun _ hq => h.says _ _ _ hq⟩
instance {n : Nat} : Blames (takeBytes n) [] := inferInstanceAs (Blames (takeVec u8 n) [])
instance {c : Bool} {r : Reader α} [h : Blames r S] : Blames (takeIf c r) S := ⟨fun _ _ _ hp => by
  unfold takeIf; split
  · exact says_bind (h.says _ _ _ hp) fun _ _ _ hq => says_pure hq
  · exact says_pure hp⟩
instance {r : Reader α} [h : Blames r S] : Blames (stay r) S := ⟨fun _ _ _ hp => says_stay hp (h.says _ _ _ hp)⟩
instance {r : Reader α} [h : Blames r S] : Blames (peek r) S := ⟨fun _ _ _ hp => says_stay hp (h.says _ _ _ hp)⟩

/-- A word that has to be `n`. -/
theorem says_expect {n : Nat} (hn : n ≤ 3) (hp : b ≤ p) (hS : S.contains .constant = true) :
    Says d b S (expectU16 n) p :=
  says_u16 fun a ha => says_raiseIf
    (fun hc => ⟨.constant, by simpa using hS, rfl, p, a, n, hp, ha, hn, hc⟩)
    fun _ => says_pure (by omega)

/-- A word that has to be `n` and is. -/
theorem says_expected {n : Nat} (hp : b ≤ p) (h : U16 d p n) : Says d b S (expectU16 n) p :=
  says_u16 fun _ ha => says_raiseIf (fun hc => absurd (ha.unique h) hc) fun _ => says_pure (by omega)

theorem says_expected_bind {n : Nat} {f : Nat → Reader β} (hp : b ≤ p) (h : U16 d p n)
    (hf : Says d b S (f n) (p + 2)) : Says d b S (expectU16 n >>= f) p :=
  says_bind (says_expected hp h) fun a q e _ => by
    obtain ⟨x, m, e1, e2⟩ := run_bind.1 e
    obtain ⟨h1, rfl⟩ := u16_word e1
    obtain ⟨y, m', e3, e4⟩ := run_bind.1 e2
    obtain ⟨_, rfl⟩ := run_raiseIf.1 e3
    obtain ⟨rfl, rfl⟩ := run_pure.1 e4
    cases h1.unique h
    exact hf

instance : Blames (expectU16 0) [.constant] := ⟨fun _ _ _ hp => says_expect (by omega) hp rfl⟩
instance : Blames (expectU16 1) [.constant] := ⟨fun _ _ _ hp => says_expect (by omega) hp rfl⟩
instance : Blames (expectU16 2) [.constant] := ⟨fun _ _ _ hp => says_expect (by omega) hp rfl⟩
instance : Blames (expectU16 3) [.constant] := ⟨fun _ _ _ hp => says_expect (by omega) hp rfl⟩

instance {cfg : Cfg} {n : Nat} : Blames (flagsU16 cfg n) [.flags] := ⟨fun _ _ p hp =>
  says_u16 fun a ha => says_raiseIf
    (fun hc => ⟨.flags, by decide, rfl, p, a, n, hp, ha, by
      have := hc.2; simp only [flag, decide_eq_true_eq] at this; omega⟩)
    fun _ => says_pure (by omega)⟩

end

/-- One step of the analysis of a reader. -/
macro "blame_step" : tactic => `(tactic| first
  | with_reducible exact says_panicked
  | (with_reducible refine says_pure ?_); omega
  | (with_reducible refine says_position ?_)
  | (with_reducible refine says_addU64 ?_)
  | (with_reducible refine says_jump ?_)
  | (with_reducible refine says_u16 fun _ _ => ?_)
  | (with_reducible refine says_bind ?_ fun _ _ _ _ => ?_)
  | (with_reducible refine says_of ?_ ?_); omega; rfl
  | (with_reducible refine says_from ?_ ?_ ?_); omega; omega; rfl
  | (with_reducible refine says_jumpTake ?_ fun _ _ => says_of ?_ ?_); omega; omega; rfl
  | (with_reducible refine says_jumpTakeMaybe ?_ ?_ fun _ _ => says_of ?_ ?_); omega; omega; omega; rfl
  | (with_reducible refine says_jumpTakeN ?_ ?_ fun _ _ => says_of ?_ ?_); omega; omega; omega; rfl
  | (with_reducible refine says_jumpTakeMaybeN ?_ ?_ fun _ _ => says_of ?_ ?_); omega; omega; omega; rfl
  | (with_reducible refine says_takeVec ?_ fun _ _ => says_from ?_ ?_ ?_); omega; omega; omega; rfl
  | (with_reducible refine says_stay ?_ ?_); omega
  | (with_reducible refine says_forFrom ?_ fun _ _ _ => ?_); omega
  | dsimp only
  | split)

/-- Proves `Blames r S`. -/
macro "blames" r:ident : tactic => `(tactic| (constructor; intro d b p h; unfold $r; repeat' blame_step))

/-- Proves `BlamesFrom base r S`. -/
macro "blames_from" r:ident : tactic => `(tactic| (constructor; intro d b p hb h; unfold $r; repeat' blame_step))

end OpenType
