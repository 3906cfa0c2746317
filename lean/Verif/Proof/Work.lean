import Verif.Spec.Device
import Verif.Proof.Run
import Verif.Proof.Content
/-!
# How much work readers do

`Spends s r h`: when `r` succeeds with `v`, then `s` and the number of operations of `r` are together at most
`h v`.
-/

namespace OpenType
open Spec

/-- A pair: its components. -/
instance {α β : Type} [Measured α] [Measured β] : Measured (α × β) := ⟨fun x => content x.1 + content x.2⟩

@[simp] theorem content_pair {α β : Type} [Measured α] [Measured β] (x : α × β) :
    content x = content x.1 + content x.2 := rfl

/-- See above. -/
def Spends {α : Type} (s : Nat) (r : Reader α) (h : α → Nat) : Prop :=
  ∀ d p v q, r d p = .ok (v, q) → s + r.operations d p ≤ h v

/-- A reader that takes at most three operations, less two, for each part of what it gives. -/
class Cheap {α : Type} [Measured α] (r : Reader α) : Prop where
  spends : Spends 2 r (3 * content ·)

theorem operations_bind {α β : Type} {r : Reader α} {f : α → Reader β} {d : Data} {p : Nat} :
    (r >>= f).operations d p = r.operations d p + match r d p with
      | .ok (a, q) => (f a).operations d q
      | .error _ => 0 := by
  show (Reader.bind r f).operations d p = _
  induction r generalizing p with
  | done a => simp [Reader.operations, Reader.run, Reader.bind]
  | fail e => simp [Reader.operations, Reader.run, Reader.bind]
  | tell next ih => simp only [Reader.operations, Reader.run, Reader.bind, ih, Nat.add_assoc]
  | seek q next ih => simp only [Reader.operations, Reader.run, Reader.bind, ih, Nat.add_assoc]
  | fetch n next ih => simp only [Reader.operations, Reader.run, Reader.bind, ih, Nat.add_assoc]

section
variable {α β : Type} {s : Nat}

theorem spends_pure {a : α} {h : α → Nat} (hs : s ≤ h a) : Spends s (pure a) h := by
  intro d p v q hr
  cases hr
  exact hs

theorem spends_fail {e : Err} {h : α → Nat} : Spends s (.fail e : Reader α) h := by
  intro d p v q hr
  cases hr

theorem spends_raise {m : Message} {h : α → Nat} : Spends s (raise m : Reader α) h := spends_fail

/-- Sequencing, when `r` takes a number of operations with the property `P`. -/
theorem spends_bind {P : α → Nat → Prop} {r : Reader α} {f : α → Reader β} {h : β → Nat}
    (hr : ∀ d p a q, r d p = .ok (a, q) → P a (r.operations d p))
    (hf : ∀ a n, P a n → Spends (s + n) (f a) h) : Spends s (r >>= f) h := by
  intro d p v q hv
  rw [run_bind_eq] at hv
  rw [operations_bind]
  cases e : r d p with
  | error _ => rw [e] at hv; cases hv
  | ok x =>
    obtain ⟨a, q'⟩ := x
    rw [e] at hv
    have := hf a _ (hr d p a q' e) d q' v q hv
    dsimp only
    omega

theorem spends_cheap [Measured α] {r : Reader α} [hr : Cheap r] {f : α → Reader β} {h : β → Nat}
    (hf : ∀ a n, 2 + n ≤ 3 * content a → Spends (s + n) (f a) h) : Spends s (r >>= f) h :=
  spends_bind (P := fun a n => 2 + n ≤ 3 * content a) hr.spends hf

theorem spends_last [Measured α] {r : Reader α} [hr : Cheap r] {h : α → Nat}
    (hf : ∀ a n, 2 + n ≤ 3 * content a → s + n ≤ h a) : Spends s r h :=
  fun d p v q e => hf v _ (hr.spends d p v q e)

theorem operations_ofResult {x : Except Err α} {d : Data} {p : Nat} :
    (Reader.ofResult x).operations d p = 0 := by
  cases x <;> rfl

theorem spends_position {f : Nat → Reader β} {h : β → Nat} (hf : ∀ a, Spends (s + 1) (f a) h) :
    Spends s (position >>= f) h :=
  spends_bind (P := fun _ n => n = 1) (fun _ _ _ _ _ => rfl) fun a _ hn => hn ▸ hf a

theorem spends_jump {q : Nat} {f : Unit → Reader β} {h : β → Nat} (hf : Spends (s + 1) (f ()) h) :
    Spends s (jump q >>= f) h :=
  spends_bind (P := fun _ n => n = 1) (fun _ _ _ _ _ => rfl) fun _ _ hn => hn ▸ hf

/-- A reader that takes no operations. -/
class Free {α : Type} (r : Reader α) : Prop where
  free : ∀ d p, r.operations d p = 0

theorem spends_free {r : Reader α} [hr : Free r] {f : α → Reader β} {h : β → Nat}
    (hf : ∀ a, Spends s (f a) h) : Spends s (r >>= f) h :=
  spends_bind (P := fun _ n => n = 0) (fun d p _ _ _ => hr.free d p) fun a _ hn => hn ▸ hf a

instance {c : Prop} [Decidable c] {m : Message} : Free (raiseIf c m) :=
  ⟨fun _ _ => by unfold raiseIf; split <;> rfl⟩
instance {x y : Nat} : Free (addU64 x y) := ⟨fun _ _ => by unfold addU64; split <;> rfl⟩
instance {x y : Nat} : Free (mulU64 x y) := ⟨fun _ _ => by unfold mulU64; split <;> rfl⟩
instance {x y : Nat} : Free (addUsize x y) := ⟨fun _ _ => by unfold addUsize; split <;> rfl⟩
instance {x y : Nat} : Free (mulUsize x y) := ⟨fun _ _ => by unfold mulUsize; split <;> rfl⟩
instance {x y : Nat} : Free (subUint x y) := ⟨fun _ _ => by unfold subUint; split <;> rfl⟩
instance {cfg : Cfg} {x y : Nat} : Free (item.addU16 cfg x y) :=
  ⟨fun _ _ => by unfold item.addU16; (repeat' split) <;> rfl⟩
instance {xs : List α} {i : Nat} : Free (index xs i) := ⟨fun _ _ => by unfold index; split <;> rfl⟩

theorem operations_fetch {n : Nat} {f : Except Err (List UInt8) → Except Err α} {d : Data} {p : Nat} :
    (Reader.fetch n fun x => .ofResult (f x)).operations d p = 1 := by
  show 1 + (Reader.ofResult _).operations d _ = 1
  rw [operations_ofResult]

instance : Cheap u8 := ⟨fun d p v q _ => by unfold u8; rw [operations_fetch]; exact (by decide : 3 ≤ 3)⟩
instance : Cheap u16 := ⟨fun d p v q _ => by unfold u16; rw [operations_fetch]; exact (by decide : 3 ≤ 3)⟩
instance : Cheap u32 := ⟨fun d p v q _ => by unfold u32; rw [operations_fetch]; exact (by decide : 3 ≤ 3)⟩
instance : Cheap i16 := ⟨by
  unfold i16
  exact spends_cheap fun a n hn => spends_pure (by simp only [content_nat, content_int] at *; omega)⟩
instance : Cheap q32 := ⟨by
  unfold q32
  exact spends_cheap fun a n hn => spends_pure (by simp only [content_nat, content_int] at *; omega)⟩
instance : Cheap takeTag := inferInstanceAs (Cheap u32)
instance {x : Nat} : Cheap (expectU16 x) := ⟨by
  unfold expectU16
  exact spends_cheap fun a n hn => spends_free fun _ => spends_pure (by simp only [content_nat] at *; omega)⟩
instance {cfg : Cfg} {x : Nat} : Cheap (flagsU16 cfg x) := ⟨by
  unfold flagsU16
  exact spends_cheap fun a n hn => spends_free fun _ => spends_pure (by simp only [content_nat] at *; omega)⟩

instance [Measured α] {r : Reader α} [Cheap r] {n : Nat} : Cheap (takeVec r n) := ⟨by
  induction n with
  | zero => exact spends_pure (by simp)
  | succ n ih =>
    refine spends_cheap fun a n hn => ?_
    refine spends_bind (P := fun a n => 2 + n ≤ 3 * content a) ih fun as m hm => ?_
    exact spends_pure (by rw [content_cons]; omega)⟩

instance {n : Nat} : Cheap (takeBytes n) := inferInstanceAs (Cheap (takeVec u8 n))

/-- A loop whose body is cheap. -/
theorem cheap_forFrom [Measured α] {body : Nat → Reader α} (h : ∀ i, Spends 1 (body i) (3 * content ·)) {i n : Nat} :
    Cheap (forFrom body i n) := ⟨by
  induction n generalizing i with
  | zero => exact spends_pure (by simp)
  | succ n ih =>
    refine spends_bind (P := fun a n => 1 + n ≤ 3 * content a)
      (fun d p a q e => by have := h i d p a q e; dsimp only at this; omega) fun a n hn => ?_
    refine spends_bind (P := fun a n => 2 + n ≤ 3 * content a) ih fun as m hm => ?_
    exact spends_pure (by rw [content_cons]; omega)⟩

theorem spends_jumpTake [Measured α] {r : Reader α} [hr : Cheap r] {base o : Nat} :
    Spends 1 (jumpTake base o r) (3 * content ·) :=
  spends_free fun _ => spends_jump <| spends_last fun _ _ h => by omega

instance [Measured α] {r : Reader α} [Cheap r] {base o : Nat} : Cheap (jumpTakeMaybe base o r) := ⟨by
  unfold jumpTakeMaybe
  split
  · exact spends_bind (P := fun a n => 1 + n ≤ 3 * content a)
      (fun d p a q e => by have := spends_jumpTake d p a q e; dsimp only at this; omega)
      fun a n hn => spends_pure (by rw [content_some]; omega)
  · exact spends_pure (by simp)⟩

instance [Measured α] {r : Reader α} [Cheap r] {base n : Nat} {os : List Nat} : Cheap (jumpTakeN base n os r) :=
  cheap_forFrom fun _ => spends_free fun _ => spends_jumpTake

instance [Measured α] {r : Reader α} [Cheap r] {base n : Nat} {os : List Nat} :
    Cheap (jumpTakeMaybeN base n os r) :=
  cheap_forFrom fun _ => spends_free fun _ => spends_last fun _ _ h => by omega

instance [Measured α] {r : Reader α} [Cheap r] {c : Bool} : Cheap (takeIf c r) := ⟨by
  unfold takeIf
  split
  · exact spends_cheap fun a n hn => spends_pure (by rw [content_some]; omega)
  · exact spends_pure (by simp)⟩

theorem spends_forFrom_bind [Measured α] {body : Nat → Reader α} {i n : Nat}
    {f : List α → Reader β} {h : β → Nat} (hb : ∀ i, Spends 1 (body i) (3 * content ·))
    (hf : ∀ a n, 2 + n ≤ 3 * content a → Spends (s + n) (f a) h) : Spends s (forFrom body i n >>= f) h :=
  have := cheap_forFrom hb (i := i) (n := n)
  spends_cheap hf

theorem spends_jumpTake_bind [Measured α] {r : Reader α} [hr : Cheap r] {base o : Nat} {f : α → Reader β}
    {h : β → Nat} (hf : ∀ a n, 1 + n ≤ 3 * content a → Spends (s + n) (f a) h) :
    Spends s (jumpTake base o r >>= f) h :=
  spends_bind (P := fun a n => 1 + n ≤ 3 * content a)
    (fun d p a q e => by have := spends_jumpTake d p a q e; dsimp only at this; omega) hf

/-- `stay` and `peek` take two operations more. -/
theorem spends_stay {P : α → Nat → Prop} {r : Reader α}
    (hr : ∀ d p a q, r d p = .ok (a, q) → P a (r.operations d p)) {f : α → Reader β} {h : β → Nat}
    (hf : ∀ a n, P a n → Spends (s + (n + 2)) (f a) h) : Spends s (stay r >>= f) h := by
  refine spends_bind (P := fun a n => ∃ m, P a m ∧ n = m + 2) ?_ ?_
  · intro d p a q e
    unfold stay at e ⊢
    rw [operations_bind]
    rw [run_bind_eq] at e
    simp only [show position d p = .ok (p, p) from rfl, run_bind_eq, operations_bind] at e ⊢
    cases e' : r d p with
    | error _ => rw [e'] at e; cases e
    | ok x =>
      obtain ⟨a', q'⟩ := x
      rw [e'] at e
      cases e
      exact ⟨_, hr d p _ _ e', by
        simp only [show position.operations d p = 1 from rfl, show (jump p).operations d q' = 1 from rfl,
          show jump p d q' = .ok ((), p) from rfl]
        show 1 + (_ + (1 + 0)) = _
        omega⟩
  · rintro a _ ⟨m, hm, rfl⟩
    exact hf a m hm

theorem spends_stay_cheap [Measured α] {r : Reader α} [hr : Cheap r] {f : α → Reader β} {h : β → Nat}
    (hf : ∀ a n, 2 + n ≤ 3 * content a → Spends (s + (n + 2)) (f a) h) : Spends s (stay r >>= f) h :=
  spends_stay (P := fun a n => 2 + n ≤ 3 * content a) hr.spends hf

theorem spends_peek {r : Reader α} {k : Nat} (hr : ∀ d p, r.operations d p ≤ k) {f : α → Reader β} {h : β → Nat}
    (hf : ∀ a n, n ≤ k → Spends (s + (n + 2)) (f a) h) : Spends s (peek r >>= f) h :=
  spends_stay (P := fun _ n => n ≤ k) (fun d p _ _ _ => hr d p) hf

theorem operations_u16 (d : Data) (p : Nat) : u16.operations d p ≤ 1 := by unfold u16; rw [operations_fetch]; exact Nat.le_refl 1
theorem operations_u32 (d : Data) (p : Nat) : u32.operations d p ≤ 1 := by unfold u32; rw [operations_fetch]; exact Nat.le_refl 1
theorem operations_peeked (d : Data) (p : Nat) : correction.peeked.operations d p ≤ 2 := by
  unfold correction.peeked
  rw [operations_bind]
  have h1 := operations_u32 d p
  split
  · next q _ =>
    rw [operations_bind]
    have h2 := operations_u16 d q
    split
    · show _ + (_ + 0) ≤ 2
      omega
    · omega
  · omega

end

/-- One step of the analysis of a reader. -/
macro "cheap_step" : tactic => `(tactic| with_reducible first
  | exact spends_raise
  | refine spends_position fun _ => ?_
  | refine spends_peek operations_u16 fun _ _ _ => ?_
  | refine spends_peek operations_u32 fun _ _ _ => ?_
  | refine spends_peek operations_peeked fun _ _ _ => ?_
  | refine spends_jump ?_
  | refine spends_free fun _ => ?_
  | refine spends_forFrom_bind (fun _ => ?_) fun _ _ _ => ?_
  | refine spends_jumpTake_bind fun _ _ _ => ?_
  | refine spends_stay_cheap fun _ _ _ => ?_
  | refine spends_cheap fun _ _ _ => ?_
  | refine spends_pure ?_
  | refine spends_last fun _ _ _ => ?_
  | dsimp only
  | split)

/-- Proves `Cheap r`. -/
macro "cheap" r:ident : tactic =>
  `(tactic| (constructor; unfold $r; (repeat' cheap_step); all_goals ((try simp at *) <;> omega)))

end OpenType
