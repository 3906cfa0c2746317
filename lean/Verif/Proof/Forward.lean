import Verif.Spec.Device
import Verif.Proof.Run
import Verif.Model.Gsub
import Verif.Model.Gpos
import Verif.Model.Gdef
import Verif.Model.Cpal
import Verif.Model.Fvar
import Verif.Model.Font
/-!
# Where readers go

`Stays b r Q`: if the tape never stands before `b`, the reader `r` never makes it stand there, and `Q` holds of the
value it gives.
-/

namespace OpenType

/-- See above. -/
def Stays {α : Type} (b : Nat) (Q : α → Prop) : Reader α → Prop
  | .done a => Q a
  | .fail _ => True
  | .tell next => ∀ x, (∀ p, x = .ok p → b ≤ p) → Stays b Q (next x)
  | .seek q next => b ≤ q ∧ ∀ x, Stays b Q (next x)
  | .fetch _ next => ∀ x, Stays b Q (next x)

/-- A reader that never goes back before the place it starts at. -/
class Forward {α : Type} (r : Reader α) : Prop where
  stays : ∀ b, Stays b (fun _ => True) r

/-- A reader that is given the position its offsets count from and never goes back before that. -/
class ForwardFrom {α : Type} (base : outParam Nat) (r : Reader α) : Prop where
  stays : ∀ {b}, b ≤ base → Stays b (fun _ => True) r

section
variable {α β : Type} {b : Nat}

theorem Stays.mono {Q Q' : α → Prop} {r : Reader α} (h : Stays b Q r) (hQ : ∀ a, Q a → Q' a) :
    Stays b Q' r := by
  induction r with
  | done a => exact hQ a h
  | fail e => trivial
  | tell next ih => exact fun x hx => ih x (h x hx)
  | seek q next ih => exact ⟨h.1, fun x => ih x (h.2 x)⟩
  | fetch n next ih => exact fun x => ih x (h x)

theorem stays_pure {Q : α → Prop} {a : α} (h : Q a) : Stays b Q (pure a) := h

theorem stays_bind {Q : α → Prop} {Q' : β → Prop} {r : Reader α} {f : α → Reader β} (h : Stays b Q r)
    (hf : ∀ a, Q a → Stays b Q' (f a)) : Stays b Q' (r >>= f) := by
  show Stays b Q' (Reader.bind r f)
  induction r with
  | done a => exact hf a h
  | fail e => trivial
  | tell next ih => exact fun x hx => ih x (h x hx)
  | seek q next ih => exact ⟨h.1, fun x => ih x (h.2 x)⟩
  | fetch n next ih => exact fun x => ih x (h x)

theorem stays_ofResult {x : Except Err α} {Q : α → Prop} (h : ∀ a, x = .ok a → Q a) :
    Stays b Q (.ofResult x) := by
  cases x with
  | ok a => exact h a rfl
  | error e => trivial

theorem stays_position : Stays b (b ≤ ·) position := fun _ h => stays_ofResult h

theorem stays_jump {q : Nat} (h : b ≤ q) : Stays b (fun _ => True) (jump q) :=
  ⟨h, fun _ => stays_ofResult fun _ _ => trivial⟩

theorem stays_addU64 {x y : Nat} : Stays b (· = x + y) (addU64 x y) := by
  unfold addU64; split
  · exact stays_pure rfl
  · trivial

theorem stays_stay {r : Reader α} (h : Stays b (fun _ => True) r) : Stays b (fun _ => True) (stay r) :=
  stays_bind stays_position fun _ hp => stays_bind h fun _ _ => stays_bind (stays_jump hp) fun _ _ =>
    stays_pure trivial

theorem stays_jumpTake {base o : Nat} {r : Reader α} (hb : b ≤ base) (h : Stays b (fun _ => True) r) :
    Stays b (fun _ => True) (jumpTake base o r) :=
  stays_bind stays_addU64 fun _ hq => stays_bind (stays_jump (by omega)) fun _ _ => h

theorem stays_jumpTakeMaybe {base o : Nat} {r : Reader α} (hb : b ≤ base) (h : Stays b (fun _ => True) r) :
    Stays b (fun _ => True) (jumpTakeMaybe base o r) := by
  unfold jumpTakeMaybe; split
  · exact stays_bind (stays_jumpTake hb h) fun _ _ => stays_pure trivial
  · exact stays_pure trivial

theorem stays_forFrom {body : Nat → Reader α} {i n : Nat} (h : ∀ i, Stays b (fun _ => True) (body i)) :
    Stays b (fun _ => True) (forFrom body i n) := by
  induction n generalizing i with
  | zero => exact stays_pure trivial
  | succ n ih => exact stays_bind (h i) fun _ _ => stays_bind ih fun _ _ => stays_pure trivial

theorem stays_index {xs : List α} {i : Nat} : Stays b (fun _ => True) (index xs i) := by
  unfold index; split <;> trivial

theorem stays_jumpTakeN {base n : Nat} {os : List Nat} {r : Reader α} (hb : b ≤ base)
    (h : Stays b (fun _ => True) r) : Stays b (fun _ => True) (jumpTakeN base n os r) :=
  stays_forFrom fun _ => stays_bind stays_index fun _ _ => stays_jumpTake hb h

theorem stays_jumpTakeMaybeN {base n : Nat} {os : List Nat} {r : Reader α} (hb : b ≤ base)
    (h : Stays b (fun _ => True) r) : Stays b (fun _ => True) (jumpTakeMaybeN base n os r) :=
  stays_forFrom fun _ => stays_bind stays_index fun _ _ => stays_jumpTakeMaybe hb h

theorem stays_takeVec {n : Nat} {r : Reader α} (h : Stays b (fun _ => True) r) :
    Stays b (fun _ => True) (takeVec r n) := by
  induction n with
  | zero => exact stays_pure trivial
  | succ n ih => exact stays_bind h fun _ _ => stays_bind ih fun _ _ => stays_pure trivial

instance {a : α} : Forward (pure a) := ⟨fun _ => trivial⟩
instance {m : Message} : Forward (raise m : Reader α) := ⟨fun _ => trivial⟩
instance {m : String} : Forward (panicked m : Reader α) := ⟨fun _ => trivial⟩
instance {c : Prop} [Decidable c] {m : Message} : Forward (raiseIf c m) :=
  ⟨fun _ => by unfold raiseIf; split <;> trivial⟩
instance : Forward u8 := ⟨fun _ _ => stays_ofResult fun _ _ => trivial⟩
instance : Forward u16 := ⟨fun _ _ => stays_ofResult fun _ _ => trivial⟩
instance : Forward u32 := ⟨fun _ _ => stays_ofResult fun _ _ => trivial⟩
instance : Forward i16 := ⟨fun b => stays_bind (Forward.stays b) fun _ _ => stays_pure trivial⟩
instance : Forward q32 := ⟨fun b => stays_bind (Forward.stays b) fun _ _ => stays_pure trivial⟩
instance : Forward takeTag := inferInstanceAs (Forward u32)
instance {n : Nat} : Forward (expectU16 n) :=
  ⟨fun b => stays_bind (Forward.stays b) fun _ _ => stays_bind (Forward.stays b) fun _ _ => stays_pure trivial⟩
instance {cfg : Cfg} {n : Nat} : Forward (flagsU16 cfg n) :=
  ⟨fun b => stays_bind (Forward.stays b) fun _ _ => stays_bind (Forward.stays b) fun _ _ => stays_pure trivial⟩
instance {c : Bool} {r : Reader α} [h : Forward r] : Forward (takeIf c r) := ⟨fun b => by
  unfold takeIf; split
  · exact stays_bind (h.stays b) fun _ _ => stays_pure trivial
  · exact stays_pure trivial⟩
instance {r : Reader α} {n : Nat} [h : Forward r] : Forward (takeVec r n) := ⟨fun b => stays_takeVec (h.stays b)⟩
instance {n : Nat} : Forward (takeBytes n) := inferInstanceAs (Forward (takeVec u8 n))
instance {r : Reader α} [h : Forward r] : Forward (stay r) := ⟨fun b => stays_stay (h.stays b)⟩
instance {r : Reader α} [h : Forward r] : Forward (peek r) := ⟨fun b => stays_stay (h.stays b)⟩
instance {x y : Nat} : Forward (mulU64 x y) := ⟨fun _ => by unfold mulU64; split <;> trivial⟩
instance {x y : Nat} : Forward (addUsize x y) := ⟨fun _ => by unfold addUsize; split <;> trivial⟩
instance {x y : Nat} : Forward (mulUsize x y) := ⟨fun _ => by unfold mulUsize; split <;> trivial⟩
instance {x y : Nat} : Forward (subUint x y) := ⟨fun _ => by unfold subUint; split <;> trivial⟩

end

/-- One step of the analysis of a reader. -/
macro "forward_step" : tactic => `(tactic| first
  | exact Forward.stays _
  | exact ForwardFrom.stays (by assumption)
  | exact stays_jump (by omega)
  | exact stays_pure trivial
  | exact stays_stay (ForwardFrom.stays (by assumption))
  | exact stays_takeVec (ForwardFrom.stays (by assumption))
  | exact stays_stay (stays_jumpTake (by assumption) (Forward.stays _))
  | exact stays_stay (stays_jumpTakeMaybe (by assumption) (Forward.stays _))
  | exact stays_stay (stays_jumpTakeN (by assumption) (Forward.stays _))
  | exact stays_stay (stays_jumpTakeMaybeN (by assumption) (Forward.stays _))
  | exact stays_jumpTake (by assumption) (Forward.stays _)
  | exact stays_jumpTakeMaybe (by assumption) (Forward.stays _)
  | exact stays_jumpTakeN (by assumption) (Forward.stays _)
  | exact stays_jumpTakeMaybeN (by assumption) (Forward.stays _)
  | dsimp only
  | refine stays_forFrom fun _ => ?_
  | refine stays_bind stays_position fun _ _ => ?_
  | refine stays_bind stays_addU64 fun _ _ => ?_
  | refine stays_bind (Q := fun _ => True) ?_ fun _ _ => ?_
  | split)

/-- Proves `Forward r`. -/
macro "forward" r:ident : tactic => `(tactic| (constructor; intro b; unfold $r; repeat' forward_step))

/-- Proves `ForwardFrom base r`. -/
macro "forward_from" r:ident : tactic =>
  `(tactic| (constructor; intro b h; unfold $r; repeat' forward_step))

end OpenType
