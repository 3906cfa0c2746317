import Verif.Spec.Device
import Verif.Proof.Run
import Verif.Model.Gsub
import Verif.Model.Gpos
import Verif.Model.Gdef
import Verif.Model.Cpal
import Verif.Model.Fvar
import Verif.Model.Font
/-!
# How far readers look

`Within b r p Q`: from the position `p`, the reader `r` asks for no byte at or after `b`, whatever the bytes are, and
`Q` holds of the value it gives and of the position it ends at.
-/

namespace OpenType

/-- See above. -/
def Within {α : Type} (b : Nat) : Reader α → Nat → (α → Nat → Prop) → Prop
  | .done a, p, Q => Q a p
  | .fail _, _, _ => True
  | .tell next, p, Q => Within b (next (.ok p)) p Q
  | .seek q next, _, Q => Within b (next (.ok ())) q Q
  | .fetch n next, p, Q => (n = 0 ∨ p + n ≤ b) ∧ Within b (next (.error .eof)) (p + n) Q ∧
      ∀ x, x.length = n → Within b (next (.ok x)) (p + n) Q

/-- A reader that asks for nothing more than `k` bytes from where it starts. -/
class Looks {α : Type} (r : Reader α) (k : outParam Nat) : Prop where
  within : ∀ {b p}, p + k ≤ b → Within b r p fun _ _ => True

/-- A reader that, besides, ends at most `k` bytes from where it starts, and whose values satisfy `V`. -/
class Reaches {α : Type} (r : Reader α) (k : outParam Nat) (V : outParam (α → Prop)) : Prop where
  within : ∀ {b p}, p + k ≤ b → Within b r p fun a q => V a ∧ q ≤ p + k

/-- A reader that is given the position from which its offsets count: it asks for nothing more than `k` bytes from
there, or `e` bytes from where it starts, and ends at most `e` bytes from where it starts. -/
class ReachesFrom {α : Type} (base : outParam Nat) (r : Reader α) (k e : outParam Nat) : Prop where
  within : ∀ {b p}, base + k ≤ b → p + e ≤ b → Within b r p fun _ q => q ≤ p + e

section
variable {α β : Type} {b p : Nat}

theorem Within.mono {Q Q' : α → Nat → Prop} {r : Reader α} (h : Within b r p Q) (hQ : ∀ a q, Q a q → Q' a q) :
    Within b r p Q' := by
  induction r generalizing p with
  | done a => exact hQ _ _ h
  | fail e => trivial
  | tell next ih => exact ih _ h
  | seek q next ih => exact ih _ h
  | fetch n next ih => exact ⟨h.1, ih _ h.2.1, fun x hx => ih _ (h.2.2 x hx)⟩

theorem window_bind {Q : α → Nat → Prop} {Q' : β → Nat → Prop} {r : Reader α} {f : α → Reader β} (h : Within b r p Q)
    (hf : ∀ a q, Q a q → Within b (f a) q Q') : Within b (r >>= f) p Q' := by
  show Within b (Reader.bind r f) p Q'
  induction r generalizing p with
  | done a => exact hf _ _ h
  | fail e => trivial
  | tell next ih => exact ih _ h
  | seek q next ih => exact ih _ h
  | fetch n next ih => exact ⟨h.1, ih _ h.2.1, fun x hx => ih _ (h.2.2 x hx)⟩

theorem window_ofResult {x : Except Err α} {Q : α → Nat → Prop} (h : ∀ a, x = .ok a → Q a p) :
    Within b (.ofResult x) p Q := by
  cases x with
  | ok a => exact h a rfl
  | error e => trivial

variable {Q : α → Nat → Prop}

theorem window_pure {a : α} (h : Q a p) : Within b (pure a) p Q := h

theorem window_position {f : Nat → Reader α} (h : Within b (f p) p Q) : Within b (position >>= f) p Q := h

theorem window_jump {q : Nat} {f : Unit → Reader α} (h : Within b (f ()) q Q) : Within b (jump q >>= f) p Q := h

theorem window_raiseIf {c : Prop} [Decidable c] {m : Message} {f : Unit → Reader α} (h : ¬c → Within b (f ()) p Q) :
    Within b (raiseIf c m >>= f) p Q := by
  unfold raiseIf
  split
  · trivial
  · next hc => exact h hc

theorem window_raise {m : Message} : Within b (raise m : Reader α) p Q := trivial

theorem window_addU64 {x y : Nat} {f : Nat → Reader α} (h : Within b (f (x + y)) p Q) : Within b (addU64 x y >>= f) p Q := by
  unfold addU64
  split
  · exact h
  · trivial

theorem window_mulU64 {x y : Nat} {f : Nat → Reader α} (h : Within b (f (x * y)) p Q) : Within b (mulU64 x y >>= f) p Q := by
  unfold mulU64
  split
  · exact h
  · trivial

theorem window_addUsize {x y : Nat} {f : Nat → Reader α} (h : Within b (f (x + y)) p Q) :
    Within b (addUsize x y >>= f) p Q := by
  unfold addUsize
  split
  · exact h
  · trivial

theorem window_mulUsize {x y : Nat} {f : Nat → Reader α} (h : Within b (f (x * y)) p Q) :
    Within b (mulUsize x y >>= f) p Q := by
  unfold mulUsize
  split
  · exact h
  · trivial

theorem window_subUint {x y : Nat} {f : Nat → Reader α} (h : y ≤ x → Within b (f (x - y)) p Q) :
    Within b (subUint x y >>= f) p Q := by
  unfold subUint
  split
  · next hc => exact h hc
  · trivial

/-- An inline part. -/
theorem window_step {r : Reader β} {f : β → Reader α} {k : Nat} {V : β → Prop} [h : Reaches r k V] (hb : p + k ≤ b)
    (hf : ∀ a q, V a → q ≤ p + k → Within b (f a) q Q) : Within b (r >>= f) p Q :=
  window_bind (h.within hb) fun a q hq => hf a q hq.1 hq.2

theorem window_step_from {base : Nat} {r : Reader β} {f : β → Reader α} {k e : Nat} [h : ReachesFrom base r k e]
    (hb : base + k ≤ b) (he : p + e ≤ b) (hf : ∀ a q, q ≤ p + e → Within b (f a) q Q) : Within b (r >>= f) p Q :=
  window_bind (h.within hb he) fun a q hq => hf a q hq

theorem window_stay {r : Reader α} (h : Within b r p fun _ _ => True) : Within b (stay r) p fun _ q => q = p :=
  window_position (window_bind h fun _ _ _ => rfl)

theorem window_stay_bind {r : Reader β} {f : β → Reader α} (h : Within b r p fun _ _ => True)
    (hf : ∀ a, Within b (f a) p Q) : Within b (stay r >>= f) p Q :=
  window_bind (window_stay h) fun a _ hq => hq ▸ hf a

theorem window_jumpTake {base o k : Nat} {r : Reader α} [h : Looks r k] (hb : base + o + k ≤ b) :
    Within b (jumpTake base o r) p fun _ _ => True :=
  window_addU64 (window_jump (h.within hb))

theorem window_jumpTakeMaybe {base o k : Nat} {r : Reader α} [h : Looks r k] (hb : base + o + k ≤ b) :
    Within b (jumpTakeMaybe base o r) p fun _ _ => True := by
  unfold jumpTakeMaybe
  split
  · exact window_bind (window_jumpTake hb) fun _ _ _ => trivial
  · trivial

theorem window_forFrom {body : Nat → Reader α} {i n : Nat} (h : ∀ j p, j < i + n → Within b (body j) p fun _ _ => True) :
    Within b (forFrom body i n) p fun _ _ => True := by
  induction n generalizing i p with
  | zero => exact window_pure trivial
  | succ n ih =>
    exact window_bind (h i p (by omega)) fun _ _ _ =>
      window_bind (ih fun j p hj => h j p (by omega)) fun _ _ _ => trivial

theorem window_index {xs : List β} {i : Nat} {f : β → Reader α} (h : ∀ x ∈ xs, Within b (f x) p Q) :
    Within b (index xs i >>= f) p Q := by
  unfold index
  split
  · next x hx => exact h x (List.mem_of_getElem? hx)
  · trivial

theorem window_jumpTakeN {base n k : Nat} {os : List Nat} {r : Reader α} [Looks r k]
    (hb : ∀ o ∈ os, base + o + k ≤ b) : Within b (jumpTakeN base n os r) p fun _ _ => True :=
  window_forFrom fun _ _ _ => window_index fun o ho => window_jumpTake (hb o ho)

theorem window_jumpTakeMaybeN {base n k : Nat} {os : List Nat} {r : Reader α} [Looks r k]
    (hb : ∀ o ∈ os, base + o + k ≤ b) : Within b (jumpTakeMaybeN base n os r) p fun _ _ => True :=
  window_forFrom fun _ _ _ => window_index fun o ho => window_jumpTakeMaybe (hb o ho)

theorem window_jumpTakeN_lt {base n m w k : Nat} {os : List Nat} {r : Reader α} [Looks r k]
    (h : os.length = m ∧ ∀ o ∈ os, o < w) (hb : base + w + k ≤ b + 1) :
    Within b (jumpTakeN base n os r) p fun _ _ => True :=
  window_jumpTakeN fun o ho => by have := h.2 o ho; omega

theorem window_jumpTakeMaybeN_lt {base n m w k : Nat} {os : List Nat} {r : Reader α} [Looks r k]
    (h : os.length = m ∧ ∀ o ∈ os, o < w) (hb : base + w + k ≤ b + 1) :
    Within b (jumpTakeMaybeN base n os r) p fun _ _ => True :=
  window_jumpTakeMaybeN fun o ho => by have := h.2 o ho; omega

theorem window_jumpTakeN_map {H : Type} {base n m w k : Nat} {hs : List H} {f : H → Nat} {r : Reader α} [Looks r k]
    (h : hs.length = m ∧ ∀ o ∈ hs, f o < w) (hb : base + w + k ≤ b + 1) :
    Within b (jumpTakeN base n (hs.map f) r) p fun _ _ => True :=
  window_jumpTakeN fun o ho => by
    obtain ⟨x, hx, rfl⟩ := List.mem_map.mp ho
    have := h.2 x hx
    omega

theorem window_takeVec {r : Reader α} {V : α → Prop} {e n : Nat}
    (h : ∀ q, q + e ≤ b → Within b r q fun a q' => V a ∧ q' ≤ q + e) (hb : p + e * n ≤ b) :
    Within b (takeVec r n) p fun xs q => (xs.length = n ∧ ∀ x ∈ xs, V x) ∧ q ≤ p + e * n := by
  induction n generalizing p with
  | zero => exact window_pure ⟨⟨rfl, nofun⟩, by omega⟩
  | succ n ih =>
    rw [Nat.mul_succ] at hb ⊢
    refine window_bind (h p (by omega)) fun a q ⟨ha, hq⟩ => ?_
    refine window_bind (ih (p := q) (by omega)) fun as q' ⟨has, hq'⟩ => ?_
    exact window_pure ⟨⟨congrArg (· + 1) has.1, List.forall_mem_cons.mpr ⟨ha, has.2⟩⟩, by omega⟩

theorem window_takeVec_from {base : Nat} {r : Reader α} {k e n : Nat} [h : ReachesFrom base r k e] (hk : base + k ≤ b)
    (hb : p + e * n ≤ b) : Within b (takeVec r n) p fun _ q => q ≤ p + e * n :=
  (window_takeVec (V := fun _ => True) (fun _ hq => (h.within hk hq).mono fun _ _ h => ⟨trivial, h⟩) hb).mono
    fun _ _ h => h.2

instance (priority := low) {r : Reader α} {k : Nat} {V : α → Prop} [h : Reaches r k V] : Looks r k :=
  ⟨fun hb => (h.within hb).mono fun _ _ _ => trivial⟩

theorem bigEndian_lt (bytes : List UInt8) : bigEndian bytes < 256 ^ bytes.length := by
  have h : ∀ (bytes : List UInt8) (n : Nat),
      bytes.foldl (fun n b => n * 256 + b.toNat) n < (n + 1) * 256 ^ bytes.length := by
    intro bytes
    induction bytes with
    | nil => intro n; simp
    | cons x xs ih =>
      intro n
      have h1 := ih (n * 256 + x.toNat)
      have h2 : x.toNat < 256 := x.toNat_lt
      refine Nat.lt_of_lt_of_le h1 ?_
      rw [List.length_cons, Nat.pow_succ, Nat.mul_comm (256 ^ xs.length) 256, ← Nat.mul_assoc]
      exact Nat.mul_le_mul_right _ (by omega)
  have := h bytes 0
  rw [Nat.zero_add, Nat.one_mul] at this
  exact this

theorem reaches_fetch {n : Nat} : Reaches (Reader.fetch n fun bytes => .ofResult (bytes.map bigEndian)) n (· < 256 ^ n) :=
  ⟨fun hb => ⟨.inr hb, trivial, fun x hx => ⟨hx ▸ bigEndian_lt x, Nat.le_refl _⟩⟩⟩

instance : Reaches u8 1 (· < 256) := reaches_fetch
instance : Reaches u16 2 (· < 65536) := reaches_fetch
instance : Reaches u32 4 (· < 4294967296) := reaches_fetch
instance : Reaches takeTag 4 (· < 4294967296) := inferInstanceAs (Reaches u32 _ _)
instance : Reaches i16 2 (fun _ => True) := ⟨fun hb => window_step hb fun _ _ _ hq => window_pure ⟨trivial, hq⟩⟩
instance : Reaches q32 4 (fun _ => True) := ⟨fun hb => window_step hb fun _ _ _ hq => window_pure ⟨trivial, hq⟩⟩
instance {n : Nat} : Reaches (expectU16 n) 2 (· < 65536) :=
  ⟨fun hb => window_step hb fun _ _ hv hq => window_raiseIf fun _ => window_pure ⟨hv, hq⟩⟩
instance {cfg : Cfg} {n : Nat} : Reaches (flagsU16 cfg n) 2 (· < 65536) :=
  ⟨fun hb => window_step hb fun _ _ hv hq => window_raiseIf fun _ => window_pure ⟨hv, hq⟩⟩
instance {c : Bool} {r : Reader α} {k : Nat} {V : α → Prop} [h : Reaches r k V] :
    Reaches (takeIf c r) k (fun o => ∀ x, o = some x → V x) := ⟨fun {b p} hb => by
  unfold takeIf
  split
  · exact window_step hb fun a q hv hq => window_pure ⟨fun x hx => by cases hx; exact hv, hq⟩
  · exact window_pure ⟨nofun, by omega⟩⟩
instance {r : Reader α} {k n : Nat} {V : α → Prop} [h : Reaches r k V] :
    Reaches (takeVec r n) (k * n) (fun xs => xs.length = n ∧ ∀ x ∈ xs, V x) := ⟨fun hb => window_takeVec (fun _ => h.within) hb⟩
instance {n : Nat} : Reaches (takeBytes n) (1 * n) (fun xs => xs.length = n ∧ ∀ x ∈ xs, x < 256) :=
  inferInstanceAs (Reaches (takeVec u8 n) _ _)

/-- A part that is only peeked at. -/
theorem window_peek {r : Reader β} {f : β → Reader α} {Q : α → Nat → Prop} {k : Nat} {V : β → Prop} [h : Reaches r k V]
    (hb : p + k ≤ b) (hf : ∀ a, V a → Within b (f a) p Q) : Within b (peek r >>= f) p Q := by
  refine window_bind (Q := fun a q => V a ∧ q = p) ?_ fun a q hq => hq.2 ▸ hf a hq.1
  exact window_position (window_bind (h.within hb) fun a _ hq => (⟨hq.1, rfl⟩ : V a ∧ p = p))

/-- What `Within` means for the bytes that are asked for. -/
theorem window_fetches {r : Reader α} {Q : α → Nat → Prop} (h : Within b r p Q) (d : Data) :
    ∀ q n, (q, n) ∈ r.fetches d p → 0 < n → q + n ≤ b := by
  induction r generalizing p with
  | done a => simp [Reader.fetches]
  | fail e => simp [Reader.fetches]
  | tell next ih => exact ih _ h
  | seek q next ih => exact ih _ h
  | fetch n next ih =>
    intro q m hm hp
    rcases List.mem_cons.mp hm with hm | hm
    · cases hm
      exact h.1.resolve_left (by omega)
    · refine ih _ ?_ q m hm hp
      unfold Reader.slice
      split
      · next hs =>
        refine h.2.2 _ ?_
        rw [List.length_take, List.length_drop]
        omega
      · exact h.2.1

end

/-- One step of the analysis of a reader. -/
macro "reach_step" : tactic => `(tactic| first
  | refine window_position ?_
  | refine window_addU64 ?_
  | refine window_mulU64 ?_
  | refine window_addUsize ?_
  | refine window_mulUsize ?_
  | refine window_subUint fun _ => ?_
  | refine window_raiseIf fun _ => ?_
  | refine window_jump ?_
  | exact window_raise
  | exact window_pure trivial
  | exact window_pure ⟨trivial, by omega⟩
  | exact window_pure ⟨by dsimp only; omega, by omega⟩
  | exact window_pure (by omega)
  | (refine window_peek (by omega) fun _ _ => ?_; try dsimp only at *)
  | (refine window_step (by omega) fun _ _ _ _ => ?_; try dsimp only at *)
  | refine window_step_from (by omega) (by omega) fun _ _ _ => ?_
  | refine window_bind (window_takeVec_from (by omega) (by omega)) fun _ _ _ => ?_
  | refine window_bind (window_jumpTake (by omega)) fun _ _ _ => ?_
  | refine window_bind (window_jumpTakeMaybe (by omega)) fun _ _ _ => ?_
  | refine window_bind (window_jumpTakeN_lt (by assumption) (by omega)) fun _ _ _ => ?_
  | refine window_bind (window_jumpTakeMaybeN_lt (by assumption) (by omega)) fun _ _ _ => ?_
  | refine window_bind (window_jumpTakeN_map (by assumption) (by omega)) fun _ _ _ => ?_
  | refine window_bind (Looks.within (by omega)) fun _ _ _ => ?_
  | dsimp only
  | split)

/-- Proves `Looks r k` or `Reaches r k V`. -/
macro "reach" r:ident : tactic => `(tactic| (constructor; intro b p hb; unfold $r; repeat' reach_step))

end OpenType
