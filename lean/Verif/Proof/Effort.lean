import Verif.Proof.Work
/-!
# How much work readers do, whatever the outcome

`Effort d B c k r`: on the content `d`, wherever it starts and however it ends, `r` takes at most `c * B ^ k`
operations.
-/

namespace OpenType
open Spec

/-- See above. -/
def Effort {α : Type} (d : Data) (B c k : Nat) (r : Reader α) : Prop :=
  ∀ p, r.operations d p ≤ c * B ^ k

/-- A reader that takes at most `c * B ^ k` operations if the content has fewer than `B` bytes and `m ≤ B`. -/
class Costs {α : Type} (r : Reader α) (m c k : outParam Nat) : Prop where
  effort : ∀ {d : Data} {B : Nat}, d.length < B → m ≤ B → Effort d B c k r

/-- A reader that, when it succeeds, is not before where it started, and not past the end of the content unless it
started there. -/
class Onward {α : Type} (r : Reader α) : Prop where
  onward : ∀ d p v q, r d p = .ok (v, q) → p ≤ q ∧ (p ≤ d.length → q ≤ d.length)

/-- A reader that, when it succeeds, has consumed a byte. -/
class Advances {α : Type} (r : Reader α) : Prop where
  advances : ∀ d p v q, r d p = .ok (v, q) → p < q ∧ q ≤ d.length

section
variable {α β : Type} {d : Data} {B c k : Nat}

instance (priority := low) {r : Reader α} [h : Advances r] : Onward r :=
  ⟨fun d p v q e => ⟨Nat.le_of_lt (h.advances d p v q e).1, fun _ => (h.advances d p v q e).2⟩⟩

theorem advances_fetch {n : Nat} {f : Except Err (List UInt8) → Except Err α} (hn : 0 < n) (hf : ∀ e, f (.error e) = .error e) :
    Advances (Reader.fetch n fun x => .ofResult (f x)) := ⟨by
  intro d p v q h
  change (Reader.ofResult (f (Reader.slice d p n))).run d (p + n) = _ at h
  unfold Reader.slice at h
  split at h
  · next hp =>
    cases e : f (.ok ((d.drop p).take n)) with
    | error _ => rw [e] at h; cases h
    | ok _ =>
      rw [e] at h
      cases h
      omega
  · rw [hf] at h
    cases h⟩

instance : Advances u8 := advances_fetch (by decide) fun _ => rfl
instance : Advances u16 := advances_fetch (by decide) fun _ => rfl
instance : Advances u32 := advances_fetch (by decide) fun _ => rfl
instance : Advances takeTag := inferInstanceAs (Advances u32)

instance {a : α} : Onward (pure a : Reader α) := ⟨by
  intro d p v q h
  cases h
  exact ⟨Nat.le_refl _, id⟩⟩

instance {e : Err} : Onward (.fail e : Reader α) := ⟨by
  intro d p v q h
  cases h⟩

instance {r : Reader α} {f : α → Reader β} [hr : Onward r] [hf : ∀ x, Onward (f x)] : Onward (r >>= f) := ⟨by
  intro d p v q h
  rw [run_bind_eq] at h
  split at h
  · next a q' e =>
    have h1 := hr.onward _ _ _ _ e
    have h2 := (hf a).onward _ _ _ _ h
    exact ⟨by omega, fun h => h2.2 (h1.2 h)⟩
  · cases h⟩

instance {r : Reader α} {f : α → Reader β} [hr : Advances r] [hf : ∀ x, Onward (f x)] : Advances (r >>= f) := ⟨by
  intro d p v q h
  rw [run_bind_eq] at h
  split at h
  · next a q' e =>
    have h1 := hr.advances _ _ _ _ e
    have h2 := (hf a).onward _ _ _ _ h
    exact ⟨by omega, h2.2 h1.2⟩
  · cases h⟩

instance {c : Prop} [Decidable c] {m : Message} : Onward (raiseIf c m) := by
  unfold raiseIf raise
  split <;> infer_instance

instance {r : Reader α} {b : Bool} [Onward r] : Onward (takeIf b r) := by
  unfold takeIf
  split <;> infer_instance

instance {r : Reader α} : Onward (stay r) := ⟨by
  intro d p v q h
  unfold stay at h
  rw [run_bind_eq] at h
  simp only [show position d p = .ok (p, p) from rfl, run_bind_eq] at h
  split at h
  · cases h
    exact ⟨Nat.le_refl _, id⟩
  · cases h⟩

instance : Advances i16 := by unfold i16; infer_instance
instance : Advances q32 := by unfold q32; infer_instance
instance {x : Nat} : Advances (expectU16 x) := by unfold expectU16; infer_instance
instance {cfg : Cfg} {x : Nat} : Advances (flagsU16 cfg x) := by unfold flagsU16; infer_instance

instance {r : Reader α} {n : Nat} [Onward r] : Onward (takeVec r n) := by
  induction n with
  | zero => exact inferInstanceAs (Onward (pure []))
  | succ n ih => exact inferInstanceAs (Onward (r >>= fun x => takeVec r n >>= fun xs => pure (x :: xs)))

/-! ## Primitives -/

theorem Effort.mono {r : Reader α} {c' k' : Nat} (h : Effort d B c' k' r) (hB : 0 < B) (hc : c' ≤ c) (hk : k ≥ k') :
    Effort d B c k r :=
  fun p => Nat.le_trans (h p) (Nat.mul_le_mul hc (Nat.pow_le_pow_right hB hk))

theorem effort_pure {a : α} : Effort d B c k (pure a : Reader α) := fun _ => Nat.zero_le _
theorem effort_fail {e : Err} : Effort d B c k (.fail e : Reader α) := fun _ => Nat.zero_le _
theorem effort_raise {m : Message} : Effort d B c k (raise m : Reader α) := fun _ => Nat.zero_le _

theorem effort_leaf {r : Reader α} {m c' k' : Nat} [h : Costs r m c' k'] (hB : d.length < B) (hm : m ≤ B) (hc : c' ≤ c)
    (hk : k ≥ k') : Effort d B c k r :=
  (h.effort hB hm).mono (by omega) hc hk

/-- Sequencing. -/
theorem effort_bind {r : Reader α} {f : α → Reader β} {c' k' : Nat} (h : Effort d B c' k' r) (hB : 0 < B)
    (hc : c' ≤ c) (hk : k ≥ k') (hf : ∀ p x q, r d p = .ok (x, q) → Effort d B (c - c') k (f x)) :
    Effort d B c k (r >>= f) := by
  intro p
  rw [operations_bind]
  have h1 := h.mono hB (Nat.le_refl _) hk p
  have h2 : c' * B ^ k + (c - c') * B ^ k = c * B ^ k := by
    rw [← Nat.add_mul]
    congr 1
    omega
  split
  · next a q e =>
    have := hf p a q e q
    omega
  · omega

theorem effort_known {r : Reader α} {f : α → Reader β} {m c' k' : Nat} [h : Costs r m c' k'] (hB : d.length < B)
    (hm : m ≤ B) (hc : c' ≤ c) (hk : k ≥ k') (hf : ∀ x, Effort d B (c - c') k (f x)) : Effort d B c k (r >>= f) :=
  effort_bind (h.effort hB hm) (by omega) hc hk fun _ x _ _ => hf x

instance {r : Reader α} [h : Free r] : Costs r 0 0 0 := ⟨fun _ _ p => by rw [h.free]; exact Nat.zero_le _⟩

theorem costs_one {r : Reader α} (h : ∀ d p, r.operations d p ≤ 1) : Costs r 0 1 0 := ⟨fun _ _ p => by simpa using h _ p⟩

instance : Costs position 0 1 0 := costs_one fun _ _ => Nat.le_refl 1
instance {q : Nat} : Costs (jump q) 0 1 0 := costs_one fun _ _ => Nat.le_refl 1
instance : Costs u8 0 1 0 := costs_one fun _ _ => by unfold u8; rw [operations_fetch]; exact Nat.le_refl 1
instance : Costs u16 0 1 0 := costs_one operations_u16
instance : Costs u32 0 1 0 := costs_one operations_u32
instance : Costs takeTag 0 1 0 := costs_one operations_u32
instance : Costs i16 0 1 0 := ⟨fun hB _ => by
  unfold i16
  exact effort_known hB (Nat.zero_le _) (by decide) (by decide) fun _ => effort_pure⟩
instance : Costs q32 0 1 0 := ⟨fun hB _ => by
  unfold q32
  exact effort_known hB (Nat.zero_le _) (by decide) (by decide) fun _ => effort_pure⟩
instance {x : Nat} : Costs (expectU16 x) 0 1 0 := ⟨fun hB _ => by
  unfold expectU16
  exact effort_known hB (Nat.zero_le _) (by decide) (by decide) fun _ =>
    effort_known hB (Nat.zero_le _) (by decide) (by decide) fun _ => effort_pure⟩
instance {cfg : Cfg} {x : Nat} : Costs (flagsU16 cfg x) 0 1 0 := ⟨fun hB _ => by
  unfold flagsU16
  exact effort_known hB (Nat.zero_le _) (by decide) (by decide) fun _ =>
    effort_known hB (Nat.zero_le _) (by decide) (by decide) fun _ => effort_pure⟩

theorem u16_lt {p x q : Nat} (h : u16 d p = .ok (x, q)) : x < 65536 := by
  rw [run_u16] at h
  split at h
  · next a b ha hb =>
    have h1 := a.toNat_lt
    have h2 := b.toNat_lt
    cases h
    omega
  · cases h

/-- A number of two bytes. -/
theorem effort_u16 {f : Nat → Reader β} (hB : 0 < B) (hc : 1 ≤ c) (hf : ∀ x < 65536, Effort d B (c - 1) k (f x)) :
    Effort d B c k (u16 >>= f) :=
  effort_bind (c' := 1) (k' := 0) (fun p => by simpa using operations_u16 d p) hB hc (Nat.zero_le _) fun _ x _ h => hf x (u16_lt h)

theorem effort_stay' {r : Reader α} (h : Effort d B c k r) (hB : 0 < B) : Effort d B (c + 2) k (stay r) := by
  unfold stay
  refine effort_bind (c' := 1) (k' := 0) (fun _ => by exact Nat.le_refl 1) hB (by omega) (Nat.zero_le _) fun _ _ _ _ => ?_
  refine effort_bind (c' := c) (k' := k) h hB (by omega) (Nat.le_refl _) fun _ _ _ _ => ?_
  refine effort_bind (c' := 1) (k' := 0) (fun _ => by exact Nat.le_refl 1) hB (by omega) (Nat.zero_le _) fun _ _ _ _ => ?_
  exact effort_pure

instance {r : Reader α} {m : Nat} [h : Costs r m c k] : Costs (stay r) m (c + 2) k :=
  ⟨fun hB hm => effort_stay' (h.effort hB hm) (by omega)⟩
instance {r : Reader α} {m : Nat} [h : Costs r m c k] : Costs (peek r) m (c + 2) k :=
  ⟨fun hB hm => effort_stay' (h.effort hB hm) (by omega)⟩

/-- Elements one after another, each at least a byte: as many as there are bytes, and one that fails. -/
theorem operations_takeVec {r : Reader α} [ha : Advances r] {X : Nat} (h : ∀ p, r.operations d p ≤ X) (n p : Nat) :
    (takeVec r n).operations d p ≤ (d.length - p + 1) * X := by
  induction n generalizing p with
  | zero => exact Nat.zero_le _
  | succ n ih =>
    unfold takeVec
    rw [operations_bind]
    have h1 := h p
    cases e : r d p with
    | error _ =>
      have : 1 * X ≤ (d.length - p + 1) * X := Nat.mul_le_mul_right _ (by omega)
      dsimp only
      omega
    | ok x =>
      obtain ⟨a, q⟩ := x
      have h2 := ha.advances _ _ _ _ e
      have h3 := ih q
      have h4 : (1 + (d.length - q + 1)) * X ≤ (d.length - p + 1) * X := Nat.mul_le_mul_right _ (by omega)
      rw [Nat.add_mul] at h4
      dsimp only
      rw [operations_bind]
      split
      · show _ + (_ + 0) ≤ _
        omega
      · omega

theorem length_takeVec {r : Reader α} [ha : Advances r] {n p q : Nat} {xs : List α} (h : takeVec r n d p = .ok (xs, q)) :
    xs.length + p ≤ q ∧ (p ≤ d.length → q ≤ d.length) := by
  induction n generalizing p xs with
  | zero =>
    cases h
    simp
  | succ n ih =>
    unfold takeVec at h
    rw [run_bind_eq] at h
    split at h
    · next a q' e =>
      have h1 := ha.advances _ _ _ _ e
      rw [run_bind_eq] at h
      split at h
      · next as q'' e' =>
        cases h
        have := ih e'
        simp only [List.length_cons]
        omega
      · cases h
    · cases h

theorem rounds {n : Nat} (h : n ≤ B) : n * (c * B ^ k) ≤ c * B ^ (k + 1) := by
  rw [Nat.pow_succ, ← Nat.mul_assoc c, Nat.mul_comm n]
  exact Nat.mul_le_mul_left _ h

theorem effort_takeVec {r : Reader α} [Advances r] {n : Nat} (h : Effort d B c k r) (hB : d.length < B) :
    Effort d B c (k + 1) (takeVec r n) := by
  intro p
  refine Nat.le_trans (operations_takeVec h n p) ?_
  exact rounds (by omega)

instance {r : Reader α} {m n : Nat} [Advances r] [h : Costs r m c k] : Costs (takeVec r n) m c (k + 1) :=
  ⟨fun hB hm => effort_takeVec (h.effort hB hm) hB⟩

instance {n : Nat} : Costs (takeBytes n) 0 1 1 := inferInstanceAs (Costs (takeVec u8 n) 0 1 1)

/-- A vector, each of whose elements takes at least a byte. -/
theorem effort_vec {r : Reader α} {f : List α → Reader β} {m n c' k' : Nat} [Advances r] [h : Costs r m c' k']
    (hB : d.length < B) (hm : m ≤ B) (hc : c' ≤ c) (hk : k ≥ k' + 1)
    (hf : ∀ xs : List α, xs.length ≤ d.length → Effort d B (c - c') k (f xs)) : Effort d B c k (takeVec r n >>= f) := by
  refine effort_bind (effort_takeVec (h.effort hB hm) hB) (by omega) hc hk fun p xs q e => hf xs ?_
  have := length_takeVec e
  by_cases hp : p ≤ d.length
  · omega
  · cases n with
    | zero => cases e; exact Nat.zero_le _
    | succ n =>
      unfold takeVec at e
      rw [run_bind_eq] at e
      split at e
      · next a q' e' =>
        have := Advances.advances _ _ _ _ e'
        omega
      · cases e

/-- A loop with a known number of rounds. -/
theorem operations_forFrom {body : Nat → Reader α} {X : Nat} (h : ∀ i p, (body i).operations d p ≤ X) (i n p : Nat) :
    (forFrom body i n).operations d p ≤ n * X := by
  induction n generalizing i p with
  | zero => exact Nat.zero_le _
  | succ n ih =>
    unfold forFrom
    rw [operations_bind, Nat.add_mul]
    have h1 := h i p
    split
    · next a q _ =>
      have h2 := ih (i + 1) q
      rw [operations_bind]
      split
      · show _ + (_ + 0) ≤ _
        omega
      · omega
    · omega

theorem effort_forFrom {body : Nat → Reader α} (h : ∀ i, Effort d B c k (body i)) {i n : Nat} (hn : n ≤ B) :
    Effort d B c (k + 1) (forFrom body i n) := by
  intro p
  refine Nat.le_trans (operations_forFrom h i n p) ?_
  exact rounds hn

theorem effort_loop {body : Nat → Reader α} {f : List α → Reader β} {i n c' k' : Nat}
    (h : ∀ i, Effort d B c' k' (body i)) (hB : 0 < B) (hn : n ≤ B) (hc : c' ≤ c) (hk : k ≥ k' + 1)
    (hf : ∀ xs, Effort d B (c - c') k (f xs)) : Effort d B c k (forFrom body i n >>= f) :=
  effort_bind (effort_forFrom h hn) hB hc hk fun _ xs _ _ => hf xs

/-- Elements that need not take any bytes, but not too many of them. -/
theorem effort_takeVec_few {r : Reader α} {n : Nat} (h : Effort d B c k r) (hn : n ≤ B) :
    Effort d B c (k + 1) (takeVec r n) := by
  have key : ∀ n p, (takeVec r n).operations d p ≤ n * (c * B ^ k) := by
    intro n
    induction n with
    | zero => exact fun _ => Nat.zero_le _
    | succ n ih =>
      intro p
      unfold takeVec
      rw [operations_bind, Nat.add_mul]
      have h1 := h p
      split
      · next a q _ =>
        have h2 := ih q
        rw [operations_bind]
        split
        · show _ + (_ + 0) ≤ _
          omega
        · omega
      · omega
  intro p
  refine Nat.le_trans (key n p) ?_
  exact rounds hn

theorem effort_few {r : Reader α} {f : List α → Reader β} {m n c' k' : Nat} [h : Costs r m c' k']
    (hB : d.length < B) (hm : m ≤ B) (hn : n ≤ B) (hc : c' ≤ c) (hk : k ≥ k' + 1)
    (hf : ∀ xs, Effort d B (c - c') k (f xs)) : Effort d B c k (takeVec r n >>= f) :=
  effort_bind (effort_takeVec_few (h.effort hB hm) hn) (by omega) hc hk fun _ xs _ _ => hf xs

theorem effort_jumpTake {r : Reader α} (h : Effort d B c k r) (hB : 0 < B) {base o : Nat} :
    Effort d B (c + 1) k (jumpTake base o r) := by
  unfold jumpTake
  refine effort_bind (c' := 0) (k' := 0) (fun _ => by rw [Free.free]; exact Nat.zero_le _) hB (by omega) (Nat.zero_le _)
    fun _ _ _ _ => ?_
  refine effort_bind (c' := 1) (k' := 0) (fun _ => by exact Nat.le_refl 1) hB (by omega) (Nat.zero_le _) fun _ _ _ _ => ?_
  exact h

theorem effort_jumpTakeMaybe {r : Reader α} (h : Effort d B c k r) (hB : 0 < B) {base o : Nat} :
    Effort d B (c + 1) k (jumpTakeMaybe base o r) := by
  unfold jumpTakeMaybe
  split
  · exact effort_bind (effort_jumpTake h hB) hB (Nat.le_refl _) (Nat.le_refl _) fun _ _ _ _ => effort_pure
  · exact effort_pure

instance {r : Reader α} {m base o : Nat} [h : Costs r m c k] : Costs (jumpTake base o r) m (c + 1) k :=
  ⟨fun hB hm => effort_jumpTake (h.effort hB hm) (by omega)⟩
instance {r : Reader α} {m base o : Nat} [h : Costs r m c k] : Costs (jumpTakeMaybe base o r) m (c + 1) k :=
  ⟨fun hB hm => effort_jumpTakeMaybe (h.effort hB hm) (by omega)⟩
instance {r : Reader α} {m : Nat} {b : Bool} [h : Costs r m c k] : Costs (takeIf b r) m c k := ⟨fun hB hm => by
  unfold takeIf
  split
  · exact effort_known hB hm (Nat.le_refl _) (Nat.le_refl _) fun _ => effort_pure
  · exact effort_pure⟩

/-- A loop over indices: past the end of the list it panics, which takes no operations. -/
theorem effort_indexed {os : List Nat} {g : Nat → Reader α} (h : ∀ o, Effort d B c k (g o)) {n : Nat} (_hB : 0 < B)
    (ho : os.length ≤ B) : Effort d B c (k + 1) (forFrom (fun i => index os i >>= g) 0 n) := by
  have key : ∀ n i p, (forFrom (fun i => index os i >>= g) i n).operations d p ≤ (os.length - i) * (c * B ^ k) := by
    intro n
    induction n with
    | zero => exact fun _ _ => Nat.zero_le _
    | succ n ih =>
      intro i p
      unfold forFrom
      have := Reader.lawful
      rw [bind_assoc]
      by_cases hi : i < os.length
      · have hx : index os i = pure os[i] := by unfold index; rw [List.getElem?_eq_getElem hi]
        rw [hx, pure_bind, operations_bind]
        have h1 := h os[i] p
        have h3 : (1 + (os.length - (i + 1))) * (c * B ^ k) ≤ (os.length - i) * (c * B ^ k) :=
          Nat.mul_le_mul_right _ (by omega)
        rw [Nat.add_mul] at h3
        split
        · next a q _ =>
          have h2 := ih (i + 1) q
          rw [operations_bind]
          split
          · show _ + (_ + 0) ≤ _
            omega
          · omega
        · omega
      · have hx : index os i = panicked "index out of bounds" := by
          unfold index
          rw [List.getElem?_eq_none (by omega)]
        rw [hx]
        exact Nat.zero_le _
  intro p
  refine Nat.le_trans (key n 0 p) ?_
  exact rounds (by omega)

theorem effort_offsets {r : Reader α} {f : List α → Reader β} {m n base c' k' : Nat} {os : List Nat} [h : Costs r m c' k']
    (hB : d.length < B) (hm : m ≤ B) (ho : os.length ≤ d.length) (hc : c' + 1 ≤ c) (hk : k ≥ k' + 1)
    (hf : ∀ xs, Effort d B (c - (c' + 1)) k (f xs)) : Effort d B c k (jumpTakeN base n os r >>= f) :=
  effort_bind (effort_indexed (fun _ => effort_jumpTake (h.effort hB hm) (by omega)) (by omega) (by omega)) (by omega)
    hc hk fun _ xs _ _ => hf xs

theorem effort_offsets_stay {r : Reader α} {f : List (Option α) → Reader β} {m n base c' k' : Nat} {os : List Nat}
    [h : Costs r m c' k'] (hB : d.length < B) (hm : m ≤ B) (ho : os.length ≤ d.length) (hc : c' + 3 ≤ c) (hk : k ≥ k' + 1)
    (hf : ∀ xs, Effort d B (c - (c' + 3)) k (f xs)) : Effort d B c k (stay (jumpTakeMaybeN base n os r) >>= f) :=
  effort_bind (effort_stay' (effort_indexed (fun _ => effort_jumpTakeMaybe (h.effort hB hm) (by omega)) (by omega)
    (by omega)) (by omega)) (by omega) hc hk fun _ xs _ _ => hf xs

theorem effort_offsets_stay_all {r : Reader α} {f : List α → Reader β} {m n base c' k' : Nat} {os : List Nat}
    [h : Costs r m c' k'] (hB : d.length < B) (hm : m ≤ B) (ho : os.length ≤ d.length) (hc : c' + 3 ≤ c) (hk : k ≥ k' + 1)
    (hf : ∀ xs, Effort d B (c - (c' + 3)) k (f xs)) : Effort d B c k (stay (jumpTakeN base n os r) >>= f) :=
  effort_bind (effort_stay' (effort_indexed (fun _ => effort_jumpTake (h.effort hB hm) (by omega)) (by omega)
    (by omega)) (by omega)) (by omega) hc hk fun _ xs _ _ => hf xs

theorem effort_offsets_maybe {r : Reader α} {f : List (Option α) → Reader β} {m n base c' k' : Nat} {os : List Nat}
    [h : Costs r m c' k'] (hB : d.length < B) (hm : m ≤ B) (ho : os.length ≤ d.length) (hc : c' + 1 ≤ c) (hk : k ≥ k' + 1)
    (hf : ∀ xs, Effort d B (c - (c' + 1)) k (f xs)) : Effort d B c k (jumpTakeMaybeN base n os r >>= f) :=
  effort_bind (effort_indexed (fun _ => effort_jumpTakeMaybe (h.effort hB hm) (by omega)) (by omega) (by omega)) (by omega)
    hc hk fun _ xs _ _ => hf xs

end

/-- One step of the analysis of a reader. -/
macro "effort_step" : tactic => `(tactic| with_reducible first
  | exact effort_raise
  | exact effort_pure
  | refine effort_u16 (by omega) ?_ fun _ _ => ?_
  | refine effort_vec ‹_› ?_ ?_ ?_ fun _ _ => ?_
  | refine effort_offsets ‹_› ?_ ?_ ?_ ?_ fun _ => ?_
  | refine effort_offsets_stay ‹_› ?_ ?_ ?_ ?_ fun _ => ?_
  | refine effort_offsets_stay_all ‹_› ?_ ?_ ?_ ?_ fun _ => ?_
  | refine effort_offsets_maybe ‹_› ?_ ?_ ?_ ?_ fun _ => ?_
  | refine effort_few ‹_› ?_ ?_ ?_ ?_ fun _ => ?_
  | refine effort_loop (fun _ => ?_) (by omega) ?_ ?_ ?_ fun _ => ?_
  | refine effort_known ‹_› ?_ ?_ ?_ fun _ => ?_
  | refine effort_leaf ‹_› ?_ ?_ ?_
  | dsimp only
  | split)

/-- Proves `Costs r m c k`. -/
macro "costs" r:ident : tactic =>
  `(tactic| (constructor; intro d B hB hm; unfold $r; (repeat' effort_step); all_goals first | (simp only [List.length_map]; omega) | omega | decide))

/-- Proves `Advances r`. -/
macro "advances" r:ident : tactic => `(tactic| (unfold $r; infer_instance))

end OpenType
