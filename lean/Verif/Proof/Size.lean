import Verif.Proof.WorkTables
/-!
# How much readers give for the work they do

`Earns K s r h`: when `r` succeeds with `v`, then `h v` is at most `s` and `K` times the number of operations of `r`.
-/

namespace OpenType
open Spec

/-- See above. -/
def Earns {α : Type} (K s : Nat) (r : Reader α) (h : α → Nat) : Prop :=
  ∀ d p v q, r d p = .ok (v, q) → h v ≤ s + K * r.operations d p

/-- The number of parts for each operation that is enough for tables other than GPOS. -/
class Large (K : Nat) : Prop where
  large : 3 ≤ K

instance : Large 3 := ⟨by decide⟩
instance : Large 8 := ⟨by decide⟩

/-- A reader that takes an operation for every `K` parts of what it gives and of one part more. -/
class Rich {α : Type} [Measured α] (K : Nat) (r : Reader α) : Prop where
  earns : Earns K 0 r (content · + 1)

/-- The same without the part more. -/
class Fair {α : Type} [Measured α] (K : Nat) (r : Reader α) : Prop where
  earns : Earns K 0 r content

/-- The same, but for one part. -/
class Nearly {α : Type} [Measured α] (K : Nat) (r : Reader α) : Prop where
  earns : Earns K 1 r content

/-- A reader of a number. -/
class Asks {α : Type} (r : Reader α) : Prop where
  asks : ∀ d p v q, r d p = .ok (v, q) → 1 ≤ r.operations d p

section
variable {α β : Type} {K s : Nat}

theorem earns_pure {a : α} {h : α → Nat} (hs : h a ≤ s) : Earns K s (pure a) h := by
  intro d p v q hr
  cases hr
  exact Nat.le_trans hs (Nat.le_add_right _ _)

theorem earns_fail {e : Err} {h : α → Nat} : Earns K s (.fail e : Reader α) h := by
  intro d p v q hr
  cases hr

theorem earns_raise {m : Message} {h : α → Nat} : Earns K s (raise m : Reader α) h := earns_fail

/-- Sequencing, when `K` times the operations of `r` are a number with the property `P`. -/
theorem earns_bind {P : α → Nat → Prop} {r : Reader α} {f : α → Reader β} {h : β → Nat}
    (hr : ∀ d p a q, r d p = .ok (a, q) → P a (K * r.operations d p))
    (hf : ∀ a n, P a n → Earns K (s + n) (f a) h) : Earns K s (r >>= f) h := by
  intro d p v q hv
  rw [run_bind_eq] at hv
  rw [operations_bind]
  cases e : r d p with
  | error _ => rw [e] at hv; cases hv
  | ok x =>
    obtain ⟨a, q'⟩ := x
    rw [e] at hv
    have := hf a _ (hr d p a q' e) d q' v q hv
    dsimp only
    rw [Nat.mul_add]
    omega

theorem earns_rich [Measured α] {r : Reader α} [hr : Rich K r] {f : α → Reader β} {h : β → Nat}
    (hf : ∀ a n, content a + 1 ≤ n → Earns K (s + n) (f a) h) : Earns K s (r >>= f) h :=
  earns_bind (P := fun a n => content a + 1 ≤ n) (fun d p a q e => by
    have := hr.earns d p a q e; dsimp only at this; omega) hf

theorem earns_more [Measured α] {e : Nat} {r : Reader α} (hr : Earns K 0 r (content · + e)) {f : α → Reader β} {h : β → Nat}
    (hf : ∀ a n, content a + e ≤ n → Earns K (s + n) (f a) h) : Earns K s (r >>= f) h :=
  earns_bind (P := fun a n => content a + e ≤ n) (fun d p a q e => by
    have := hr d p a q e; dsimp only at this; omega) hf

theorem earns_nearly [Measured α] {r : Reader α} [hr : Nearly K r] {f : α → Reader β} {h : β → Nat}
    (hf : ∀ a n, content a ≤ 1 + n → Earns K (s + n) (f a) h) : Earns K s (r >>= f) h :=
  earns_bind (P := fun a n => content a ≤ 1 + n) hr.earns hf

theorem earns_asks {r : Reader α} [hr : Asks r] {f : α → Reader β} {h : β → Nat}
    (hf : ∀ a n, K ≤ n → Earns K (s + n) (f a) h) : Earns K s (r >>= f) h :=
  earns_bind (P := fun _ n => K ≤ n) (fun d p a q e => Nat.le_mul_of_pos_right K (hr.asks d p a q e)) hf

theorem earns_last [Measured α] {r : Reader α} [hr : Rich K r] {h : α → Nat}
    (hf : ∀ a n, content a + 1 ≤ n → h a ≤ s + n) : Earns K s r h :=
  fun d p v q e => hf v _ (by have := hr.earns d p v q e; dsimp only at this; omega)

theorem earns_last_nearly [Measured α] {r : Reader α} [hr : Nearly K r] {h : α → Nat}
    (hf : ∀ a n, content a ≤ 1 + n → h a ≤ s + n) : Earns K s r h :=
  fun d p v q e => hf v _ (hr.earns d p v q e)

theorem earns_position {f : Nat → Reader β} {h : β → Nat} (hf : ∀ a, Earns K (s + K) (f a) h) :
    Earns K s (position >>= f) h :=
  earns_bind (P := fun _ n => n = K) (fun _ _ _ _ _ => Nat.mul_one K) fun a _ hn => hn ▸ hf a

theorem earns_jump {q : Nat} {f : Unit → Reader β} {h : β → Nat} (hf : Earns K (s + K) (f ()) h) :
    Earns K s (jump q >>= f) h :=
  earns_bind (P := fun _ n => n = K) (fun _ _ _ _ _ => Nat.mul_one K) fun _ _ hn => hn ▸ hf

theorem earns_free {r : Reader α} [hr : Free r] {f : α → Reader β} {h : β → Nat}
    (hf : ∀ a, Earns K s (f a) h) : Earns K s (r >>= f) h :=
  earns_bind (P := fun _ n => n = 0) (fun d p _ _ _ => by rw [hr.free, Nat.mul_zero]) fun a _ hn => hn ▸ hf a

/-- `stay` and `peek` take two operations more. -/
theorem earns_stay {P : α → Nat → Prop} {r : Reader α}
    (hr : ∀ d p a q, r d p = .ok (a, q) → P a (K * r.operations d p)) {f : α → Reader β} {h : β → Nat}
    (hf : ∀ a n, P a n → Earns K (s + (n + 2 * K)) (f a) h) : Earns K s (stay r >>= f) h := by
  refine earns_bind (P := fun a n => ∃ m, P a m ∧ n = m + 2 * K) ?_ ?_
  · intro d p a q e
    unfold stay at e ⊢
    rw [operations_bind]
    rw [run_bind_eq] at e
    simp only [show position d p = .ok (p, p) from rfl, run_bind_eq, operations_bind] at e ⊢
    cases e' : r d p with
    | error _ => rw [e'] at e; cases e
    | ok x =>
      obtain ⟨a', q'⟩ := x
      rw [e'] at e
      cases e
      exact ⟨_, hr d p _ _ e', by
        simp only [show position.operations d p = 1 from rfl, show (jump p).operations d q' = 1 from rfl,
          show jump p d q' = .ok ((), p) from rfl]
        show K * (1 + (_ + (1 + 0))) = _
        rw [Nat.mul_add, Nat.mul_add]
        omega⟩
  · rintro a _ ⟨m, hm, rfl⟩
    exact hf a m hm

theorem earns_stay_nearly [Measured α] {r : Reader α} [hr : Nearly K r] {f : α → Reader β} {h : β → Nat}
    (hf : ∀ a n, content a ≤ 1 + n → Earns K (s + (n + 2 * K)) (f a) h) : Earns K s (stay r >>= f) h :=
  earns_stay (P := fun a n => content a ≤ 1 + n) hr.earns hf

theorem earns_stay_any {r : Reader α} {f : α → Reader β} {h : β → Nat}
    (hf : ∀ a, Earns K (s + 2 * K) (f a) h) : Earns K s (stay r >>= f) h :=
  earns_stay (P := fun _ _ => True) (fun _ _ _ _ _ => trivial) fun a n _ d p v q e => by
    have := hf a d p v q e; omega

theorem earns_peek {r : Reader α} {f : α → Reader β} {h : β → Nat}
    (hf : ∀ a, Earns K (s + 2 * K) (f a) h) : Earns K s (peek r >>= f) h := earns_stay_any hf

instance : Asks u8 := ⟨fun d p v q _ => by unfold u8; rw [operations_fetch]; exact Nat.le_refl 1⟩
instance : Asks u16 := ⟨fun d p v q _ => by unfold u16; rw [operations_fetch]; exact Nat.le_refl 1⟩
instance : Asks u32 := ⟨fun d p v q _ => by unfold u32; rw [operations_fetch]; exact Nat.le_refl 1⟩
theorem asks_bind {r : Reader α} [hr : Asks r] {f : α → Reader β} : Asks (r >>= f) := ⟨fun d p v q e => by
  rw [run_bind_eq] at e
  rw [operations_bind]
  cases e' : r d p with
  | error _ => rw [e'] at e; cases e
  | ok x => exact Nat.le_trans (hr.asks d p x.1 x.2 e') (Nat.le_add_right _ _)⟩
instance : Asks i16 := by unfold i16; exact asks_bind
instance : Asks q32 := by unfold q32; exact asks_bind
instance : Asks takeTag := inferInstanceAs (Asks u32)
instance {x : Nat} : Asks (expectU16 x) := by unfold expectU16; exact asks_bind
instance {cfg : Cfg} {x : Nat} : Asks (flagsU16 cfg x) := by unfold flagsU16; exact asks_bind

instance (priority := low) [Measured α] {r : Reader α} [h : Rich K r] : Fair K r :=
  ⟨fun d p v q e => by have := h.earns d p v q e; dsimp only at this; omega⟩

instance [Large K] {r : Reader Nat} [hr : Asks r] : Fair K r := ⟨fun d p v q e => by
  have h1 := hr.asks d p v q e
  have h2 := Large.large (K := K)
  have := Nat.mul_le_mul h2 h1
  show 1 ≤ _
  omega⟩

instance [Large K] {r : Reader Int} [hr : Asks r] : Fair K r := ⟨fun d p v q e => by
  have h1 := hr.asks d p v q e
  have h2 := Large.large (K := K)
  have := Nat.mul_le_mul h2 h1
  show 1 ≤ _
  omega⟩

theorem earns_fair [Measured α] {r : Reader α} [hr : Fair K r] {f : α → Reader β} {h : β → Nat}
    (hf : ∀ a n, content a ≤ n → Earns K (s + n) (f a) h) : Earns K s (r >>= f) h :=
  earns_bind (P := fun a n => content a ≤ n) (fun d p a q e => by
    have := hr.earns d p a q e; omega) hf

instance [Measured α] {r : Reader α} {n : Nat} [hr : Fair K r] : Nearly K (takeVec r n) := ⟨by
  induction n with
  | zero => exact earns_pure (by simp)
  | succ n ih =>
    refine earns_fair fun a n hn => ?_
    refine earns_bind (P := fun a n => content a ≤ 1 + n) ih fun as m hm => ?_
    exact earns_pure (by rw [content_cons]; omega)⟩

instance [Large K] {n : Nat} : Nearly K (takeBytes n) := inferInstanceAs (Nearly K (takeVec u8 n))

/-- A loop whose body earns what it gives. -/
theorem nearly_forFrom [Measured α] {body : Nat → Reader α} (h : ∀ i, Earns K 0 (body i) content) {i n : Nat} :
    Nearly K (forFrom body i n) := ⟨by
  induction n generalizing i with
  | zero => exact earns_pure (by simp)
  | succ n ih =>
    refine earns_bind (P := fun a n => content a ≤ n)
      (fun d p a q e => by have := h i d p a q e; omega) fun a n hn => ?_
    refine earns_bind (P := fun a n => content a ≤ 1 + n) ih fun as m hm => ?_
    exact earns_pure (by rw [content_cons]; omega)⟩

theorem earns_jumpTake [Measured α] {r : Reader α} [hr : Fair K r] {base o : Nat} :
    Earns K 0 (jumpTake base o r) (content · + K) := by
  refine earns_free fun _ => earns_jump fun d p v q e => ?_
  have := hr.earns d p v q e
  show content v + K ≤ _
  omega

instance [Measured α] [Large K] {r : Reader α} [Fair K r] {base o : Nat} : Nearly K (jumpTakeMaybe base o r) := ⟨by
  unfold jumpTakeMaybe
  split
  · exact earns_bind (P := fun a n => content a + K ≤ n)
      (fun d p a q e => by have := earns_jumpTake (K := K) d p a q e; dsimp only at this; omega)
      fun a n hn => earns_pure (by rw [content_some]; omega)
  · exact earns_pure (by simp)⟩

instance [Measured α] {r : Reader α} [Fair K r] {base n : Nat} {os : List Nat} : Nearly K (jumpTakeN base n os r) :=
  nearly_forFrom fun _ => earns_free fun _ d p v q e => by
    have := earns_jumpTake (K := K) d p v q e; dsimp only at this; omega

instance [Measured α] [Large K] {r : Reader α} {c : Bool} [hr : Rich K r] : Nearly K (takeIf c r) := ⟨by
  unfold takeIf
  split
  · exact earns_rich fun a n hn => earns_pure (by rw [content_some]; omega)
  · exact earns_pure (by simp)⟩

instance [Large K] {r : Reader Nat} {c : Bool} [hr : Asks r] : Nearly K (takeIf c r) := ⟨by
  have := Large.large (K := K)
  unfold takeIf
  split
  · exact earns_asks fun a n hn => earns_pure (by rw [content_some]; show 1 + 1 ≤ _; omega)
  · exact earns_pure (by simp)⟩

instance [Large K] {r : Reader Int} {c : Bool} [hr : Asks r] : Nearly K (takeIf c r) := ⟨by
  have := Large.large (K := K)
  unfold takeIf
  split
  · exact earns_asks fun a n hn => earns_pure (by rw [content_some]; show 1 + 1 ≤ _; omega)
  · exact earns_pure (by simp)⟩

theorem earns_forFrom_bind [Measured α] {body : Nat → Reader α} {i n : Nat}
    {f : List α → Reader β} {h : β → Nat} (hb : ∀ i, Earns K 0 (body i) content)
    (hf : ∀ a n, content a ≤ 1 + n → Earns K (s + n) (f a) h) : Earns K s (forFrom body i n >>= f) h :=
  have := nearly_forFrom hb (i := i) (n := n)
  earns_nearly hf

theorem earns_jumpTake_bind [Measured α] {r : Reader α} [hr : Fair K r] {base o : Nat} {f : α → Reader β}
    {h : β → Nat} (hf : ∀ a n, content a + K ≤ n → Earns K (s + n) (f a) h) :
    Earns K s (jumpTake base o r >>= f) h :=
  earns_bind (P := fun a n => content a + K ≤ n)
    (fun d p a q e => by have := earns_jumpTake (K := K) d p a q e; dsimp only at this; omega) hf

theorem earns_jumpTake_nearly [Measured α] {r : Reader α} [hr : Nearly K r] {base o : Nat} {f : α → Reader β}
    {h : β → Nat} (hf : ∀ a n, content a + K ≤ 1 + n → Earns K (s + n) (f a) h) :
    Earns K s (jumpTake base o r >>= f) h :=
  earns_bind (P := fun a n => content a + K ≤ 1 + n) (fun d p a q e => by
    have key : Earns K 1 (jumpTake base o r) (content · + K) := by
      refine earns_free fun _ => earns_jump fun d p v q e => ?_
      have := hr.earns d p v q e
      show content v + K ≤ _
      omega
    exact key d p a q e) hf

theorem words_given (n : Nat) (d : Data) (p : Nat) (a : List Nat) (q : Nat) (e : takeVec u16 n d p = .ok (a, q)) :
    content a = 1 + n ∧ n ≤ (takeVec u16 n).operations d p := by
  induction n generalizing p a with
  | zero => cases e; exact ⟨rfl, Nat.zero_le _⟩
  | succ n ih =>
    unfold takeVec at e ⊢
    rw [run_bind_eq] at e
    rw [operations_bind]
    cases e' : u16 d p with
    | error _ => rw [e'] at e; cases e
    | ok x =>
      obtain ⟨w, q'⟩ := x
      have h0 := Asks.asks (r := u16) d p w q' e'
      rw [e'] at e
      dsimp only at e ⊢
      rw [run_bind_eq] at e
      rw [operations_bind]
      cases e'' : takeVec u16 n d q' with
      | error _ => rw [e''] at e; cases e
      | ok y =>
        obtain ⟨ws, q''⟩ := y
        rw [e''] at e
        cases e
        obtain ⟨h1, h2⟩ := ih q' ws e''
        refine ⟨?_, by dsimp only; omega⟩
        rw [content_cons, h1]
        show 1 + (1 + n) = _
        omega

/-- A row of numbers. -/
theorem earns_words {n : Nat} {f : List Nat → Reader β} {h : β → Nat}
    (hf : ∀ a m, content a = 1 + n ∧ 3 * n ≤ m → Earns K (s + m) (f a) h) [Large K] :
    Earns K s (takeVec u16 n >>= f) h :=
  earns_bind (P := fun a m => content a = 1 + n ∧ 3 * n ≤ m)
    (fun d p a q e => ⟨(words_given n d p a q e).1, Nat.mul_le_mul Large.large (words_given n d p a q e).2⟩)
    hf

/-- A row of optional parts. -/
theorem earns_options [Measured α] {r : Reader α} [Large K] [Fair K r] {base n : Nat} {os : List Nat} :
    Earns K (1 + n) (jumpTakeMaybeN base n os r) content := by
  unfold jumpTakeMaybeN
  generalize 0 = i
  induction n generalizing i with
  | zero => exact earns_pure (by simp)
  | succ n ih =>
    refine earns_bind (P := fun a m => content a ≤ 1 + m) (fun d p a q e => ?_) fun a m hm => ?_
    · have : Earns K 1 (do let offset ← index os i; jumpTakeMaybe base offset r) content :=
        earns_free fun _ => Nearly.earns
      exact this d p a q e
    · refine earns_bind (P := fun a m => content a ≤ 1 + n + m) (ih (i + 1)) fun as k hk => ?_
      exact earns_pure (by rw [content_cons]; omega)

theorem earns_options_bind [Measured α] {r : Reader α} [Large K] [Fair K r] {base n : Nat} {os : List Nat}
    {f : List (Option α) → Reader β} {h : β → Nat}
    (hf : ∀ a m, content a ≤ 1 + n + m → Earns K (s + m) (f a) h) :
    Earns K s (jumpTakeMaybeN base n os r >>= f) h :=
  earns_bind (P := fun a m => content a ≤ 1 + n + m) earns_options hf

theorem earns_stay_options [Measured α] {r : Reader α} [Large K] [Fair K r] {base n : Nat} {os : List Nat}
    {f : List (Option α) → Reader β} {h : β → Nat}
    (hf : ∀ a m, content a ≤ 1 + n + m → Earns K (s + (m + 2 * K)) (f a) h) :
    Earns K s (stay (jumpTakeMaybeN base n os r) >>= f) h :=
  earns_stay (P := fun a m => content a ≤ 1 + n + m) earns_options hf

theorem fair_of [Measured α] [Large K] {r : Reader α} (h : 3 ≤ K → Earns K 0 r content) : Fair K r :=
  ⟨h Large.large⟩

theorem nearly_of [Measured α] [Large K] {r : Reader α} (h : 3 ≤ K → Earns K 1 r content) : Nearly K r :=
  ⟨h Large.large⟩

theorem rich_of [Measured α] [Large K] {r : Reader α} (h : 3 ≤ K → Earns K 0 r (content · + 1)) : Rich K r :=
  ⟨h Large.large⟩

end

/-- One step of the analysis of a reader. -/
macro "rich_step" : tactic => `(tactic| with_reducible first
  | exact earns_raise
  | refine earns_position fun _ => ?_
  | refine earns_peek fun _ => ?_
  | refine earns_jump ?_
  | refine earns_free fun _ => ?_
  | refine earns_asks fun _ _ _ => ?_
  | refine earns_forFrom_bind (fun _ => ?_) fun _ _ _ => ?_
  | refine earns_words fun _ _ _ => ?_
  | refine earns_options_bind fun _ _ _ => ?_
  | refine earns_stay_options fun _ _ _ => ?_
  | refine earns_jumpTake_bind fun _ _ _ => ?_
  | refine earns_jumpTake_nearly fun _ _ _ => ?_
  | refine earns_stay_nearly fun _ _ _ => ?_
  | refine earns_rich fun _ _ _ => ?_
  | refine earns_fair fun _ _ _ => ?_
  | refine earns_nearly fun _ _ _ => ?_
  | refine earns_pure ?_
  | refine earns_last fun _ _ _ => ?_
  | refine earns_last_nearly fun _ _ _ => ?_
  | dsimp only
  | split)

/-- Proves `Rich K r`. -/
macro "rich" r:ident : tactic =>
  `(tactic| (refine rich_of fun _ => ?_; unfold $r; (repeat' rich_step); all_goals ((try simp at *) <;> omega)))

/-- Proves `Fair K r`. -/
macro "fair" r:ident : tactic =>
  `(tactic| (refine fair_of fun _ => ?_; unfold $r; (repeat' rich_step); all_goals ((try simp at *) <;> omega)))

/-- Proves `Nearly K r`. -/
macro "nearly" r:ident : tactic =>
  `(tactic| (refine nearly_of fun _ => ?_; unfold $r; (repeat' rich_step); all_goals ((try simp at *) <;> omega)))

end OpenType
