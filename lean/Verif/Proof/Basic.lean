import Verif.Proof.Run
import Verif.Spec.Basic
/-!
# The calculus relating readers to byte layouts

`Fixed r S size`: `r` succeeds exactly on the values `S` describes and moves by `size` bytes.
`Parses r S`: `r` succeeds exactly on the values `S` describes, wherever it stops.
Both are classes so that a reader built from other readers is analysed by rewriting.
-/

namespace OpenType
open Spec

/-- The tape is shorter than `2^63` bytes (a file offset is an `i64`, a `Vec` is at most `isize::MAX`
bytes long). -/
def Fits (d : Data) : Prop := d.length < 2 ^ 63

/-- Reading at position `p` succeeds with `v`. -/
def Reads {α : Type} (r : Reader α) (d : Data) (p : Nat) (v : α) : Prop := ∃ q, r d p = .ok (v, q)

section run
variable {α β : Type} {d : Data} {p q : Nat}

@[simp] theorem run_pure {a v : α} : (pure a : Reader α) d p = .ok (v, q) ↔ v = a ∧ q = p := by
  show Except.ok (a, p) = .ok (v, q) ↔ _
  simp [eq_comm]

theorem run_bind {r : Reader α} {f : α → Reader β} {v : β} :
    (r >>= f) d p = .ok (v, q) ↔ ∃ a m, r d p = .ok (a, m) ∧ f a d m = .ok (v, q) := by
  rw [run_bind_eq]
  cases h : r d p with
  | error e => simp
  | ok x =>
    obtain ⟨a, m⟩ := x
    constructor
    · intro h'; exact ⟨a, m, rfl, h'⟩
    · rintro ⟨_, _, h', h''⟩; cases h'; exact h''

@[simp] theorem run_raise {m : Message} {v : α} : raise m d p = .ok (v, q) ↔ False := by
  simp [raise, Reader.run]

@[simp] theorem run_panicked {m : String} {v : α} : panicked m d p = .ok (v, q) ↔ False := by
  simp [panicked, Reader.run]

theorem run_raiseIf {c : Prop} [Decidable c] {m : Message} {v : Unit} :
    raiseIf c m d p = .ok (v, q) ↔ ¬c ∧ q = p := by
  unfold raiseIf; split <;> simp_all

theorem run_stay {r : Reader α} {v : α} : stay r d p = .ok (v, q) ↔ Reads r d p v ∧ q = p := by
  unfold Reads
  rw [run_stay_eq]
  cases h : r d p with
  | error e => simp
  | ok x => obtain ⟨a, m⟩ := x; simp [eq_comm]

theorem run_addU64 {a b n : Nat} :
    addU64 a b d p = .ok (n, q) ↔ a + b < 2 ^ 64 ∧ n = a + b ∧ q = p := by
  unfold addU64
  split
  · rename_i h; simp only [run_pure, h, true_and]
  · rename_i h; simp only [run_panicked, h, false_and]

theorem run_jumpTake {b o : Nat} {r : Reader α} {v : α} :
    jumpTake b o r d p = .ok (v, q) ↔ b + o < 2 ^ 64 ∧ r d (b + o) = .ok (v, q) := by
  simp only [jumpTake, run_bind, run_addU64, jump]
  constructor
  · rintro ⟨_, _, ⟨h, rfl, rfl⟩, _, _, h', h''⟩
    cases h'; exact ⟨h, h''⟩
  · rintro ⟨h, h'⟩; exact ⟨_, _, ⟨h, rfl, rfl⟩, _, _, rfl, h'⟩

end run

/-! ## Bytes -/

section bytes
variable {d : Data} {p : Nat}

theorem Spec.U8.lt {n} (h : U8 d p n) : n < 256 := by
  obtain ⟨a, _, rfl⟩ := h; exact a.toNat_lt

theorem Spec.U8.bound {n} (h : U8 d p n) : p < d.length := by
  obtain ⟨a, h, _⟩ := h; exact (List.getElem?_eq_some_iff.mp h).1

theorem Spec.U16.lt {n} (h : U16 d p n) : n < 65536 := by
  obtain ⟨a, b, ha, hb, rfl⟩ := h; have := ha.lt; have := hb.lt; omega

theorem Spec.U16.bound' {n} (h : U16 d p n) : p + 1 < d.length := by
  obtain ⟨a, b, ha, hb, rfl⟩ := h; exact hb.bound

theorem Spec.U16.bound {n} (h : U16 d p n) : p < d.length := by have := h.bound'; omega

theorem Spec.U32.lt {n} (h : U32 d p n) : n < 4294967296 := by
  obtain ⟨a, b, ha, hb, rfl⟩ := h; have := ha.lt; have := hb.lt; omega

theorem Spec.U32.bound' {n} (h : U32 d p n) : p + 3 < d.length := by
  obtain ⟨a, b, ha, hb, rfl⟩ := h; have := hb.bound'; omega

theorem Spec.U32.bound {n} (h : U32 d p n) : p < d.length := by have := h.bound'; omega

theorem Spec.I16.bound {n} (h : I16 d p n) : p < d.length := h.2.2.bound

theorem Spec.I32.bound {n} (h : I32 d p n) : p < d.length := h.2.2.bound

theorem Spec.U8.unique {m n} (h : U8 d p m) (h' : U8 d p n) : m = n := by
  obtain ⟨a, h, rfl⟩ := h; obtain ⟨b, h', rfl⟩ := h'
  rw [h] at h'; cases h'; rfl

theorem Spec.U16.unique {m n} (h : U16 d p m) (h' : U16 d p n) : m = n := by
  obtain ⟨a, b, h1, h2, rfl⟩ := h; obtain ⟨a', b', h1', h2', rfl⟩ := h'
  rw [h1.unique h1', h2.unique h2']

theorem Spec.U32.unique {m n} (h : U32 d p m) (h' : U32 d p n) : m = n := by
  obtain ⟨a, b, h1, h2, rfl⟩ := h; obtain ⟨a', b', h1', h2', rfl⟩ := h'
  rw [h1.unique h1', h2.unique h2']

end bytes

/-! ## Readers of a fixed size -/

/-- `r` succeeds exactly when `S` describes a value at the position, returns that value, and moves by
`size` bytes. -/
class Fixed {α : Type} (r : Reader α) (S : outParam (Data → Nat → α → Prop))
    (size : outParam Nat) : Prop where
  run : ∀ {d p v q}, Fits d → (r d p = .ok (v, q) ↔ S d p v ∧ q = p + size)

/-- `r` succeeds exactly when `S` describes a value at the position, and returns that value. What `S`
describes lies within the tape. -/
class Parses {α : Type} (r : Reader α) (S : outParam (Data → Nat → α → Prop)) : Prop where
  reads : ∀ {d p v}, Fits d → (Reads r d p v ↔ S d p v)
  bound : ∀ {d p v}, S d p v → p < d.length

instance : Fixed u8 U8 1 where
  run := by
    intro d p v q _
    rw [run_u8]
    unfold U8
    cases h : d[p]? <;> simp [eq_comm]

instance : Fixed u16 U16 2 where
  run := by
    intro d p v q _
    rw [run_u16]
    unfold U16 U8
    cases h : d[p]? with
    | none => simp
    | some a =>
      cases h' : d[p + 1]? with
      | none => simp
      | some b => simp [eq_comm, Nat.mul_comm]

instance : Fixed u32 U32 4 where
  run := by
    intro d p v q _
    rw [run_u32]
    unfold U32 U16 U8
    cases h : d[p]? with
    | none => simp
    | some a =>
      cases h' : d[p + 1]? with
      | none => simp
      | some b =>
        cases h'' : d[p + 2]? with
        | none => simp
        | some c =>
          cases h''' : d[p + 3]? with
          | none => simp
          | some e =>
            simp [eq_comm]
            intro _
            constructor
            · rintro rfl; omega
            · rintro rfl; omega

instance : Fixed takeTag U32 4 := inferInstanceAs (Fixed u32 U32 4)

instance : Fixed i16 I16 2 where
  run := by
    intro d p v q hd
    simp only [i16, run_bind, Fixed.run hd, run_pure]
    constructor
    · rintro ⟨n, _, ⟨h, rfl⟩, rfl, rfl⟩
      have := h.lt
      refine ⟨?_, rfl⟩
      unfold I16 signed
      split
      · refine ⟨by omega, by omega, ?_⟩
        have : ((n : Int) % 65536).toNat = n := by omega
        rwa [this]
      · refine ⟨by omega, by omega, ?_⟩
        have : (((n : Int) - 2 ^ 16) % 65536).toNat = n := by omega
        rwa [this]
    · rintro ⟨⟨h1, h2, h⟩, rfl⟩
      refine ⟨_, _, ⟨h, rfl⟩, ?_, rfl⟩
      unfold signed
      split <;> omega

instance : Fixed q32 I32 4 where
  run := by
    intro d p v q hd
    simp only [q32, run_bind, Fixed.run hd, run_pure]
    constructor
    · rintro ⟨n, _, ⟨h, rfl⟩, rfl, rfl⟩
      have := h.lt
      refine ⟨?_, rfl⟩
      unfold I32 signed
      split
      · refine ⟨by omega, by omega, ?_⟩
        have : ((n : Int) % 4294967296).toNat = n := by omega
        rwa [this]
      · refine ⟨by omega, by omega, ?_⟩
        have : (((n : Int) - 2 ^ 32) % 4294967296).toNat = n := by omega
        rwa [this]
    · rintro ⟨⟨h1, h2, h⟩, rfl⟩
      refine ⟨_, _, ⟨h, rfl⟩, ?_, rfl⟩
      unfold signed
      split <;> omega

theorem arrayOf_succ {α : Type} {S : Nat → α → Prop} {k p n : Nat} {xs : List α} :
    ArrayOf S k p (n + 1) xs ↔ ∃ y ys, xs = y :: ys ∧ S p y ∧ ArrayOf S k (p + k) n ys := by
  unfold ArrayOf
  constructor
  · rintro ⟨hl, h⟩
    cases xs with
    | nil => simp at hl
    | cons y ys =>
      refine ⟨y, ys, rfl, by simpa using h 0 y rfl, by simpa using hl, ?_⟩
      intro i x hx
      have := h (i + 1) x (by simpa using hx)
      rwa [Nat.mul_add, Nat.mul_one, Nat.add_comm (k * i), ← Nat.add_assoc] at this
  · rintro ⟨y, ys, rfl, h0, hl, h⟩
    refine ⟨by simp [hl], ?_⟩
    intro i x hx
    cases i with
    | zero => simp at hx; subst hx; simpa using h0
    | succ i =>
      have := h i x (by simpa using hx)
      rwa [Nat.mul_add, Nat.mul_one, Nat.add_comm (k * i), ← Nat.add_assoc]

@[simp] theorem arrayOf_zero {α : Type} {S : Nat → α → Prop} {k p : Nat} {xs : List α} :
    ArrayOf S k p 0 xs ↔ xs = [] := by
  unfold ArrayOf
  constructor
  · rintro ⟨h, _⟩; simpa using h
  · rintro rfl; simp

instance {α : Type} {r : Reader α} {S size} [h : Fixed r S size] {n : Nat} :
    Fixed (takeVec r n) (fun d p xs => ArrayOf (S d) size p n xs) (size * n) where
  run := by
    intro d p v q hd
    induction n generalizing p v q with
    | zero => simp [takeVec]
    | succ n ih =>
      simp only [takeVec, run_bind, h.run hd, ih, run_pure, arrayOf_succ]
      constructor
      · rintro ⟨a, _, ⟨h, rfl⟩, xs, _, ⟨h', rfl⟩, rfl, rfl⟩
        exact ⟨⟨_, _, rfl, h, h'⟩, by rw [Nat.mul_add]; omega⟩
      · rintro ⟨⟨y, ys, rfl, h, h'⟩, rfl⟩
        exact ⟨_, _, ⟨h, rfl⟩, _, _, ⟨h', rfl⟩, rfl, by rw [Nat.mul_add]; omega⟩

instance {n : Nat} : Fixed (expectU16 n) (fun d p x => U16 d p x ∧ x = n) 2 where
  run := by
    intro d p v q hd
    simp only [expectU16, run_bind, Fixed.run hd, run_pure, run_raiseIf]
    constructor
    · rintro ⟨a, _, ⟨h, rfl⟩, _, _, ⟨h', rfl⟩, rfl, rfl⟩
      exact ⟨⟨h, by simpa using h'⟩, rfl⟩
    · rintro ⟨⟨h, rfl⟩, rfl⟩
      exact ⟨_, _, ⟨h, rfl⟩, (), _, ⟨by simp, rfl⟩, rfl, rfl⟩

instance {cfg : Cfg} {m : Nat} : Fixed (flagsU16 cfg m) (fun d p x => U16 d p x ∧ FlagsOk cfg m x) 2 where
  run := by
    intro d p v q hd
    simp only [flagsU16, run_bind, Fixed.run hd, run_pure, run_raiseIf]
    constructor
    · rintro ⟨a, _, ⟨h, rfl⟩, _, _, ⟨h', rfl⟩, rfl, rfl⟩
      exact ⟨⟨h, by simpa [flag, FlagsOk] using h'⟩, rfl⟩
    · rintro ⟨⟨h, h'⟩, rfl⟩
      exact ⟨_, _, ⟨h, rfl⟩, (), _, ⟨by simpa [flag, FlagsOk] using h', rfl⟩, rfl, rfl⟩

/-- A value that is present exactly when `b` holds. -/
def TakenIf {α : Type} (b : Bool) (S : α → Prop) (x : Option α) : Prop :=
  match b, x with
  | true, some v => S v
  | false, none => True
  | _, _ => False

instance {α : Type} {r : Reader α} {S size} [h : Fixed r S size] {b : Bool} :
    Fixed (takeIf b r) (fun d p x => TakenIf b (S d p) x) (if b then size else 0) where
  run := by
    intro d p v q hd
    unfold takeIf TakenIf
    cases b
    · cases v <;> simp
    · cases v <;> simp [run_bind, h.run hd]

/-- `r` succeeds exactly when `S` describes a value at the position, and returns that value. -/
class Gives {α : Type} (r : Reader α) (S : outParam (Data → Nat → α → Prop)) : Prop where
  reads : ∀ {d p v}, Fits d → (Reads r d p v ↔ S d p v)

instance {α : Type} {r : Reader α} {S} [h : Parses r S] : Gives r S := ⟨h.reads⟩

instance {α : Type} {r : Reader α} {S} [h : Gives r S] : Fixed (stay r) S 0 where
  run := by
    intro d p v q hd
    rw [run_stay, h.reads hd]; rfl

/-! ## Rewriting `Reads` -/

/-- Results that do not depend on the starting position. -/
class Indep {α : Type} (r : Reader α) : Prop where
  indep : ∀ {d p p' v}, Reads r d p v → Reads r d p' v

section reads
variable {α β : Type} {d : Data} {p : Nat}

theorem reads_pure {a v : α} : Reads (pure a) d p v ↔ v = a := by simp [Reads]

theorem reads_raise {m : Message} {v : α} : Reads (raise m) d p v ↔ False := by simp [Reads]

theorem reads_fixed {r : Reader α} {S size} [h : Fixed r S size] (hd : Fits d) {v} :
    Reads r d p v ↔ S d p v := by simp [Reads, h.run hd]

theorem reads_bind_fixed {r : Reader α} {S size} [h : Fixed r S size] (hd : Fits d)
    {f : α → Reader β} {v : β} :
    Reads (r >>= f) d p v ↔ ∃ a, S d p a ∧ Reads (f a) d (p + size) v := by
  simp only [Reads, run_bind, h.run hd]
  constructor
  · rintro ⟨q, a, _, ⟨h, rfl⟩, h'⟩; exact ⟨a, h, q, h'⟩
  · rintro ⟨a, h, q, h'⟩; exact ⟨q, a, _, ⟨h, rfl⟩, h'⟩

theorem reads_bind_position {f : Nat → Reader β} {v : β} :
    Reads (position >>= f) d p v ↔ Reads (f p) d p v := by
  simp only [Reads, run_bind, position]
  constructor
  · rintro ⟨q, _, _, h, h'⟩; cases h; exact ⟨q, h'⟩
  · rintro ⟨q, h⟩; exact ⟨q, _, _, rfl, h⟩

theorem reads_bind_raiseIf {c : Prop} [Decidable c] {m : Message} {f : Unit → Reader β} {v : β} :
    Reads (raiseIf c m >>= f) d p v ↔ ¬c ∧ Reads (f ()) d p v := by
  simp only [Reads, run_bind, run_raiseIf]
  constructor
  · rintro ⟨q, _, _, ⟨h, rfl⟩, h'⟩; exact ⟨h, q, h'⟩
  · rintro ⟨h, q, h'⟩; exact ⟨q, (), _, ⟨h, rfl⟩, h'⟩

theorem reads_bind_subUint {a b : Nat} {f : Nat → Reader β} {v : β} :
    Reads (subUint a b >>= f) d p v ↔ b ≤ a ∧ Reads (f (a - b)) d p v := by
  by_cases h : b ≤ a
  · have e : subUint a b = pure (a - b) := if_pos h
    rw [e]
    exact (and_iff_right h).symm
  · have e : subUint a b = panicked _ := if_neg h
    rw [e]
    exact ⟨fun ⟨_, h'⟩ => (nomatch h'), fun h' => absurd h'.1 h⟩

theorem reads_bind_addUsize {a b : Nat} {f : Nat → Reader β} {v : β} :
    Reads (addUsize a b >>= f) d p v ↔ a + b < 2 ^ 32 ∧ Reads (f (a + b)) d p v := by
  by_cases h : a + b < 2 ^ 32
  · have e : addUsize a b = pure (a + b) := if_pos h
    rw [e]
    exact (and_iff_right h).symm
  · have e : addUsize a b = panicked _ := if_neg h
    rw [e]
    exact ⟨fun ⟨_, h'⟩ => (nomatch h'), fun h' => absurd h'.1 h⟩

theorem reads_bind_mulUsize {a b : Nat} {f : Nat → Reader β} {v : β} :
    Reads (mulUsize a b >>= f) d p v ↔ a * b < 2 ^ 32 ∧ Reads (f (a * b)) d p v := by
  by_cases h : a * b < 2 ^ 32
  · have e : mulUsize a b = pure (a * b) := if_pos h
    rw [e]
    exact (and_iff_right h).symm
  · have e : mulUsize a b = panicked _ := if_neg h
    rw [e]
    exact ⟨fun ⟨_, h'⟩ => (nomatch h'), fun h' => absurd h'.1 h⟩

theorem reads_bind_peek {r : Reader α} {S size} [h : Fixed r S size] (hd : Fits d)
    {f : α → Reader β} {v : β} :
    Reads (peek r >>= f) d p v ↔ ∃ a, S d p a ∧ Reads (f a) d p v := by
  simp only [Reads, run_bind, peek, run_stay, h.run hd]
  constructor
  · rintro ⟨q, a, _, ⟨⟨_, h, _⟩, rfl⟩, h'⟩; exact ⟨a, h, q, h'⟩
  · rintro ⟨a, h, q, h'⟩; exact ⟨q, a, _, ⟨⟨_, h, rfl⟩, rfl⟩, h'⟩

theorem reads_bind_indep {r : Reader α} {f : α → Reader β} [h : ∀ a, Indep (f a)] {v : β} :
    Reads (r >>= f) d p v ↔ ∃ a, Reads r d p a ∧ Reads (f a) d 0 v := by
  constructor
  · rintro ⟨q, h'⟩
    obtain ⟨a, m, h1, h2⟩ := run_bind.mp h'
    exact ⟨a, ⟨m, h1⟩, (h a).indep ⟨q, h2⟩⟩
  · rintro ⟨a, ⟨m, h1⟩, h2⟩
    obtain ⟨q, h3⟩ := (h a).indep (p' := m) h2
    exact ⟨q, run_bind.mpr ⟨a, m, h1, h3⟩⟩

theorem reads_parses {r : Reader α} {S} [h : Parses r S] (hd : Fits d) {v} :
    Reads r d p v ↔ S d p v := h.reads hd

theorem reads_jumpTake {r : Reader α} {S} [h : Parses r S] (hd : Fits d) {b o : Nat} {v} :
    Reads (jumpTake b o r) d p v ↔ S d (b + o) v := by
  rw [← h.reads hd]
  simp only [Reads, run_jumpTake]
  constructor
  · rintro ⟨q, _, h⟩; exact ⟨q, h⟩
  · rintro ⟨q, hq⟩
    have := h.bound ((h.reads hd).mp ⟨q, hq⟩)
    unfold Fits at hd
    exact ⟨q, by omega, hq⟩

theorem reads_jumpTakeMaybe {r : Reader α} {S} [h : Parses r S] (hd : Fits d) {b o : Nat} {v} :
    Reads (jumpTakeMaybe b o r) d p v ↔ Optional (S d) b o v := by
  unfold jumpTakeMaybe Optional
  split
  · rename_i ho
    have : Reads (jumpTake b o r >>= fun x => pure (some x)) d p v ↔
        ∃ x, Reads (jumpTake b o r) d p x ∧ v = some x := by
      simp only [Reads, run_bind, run_pure]
      constructor
      · rintro ⟨q, a, m, h, rfl, rfl⟩; exact ⟨a, ⟨_, h⟩, rfl⟩
      · rintro ⟨a, ⟨m, h⟩, rfl⟩; exact ⟨m, a, m, h, rfl, rfl⟩
    rw [this]
    simp only [reads_jumpTake hd]
    cases v with
    | none => simp; omega
    | some v => simp; omega
  · cases v with
    | none => simp [reads_pure]; omega
    | some v => simp [reads_pure]; omega

instance : Indep (pure a : Reader α) := ⟨by simp [reads_pure]⟩

instance {m : Message} : Indep (raise m : Reader α) := ⟨by simp [reads_raise]⟩

instance {r : Reader α} {f : α → Reader β} [hr : Indep r] [hf : ∀ a, Indep (f a)] :
    Indep (r >>= f) where
  indep := by
    intro d p p' v
    simp only [reads_bind_indep]
    rintro ⟨a, h, h'⟩; exact ⟨a, hr.indep h, h'⟩

instance {r : Reader α} {b o : Nat} : Indep (jumpTake b o r) where
  indep := by
    intro d p p' v
    simp only [Reads, run_jumpTake]; exact id

instance {c : Prop} [Decidable c] {r r' : Reader α} [h : Indep r] [h' : Indep r'] :
    Indep (if c then r else r') := by
  split <;> assumption

instance {r : Reader α} {b o : Nat} : Indep (jumpTakeMaybe b o r) := by
  unfold jumpTakeMaybe; infer_instance

instance {xs : List α} {i : Nat} : Indep (index xs i) := by
  unfold index
  split
  · infer_instance
  · exact ⟨by simp [Reads]⟩

instance {a b : Nat} : Indep (addU64 a b) := by
  unfold addU64
  split
  · infer_instance
  · exact ⟨by simp [Reads]⟩

theorem indep_forFrom {body : Nat → Reader α} (h : ∀ i, Indep (body i)) {i n : Nat} :
    Indep (forFrom body i n) := by
  induction n generalizing i with
  | zero => unfold forFrom; infer_instance
  | succ n ih => unfold forFrom; have := h i; have := ih (i := i + 1); infer_instance

instance {r : Reader α} {b n : Nat} {os : List Nat} : Indep (jumpTakeN b n os r) :=
  indep_forFrom fun _ => inferInstance

instance {r : Reader α} {b n : Nat} {os : List Nat} : Indep (jumpTakeMaybeN b n os r) :=
  indep_forFrom fun _ => inferInstance

theorem reads_forFrom {body : Nat → Reader α} [hb : ∀ i, Indep (body i)] {i n : Nat} {xs : List α} :
    Reads (forFrom body i n) d p xs ↔
      xs.length = n ∧ ∀ j x, xs[j]? = some x → Reads (body (i + j)) d 0 x := by
  induction n generalizing i xs p with
  | zero =>
    simp only [forFrom, reads_pure]
    constructor
    · rintro rfl; simp
    · rintro ⟨h, _⟩; simpa using h
  | succ n ih =>
    have := indep_forFrom hb (i := i + 1) (n := n)
    simp only [forFrom]
    rw [reads_bind_indep]
    simp only [reads_bind_indep, ih, reads_pure]
    constructor
    · rintro ⟨a, h0, ys, ⟨hl, h⟩, rfl⟩
      refine ⟨by simp [hl], ?_⟩
      intro j x hx
      cases j with
      | zero => simp at hx; subst hx; exact (hb i).indep h0
      | succ j =>
        have := h j x (by simpa using hx)
        rwa [show i + (j + 1) = i + 1 + j by omega]
    · rintro ⟨hl, h⟩
      cases xs with
      | nil => simp at hl
      | cons y ys =>
        refine ⟨y, (hb i).indep (by simpa using h 0 y rfl), ys, ⟨by simpa using hl, ?_⟩, rfl⟩
        intro j x hx
        have := h (j + 1) x (by simpa using hx)
        rwa [show i + (j + 1) = i + 1 + j by omega] at this

theorem reads_index {xs : List α} {i : Nat} {x : α} : Reads (index xs i) d p x ↔ xs[i]? = some x := by
  unfold index
  split
  · rename_i h; rw [h, reads_pure]; simp [eq_comm]
  · rename_i h; rw [h]; simp [Reads]

theorem reads_jumpTakeN {r : Reader α} {S} [h : Parses r S] (hd : Fits d) {b n : Nat} {os : List Nat}
    (hn : os.length = n) {xs} :
    Reads (jumpTakeN b n os r) d p xs ↔ AtOffsets (S d) b os xs := by
  unfold jumpTakeN AtOffsets
  rw [reads_forFrom]
  simp only [reads_bind_indep, reads_index, reads_jumpTake hd, Nat.zero_add]
  constructor
  · rintro ⟨hl, h⟩
    refine ⟨by omega, fun i o x ho hx => ?_⟩
    obtain ⟨o', ho', h'⟩ := h i x hx
    rw [ho] at ho'; cases ho'; exact h'
  · rintro ⟨hl, h⟩
    refine ⟨by omega, fun i x hx => ?_⟩
    have := (List.getElem?_eq_some_iff.mp hx).1
    exact ⟨os[i], by simp, h i _ x (by simp) hx⟩

theorem reads_jumpTakeMaybeN {r : Reader α} {S} [h : Parses r S] (hd : Fits d) {b n : Nat}
    {os : List Nat} (hn : os.length = n) {xs} :
    Reads (jumpTakeMaybeN b n os r) d p xs ↔ AtOptionalOffsets (S d) b os xs := by
  unfold jumpTakeMaybeN AtOptionalOffsets
  rw [reads_forFrom]
  simp only [reads_bind_indep, reads_index, reads_jumpTakeMaybe hd, Nat.zero_add]
  constructor
  · rintro ⟨hl, h⟩
    refine ⟨by omega, fun i o x ho hx => ?_⟩
    obtain ⟨o', ho', h'⟩ := h i x hx
    rw [ho] at ho'; cases ho'; exact h'
  · rintro ⟨hl, h⟩
    refine ⟨by omega, fun i x hx => ?_⟩
    have := (List.getElem?_eq_some_iff.mp hx).1
    exact ⟨os[i], by simp, h i _ x (by simp) hx⟩

end reads
end OpenType
