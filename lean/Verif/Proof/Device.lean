import Verif.Spec.Device
import Verif.Proof.Run
/-! # Readers on tapes that may fail -/

namespace OpenType

/-- Every error of an operation ends the reader with that error: Rust's `?` everywhere. The end of the data is never
reported otherwise. -/
def Reader.Stops {α : Type} : Reader α → Prop
  | .done _ => True
  | .fail e => e ≠ .eof
  | .tell next => (∀ e, next (.error e) = .fail e) ∧ ∀ a, (next (.ok a)).Stops
  | .seek _ next => (∀ e, next (.error e) = .fail e) ∧ ∀ a, (next (.ok a)).Stops
  | .fetch _ next => (∀ e, next (.error e) = .fail e) ∧ ∀ a, (next (.ok a)).Stops

/-- See `Reader.Stops`. -/
class Stops {α : Type} (r : Reader α) : Prop where
  stops : r.Stops

section
variable {α β : Type}

instance {a : α} : Stops (pure a) := ⟨trivial⟩

theorem Reader.Stops.bind {r : Reader α} {f : α → Reader β} (h : r.Stops) (hf : ∀ a, (f a).Stops) :
    (r.bind f).Stops := by
  induction r with
  | done a => exact hf a
  | fail e => exact h
  | tell next ih =>
    refine ⟨fun e => ?_, fun a => ih _ (h.2 a)⟩
    show (next (.error e)).bind f = _
    rw [h.1 e]; rfl
  | seek q next ih =>
    refine ⟨fun e => ?_, fun a => ih _ (h.2 a)⟩
    show (next (.error e)).bind f = _
    rw [h.1 e]; rfl
  | fetch n next ih =>
    refine ⟨fun e => ?_, fun a => ih _ (h.2 a)⟩
    show (next (.error e)).bind f = _
    rw [h.1 e]; rfl

instance stops_bind {r : Reader α} {f : α → Reader β} [h : Stops r] [hf : ∀ a, Stops (f a)] : Stops (r >>= f) :=
  ⟨h.stops.bind fun a => (hf a).stops⟩

instance {m : Message} : Stops (raise m : Reader α) := ⟨nofun⟩
instance {m : String} : Stops (panicked m : Reader α) := ⟨nofun⟩
instance {c : Prop} [Decidable c] {m : Message} : Stops (raiseIf c m) := by
  unfold raiseIf; split <;> infer_instance
instance : Stops position := ⟨fun _ => rfl, fun _ => trivial⟩
instance {q : Nat} : Stops (jump q) := ⟨fun _ => rfl, fun _ => trivial⟩
instance {r : Reader α} [Stops r] : Stops (stay r) := by unfold stay; infer_instance
instance {r : Reader α} [Stops r] : Stops (peek r) := by unfold peek; infer_instance
instance : Stops u8 := ⟨fun _ => rfl, fun _ => trivial⟩
instance : Stops u16 := ⟨fun _ => rfl, fun _ => trivial⟩
instance : Stops u32 := ⟨fun _ => rfl, fun _ => trivial⟩
instance : Stops i16 := by unfold i16; infer_instance
instance : Stops q32 := by unfold q32; infer_instance
instance : Stops takeTag := by unfold takeTag; infer_instance
instance {r : Reader α} [Stops r] {n : Nat} : Stops (takeVec r n) := by
  induction n with
  | zero => unfold takeVec; infer_instance
  | succ n ih => unfold takeVec; infer_instance
instance {n : Nat} : Stops (takeBytes n) := by unfold takeBytes; infer_instance
instance {n : Nat} : Stops (expectU16 n) := by unfold expectU16; infer_instance
instance {b : Bool} {r : Reader α} [Stops r] : Stops (takeIf b r) := by
  unfold takeIf; split <;> infer_instance
instance {a b : Nat} : Stops (addU64 a b) := by unfold addU64; split <;> infer_instance
instance {a b : Nat} : Stops (mulU64 a b) := by unfold mulU64; split <;> infer_instance
instance {a b : Nat} : Stops (addUsize a b) := by unfold addUsize; split <;> infer_instance
instance {a b : Nat} : Stops (mulUsize a b) := by unfold mulUsize; split <;> infer_instance
instance {a b : Nat} : Stops (subUint a b) := by unfold subUint; split <;> infer_instance
instance {xs : List α} {i : Nat} : Stops (index xs i) := by unfold index; split <;> infer_instance
instance {b o : Nat} {r : Reader α} [Stops r] : Stops (jumpTake b o r) := by unfold jumpTake; infer_instance
instance {b o : Nat} {r : Reader α} [Stops r] : Stops (jumpTakeMaybe b o r) := by
  unfold jumpTakeMaybe; split <;> infer_instance
instance {body : Nat → Reader α} [h : ∀ i, Stops (body i)] {i n : Nat} : Stops (forFrom body i n) := by
  induction n generalizing i with
  | zero => unfold forFrom; infer_instance
  | succ n ih => unfold forFrom; infer_instance
instance {b n : Nat} {os : List Nat} {r : Reader α} [Stops r] : Stops (jumpTakeN b n os r) := by
  unfold jumpTakeN; infer_instance
instance {b n : Nat} {os : List Nat} {r : Reader α} [Stops r] : Stops (jumpTakeMaybeN b n os r) := by
  unfold jumpTakeMaybeN; infer_instance
instance {cfg : Cfg} {n : Nat} : Stops (flagsU16 cfg n) := by unfold flagsU16; infer_instance

theorem slice_eq {d : Data} {p n : Nat} {bytes : List UInt8} (h : BytesAt d p n bytes) :
    Reader.slice d p n = .ok bytes := by
  obtain ⟨hl, hb⟩ := h
  have hle : n = 0 ∨ p + n ≤ d.length := by
    cases n with
    | zero => exact .inl rfl
    | succ n =>
      have := hb n bytes[n] (List.getElem?_eq_getElem (by omega))
      have := (List.getElem?_eq_some_iff.mp this).1
      omega
  unfold Reader.slice
  rw [if_pos hle]
  congr 1
  apply List.ext_getElem?
  intro i
  by_cases hi : i < n
  · rw [List.getElem?_take_of_lt hi, List.getElem?_drop]
    rw [List.getElem?_eq_getElem (by omega : i < bytes.length)]
    exact hb i _ (List.getElem?_eq_getElem (by omega))
  · rw [List.getElem?_eq_none (by simp; omega), List.getElem?_eq_none (by omega)]

/-- On a device a reader that stops at errors gives what it gives on a tape that works, or an error of the
device. -/
theorem exec_serves {σ : Type} {device : Device σ} {d : Data} {E : Err → Prop} {stands : σ → Nat → Prop}
    (h : Serves device d E stands) {r : Reader α} (hr : r.Stops) {s : σ} {p : Nat} (hs : stands s p) :
    match r.exec device s with
    | (.ok a, s') => ∃ q, r d p = .ok (a, q) ∧ stands s' q
    | (.error e, s') => (r d p = .error e ∨ E e) ∧ ∃ q, stands s' q := by
  induction r generalizing s p with
  | done a => exact ⟨p, rfl, hs⟩
  | fail e => exact ⟨.inl rfl, p, hs⟩
  | tell next ih =>
    have := h.tell s p hs
    unfold Obeys at this
    unfold Reader.exec
    cases hx : (device.tell s).1 with
    | ok a =>
      rw [hx] at this
      obtain ⟨rfl, hs'⟩ := this
      exact ih _ (hr.2 _) hs'
    | error e =>
      rw [hx] at this
      rw [hr.1 e]
      exact ⟨.inr this.1, this.2⟩
  | seek q next ih =>
    have := h.seek s p q hs
    unfold Obeys at this
    unfold Reader.exec
    cases hx : (device.seek s q).1 with
    | ok a =>
      rw [hx] at this
      exact ih _ (hr.2 _) this.2
    | error e =>
      rw [hx] at this
      rw [hr.1 e]
      exact ⟨.inr this.1, this.2⟩
  | fetch n next ih =>
    unfold Reader.exec
    cases hx : (device.fetch s n).1 with
    | ok a =>
      rcases h.fetch s p n hs with ⟨bytes, hb, h'⟩ | ⟨e, he, _⟩
      · unfold Obeys at h'
        rw [hx] at h'
        obtain ⟨rfl, hs'⟩ := h'
        have e : (Reader.fetch n next) d p = (next (.ok a)) d (p + n) := by
          show Reader.run (next (Reader.slice d p n)) d (p + n) = _
          rw [slice_eq hb]
        rw [e]
        exact ih _ (hr.2 _) hs'
      · rw [hx] at he; cases he
    | error e =>
      rw [hr.1 e]
      rcases h.fetch s p n hs with ⟨bytes, hb, h'⟩ | ⟨e', he, h1, h2⟩
      · unfold Obeys at h'
        rw [hx] at h'
        exact ⟨.inr h'.1, h'.2⟩
      · rw [hx] at he; cases he
        exact ⟨.inr h1, h2⟩

/-- On the device that works a reader gives what `Reader.run` says. -/
theorem exec_working {d : Data} {r : Reader α} (hr : r.Stops) {p : Nat} :
    match r d p with
    | .ok (a, q) => r.exec (working d) p = (.ok a, q)
    | .error e => (r.exec (working d) p).1 = .error e := by
  induction r generalizing p with
  | done a => rfl
  | fail e => rfl
  | tell next ih => exact ih _ (hr.2 _)
  | seek q next ih => exact ih _ (hr.2 _)
  | fetch n next ih =>
    unfold Reader.exec
    have e : (Reader.fetch n next) d p = (next (Reader.slice d p n)) d (p + n) := rfl
    rw [e]
    unfold Reader.slice working
    dsimp only
    by_cases hl : n = 0 ∨ p + n ≤ d.length
    · simp only [if_pos hl]
      exact ih _ (hr.2 _)
    · simp only [if_neg hl, hr.1]
      rfl

theorem bytesAt_slice {d : Data} {p n : Nat} (h : n = 0 ∨ p + n ≤ d.length) :
    BytesAt d p n ((d.drop p).take n) := by
  refine ⟨by simp; omega, fun i b hi => ?_⟩
  by_cases hn : i < n
  · rwa [List.getElem?_take_of_lt hn, List.getElem?_drop] at hi
  · rw [List.getElem?_eq_none (by simp; omega)] at hi
    cases hi

theorem working_serves (d : Data) : Serves (working d) d (· = .eof) (· = ·) where
  tell := by rintro s _ rfl; exact ⟨rfl, rfl⟩
  seek := by rintro s _ q rfl; exact ⟨rfl, rfl⟩
  fetch := by
    rintro s _ n rfl
    unfold working
    dsimp only
    by_cases h : n = 0 ∨ s + n ≤ d.length
    · rw [if_pos h]
      exact .inl ⟨_, bytesAt_slice h, rfl, rfl⟩
    · rw [if_neg h]
      exact .inr ⟨_, rfl, rfl, _, rfl⟩

theorem flaky_serves (d : Data) (schedule : Nat → Option (Err × Nat)) :
    Serves (flaky d schedule) d (fun e => e = .eof ∨ ∃ i q, schedule i = some (e, q)) (·.1 = ·) where
  tell := by
    rintro s _ rfl
    unfold flaky Obeys
    dsimp only
    cases h : schedule s.2 with
    | none => exact ⟨rfl, rfl⟩
    | some x => exact ⟨.inr ⟨_, _, h⟩, _, rfl⟩
  seek := by
    rintro s _ q rfl
    unfold flaky Obeys
    dsimp only
    cases h : schedule s.2 with
    | none => exact ⟨rfl, rfl⟩
    | some x => exact ⟨.inr ⟨_, _, h⟩, _, rfl⟩
  fetch := by
    rintro s _ n rfl
    unfold flaky
    dsimp only
    cases h : schedule s.2 with
    | none =>
      dsimp only
      by_cases hl : n = 0 ∨ s.1 + n ≤ d.length
      · rw [if_pos hl]
        exact .inl ⟨_, bytesAt_slice hl, rfl, rfl⟩
      · rw [if_neg hl]
        exact .inr ⟨_, rfl, .inl rfl, _, rfl⟩
    | some x => exact .inr ⟨_, rfl, .inr ⟨_, _, h⟩, _, rfl⟩

end

/-- Proves `Stops r` for a reader made of readers that stop. -/
macro "stops" r:ident : tactic =>
  `(tactic| (unfold $r; repeat' (first | infer_instance | dsimp only | (refine @stops_bind _ _ _ _ ?_ fun _ => ?_) | split)))

end OpenType
