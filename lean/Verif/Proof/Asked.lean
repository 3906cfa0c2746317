import Verif.Spec.EncodeTaken
import Verif.Spec.Device
import Verif.Proof.Basic
import Verif.Proof.Run
/-!
# Which bytes readers ask for

`Track d A r p Q G`: if the reader `r` gives a value from the position `p` of `d`, then `Q` holds of the value and of
the position it ends at, and every address in `A`, and every one the reader asks for the byte of, satisfies `G`.
-/

namespace OpenType
open OpenType.Spec

/-- A reader asks for the byte at `x`. -/
def Asked {α : Type} (r : Reader α) (d : Data) (p x : Nat) : Prop :=
  ∃ y n, (y, n) ∈ r.fetches d p ∧ y ≤ x ∧ x < y + n

/-- The byte at `x` is one of the chunks', their distances counting from `p`. -/
def Covered (cs : List Chunk) (p x : Nat) : Prop := ∃ c ∈ cs, p + c.1 ≤ x ∧ x < p + c.1 + c.2.length

/-- See above. -/
def Track {α : Type} (d : Data) (A : Nat → Prop) (r : Reader α) (p : Nat) (Q : α → Nat → Prop)
    (G : α → Nat → Nat → Prop) : Prop :=
  ∀ a q, r d p = .ok (a, q) → Q a q ∧ ∀ x, A x ∨ Asked r d p x → G a q x

/-- A reader that reads what `enc` writes, and ends after it. -/
class Spans {α : Type} (r : Reader α) (enc : outParam (α → Data)) : Prop where
  track : ∀ {d p}, Track d (fun _ => False) r p (fun a q => q = p + (enc a).length) fun _ q x => p ≤ x ∧ x < q

/-- A reader that asks for nothing but the bytes of the table and of what its offsets lead to. -/
class Covers {α : Type} [Encode α] (r : Reader α) : Prop where
  track : ∀ {d p}, Fits d → Track d (fun _ => False) r p (fun _ _ => True) fun a _ x => Covered (encoding a) p x

/-- The same for a part whose offsets count from `base`, and that ends after the bytes of the part itself. -/
class SpansFrom {α : Type} [Encode α] (base : outParam Nat) (r : Reader α) : Prop where
  track : ∀ {d p}, Fits d → Track d (fun _ => False) r p (fun a q => q = p + (bytes a).length) fun a q x =>
    (p ≤ x ∧ x < q) ∨ Covered (parts a) base x

section
variable {α β : Type} {d : Data} {p : Nat} {A : Nat → Prop} {Q : α → Nat → Prop} {G : α → Nat → Nat → Prop}

theorem fetches_ofBind {r : Reader α} {f : α → Reader β} {a : α} {q : Nat} (h : r d p = .ok (a, q)) :
    (r >>= f).fetches d p = r.fetches d p ++ (f a).fetches d q := by
  show (Reader.bind r f).fetches d p = _
  induction r generalizing p with
  | done b => cases h; rfl
  | fail e => cases h
  | tell next ih => exact ih _ h
  | seek s next ih => exact ih _ h
  | fetch n next ih => exact congrArg ((p, n) :: ·) (ih _ h)

theorem asked_bind {r : Reader α} {f : α → Reader β} {a : α} {q x : Nat} (h : r d p = .ok (a, q)) :
    Asked (r >>= f) d p x ↔ Asked r d p x ∨ Asked (f a) d q x := by
  unfold Asked
  rw [fetches_ofBind h]
  simp only [List.mem_append]
  constructor
  · rintro ⟨y, n, hm | hm, h⟩
    · exact .inl ⟨y, n, hm, h⟩
    · exact .inr ⟨y, n, hm, h⟩
  · rintro (⟨y, n, hm, h⟩ | ⟨y, n, hm, h⟩)
    · exact ⟨y, n, .inl hm, h⟩
    · exact ⟨y, n, .inr hm, h⟩

theorem track_bind {r : Reader β} {f : β → Reader α} {Q' : β → Nat → Prop} {G' : β → Nat → Nat → Prop}
    (h : Track d (fun _ => False) r p Q' G')
    (hf : ∀ b q, Q' b q → Track d (fun x => A x ∨ G' b q x) (f b) q Q G) : Track d A (r >>= f) p Q G := by
  intro a q hr
  rw [run_bind_eq] at hr
  cases e : r d p with
  | error e => rw [e] at hr; cases hr
  | ok v =>
    obtain ⟨b, m⟩ := v
    rw [e] at hr
    have h1 := h b m e
    have h2 := hf b m h1.1 a q hr
    refine ⟨h2.1, fun x hx => h2.2 x ?_⟩
    rw [asked_bind e] at hx
    rcases hx with hx | hx | hx
    · exact .inl (.inl hx)
    · exact .inl (.inr (h1.2 x (.inr hx)))
    · exact .inr hx

theorem track_pure {a : α} (hq : Q a p) (h : ∀ x, A x → G a p x) : Track d A (pure a) p Q G := by
  intro a' q hr
  cases hr
  refine ⟨hq, fun x hx => h x (hx.resolve_right ?_)⟩
  rintro ⟨_, _, h, _⟩
  cases h

theorem Track.mono {Q' : α → Nat → Prop} {G' : α → Nat → Nat → Prop} {r : Reader α} (h : Track d A r p Q G)
    (hq : ∀ a q, Q a q → Q' a q) (hg : ∀ a q, Q a q → ∀ x, G a q x → G' a q x) : Track d A r p Q' G' :=
  fun a q hr => ⟨hq a q (h a q hr).1, fun x hx => hg a q (h a q hr).1 x ((h a q hr).2 x hx)⟩

/-- Forget which addresses have been asked for, knowing where they are. -/
theorem Track.weaken {A' : Nat → Prop} {r : Reader α} (h : Track d A' r p Q G) (ha : ∀ x, A x → A' x) :
    Track d A r p Q G :=
  fun a q hr => ⟨(h a q hr).1, fun x hx => (h a q hr).2 x (hx.imp (ha x) id)⟩

theorem track_fail {e : Err} : Track d A (.fail e) p Q G := nofun

theorem track_raise {m : Message} : Track d A (raise m) p Q G := nofun

theorem track_position {f : Nat → Reader α} (h : Track d A (f p) p Q G) : Track d A (position >>= f) p Q G := h

theorem track_jump {q : Nat} {f : Unit → Reader α} (h : Track d A (f ()) q Q G) : Track d A (jump q >>= f) p Q G := h

theorem track_raiseIf {c : Prop} [Decidable c] {m : Message} {f : Unit → Reader α} (h : ¬c → Track d A (f ()) p Q G) :
    Track d A (raiseIf c m >>= f) p Q G := by
  unfold raiseIf
  split
  · exact track_fail
  · next hc => exact h hc

theorem track_addU64 {x y : Nat} {f : Nat → Reader α} (h : Track d A (f (x + y)) p Q G) :
    Track d A (addU64 x y >>= f) p Q G := by
  unfold addU64
  split
  · exact h
  · exact track_fail

theorem track_mulU64 {x y : Nat} {f : Nat → Reader α} (h : Track d A (f (x * y)) p Q G) :
    Track d A (mulU64 x y >>= f) p Q G := by
  unfold mulU64
  split
  · exact h
  · exact track_fail

theorem track_addUsize {x y : Nat} {f : Nat → Reader α} (h : Track d A (f (x + y)) p Q G) :
    Track d A (addUsize x y >>= f) p Q G := by
  unfold addUsize
  split
  · exact h
  · exact track_fail

theorem track_mulUsize {x y : Nat} {f : Nat → Reader α} (h : Track d A (f (x * y)) p Q G) :
    Track d A (mulUsize x y >>= f) p Q G := by
  unfold mulUsize
  split
  · exact h
  · exact track_fail

theorem track_subUint {x y : Nat} {f : Nat → Reader α} (h : Track d A (f (x - y)) p Q G) :
    Track d A (subUint x y >>= f) p Q G := by
  unfold subUint
  split
  · exact h
  · exact track_fail

theorem track_stay {r : Reader α} (h : Track d A r p (fun _ _ => True) fun a _ x => G a p x) :
    Track d A (stay r) p (fun _ q => q = p) G := by
  intro a q hr
  rw [run_stay_eq] at hr
  cases e : r d p with
  | error e => rw [e] at hr; cases hr
  | ok v =>
    obtain ⟨b, m⟩ := v
    rw [e] at hr
    cases hr
    refine ⟨rfl, fun x hx => (h _ _ e).2 x (hx.imp id ?_)⟩
    intro hx
    show Asked r d p x
    have hx : Asked (r >>= fun x => jump p >>= fun _ => pure x) d p x := hx
    rw [asked_bind e] at hx
    refine hx.resolve_right ?_
    rintro ⟨_, _, h, _⟩
    cases h

theorem track_step {r : Reader β} {f : β → Reader α} {enc : β → Data} [h : Spans r enc]
    (hf : ∀ b q, q = p + (enc b).length → Track d (fun x => A x ∨ (p ≤ x ∧ x < q)) (f b) q Q G) :
    Track d A (r >>= f) p Q G := track_bind h.track hf

theorem track_step_from {base : Nat} {r : Reader β} [Encode β] {f : β → Reader α} (hd : Fits d) [h : SpansFrom base r]
    (hf : ∀ b q, q = p + (bytes b).length →
      Track d (fun x => A x ∨ ((p ≤ x ∧ x < q) ∨ Covered (parts b) base x)) (f b) q Q G) :
    Track d A (r >>= f) p Q G := track_bind (h.track hd) hf

theorem track_peek {r : Reader β} {f : β → Reader α} {enc : β → Data} [h : Spans r enc]
    (hf : ∀ b, Track d (fun x => A x ∨ (p ≤ x ∧ x < p + (enc b).length)) (f b) p Q G) :
    Track d A (peek r >>= f) p Q G := by
  refine track_bind (r := peek r) (Q' := fun _ q => q = p) (G' := fun b _ x => p ≤ x ∧ x < p + (enc b).length) ?_ ?_
  · refine track_stay ?_
    exact (h.track).mono (fun _ _ _ => trivial) fun a q hq x hx => hq ▸ hx
  · rintro b q rfl
    exact hf b

end

/-! ## Where bytes are -/

section
variable {α : Type} [Encode α] {p x : Nat}

theorem covered_cons {c : Chunk} {cs : List Chunk} :
    Covered (c :: cs) p x ↔ (p + c.1 ≤ x ∧ x < p + c.1 + c.2.length) ∨ Covered cs p x := by
  unfold Covered
  simp only [List.mem_cons, exists_eq_or_imp]

theorem covered_append {cs cs' : List Chunk} : Covered (cs ++ cs') p x ↔ Covered cs p x ∨ Covered cs' p x := by
  unfold Covered
  simp only [List.mem_append, or_and_right, exists_or]

theorem covered_encoding {t : α} :
    Covered (encoding t) p x ↔ (p ≤ x ∧ x < p + (bytes t).length) ∨ Covered (parts t) p x := covered_cons

theorem covered_placed {o : Nat} {t : α} : Covered (placed o t) p x ↔ Covered (encoding t) (p + o) x := by
  unfold Covered placed
  simp only [List.mem_map]
  constructor
  · rintro ⟨_, ⟨c, hc, rfl⟩, h⟩
    exact ⟨c, hc, by dsimp only at h; omega⟩
  · rintro ⟨c, hc, h⟩
    exact ⟨_, ⟨c, hc, rfl⟩, by dsimp only; omega⟩

theorem covered_flatMap {β : Type} {f : β → List Chunk} {l : List β} {b : β} (hb : b ∈ l) (h : Covered (f b) p x) :
    Covered (l.flatMap f) p x := by
  obtain ⟨c, hc, h⟩ := h
  exact ⟨c, List.mem_flatMap.mpr ⟨b, hb, hc⟩, h⟩

end

section
variable {α : Type} [Encode α] {d : Data} {p : Nat}

theorem track_jumpTake {base o : Nat} {r : Reader α} (hd : Fits d) [h : Covers r] :
    Track d (fun _ => False) (jumpTake base o r) p (fun _ _ => True) fun a _ x => Covered (placed o a) base x := by
  refine track_addU64 (track_jump ?_)
  exact (h.track hd).mono (fun _ _ _ => trivial) fun a q _ x hx => covered_placed.mpr hx

theorem track_jumpTakeMaybe {base o : Nat} {r : Reader α} (hd : Fits d) [h : Covers r] :
    Track d (fun _ => False) (jumpTakeMaybe base o r) p (fun _ _ => True)
      fun a _ x => Covered (placedOpt o a) base x := by
  unfold jumpTakeMaybe
  split
  · refine track_bind (track_jumpTake hd) fun b q _ => track_pure trivial ?_
    rintro x (hx | hx)
    · exact hx.elim
    · exact hx
  · exact track_pure trivial nofun

/-- Loops: what is asked for belongs to one of the values. -/
theorem track_forFrom {β : Type} {body : Nat → Reader β} {i n : Nat} {G : Nat → β → Nat → Prop}
    (h : ∀ j p, Track d (fun _ => False) (body j) p (fun _ _ => True) fun a _ x => G j a x) :
    Track d (fun _ => False) (forFrom body i n) p (fun _ _ => True)
      fun as _ x => ∃ j a, as[j]? = some a ∧ G (i + j) a x := by
  induction n generalizing i p with
  | zero => exact track_pure trivial nofun
  | succ n ih =>
    refine track_bind (h i p) fun a q _ => track_bind (ih (i := i + 1)) fun as q' _ => track_pure trivial ?_
    rintro x ((hx | hx) | ⟨j, b, hb, hx⟩)
    · exact hx.elim
    · exact ⟨0, a, rfl, hx⟩
    · exact ⟨j + 1, b, hb, by rwa [show i + (j + 1) = i + 1 + j by omega]⟩

theorem mem_zip_of_getElem? {β γ : Type} {l : List β} {l' : List γ} {j : Nat} {b : β} {c : γ} (h : l[j]? = some b)
    (h' : l'[j]? = some c) : (b, c) ∈ l.zip l' := by
  refine List.mem_of_getElem? (i := j) ?_
  rw [List.getElem?_zip_eq_some]
  exact ⟨h, h'⟩

theorem track_index {β γ : Type} {xs : List β} {i : Nat} {f : β → Reader γ} {A : Nat → Prop} {Q : γ → Nat → Prop}
    {G : γ → Nat → Nat → Prop} (h : ∀ x, xs[i]? = some x → Track d A (f x) p Q G) :
    Track d A (index xs i >>= f) p Q G := by
  unfold index
  split
  · next x hx => exact h x hx
  · exact track_fail

theorem track_jumpTakeN {base n : Nat} {os : List Nat} {r : Reader α} (hd : Fits d) [h : Covers r] :
    Track d (fun _ => False) (jumpTakeN base n os r) p (fun _ _ => True)
      fun as _ x => Covered (placedAll os as) base x := by
  refine (track_forFrom (G := fun j a x => ∃ o, os[j]? = some o ∧ Covered (placed o a) base x) fun j p =>
    track_index fun o ho => (track_jumpTake hd).mono (fun _ _ _ => trivial) fun a _ _ x hx => ⟨o, ho, hx⟩).mono
      (fun _ _ _ => trivial) ?_
  rintro as q _ x ⟨j, a, ha, o, ho, hx⟩
  rw [Nat.zero_add] at ho
  exact covered_flatMap (mem_zip_of_getElem? ho ha) hx

theorem track_jumpTakeMaybeN {base n : Nat} {os : List Nat} {r : Reader α} (hd : Fits d) [h : Covers r] :
    Track d (fun _ => False) (jumpTakeMaybeN base n os r) p (fun _ _ => True)
      fun as _ x => Covered (placedOpts os as) base x := by
  refine (track_forFrom (G := fun j a x => ∃ o, os[j]? = some o ∧ Covered (placedOpt o a) base x) fun j p =>
    track_index fun o ho => (track_jumpTakeMaybe hd).mono (fun _ _ _ => trivial) fun a _ _ x hx => ⟨o, ho, hx⟩).mono
      (fun _ _ _ => trivial) ?_
  rintro as q _ x ⟨j, a, ha, o, ho, hx⟩
  rw [Nat.zero_add] at ho
  exact covered_flatMap (mem_zip_of_getElem? ho ha) hx

end

/-! ## Numbers and vectors -/

section
variable {α : Type}

theorem spans_fetch {n : Nat} {f : List UInt8 → α} {enc : α → Data} (h : ∀ a, (enc a).length = n) :
    Spans (Reader.fetch n fun bytes => .ofResult (bytes.map f)) enc := by
  constructor
  intro d p a q hr
  rw [run_fetch] at hr
  split at hr
  · cases hr
    refine ⟨by dsimp only; rw [h], ?_⟩
    rintro x (hx | ⟨y, m, hm, hx⟩)
    · exact hx.elim
    · have hf : (Reader.fetch n fun bytes => .ofResult (bytes.map f)).fetches d p = [(p, n)] := by
        show (p, n) :: Reader.fetches (Reader.ofResult ((Reader.slice d p n).map f)) d (p + n) = _
        cases Reader.slice d p n <;> rfl
      rw [hf, List.mem_singleton] at hm
      cases hm
      exact hx
  · cases hr

instance : Spans u8 enc8 := spans_fetch fun _ => rfl
instance : Spans u16 enc16 := spans_fetch fun _ => rfl
instance : Spans u32 enc32 := spans_fetch fun _ => rfl
instance : Spans takeTag enc32 := inferInstanceAs (Spans u32 _)

theorem inside {p q r x : Nat} (h : (False ∨ (p ≤ x ∧ x < q)) ∨ (q ≤ x ∧ x < r)) (h1 : p ≤ q) (h2 : q ≤ r) :
    p ≤ x ∧ x < r := by
  rcases h with (h | h) | h
  · exact h.elim
  · omega
  · omega

instance : Spans i16 encI16 := ⟨track_step (enc := enc16) fun _ _ hq => track_pure hq fun _ hx => hx.resolve_left id⟩
instance : Spans q32 encI32 := ⟨track_step (enc := enc32) fun _ _ hq => track_pure hq fun _ hx => hx.resolve_left id⟩
instance {n : Nat} : Spans (expectU16 n) enc16 :=
  ⟨track_step fun _ _ hq => track_raiseIf fun _ => track_pure hq fun _ hx => hx.resolve_left id⟩
instance {cfg : Cfg} {n : Nat} : Spans (flagsU16 cfg n) enc16 :=
  ⟨track_step fun _ _ hq => track_raiseIf fun _ => track_pure hq fun _ hx => hx.resolve_left id⟩

instance {r : Reader α} {n : Nat} {enc : α → Data} [h : Spans r enc] :
    Spans (takeVec r n) fun xs => xs.flatMap enc := by
  constructor
  intro d p
  induction n generalizing p with
  | zero => exact track_pure rfl nofun
  | succ n ih =>
    refine track_step fun a q hq => track_bind ih fun as q' hq' => track_pure ?_ fun x hx => ?_
    · rw [List.flatMap_cons, List.length_append]
      omega
    · exact inside hx (by omega) (by omega)

instance {n : Nat} : Spans (takeBytes n) fun xs => xs.flatMap enc8 := inferInstanceAs (Spans (takeVec u8 n) _)

/-- What an optional field takes. -/
def encOption (enc : α → Data) : Option α → Data
  | none => []
  | some x => enc x

instance {c : Bool} {r : Reader α} {enc : α → Data} [h : Spans r enc] : Spans (takeIf c r) (encOption enc) := by
  constructor
  intro d p
  unfold takeIf
  split
  · exact track_step fun a q hq => track_pure hq fun _ hx => hx.resolve_left id
  · exact track_pure rfl nofun

theorem track_takeVec_from {base : Nat} {r : Reader α} [Encode α] {d : Data} {p n : Nat} (hd : Fits d)
    [h : SpansFrom base r] : Track d (fun _ => False) (takeVec r n) p (fun xs q => q = p + (bytesAll xs).length)
      fun xs q x => (p ≤ x ∧ x < q) ∨ Covered (partsAll xs) base x := by
  induction n generalizing p with
  | zero => exact track_pure rfl nofun
  | succ n ih =>
    refine track_step_from hd fun a q hq => track_bind ih fun as q' hq' => track_pure ?_ ?_
    · unfold bytesAll at *
      rw [List.flatMap_cons, List.length_append]
      omega
    · unfold partsAll
      rw [List.flatMap_cons]
      simp only [covered_append]
      rintro x ((hx | hx | hx) | hx | hx)
      · exact hx.elim
      · exact .inl (by omega)
      · exact .inr (.inl hx)
      · exact .inl (by omega)
      · exact .inr (.inr hx)

end

/-! ## Tactics -/

instance (priority := low) {α : Type} [Encode α] {r : Reader α} [h : Spans r bytes] : Covers r :=
  ⟨fun _ => h.track.mono (fun _ _ _ => trivial) fun _ _ hq _ hx => covered_encoding.mpr (.inl (hq ▸ hx))⟩

/-- One step of the analysis of a reader. -/
macro "asks_step" : tactic => `(tactic| first
  | refine track_position ?_
  | refine track_step fun _ _ _ => ?_
  | refine track_addU64 ?_
  | refine track_mulU64 ?_
  | refine track_addUsize ?_
  | refine track_mulUsize ?_
  | refine track_subUint ?_
  | refine track_raiseIf fun _ => ?_
  | refine track_jump ?_
  | exact track_raise
  | refine track_peek fun _ => ?_
  | refine track_step_from (by assumption) fun _ _ _ => ?_
  | refine track_bind (track_takeVec_from (by assumption)) fun _ _ _ => ?_
  | refine track_bind (track_jumpTake (by assumption)) fun _ _ _ => ?_
  | refine track_bind (track_jumpTakeMaybe (by assumption)) fun _ _ _ => ?_
  | refine track_bind (track_jumpTakeN (by assumption)) fun _ _ _ => ?_
  | refine track_bind (track_jumpTakeMaybeN (by assumption)) fun _ _ _ => ?_
  | refine track_bind (track_stay (track_jumpTakeN (by assumption))) fun _ _ _ => ?_
  | refine track_bind (track_stay (track_jumpTakeMaybeN (by assumption))) fun _ _ _ => ?_
  | refine track_bind (Covers.track (by assumption)) fun _ _ _ => ?_
  | dsimp only
  | split)

theorem length_enc8 {n : Nat} : (enc8 n).length = 1 := rfl
theorem length_enc16 {n : Nat} : (enc16 n).length = 2 := rfl
theorem length_enc32 {n : Nat} : (enc32 n).length = 4 := rfl
theorem length_encI16 {n : Int} : (encI16 n).length = 2 := rfl
theorem length_encI32 {n : Int} : (encI32 n).length = 4 := rfl

/-- Computes how many bytes something takes. -/
macro "asks_lengths" : tactic => `(tactic| simp only [Encode.bytes, enc16s, enc32s, bytesAll, List.length_append,
  length_enc8, length_enc16, length_enc32, length_encI16, length_encI32] at *)

/-- The end: everything asked for is in its place. -/
macro "asks_pure" : tactic => `(tactic| first
  | exact track_pure (by asks_lengths; omega) (by intro x hx; simp only [false_or] at hx; omega)
  | (refine track_pure (by first | trivial | (asks_lengths; omega)) ?_
     intro x hx
     try rw [covered_encoding]
     try simp only [Encode.parts, covered_append]
     try asks_lengths
     repeat' (refine Or.elim hx ?_ ?_ <;> clear hx <;> intro hx)
     all_goals first
       | exact False.elim hx
       | exact Or.inl (by omega)
       | (simp only [hx, true_or, or_true]; done)
       | omega))

/-- Proves `Spans r enc`, `Covers r` or `SpansFrom base r`. -/
macro "asks" r:ident : tactic => `(tactic| (constructor; intros; unfold $r; (repeat' asks_step); all_goals asks_pure))

/-- Proves `Covers r` for a reader that picks another by a number it peeks at. -/
macro "asks_format" r:ident : tactic => `(tactic| (
  constructor; intros; unfold $r; (repeat' asks_step)
  all_goals
    refine track_pure trivial ?_
    intro x hx
    repeat' (refine Or.elim hx ?_ ?_ <;> clear hx <;> intro hx)
    all_goals first
      | exact False.elim hx
      | exact hx
      | exact covered_encoding.mpr (Or.inl (by asks_lengths; omega))))

end OpenType
