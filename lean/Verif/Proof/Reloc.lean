import Verif.Proof.Basic
import Mathlib.Tactic.CasesM
/-!
# The calculus relating a reader on two tapes

`Good e d D k r r' p Q`: whatever `r` concludes on tape `d` at position `p`, `r'` concludes on tape `D` at
position `k + p`; a panic is possible only if `e`; if `r` succeeds then `Q` holds of the result.
-/

namespace OpenType
open Spec

/-- Tape `D` has the bytes of `d` from position `k` on, maybe followed by more. -/
def Ext (d D : Data) (k : Nat) : Prop := ∀ i b, d[i]? = some b → D[k + i]? = some b

/-- Tape `D` ends where `d` ends. -/
def Tight (d D : Data) (k : Nat) : Prop := ∀ i, d[i]? = none → D[k + i]? = none

def Good (e : Prop) (d D : Data) (k : Nat) {α : Type} (r r' : Reader α) (p : Nat) (Q : α → Prop) : Prop :=
  match r d p with
  | .ok (a, q) => r' D (k + p) = .ok (a, k + q) ∧ Q a
  | .error .eof => Tight d D k → r' D (k + p) = .error .eof
  | .error (.malformed m) => r' D (k + p) = .error (.malformed m)
  | .error (.panic m) => e ∧ r' D (k + p) = .error (.panic m)

theorem Ext.lt {d D : Data} {k : Nat} (h : Ext d D k) {p : Nat} (hp : p < d.length) :
    k + p < D.length := by
  have := h p d[p] (by simp)
  exact (List.getElem?_eq_some_iff.mp this).1

section
variable {e : Prop} {d D : Data} {k : Nat} {α β : Type}

theorem Good.mono {r r' : Reader α} {p : Nat} {Q Q' : α → Prop} (h : Good e d D k r r' p Q)
    (hQ : ∀ a, Q a → Q' a) : Good e d D k r r' p Q' := by
  unfold Good at *
  split
  · rename_i h'; rw [h'] at h; exact ⟨h.1, hQ _ h.2⟩
  · rename_i h'; rw [h'] at h; exact h
  · rename_i h'; rw [h'] at h; exact h
  · rename_i h'; rw [h'] at h; exact h

theorem good_pure {a : α} {p : Nat} {Q : α → Prop} (h : Q a) :
    Good e d D k (pure a) (pure a) p Q := ⟨rfl, h⟩

theorem bind_ok {r : Reader α} {f : α → Reader β} {a : α} {q : Nat} {p : Nat} (h : r d p = .ok (a, q)) :
    (r >>= f) d p = f a d q := by
  rw [run_bind_eq, h]

theorem bind_error {r : Reader α} {f : α → Reader β} {x : Err} {p : Nat} (h : r d p = .error x) :
    (r >>= f) d p = .error x := by
  rw [run_bind_eq, h]

theorem good_bind {r r' : Reader α} {f f' : α → Reader β} {p : Nat} {Q : α → Prop} {Q' : β → Prop}
    (h : Good e d D k r r' p Q) (hf : ∀ a q, Q a → Good e d D k (f a) (f' a) q Q') :
    Good e d D k (r >>= f) (r' >>= f') p Q' := by
  unfold Good at h
  cases hr : r d p with
  | ok x =>
    obtain ⟨a, q⟩ := x
    rw [hr] at h
    have := hf a q h.2
    unfold Good at this ⊢
    rw [bind_ok hr, bind_ok h.1]
    exact this
  | error x =>
    rw [hr] at h
    unfold Good
    rw [bind_error hr]
    cases x with
    | eof => exact fun ht => bind_error (h ht)
    | malformed m => exact bind_error h
    | panic m => exact ⟨h.1, bind_error h.2⟩

theorem good_position {f f' : Nat → Reader β} {p : Nat} {Q : β → Prop}
    (h : Good e d D k (f p) (f' (k + p)) p Q) :
    Good e d D k (position >>= f) (position >>= f') p Q := h

theorem good_raise {m : Message} {p : Nat} {Q : α → Prop} : Good e d D k (raise m) (raise m) p Q := rfl

theorem good_raiseIf {c : Prop} [Decidable c] {m : Message} {p : Nat} :
    Good e d D k (raiseIf c m) (raiseIf c m) p (fun _ => ¬c) := by
  unfold raiseIf
  split
  · exact rfl
  · rename_i hc; exact ⟨rfl, hc⟩

theorem good_jump {q p : Nat} : Good e d D k (jump q) (jump (k + q)) p (fun _ => True) := ⟨rfl, trivial⟩

theorem good_stay {r r' : Reader α} {p : Nat} {Q : α → Prop} (h : Good e d D k r r' p Q) :
    Good e d D k (stay r) (stay r') p Q := by
  unfold Good at h ⊢
  rw [run_stay_eq, run_stay_eq]
  cases hr : r d p with
  | ok x => obtain ⟨a, q⟩ := x; rw [hr] at h; dsimp only at h ⊢; rw [h.1]; exact ⟨rfl, h.2⟩
  | error x =>
    rw [hr] at h
    cases x with
    | eof => dsimp only at h ⊢; intro ht; rw [h ht]
    | malformed m => dsimp only at h ⊢; rw [h]
    | panic m => dsimp only at h ⊢; rw [h.2]; exact ⟨h.1, rfl⟩

/-- A number stored in a tape, and the position it was stored at. -/
def At (k p bound n : Nat) : Prop := n < bound ∧ k + p < 2 ^ 63

theorem good_u8 (hx : Ext d D k) (hD : Fits D) {p : Nat} :
    Good e d D k u8 u8 p (At k p 256) := by
  unfold Good
  rw [run_u8, run_u8]
  cases h : d[p]? with
  | none => intro ht; rw [ht p h]
  | some a =>
    dsimp only
    rw [hx p a h]
    have := hx.lt (List.getElem?_eq_some_iff.mp h).1
    unfold Fits at hD
    exact ⟨rfl, a.toNat_lt, by omega⟩

theorem good_u16 (hx : Ext d D k) (hD : Fits D) {p : Nat} :
    Good e d D k u16 u16 p (At k p 65536) := by
  unfold Good
  rw [run_u16, run_u16]
  cases h : d[p]? with
  | none => intro ht; rw [ht p h]
  | some a =>
    have l := hx.lt (List.getElem?_eq_some_iff.mp h).1
    cases h' : d[p + 1]? with
    | none => intro ht; rw [hx p a h, Nat.add_assoc, ht (p + 1) h']
    | some b =>
      dsimp only
      rw [hx p a h, Nat.add_assoc, hx (p + 1) b h']
      unfold Fits at hD
      have := a.toNat_lt; have := b.toNat_lt
      exact ⟨rfl, by omega, by omega⟩

theorem good_u32 (hx : Ext d D k) (hD : Fits D) {p : Nat} :
    Good e d D k u32 u32 p (At k p 4294967296) := by
  unfold Good
  rw [run_u32, run_u32]
  cases h0 : d[p]? with
  | none => intro ht; rw [ht p h0]
  | some a =>
    have l := hx.lt (List.getElem?_eq_some_iff.mp h0).1
    cases h1 : d[p + 1]? with
    | none => intro ht; rw [hx p a h0, Nat.add_assoc, ht (p + 1) h1]
    | some b =>
      cases h2 : d[p + 2]? with
      | none =>
        intro ht
        rw [hx p a h0, Nat.add_assoc, hx (p + 1) b h1, Nat.add_assoc, ht (p + 2) h2]
      | some c =>
        cases h3 : d[p + 3]? with
        | none =>
          intro ht
          rw [hx p a h0, Nat.add_assoc, hx (p + 1) b h1, Nat.add_assoc, hx (p + 2) c h2, Nat.add_assoc,
            ht (p + 3) h3]
        | some f =>
          dsimp only
          rw [hx p a h0, Nat.add_assoc, hx (p + 1) b h1, Nat.add_assoc, hx (p + 2) c h2, Nat.add_assoc,
            hx (p + 3) f h3]
          unfold Fits at hD
          have := a.toNat_lt; have := b.toNat_lt; have := c.toNat_lt; have := f.toNat_lt
          exact ⟨rfl, by omega, by omega⟩

theorem good_takeTag (hx : Ext d D k) (hD : Fits D) {p : Nat} :
    Good e d D k takeTag takeTag p (At k p 4294967296) := good_u32 hx hD

theorem good_i16 (hx : Ext d D k) (hD : Fits D) {p : Nat} : Good e d D k i16 i16 p (fun _ => True) :=
  good_bind (good_u16 hx hD) fun _ _ _ => good_pure trivial

theorem good_q32 (hx : Ext d D k) (hD : Fits D) {p : Nat} : Good e d D k q32 q32 p (fun _ => True) :=
  good_bind (good_u32 hx hD) fun _ _ _ => good_pure trivial

theorem good_expectU16 (hx : Ext d D k) (hD : Fits D) {p n : Nat} :
    Good e d D k (expectU16 n) (expectU16 n) p (At k p 65536) :=
  good_bind (good_u16 hx hD) fun _ _ h => good_bind good_raiseIf fun _ _ _ => good_pure h

theorem good_flagsU16 (hx : Ext d D k) (hD : Fits D) {cfg : Cfg} {p n : Nat} :
    Good e d D k (flagsU16 cfg n) (flagsU16 cfg n) p (At k p 65536) :=
  good_bind (good_u16 hx hD) fun _ _ h => good_bind good_raiseIf fun _ _ _ => good_pure h

theorem good_takeIf {b : Bool} {r r' : Reader α} {p : Nat} {Q : α → Prop}
    (h : Good e d D k r r' p Q) :
    Good e d D k (takeIf b r) (takeIf b r') p (fun x => ∀ y, x = some y → Q y) := by
  unfold takeIf
  cases b
  · exact good_pure (by simp)
  · exact good_bind h fun a _ ha => good_pure (by rintro _ ⟨⟩; exact ha)

theorem good_takeVec {r r' : Reader α} {n p : Nat} {Q : α → Prop}
    (h : ∀ p, Good e d D k r r' p Q) :
    Good e d D k (takeVec r n) (takeVec r' n) p (fun xs => xs.length = n ∧ ∀ x ∈ xs, Q x) := by
  induction n generalizing p with
  | zero => exact good_pure (by simp)
  | succ n ih =>
    refine good_bind (h p) fun a q ha => good_bind ih fun xs q' hxs => good_pure ?_
    refine ⟨by simp [hxs.1], ?_⟩
    intro x hx
    cases hx with
    | head => exact ha
    | tail _ hx => exact hxs.2 x hx

theorem good_addU64 {a b p : Nat} (h : k + a + b < 2 ^ 64) {f f' : Nat → Reader β} {Q : β → Prop}
    (hf : Good e d D k (f (a + b)) (f' (k + (a + b))) p Q) :
    Good e d D k (addU64 a b >>= f) (addU64 (k + a) b >>= f') p Q := by
  have h1 : addU64 a b d p = .ok (a + b, p) := by
    unfold addU64; rw [if_pos (by omega)]; rfl
  have h2 : addU64 (k + a) b D (k + p) = .ok (k + (a + b), k + p) := by
    unfold addU64; rw [if_pos (by omega), Nat.add_assoc]; rfl
  unfold Good at hf ⊢
  rw [bind_ok h1, bind_ok h2]
  exact hf

theorem good_subUint {a b p : Nat} (h : b ≤ a) {f f' : Nat → Reader β} {Q : β → Prop}
    (hf : Good e d D k (f (a - b)) (f' (a - b)) p Q) :
    Good e d D k (subUint a b >>= f) (subUint a b >>= f') p Q := by
  have e : subUint a b = pure (a - b) := if_pos h
  rw [e]
  exact hf

theorem good_addUsize {a b p : Nat} (h : a + b < 2 ^ 32) {f f' : Nat → Reader β} {Q : β → Prop}
    (hf : Good e d D k (f (a + b)) (f' (a + b)) p Q) :
    Good e d D k (addUsize a b >>= f) (addUsize a b >>= f') p Q := by
  have e : addUsize a b = pure (a + b) := if_pos h
  rw [e]
  exact hf

theorem good_mulUsize {a b p : Nat} (h : a * b < 2 ^ 32) {f f' : Nat → Reader β} {Q : β → Prop}
    (hf : Good e d D k (f (a * b)) (f' (a * b)) p Q) :
    Good e d D k (mulUsize a b >>= f) (mulUsize a b >>= f') p Q := by
  have e : mulUsize a b = pure (a * b) := if_pos h
  rw [e]
  exact hf

theorem good_mulU64 {a b p : Nat} (h : a * b < 2 ^ 64) {f f' : Nat → Reader β} {Q : β → Prop}
    (hf : Good e d D k (f (a * b)) (f' (a * b)) p Q) :
    Good e d D k (mulU64 a b >>= f) (mulU64 a b >>= f') p Q := by
  have e : mulU64 a b = pure (a * b) := if_pos h
  rw [e]
  exact hf

theorem good_bind_jump {q p : Nat} {f f' : Unit → Reader β} {Q : β → Prop}
    (hf : Good e d D k (f ()) (f' ()) q Q) :
    Good e d D k (jump q >>= f) (jump (k + q) >>= f') p Q := hf

theorem good_jumpTake {r r' : Reader α} {b o p : Nat} {Q : α → Prop} (hb : k + b < 2 ^ 63)
    (ho : o < 2 ^ 33) (h : ∀ p, Good e d D k r r' p Q) :
    Good e d D k (jumpTake b o r) (jumpTake (k + b) o r') p Q :=
  good_addU64 (by omega) (good_bind_jump (h _))

theorem good_jumpTakeMaybe {r r' : Reader α} {b o p : Nat} {Q : α → Prop} (hb : k + b < 2 ^ 63)
    (ho : o < 2 ^ 33) (h : ∀ p, Good e d D k r r' p Q) :
    Good e d D k (jumpTakeMaybe b o r) (jumpTakeMaybe (k + b) o r') p (fun _ => True) := by
  unfold jumpTakeMaybe
  split
  · exact good_bind (good_jumpTake hb ho h) fun _ _ _ => good_pure trivial
  · exact good_pure trivial

theorem good_forFrom {body body' : Nat → Reader α} {i n p : Nat} {Q : α → Prop}
    (h : ∀ j, i ≤ j → j < i + n → ∀ p, Good e d D k (body j) (body' j) p Q) :
    Good e d D k (forFrom body i n) (forFrom body' i n) p (fun xs => xs.length = n) := by
  induction n generalizing i p with
  | zero => exact good_pure rfl
  | succ n ih =>
    refine good_bind (h i (by omega) (by omega) p) fun a q ha => ?_
    refine good_bind (ih fun j h1 h2 => h j (by omega) (by omega)) fun xs q' hxs => good_pure ?_
    simp [hxs]

theorem good_index {xs : List α} {i p : Nat} (h : i < xs.length) {f f' : α → Reader β} {Q : β → Prop}
    (hf : ∀ x ∈ xs, Good e d D k (f x) (f' x) p Q) :
    Good e d D k (index xs i >>= f) (index xs i >>= f') p Q := by
  have : xs[i]? = some xs[i] := by simp [h]
  have h1 : ∀ d p, index xs i d p = .ok (xs[i], p) := by
    intro d p; unfold index; rw [this]; rfl
  have := hf xs[i] (by simp)
  unfold Good at this ⊢
  rw [bind_ok (h1 d p), bind_ok (h1 D (k + p))]
  exact this

theorem good_jumpTakeN {r r' : Reader α} {b n p : Nat} {os : List Nat} {Q : α → Prop}
    (hb : k + b < 2 ^ 63) {B : Nat} (hn : os.length = n ∧ ∀ o ∈ os, o < B) (hB : B ≤ 2 ^ 33)
    (h : ∀ p, Good e d D k r r' p Q) :
    Good e d D k (jumpTakeN b n os r) (jumpTakeN (k + b) n os r') p (fun _ => True) := by
  refine (good_forFrom (Q := fun _ => True) fun j _ hj p => ?_).mono fun _ _ => trivial
  exact good_index (by omega) fun o hm => (good_jumpTake hb (by have := hn.2 o hm; omega) h).mono fun _ _ => trivial

theorem good_jumpTakeMaybeN {r r' : Reader α} {b n p : Nat} {os : List Nat} {Q : α → Prop}
    (hb : k + b < 2 ^ 63) {B : Nat} (hn : os.length = n ∧ ∀ o ∈ os, o < B) (hB : B ≤ 2 ^ 33)
    (h : ∀ p, Good e d D k r r' p Q) :
    Good e d D k (jumpTakeMaybeN b n os r) (jumpTakeMaybeN (k + b) n os r') p (fun _ => True) := by
  refine (good_forFrom (Q := fun _ => True) fun j _ hj p => ?_).mono fun _ _ => trivial
  exact good_index (by omega) fun o hm => good_jumpTakeMaybe hb (by have := hn.2 o hm; omega) h

end

/-- A reader whose conclusions survive relocation, with something known about its results. -/
class Reloc (e : Prop) {α : Type} (r : Reader α) (P : outParam (α → Prop)) : Prop where
  good : ∀ {d D : Data} {k : Nat}, Ext d D k → Fits D → ∀ p, Good e d D k r r p P

/-- A reader that is given the position its offsets count from. -/
class RelocFrom (e : Prop) {α : Type} (r : Nat → Reader α) : Prop where
  good : ∀ {d D : Data} {k b : Nat}, Ext d D k → Fits D → k + b < 2 ^ 63 →
    ∀ p, Good e d D k (r b) (r (k + b)) p (fun _ => True)

variable {e : Prop}

instance : Reloc e u8 (fun n => n < 256) := ⟨fun h h' _ => (good_u8 h h').mono fun _ x => x.1⟩
instance : Reloc e u16 (fun n => n < 65536) := ⟨fun h h' _ => (good_u16 h h').mono fun _ x => x.1⟩
instance : Reloc e u32 (fun n => n < 4294967296) := ⟨fun h h' _ => (good_u32 h h').mono fun _ x => x.1⟩
instance : Reloc e i16 (fun _ => True) := ⟨fun h h' _ => good_i16 h h'⟩
instance : Reloc e q32 (fun _ => True) := ⟨fun h h' _ => good_q32 h h'⟩
instance : Reloc e takeTag (fun n => n < 4294967296) :=
  ⟨fun h h' _ => (good_u32 h h').mono fun _ x => x.1⟩
instance {cfg : Cfg} {n : Nat} : Reloc e (flagsU16 cfg n) (fun n => n < 65536) :=
  ⟨fun h h' _ => (good_flagsU16 h h').mono fun _ x => x.1⟩
instance {n : Nat} : Reloc e (expectU16 n) (fun n => n < 65536) :=
  ⟨fun h h' _ => (good_expectU16 h h').mono fun _ x => x.1⟩
instance {α : Type} {r : Reader α} {n : Nat} {P} [h : Reloc e r P] :
    Reloc e (takeVec r n) (fun xs => xs.length = n ∧ ∀ x ∈ xs, P x) :=
  ⟨fun h1 h2 _ => good_takeVec (h.good h1 h2)⟩
instance {α : Type} {r : Reader α} {b : Bool} {P} [h : Reloc e r P] :
    Reloc e (takeIf b r) (fun x => ∀ y, x = some y → P y) :=
  ⟨fun h1 h2 _ => good_takeIf (h.good h1 h2 _)⟩

/-- One step of the analysis of a reader. -/
macro "good_step" hx:term:max hD:term:max : tactic => `(tactic| first
  | refine good_position ?_
  | refine good_bind (good_u16 $hx $hD) fun _ _ ⟨_, _⟩ => ?_
  | refine good_bind (good_u32 $hx $hD) fun _ _ ⟨_, _⟩ => ?_
  | refine good_bind (good_expectU16 $hx $hD) fun _ _ ⟨_, _⟩ => ?_
  | refine good_bind (good_flagsU16 $hx $hD) fun _ _ ⟨_, _⟩ => ?_
  | refine good_bind (good_stay (good_u16 $hx $hD)) fun _ _ ⟨_, _⟩ => ?_
  | refine good_bind (good_stay (good_u32 $hx $hD)) fun _ _ ⟨_, _⟩ => ?_
  | refine good_bind good_raiseIf fun _ _ _ => ?_
  | refine good_subUint (by omega) ?_
  | refine good_addUsize (by omega) ?_
  | refine good_bind (Reloc.good $hx $hD _) fun _ _ _ => ?_
  | refine good_bind (good_jumpTake (by omega) (by omega) (Reloc.good $hx $hD)) fun _ _ _ => ?_
  | refine good_bind (good_jumpTakeMaybe (by omega) (by omega) (Reloc.good $hx $hD)) fun _ _ _ => ?_
  | refine good_bind (good_stay (good_jumpTakeMaybe (by omega) (by omega) (Reloc.good $hx $hD)))
      fun _ _ _ => ?_
  | refine good_bind (good_jumpTakeN (by omega) (by assumption) (by decide)
      (Reloc.good $hx $hD))
      fun _ _ _ => ?_
  | refine good_bind (good_jumpTakeMaybeN (by omega) (by assumption) (by decide)
      (Reloc.good $hx $hD))
      fun _ _ _ => ?_
  | refine good_bind (good_stay (good_jumpTakeN (by omega) (by assumption) (by decide)
      (Reloc.good $hx $hD)))
      fun _ _ _ => ?_
  | refine good_bind (good_stay (good_jumpTakeMaybeN (by omega) (by assumption) (by decide)
      (Reloc.good $hx $hD)))
      fun _ _ _ => ?_
  | exact good_pure trivial
  | exact good_raise)

/-- Prove `Reloc e r (fun _ => True)` for a sequential reader. -/
macro "reloc" r:ident : tactic => `(tactic| (
  constructor
  intro d D k hx hD p
  unfold $r:ident
  repeat good_step hx hD))

/-- Prove `RelocFrom e r`. -/
macro "reloc_from" r:ident : tactic => `(tactic| (
  constructor
  intro d D k b hx hD hb p
  unfold $r:ident
  repeat good_step hx hD))

/-- Prove `Reloc e r (fun _ => True)` for a reader that peeks at a number and dispatches. -/
macro "reloc_enum" r:ident : tactic => `(tactic| (
  constructor
  intro d D k hx hD p
  unfold $r:ident
  good_step hx hD
  split <;> repeat good_step hx hD))

end OpenType
