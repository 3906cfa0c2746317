import Verif.Proof.Basic
import Mathlib.Tactic.CasesM
/-! # Tactics: a reader against its byte layout -/

namespace OpenType
open Spec

theorem Spec.ArrayOf.length {α : Type} {S : Nat → α → Prop} {k p n : Nat} {xs : List α}
    (h : ArrayOf S k p n xs) : xs.length = n := h.1

/-- What a counted jump gives, whatever the number of offsets. -/
def Jumped {α : Type} (r : Reader α) (d : Data) (b n : Nat) (os : List Nat) (xs : List α) : Prop :=
  Reads (jumpTakeN b n os r) d 0 xs

/-- What a counted optional jump gives, whatever the number of offsets. -/
def JumpedMaybe {α : Type} (r : Reader α) (d : Data) (b n : Nat) (os : List Nat)
    (xs : List (Option α)) : Prop :=
  Reads (jumpTakeMaybeN b n os r) d 0 xs

theorem reads_jumped {α : Type} {r : Reader α} {d : Data} {p b n : Nat} {os : List Nat} {xs : List α} :
    Reads (jumpTakeN b n os r) d p xs ↔ Jumped r d b n os xs :=
  ⟨Indep.indep, Indep.indep⟩

theorem reads_jumpedMaybe {α : Type} {r : Reader α} {d : Data} {p b n : Nat} {os : List Nat}
    {xs : List (Option α)} : Reads (jumpTakeMaybeN b n os r) d p xs ↔ JumpedMaybe r d b n os xs :=
  ⟨Indep.indep, Indep.indep⟩

theorem Jumped.iff {α : Type} {r : Reader α} {S} [Parses r S] {d : Data} (hd : Fits d) {b n : Nat}
    {os : List Nat} (hn : os.length = n) {xs : List α} :
    Jumped r d b n os xs ↔ AtOffsets (S d) b os xs := reads_jumpTakeN hd hn

theorem JumpedMaybe.iff {α : Type} {r : Reader α} {S} [Parses r S] {d : Data} (hd : Fits d)
    {b n : Nat} {os : List Nat} (hn : os.length = n) {xs : List (Option α)} :
    JumpedMaybe r d b n os xs ↔ AtOptionalOffsets (S d) b os xs := reads_jumpTakeMaybeN hd hn

instance {α : Type} {r : Reader α} {S} [h : Parses r S] {b o : Nat} :
    Gives (jumpTake b o r) (fun d _ v => S d (b + o) v) := ⟨fun hd => reads_jumpTake hd⟩

instance {α : Type} {r : Reader α} {S} [h : Parses r S] {b o : Nat} :
    Gives (jumpTakeMaybe b o r) (fun d _ v => Optional (S d) b o v) :=
  ⟨fun hd => reads_jumpTakeMaybe hd⟩

instance {α : Type} {r : Reader α} {b n : Nat} {os : List Nat} :
    Gives (jumpTakeN b n os r) (fun d _ v => Jumped r d b n os v) := ⟨fun _ => reads_jumped⟩

instance {α : Type} {r : Reader α} {b n : Nat} {os : List Nat} :
    Gives (jumpTakeMaybeN b n os r) (fun d _ v => JumpedMaybe r d b n os v) :=
  ⟨fun _ => reads_jumpedMaybe⟩

instance : Parses u16 U16 where
  reads hd := reads_fixed hd
  bound := U16.bound

/-- Rewrite a statement about a reader. -/
syntax "reads_simp" term:max (" at " ident)? : tactic
macro_rules
  | `(tactic| reads_simp $hd at $h:ident) => `(tactic|
      simp only [reads_bind_position, reads_bind_raiseIf, reads_bind_subUint, reads_bind_addUsize,
        reads_bind_mulUsize, reads_bind_peek $hd, reads_bind_fixed $hd,
        reads_bind_indep, reads_jumped, reads_jumpedMaybe, reads_jumpTake $hd,
        reads_jumpTakeMaybe $hd, reads_pure, reads_raise, reads_fixed $hd, reads_parses $hd] at $h:ident)
  | `(tactic| reads_simp $hd) => `(tactic|
      simp only [reads_bind_position, reads_bind_raiseIf, reads_bind_subUint, reads_bind_addUsize,
        reads_bind_mulUsize, reads_bind_peek $hd, reads_bind_fixed $hd,
        reads_bind_indep, reads_jumped, reads_jumpedMaybe, reads_jumpTake $hd,
        reads_jumpTakeMaybe $hd, reads_pure, reads_raise, reads_fixed $hd, reads_parses $hd])

/-- Close one conjunct of a layout. -/
macro "layout_close" hd:term:max : tactic => `(tactic|
  first
  | assumption
  | exact (Jumped.iff $hd (ArrayOf.length (by assumption))).mp (by assumption)
  | exact (JumpedMaybe.iff $hd (ArrayOf.length (by assumption))).mp (by assumption)
  | exact (Jumped.iff $hd (ArrayOf.length (by assumption))).mpr (by assumption)
  | exact (JumpedMaybe.iff $hd (ArrayOf.length (by assumption))).mpr (by assumption)
  | (simp only [not_not, not_or, ne_eq] at *; assumption)
  | omega
  | rfl)

/-- Prove `Reads r d p v ↔ IsX d p v`. -/
macro "layout" r:ident s:ident hd:term:max : tactic => `(tactic| (
  constructor
  · intro h
    unfold $r:ident at h
    reads_simp $hd at h
    casesm* ∃ _, _, _ ∧ _
    subst_vars
    unfold $s:ident
    try dsimp only
    with_reducible (repeat' refine And.intro ?_ ?_)
    all_goals layout_close $hd
  · intro h
    unfold $s:ident at h
    try dsimp only at h
    casesm* _ ∧ _
    unfold $r:ident
    reads_simp $hd
    repeat (first
      | refine ⟨_, by layout_close $hd, ?_⟩
      | refine ⟨_, And.intro (by layout_close $hd) (by layout_close $hd), ?_⟩
      | refine And.intro (by layout_close $hd) ?_
      | rfl)))

/-- Prove `r d p = .ok (v, q) ↔ IsX d p v ∧ q = p + size` for a record of a fixed size. -/
macro "layout_fixed" r:ident s:ident hd:term:max : tactic => `(tactic| (
  constructor
  · intro h
    unfold $r:ident at h
    simp only [run_bind, Fixed.run $hd, run_pure] at h
    casesm* ∃ _, _, _ ∧ _
    subst_vars
    unfold $s:ident
    try dsimp only
    with_reducible (repeat' refine And.intro ?_ ?_)
    all_goals layout_close $hd
  · intro h
    unfold $s:ident at h
    try dsimp only at h
    casesm* _ ∧ _
    subst_vars
    unfold $r:ident
    simp only [run_bind, Fixed.run $hd, run_pure]
    repeat (first
      | refine ⟨_, _, ⟨by layout_close $hd, rfl⟩, ?_⟩
      | exact ⟨rfl, by layout_close $hd⟩)))

/-- Prove `Reads r d p v ↔ IsX d p v` for a reader that peeks at a format and dispatches. -/
macro "layout_enum" r:ident s:ident hd:term:max : tactic => `(tactic| (
  constructor
  · intro h
    unfold $r:ident at h
    rw [reads_bind_peek $hd] at h
    obtain ⟨n, hn, h⟩ := h
    split at h <;> reads_simp $hd at h <;> first
      | exact h.elim
      | (obtain ⟨t, ht, hv⟩ := h
         subst hv
         exact And.intro (Eq.symm (hn.unique ht.1)) ht)
  · intro h
    unfold $r:ident
    rw [reads_bind_peek $hd]
    unfold $s:ident at h
    split at h
    all_goals
      refine ⟨_, h.2.1, ?_⟩
      rw [h.1]
      reads_simp $hd
      exact ⟨_, h.2, rfl⟩))

end OpenType
