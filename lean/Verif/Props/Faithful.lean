import Verif.Proof.Safety
import Verif.Props.Sample
/-! # What it means for a reader to be faithful to a byte layout -/

namespace OpenType.Props
open OpenType Spec

/-- A reader returned an `Err`: it ran out of data or refused them. A panic is neither. -/
def Fails {α : Type} (result : Except Err α) : Prop :=
  result = .error .eof ∨ ∃ m, result = .error (.malformed m)

/-- A reader refused the data. -/
def Refuses {α : Type} (result : Except Err α) : Prop := ∃ m, result = .error (.malformed m)

/-- `r` returns `v` exactly when `v` is what is stored at the position, and returns an `Err` when nothing is. -/
def Faithful {α : Type} (r : Reader α) (S : Data → Nat → α → Prop) : Prop :=
  ∀ d p, Fits d → (∀ v, Reads r d p v ↔ S d p v) ∧ ((∀ v, ¬S d p v) → Fails (r d p))

/-- Like `Faithful`, the reader moving the tape by a known number of bytes. -/
def FaithfulMove {α : Type} (r : Reader α) (S : Data → Nat → α → Prop) (size : Nat) : Prop :=
  ∀ d p, Fits d → (∀ v q, r d p = .ok (v, q) ↔ S d p v ∧ q = p + size) ∧
    ((∀ v, ¬S d p v) → Fails (r d p))

theorem fails_of {α : Type} {r : Reader α} {d : Data} {p : Nat} (h : ∀ v, ¬Reads r d p v)
    (hp : ∀ m, r d p ≠ .error (.panic m)) : Fails (r d p) := by
  cases hr : r d p with
  | ok x => exact (h x.1 ⟨x.2, hr⟩).elim
  | error e =>
    cases e with
    | eof => exact .inl rfl
    | malformed m => exact .inr ⟨m, rfl⟩
    | panic m => exact (hp m hr).elim

theorem faithful {α : Type} {r : Reader α} {S P} [h : Parses r S] [Reloc False r P] : Faithful r S := by
  intro d p hd
  refine ⟨fun v => h.reads hd, fun hn => fails_of (fun v hv => hn v ((h.reads hd).mp hv)) ?_⟩
  intro m hm
  exact panic_only_if (e := False) (r := r) hd hm

theorem faithful_move {α : Type} {r : Reader α} {S size P} [h : Fixed r S size] [Reloc False r P] :
    FaithfulMove r S size := by
  intro d p hd
  refine ⟨fun v q => h.run hd, fun hn => fails_of (fun v hv => hn v ((reads_fixed hd).mp hv)) ?_⟩
  intro m hm
  exact panic_only_if (e := False) (r := r) hd hm

/-- What is stored at a position is determined. -/
theorem Faithful.unique {α : Type} {r : Reader α} {S} (h : Faithful r S) {d : Data} (hd : Fits d) {p : Nat}
    {v w : α} (hv : S d p v) (hw : S d p w) : v = w := by
  obtain ⟨q, hq⟩ := ((h d p hd).1 v).mpr hv
  obtain ⟨q', hq'⟩ := ((h d p hd).1 w).mpr hw
  rw [hq] at hq'
  cases hq'
  rfl

theorem Faithful.fails {α : Type} {r : Reader α} {S} (h : Faithful r S) {d : Data} (hd : Fits d) {p : Nat}
    (hn : ∀ v, ¬S d p v) : Fails (r d p) := (h d p hd).2 hn

theorem peek_ok {α : Type} {r : Reader α} {S size} [Fixed r S size] {d : Data} (hd : Fits d) {p : Nat} {v : α}
    (h : S d p v) : peek r d p = .ok (v, p) := by
  unfold peek
  rw [run_stay]
  exact ⟨(reads_fixed hd).mpr h, rfl⟩

/-- `r` peeks at a format and refuses all but the known ones. -/
macro "refuses_format" r:ident hd:term:max h:term:max : tactic => `(tactic| (
  unfold $r:ident
  refine Exists.imp (fun _ => (bind_ok (peek_ok $hd $h)).trans) ?_
  split
  all_goals first
    | exact ⟨_, rfl⟩
    | omega))

end OpenType.Props
