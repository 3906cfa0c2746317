import Verif.Proof.Lists
import Verif.Proof.RelocTables
import Verif.Proof.DeviceTables
/-!
# The lookup list and the directory for any type of subtable

The lookup list and the directory are generic in the type of the subtables. What is proved here assumes of the
reader of the subtables only what is said, not that it is one of the two in the library.
-/

namespace OpenType
open Spec script feature lookup directory

section
variable {T : Type} {cfg : Cfg} {readTable : Nat → Reader T}

/-! ## Layout -/

theorem reads_jumpTake_near {α : Type} {r : Reader α} {S : Data → Nat → α → Prop} {d : Data}
    (h : ∀ p v, Reads r d p v ↔ S d p v) {p b o : Nat} (hb : b + o < 2 ^ 64) {v : α} :
    Reads (jumpTake b o r) d p v ↔ S d (b + o) v := by
  rw [← h]
  simp only [Reads, run_jumpTake]
  exact ⟨fun ⟨q, _, h⟩ => ⟨q, h⟩, fun ⟨q, h⟩ => ⟨q, hb, h⟩⟩

theorem reads_jumpTakeN_near {α : Type} {r : Reader α} {S : Data → Nat → α → Prop} {d : Data}
    (h : ∀ p v, Reads r d p v ↔ S d p v) {b n : Nat} {os : List Nat} (hn : os.length = n)
    (hb : ∀ o ∈ os, b + o < 2 ^ 64) {xs : List α} : Jumped r d b n os xs ↔ AtOffsets (S d) b os xs := by
  unfold Jumped jumpTakeN AtOffsets
  rw [reads_forFrom]
  simp only [reads_bind_indep, reads_index, Nat.zero_add]
  constructor
  · rintro ⟨hl, hx⟩
    refine ⟨by omega, fun i o x ho hx' => ?_⟩
    obtain ⟨o', ho', h'⟩ := hx i x hx'
    rw [ho] at ho'
    cases ho'
    exact (reads_jumpTake_near h (hb o (List.mem_of_getElem? ho))).mp h'
  · rintro ⟨hl, hx⟩
    refine ⟨by omega, fun i x hx' => ?_⟩
    have := (List.getElem?_eq_some_iff.mp hx').1
    have ho : os[i]? = some os[i] := by simp
    exact ⟨os[i], ho, (reads_jumpTake_near h (hb _ (List.mem_of_getElem? ho))).mpr (hx i _ x ho hx')⟩

theorem offsets_near {d : Data} {p q n : Nat} {os : List Nat} (hd : Fits d) (hp : p < d.length)
    (h : U16s d q n os) : ∀ o ∈ os, p + o < 2 ^ 64 := by
  intro o ho
  obtain ⟨i, hi, rfl⟩ := List.getElem_of_mem ho
  have := (h.2 i _ (List.getElem?_eq_getElem hi)).lt
  unfold Fits at hd
  omega

theorem record_reads {isTable : Nat → Data → Nat → T → Prop} {d : Data} (hd : Fits d)
    (h : ∀ t p v, Reads (readTable t) d p v ↔ isTable t d p v) {p : Nat} {v : lookup.Record T} :
    Reads (lookup.Record.read cfg readTable) d p v ↔ IsLookupRecord cfg isTable d p v := by
  unfold lookup.Record.read IsLookupRecord
  reads_simp hd
  constructor
  · rintro ⟨a, ha, b, hb, c, hc, e, he, f, hf, y, hy, rfl⟩
    exact ⟨ha, hb.1, hb.2, hc, he, takeIf_iff_markFilteringSet.mp hf,
      (reads_jumpTakeN_near (h a) he.1 (offsets_near hd ha.bound he)).mp hy⟩
  · rintro ⟨ha, hb, hb', hc, he, hf, hy⟩
    exact ⟨_, ha, _, ⟨hb, hb'⟩, _, hc, _, he, _, takeIf_iff_markFilteringSet.mpr hf, _,
      (reads_jumpTakeN_near (h _) he.1 (offsets_near hd ha.bound he)).mpr hy, rfl⟩

theorem lookups_reads {isTable : Nat → Data → Nat → T → Prop} {d : Data} (hd : Fits d)
    (h : ∀ t p v, Reads (readTable t) d p v ↔ isTable t d p v) {p : Nat} {v : Lookups T} :
    Reads (Lookups.read cfg readTable) d p v ↔ IsLookups cfg isTable d p v := by
  unfold Lookups.read IsLookups
  reads_simp hd
  constructor
  · rintro ⟨c, hc, e, he, y, hy, rfl⟩
    exact ⟨hc, he, (reads_jumpTakeN_near (S := IsLookupRecord cfg isTable) (fun _ _ => record_reads hd h) he.1
      (offsets_near hd hc.bound he)).mp hy⟩
  · rintro ⟨hc, he, hy⟩
    exact ⟨_, hc, _, he, _, (reads_jumpTakeN_near (S := IsLookupRecord cfg isTable) (fun _ _ => record_reads hd h)
      he.1 (offsets_near hd hc.bound he)).mpr hy, rfl⟩

theorem directory_reads {isTable : Nat → Data → Nat → T → Prop}
    (h : ∀ {d}, Fits d → ∀ t p v, Reads (readTable t) d p v ↔ isTable t d p v) {d : Data} (hd : Fits d) {p : Nat}
    {v : Directory T} : Reads (Directory.read cfg readTable) d p v ↔ IsDirectory cfg isTable d p v := by
  have : Parses (Lookups.read cfg readTable) (IsLookups cfg isTable) :=
    ⟨fun hd => lookups_reads hd (h hd), fun h => h.1.bound⟩
  unfold Directory.read IsDirectory
  reads_simp hd
  simp only [reads_part hd, Decidable.not_not, Prod.mk.injEq]
  constructor
  · rintro ⟨a, ha, b, hb, hv, s, hs, f, hf, l, hl, o, ho, s', hs', f', hf', l', hl', v', hv', rfl⟩
    refine ⟨ha, hb, by dsimp only; omega, by dsimp only; omega, hs, hf, hl, ?_, hs', hf', hl', hv'⟩
    have : (a = 1 ∧ b = 1) ↔ b = 1 := by omega
    simpa only [this] using ho
  · rintro ⟨ha, hb, hv, hv1, hs, hf, hl, ho, hs', hf', hl', hv'⟩
    refine ⟨_, ha, _, hb, by omega, _, hs, _, hf, _, hl, v.variation_offset, ?_, _, hs', _, hf', _, hl',
      _, hv', rfl⟩
    have : (v.major_version = 1 ∧ v.minor_version = 1) ↔ v.minor_version = 1 := by omega
    simpa only [this] using ho

/-! ## The same reader on two tapes -/

variable {e : Prop} {d D : Data} {k : Nat}

theorem good_record (hx : Ext d D k) (hD : Fits D)
    (h : ∀ t p, Good e d D k (readTable t) (readTable t) p (fun _ => True)) (p : Nat) :
    Good e d D k (lookup.Record.read cfg readTable) (lookup.Record.read cfg readTable) p (fun _ => True) := by
  unfold lookup.Record.read
  good_step hx hD
  good_step hx hD
  good_step hx hD
  good_step hx hD
  good_step hx hD
  good_step hx hD
  exact good_bind (good_jumpTakeN (by omega) (by assumption) (by decide) (h _)) fun _ _ _ => good_pure trivial

theorem good_lookups (hx : Ext d D k) (hD : Fits D)
    (h : ∀ t p, Good e d D k (readTable t) (readTable t) p (fun _ => True)) (p : Nat) :
    Good e d D k (Lookups.read cfg readTable) (Lookups.read cfg readTable) p (fun _ => True) := by
  unfold Lookups.read
  good_step hx hD
  good_step hx hD
  good_step hx hD
  exact good_bind (good_jumpTakeN (by omega) (by assumption) (by decide) (good_record hx hD h)) fun _ _ _ =>
    good_pure trivial

theorem good_directory (hx : Ext d D k) (hD : Fits D)
    (h : ∀ t p, Good e d D k (readTable t) (readTable t) p (fun _ => True)) (p : Nat) :
    Good e d D k (Directory.read cfg readTable) (Directory.read cfg readTable) p (fun _ => True) := by
  unfold Directory.read
  good_step hx hD
  good_step hx hD
  good_step hx hD
  good_step hx hD
  good_step hx hD
  good_step hx hD
  good_step hx hD
  good_step hx hD
  refine good_bind (good_part hx hD (by omega) (by omega)) fun _ _ _ => ?_
  refine good_bind (good_part hx hD (by omega) (by omega)) fun _ _ _ => ?_
  refine good_bind (Q := fun _ => True) ?_ fun _ _ _ => ?_
  · unfold part
    split
    · exact good_bind (good_jumpTakeMaybe (by omega) (by omega) (good_lookups hx hD h)) fun _ _ _ => good_pure trivial
    · exact good_jumpTake (by omega) (by omega) (good_lookups hx hD h)
  good_step hx hD
  good_step hx hD

/-! ## Properties that survive sequencing -/

/-- A property of readers that those of the library have and that sequencing preserves. -/
structure Sequential (P : ∀ {α : Type}, Reader α → Prop) : Prop where
  stops : ∀ {α : Type} (r : Reader α) [Stops r], P r
  bind : ∀ {α β : Type} {r : Reader α} {f : α → Reader β}, P r → (∀ a, P (f a)) → P (r >>= f)

variable {P : ∀ {α : Type}, Reader α → Prop}

theorem Sequential.jumpTake (hP : Sequential P) {α : Type} {r : Reader α} (h : P r) {b o : Nat} :
    P (jumpTake b o r) :=
  hP.bind (hP.stops _) fun _ => hP.bind (hP.stops _) fun _ => h

theorem Sequential.jumpTakeMaybe (hP : Sequential P) {α : Type} {r : Reader α} (h : P r) {b o : Nat} :
    P (jumpTakeMaybe b o r) := by
  unfold OpenType.jumpTakeMaybe
  split
  · exact hP.bind (hP.jumpTake h) fun _ => hP.stops _
  · exact hP.stops _

theorem Sequential.jumpTakeN (hP : Sequential P) {α : Type} {r : Reader α} (h : P r) {b n : Nat} {os : List Nat} :
    P (jumpTakeN b n os r) := by
  unfold OpenType.jumpTakeN
  generalize 0 = i
  induction n generalizing i with
  | zero => exact hP.stops (pure [])
  | succ n ih => exact hP.bind (hP.bind (hP.stops _) fun _ => hP.jumpTake h) fun _ => hP.bind (ih _) fun _ => hP.stops _

theorem Sequential.record (hP : Sequential P) (h : ∀ t, P (readTable t)) : P (lookup.Record.read cfg readTable) :=
  hP.bind (hP.stops _) fun _ => hP.bind (hP.stops _) fun _ => hP.bind (hP.stops _) fun _ => hP.bind (hP.stops _)
    fun _ => hP.bind (hP.stops _) fun _ => hP.bind (hP.stops _) fun _ => hP.bind (hP.jumpTakeN (h _)) fun _ =>
      hP.stops _

theorem Sequential.lookups (hP : Sequential P) (h : ∀ t, P (readTable t)) : P (Lookups.read cfg readTable) :=
  hP.bind (hP.stops _) fun _ => hP.bind (hP.stops _) fun _ => hP.bind (hP.stops _) fun _ =>
    hP.bind (hP.jumpTakeN (hP.record h)) fun _ => hP.stops _

theorem Sequential.directory (hP : Sequential P) (h : ∀ t, P (readTable t)) : P (Directory.read cfg readTable) := by
  refine hP.bind (hP.stops _) fun _ => hP.bind (hP.stops _) fun _ => hP.bind (hP.stops _) fun _ =>
    hP.bind (hP.stops _) fun _ => hP.bind (hP.stops _) fun _ => hP.bind (hP.stops _) fun _ =>
    hP.bind (hP.stops _) fun _ => hP.bind (hP.stops _) fun _ => hP.bind (hP.stops _) fun _ =>
    hP.bind (hP.stops _) fun _ => hP.bind ?_ fun _ => hP.stops _
  unfold part
  split
  · exact hP.bind (hP.jumpTakeMaybe (hP.lookups h)) fun _ => hP.stops _
  · exact hP.jumpTake (hP.lookups h)

end
end OpenType
