import Verif.Model.Font
import Verif.Spec.Font
import Verif.Proof.Font
/-! # The checksum of a table -/

namespace OpenType.Spec

/-- The sum of the words but those at the skipped places, the first word having place `i`. -/
def sumBut (skip : Nat → Bool) : Nat → List Nat → Nat
  | _, [] => 0
  | i, w :: ws => (if skip i then 0 else w) + sumBut skip (i + 1) ws

end OpenType.Spec

namespace OpenType
open Spec offsets

theorem run_sumWords {skip : Nat → Bool} {i n : Nat} {d : Data} {p s q : Nat} :
    sumWords skip i n d p = .ok (s, q) ↔
      ∃ ws, U32s d p n ws ∧ s = sumBut skip i ws % 4294967296 ∧ q = p + 4 * n := by
  induction n generalizing i p s q with
  | zero =>
    simp only [sumWords, run_pure, arrayOf_zero]
    constructor
    · rintro ⟨rfl, rfl⟩; exact ⟨[], rfl, rfl, rfl⟩
    · rintro ⟨ws, rfl, rfl, rfl⟩; exact ⟨rfl, rfl⟩
  | succ n ih =>
    have hu : ∀ {d p v q}, u32 d p = .ok (v, q) ↔ U32 d p v ∧ q = p + 4 := by
      intro d p v q
      rw [run_u32]
      unfold U32 U16 U8
      cases h : d[p]? with
      | none => simp
      | some a =>
        cases h' : d[p + 1]? with
        | none => simp
        | some b =>
          cases h'' : d[p + 2]? with
          | none => simp
          | some c =>
            cases h''' : d[p + 3]? with
            | none => simp
            | some e =>
              simp [eq_comm]
              intro _
              constructor
              · rintro rfl; omega
              · rintro rfl; omega
    simp only [sumWords, run_bind, hu, ih, run_pure, arrayOf_succ]
    constructor
    · rintro ⟨w, _, ⟨h, rfl⟩, r, _, ⟨ws, h', rfl, rfl⟩, rfl, rfl⟩
      exact ⟨w :: ws, ⟨w, ws, rfl, h, h'⟩, by simp [sumBut], by omega⟩
    · rintro ⟨_, ⟨w, ws, rfl, h, h'⟩, rfl, rfl⟩
      exact ⟨w, _, ⟨h, rfl⟩, _, _, ⟨ws, h', rfl, rfl⟩, by simp [sumBut], by omega⟩

theorem sumBut_set {skip : Nat → Bool} {i k : Nat} {ws ws' : List Nat} (hl : ws.length = ws'.length)
    (hs : skip (i + k) = false) {a b : Nat} (ha : ws[k]? = some a) (hb : ws'[k]? = some b)
    (h : ∀ j, j ≠ k → ws[j]? = ws'[j]?) : sumBut skip i ws + b = sumBut skip i ws' + a := by
  induction ws generalizing i k ws' with
  | nil => simp at ha
  | cons w ws ih =>
    cases ws' with
    | nil => simp at hl
    | cons w' ws' =>
      cases k with
      | zero =>
        simp at ha hb hs
        subst ha hb
        have : ws = ws' := by
          apply List.ext_getElem?
          intro j
          simpa using h (j + 1) (by omega)
        subst this
        simp [sumBut, hs]; omega
      | succ k =>
        have h0 : w = w' := by simpa using h 0 (by omega)
        subst h0
        have := ih (i := i + 1) (k := k) (ws' := ws') (by simpa using hl)
          (by rw [show i + 1 + k = i + (k + 1) by omega]; exact hs) (by simpa using ha)
          (by simpa using hb) (fun j hj => by simpa using h (j + 1) (by omega))
        simp only [sumBut]
        omega

/-- The places the checksum of a table skips: the third word of `head`. -/
def skipped (record : offsets.Record) (i : Nat) : Bool :=
  record.tag == TableType.fontHeader.tag && i == 2

theorem run_tableChecksum {record : offsets.Record} {d : Data} {p s q : Nat} :
    tableChecksum record d p = .ok (s, q) ↔
      (∃ ws, U32s d record.offset ((record.size + 3) / 4) ws ∧
        s = sumBut (skipped record) 0 ws % 4294967296) ∧ q = p := by
  unfold tableChecksum
  rw [run_stay]
  have : ∀ v, Reads (jump record.offset >>= fun _ =>
      sumWords (fun i => record.tag == TableType.fontHeader.tag && i == 2) 0 ((record.size + 3) / 4)) d p v ↔
      ∃ ws, U32s d record.offset ((record.size + 3) / 4) ws ∧
        v = sumBut (skipped record) 0 ws % 4294967296 := by
    intro v
    show (∃ q, sumWords (skipped record) 0 ((record.size + 3) / 4) d record.offset = .ok (v, q)) ↔ _
    simp only [run_sumWords]
    constructor
    · rintro ⟨q, ws, h, h', rfl⟩; exact ⟨ws, h, h'⟩
    · rintro ⟨ws, h, h'⟩; exact ⟨_, ws, h, h', rfl⟩
  rw [this]

theorem u32s_unique {d : Data} {p n : Nat} {ws ws' : List Nat} (h : U32s d p n ws) (h' : U32s d p n ws') :
    ws = ws' := by
  apply List.ext_getElem
  · rw [h.1, h'.1]
  · intro i h1 h2
    exact (h.2 i _ (by simp [h1])).unique (h'.2 i _ (by simp [h2]))

theorem u32_congr {d d' : Data} {p n : Nat} (h : ∀ q, p ≤ q → q < p + 4 → d'[q]? = d[q]?)
    (hu : U32 d p n) : U32 d' p n := by
  unfold U32 U16 U8 at *
  obtain ⟨a, b, ⟨a1, a2, ⟨x1, e1, rfl⟩, ⟨x2, e2, rfl⟩, rfl⟩, ⟨b1, b2, ⟨x3, e3, rfl⟩, ⟨x4, e4, rfl⟩, rfl⟩, rfl⟩ :=
    hu
  refine ⟨_, _, ⟨_, _, ⟨x1, ?_, rfl⟩, ⟨x2, ?_, rfl⟩, rfl⟩, ⟨_, _, ⟨x3, ?_, rfl⟩, ⟨x4, ?_, rfl⟩, rfl⟩, rfl⟩
  · rw [h _ (by omega) (by omega)]; exact e1
  · rw [h _ (by omega) (by omega)]; exact e2
  · rw [h _ (by omega) (by omega)]; exact e3
  · rw [h _ (by omega) (by omega)]; exact e4

end OpenType
